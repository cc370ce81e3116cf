import Verif.Proofs.Matrix
import Verif.FltReal
import Mathlib.LinearAlgebra.Matrix.Determinant.Basic
import Mathlib.LinearAlgebra.Matrix.Adjugate
import Mathlib.LinearAlgebra.Matrix.NonsingularInverse
/-
The matrix routines over the reals, in terms of Mathlib's matrices.
-/
namespace Skillratings
namespace TrueSkill
namespace Matrix
open scoped _root_.Matrix

/-- A mathematical matrix as the crate stores it: row by row in one vector. -/
noncomputable def ofM {R C : ℕ} (M : _root_.Matrix (Fin R) (Fin C) ℝ) : Matrix ℝ :=
  { data := (List.ofFn fun i => List.ofFn fun j => M i j).flatten, rows := R, cols := C }

/-- The entries of a mathematical matrix, extended by zero. -/
noncomputable def ext {R C : ℕ} (M : _root_.Matrix (Fin R) (Fin C) ℝ) (i j : ℕ) : ℝ :=
  if h : i < R ∧ j < C then M ⟨i, h.1⟩ ⟨j, h.2⟩ else 0

theorem ext_val {R C : ℕ} (M : _root_.Matrix (Fin R) (Fin C) ℝ) (i : Fin R) (j : Fin C) :
    ext M i j = M i j := by
  rw [ext, dif_pos ⟨i.2, j.2⟩]

theorem ext_lt {R C : ℕ} (M : _root_.Matrix (Fin R) (Fin C) ℝ) {i j : ℕ} (hi : i < R)
    (hj : j < C) : ext M i j = M ⟨i, hi⟩ ⟨j, hj⟩ := by
  rw [ext, dif_pos ⟨hi, hj⟩]

theorem rowmajor_eq (R C : ℕ) (g : ℕ → ℕ → ℝ) :
    (List.ofFn fun i : Fin R => List.ofFn fun j : Fin C => g i j).flatten =
      (List.range (R * C)).map fun k => g (k / C) (k % C) := by
  induction R with
  | zero => simp
  | succ n ih =>
    rw [List.ofFn_succ', List.concat_eq_append, List.flatten_append]
    simp only [Fin.val_castSucc, Fin.val_last, List.flatten_cons, List.flatten_nil,
      List.append_nil]
    rw [ih, Nat.succ_mul, List.range_add, List.map_append]
    congr 1
    apply List.ext_getElem
    · simp
    · intro j h1 h2
      have hj : j < C := by simpa using h1
      simp only [List.getElem_ofFn, List.getElem_map, List.getElem_range]
      rw [flat_div hj, flat_mod hj]

theorem ofM_eq {R C : ℕ} (M : _root_.Matrix (Fin R) (Fin C) ℝ) : ofM M = mk' R C (ext M) := by
  rw [ofM, mk', ← rowmajor_eq]
  simp only [ext_val]

theorem mk'_eq_ofM (R C : ℕ) (g : ℕ → ℕ → ℝ) :
    mk' R C g = ofM (_root_.Matrix.of fun (i : Fin R) (j : Fin C) => g i j) := by
  rw [ofM_eq]
  apply mk'_congr
  intro i hi j hj
  rw [ext_lt _ hi hj]
  rfl

theorem dot_real (n : ℕ) (t : ℕ → ℝ) : dot n t = ∑ k : Fin n, t k := by
  rw [dot]
  have : ∀ (n : ℕ) (a : ℝ), (List.range n).foldl (fun s k => s + t k) a = a + ∑ k : Fin n, t k := by
    intro n
    induction n with
    | zero => intro a; simp
    | succ n ih =>
      intro a
      rw [List.range_succ, List.foldl_append, ih, Fin.sum_univ_castSucc]
      simp only [List.foldl_cons, List.foldl_nil, Fin.val_castSucc, Fin.val_last, add_assoc]
  rw [this]; norm_num

theorem transpose_ofM {R C : ℕ} (M : _root_.Matrix (Fin R) (Fin C) ℝ) :
    (ofM M).transpose = .ok (ofM Mᵀ) := by
  rw [ofM_eq, transpose_mk', mk'_eq_ofM]
  simp only [ext_val]
  rfl

theorem scale_ofM {R C : ℕ} (M : _root_.Matrix (Fin R) (Fin C) ℝ) (x : ℝ) :
    (ofM M).scale x = .ok (ofM (x • M)) := by
  rw [ofM_eq, scale_mk', mk'_eq_ofM]
  simp only [ext_val]
  congr 2
  funext i j
  simp [mul_comm]

theorem add_ofM {R C : ℕ} (M N : _root_.Matrix (Fin R) (Fin C) ℝ) :
    (ofM M).add (ofM N) = .ok (ofM (M + N)) := by
  rw [ofM_eq, ofM_eq, add_mk', mk'_eq_ofM]
  simp only [ext_val]
  rfl

theorem mul_ofM {R K C : ℕ} (M : _root_.Matrix (Fin R) (Fin K) ℝ)
    (N : _root_.Matrix (Fin K) (Fin C) ℝ) : (ofM M).mul (ofM N) = .ok (ofM (M * N)) := by
  rw [ofM_eq, ofM_eq, mul_mk', mk'_eq_ofM]
  simp only [dot_real, ext_val]
  rfl

theorem mul_ofM_transposed {R K C : ℕ} (M : _root_.Matrix (Fin K) (Fin R) ℝ)
    (N : _root_.Matrix (Fin C) (Fin K) ℝ) (h : R ≠ C) :
    (ofM M).mul (ofM N) = .ok (ofM (Mᵀ * Nᵀ)) := by
  rw [ofM_eq, ofM_eq, mul_mk'_transposed R K C _ _ h, mk'_eq_ofM]
  simp only [dot_real, ext_val]
  rfl

theorem skip_fin {n : ℕ} (r : Fin (n + 1)) (a : Fin n) : skip r a = (r.succAbove a : ℕ) := by
  rw [skip, Fin.succAbove]
  split_ifs with h1 h2 h2
  · simp
  · exact absurd (Fin.lt_def.2 (by simpa using h1)) h2
  · exact absurd (by simpa using Fin.lt_def.1 h2) h1
  · simp

theorem minor_ofM {R C : ℕ} (M : _root_.Matrix (Fin (R + 1)) (Fin (C + 1)) ℝ) (r : Fin (R + 1))
    (c : Fin (C + 1)) :
    (ofM M).minor r c = .ok (ofM (M.submatrix r.succAbove c.succAbove)) := by
  rw [ofM_eq, minor_mk' R C (ext M) r c r.2 c.2, mk'_eq_ofM]
  simp only [skip_fin, ext_val]
  rfl

theorem det_ofM {n : ℕ} (M : _root_.Matrix (Fin (n + 1)) (Fin (n + 1)) ℝ) :
    Matrix.det (n + 1) (ofM M) = .ok M.det := by
  induction n with
  | zero =>
    rw [Matrix.det, ofM_eq, get_mk' _ Nat.zero_lt_one Nat.zero_lt_one]
    rw [ext_lt _ Nat.zero_lt_one Nat.zero_lt_one, Matrix.det_fin_one M]
    rfl
  | succ n ih =>
    rw [Matrix.det, Matrix.det_succ_row_zero]
    rw [sumLoop_ok (n + 2) _ (fun k => if h : k < n + 2 then
      (-1) ^ k * M 0 ⟨k, h⟩ * (M.submatrix Fin.succ (Fin.succAbove ⟨k, h⟩)).det else 0)]
    · congr 1
      rw [show ∀ t : ℕ → ℝ, (List.range (n + 2)).foldl (fun s k => s + t k) (0.0 : ℝ) = dot (n + 2) t
        from fun _ => rfl, dot_real]
      apply Finset.sum_congr rfl
      intro k _
      rw [dif_pos k.2]
    · intro k hk
      have e1 : (ofM M).get 0 k = .ok (M 0 ⟨k, hk⟩) := by
        rw [ofM_eq, get_mk' _ (by omega) hk, ext_lt _ (by omega) hk]; rfl
      have e2 := minor_ofM M 0 ⟨k, hk⟩
      simp only [Fin.val_zero] at e2
      rw [e1, e2]
      simp only [dif_pos hk]
      have e3 := ih (M.submatrix (Fin.succAbove 0) (Fin.succAbove ⟨k, hk⟩))
      change (do
        return (M 0 ⟨k, hk⟩) * (← Matrix.det (n + 1)
          (ofM (M.submatrix (Fin.succAbove 0) (Fin.succAbove ⟨k, hk⟩)))) *
          Flt.powi (-1.0) (k : ℤ) : Except Panic ℝ) = _
      rw [e3]
      change Except.ok _ = Except.ok _
      congr 1
      rw [Fin.succAbove_zero]
      simp only [flt]
      ring

theorem determinant_ofM {n : ℕ} (hn : 0 < n) (M : _root_.Matrix (Fin n) (Fin n) ℝ) :
    (ofM M).determinant = .ok M.det := by
  obtain ⟨n, rfl⟩ : ∃ k, n = k + 1 := ⟨n - 1, by omega⟩
  rw [determinant]
  have : ¬ (ofM M).rows ≠ (ofM M).cols := fun h => h rfl
  rw [if_neg this]
  exact det_ofM M

theorem adjugate_ofM {n : ℕ} (M : _root_.Matrix (Fin (n + 2)) (Fin (n + 2)) ℝ) :
    (ofM M).adjugate = .ok (ofM M.adjugate) := by
  rw [adjugate, new_eq]
  change forLoops (n + 2) (n + 2) (mk' (n + 2) (n + 2) _) _ = _
  rw [ofM_eq M.adjugate]
  apply forLoops_fill
  intro m _ i hi j hj
  have e := minor_ofM M ⟨j, hj⟩ ⟨i, hi⟩
  simp only at e
  rw [e]
  change (do m.set i j ((← (ofM (M.submatrix (Fin.succAbove ⟨j, hj⟩) (Fin.succAbove ⟨i, hi⟩))).determinant)
    * Flt.powi (-1.0) ((i + j : ℕ) : ℤ)) : Except Panic (Matrix ℝ)) = _
  rw [determinant_ofM (Nat.succ_pos n)]
  change m.set i j _ = m.set i j _
  congr 1
  rw [ext_lt _ hi hj, Matrix.adjugate_fin_succ_eq_det_submatrix]
  simp only [flt]
  rw [Nat.add_comm i j]
  ring

theorem inverse_ofM {n : ℕ} (M : _root_.Matrix (Fin (n + 2)) (Fin (n + 2)) ℝ) (h : M.det ≠ 0) :
    (ofM M).inverse = .ok (ofM M⁻¹) := by
  rw [inverse, determinant_ofM (Nat.succ_pos _)]
  change (if (M.det ==? (0.0 : ℝ)) = true then _ else do (← (ofM M).adjugate).scale (Flt.recip M.det)
    : Except Panic (Matrix ℝ)) = _
  rw [if_neg (by simp only [flt]; exact h), adjugate_ofM]
  change (ofM M.adjugate).scale _ = _
  rw [scale_ofM, Matrix.inv_def, Ring.inverse_eq_inv']
  simp only [flt]

theorem inverse_singular {n : ℕ} (hn : 0 < n) (M : _root_.Matrix (Fin n) (Fin n) ℝ) (h : M.det = 0) :
    (ofM M).inverse = .error .notInvertible := by
  rw [inverse, determinant_ofM hn]
  change (if (M.det ==? (0.0 : ℝ)) = true then _ else do (← (ofM M).adjugate).scale (Flt.recip M.det)
    : Except Panic (Matrix ℝ)) = _
  rw [if_pos (by simp only [flt]; exact h)]

theorem determinant_empty (M : _root_.Matrix (Fin 0) (Fin 0) ℝ) :
    (ofM M).determinant = .ok 0 := by
  rw [determinant, if_neg (fun h => h rfl)]
  change Matrix.det 0 _ = _
  rw [Matrix.det]; simp only [flt]

/-- The `1 × 1` case: the adjugate is zero instead of one. -/
theorem inverse_one (M : _root_.Matrix (Fin 1) (Fin 1) ℝ) (h : M.det ≠ 0) :
    (ofM M).inverse = .ok (ofM (0 : _root_.Matrix (Fin 1) (Fin 1) ℝ)) := by
  rw [inverse, determinant_ofM Nat.one_pos]
  change (if (M.det ==? (0.0 : ℝ)) = true then _ else do (← (ofM M).adjugate).scale (Flt.recip M.det)
    : Except Panic (Matrix ℝ)) = _
  rw [if_neg (by simp only [flt]; exact h)]
  have hadj : (ofM M).adjugate = .ok (ofM (0 : _root_.Matrix (Fin 1) (Fin 1) ℝ)) := by
    rw [adjugate, new_eq]
    change forLoops 1 1 (mk' 1 1 _) _ = _
    rw [ofM_eq (0 : _root_.Matrix (Fin 1) (Fin 1) ℝ)]
    apply forLoops_fill
    intro m _ i hi j hj
    have e := minor_ofM M ⟨j, hj⟩ ⟨i, hi⟩
    simp only at e
    rw [e]
    change (do m.set i j ((← (ofM (M.submatrix (Fin.succAbove ⟨j, hj⟩)
      (Fin.succAbove ⟨i, hi⟩))).determinant) * Flt.powi (-1.0) ((i + j : ℕ) : ℤ))
      : Except Panic (Matrix ℝ)) = _
    rw [determinant_empty]
    change m.set i j _ = m.set i j _
    congr 1
    rw [ext_lt _ hi hj]
    simp
  rw [hadj]
  change (ofM _).scale _ = _
  rw [scale_ofM, smul_zero]

end Matrix
end TrueSkill
end Skillratings
