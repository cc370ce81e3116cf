import Verif.Spec.Quality
import Verif.Proofs.MatrixReal
import Verif.Proofs.Weights
import Verif.Proofs.Gram
import Verif.Model.TrueSkill
/-
`match_quality_multi_team` computes the published formula (C74).
-/
namespace Skillratings
namespace TrueSkill
open Spec
open scoped _root_.Matrix

/-- The weights fit the teams. -/
def Fits (teams : List (List (TrueSkillRating ℝ))) (ws : List (List ℝ)) : Prop :=
  List.Forall₂ (fun t w => w.length = t.length) teams ws

section lists
variable {teams : List (List (TrueSkillRating ℝ))} {ws : List (List ℝ)}

theorem segments_map {α : Type} (f : TrueSkillRating ℝ → α) (g : QPlayer → α)
    (hfg : ∀ i x, ∀ p : TrueSkillRating ℝ, g ⟨i, x, p.rating, p.uncertainty⟩ = f p) (k : ℕ) :
    ∀ {teams : List (List (TrueSkillRating ℝ))} {ws : List (List ℝ)}, Fits teams ws → ∀ k,
    (((teams.zip ws).zipIdx k).flatMap qTeam).map g = teams.flatMap fun t => t.map f := by
  intro teams ws h
  induction h with
  | nil => intro k; simp
  | @cons t w teams ws htw _ ih =>
    intro k
    simp only [List.zip_cons_cons, List.zipIdx_cons, List.flatMap_cons, List.map_append, ih]
    congr 1
    rw [qTeam, List.map_map]
    apply List.ext_getElem
    · simp [htw]
    · intro i h1 h2
      simp [hfg]

theorem qPlayers_length (h : Fits teams ws) :
    (qPlayers teams ws).length = (teams.map List.length).sum := by
  have := congrArg List.length (segments_map (fun _ => ()) (fun _ => ()) (fun _ _ _ => rfl) 0 h 0)
  rw [List.length_map] at this
  rw [qPlayers, this, List.length_flatMap]
  simp

/-- Before, at, and after the two teams of a row. -/
theorem segment_coef_lt {t : List (TrueSkillRating ℝ)} {w : List ℝ} (hw : w.length = t.length)
    (i r : ℕ) (h1 : i ≠ r) (h2 : i ≠ r + 1) :
    (qTeam ((t, w), i)).map (fun p => p.coef r) = List.replicate t.length 0 := by
  rw [List.eq_replicate_iff]
  constructor
  · simp [qTeam, hw]
  · intro x hx
    simp only [qTeam, List.map_map, List.mem_map, Function.comp] at hx
    obtain ⟨y, -, rfl⟩ := hx
    simp [QPlayer.coef, h1, h2]

theorem segment_coef_eq {t : List (TrueSkillRating ℝ)} {w : List ℝ} (hw : w.length = t.length)
    (i : ℕ) : (qTeam ((t, w), i)).map (fun p => p.coef i) = w := by
  apply List.ext_getElem
  · simp [qTeam, hw]
  · intro j h1 h2
    simp [qTeam, QPlayer.coef]

theorem segment_coef_succ {t : List (TrueSkillRating ℝ)} {w : List ℝ} (hw : w.length = t.length)
    (i : ℕ) : (qTeam ((t, w), i + 1)).map (fun p => p.coef i) = w.map fun x => -x := by
  apply List.ext_getElem
  · simp [qTeam, hw]
  · intro j h1 h2
    simp [qTeam, QPlayer.coef]

/-- Teams far from row `r` contribute zeros. -/
theorem segments_zero (r : ℕ) : ∀ {teams : List (List (TrueSkillRating ℝ))} {ws : List (List ℝ)},
    Fits teams ws → ∀ k, (∀ i < teams.length, k + i ≠ r ∧ k + i ≠ r + 1) →
    (((teams.zip ws).zipIdx k).flatMap qTeam).map (fun p => p.coef r) =
      List.replicate (teams.map List.length).sum 0 := by
  intro teams ws h
  induction h with
  | nil => intro k _; simp
  | @cons t w teams ws htw _ ih =>
    intro k hk
    simp only [List.zip_cons_cons, List.zipIdx_cons, List.flatMap_cons, List.map_append,
      List.map_cons, List.sum_cons]
    rw [ih (k + 1) (fun i hi => by
      have := hk (i + 1) (by simpa using hi)
      rw [show k + 1 + i = k + (i + 1) by omega]; exact this),
      segment_coef_lt htw k r (hk 0 (by simp)).1 (hk 0 (by simp)).2]
    rw [List.replicate_append_replicate]

/-- A row of the difference matrix. -/
theorem row_eq (r : ℕ) : ∀ {teams : List (List (TrueSkillRating ℝ))} {ws : List (List ℝ)},
    Fits teams ws → ∀ k, k ≤ r → ∀ t t' w w', teams[r - k]? = some t →
    teams[r - k + 1]? = some t' → ws[r - k]? = some w → ws[r - k + 1]? = some w' →
    (((teams.zip ws).zipIdx k).flatMap qTeam).map (fun p => p.coef r) =
      List.replicate ((teams.take (r - k)).map List.length).sum 0 ++ w ++ w'.map (fun x => -x) ++
        List.replicate ((teams.map List.length).sum
          - (((teams.take (r - k)).map List.length).sum + t.length) - t'.length) 0 := by
  intro teams ws h
  induction h with
  | nil => intro k _ t t' w w' ht; simp at ht
  | @cons a b teams ws hab hrest ih =>
    intro k hk t t' w w' ht ht' hw hw'
    simp only [List.zip_cons_cons, List.zipIdx_cons, List.flatMap_cons, List.map_append]
    rcases Nat.lt_or_ge k r with hlt | hge
    · obtain ⟨d, hd⟩ : ∃ d, r - k = d + 1 := ⟨r - k - 1, by omega⟩
      have hd' : r - (k + 1) = d := by omega
      rw [hd] at ht ht' hw hw' ⊢
      simp only [List.getElem?_cons_succ] at ht ht' hw hw'
      have := ih (k + 1) hlt t t' w w' (by rw [hd']; exact ht) (by rw [hd']; exact ht')
        (by rw [hd']; exact hw) (by rw [hd']; exact hw')
      rw [this, hd', segment_coef_lt hab k r (by omega) (by omega)]
      simp only [List.take_succ_cons, List.map_cons, List.sum_cons]
      rw [← List.append_assoc, ← List.append_assoc, ← List.append_assoc,
        List.replicate_append_replicate]
      congr 2
      omega
    · obtain rfl : k = r := by omega
      simp only [Nat.sub_self, List.getElem?_cons_zero, Option.some.injEq, Nat.zero_add,
        List.getElem?_cons_succ] at ht ht' hw hw'
      subst ht hw
      cases hrest with
      | nil => simp at ht'
      | @cons c d teams ws hcd hrest =>
        simp only [List.getElem?_cons_zero, Option.some.injEq] at ht' hw'
        subst ht' hw'
        simp only [List.zip_cons_cons, List.zipIdx_cons, List.flatMap_cons, List.map_append]
        rw [segment_coef_eq hab, segment_coef_succ hcd, segments_zero k hrest (k + 1 + 1)
          (fun i _ => by omega)]
        simp only [Nat.sub_self, List.take_zero, List.map_nil, List.sum_nil, List.replicate_zero,
          List.nil_append, List.map_cons, List.sum_cons, Nat.zero_add]
        rw [List.append_assoc]
        congr 3
        omega

end lists

/-! ### The difference matrix -/

theorem mapM_ok {α β : Type} (l : List α) (f : α → Except Panic β) (g : α → β)
    (h : ∀ a ∈ l, f a = .ok (g a)) : l.mapM f = .ok (l.map g) := by
  induction l with
  | nil => rfl
  | cons a l ih =>
    rw [List.mapM_cons, h a (by simp), ih (fun x hx => h x (List.mem_cons_of_mem _ hx))]
    rfl

theorem index_some {α : Type} {l : List α} {i : ℕ} {x : α} (h : l[i]? = some x) :
    index l i = .ok x := by
  rw [index, h]

theorem mapM_weights (weights : List (List ℝ)) (col n : ℕ) (w : List ℝ) (hw : weights[col]? = some w)
    (hn : w.length = n) :
    ((List.range n).mapM fun i => do index (← index weights col) i) = .ok w := by
  rw [mapM_ok _ _ (fun i => w.getD i 0)]
  · congr 1
    apply List.ext_getElem
    · simp [hn]
    · intro i h1 h2
      simp [h2]
  · intro i hi
    rw [List.mem_range] at hi
    rw [index_some hw]
    change index w i = _
    rw [index_some (List.getElem?_eq_getElem (by omega : i < w.length))]
    simp [hn, hi]

theorem mapM_neg_weights (weights : List (List ℝ)) (col n : ℕ) (w : List ℝ)
    (hw : weights[col]? = some w) (hn : w.length = n) :
    ((List.range n).mapM fun i => do return -(← index (← index weights col) i)) =
      .ok (w.map fun x => -x) := by
  rw [mapM_ok _ _ (fun i => -w.getD i 0)]
  · congr 1
    apply List.ext_getElem
    · simp [hn]
    · intro i h1 h2
      have : i < w.length := by simpa using h2
      simp [this]
  · intro i hi
    rw [List.mem_range] at hi
    rw [index_some hw]
    change (do return -(← index w i)) = _
    rw [index_some (List.getElem?_eq_getElem (by omega : i < w.length))]
    simp only [List.getD_eq_getElem?_getD, List.getElem?_eq_getElem (by omega : i < w.length),
      Option.getD_some]
    rfl

theorem fits_getElem {teams : List (List (TrueSkillRating ℝ))} {ws : List (List ℝ)}
    (h : Fits teams ws) (i : ℕ) (hi : i < teams.length) :
    ∃ t w, teams[i]? = some t ∧ ws[i]? = some w ∧ w.length = t.length := by
  obtain ⟨hl, hall⟩ := List.forall₂_iff_get.1 h
  refine ⟨teams[i], ws[i]'(by omega), List.getElem?_eq_getElem hi,
    List.getElem?_eq_getElem (by omega), ?_⟩
  exact hall i hi (by omega)

theorem take_sum_succ {teams : List (List (TrueSkillRating ℝ))} {i : ℕ}
    {t : List (TrueSkillRating ℝ)} (ht : teams[i]? = some t) :
    ((teams.take (i + 1)).map List.length).sum =
      ((teams.take i).map List.length).sum + t.length := by
  rw [List.take_add_one, ht]
  simp

theorem rot_loop {teams : List (List (TrueSkillRating ℝ))} {ws : List (List ℝ)}
    (h : Fits teams ws) : ∀ k, k < teams.length →
    (List.range k).foldlM (Matrix.rotStep teams ws (teams.map List.length).sum)
      { assignments := [], previous := 0 } = .ok
      { assignments := (List.range k).flatMap fun r => (qPlayers teams ws).map fun p => p.coef r
        previous := ((teams.take k).map List.length).sum } := by
  intro k
  induction k with
  | zero => intro _; rfl
  | succ k ih =>
    intro hk
    rw [List.range_succ, List.foldlM_append, ih (by omega)]
    change Matrix.rotStep teams ws _ _ k >>= pure = _
    obtain ⟨t, w, ht, hw, hwl⟩ := fits_getElem h k (by omega)
    obtain ⟨t', w', ht', hw', hwl'⟩ := fits_getElem h (k + 1) (by omega)
    have hrow := row_eq k h 0 (Nat.zero_le k) t t' w w' (by simpa using ht) (by simpa using ht')
      (by simpa using hw) (by simpa using hw')
    simp only [Nat.sub_zero] at hrow
    rw [Matrix.rotStep, index_some ht]
    change ((do
      let currentAssignments ← (List.range t.length).mapM fun i => do index (← index ws k) i
      let previous := ((teams.take k).map List.length).sum + t.length
      let next ← index teams (k + 1)
      let nextAssignments ← (List.range next.length).mapM fun i => do
        return -(← index (← index ws (k + 1)) i)
      let remaining := (teams.map List.length).sum - previous - next.length
      return {
        assignments := ((List.range k).flatMap fun r => (qPlayers teams ws).map fun p => p.coef r)
          ++ List.replicate ((teams.take k).map List.length).sum 0.0
          ++ currentAssignments
          ++ nextAssignments
          ++ List.replicate remaining 0.0
        previous } : Except Panic (Matrix.RotState ℝ)) >>= pure) = _
    rw [mapM_weights ws k t.length w hw hwl, index_some ht']
    change ((do
      let nextAssignments ← (List.range t'.length).mapM fun i => do
        return -(← index (← index ws (k + 1)) i)
      return {
        assignments := ((List.range k).flatMap fun r => (qPlayers teams ws).map fun p => p.coef r)
          ++ List.replicate ((teams.take k).map List.length).sum 0.0
          ++ w
          ++ nextAssignments
          ++ List.replicate ((teams.map List.length).sum - (((teams.take k).map List.length).sum
              + t.length) - t'.length) 0.0
        previous := ((teams.take k).map List.length).sum + t.length }
        : Except Panic (Matrix.RotState ℝ)) >>= pure) = _
    rw [mapM_neg_weights ws (k + 1) t'.length w' hw' hwl']
    change Except.ok _ = Except.ok _
    rw [take_sum_succ ht, List.flatMap_append, List.flatMap_singleton, qPlayers, hrow]
    simp only [Flt.lit_0, List.append_assoc]

theorem createRotatedAMatrix_eq {teams : List (List (TrueSkillRating ℝ))}
    {w : Option (List (List ℝ))} {ws : List (List ℝ)} (h0 : teams ≠ [])
    (hw : getWeights teams w = .ok ws) (h : Fits teams ws) :
    Matrix.createRotatedAMatrix teams w =
      .ok (.ok (Matrix.ofM (qA (teams.length - 1) (qPlayers teams ws)))) := by
  have hlen : 0 < teams.length := List.length_pos_iff.2 h0
  rw [Matrix.createRotatedAMatrix, hw]
  simp only [rot_loop h (teams.length - 1) (by omega)]
  rw [Matrix.newFromData, Matrix.ofM, ← qPlayers_length h]
  congr 3
  rw [List.flatMap_def]
  congr 1
  apply List.ext_getElem
  · simp
  · intro r h1 h2
    simp only [List.getElem_map, List.getElem_range, List.getElem_ofFn]
    apply List.ext_getElem
    · simp
    · intro p h3 h4
      simp [qA]

/-! ### The formula -/

section formula
open Matrix (ofM)
variable {k N : ℕ}

/-- `β² A Aᵀ` and `β² A Aᵀ + A Σ Aᵀ` -/
theorem quality_formula (A : _root_.Matrix (Fin (k + 2)) (Fin N) ℝ) (μ s : Fin N → ℝ) (b : ℝ)
    (h : (b • (A * Aᵀ) + A * _root_.Matrix.diagonal s * Aᵀ).det ≠ 0) :
    matchQualityMatrix (ofM (_root_.Matrix.of fun i (_ : Fin 1) => μ i))
      (ofM (_root_.Matrix.diagonal s)) (ofM A) b =
    .ok (Real.exp (-(1 / 2) * ((A *ᵥ μ) ⬝ᵥ
        ((b • (A * Aᵀ) + A * _root_.Matrix.diagonal s * Aᵀ)⁻¹ *ᵥ (A *ᵥ μ))))
      * √((b • (A * Aᵀ)).det / (b • (A * Aᵀ) + A * _root_.Matrix.diagonal s * Aᵀ).det)) := by
  set M := b • (A * Aᵀ) + A * _root_.Matrix.diagonal s * Aᵀ with hM
  set m := _root_.Matrix.of fun i (_ : Fin 1) => μ i with hm
  have h1 : (ofM A).transpose = .ok (ofM Aᵀ) := Matrix.transpose_ofM A
  have h2 : (ofM A).mul (ofM Aᵀ) = .ok (ofM (A * Aᵀ)) := Matrix.mul_ofM _ _
  have h3 : (ofM (A * Aᵀ)).scale b = .ok (ofM (b • (A * Aᵀ))) := Matrix.scale_ofM _ _
  have h4 : (ofM A).mul (ofM (_root_.Matrix.diagonal s)) = .ok (ofM (A * _root_.Matrix.diagonal s)) :=
    Matrix.mul_ofM _ _
  have h5 : (ofM (A * _root_.Matrix.diagonal s)).mul (ofM Aᵀ) =
      .ok (ofM (A * _root_.Matrix.diagonal s * Aᵀ)) := Matrix.mul_ofM _ _
  have h6 : (ofM m).transpose = .ok (ofM mᵀ) := Matrix.transpose_ofM m
  have h7 : (ofM Aᵀ).mul (ofM mᵀ) = .ok (ofM (A * m)) := by
    rw [Matrix.mul_ofM_transposed _ _ (by omega)]; simp
  have h8 : (ofM (b • (A * Aᵀ))).add (ofM (A * _root_.Matrix.diagonal s * Aᵀ)) = .ok (ofM M) :=
    Matrix.add_ofM _ _
  have h9 : (ofM A).mul (ofM m) = .ok (ofM (A * m)) := Matrix.mul_ofM _ _
  have h10 : (ofM M).inverse = .ok (ofM M⁻¹) := Matrix.inverse_ofM M h
  have h11 : (ofM (A * m)).mul (ofM M⁻¹) = .ok (ofM ((A * m)ᵀ * M⁻¹ᵀ)) :=
    Matrix.mul_ofM_transposed _ _ (by omega)
  have h12 : (ofM ((A * m)ᵀ * M⁻¹ᵀ)).mul (ofM (A * m)) = .ok (ofM ((A * m)ᵀ * M⁻¹ᵀ * (A * m))) :=
    Matrix.mul_ofM _ _
  have h13 := Matrix.scale_ofM ((A * m)ᵀ * M⁻¹ᵀ * (A * m)) (-0.5 : ℝ)
  have h14 := Matrix.determinant_ofM Nat.one_pos ((-0.5 : ℝ) • ((A * m)ᵀ * M⁻¹ᵀ * (A * m)))
  have h15 := Matrix.determinant_ofM (Nat.succ_pos (k + 1)) (b • (A * Aᵀ))
  have h16 := Matrix.determinant_ofM (Nat.succ_pos (k + 1)) M
  simp only [matchQualityMatrix, h1, h2, h3, h4, h5, h6, h7, h8, h9, h10, h11, h12, h13, h14, h15,
    h16, bind, Except.bind, pure, Except.pure]
  congr 1
  simp only [flt]
  have hAm : ∀ i j, (A * m) i j = (A *ᵥ μ) i := fun i j => rfl
  congr 2
  rw [_root_.Matrix.det_fin_one, _root_.Matrix.smul_apply, smul_eq_mul]
  congr 1
  rw [← _root_.Matrix.transpose_mul, _root_.Matrix.mul_apply, dotProduct]
  refine Finset.sum_congr rfl fun i _ => ?_
  rw [_root_.Matrix.transpose_apply, hAm, mul_comm]
  congr 1

theorem quality_singular (A : _root_.Matrix (Fin (k + 2)) (Fin N) ℝ) (μ s : Fin N → ℝ) (b : ℝ)
    (h : (b • (A * Aᵀ) + A * _root_.Matrix.diagonal s * Aᵀ).det = 0) :
    matchQualityMatrix (ofM (_root_.Matrix.of fun i (_ : Fin 1) => μ i))
      (ofM (_root_.Matrix.diagonal s)) (ofM A) b = .error .notInvertible := by
  set M := b • (A * Aᵀ) + A * _root_.Matrix.diagonal s * Aᵀ with hM
  set m := _root_.Matrix.of fun i (_ : Fin 1) => μ i with hm
  have h1 : (ofM A).transpose = .ok (ofM Aᵀ) := Matrix.transpose_ofM A
  have h2 : (ofM A).mul (ofM Aᵀ) = .ok (ofM (A * Aᵀ)) := Matrix.mul_ofM _ _
  have h3 : (ofM (A * Aᵀ)).scale b = .ok (ofM (b • (A * Aᵀ))) := Matrix.scale_ofM _ _
  have h4 : (ofM A).mul (ofM (_root_.Matrix.diagonal s)) = .ok (ofM (A * _root_.Matrix.diagonal s)) :=
    Matrix.mul_ofM _ _
  have h5 : (ofM (A * _root_.Matrix.diagonal s)).mul (ofM Aᵀ) =
      .ok (ofM (A * _root_.Matrix.diagonal s * Aᵀ)) := Matrix.mul_ofM _ _
  have h6 : (ofM m).transpose = .ok (ofM mᵀ) := Matrix.transpose_ofM m
  have h7 : (ofM Aᵀ).mul (ofM mᵀ) = .ok (ofM (A * m)) := by
    rw [Matrix.mul_ofM_transposed _ _ (by omega)]; simp
  have h8 : (ofM (b • (A * Aᵀ))).add (ofM (A * _root_.Matrix.diagonal s * Aᵀ)) = .ok (ofM M) :=
    Matrix.add_ofM _ _
  have h9 : (ofM A).mul (ofM m) = .ok (ofM (A * m)) := Matrix.mul_ofM _ _
  have h10 : (ofM M).inverse = .error .notInvertible :=
    Matrix.inverse_singular (Nat.succ_pos _) M h
  simp only [matchQualityMatrix, h1, h2, h3, h4, h5, h6, h7, h8, h9, h10, bind, Except.bind]

/-- Two teams: the first factor has the wrong shape. -/
theorem quality_two (A : _root_.Matrix (Fin 1) (Fin N) ℝ) (μ s : Fin N → ℝ) (b : ℝ) (hN : N ≠ 1) :
    matchQualityMatrix (ofM (_root_.Matrix.of fun i (_ : Fin 1) => μ i))
      (ofM (_root_.Matrix.diagonal s)) (ofM A) b =
      .error (if (b • (A * Aᵀ) + A * _root_.Matrix.diagonal s * Aᵀ).det = 0 then .notInvertible
        else .mulDimensions) := by
  set M := b • (A * Aᵀ) + A * _root_.Matrix.diagonal s * Aᵀ with hM
  set m := _root_.Matrix.of fun i (_ : Fin 1) => μ i with hm
  have h1 : (ofM A).transpose = .ok (ofM Aᵀ) := Matrix.transpose_ofM A
  have h2 : (ofM A).mul (ofM Aᵀ) = .ok (ofM (A * Aᵀ)) := Matrix.mul_ofM _ _
  have h3 : (ofM (A * Aᵀ)).scale b = .ok (ofM (b • (A * Aᵀ))) := Matrix.scale_ofM _ _
  have h4 : (ofM A).mul (ofM (_root_.Matrix.diagonal s)) = .ok (ofM (A * _root_.Matrix.diagonal s)) :=
    Matrix.mul_ofM _ _
  have h5 : (ofM (A * _root_.Matrix.diagonal s)).mul (ofM Aᵀ) =
      .ok (ofM (A * _root_.Matrix.diagonal s * Aᵀ)) := Matrix.mul_ofM _ _
  have h6 : (ofM m).transpose = .ok (ofM mᵀ) := Matrix.transpose_ofM m
  have h7 : (ofM Aᵀ).mul (ofM mᵀ) = .ok (ofM (Aᵀ * mᵀ)) := Matrix.mul_ofM _ _
  have h8 : (ofM (b • (A * Aᵀ))).add (ofM (A * _root_.Matrix.diagonal s * Aᵀ)) = .ok (ofM M) :=
    Matrix.add_ofM _ _
  have h9 : (ofM A).mul (ofM m) = .ok (ofM (A * m)) := Matrix.mul_ofM _ _
  by_cases h : M.det = 0
  · have h10 : (ofM M).inverse = .error .notInvertible :=
      Matrix.inverse_singular Nat.one_pos M h
    simp only [matchQualityMatrix, h1, h2, h3, h4, h5, h6, h7, h8, h9, h10, bind, Except.bind, h,
      if_true]
  · have h10 := Matrix.inverse_one M h
    have h11 : (ofM (Aᵀ * mᵀ)).mul (ofM (0 : _root_.Matrix (Fin 1) (Fin 1) ℝ)) =
        .error .mulDimensions := Matrix.mul_panic _ _ hN hN
    simp only [matchQualityMatrix, h1, h2, h3, h4, h5, h6, h7, h8, h9, h10, h11, bind, Except.bind,
      h, if_false]

/-- One team: the matrix is empty. -/
theorem quality_one (A : _root_.Matrix (Fin 0) (Fin N) ℝ) (μ s : Fin N → ℝ) (b : ℝ) :
    matchQualityMatrix (ofM (_root_.Matrix.of fun i (_ : Fin 1) => μ i))
      (ofM (_root_.Matrix.diagonal s)) (ofM A) b = .error .notInvertible := by
  set M := b • (A * Aᵀ) + A * _root_.Matrix.diagonal s * Aᵀ with hM
  set m := _root_.Matrix.of fun i (_ : Fin 1) => μ i with hm
  have h1 : (ofM A).transpose = .ok (ofM Aᵀ) := Matrix.transpose_ofM A
  have h2 : (ofM A).mul (ofM Aᵀ) = .ok (ofM (A * Aᵀ)) := Matrix.mul_ofM _ _
  have h3 : (ofM (A * Aᵀ)).scale b = .ok (ofM (b • (A * Aᵀ))) := Matrix.scale_ofM _ _
  have h4 : (ofM A).mul (ofM (_root_.Matrix.diagonal s)) = .ok (ofM (A * _root_.Matrix.diagonal s)) :=
    Matrix.mul_ofM _ _
  have h5 : (ofM (A * _root_.Matrix.diagonal s)).mul (ofM Aᵀ) =
      .ok (ofM (A * _root_.Matrix.diagonal s * Aᵀ)) := Matrix.mul_ofM _ _
  have h6 : (ofM m).transpose = .ok (ofM mᵀ) := Matrix.transpose_ofM m
  have h7 : (ofM Aᵀ).mul (ofM mᵀ) = .ok (ofM (A * m)) := by
    rw [Matrix.mul_ofM_transposed _ _ (by omega)]; simp
  have h8 : (ofM (b • (A * Aᵀ))).add (ofM (A * _root_.Matrix.diagonal s * Aᵀ)) = .ok (ofM M) :=
    Matrix.add_ofM _ _
  have h9 : (ofM A).mul (ofM m) = .ok (ofM (A * m)) := Matrix.mul_ofM _ _
  have h10 : (ofM M).inverse = .error .notInvertible := by
    rw [Matrix.inverse, Matrix.determinant_empty]
    change (if ((0 : ℝ) ==? (0.0 : ℝ)) = true then _ else do
      (← (ofM M).adjugate).scale (Flt.recip 0) : Except Panic (Matrix ℝ)) = _
    rw [if_pos (by simp only [flt])]
  simp only [matchQualityMatrix, h1, h2, h3, h4, h5, h6, h7, h8, h9, h10, bind, Except.bind]

end formula

/-! ### The whole function -/

theorem fits_of_valid {teams : List (List (TrueSkillRating ℝ))} {ws : List (List ℝ)}
    (h : ValidWeights teams ws) : Fits teams ws := h.imp fun _ _ h => h.1

theorem getWeights_valid {teams : List (List (TrueSkillRating ℝ))} {ws : List (List ℝ)}
    (h : ValidWeights teams ws) : getWeights teams (some ws) = .ok ws := by
  obtain ⟨hl, hall⟩ := List.forall₂_iff_get.1 h
  refine (getWeights_ok teams ws ws).2 ⟨rfl, by simpa using hl.symm, ?_⟩
  intro i hi
  have hi' : i < ws.length := by rw [← hl]; simpa using hi
  have hi'' : i < teams.length := by simpa using hi
  have := hall i hi'' hi'
  refine ⟨teams[i].length, ws[i], by simp [hi''], by simp [hi'], this.1, ?_⟩
  intro w hw
  have h0 := this.2 w hw
  simp only [flt]
  exact not_lt.2 h0

theorem diagonal_eq (P : List QPlayer) :
    Matrix.newDiagonal (P.map fun p => p.uncertainty ^ 2) =
      .ok (Matrix.ofM (_root_.Matrix.diagonal (qVariance P))) := by
  rw [Matrix.newDiagonal_eq, Matrix.mk'_eq_ofM]
  congr 1
  simp only [Matrix.ofM, _root_.Matrix.of_apply]
  have hl : (P.map fun p => p.uncertainty ^ 2).length = P.length := by simp
  rw [Matrix.rowmajor_eq (P.map fun p => p.uncertainty ^ 2).length
    (P.map fun p => p.uncertainty ^ 2).length fun i j => if i = j then
      (P.map fun p => p.uncertainty ^ 2).getD i 0.0 else 0.0]
  rw [hl, ← Matrix.rowmajor_eq P.length P.length fun i j => if i = j then
      (P.map fun p => p.uncertainty ^ 2).getD i 0.0 else 0.0]
  congr 3
  funext i
  congr 1
  funext j
  rw [_root_.Matrix.diagonal_apply]
  by_cases hij : i = j
  · subst hij
    simp [qVariance]
  · rw [if_neg hij, if_neg (fun h => hij (Fin.ext h)), Flt.lit_0]

theorem mean_eq (P : List QPlayer) :
    Matrix.newFromData (P.map fun p => p.rating) P.length 1 =
      Matrix.ofM (_root_.Matrix.of fun i (_ : Fin 1) => qMean P i) := by
  rw [Matrix.newFromData, Matrix.ofM]
  congr 1
  apply List.ext_getElem
  · simp [Function.comp_def]
  · intro i h1 h2
    have : (List.ofFn fun i => List.ofFn fun (_ : Fin 1) => qMean P i).flatten =
        List.ofFn fun i => qMean P i := by
      rw [← List.flatMap_id, List.ofFn_eq_map, List.ofFn_eq_map, List.flatMap_map]
      exact List.map_eq_flatMap.symm
    simp only [_root_.Matrix.of_apply, this]
    simp [qMean]

theorem quality_eq (teams : List (List (TrueSkillRating ℝ))) (cfg : TrueSkillConfig ℝ)
    (ws : List (List ℝ)) (hne : teams ≠ []) (h0 : ∀ t ∈ teams, t ≠ [])
    (hw : ValidWeights teams ws) :
    matchQualityMultiTeam teams cfg (some ws) =
      match matchQualityMatrix
        (Matrix.ofM (_root_.Matrix.of fun i (_ : Fin 1) => qMean (qPlayers teams ws) i))
        (Matrix.ofM (_root_.Matrix.diagonal (qVariance (qPlayers teams ws))))
        (Matrix.ofM (qA (teams.length - 1) (qPlayers teams ws))) (cfg.beta ^ 2) with
      | .error p => .error p
      | .ok q => .ok (.ok q) := by
  have hany : teams.any (fun t => t.isEmpty) = false := by
    rw [List.any_eq_false]
    intro t ht
    simpa using h0 t ht
  have hfits := fits_of_valid hw
  have hemp : teams.isEmpty = false := by cases teams <;> simp_all
  have e1 : (teams.flatMap fun t => t.map fun p => Flt.powi p.uncertainty 2) =
      (qPlayers teams ws).map fun p => p.uncertainty ^ 2 :=
    (segments_map _ _ (fun _ _ p => by simp only [flt]) 0 hfits 0).symm
  have e2 : (teams.flatMap fun t => t.map (·.rating)) =
      (qPlayers teams ws).map fun p => p.rating :=
    (segments_map _ _ (fun _ _ p => rfl) 0 hfits 0).symm
  rw [matchQualityMultiTeam, hemp, hany]
  simp only [Bool.false_eq_true, if_false, e1, e2, diagonal_eq, ← qPlayers_length hfits, mean_eq,
    createRotatedAMatrix_eq hne (getWeights_valid hw) hfits]
  simp only [flt]
  split <;> rename_i h <;> simp only [h]

/-! ### Definiteness -/

/-- The player belongs to team `i`, and has weight `w`. -/
theorem qPlayers_mem {teams : List (List (TrueSkillRating ℝ))} {ws : List (List ℝ)}
    (h : Fits teams ws) (i : ℕ) (w : List ℝ) (hw : ws[i]? = some w) (x : ℝ) (hx : x ∈ w) :
    ∃ p : Fin (qPlayers teams ws).length, (qPlayers teams ws)[p].team = i ∧
      (qPlayers teams ws)[p].weight = x := by
  obtain ⟨hl, hall⟩ := List.forall₂_iff_get.1 h
  obtain ⟨hi, rfl⟩ := List.getElem?_eq_some_iff.1 hw
  have hi' : i < teams.length := by omega
  obtain ⟨j, hj, rfl⟩ := List.getElem_of_mem hx
  have hlen := hall i hi' hi
  simp only [List.get_eq_getElem] at hlen
  have hj' : j < teams[i].length := by omega
  have hmem : (⟨i, ws[i][j], teams[i][j].rating, teams[i][j].uncertainty⟩ : QPlayer) ∈
      qPlayers teams ws := by
    rw [qPlayers, List.mem_flatMap]
    refine ⟨((teams[i], ws[i]), i), ?_, ?_⟩
    · rw [List.mem_zipIdx_iff_getElem?]
      simp [hi, hi']
    · rw [qTeam, List.mem_map]
      refine ⟨(teams[i][j], ws[i][j]), ?_, rfl⟩
      rw [List.mem_iff_getElem]
      exact ⟨j, by simp [hj, hj'], by simp⟩
  obtain ⟨p, hp, hpe⟩ := List.getElem_of_mem hmem
  exact ⟨⟨p, hp⟩, by simp [hpe], by simp [hpe]⟩

theorem qPlayers_weight {teams : List (List (TrueSkillRating ℝ))} {ws : List (List ℝ)}
    (p : QPlayer) (hp : p ∈ qPlayers teams ws) :
    ∃ w, ws[p.team]? = some w ∧ p.weight ∈ w ∧ p.team < teams.length := by
  rw [qPlayers, List.mem_flatMap] at hp
  obtain ⟨⟨⟨t, w⟩, i⟩, h1, h2⟩ := hp
  rw [List.mem_zipIdx_iff_getElem?] at h1
  rw [qTeam, List.mem_map] at h2
  obtain ⟨⟨a, x⟩, h3, rfl⟩ := h2
  simp only [List.getElem?_zip_eq_some] at h1
  refine ⟨w, h1.2, (List.of_mem_zip h3).2, ?_⟩
  exact (List.getElem?_eq_some_iff.1 h1.1).1

/-- `c A` at a player: the difference of the neighbouring entries of `c`. -/
theorem vecMul_qA {k : ℕ} (P : List QPlayer) (c : Fin k → ℝ) (p : Fin P.length) :
    (c ᵥ* qA k P) p = P[p].weight * ((if h : P[p].team < k then c ⟨P[p].team, h⟩ else 0)
      - (if h : 0 < P[p].team ∧ P[p].team - 1 < k then c ⟨P[p].team - 1, h.2⟩ else 0)) := by
  rw [_root_.Matrix.vecMul, dotProduct]
  simp only [qA, QPlayer.coef]
  generalize P[p].team = t
  generalize P[p].weight = w
  have e : ∀ r : Fin k, c r * (if t = r then w else if t = r + 1 then -w else 0) =
      w * ((if t = r then c r else 0) - (if t = (r : ℕ) + 1 then c r else 0)) := by
    intro r
    by_cases h1 : t = r
    · have h2 : ¬ t = (r : ℕ) + 1 := by omega
      rw [if_pos h1, if_pos h1, if_neg h2]; ring
    · rw [if_neg h1, if_neg h1]
      split_ifs <;> ring
  rw [Finset.sum_congr rfl fun r _ => e r, ← Finset.mul_sum, Finset.sum_sub_distrib]
  congr 2
  · split_ifs with h
    · rw [Finset.sum_eq_single ⟨t, h⟩]
      · simp
      · intro b _ hb
        rw [if_neg]
        intro h'
        exact hb (Fin.ext h'.symm)
      · simp
    · refine Finset.sum_eq_zero fun r _ => if_neg ?_
      have := r.2
      omega
  · split_ifs with h
    · rw [Finset.sum_eq_single ⟨t - 1, h.2⟩]
      · rw [if_pos]
        simp only
        omega
      · intro b _ hb
        rw [if_neg]
        intro h'
        apply hb
        apply Fin.ext
        simp only
        omega
      · simp
    · refine Finset.sum_eq_zero fun r _ => if_neg ?_
      have := r.2
      omega

/-- With at most one team of weight zero the rows are independent. -/
theorem qA_injective {teams : List (List (TrueSkillRating ℝ))} {ws : List (List ℝ)}
    (h : Fits teams ws) (hone : ∀ i j, ZeroTeam ws i → ZeroTeam ws j → i = j) :
    Function.Injective (qA (teams.length - 1) (qPlayers teams ws)).vecMul := by
  have hl := h.length_eq
  obtain ⟨k, hk⟩ : ∃ k, k = teams.length - 1 := ⟨_, rfl⟩
  rw [← hk, ← _root_.Matrix.coe_vecMulLinear, injective_iff_map_eq_zero]
  intro c hc
  -- the entries of `c`, extended by zero, shifted by one
  let C : ℕ → ℝ := fun i => if h : 0 < i ∧ i - 1 < k then c ⟨i - 1, h.2⟩ else 0
  have hC : ∀ t, (if h : t < k then c ⟨t, h⟩ else 0) = C (t + 1) := by
    intro t
    simp only [C]
    by_cases h : t < k
    · rw [dif_pos h, dif_pos ⟨by omega, by simpa using h⟩]
      rfl
    · rw [dif_neg h, dif_neg (fun h' => h (by simpa using h'.2))]
  have step : ∀ i < ws.length, ¬ ZeroTeam ws i → C (i + 1) = C i := by
    intro i hi hz
    have hw : ws[i]? = some ws[i] := List.getElem?_eq_getElem hi
    have : ∃ x ∈ ws[i], x ≠ 0 := by
      by_contra hcon
      push Not at hcon
      exact hz ⟨ws[i], hw, hcon⟩
    obtain ⟨x, hx, hx0⟩ := this
    obtain ⟨p, hp1, hp2⟩ := qPlayers_mem h i _ hw x hx
    have := congrFun hc p
    change (c ᵥ* qA k (qPlayers teams ws)) p = 0 at this
    rw [vecMul_qA, hp1, hp2, hC] at this
    simp only [Pi.zero_apply, mul_eq_zero, hx0, false_or] at this
    exact sub_eq_zero.1 this
  have hC0 : C 0 = 0 := by simp [C]
  have hCk : ∀ i, ws.length ≤ i → C i = 0 := by
    intro i hi
    simp only [C]
    rw [dif_neg]
    omega
  have up : ∀ i ≤ ws.length, (∀ j < i, ¬ ZeroTeam ws j) → C i = 0 := by
    intro i
    induction i with
    | zero => intro _ _; exact hC0
    | succ i ih =>
      intro hi hz
      rw [step i (by omega) (hz i (by omega))]
      exact ih (by omega) fun j hj => hz j (by omega)
  have down : ∀ d i, i + d = ws.length → (∀ j, i ≤ j → j < ws.length → ¬ ZeroTeam ws j) →
      C i = 0 := by
    intro d
    induction d with
    | zero => intro i hi _; exact hCk i (by omega)
    | succ d ih =>
      intro i hi hz
      rw [← step i (by omega) (hz i le_rfl (by omega))]
      exact ih (i + 1) (by omega) fun j hj => hz j (by omega)
  have hall : ∀ i, C i = 0 := by
    intro i
    by_cases hi : ws.length ≤ i
    · exact hCk i hi
    · by_cases hz : ∃ j < i, ZeroTeam ws j
      · obtain ⟨j, hj, hjz⟩ := hz
        refine down (ws.length - i) i (by omega) fun m hm _ hmz => ?_
        have := hone j m hjz hmz
        omega
      · push Not at hz
        exact up i (by omega) hz
  funext i
  have h1 := hall (i + 1)
  rw [← hC, dif_pos i.2] at h1
  exact h1

/-- With two teams of weight zero the total is singular. -/
theorem qTotal_singular {teams : List (List (TrueSkillRating ℝ))} {ws : List (List ℝ)}
    (h : Fits teams ws) (b : ℝ) (i j : ℕ) (hij : i < j) (hi : ZeroTeam ws i) (hj : ZeroTeam ws j) :
    (qTotal (teams.length - 1) b (qPlayers teams ws)).det = 0 := by
  have hl := h.length_eq
  obtain ⟨w, hw, hw0⟩ := hi
  obtain ⟨w', hw', hw0'⟩ := hj
  have hjl : j < ws.length := (List.getElem?_eq_some_iff.1 hw').1
  set k := teams.length - 1 with hk
  set P := qPlayers teams ws with hP
  set c : Fin k → ℝ := fun r => if i ≤ r ∧ (r : ℕ) < j then 1 else 0 with hc
  have hcA : c ᵥ* qA k P = 0 := by
    funext p
    rw [vecMul_qA, Pi.zero_apply]
    have hmem : P[p] ∈ qPlayers teams ws := List.getElem_mem _
    obtain ⟨v, hv, hpv, -⟩ := qPlayers_weight _ hmem
    generalize P[p].team = t at *
    by_cases h1 : t = i
    · subst h1
      rw [hw] at hv; obtain rfl := Option.some.inj hv
      rw [hw0 _ hpv, zero_mul]
    · by_cases h2 : t = j
      · subst h2
        rw [hw'] at hv; obtain rfl := Option.some.inj hv
        rw [hw0' _ hpv, zero_mul]
      · have : (if h : t < k then c ⟨t, h⟩ else 0) =
            (if h : 0 < t ∧ t - 1 < k then c ⟨t - 1, h.2⟩ else 0) := by
          simp only [hc]
          have htl : t < ws.length := (List.getElem?_eq_some_iff.1 hv).1
          split_ifs <;> first | rfl | omega
        rw [this, sub_self, mul_zero]
  have hc0 : c ≠ 0 := by
    intro hcon
    have := congrFun hcon ⟨i, by omega⟩
    simp [hc, hij] at this
  refine _root_.Matrix.exists_vecMul_eq_zero_iff.1 ⟨c, hc0, ?_⟩
  rw [qTotal, qNoise, _root_.Matrix.vecMul_add, _root_.Matrix.vecMul_smul,
    ← _root_.Matrix.vecMul_vecMul, ← _root_.Matrix.vecMul_vecMul, ← _root_.Matrix.vecMul_vecMul,
    hcA]
  simp

theorem qNoise_posDef {teams : List (List (TrueSkillRating ℝ))} {ws : List (List ℝ)}
    (h : Fits teams ws) (hone : ∀ i j, ZeroTeam ws i → ZeroTeam ws j → i = j) {b : ℝ} (hb : b ≠ 0) :
    (qNoise (teams.length - 1) b (qPlayers teams ws)).PosDef := by
  rw [qNoise]
  refine _root_.Matrix.PosDef.smul ?_ (by positivity)
  have := _root_.Matrix.PosDef.mul_conjTranspose_self _ (qA_injective h hone)
  rwa [_root_.Matrix.conjTranspose_eq_transpose_of_trivial] at this

theorem quality_range {k : ℕ} {P : List QPlayer} {b : ℝ} (hX : (qNoise k b P).PosDef) :
    0 < quality k b P ∧ quality k b P ≤ 1 ∧ (qTotal k b P).det ≠ 0 := by
  obtain ⟨hM, hdet⟩ := posDef_add_gram hX (qA k P) (s := qVariance P) (fun p => sq_nonneg _)
  change (qTotal k b P).PosDef at hM
  change _ ≤ (qTotal k b P).det at hdet
  have hX0 := hX.det_pos
  have hM0 := hM.det_pos
  refine ⟨?_, ?_, hM0.ne'⟩
  · exact mul_pos (Real.exp_pos _) (Real.sqrt_pos.2 (div_pos hX0 hM0))
  · have h1 : Real.exp (-(1 / 2) * ((qA k P *ᵥ qMean P) ⬝ᵥ
        ((qTotal k b P)⁻¹ *ᵥ (qA k P *ᵥ qMean P)))) ≤ 1 := by
      rw [Real.exp_le_one_iff]
      have := posDef_quad hM.inv (qA k P *ᵥ qMean P)
      linarith
    have h2 : √((qNoise k b P).det / (qTotal k b P).det) ≤ 1 := by
      rw [Real.sqrt_le_one, div_le_one hM0]
      exact hdet
    exact mul_le_one₀ h1 (Real.sqrt_nonneg _) h2

end TrueSkill
end Skillratings
