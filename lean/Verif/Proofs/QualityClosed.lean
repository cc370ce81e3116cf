import Verif.Spec.Quality
import Mathlib.LinearAlgebra.Matrix.Block
import Mathlib.LinearAlgebra.Matrix.SchurComplement
import Mathlib.Algebra.BigOperators.Fin
import Mathlib.Tactic.FieldSimp
import Mathlib.Tactic.Ring
import Mathlib.Tactic.Positivity
/-
The match quality in closed form: the determinant and the inverse of `D diag(c) Dᵀ` for the matrix
`D` of the differences of neighbours.
-/
namespace Skillratings
namespace Spec
open Matrix

/-- The differences of neighbours. -/
noncomputable def diffs (k : ℕ) : Matrix (Fin k) (Fin (k + 1)) ℝ :=
  of fun r j => if (j : ℕ) = r then 1 else if (j : ℕ) = r + 1 then -1 else 0

section
variable {k : ℕ}

theorem diffs_mulVec (x : Fin (k + 1) → ℝ) (r : Fin k) :
    (diffs k *ᵥ x) r = x r.castSucc - x r.succ := by
  have h : ∀ j : Fin (k + 1), diffs k r j
      = (if r.castSucc = j then 1 else 0) - (if r.succ = j then 1 else 0) := by
    intro j
    have h1 : (j : ℕ) = r ↔ r.castSucc = j := by rw [Fin.ext_iff]; simp [eq_comm]
    have h2 : (j : ℕ) = r + 1 ↔ r.succ = j := by rw [Fin.ext_iff]; simp [eq_comm]
    simp only [diffs, of_apply, h1, h2]
    by_cases a : r.castSucc = j
    · have : r.succ ≠ j := by
        rintro rfl
        rw [Fin.ext_iff] at a
        simp at a
      simp [a, this]
    · by_cases b : r.succ = j
      · simp [a, b]
      · simp [a, b]
  simp only [mulVec, dotProduct, h, sub_mul, ite_mul, one_mul, zero_mul, Finset.sum_sub_distrib,
    Finset.sum_ite_eq, Finset.mem_univ, if_true]

/-- The differences, and one more row. -/
noncomputable def bordered (k : ℕ) (x : Fin (k + 1) → ℝ) : Matrix (Fin (k + 1)) (Fin (k + 1)) ℝ :=
  of fun i j => if h : (i : ℕ) < k then diffs k ⟨i, h⟩ j else x j

/-- Partial sums. -/
noncomputable def cumul (k : ℕ) : Matrix (Fin (k + 1)) (Fin (k + 1)) ℝ :=
  of fun i j => if i ≤ j then 1 else 0

theorem cumul_det : (cumul k).det = 1 := by
  rw [det_of_isUpperTriangular]
  · simp [cumul]
  · intro i j hij
    have hij : j < i := hij
    simp only [cumul, of_apply]
    rw [if_neg (not_le.2 hij)]

theorem bordered_mul_cumul (x : Fin (k + 1) → ℝ) (i j : Fin (k + 1)) :
    (bordered k x * cumul k) i j =
      if (i : ℕ) < k then (if i = j then 1 else 0) else ∑ l, x l * (if l ≤ j then 1 else 0) := by
  by_cases h : (i : ℕ) < k
  · rw [if_pos h, mul_apply]
    have := diffs_mulVec (fun l => cumul k l j) ⟨i, h⟩
    simp only [mulVec, dotProduct] at this
    simp only [bordered, of_apply, dif_pos h, this]
    simp only [cumul, of_apply]
    have e : (⟨i, h⟩ : Fin k).castSucc = i := rfl
    rw [e]
    by_cases hij : i = j
    · subst hij
      rw [if_pos le_rfl, if_neg, if_pos rfl, sub_zero]
      rw [Fin.le_def]; simp
    · rw [if_neg hij]
      by_cases hlt : i < j
      · rw [if_pos hlt.le, if_pos, sub_self]
        rw [Fin.le_def]; simpa using hlt
      · rw [if_neg, if_neg, sub_self]
        · rw [Fin.le_def]; simp only [Fin.val_succ]
          rw [Fin.lt_def] at hlt; omega
        · rw [Fin.le_def]
          rw [Fin.lt_def] at hlt
          rw [Fin.ext_iff] at hij; omega
  · rw [if_neg h, mul_apply]
    simp only [bordered, of_apply, dif_neg h, cumul]

theorem bordered_det (x : Fin (k + 1) → ℝ) : (bordered k x).det = ∑ i, x i := by
  have h1 : (bordered k x * cumul k).det = (bordered k x).det := by
    rw [det_mul, cumul_det, mul_one]
  rw [← h1, det_of_isLowerTriangular]
  · rw [Fin.prod_univ_castSucc]
    have : ∀ i : Fin k, (bordered k x * cumul k) i.castSucc i.castSucc = 1 := by
      intro i
      rw [bordered_mul_cumul, if_pos (by simp), if_pos rfl]
    simp only [this, Finset.prod_const_one, one_mul]
    rw [bordered_mul_cumul, if_neg (by simp)]
    refine Finset.sum_congr rfl fun i _ => ?_
    rw [if_pos (Fin.le_last i), mul_one]
  · intro i j hij
    rw [bordered_mul_cumul]
    have hij' : i < j := hij
    rw [if_pos (by rw [Fin.lt_def] at hij'; omega), if_neg hij'.ne]

theorem bordered_castSucc (x : Fin (k + 1) → ℝ) (r : Fin k) (j : Fin (k + 1)) :
    bordered k x r.castSucc j = diffs k r j := by
  simp [bordered]

theorem bordered_last (x : Fin (k + 1) → ℝ) (j : Fin (k + 1)) :
    bordered k x (Fin.last k) j = x j := by
  simp [bordered]

theorem gram_apply {m n : Type} [Fintype n] [DecidableEq n] (A : Matrix m n ℝ) (c : n → ℝ)
    (i j : m) : (A * diagonal c * Aᵀ) i j = ∑ l, A i l * c l * A j l := by
  rw [mul_apply]
  refine Finset.sum_congr rfl fun l _ => ?_
  rw [mul_diagonal, transpose_apply]

/-- The determinant of `D diag(c) Dᵀ`. -/
theorem diffs_gram_det (c : Fin (k + 1) → ℝ) (hc : ∀ i, 0 < c i) :
    (diffs k * diagonal c * (diffs k)ᵀ).det = (∏ i, c i) * ∑ i, 1 / c i := by
  set x : Fin (k + 1) → ℝ := fun i => 1 / c i with hx
  set M := diffs k * diagonal c * (diffs k)ᵀ with hM
  have hs : 0 < ∑ i, x i := Finset.sum_pos (fun i _ => one_div_pos.2 (hc i)) Finset.univ_nonempty
  have hE : (bordered k x * diagonal c * (bordered k x)ᵀ).det
      = (∑ i, x i) ^ 2 * ∏ i, c i := by
    rw [det_mul, det_mul, det_transpose, bordered_det, det_diagonal]; ring
  have hB : (bordered k x * diagonal c * (bordered k x)ᵀ).submatrix finSumFinEquiv finSumFinEquiv
      = fromBlocks M 0 0 (of fun _ _ : Fin 1 => ∑ i, x i) := by
    have hzero : ∀ r : Fin k, ∑ j, diffs k r j = 0 := by
      intro r
      have := diffs_mulVec (fun _ => (1 : ℝ)) r
      simpa [mulVec, dotProduct] using this
    have hlast : finSumFinEquiv (Sum.inr (0 : Fin 1)) = Fin.last k := by
      rw [Fin.ext_iff]; simp
    have hcast : ∀ r : Fin k, finSumFinEquiv (Sum.inl r : Fin k ⊕ Fin 1) = r.castSucc := by
      intro r; rw [Fin.ext_iff]; simp
    have hcx : ∀ j, c j * x j = 1 := fun j => by
      simp only [hx]; rw [mul_one_div, div_self (hc j).ne']
    ext i j
    rcases i with i | i <;> rcases j with j | j
    · simp only [submatrix_apply, hcast, fromBlocks_apply₁₁, hM, gram_apply, bordered_castSucc]
    · have : j = 0 := Subsingleton.elim _ _
      subst this
      rw [submatrix_apply, hcast, hlast, fromBlocks_apply₁₂, gram_apply, Matrix.zero_apply]
      simp only [bordered_castSucc, bordered_last, mul_assoc, hcx, mul_one, hzero]
    · have : i = 0 := Subsingleton.elim _ _
      subst this
      rw [submatrix_apply, hcast, hlast, fromBlocks_apply₂₁, gram_apply, Matrix.zero_apply]
      simp only [bordered_castSucc, bordered_last, mul_comm (x _) (c _), hcx, one_mul, hzero]
    · have : i = 0 := Subsingleton.elim _ _
      subst this
      have : j = 0 := Subsingleton.elim _ _
      subst this
      rw [submatrix_apply, hlast, fromBlocks_apply₂₂, gram_apply, of_apply]
      simp only [bordered_last, mul_comm (x _) (c _), hcx, one_mul]
  have hdet : (bordered k x * diagonal c * (bordered k x)ᵀ).det = M.det * ∑ i, x i := by
    rw [← det_submatrix_equiv_self finSumFinEquiv, hB, det_fromBlocks_zero₂₁]
    simp
  rw [hE] at hdet
  have : M.det * ∑ i, x i = ((∏ i, c i) * ∑ i, x i) * ∑ i, x i := by rw [← hdet]; ring
  exact mul_right_cancel₀ hs.ne' this

/-- The quadratic form of the inverse of `D diag(c) Dᵀ` at `D m`. -/
theorem diffs_gram_quad (c m : Fin (k + 1) → ℝ) (hc : ∀ i, 0 < c i) :
    (diffs k *ᵥ m) ⬝ᵥ ((diffs k * diagonal c * (diffs k)ᵀ)⁻¹ *ᵥ (diffs k *ᵥ m)) =
      ∑ i, (m i - (∑ i, m i / c i) / ∑ i, 1 / c i) ^ 2 / c i := by
  set S := ∑ i, 1 / c i with hS
  set a := (∑ i, m i / c i) / S with ha
  have hs : 0 < S := Finset.sum_pos (fun i _ => one_div_pos.2 (hc i)) Finset.univ_nonempty
  have hdet : (diffs k * diagonal c * (diffs k)ᵀ).det ≠ 0 := by
    rw [diffs_gram_det c hc]
    exact (mul_pos (Finset.prod_pos fun i _ => hc i) hs).ne'
  set y : Fin (k + 1) → ℝ := fun i => (m i - a) / c i with hy
  have hy0 : ∑ i, y i = 0 := by
    have : ∀ i, y i = m i / c i - a * (1 / c i) := fun i => by simp only [hy]; ring
    simp only [this, Finset.sum_sub_distrib, ← Finset.mul_sum, ha, ← hS]
    field_simp
    ring
  obtain ⟨z, hzy⟩ : ∃ z : Fin k → ℝ, ∀ j, ∑ r, diffs k r j * z r = y j := by
    have hE : IsUnit ((bordered k fun _ => 1)ᵀ).det := by
      rw [det_transpose, bordered_det, isUnit_iff_ne_zero]
      simp only [Finset.sum_const, Finset.card_univ, Fintype.card_fin, nsmul_eq_mul, mul_one]
      positivity
    set w := ((bordered k fun _ => 1)ᵀ)⁻¹ *ᵥ y with hw
    have hEw : (bordered k fun _ => 1)ᵀ *ᵥ w = y := by
      rw [hw, mulVec_mulVec, mul_nonsing_inv _ hE, one_mulVec]
    have hj : ∀ j, ∑ r : Fin k, diffs k r j * w r.castSucc + w (Fin.last k) = y j := by
      intro j
      have := congrFun hEw j
      rw [mulVec, dotProduct, Fin.sum_univ_castSucc] at this
      simpa only [transpose_apply, bordered_castSucc, bordered_last, one_mul] using this
    have hsum : ∑ j : Fin (k + 1), ∑ r : Fin k, diffs k r j * w r.castSucc = 0 := by
      rw [Finset.sum_comm]
      refine Finset.sum_eq_zero fun r _ => ?_
      rw [← Finset.sum_mul]
      have := diffs_mulVec (fun _ => (1 : ℝ)) r
      rw [sub_self] at this
      simp only [mulVec, dotProduct, mul_one] at this
      rw [this, zero_mul]
    have hl : w (Fin.last k) = 0 := by
      have h1 := Finset.sum_congr (rfl : Finset.univ = Finset.univ) fun j _ => hj j
      rw [Finset.sum_add_distrib, hsum, hy0] at h1
      simp only [Finset.sum_const, Finset.card_univ, Fintype.card_fin, nsmul_eq_mul, zero_add] at h1
      rcases mul_eq_zero.1 h1 with h2 | h2
      · exact absurd h2 (by positivity)
      · exact h2
    exact ⟨fun r => w r.castSucc, fun j => by rw [← hj j, hl, add_zero]⟩
  have hzy' : (diffs k)ᵀ *ᵥ z = y := funext fun j => hzy j
  have hMz : (diffs k * diagonal c * (diffs k)ᵀ) *ᵥ z = diffs k *ᵥ m := by
    rw [← mulVec_mulVec, hzy', ← mulVec_mulVec]
    have : diagonal c *ᵥ y = fun i => m i - a := by
      funext i
      rw [mulVec_diagonal]
      simp only [hy]
      rw [mul_div_cancel₀ _ (hc i).ne']
    rw [this]
    funext r
    rw [diffs_mulVec, diffs_mulVec]
    ring
  have hinv : (diffs k * diagonal c * (diffs k)ᵀ)⁻¹ *ᵥ (diffs k *ᵥ m) = z := by
    rw [← hMz, mulVec_mulVec, nonsing_inv_mul _ (isUnit_iff_ne_zero.2 hdet), one_mulVec]
  have e1 : (diffs k *ᵥ m) ⬝ᵥ z = m ⬝ᵥ y := by
    rw [dotProduct_comm, dotProduct_mulVec, dotProduct_comm, ← mulVec_transpose, hzy']
  have e2 : m ⬝ᵥ y = ∑ i, (m i - a) * y i := by
    simp only [sub_mul, Finset.sum_sub_distrib, ← Finset.mul_sum, hy0, mul_zero, sub_zero, dotProduct]
  rw [hinv, e1, e2]
  refine Finset.sum_congr rfl fun i _ => ?_
  simp only [hy]
  ring

/-! ### From players to teams -/

theorem sum_zipIdx {α : Type} (h : α → ℝ) : ∀ (L : List α) (k i : ℕ) (x : α), L[i]? = some x →
    ((L.zipIdx k).map fun y => if y.2 = k + i then h y.1 else 0).sum = h x := by
  intro L
  induction L with
  | nil => intro k i x hx; simp at hx
  | cons a L ih =>
    intro k i x hx
    have h0 : ∀ j, ((L.zipIdx (k + 1)).map fun y => if y.2 = k + j then h y.1 else 0).sum
        = if j = 0 then 0 else
          ((L.zipIdx (k + 1)).map fun y => if y.2 = k + 1 + (j - 1) then h y.1 else 0).sum := by
      intro j
      split_ifs with hj
      · subst hj
        refine List.sum_eq_zero fun z hz => ?_
        obtain ⟨y, hy, rfl⟩ := List.mem_map.1 hz
        have := List.le_snd_of_mem_zipIdx hy
        exact if_neg (by omega)
      · rw [show k + j = k + 1 + (j - 1) by omega]
    rw [List.zipIdx_cons, List.map_cons, List.sum_cons, h0]
    cases i with
    | zero =>
      simp only [List.getElem?_cons_zero, Option.some.injEq] at hx
      simp [hx]
    | succ i =>
      simp only [List.getElem?_cons_succ] at hx
      rw [if_neg (by simp), if_neg (by omega), zero_add, Nat.add_sub_cancel, ih (k + 1) i x hx]

variable {teams : List (List (TrueSkill.TrueSkillRating ℝ))} {ws : List (List ℝ)}

theorem sum_flatMap_real {α : Type} (h : α → List ℝ) : ∀ L : List α,
    (L.flatMap h).sum = (L.map fun x => (h x).sum).sum
  | [] => rfl
  | a :: L => by
    rw [List.flatMap_cons, List.sum_append, List.map_cons, List.sum_cons, sum_flatMap_real h L]

/-- A team and its weights. -/
abbrev PTeam := List (TrueSkill.TrueSkillRating ℝ) × List ℝ

/-- A sum over the players of one team. -/
theorem team_sum (f : QPlayer → ℝ) (g : TrueSkill.TrueSkillRating ℝ × ℝ → ℝ)
    (hfg : ∀ i p, f ⟨i, p.2, p.1.rating, p.1.uncertainty⟩ = g p) (i : ℕ) (x : PTeam)
    (hx : (teams.zip ws)[i]? = some x) :
    (∑ p : Fin (qPlayers teams ws).length,
      if (qPlayers teams ws)[p].team = i then f (qPlayers teams ws)[p] else 0)
      = ((x.1.zip x.2).map g).sum := by
  have e1 : (∑ p : Fin (qPlayers teams ws).length,
      if (qPlayers teams ws)[p].team = i then f (qPlayers teams ws)[p] else 0)
      = ((qPlayers teams ws).map fun p => if p.team = i then f p else 0).sum :=
    Fin.sum_univ_fun_getElem (qPlayers teams ws) fun p => if p.team = i then f p else 0
  rw [e1, qPlayers, List.map_flatMap, sum_flatMap_real]
  have e2 : ∀ y : PTeam × ℕ, ((qTeam y).map fun p => if p.team = i then f p else 0).sum
      = if y.2 = 0 + i then ((y.1.1.zip y.1.2).map g).sum else 0 := by
    intro y
    rw [zero_add]
    simp only [qTeam, List.map_map]
    split_ifs with h
    · congr 1
      apply List.map_congr_left
      intro p _
      simp only [Function.comp, h, if_true]
      exact hfg _ p
    · apply List.sum_eq_zero
      intro z hz
      obtain ⟨p, -, rfl⟩ := List.mem_map.1 hz
      simp [h]
  simp only [e2]
  exact sum_zipIdx (fun x : PTeam => ((x.1.zip x.2).map g).sum) (teams.zip ws) 0 i x hx

/-- Which player is in which team, with the weights. -/
noncomputable def member (k : ℕ) (P : List QPlayer) : Matrix (Fin (k + 1)) (Fin P.length) ℝ :=
  of fun i p => if P[p].team = i then P[p].weight else 0

theorem qA_eq (k : ℕ) (P : List QPlayer) (h : ∀ p ∈ P, p.team < k + 1) :
    qA k P = diffs k * member k P := by
  ext r p
  have hp := h P[p] (List.getElem_mem _)
  rw [mul_apply]
  have : ∀ i : Fin (k + 1), diffs k r i * member k P i p
      = if (⟨P[p].team, hp⟩ : Fin (k + 1)) = i then diffs k r ⟨P[p].team, hp⟩ * P[p].weight else 0 := by
    intro i
    have e : P[p].team = (i : ℕ) ↔ (⟨P[p].team, hp⟩ : Fin (k + 1)) = i := by rw [Fin.ext_iff]
    simp only [member, of_apply, e]
    by_cases hi : (⟨P[p].team, hp⟩ : Fin (k + 1)) = i
    · rw [if_pos hi, if_pos hi, hi]
    · rw [if_neg hi, if_neg hi, mul_zero]
  simp only [this, Finset.sum_ite_eq, Finset.mem_univ, if_true]
  simp only [qA, QPlayer.coef, diffs, of_apply]
  split_ifs <;> ring

theorem member_gram (k : ℕ) (P : List QPlayer) (s : Fin P.length → ℝ) :
    member k P * diagonal s * (member k P)ᵀ
      = diagonal fun i : Fin (k + 1) => ∑ p : Fin P.length, if P[p].team = (i : ℕ) then P[p].weight ^ 2 * s p else 0 := by
  ext i j
  rw [gram_apply]
  by_cases hij : i = j
  · subst hij
    rw [diagonal_apply_eq]
    refine Finset.sum_congr rfl fun p _ => ?_
    simp only [member, of_apply]
    split_ifs <;> ring
  · rw [diagonal_apply_ne _ hij]
    refine Finset.sum_eq_zero fun p _ => ?_
    simp only [member, of_apply]
    by_cases h1 : P[p].team = (i : ℕ)
    · have h2 : ¬ P[p].team = (j : ℕ) := fun h => hij (Fin.ext (h1.symm.trans h))
      rw [if_neg h2, mul_zero]
    · rw [if_neg h1, zero_mul, zero_mul]

theorem sum_fin_list {α : Type} {n : ℕ} (L : List α) (h : L.length = n) (f : α → ℝ)
    (F : Fin n → ℝ) (hF : ∀ (i : Fin n) x, L[(i : ℕ)]? = some x → F i = f x) :
    ∑ i, F i = (L.map f).sum ∧ ∏ i, F i = (L.map f).prod := by
  subst h
  have : ∀ i : Fin L.length, F i = f L[i] := fun i => hF i _ (by simp)
  simp only [this]
  exact ⟨Fin.sum_univ_fun_getElem L f, Fin.prod_univ_fun_getElem L f⟩

/-- The quality of a match in which every team has some weight. -/
theorem quality_closed {k : ℕ} (β : ℝ) (hk : teams.length = k + 1)
    (hfit : ws.length = teams.length)
    (hpos : ∀ x ∈ teams.zip ws, 0 < wtNoise β (x.1.zip x.2)) :
    (qTotal k β (qPlayers teams ws)).det ≠ 0 ∧
    quality k β (qPlayers teams ws) = qualityClosed β ((teams.zip ws).map fun x => x.1.zip x.2) := by
  have hlen : (teams.zip ws).length = k + 1 := by simp [hfit, hk]
  set P := qPlayers teams ws with hP
  have hteam : ∀ p ∈ P, p.team < k + 1 := by
    intro p hp
    rw [hP, qPlayers, List.mem_flatMap] at hp
    obtain ⟨y, hy, hp⟩ := hp
    have := List.snd_lt_of_mem_zipIdx hy
    rw [qTeam, List.mem_map] at hp
    obtain ⟨x, -, rfl⟩ := hp
    simpa [hlen] using this
  have hx : ∀ i : Fin (k + 1), ∃ x, (teams.zip ws)[(i : ℕ)]? = some x ∧ x ∈ teams.zip ws := by
    intro i
    have hi : (i : ℕ) < (teams.zip ws).length := by rw [hlen]; exact i.2
    exact ⟨_, List.getElem?_eq_getElem hi, List.getElem_mem hi⟩
  set b : Fin (k + 1) → ℝ := fun i =>
    ∑ p : Fin P.length, if P[p].team = (i : ℕ) then P[p].weight ^ 2 * β ^ 2 else 0 with hb
  set v : Fin (k + 1) → ℝ := fun i =>
    ∑ p : Fin P.length, if P[p].team = (i : ℕ) then P[p].weight ^ 2 * qVariance P p else 0 with hv
  set m : Fin (k + 1) → ℝ := member k P *ᵥ qMean P with hm
  have hbx : ∀ (i : Fin (k + 1)) x, (teams.zip ws)[(i : ℕ)]? = some x → b i = wtNoise β (x.1.zip x.2) := by
    intro i x hx
    exact team_sum (fun p => p.weight ^ 2 * β ^ 2) (fun p => β ^ 2 * p.2 ^ 2)
      (fun _ _ => mul_comm _ _) i x hx
  have hcx : ∀ (i : Fin (k + 1)) x, (teams.zip ws)[(i : ℕ)]? = some x →
      b i + v i = wtTotal β (x.1.zip x.2) := by
    intro i x hx
    simp only [hb, hv, ← Finset.sum_add_distrib]
    rw [wtTotal, ← team_sum (fun p => p.weight ^ 2 * (β ^ 2 + p.uncertainty ^ 2))
      (fun p => p.2 ^ 2 * (β ^ 2 + p.1.uncertainty ^ 2)) (fun _ _ => rfl) i x hx]
    refine Finset.sum_congr rfl fun p _ => ?_
    split_ifs
    · simp only [qVariance]; ring
    · ring
  have hmx : ∀ (i : Fin (k + 1)) x, (teams.zip ws)[(i : ℕ)]? = some x → m i = wtMean (x.1.zip x.2) := by
    intro i x hx
    rw [wtMean, ← team_sum (fun p => p.weight * p.rating)
      (fun p => p.2 * p.1.rating) (fun _ _ => rfl) i x hx]
    simp only [hm, mulVec, dotProduct]
    refine Finset.sum_congr rfl fun p _ => ?_
    simp only [member, of_apply, qMean]
    split_ifs <;> ring
  have hb0 : ∀ i, 0 < b i := by
    intro i
    obtain ⟨x, hx, hxm⟩ := hx i
    rw [hbx i x hx]; exact hpos x hxm
  have hv0 : ∀ i, 0 ≤ v i := by
    intro i
    refine Finset.sum_nonneg fun p _ => ?_
    split_ifs
    · simp only [qVariance]; positivity
    · exact le_rfl
  have hc0 : ∀ i, 0 < b i + v i := fun i => add_pos_of_pos_of_nonneg (hb0 i) (hv0 i)
  have hnoise : qNoise k β P = diffs k * diagonal b * (diffs k)ᵀ := by
    have h1 : (member k P * diagonal (fun _ => β ^ 2) * (member k P)ᵀ) = diagonal b :=
      member_gram k P fun _ => β ^ 2
    rw [← h1, qNoise, qA_eq k P hteam, transpose_mul]
    have h2 : diagonal (fun _ : Fin P.length => β ^ 2) = β ^ 2 • (1 : Matrix _ _ ℝ) := by
      rw [smul_one_eq_diagonal]
    rw [h2]
    simp only [Matrix.mul_smul, Matrix.smul_mul, Matrix.mul_one, Matrix.mul_assoc]
  have htotal : qTotal k β P = diffs k * diagonal (fun i => b i + v i) * (diffs k)ᵀ := by
    have h1 : (member k P * diagonal (qVariance P) * (member k P)ᵀ) = diagonal v :=
      member_gram k P (qVariance P)
    have h2 : diagonal (fun i => b i + v i) = diagonal b + diagonal v := (diagonal_add b v).symm
    rw [qTotal, hnoise, h2, ← h1, qA_eq k P hteam, transpose_mul]
    simp only [Matrix.mul_add, Matrix.add_mul, Matrix.mul_assoc]
  have hmean : qA k P *ᵥ qMean P = diffs k *ᵥ m := by
    rw [hm, mulVec_mulVec, qA_eq k P hteam]
  have L1 := fun (f : PTeam → ℝ) (F : Fin (k + 1) → ℝ) hF => sum_fin_list (teams.zip ws) hlen f F hF
  constructor
  · rw [htotal, diffs_gram_det _ hc0]
    exact (mul_pos (Finset.prod_pos fun i _ => hc0 i)
      (Finset.sum_pos (fun i _ => one_div_pos.2 (hc0 i)) Finset.univ_nonempty)).ne'
  · rw [quality, hmean, htotal, hnoise, diffs_gram_quad _ _ hc0, diffs_gram_det _ hc0,
      diffs_gram_det _ hb0, qualityClosed]
    have e1 := (L1 (fun x => wtNoise β (x.1.zip x.2)) b hbx).2
    have e2 := (L1 (fun x => 1 / wtNoise β (x.1.zip x.2)) (fun i => 1 / b i)
      fun i x h => by rw [hbx i x h]).1
    have e3 := (L1 (fun x => wtTotal β (x.1.zip x.2)) (fun i => b i + v i) hcx).2
    have e4 := (L1 (fun x => 1 / wtTotal β (x.1.zip x.2)) (fun i => 1 / (b i + v i))
      fun i x h => by rw [hcx i x h]).1
    have e5 := (L1 (fun x => wtMean (x.1.zip x.2) / wtTotal β (x.1.zip x.2)) (fun i => m i / (b i + v i))
      fun i x h => by rw [hcx i x h, hmx i x h]).1
    set A := wtAverage β ((teams.zip ws).map fun x => x.1.zip x.2) with hA
    simp only [wtAverage, List.map_map, Function.comp_def] at hA
    simp only [List.map_map, Function.comp_def]
    rw [e1, e2, e3, e4, e5, ← hA]
    have e6 := (L1 (fun x => (wtMean (x.1.zip x.2) - A) ^ 2 / wtTotal β (x.1.zip x.2))
      (fun i => (m i - A) ^ 2 / (b i + v i))
      fun i x h => by rw [hcx i x h, hmx i x h]).1
    rw [e6]

end

end Spec
end Skillratings
