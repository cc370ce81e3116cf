import Verif.Proofs.FactorGraphUp
import Verif.Proofs.TrueSkillMulti
import Verif.Proofs.TrueSkill
import Verif.Spec.FactorGraph
/-
`trueskill_multi_team` on two teams, in closed form (C72).
-/
namespace Skillratings
namespace TrueSkill
open Finset Spec

theorem sum_getD {α : Type} (f : α → ℝ) (dflt : α) (l : List α) :
    ∑ j ∈ range l.length, f (l.getD j dflt) = (l.map f).sum := by
  induction l with
  | nil => simp
  | cons a l ih =>
    rw [List.length_cons, sum_range_succ']
    simp only [List.getD_cons_succ, List.getD_cons_zero, List.map_cons, List.sum_cons]
    rw [ih, add_comm]

theorem map_range_getD {α β : Type} (f : α → β) (dflt : α) (l : List α) :
    ((List.range l.length).map fun j => f (l.getD j dflt)) = l.map f := by
  apply List.ext_getElem
  · simp
  · intro i h1 h2
    have : i < l.length := by simpa using h1
    simp [this]

/-- The pairs of player and weight, as a duel. -/
noncomputable def duelOf (A B : List (TrueSkillRating ℝ × ℝ)) (τ β : ℝ) : Duel where
  nA := A.length
  nB := B.length
  R := fun i => ((A ++ B).getD i (⟨0, 0⟩, 0)).1
  w := fun i => ((A ++ B).getD i (⟨0, 0⟩, 0)).2
  τ := τ
  β := β

/-- The players of the specification. -/
noncomputable def fgOf (τ : ℝ) (A : List (TrueSkillRating ℝ × ℝ)) : List FgPlayer :=
  A.map fun x => fgPlayer τ x.1 x.2

section
variable (A B : List (TrueSkillRating ℝ × ℝ)) (τ β : ℝ)

theorem duelOf_n : (duelOf A B τ β).n = (A ++ B).length := by
  simp [duelOf, Duel.n]

theorem append_getD_left {α : Type} (A B : List α) (dflt : α) {j : ℕ} (h : j < A.length) :
    (A ++ B).getD j dflt = A.getD j dflt := by
  simp [List.getElem?_append_left h]

theorem append_getD_right {α : Type} (A B : List α) (dflt : α) (j : ℕ) :
    (A ++ B).getD (A.length + j) dflt = B.getD j dflt := by
  rw [List.getD_eq_getElem?_getD, List.getD_eq_getElem?_getD,
    List.getElem?_append_right (Nat.le_add_right _ _), Nat.add_sub_cancel_left]

theorem getD_lt {α : Type} (l : List α) (dflt : α) {j : ℕ} (h : j < l.length) :
    l.getD j dflt = l[j] := by
  rw [List.getD_eq_getElem?_getD, List.getElem?_eq_getElem h, Option.getD_some]

theorem duelOf_M0 : (duelOf A B τ β).M 0 = fgMean (fgOf τ A) := by
  have e : fgMean (fgOf τ A) = (A.map fun x => x.2 * x.1.rating).sum := by
    rw [fgMean, fgOf, List.map_map]; rfl
  rw [e, ← sum_getD _ (⟨0, 0⟩, 0)]
  simp only [Duel.M, Duel.sz, Duel.off, if_true, Duel.μ, duelOf, Nat.zero_add]
  refine sum_congr rfl fun j hj => ?_
  rw [append_getD_left A B _ (mem_range.1 hj)]

theorem duelOf_M1 : (duelOf A B τ β).M 1 = fgMean (fgOf τ B) := by
  have e : fgMean (fgOf τ B) = (B.map fun x => x.2 * x.1.rating).sum := by
    rw [fgMean, fgOf, List.map_map]; rfl
  rw [e, ← sum_getD _ (⟨0, 0⟩, 0)]
  simp only [Duel.M, Duel.sz, Duel.off, one_ne_zero, if_false, Duel.μ, duelOf]
  refine sum_congr rfl fun j hj => ?_
  rw [append_getD_right]

theorem duelOf_Q0 : (duelOf A B τ β).Q 0 = fgVariance β (fgOf τ A) := by
  have e : fgVariance β (fgOf τ A) =
      (A.map fun x => x.2 ^ 2 * (x.1.uncertainty ^ 2 + τ ^ 2 + β ^ 2)).sum := by
    rw [fgVariance, fgOf, List.map_map]; rfl
  rw [e, ← sum_getD _ (⟨0, 0⟩, 0)]
  simp only [Duel.Q, Duel.sz, Duel.off, if_true, Duel.V, Duel.S, duelOf, Nat.zero_add]
  refine sum_congr rfl fun j hj => ?_
  rw [append_getD_left A B _ (mem_range.1 hj)]

theorem duelOf_Q1 : (duelOf A B τ β).Q 1 = fgVariance β (fgOf τ B) := by
  have e : fgVariance β (fgOf τ B) =
      (B.map fun x => x.2 ^ 2 * (x.1.uncertainty ^ 2 + τ ^ 2 + β ^ 2)).sum := by
    rw [fgVariance, fgOf, List.map_map]; rfl
  rw [e, ← sum_getD _ (⟨0, 0⟩, 0)]
  simp only [Duel.Q, Duel.sz, Duel.off, one_ne_zero, if_false, Duel.V, Duel.S, duelOf]
  refine sum_congr rfl fun j hj => ?_
  rw [append_getD_right]

theorem duelOf_sqrtC : √(duelOf A B τ β).C = fgC β (fgOf τ A) (fgOf τ B) := by
  rw [Duel.C, duelOf_Q0, duelOf_Q1, fgC]

theorem duelOf_δ : (duelOf A B τ β).δ = fgMean (fgOf τ A) - fgMean (fgOf τ B) := by
  rw [Duel.δ, duelOf_M0, duelOf_M1]

theorem duelOf_ok (hA : A ≠ []) (hB : B ≠ []) (hu : ∀ x ∈ A ++ B, x.1.uncertainty ≠ 0)
    (hw : ∀ x ∈ A ++ B, x.2 ≠ 0) : (duelOf A B τ β).Ok := by
  have hmem : ∀ i < (duelOf A B τ β).n, (A ++ B).getD i (⟨0, 0⟩, 0) ∈ A ++ B := by
    intro i hi
    rw [duelOf_n] at hi
    rw [getD_lt _ _ hi]
    exact List.getElem_mem hi
  exact ⟨List.length_pos_iff.2 hA, List.length_pos_iff.2 hB, fun i hi => hu _ (hmem i hi),
    fun i hi => hw _ (hmem i hi)⟩

/-- The corrections that apply between teams of the given ranks. -/
noncomputable def sortedV (ra rb : MultiTeamOutcome) (t ε : ℝ) : ℝ :=
  if ra = rb then tsVDraw t ε else tsVWin t ε

@[inherit_doc sortedV] noncomputable def sortedW (ra rb : MultiTeamOutcome) (t ε : ℝ) : ℝ :=
  if ra = rb then tsWDraw t ε else tsWWin t ε

variable {A B τ β}

theorem arg_eq {x C : ℝ} (hC : 0 < C) : C⁻¹ * x / √C⁻¹ = x / √C := by
  have hs : √C ^ 2 = C := Real.sq_sqrt hC.le
  have h0 : √C ≠ 0 := (Real.sqrt_pos.2 hC).ne'
  rw [Real.sqrt_inv, div_inv_eq_mul, eq_div_iff h0, mul_assoc, ← sq, hs]
  field_simp

theorem duelOf_tv (h : (duelOf A B τ β).Ok) (p : ℝ) (id : ℕ) (ra rb : MultiTeamOutcome) :
    (duelOf A B τ β).tv (truncFactor p β id 0 (A.map (·.1), ra) (B.map (·.1), rb)) =
      sortedV ra rb (fgT β (fgOf τ A) (fgOf τ B)) (fgMargin p β (fgOf τ A) (fgOf τ B)) := by
  have hC := Duel.C_pos h
  have e1 := arg_eq (x := (duelOf A B τ β).δ) hC
  have e2 := arg_eq (x := tsMargin p β (A.length + B.length)) hC
  rw [duelOf_sqrtC, duelOf_δ] at e1
  rw [duelOf_sqrtC] at e2
  have hm : drawMargin p β (Flt.sum [(Flt.ofNat A.length : ℝ), Flt.ofNat B.length]) =
      tsMargin p β (A.length + B.length) := by
    rw [← drawMargin_eq]
    simp only [flt, List.sum_cons, List.sum_nil]
    push_cast; ring_nf
  have l1 : (fgOf τ A).length = A.length := by simp [fgOf]
  have l2 : (fgOf τ B).length = B.length := by simp [fgOf]
  rw [Duel.tv, sortedV]
  simp only [truncFactor, List.length_map, hm, nrm, duelOf_δ]
  split_ifs
  · rw [vDraw_eq, e1, mul_comm (tsMargin p β _), e2, fgT, fgMargin, l1, l2]
  · rw [vNonDraw_eq, e1, mul_comm (tsMargin p β _), e2, fgT, fgMargin, l1, l2]

theorem duelOf_tw (h : (duelOf A B τ β).Ok) (p : ℝ) (id : ℕ) (ra rb : MultiTeamOutcome) :
    (duelOf A B τ β).tw (truncFactor p β id 0 (A.map (·.1), ra) (B.map (·.1), rb)) =
      sortedW ra rb (fgT β (fgOf τ A) (fgOf τ B)) (fgMargin p β (fgOf τ A) (fgOf τ B)) := by
  have hC := Duel.C_pos h
  have e1 := arg_eq (x := (duelOf A B τ β).δ) hC
  have e2 := arg_eq (x := tsMargin p β (A.length + B.length)) hC
  rw [duelOf_sqrtC, duelOf_δ] at e1
  rw [duelOf_sqrtC] at e2
  have hm : drawMargin p β (Flt.sum [(Flt.ofNat A.length : ℝ), Flt.ofNat B.length]) =
      tsMargin p β (A.length + B.length) := by
    rw [← drawMargin_eq]
    simp only [flt, List.sum_cons, List.sum_nil]
    push_cast; ring_nf
  have l1 : (fgOf τ A).length = A.length := by simp [fgOf]
  have l2 : (fgOf τ B).length = B.length := by simp [fgOf]
  rw [Duel.tw, sortedW]
  simp only [truncFactor, List.length_map, hm, nrm, duelOf_δ]
  split_ifs
  · rw [wDraw_eq, e1, mul_comm (tsMargin p β _), e2, fgT, fgMargin, l1, l2]
  · rw [wNonDraw_eq, e1, mul_comm (tsMargin p β _), e2, fgT, fgMargin, l1, l2]

/-- The core on two sorted teams. -/
theorem core_two (i j : ℕ) (ra rb : MultiTeamOutcome) (cfg : TrueSkillConfig ℝ)
    (hA : A ≠ []) (hB : B ≠ []) (hu : ∀ x ∈ A ++ B, x.1.uncertainty ≠ 0)
    (hw : ∀ x ∈ A ++ B, x.2 ≠ 0)
    (W V : ℝ)
    (hWe : W = sortedW ra rb (fgT cfg.beta (fgOf cfg.dynamicsFactor A) (fgOf cfg.dynamicsFactor B))
      (fgMargin cfg.drawProbability cfg.beta (fgOf cfg.dynamicsFactor A)
        (fgOf cfg.dynamicsFactor B)))
    (hVe : V = sortedV ra rb (fgT cfg.beta (fgOf cfg.dynamicsFactor A) (fgOf cfg.dynamicsFactor B))
      (fgMargin cfg.drawProbability cfg.beta (fgOf cfg.dynamicsFactor A)
        (fgOf cfg.dynamicsFactor B)))
    (h0 : 0 < W) (h1 : W < 1) :
    core [⟨i, A.map (·.1), ra, A.map (·.2)⟩, ⟨j, B.map (·.1), rb, B.map (·.2)⟩] cfg =
      .ok [(fgOf cfg.dynamicsFactor A).map (fgUpdate (fgC cfg.beta (fgOf cfg.dynamicsFactor A)
            (fgOf cfg.dynamicsFactor B)) V W),
        (fgOf cfg.dynamicsFactor B).map (fgUpdate (fgC cfg.beta (fgOf cfg.dynamicsFactor A)
            (fgOf cfg.dynamicsFactor B)) (-V) W)] := by
  set τ := cfg.dynamicsFactor with hτ
  set β := cfg.beta with hβ
  set p := cfg.drawProbability with hp
  have ok := duelOf_ok A B τ β hA hB hu hw
  have ev := duelOf_tv ok p ((duelOf A B τ β).n + (duelOf A B τ β).n + 3) ra rb
  have ew := duelOf_tw ok p ((duelOf A B τ β).n + (duelOf A B τ β).n + 3) ra rb
  rw [← hVe] at ev
  rw [← hWe] at ew
  obtain ⟨s, hs, hread⟩ := Duel.result ok p (A.map (·.1), ra) (B.map (·.1), rb)
    (by change 0 < Duel.tw _ (truncFactor p β _ 0 _ _); rw [ew]; exact h0)
    (by change Duel.tw _ (truncFactor p β _ 0 _ _) < 1; rw [ew]; exact h1)
  have hR : (List.range (duelOf A B τ β).n).map (duelOf A B τ β).R = A.map (·.1) ++ B.map (·.1) := by
    rw [duelOf_n, ← List.map_append]
    exact map_range_getD (fun x : TrueSkillRating ℝ × ℝ => x.1) (⟨0, 0⟩, 0) (A ++ B)
  have hW : (List.range (duelOf A B τ β).n).map (duelOf A B τ β).w = A.map (·.2) ++ B.map (·.2) := by
    rw [duelOf_n, ← List.map_append]
    exact map_range_getD (fun x : TrueSkillRating ℝ × ℝ => x.2) (⟨0, 0⟩, 0) (A ++ B)
  rw [hR, hW] at hs
  have hsz : teamSizes [(A.map (·.1), ra), (B.map (·.1), rb)] =
      [A.length, A.length + B.length] := by
    simp [teamSizes, Nat.add_comm]
  have hs' : runSchedule [A.length, A.length + B.length] [(A.map (·.1), ra), (B.map (·.1), rb)]
      (A.map (·.1) ++ B.map (·.1)) (A.map (·.2) ++ B.map (·.2)) τ β p 0.0001 = .ok s := hs
  have hC := Duel.C_pos ok
  have hsqC : (duelOf A B τ β).C = fgC β (fgOf τ A) (fgOf τ B) ^ 2 := by
    rw [← duelOf_sqrtC, Real.sq_sqrt hC.le]
  have hread' : ∀ i < (A ++ B).length, readRating s i =
      fgUpdate (fgC β (fgOf τ A) (fgOf τ B)) (Duel.sgn ((duelOf A B τ β).team i) * V) W
        (fgPlayer τ ((A ++ B).getD i (⟨0, 0⟩, 0)).1 ((A ++ B).getD i (⟨0, 0⟩, 0)).2) := by
    intro i hi
    rw [hread i (by rw [duelOf_n]; exact hi)]
    have ev' : (duelOf A B τ β).tv (truncFactor p (duelOf A B τ β).β
      ((duelOf A B τ β).n + (duelOf A B τ β).n + 3) 0 (A.map (·.1), ra) (B.map (·.1), rb)) = V := ev
    have ew' : (duelOf A B τ β).tw (truncFactor p (duelOf A B τ β).β
      ((duelOf A B τ β).n + (duelOf A B τ β).n + 3) 0 (A.map (·.1), ra) (B.map (·.1), rb)) = W := ew
    rw [ev', ew', duelOf_sqrtC, hsqC]
    simp only [fgUpdate, fgPlayer, Duel.μ, Duel.S, duelOf]
    congr 1
    ring
  have hplayers : (List.range (A.map (·.1) ++ B.map (·.1)).length).map (readRating s) =
      ((fgOf τ A).map (fgUpdate (fgC β (fgOf τ A) (fgOf τ B)) V W)) ++
        ((fgOf τ B).map (fgUpdate (fgC β (fgOf τ A) (fgOf τ B)) (-V) W)) := by
    apply List.ext_getElem
    · simp [fgOf]
    · intro k hk1 hk2
      have hk : k < (A ++ B).length := by simpa using hk1
      simp only [List.getElem_map, List.getElem_range]
      rw [hread' k hk, getD_lt _ _ hk]
      by_cases hkA : k < A.length
      · simp [List.getElem_append, Duel.team, duelOf, hkA, Duel.sgn, fgOf]
      · simp [List.getElem_append, Duel.team, duelOf, hkA, Duel.sgn, fgOf]
  rw [core]
  simp only [List.map_cons, List.map_nil, List.flatten_cons, List.flatten_nil, List.append_nil, hsz]
  rw [hs']
  simp only [hplayers]
  congr 1
  have la : ((fgOf τ A).map (fgUpdate (fgC β (fgOf τ A) (fgOf τ B)) V W)).length = A.length := by
    simp [fgOf]
  have lb : ((fgOf τ B).map (fgUpdate (fgC β (fgOf τ A) (fgOf τ B)) (-V) W)).length = B.length := by
    simp [fgOf]
  have r0 : ∀ X Y : List (TrueSkillRating ℝ), X.length = A.length → Y.length = B.length →
      regroup [A.length, A.length + B.length] (X ++ Y) = [X, Y] := by
    intro X Y hX hY
    rw [← hX, ← hY]
    simp only [regroup, slice, List.dropLast_cons_cons, List.dropLast_singleton, List.zip_cons_cons,
      List.zip_nil_right, List.map_cons, List.map_nil, List.drop_zero, List.take_left]
    rw [← List.length_append, List.take_length, List.drop_left]
  exact r0 _ _ la lb

end
end TrueSkill
end Skillratings
