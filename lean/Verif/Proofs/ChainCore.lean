import Verif.Proofs.Chain
import Verif.Proofs.TwoTeams
/-
`trueskill_multi_team` on any number of sorted teams (C97).
-/
namespace Skillratings
namespace TrueSkill
open Finset Spec

/-! ### Lists of lists -/

section
variable {α : Type}

theorem flatten_getD (dflt : α) (l : List (List α)) : ∀ (t j : ℕ), j < (l.getD t []).length →
    l.flatten.getD (∑ u ∈ range t, (l.getD u []).length + j) dflt = (l.getD t []).getD j dflt := by
  induction l with
  | nil => intro t j h; simp at h
  | cons a l ih =>
    intro t j h
    cases t with
    | zero =>
      rw [List.getD_cons_zero] at h
      rw [List.flatten_cons, range_zero, sum_empty, Nat.zero_add, append_getD_left _ _ _ h,
        List.getD_cons_zero]
    | succ t =>
      rw [List.getD_cons_succ] at h
      rw [sum_range_succ', List.flatten_cons, List.getD_cons_zero, List.getD_cons_succ]
      simp only [List.getD_cons_succ]
      rw [add_right_comm, add_comm _ a.length, append_getD_right, ih t j h]

theorem flatten_length_sum (l : List (List α)) :
    ∑ u ∈ range l.length, (l.getD u []).length = l.flatten.length := by
  induction l with
  | nil => simp
  | cons a l ih =>
    rw [List.length_cons, sum_range_succ']
    simp only [List.getD_cons_succ, List.getD_cons_zero, ih, List.flatten_cons, List.length_append]
    exact Nat.add_comm _ _

theorem take_sum (l : List (List α)) : ∀ t, ((l.map List.length).take t).sum =
    ∑ u ∈ range t, (l.getD u []).length := by
  induction l with
  | nil => intro t; simp
  | cons a l ih =>
    intro t
    cases t with
    | zero => simp
    | succ t =>
      rw [sum_range_succ', List.map_cons, List.take_succ_cons, List.sum_cons, ih t]
      simp only [List.getD_cons_succ, List.getD_cons_zero]
      exact Nat.add_comm _ _

end

theorem buildTruncLayer_eq (p b : ℝ) (id : ℕ) (dflt : List (TrueSkillRating ℝ) × MultiTeamOutcome)
    (l : List (List (TrueSkillRating ℝ) × MultiTeamOutcome)) : ∀ x,
    buildTruncLayer p b id x l = (List.range (l.length - 1)).map fun k =>
      truncFactor p b (id + (x + k)) (x + k) (l.getD k dflt) (l.getD (k + 1) dflt) := by
  induction l with
  | nil => intro x; rfl
  | cons a l ih =>
    intro x
    cases l with
    | nil => rfl
    | cons c l =>
      rw [buildTruncLayer, ih (x + 1)]
      simp only [List.length_cons, Nat.add_sub_cancel]
      rw [List.range_succ_eq_map, List.map_cons, List.map_map]
      congr 1
      apply List.map_congr_left
      intro k _
      simp only [Function.comp, List.getD_cons_succ, Nat.succ_eq_add_one]
      rw [show x + 1 + k = x + (k + 1) by omega]

/-! ### The field of a list of teams -/

/-- Players with weights, and a rank. -/
abbrev ZTeam := List (TrueSkillRating ℝ × ℝ) × MultiTeamOutcome

/-- The default team. -/
abbrev zd : ZTeam := ([], ⟨0⟩)
/-- The default player. -/
noncomputable abbrev zp : TrueSkillRating ℝ × ℝ := (⟨0, 0⟩, 0)

/-- The teams, as a field. -/
noncomputable def fieldOf (Z : List ZTeam) (τ β : ℝ) : Field where
  m := Z.length
  sz := fun t => (Z.getD t zd).1.length
  R := fun i => ((Z.map (·.1)).flatten.getD i zp).1
  w := fun i => ((Z.map (·.1)).flatten.getD i zp).2
  τ := τ
  β := β

/-- The teams of the specification. -/
noncomputable def rankedOf (τ : ℝ) (Z : List ZTeam) : List RankedTeam :=
  Z.map fun z => (fgOf τ z.1, z.2.rank)

section
variable (Z : List ZTeam) (τ β : ℝ)

theorem fst_getD (t : ℕ) : (Z.map (·.1)).getD t [] = (Z.getD t zd).1 := by
  rw [List.getD_eq_getElem?_getD, List.getD_eq_getElem?_getD, List.getElem?_map]
  cases Z[t]? <;> rfl

theorem ranked_getD (t : ℕ) :
    (rankedOf τ Z).getD t ([], 0) = (fgOf τ (Z.getD t zd).1, (Z.getD t zd).2.rank) := by
  rw [List.getD_eq_getElem?_getD, List.getD_eq_getElem?_getD, rankedOf, List.getElem?_map]
  cases Z[t]? <;> rfl

theorem fieldOf_off (t : ℕ) :
    (fieldOf Z τ β).off t = ∑ u ∈ range t, ((Z.map (·.1)).getD u []).length := by
  simp only [Field.off, fieldOf, fst_getD]

theorem fieldOf_n : (fieldOf Z τ β).n = (Z.map (·.1)).flatten.length := by
  rw [← flatten_length_sum, List.length_map]
  exact fieldOf_off Z τ β Z.length

theorem fieldOf_player {t j : ℕ} (hj : j < (Z.getD t zd).1.length) :
    (Z.map (·.1)).flatten.getD ((fieldOf Z τ β).off t + j) zp = (Z.getD t zd).1.getD j zp := by
  rw [fieldOf_off, flatten_getD zp _ t j (by rw [fst_getD]; exact hj), fst_getD]

theorem fieldOf_M (t : ℕ) : (fieldOf Z τ β).M t = fgMean (fgOf τ (Z.getD t zd).1) := by
  have e : fgMean (fgOf τ (Z.getD t zd).1) =
      ((Z.getD t zd).1.map fun x => x.2 * x.1.rating).sum := by
    rw [fgMean, fgOf, List.map_map]; rfl
  rw [e, ← sum_getD _ zp]
  refine sum_congr rfl fun j hj => ?_
  have := fieldOf_player Z τ β (mem_range.1 hj)
  simp only [Field.μ, fieldOf] at this ⊢
  rw [this]

theorem fieldOf_Q (t : ℕ) : (fieldOf Z τ β).Q t = fgVariance β (fgOf τ (Z.getD t zd).1) := by
  have e : fgVariance β (fgOf τ (Z.getD t zd).1) =
      ((Z.getD t zd).1.map fun x => x.2 ^ 2 * (x.1.uncertainty ^ 2 + τ ^ 2 + β ^ 2)).sum := by
    rw [fgVariance, fgOf, List.map_map]; rfl
  rw [e, ← sum_getD _ zp]
  refine sum_congr rfl fun j hj => ?_
  have := fieldOf_player Z τ β (mem_range.1 hj)
  simp only [Field.V, Field.S, fieldOf] at this ⊢
  rw [this]

/-- What is asked of the teams. -/
structure ZOk (Z : List ZTeam) : Prop where
  two : 2 ≤ Z.length
  ne : ∀ z ∈ Z, z.1 ≠ []
  u : ∀ z ∈ Z, ∀ x ∈ z.1, x.1.uncertainty ≠ 0
  w : ∀ z ∈ Z, ∀ x ∈ z.1, x.2 ≠ 0

theorem fieldOf_ok (h : ZOk Z) : (fieldOf Z τ β).Ok := by
  have hmem : ∀ i < (fieldOf Z τ β).n, ∃ z ∈ Z, (Z.map (·.1)).flatten.getD i zp ∈ z.1 := by
    intro i hi
    rw [fieldOf_n] at hi
    rw [getD_lt _ _ hi]
    have := List.getElem_mem hi
    rw [List.mem_flatten] at this
    obtain ⟨l, hl, hx⟩ := this
    rw [List.mem_map] at hl
    obtain ⟨z, hz, rfl⟩ := hl
    exact ⟨z, hz, hx⟩
  refine ⟨h.two, fun t ht => ?_, fun i hi => ?_, fun i hi => ?_⟩
  · have ht' : t < Z.length := ht
    change 0 < (Z.getD t zd).1.length
    rw [getD_lt _ _ ht', List.length_pos_iff]
    exact h.ne _ (List.getElem_mem ht')
  · obtain ⟨z, hz, hx⟩ := hmem i hi; exact h.u z hz _ hx
  · obtain ⟨z, hz, hx⟩ := hmem i hi; exact h.w z hz _ hx

/-- The players of a team without the weights. -/
def bare (z : ZTeam) : List (TrueSkillRating ℝ) × MultiTeamOutcome := (z.1.map (·.1), z.2)

theorem bare_getD (t : ℕ) : (Z.map bare).getD t ([], ⟨0⟩) = bare (Z.getD t zd) := by
  rw [List.getD_eq_getElem?_getD, List.getD_eq_getElem?_getD, List.getElem?_map]
  cases Z[t]? <;> rfl

theorem fieldOf_fits (p : ℝ) : Field.Fits (fieldOf Z τ β)
    (fun k => truncFactor p β ((fieldOf Z τ β).tid k) k (bare (Z.getD k zd))
      (bare (Z.getD (k + 1) zd))) (leagueOf p β (rankedOf τ Z)) := by
  have hm : ∀ a b : ZTeam, drawMargin p β
      (Flt.sum [(Flt.ofNat (bare a).1.length : ℝ), Flt.ofNat (bare b).1.length]) =
      tsMargin p β ((fgOf τ a.1).length + (fgOf τ b.1).length) := by
    intro a b
    rw [← drawMargin_eq]
    simp only [flt, List.sum_cons, List.sum_nil, bare, fgOf, List.length_map]
    push_cast; ring_nf
  have hr : ∀ a b : ZTeam, (bare a).2 = (bare b).2 ↔ a.2.rank = b.2.rank := by
    rintro ⟨a, ⟨r⟩⟩ ⟨b, ⟨s⟩⟩; simp [bare, MultiTeamOutcome.rank]
  refine ⟨by simp [leagueOf, rankedOf, fieldOf], fun t _ => ?_, fun _ => rfl, fun _ => rfl, ?_, ?_⟩
  · rw [fieldOf_M, fieldOf_Q]
    simp only [leagueOf, ranked_getD]
  · intro k _ δ C hC
    have e1 := arg_eq (x := δ) hC
    have e2 := arg_eq
      (x := tsMargin p β ((fgOf τ (Z.getD k zd).1).length + (fgOf τ (Z.getD (k + 1) zd).1).length)) hC
    simp only [leagueOf, ranked_getD, truncFactor, hm, hr, nrm]
    split_ifs
    · rw [vDraw_eq, e1, mul_comm (tsMargin p β _), e2]
    · rw [vNonDraw_eq, e1, mul_comm (tsMargin p β _), e2]
  · intro k _ δ C hC
    have e1 := arg_eq (x := δ) hC
    have e2 := arg_eq
      (x := tsMargin p β ((fgOf τ (Z.getD k zd).1).length + (fgOf τ (Z.getD (k + 1) zd).1).length)) hC
    simp only [leagueOf, ranked_getD, truncFactor, hm, hr, nrm]
    split_ifs
    · rw [wDraw_eq, e1, mul_comm (tsMargin p β _), e2]
    · rw [wNonDraw_eq, e1, mul_comm (tsMargin p β _), e2]

theorem slice_read {β' : Type} (f : ℕ → β') (N a len : ℕ) (h : a + len ≤ N) :
    slice ((List.range N).map f) a (a + len) = (List.range len).map fun j => f (a + j) := by
  apply List.ext_getElem
  · simp only [slice, List.length_drop, List.length_take, List.length_map, List.length_range]; omega
  · intro i h1 h2
    simp [slice]

/-- The core on sorted teams. -/
theorem core_chain (sorted : List (PosTeam ℝ)) (cfg : TrueSkillConfig ℝ)
    (hl : ∀ p ∈ sorted, p.weights.length = p.team.length) (h2 : 2 ≤ sorted.length)
    (hne : ∀ p ∈ sorted, p.team ≠ [])
    (hu : ∀ p ∈ sorted, ∀ r ∈ p.team, r.uncertainty ≠ 0) (hw : ∀ p ∈ sorted, ∀ w ∈ p.weights, w ≠ 0)
    (g : List (List (TrueSkillRating ℝ)))
    (hg : chainUpdates cfg.drawProbability cfg.beta
      (sorted.map fun p => (fgTeam cfg.dynamicsFactor p.team p.weights, p.rank.rank)) = some g) :
    core sorted cfg = .ok g := by
  set τ := cfg.dynamicsFactor with hτ
  set β := cfg.beta with hβ
  set p := cfg.drawProbability with hp
  set Z : List ZTeam := sorted.map fun p => (p.team.zip p.weights, p.rank) with hZ
  have e1 : ∀ q ∈ sorted, (q.team.zip q.weights).map (·.1) = q.team := fun q hq =>
    List.map_fst_zip (by rw [hl q hq])
  have e2 : ∀ q ∈ sorted, (q.team.zip q.weights).map (·.2) = q.weights := fun q hq =>
    List.map_snd_zip (by rw [hl q hq])
  have hZok : ZOk Z := by
    refine ⟨by simpa [hZ] using h2, ?_, ?_, ?_⟩
    · intro z hz
      obtain ⟨q, hq, rfl⟩ := List.mem_map.1 hz
      intro h0
      exact hne q hq (by rw [← e1 q hq]; simp only at h0; rw [h0]; rfl)
    · intro z hz x hx
      obtain ⟨q, hq, rfl⟩ := List.mem_map.1 hz
      exact hu q hq _ (List.of_mem_zip hx).1
    · intro z hz x hx
      obtain ⟨q, hq, rfl⟩ := List.mem_map.1 hz
      exact hw q hq _ (List.of_mem_zip hx).2
  have hranked : (sorted.map fun q => (fgTeam τ q.team q.weights, q.rank.rank)) = rankedOf τ Z := by
    rw [rankedOf, hZ, List.map_map]
    apply List.map_congr_left
    intro q _
    simp only [Function.comp, fgTeam, fgOf, List.zip, List.map_zipWith]
  rw [hranked, chainUpdates, Option.map_eq_some_iff] at hg
  obtain ⟨x, hx, rfl⟩ := hg
  have ok := fieldOf_ok Z τ β hZok
  have hbare : (sorted.map fun v => (v.team, v.rank)) = Z.map bare := by
    rw [hZ, List.map_map]
    apply List.map_congr_left
    intro q hq
    simp only [Function.comp, bare, e1 q hq]
  have hflat : (sorted.map (·.team)).flatten = (Z.map (·.1)).flatten.map (·.1) := by
    rw [List.map_flatten, hZ, List.map_map, List.map_map]
    congr 1
    exact List.map_congr_left fun q hq => (e1 q hq).symm
  have hflatw : (sorted.map (·.weights)).flatten = (Z.map (·.1)).flatten.map (·.2) := by
    rw [List.map_flatten, hZ, List.map_map, List.map_map]
    congr 1
    exact List.map_congr_left fun q hq => (e2 q hq).symm
  have hR : (List.range (fieldOf Z τ β).n).map (fieldOf Z τ β).R = (sorted.map (·.team)).flatten := by
    rw [fieldOf_n, hflat]
    exact map_range_getD (fun x : TrueSkillRating ℝ × ℝ => x.1) zp _
  have hW : (List.range (fieldOf Z τ β).n).map (fieldOf Z τ β).w =
      (sorted.map (·.weights)).flatten := by
    rw [fieldOf_n, hflatw]
    exact map_range_getD (fun x : TrueSkillRating ℝ × ℝ => x.2) zp _
  have hlens : (Z.map bare).map (fun t => t.1.length) = (Z.map (·.1)).map List.length := by
    simp [bare]
  have hsz : teamSizes (Z.map bare) =
      (List.range (fieldOf Z τ β).m).map fun t => (fieldOf Z τ β).off (t + 1) := by
    rw [teamSizes_eq, List.length_map]
    apply List.map_congr_left
    intro t _
    rw [List.map_take, hlens, take_sum, fieldOf_off]
  have hT := buildTruncLayer_eq p β ((fieldOf Z τ β).n + (fieldOf Z τ β).n + (fieldOf Z τ β).m +
    ((fieldOf Z τ β).m - 1)) ([], ⟨0⟩) (Z.map bare) 0
  simp only [List.length_map, Nat.zero_add, bare_getD] at hT
  obtain ⟨s, hs, hread⟩ := Field.result ok p (Z.map bare) (by simp [fieldOf])
    (fun k => truncFactor p β ((fieldOf Z τ β).tid k) k (bare (Z.getD k zd))
      (bare (Z.getD (k + 1) zd))) (leagueOf p β (rankedOf τ Z)) (fieldOf_fits Z τ β p) hT x hx
  rw [hR, hW] at hs
  have hs' : runSchedule (teamSizes (Z.map bare)) (Z.map bare) (sorted.map (·.team)).flatten
      (sorted.map (·.weights)).flatten τ β p 0.0001 = .ok s := by
    rw [hsz]; exact hs
  rw [core]
  simp only [hbare, ← hτ, ← hβ, ← hp, hs']
  congr 1
  have hN : (sorted.map (·.team)).flatten.length = (fieldOf Z τ β).n := by
    rw [hflat, List.length_map, fieldOf_n]
  have hreg := regroup_eq ((Z.map (·.1)).map List.length)
    ((List.range (fieldOf Z τ β).n).map (readRating s))
  simp only [take_sum, List.length_map, ← fieldOf_off Z τ β] at hreg
  rw [hN, hsz]
  refine hreg.trans ?_
  apply List.ext_getElem
  · simp [rankedOf]
  · intro t h1 h2
    have ht : t < Z.length := by simpa using h1
    simp only [List.getElem_map, List.getElem_range, List.getElem_mapIdx]
    rw [Field.off_succ, slice_read _ _ _ _ (by
      rw [← Field.off_succ]; exact Field.off_mono ht)]
    have hzt : Z.getD t zd = Z[t] := getD_lt _ _ ht
    have hrt : (rankedOf τ Z)[t]'(by simpa [rankedOf] using ht) =
        (fgOf τ (Z.getD t zd).1, (Z.getD t zd).2.rank) := by
      rw [hzt]; simp only [rankedOf, List.getElem_map]
    rw [hrt]
    apply List.ext_getElem
    · simp [fieldOf, fgOf]
    · intro j h3 h4
      have hj : j < (Z.getD t zd).1.length := by simpa [fieldOf] using h3
      simp only [List.getElem_map, List.getElem_range, fgOf]
      rw [hread t ht j hj, fieldOf_M, fieldOf_Q]
      have hpl := fieldOf_player Z τ β hj
      simp only [Field.μ, Field.S, fgPlayer]
      simp only [fieldOf] at hpl ⊢
      rw [hpl, getD_lt _ _ hj]
      rfl

end
end TrueSkill
end Skillratings
