import Verif.Props.FloatNanPeriods
/-
C163 for teams: one player whose rating is not a number is enough to lose all ratings of a match.
-/
namespace Skillratings
open FP FPVal NaN
variable {E : FloatEnv}

private theorem nonempty_of {α : Type} {s : List α} (h : s ≠ []) : s.isEmpty = false := by
  cases s with
  | nil => exact (h rfl).elim
  | cons => rfl

private theorem wengLin_team_q {t : List (WengLin.WengLinRating (FP E))} (h : ∃ p ∈ t, p.rating.isNaN) :
    WengLin.teamRating t = q E := by
  obtain ⟨p, hp, h⟩ := h
  exact sum_q (List.mem_map.2 ⟨p, hp, eq_q h⟩)

private theorem trueskill_team_q {t : List (TrueSkill.TrueSkillRating (FP E))} (h : ∃ p ∈ t, p.rating.isNaN) :
    TrueSkill.teamRating t = q E := by
  obtain ⟨p, hp, h⟩ := h
  exact sum_q (List.mem_map.2 ⟨p, hp, eq_q h⟩)

theorem C163_wengLin_two_teams (L : E.Lib) (s t : List (WengLin.WengLinRating (FP E))) (o : Outcomes)
    (c : WengLin.WengLinConfig (FP E)) (hs : s ≠ []) (ht : t ≠ [])
    (h : (∃ p ∈ s, p.rating.isNaN) ∨ ∃ p ∈ t, p.rating.isNaN) :
    (∀ p ∈ (WengLin.wengLinTwoTeams s t o c).1, p.rating.isNaN) ∧
      ∀ p ∈ (WengLin.wengLinTwoTeams s t o c).2, p.rating.isNaN := by
  have hp : ∀ x : FP E, WengLin.pValue (WengLin.teamRating s) (WengLin.teamRating t) x = (q E, q E) := by
    intro x
    rcases h with h | h <;>
      simp only [WengLin.pValue, wengLin_team_q h, q_div, exp_q L, q_add, add_q, div_q, sub_q]
  simp only [WengLin.wengLinTwoTeams, nonempty_of hs, nonempty_of ht, Bool.or_false, Bool.false_eq_true, if_false, hp,
    WengLin.smallDelta, sub_q, mul_q, WengLin.updateTeam, WengLin.newRatingTeams, mulAdd_mid, List.mem_map]
  exact ⟨by rintro p ⟨_, _, rfl⟩; exact isNaN_q, by rintro p ⟨_, _, rfl⟩; exact isNaN_q⟩

theorem C163_trueskill_two_teams (L : E.Lib) (s t : List (TrueSkill.TrueSkillRating (FP E))) (o : Outcomes)
    (c : TrueSkill.TrueSkillConfig (FP E)) (hs : s ≠ []) (ht : t ≠ [])
    (h : (∃ p ∈ s, p.rating.isNaN) ∨ ∃ p ∈ t, p.rating.isNaN) :
    (∀ p ∈ (TrueSkill.trueskillTwoTeams s t o c).1, p.rating.isNaN) ∧
      ∀ p ∈ (TrueSkill.trueskillTwoTeams s t o c).2, p.rating.isNaN := by
  have hd : TrueSkill.ratingDelta (TrueSkill.teamRating s) (TrueSkill.teamRating t) o = q E := by
    rcases h with h | h <;> cases o <;> simp only [TrueSkill.ratingDelta, trueskill_team_q h, q_sub, sub_q]
  simp only [TrueSkill.trueskillTwoTeams, nonempty_of hs, nonempty_of ht, Bool.or_false, Bool.false_eq_true, if_false,
    hd, vw_q L, TrueSkill.updateTeam, TrueSkill.newRating, mulAdd_mid, List.mem_map]
  exact ⟨by rintro p ⟨_, _, rfl⟩; exact isNaN_q, by rintro p ⟨_, _, rfl⟩; exact isNaN_q⟩

/-- In a match of at least two teams without an empty one. -/
theorem C163_wengLin_multi (L : E.Lib) (ts : List (List (WengLin.WengLinRating (FP E)) × MultiTeamOutcome))
    (c : WengLin.WengLinConfig (FP E)) (h2 : 2 ≤ ts.length) (he : ∀ t ∈ ts, t.1 ≠ [])
    (h : ∃ t ∈ ts, ∃ p ∈ t.1, p.rating.isNaN) :
    ∀ t ∈ WengLin.wengLinMultiTeam ts c, ∀ p ∈ t, p.rating.isNaN := by
  have e1 : ts.isEmpty = false := nonempty_of (by rintro rfl; simp at h2)
  have e2 : ts.any (fun t => t.1.isEmpty) = false := by
    rw [List.any_eq_false]
    intro t ht
    simp [he t ht]
  have key : ∀ one i, (one, i) ∈ (ts.map WengLin.teamInfo).zipIdx →
      (WengLin.omegaDelta (ts.map WengLin.teamInfo) one i c).1 = q E := by
    intro one i hi
    rw [WengLin.omegaDelta]
    refine fold_bad (P := fun acc : FP E × FP E => acc.1 = q E)
      (Q := fun tq : WengLin.TeamInfo (FP E) × ℕ => i ≠ tq.2 ∧ (one.rating = q E ∨ tq.1.rating = q E))
      ?_ _ _ (Or.inr ?_)
    · rintro acc ⟨two, j⟩ hb
      by_cases hj : i = j
      · simp only [hj, if_true]
        rcases hb with hb | ⟨hb, -⟩
        · exact hb
        · exact (hb hj).elim
      · simp only [hj, if_false]
        rcases hb with hb | ⟨-, hb | hb⟩
        · rw [hb, q_add]
        · simp only [WengLin.pValue, WengLin.smallDelta, hb, q_div, exp_q L, q_add, sub_q, mul_q, add_q]
        · have hb : two.rating = q E := hb
          simp only [WengLin.pValue, WengLin.smallDelta, hb, q_div, exp_q L, div_q, sub_q, mul_q, add_q]
    · -- a team other than `one` that makes the difference NaN
      obtain ⟨t, ht, hb⟩ := h
      obtain ⟨j, hj, rfl⟩ := List.mem_iff_getElem.1 ht
      have hq : (WengLin.teamInfo ts[j]).rating = q E := wengLin_team_q hb
      rw [List.mem_zipIdx_iff_getElem?] at hi
      simp only at hi
      by_cases hij : i = j
      · subst hij
        have ho : one.rating = q E := by
          rw [List.getElem?_map, List.getElem?_eq_getElem hj] at hi
          simp only [Option.map_some, Option.some.injEq] at hi
          rw [← hi]; exact hq
        obtain ⟨k, hk, hne⟩ : ∃ k, k < ts.length ∧ i ≠ k := by
          by_cases h0 : i = 0
          · exact ⟨1, by omega, by omega⟩
          · exact ⟨0, by omega, h0⟩
        refine ⟨(WengLin.teamInfo ts[k], k), ?_, hne, Or.inl ho⟩
        rw [List.mem_zipIdx_iff_getElem?]
        simp [hk]
      · refine ⟨(WengLin.teamInfo ts[j], j), ?_, hij, Or.inr hq⟩
        rw [List.mem_zipIdx_iff_getElem?]
        simp [hj]
  intro t ht p hp
  simp only [WengLin.wengLinMultiTeam, e1, e2, Bool.false_eq_true, if_false] at ht
  obtain ⟨⟨one, i⟩, hi, rfl⟩ := List.mem_map.1 ht
  simp only [WengLin.updateTeam, WengLin.newRatingTeams, key one i hi, mulAdd_mid, List.mem_map] at hp
  obtain ⟨_, _, rfl⟩ := hp
  exact isNaN_q

example : ∀ t ∈ WengLin.wengLinMultiTeam
    [([(⟨25.0, 8.0⟩ : WengLin.WengLinRating (FP ieee))], MultiTeamOutcome.new 1),
      ([⟨FPVal.nan, 8.0⟩, ⟨30.0, 2.0⟩], MultiTeamOutcome.new 2), ([⟨28.0, 3.0⟩], MultiTeamOutcome.new 3)]
      ⟨4.0, 0.000001⟩, ∀ p ∈ t, p.rating.isNaN :=
  C163_wengLin_multi ieee_lib _ _ (by simp) (by simp)
    ⟨([⟨FPVal.nan, 8.0⟩, ⟨30.0, 2.0⟩], MultiTeamOutcome.new 2), by simp, ⟨FPVal.nan, 8.0⟩, by simp, trivial⟩

end Skillratings
