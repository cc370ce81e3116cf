import Verif.Props.FloatAccuracyWlTeams
import Verif.Props.FloatEven
/-
C164 for Weng-Lin teams: tied teams that list the same ratings keep them, in floating point.
-/
namespace Skillratings
open FP FPVal Spec
variable {E : FloatEnv}

namespace WengLin

/-- Equal strengths share the point exactly. -/
theorem even_point (A : E.Accurate) {r c : FP E} (hq : Within 500 (r / c)) : Is (pValue r r c).1 (1 / 2) := by
  obtain ⟨f1, p1, u1⟩ := exp_moderate A hq
  simp only [pValue]
  set x := (Flt.exp (r / c) : FP E)
  obtain ⟨t, ht⟩ := add_fin f1 f1
  have hs : Is (x + x) (x.toR + x.toR) := by
    rw [ht]; exact Is.round (srep_double (isFinite.srep f1) p1 u1)
  obtain ⟨k, hk⟩ := div_fin f1 hs.1 (by rw [hs.2]; linarith)
  have e : x.toR / (x + x).toR = 1 / 2 := by
    rw [hs.2]; field_simp; ring
  rw [hk, e]
  exact Is.round SRep.half

/-- Two sides of the same strength, as they are summed up. -/
theorem even_sides (L : E.Lib) (A : E.Accurate) {c : WengLinConfig (FP E)} (hc : WlUsualConfig c)
    {r u u' : FP E} {s s' : WlSide} (h : Summed c.beta.toR r u s) (h' : Summed c.beta.toR r u' s') :
    let cc := Flt.sqrt (Flt.mulAdd (2.0 : FP E) (Flt.powi c.beta 2) (u + u'))
    Is (pValue r r cc).1 (1 / 2) ∧ (u / cc).isFinite ∧ (u' / cc).isFinite := by
  intro cc
  obtain ⟨h1, -, -, -, -⟩ := pair_near L A hc h h'
  have b1 := hc.1.2.1
  have b0 : 0 < c.beta.toR := lt_of_lt_of_le (by norm_num) b1
  refine ⟨even_point A ?_, (h.2.2.div h1 (by norm_num) (by norm_num) (by norm_num)).1.1,
    (h'.2.2.div h1 (by norm_num) (by norm_num) (by norm_num)).1.1⟩
  have hC : c.beta.toR ≤ wlC c.beta.toR s.v s'.v := by
    have := h.2.2.2.pos; have := h'.2.2.2.pos
    rw [wlC]
    refine Real.le_sqrt_of_sq_le ?_
    nlinarith
  have hcc := (abs_le.1 (h1.1.near h1.2.pos.le).2).1
  have hr := abs_le.1 h.1.2
  have hm := abs_le.1 h.2.1
  have c0 : 0.9 * c.beta.toR ≤ cc.toR := by norm_num at hcc ⊢; linarith
  have hr' : |r.toR| ≤ 251 * c.beta.toR := by
    rw [abs_le]; norm_num at hr ⊢; constructor <;> linarith [hr.1, hr.2, hm.1, hm.2]
  have cp : 0 < cc.toR := lt_of_lt_of_le (by positivity) c0
  obtain ⟨t, ht⟩ := div_fin h.1.1 h1.1.1 cp.ne'
  have h5 : |r.toR / cc.toR| ≤ 500 := by
    rw [abs_div, abs_of_pos cp, div_le_iff₀ cp]
    norm_num at c0; linarith
  rw [ht]
  have h2 := abs_le.1 h5
  exact In.within (In.of_round t (SRep.ofNat 500 (by norm_num)).neg (SRep.ofNat 500 (by norm_num)) h2.1 h2.2)

/-- No surprise, no change. -/
theorem updateTeam_same (L : E.Lib) {c : WengLinConfig (FP E)} (hc : WlUsualConfig c)
    {t : List (WengLinRating (FP E))} (ht : WlTeam c t) {Ω Δ κ : FP E} (hΩ : Is Ω 0) :
    List.Forall₂ (fun a a' => Is a'.rating a.rating.toR) t (updateTeam t (teamUncertaintySq t) κ Ω Δ) := by
  refine List.forall₂_map_right_iff.2 (List.forall₂_same.2 fun a ha => ?_)
  obtain ⟨m1, m2, m3⟩ := ht.2.2.1 a ha
  have hs := (FP.Spec.Between.ap' m3).sq L (by norm_num) (by norm_num)
  have k := hs.div (summed_team L hc ht).2.2 (by norm_num) (by norm_num) (by norm_num)
  exact Is.mulAdd k.1.1 hΩ ⟨m1, rfl⟩

/-- A draw of two teams that list the same ratings, whatever the uncertainties. -/
theorem C164_wengLin_two_teams (L : E.Lib) (A : E.Accurate) (s t : List (WengLinRating (FP E)))
    (c : WengLinConfig (FP E)) (hc : WlUsualConfig c) (hs : WlTeam c s) (ht : WlTeam c t)
    (heq : s.map (·.rating) = t.map (·.rating)) :
    List.Forall₂ (fun a a' => Is a'.rating a.rating.toR) s (wengLinTwoTeams s t .DRAW c).1 ∧
    List.Forall₂ (fun a a' => Is a'.rating a.rating.toR) t (wengLinTwoTeams s t .DRAW c).2 := by
  have e : teamRating s = teamRating t := by rw [teamRating, teamRating, heq]
  have S := summed_team L hc hs
  have T := summed_team L hc ht
  rw [e] at S
  obtain ⟨h1, h2, h3⟩ := even_sides L A hc S T
  rw [twoTeams_eq s t .DRAW c hs.1 ht.1, e]
  exact ⟨updateTeam_same L hc hs (Is.mul_zero h2 (Is.sub_self Is.draw h1)),
    updateTeam_same L hc ht (Is.mul_zero h3 (Is.sub_self (Is.one_sub Is.draw) (Is.one_sub h1)))⟩

/-- A tie of any number of teams that list the same ratings, whatever the uncertainties. -/
theorem C164_wengLin_multi_team (L : E.Lib) (A : E.Accurate)
    (ts : List (List (WengLinRating (FP E)) × MultiTeamOutcome)) (c : WengLinConfig (FP E))
    (hc : WlUsualConfig c) (hts : ∀ t ∈ ts, WlTeam c t.1) (rank : MultiTeamOutcome) (hr : ∀ t ∈ ts, t.2 = rank)
    (rs : List (FP E)) (heq : ∀ t ∈ ts, t.1.map (·.rating) = rs) :
    ∀ (i : ℕ) (t : List (WengLinRating (FP E)) × MultiTeamOutcome), ts[i]? = some t →
      ∃ t', (wengLinMultiTeam ts c)[i]? = some t' ∧ List.Forall₂ (fun a a' => Is a'.rating a.rating.toR) t.1 t' := by
  intro i t ht
  have htm := List.mem_of_getElem? ht
  have S := summed_team L hc (hts t htm)
  refine ⟨_, multi_get ts c (fun u hu => (hts u hu).1) i ht, updateTeam_same L hc (hts t htm) ?_⟩
  rw [omegaDelta_eq]
  have hm : ∀ x ∈ ts.zipIdx.filter (fun tq => !decide (i = tq.2)), x.1 ∈ ts := by
    intro x hx
    have h := (List.mem_filter.1 hx).1
    exact (List.mem_zipIdx h).2.2 ▸ List.getElem_mem _
  generalize ts.zipIdx.filter (fun tq => !decide (i = tq.2)) = l at hm
  have z : Is (0.0 : FP E) 0 := Is.iff_in.2 (lit_in (E := E) (m := 0) (s := true) (e := 1) (v := 0)
    (by norm_num) SRep.zero)
  have key : ∀ x y : FP E, Is x 0 → Is (l.foldl (fun acc tq => (acc.1 + (comparison c (teamInfo t) (teamInfo tq.1)).1,
      acc.2 + (comparison c (teamInfo t) (teamInfo tq.1)).2)) (x, y)).1 0 := by
    induction l with
    | nil => exact fun _ _ h => h
    | cons q l ih =>
      intro x y hx
      refine ih (fun x hx => hm x (List.mem_cons_of_mem _ hx)) _ _ (hx.add_zero ?_)
      have hq := hm q List.mem_cons_self
      have T := summed_team L hc (hts q.1 hq)
      have e : teamRating t.1 = teamRating q.1.1 := by rw [teamRating, teamRating, heq t htm, heq q.1 hq]
      have S' := S
      rw [e] at S'
      obtain ⟨h1, h2, -⟩ := even_sides L A hc S' T
      have hs : Is (rankScore t.2 q.1.2 : FP E) (1 / 2) := by
        rw [hr t htm, hr q.1 hq]
        have : (rankScore rank rank : FP E) = 0.5 := by simp [rankScore, MultiTeamOutcome.cmp]
        rw [this]; exact Is.draw
      have : Is (smallDelta (teamUncertaintySq t.1) (Flt.sqrt (Flt.mulAdd (2.0 : FP E) (Flt.powi c.beta 2)
          (teamUncertaintySq t.1 + teamUncertaintySq q.1.1)))
          (pValue (teamRating t.1) (teamRating q.1.1) (Flt.sqrt (Flt.mulAdd (2.0 : FP E) (Flt.powi c.beta 2)
          (teamUncertaintySq t.1 + teamUncertaintySq q.1.1)))).1 (rankScore t.2 q.1.2)) 0 := by
        rw [e]
        exact Is.mul_zero h2 (Is.sub_self hs h1)
      exact this
  exact key _ _ z

/-! ### Examples -/

/-- Two teams of two, at 25 ± 8. -/
example := C164_wengLin_two_teams (E := ieee) ieee_lib ieee_accurate [⟨25.0, 8.0⟩, ⟨25.0, 8.0⟩]
  [⟨25.0, 8.0⟩, ⟨25.0, 8.0⟩] ⟨4.0, 0.5⟩ usual_config usual_team usual_team rfl

/-- Three of them, all in the first place. -/
example := C164_wengLin_multi_team (E := ieee) ieee_lib ieee_accurate
  [([⟨25.0, 8.0⟩, ⟨25.0, 8.0⟩], ⟨1⟩), ([⟨25.0, 8.0⟩, ⟨25.0, 8.0⟩], ⟨1⟩), ([⟨25.0, 8.0⟩, ⟨25.0, 8.0⟩], ⟨1⟩)]
  ⟨4.0, 0.5⟩ usual_config (by
    intro t ht
    have : t.1 = [⟨25.0, 8.0⟩, ⟨25.0, 8.0⟩] := by
      simp only [List.mem_cons, List.not_mem_nil, or_false] at ht
      rcases ht with h | h | h <;> rw [h]
    rw [this]; exact usual_team) ⟨1⟩ (by simp) [25.0, 25.0] (by simp)

end WengLin
end Skillratings
