import Verif.Proofs.FPUpdates
import Verif.Model.TrueSkill
import Verif.FPInstance
/-
Degenerate inputs in floating point: C23 (EGF above 3300), C27 (Ingo without results), C81
(Weng-Lin and TrueSkill).
-/

namespace Skillratings
open FP FPVal
variable {E : FloatEnv}

/-! ### C23: EGF ratings above 3300 -/

/-- A finite rating above 3300 becomes -900 in any game, for the first and the second player. -/
theorem C23_egf_above_ceiling (L : E.Lib) (a b : Egf.EGFRating (FP E)) (o : Outcomes)
    (c : Egf.EGFConfig (FP E)) :
    (a.rating.isFinite → 3300 < a.rating.toR →
      (Egf.egf a b o c).1.rating.toE = ((-900 : ℝ) : EReal)) ∧
    (b.rating.isFinite → 3300 < b.rating.toR →
      (Egf.egf a b o c).2.rating.toE = ((-900 : ℝ) : EReal)) := by
  have h := lit_in (E := E) (m := 9000) (s := true) (e := 1) (v := 900) (by norm_num)
    (SRep.ofNat 900 (by norm_num))
  have he : FP.toE (-(900.0 : FP E)) = ((-900 : ℝ) : EReal) := by
    rw [toE_neg', le_antisymm h.2.2 h.2.1]; rfl
  have key : ∀ (r s e bo : FP E), r.isFinite → 3300 < r.toR →
      (Egf.newRating r (Egf.con r) s e bo).toE = ((-900 : ℝ) : EReal) := by
    intro r s e bo hf hr
    rw [← he, Egf.newRating, fmax_nan (nan_add (nan_mulAdd (con_nan L hf hr)))]
  exact ⟨fun hf hr => key _ _ _ _ hf hr, fun hf hr => key _ _ _ _ hf hr⟩

/-- A win against a beginner costs a player rated 3400 more than 4000 points. -/
example : (Egf.egf (F := FP ieee) ⟨3400.0⟩ ⟨0.0⟩ .WIN ⟨0.0⟩).1.rating.toE = ((-900 : ℝ) : EReal) :=
  (C23_egf_above_ceiling ieee_lib ⟨3400.0⟩ ⟨0.0⟩ .WIN ⟨0.0⟩).1
    (lit_finite 3400 (by norm_num) (by norm_num))
    (by rw [(lit_rep (E := ieee) (m := 34000) (s := true) (e := 1) (v := 3400) (by norm_num)
      (SRep.ofNat 3400 (by norm_num))).2]; norm_num)

/-! ### C27: Ingo without results -/

theorem C27_ingo_empty_period_nan (p : Ingo.IngoRating (FP E)) :
    (Ingo.ingoRatingPeriod p []).rating.isNaN := by
  have h : ((Flt.sum ([] : List (FP E))) / Flt.ofNat 0).isNaN :=
    zero_div_zero (x := 0) rfl (by simp)
  exact nan_div (nan_mulAdd (nan_sub h))

example : (Ingo.ingoRatingPeriod (Ingo.IngoRating.new 30 : Ingo.IngoRating (FP ieee)) []).rating.isNaN :=
  C27_ingo_empty_period_nan _

/-! ### C81: Weng-Lin and TrueSkill -/

/-- Two players whose ratings are both at least 1454080, with `beta` in [1, 1000] and
uncertainties in [0, 1000], have no expected scores, and a game makes both ratings NaN. -/
theorem C81_wengLin_overflow (L : E.Lib) (a b : WengLin.WengLinRating (FP E)) (o : Outcomes)
    (c : WengLin.WengLinConfig (FP E))
    (hβ : In ((1 : ℝ) : EReal) ((1000 : ℝ) : EReal) c.beta)
    (hua : In ((0 : ℝ) : EReal) ((1000 : ℝ) : EReal) a.uncertainty)
    (hub : In ((0 : ℝ) : EReal) ((1000 : ℝ) : EReal) b.uncertainty)
    (ha : a.rating.isFinite) (hb : b.rating.isFinite)
    (ha' : 1454080 ≤ a.rating.toR) (hb' : 1454080 ≤ b.rating.toR) :
    ((WengLin.expectedScore a b c).1.isNaN ∧ (WengLin.expectedScore a b c).2.isNaN) ∧
    ((WengLin.wengLin a b o c).1.rating.isNaN ∧ (WengLin.wengLin a b o c).2.rating.isNaN) := by
  have hc := c_in L hβ hua hub
  have h1 := quotient_big ha ha' hc
  have h2 := quotient_big hb hb' hc
  have h := pValue_nan L h1.1 h2.1 h1.2 h2.2
  exact ⟨h, mulAdd_nan (sub_nan h.1), mulAdd_nan (sub_nan h.2)⟩

/-- The update of a team without uncertainty. -/
theorem zero_team (L : E.Lib) (t : List (WengLin.WengLinRating (FP E))) (tol d e : FP E)
    (ht : ∀ p ∈ t, p.uncertainty.toE = 0 ∧ ¬ p.uncertainty.isNaN) :
    ∀ p ∈ WengLin.updateTeam t (WengLin.teamUncertaintySq t) tol d e, p.rating.isNaN := by
  have zsq : ∀ x : FP E, x.toE = 0 → ¬ x.isNaN → ∃ s, Flt.powi x 2 = FP.zero s := by
    intro x hx hn
    have h2 : Flt.powi x 2 = x * x := L.powi_two _
    rw [h2]
    cases x with
    | nan => exact (hn trivial).elim
    | inf s => cases s <;> simp [FP.toE, FPVal.toE] at hx
    | fin s m =>
      have hm : m.1 = 0 := by
        cases s <;> simpa [FP.toE, FPVal.toE, signed] using hx
      refine ⟨s ^^ s, ?_⟩
      change E.mul (fin s m) (fin s m) = fin _ _
      simp [FloatEnv.mul, hm, signed, FloatEnv.round]
  have zadd : ∀ s t, ∃ u, (FP.zero s : FP E) + FP.zero t = FP.zero u := by
    intro s t
    refine ⟨s && t, ?_⟩
    change E.add (fin s Mag.zero) (fin t Mag.zero) = fin _ _
    simp [FloatEnv.add, Mag.zero, signed, FloatEnv.round]
  have zsum : ∀ (l : List (WengLin.WengLinRating (FP E))) (s : Bool),
      (∀ p ∈ l, p.uncertainty.toE = 0 ∧ ¬ p.uncertainty.isNaN) →
      ∃ s', (l.map fun p => Flt.powi p.uncertainty 2).foldl (· + ·) (FP.zero s : FP E)
        = FP.zero s' := by
    intro l
    induction l with
    | nil => exact fun s _ => ⟨s, rfl⟩
    | cons p l ih =>
      intro s h
      obtain ⟨s1, h1⟩ := zsq _ (h p List.mem_cons_self).1 (h p List.mem_cons_self).2
      obtain ⟨s2, h2⟩ := zadd s s1
      obtain ⟨s3, h3⟩ := ih s2 (fun q hq => h q (List.mem_cons_of_mem _ hq))
      refine ⟨s3, ?_⟩
      rw [List.map_cons, List.foldl_cons, h1, h2]
      exact h3
  obtain ⟨s, hs⟩ := zsum t E.sumNeg ht
  intro p hp
  rw [WengLin.updateTeam] at hp
  obtain ⟨q, hq, rfl⟩ := List.mem_map.1 hp
  obtain ⟨s1, h1⟩ := zsq _ (ht q hq).1 (ht q hq).2
  refine nan_mulAdd ?_
  rw [h1, show WengLin.teamUncertaintySq t = _ from hs]
  change (E.div (fin s1 Mag.zero) (fin s Mag.zero)).isNaN
  simp [FloatEnv.div, Mag.zero, FPVal.isNaN]

/-- A team without uncertainty is rated NaN by a team match: its variance is divided by itself. -/
theorem C81_wengLin_two_teams_zero_uncertainty (L : E.Lib)
    (t u : List (WengLin.WengLinRating (FP E))) (o : Outcomes)
    (c : WengLin.WengLinConfig (FP E)) (ht0 : t ≠ []) (hu0 : u ≠ []) :
    ((∀ p ∈ t, p.uncertainty.toE = 0 ∧ ¬ p.uncertainty.isNaN) →
      ∀ p ∈ (WengLin.wengLinTwoTeams t u o c).1, p.rating.isNaN) ∧
    ((∀ p ∈ u, p.uncertainty.toE = 0 ∧ ¬ p.uncertainty.isNaN) →
      ∀ p ∈ (WengLin.wengLinTwoTeams t u o c).2, p.rating.isNaN) := by
  have hne : (t.isEmpty || u.isEmpty) = false := by
    simp [ht0, hu0]
  simp only [WengLin.wengLinTwoTeams, hne]
  exact ⟨fun h => zero_team L t _ _ _ h, fun h => zero_team L u _ _ _ h⟩

/-- A TrueSkill tournament with a single team has no expected score. -/
theorem C81_trueskill_expected_single_nan (t : List (TrueSkill.TrueSkillRating (FP E)))
    (c : TrueSkill.TrueSkillConfig (FP E)) :
    ∃ x, TrueSkill.expectedScoreMultiTeam [t] c = [x] ∧ x.isNaN := by
  refine ⟨_, rfl, ?_⟩
  have : TrueSkill.winProbabilities [t] t 0 (Flt.ofNat ([t].map List.length).sum) c = [] := by
    simp [TrueSkill.winProbabilities]
  simp only [this]
  exact zero_div_zero (x := 0) rfl (by norm_num)

/-- Two players rated 2,000,000 with the default uncertainty rounded to 8 and `beta = 4`. -/
example : (WengLin.expectedScore (F := FP ieee) ⟨2000000.0, 8.0⟩ ⟨2000000.0, 8.0⟩
    ⟨4.0, 0.000001⟩).1.isNaN :=
  (C81_wengLin_overflow ieee_lib ⟨2000000.0, 8.0⟩ ⟨2000000.0, 8.0⟩ .WIN ⟨4.0, 0.000001⟩
    (lit_between 4 (by norm_num) (by norm_num) (by norm_num) (by norm_num))
    (lit_between 8 (by norm_num) (by norm_num) (by norm_num) (by norm_num))
    (lit_between 8 (by norm_num) (by norm_num) (by norm_num) (by norm_num))
    (lit_finite 2000000 (by norm_num) (by norm_num))
    (lit_finite 2000000 (by norm_num) (by norm_num))
    (by rw [lit_toR (E := ieee) 2000000 (by norm_num) (by norm_num)]; norm_num)
    (by rw [lit_toR (E := ieee) 2000000 (by norm_num) (by norm_num)]; norm_num)).1.1

/-- A player of certain strength 25 beats one of strength 20. -/
example : ∀ p ∈ (WengLin.wengLinTwoTeams (F := FP ieee) [⟨25.0, 0.0⟩] [⟨20.0, 8.0⟩] .WIN
    ⟨4.0, 0.000001⟩).1, p.rating.isNaN :=
  (C81_wengLin_two_teams_zero_uncertainty ieee_lib [⟨25.0, 0.0⟩] [⟨20.0, 8.0⟩] .WIN ⟨4.0, 0.000001⟩
    (by simp) (by simp)).1 (by
    intro p hp
    rw [List.mem_singleton.1 hp]
    have h := lit_in (E := ieee) (m := 0) (s := true) (e := 1) (v := 0) (by norm_num) SRep.zero
    exact ⟨le_antisymm (by simpa using h.2.2) (by simpa using h.2.1), h.1⟩)


end Skillratings
