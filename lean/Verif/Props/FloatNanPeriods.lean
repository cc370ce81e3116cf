import Verif.Props.FloatNan
/-
C163 for the rating periods of the Glicko family, EGF, Weng-Lin and TrueSkill.
-/
namespace Skillratings
open FP FPVal NaN
variable {E : FloatEnv}

/-- A bad state stays bad, and a bad input makes it bad. -/
theorem NaN.fold_bad {σ ρ : Type} {f : σ → ρ → σ} {P : σ → Prop} {Q : ρ → Prop}
    (hf : ∀ s r, P s ∨ Q r → P (f s r)) (rs : List ρ) (s : σ) (h : P s ∨ ∃ r ∈ rs, Q r) :
    P (rs.foldl f s) := by
  induction rs generalizing s with
  | nil =>
    rcases h with h | ⟨r, hr, -⟩
    · exact h
    · cases hr
  | cons r rs ih =>
    rw [List.foldl_cons]
    refine ih _ ?_
    rcases h with h | ⟨t, ht, h⟩
    · exact Or.inl (hf _ _ (Or.inl h))
    · rcases List.mem_cons.1 ht with rfl | ht
      · exact Or.inl (hf _ _ (Or.inr h))
      · exact Or.inr ⟨t, ht, h⟩

private theorem not_empty {α : Type} {rs : List α} {r : α} (h : r ∈ rs) : rs.isEmpty = false := by
  cases rs with
  | nil => cases h
  | cons => rfl

theorem C163_wengLin_period (L : E.Lib) (a : WengLin.WengLinRating (FP E))
    (rs : List (WengLin.WengLinRating (FP E) × Outcomes)) (c : WengLin.WengLinConfig (FP E))
    (h : a.rating.isNaN ∨ ∃ r ∈ rs, r.1.rating.isNaN) :
    (WengLin.wengLinRatingPeriod a rs c).rating.isNaN := by
  refine fold_bad (P := fun s : WengLin.WengLinRating (FP E) => s.rating.isNaN)
    (Q := fun r : WengLin.WengLinRating (FP E) × Outcomes => r.1.rating.isNaN) ?_ rs a h
  rintro s r (h | h) <;>
    simp only [WengLin.periodStep, WengLin.pValue, WengLin.newRating, eq_q h, q_div, exp_q L, q_add, add_q, div_q,
      sub_q, mulAdd_mid, isNaN_q]

theorem C163_trueskill_period (L : E.Lib) (a : TrueSkill.TrueSkillRating (FP E))
    (rs : List (TrueSkill.TrueSkillRating (FP E) × Outcomes)) (c : TrueSkill.TrueSkillConfig (FP E))
    (h : a.rating.isNaN ∨ ∃ r ∈ rs, r.1.rating.isNaN) :
    (TrueSkill.trueskillRatingPeriod a rs c).rating.isNaN := by
  refine fold_bad (P := fun s : TrueSkill.TrueSkillRating (FP E) => s.rating.isNaN)
    (Q := fun r : TrueSkill.TrueSkillRating (FP E) × Outcomes => r.1.rating.isNaN) ?_ rs a h
  rintro s ⟨r, o⟩ h
  exact (C163_trueskill L s r o c h).1

theorem C163_glicko_period (L : E.Lib) (a : Glicko.GlickoRating (FP E))
    (rs : List (Glicko.GlickoRating (FP E) × Outcomes)) (c : Glicko.GlickoConfig (FP E))
    (h : a.rating.isNaN ∨ ∃ r ∈ rs, r.1.rating.isNaN) :
    (Glicko.glickoRatingPeriod a rs c).rating.isNaN := by
  rcases h with h | ⟨r, hr, h⟩
  · by_cases he : rs.isEmpty
    · simpa only [Glicko.glickoRatingPeriod, Glicko.decayDeviation, he, if_true] using h
    · simp only [Glicko.glickoRatingPeriod, he, Bool.false_eq_true, if_false, eq_q h, mulAdd_q, isNaN_q]
  · have hs : ∀ z : FP E, Flt.sum (rs.map fun r => Glicko.gValue z r.1.deviation
        * (r.2.toChessPoints - Glicko.eValue (Glicko.gValue z r.1.deviation) a.rating r.1.rating)) = q E := by
      intro z
      refine sum_q (List.mem_map.2 ⟨r, hr, ?_⟩)
      simp only [Glicko.eValue, eq_q h, sub_q, mul_q, q_div, ten_pow L, add_q, recip_q]
    simp only [Glicko.glickoRatingPeriod, not_empty hr, Bool.false_eq_true, if_false, hs, mulAdd_mid, isNaN_q]

theorem C163_sticko_period (a : Sticko.StickoRating (FP E))
    (rs : List (Sticko.StickoRating (FP E) × Outcomes × Bool)) (c : Sticko.StickoConfig (FP E))
    (h : a.rating.isNaN ∨ ∃ r ∈ rs, r.1.rating.isNaN) :
    (Sticko.stickoRatingPeriod a rs c).rating.isNaN := by
  rcases h with h | ⟨r, hr, h⟩
  · by_cases he : rs.isEmpty
    · simpa only [Sticko.stickoRatingPeriod, Sticko.decayDeviation, he, if_true] using h
    · simp only [Sticko.stickoRatingPeriod, he, Bool.false_eq_true, if_false, eq_q h, sub_q, mul_q, add_q, isNaN_q]
  · have hs : Flt.sum (rs.map fun r => r.1.rating) = q E := sum_q (List.mem_map.2 ⟨r, hr, eq_q h⟩)
    simp only [Sticko.stickoRatingPeriod, not_empty hr, Bool.false_eq_true, if_false, hs, q_div, q_sub, mul_q, add_q,
      isNaN_q]

theorem C163_glickoBoost_period (L : E.Lib) (a : GlickoBoost.GlickoBoostRating (FP E))
    (rs : List (GlickoBoost.GlickoBoostRating (FP E) × Outcomes × Bool))
    (c : GlickoBoost.GlickoBoostConfig (FP E)) (h : a.rating.isNaN ∨ ∃ r ∈ rs, r.1.rating.isNaN) :
    (GlickoBoost.glickoBoostRatingPeriod a rs c).rating.isNaN := by
  rcases h with h | ⟨r, hr, h⟩
  · by_cases he : rs.isEmpty
    · simpa only [GlickoBoost.glickoBoostRatingPeriod, GlickoBoost.decayDeviation, he, if_true] using h
    · simp only [GlickoBoost.glickoBoostRatingPeriod, he, Bool.false_eq_true, if_false, eq_q h, mulAdd_q, isNaN_q]
  · have hs : ∀ z : FP E, Flt.sum (rs.map fun r => GlickoBoost.gValue z r.1.deviation
        * (r.2.1.toChessPoints - GlickoBoost.eValue (GlickoBoost.gValue z r.1.deviation) a.rating r.1.rating
          c.eta (if r.2.2 then 1.0 else -1.0))) = q E := by
      intro z
      refine sum_q (List.mem_map.2 ⟨r, hr, ?_⟩)
      simp only [GlickoBoost.eValue, eq_q h, sub_q, mul_q, q_div, ten_pow L, add_q, recip_q]
    simp only [GlickoBoost.glickoBoostRatingPeriod, not_empty hr, Bool.false_eq_true, if_false, hs, mulAdd_mid,
      isNaN_q]

/-- Glicko-2: the call still returns. -/
theorem C163_glicko2_period (L : E.Lib) (a : Glicko2.Glicko2Rating (FP E))
    (rs : List (Glicko2.Glicko2Rating (FP E) × Outcomes)) (c : Glicko2.Glicko2Config (FP E))
    (h : a.rating.isNaN ∨ ∃ r ∈ rs, r.1.rating.isNaN) :
    ∃ x, Glicko2.glicko2RatingPeriod a rs c = some x ∧ x.rating.isNaN := by
  by_cases he : rs.isEmpty
  · have hn : rs = [] := List.isEmpty_iff.1 he
    subst hn
    rcases h with h | ⟨r, hr, -⟩
    · exact ⟨_, rfl, h⟩
    · cases hr
  · -- one of the scores is not a number
    obtain ⟨r, hr, h⟩ : ∃ r ∈ rs, a.rating.isNaN ∨ r.1.rating.isNaN := by
      rcases h with h | ⟨r, hr, h⟩
      · obtain ⟨r, hr⟩ := List.exists_mem_of_ne_nil rs (by rintro rfl; exact he rfl)
        exact ⟨r, hr, Or.inl h⟩
      · exact ⟨r, hr, Or.inr h⟩
    have hE : ∀ g : FP E, Glicko2.eValue ((a.rating - 1500.0) / 173.7178) ((r.1.rating - 1500.0) / 173.7178) g
        = q E := by
      intro g
      rcases h with h | h <;>
        simp only [Glicko2.eValue, eq_q h, q_sub, sub_q, q_div, mul_q, exp_q L, add_q, recip_q]
    have hv : Flt.sum (rs.map fun r =>
        Flt.powi (Glicko2.gValue (r.1.deviation / 173.7178)) 2
          * Glicko2.eValue ((a.rating - 1500.0) / 173.7178) ((r.1.rating - 1500.0) / 173.7178)
            (Glicko2.gValue (r.1.deviation / 173.7178))
          * (1.0 - Glicko2.eValue ((a.rating - 1500.0) / 173.7178) ((r.1.rating - 1500.0) / 173.7178)
            (Glicko2.gValue (r.1.deviation / 173.7178)))) = q E :=
      sum_q (List.mem_map.2 ⟨r, hr, by simp only [hE, mul_q, q_mul]⟩)
    have hm : Flt.sum (rs.map fun r =>
        Glicko2.gValue (r.1.deviation / 173.7178)
          * (r.2.toChessPoints - Glicko2.eValue ((a.rating - 1500.0) / 173.7178)
            ((r.1.rating - 1500.0) / 173.7178) (Glicko2.gValue (r.1.deviation / 173.7178)))) = q E :=
      sum_q (List.mem_map.2 ⟨r, hr, by simp only [hE, sub_q, mul_q]⟩)
    simp only [Glicko2.glicko2RatingPeriod, he, Bool.false_eq_true, if_false, hv, hm, recip_q, mulAdd_mid, q_mulAdd]
    obtain ⟨x, hx⟩ := glicko2_search a.volatility (Flt.powi (q E * q E) 2) (Flt.powi (a.deviation / 173.7178) 2)
      c.tau c.convergenceTolerance
    rw [hx]
    exact ⟨_, rfl, isNaN_q⟩

/-- EGF: after the other games of a period, a game against an opponent without a rating counts like
a fall to the floor. -/
theorem C163_egf_period (L : E.Lib) (a b : Egf.EGFRating (FP E)) (o : Outcomes) (c : Egf.EGFConfig (FP E))
    (rs : List (Egf.EGFRating (FP E) × Outcomes × Egf.EGFConfig (FP E))) (h : b.rating.isNaN) :
    ∃ δ : FP E, (Egf.egfRatingPeriod a rs).rating = a.rating + δ ∧
      (Egf.egfRatingPeriod a (rs ++ [(b, o, c)])).rating = a.rating + (δ + (-900.0 - a.rating)) := by
  refine ⟨_, rfl, ?_⟩
  simp only [Egf.egfRatingPeriod, List.foldl_append, List.foldl_cons, List.foldl_nil]
  have hn : ∀ x y z : FP E,
      Egf.newRating a.rating x y (Egf.expectedScore a b c).1 z = -900.0 := by
    intro x y z
    simp only [Egf.expectedScore, Egf.beta, Egf.newRating, eq_q h, sub_q, mul_q, q_sub, ln_q L, exp_q L, add_q,
      recip_q, mulAdd_mid, q_add, fmax_q]
  rw [hn]

example : (Glicko.glickoRatingPeriod (⟨1800.0, 50.0⟩ : Glicko.GlickoRating (FP ieee))
    [(⟨1500.0, 80.0⟩, .WIN), (⟨FPVal.nan, 80.0⟩, .WIN)] ⟨63.2⟩).rating.isNaN :=
  C163_glicko_period ieee_lib _ _ _ (Or.inr ⟨(⟨FPVal.nan, 80.0⟩, .WIN), by simp, trivial⟩)

end Skillratings
