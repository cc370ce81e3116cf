import Verif.Proofs.FPScores
import Verif.FPInstance
/-
C79: expected scores in floating point.  For every rounding and every library of functions that
meets `FloatEnv.Lib`, the expected scores are numbers (not NaN) between 0 and 1.  The ratings
have to be finite; where the difference is multiplied by Glicko's `g`, which can be zero, the
difference has to be finite as well.
-/

namespace Skillratings
open FP
variable {E : FloatEnv}

theorem C79_elo_expected (L : E.Lib) (a b : Elo.EloRating (FP E)) (ha : a.rating.isFinite)
    (hb : b.rating.isFinite) :
    In 0 1 (Elo.expectedScore a b).1 ∧ In 0 1 (Elo.expectedScore a b).2 := by
  have h := pow_score L (elo_exponent (sub_not_nan hb ha))
  exact ⟨h, one_sub_in h⟩

theorem C79_elo_expected_period (L : E.Lib) (a : Elo.EloRating (FP E))
    (l : List (Elo.EloRating (FP E))) (ha : a.rating.isFinite) (hl : ∀ b ∈ l, b.rating.isFinite) :
    ∀ e ∈ Elo.expectedScoreRatingPeriod a l, In 0 1 e := by
  intro e he
  obtain ⟨b, hb, rfl⟩ := List.mem_map.1 he
  exact pow_score L (elo_exponent (sub_not_nan (hl b hb) ha))

theorem C79_fifa_expected (L : E.Lib) (a b : Fifa.FifaRating (FP E)) (ha : a.rating.isFinite)
    (hb : b.rating.isFinite) :
    In 0 1 (Fifa.expectedScore a b).1 ∧ In 0 1 (Fifa.expectedScore a b).2 := by
  have h := pow_score L (fifa_exponent (sub_not_nan ha hb))
  exact ⟨h, one_sub_in h⟩

theorem C79_fifa_expected_period (L : E.Lib) (a : Fifa.FifaRating (FP E))
    (l : List (Fifa.FifaRating (FP E))) (ha : a.rating.isFinite)
    (hl : ∀ b ∈ l, b.rating.isFinite) :
    ∀ e ∈ Fifa.expectedScoreRatingPeriod a l, In 0 1 e := by
  intro e he
  obtain ⟨b, hb, rfl⟩ := List.mem_map.1 he
  exact pow_score L (fifa_exponent (sub_not_nan ha (hl b hb)))

theorem C79_dwz_expected (L : E.Lib) (a b : Dwz.DWZRating (FP E)) (ha : a.rating.isFinite)
    (hb : b.rating.isFinite) :
    In 0 1 (Dwz.expectedScore a b).1 ∧ In 0 1 (Dwz.expectedScore a b).2 := by
  have h := pow_score L (dwz_exponent (sub_not_nan ha hb))
  exact ⟨h, one_sub_in h⟩

theorem C79_dwz_expected_period (L : E.Lib) (a : Dwz.DWZRating (FP E))
    (l : List (Dwz.DWZRating (FP E))) (ha : a.rating.isFinite)
    (hl : ∀ b ∈ l, b.rating.isFinite) :
    ∀ e ∈ Dwz.expectedScoreRatingPeriod a l, In 0 1 e := by
  intro e he
  obtain ⟨b, hb, rfl⟩ := List.mem_map.1 he
  exact pow_score L (dwz_exponent (sub_not_nan ha (hl b hb)))

theorem C79_uscf_expected (L : E.Lib) (a b : Uscf.USCFRating (FP E)) (ha : a.rating.isFinite)
    (hb : b.rating.isFinite) :
    In 0 1 (Uscf.expectedScore a b).1 ∧ In 0 1 (Uscf.expectedScore a b).2 := by
  have h := uscf_eValue_in L ha hb
  exact ⟨h, one_sub_in h⟩

theorem C79_uscf_expected_period (L : E.Lib) (a : Uscf.USCFRating (FP E))
    (l : List (Uscf.USCFRating (FP E))) (ha : a.rating.isFinite)
    (hl : ∀ b ∈ l, b.rating.isFinite) :
    ∀ e ∈ Uscf.expectedScoreRatingPeriod a l, In 0 1 e := by
  intro e he
  obtain ⟨b, hb, rfl⟩ := List.mem_map.1 he
  exact uscf_eValue_in L ha (hl b hb)

theorem C79_glicko_expected (L : E.Lib) (a b : Glicko.GlickoRating (FP E))
    (hda : ¬ a.deviation.isNaN) (hdb : ¬ b.deviation.isNaN)
    (h : (a.rating - b.rating).isFinite) :
    In 0 1 (Glicko.expectedScore a b).1 ∧ In 0 1 (Glicko.expectedScore a b).2 := by
  have h := pow_score L (exponent_not_nan (g_glicko_in L (L.hypot_nan _ _ hda hdb)) h)
  exact ⟨h, one_sub_in h⟩

theorem C79_glicko_expected_period (L : E.Lib) (a : Glicko.GlickoRating (FP E))
    (l : List (Glicko.GlickoRating (FP E))) (hda : ¬ a.deviation.isNaN)
    (hl : ∀ b ∈ l, ¬ b.deviation.isNaN ∧ (a.rating - b.rating).isFinite) :
    ∀ e ∈ Glicko.expectedScoreRatingPeriod a l, In 0 1 e := by
  intro e he
  obtain ⟨b, hb, rfl⟩ := List.mem_map.1 he
  exact pow_score L (exponent_not_nan (g_glicko_in L (L.hypot_nan _ _ hda (hl b hb).1)) (hl b hb).2)

theorem C79_glickoBoost_expected (L : E.Lib) (a b : GlickoBoost.GlickoBoostRating (FP E))
    (c : GlickoBoost.GlickoBoostConfig (FP E))
    (hda : ¬ a.deviation.isNaN) (hdb : ¬ b.deviation.isNaN)
    (h : (a.rating + c.eta - b.rating).isFinite) :
    In 0 1 (GlickoBoost.expectedScore a b c).1 ∧ In 0 1 (GlickoBoost.expectedScore a b c).2 := by
  have h := pow_score L (exponent_not_nan (g_glicko_in L (L.hypot_nan _ _ hda hdb)) h)
  exact ⟨h, one_sub_in h⟩

theorem C79_glickoBoost_expected_period (L : E.Lib) (a : GlickoBoost.GlickoBoostRating (FP E))
    (l : List (GlickoBoost.GlickoBoostRating (FP E) × Bool))
    (c : GlickoBoost.GlickoBoostConfig (FP E)) (hda : ¬ a.deviation.isNaN)
    (hl : ∀ b ∈ l, ¬ b.1.deviation.isNaN ∧ (a.rating + c.eta - b.1.rating).isFinite) :
    ∀ e ∈ GlickoBoost.expectedScoreRatingPeriod a l c, In 0 1 e := by
  intro e he
  obtain ⟨b, hb, rfl⟩ := List.mem_map.1 he
  exact pow_score L (exponent_not_nan (g_glicko_in L (L.hypot_nan _ _ hda (hl b hb).1)) (hl b hb).2)

theorem C79_sticko_expected (L : E.Lib) (a b : Sticko.StickoRating (FP E))
    (c : Sticko.StickoConfig (FP E)) (hda : ¬ a.deviation.isNaN) (hdb : ¬ b.deviation.isNaN)
    (h : (a.rating + c.gamma - b.rating).isFinite) :
    In 0 1 (Sticko.expectedScore a b c).1 ∧ In 0 1 (Sticko.expectedScore a b c).2 := by
  have h := pow_score L (exponent_not_nan (g_glicko_in L (L.hypot_nan _ _ hda hdb)) h)
  exact ⟨h, one_sub_in h⟩

theorem C79_sticko_expected_period (L : E.Lib) (a : Sticko.StickoRating (FP E))
    (l : List (Sticko.StickoRating (FP E) × Bool)) (c : Sticko.StickoConfig (FP E))
    (hda : ¬ a.deviation.isNaN)
    (hl : ∀ b ∈ l, ¬ b.1.deviation.isNaN ∧
      (a.rating + (if b.2 then c.gamma else -c.gamma) - b.1.rating).isFinite) :
    ∀ e ∈ Sticko.expectedScoreRatingPeriod a l c, In 0 1 e := by
  intro e he
  obtain ⟨b, hb, rfl⟩ := List.mem_map.1 he
  exact pow_score L (exponent_not_nan (g_glicko_in L (L.hypot_nan _ _ hda (hl b hb).1)) (hl b hb).2)

theorem C79_glicko2_expected (L : E.Lib) (a b : Glicko2.Glicko2Rating (FP E))
    (hda : ¬ a.deviation.isNaN) (hdb : ¬ b.deviation.isNaN)
    (h : ((a.rating - 1500.0) / 173.7178 - (b.rating - 1500.0) / 173.7178).isFinite) :
    In 0 1 (Glicko2.expectedScore a b).1 ∧ In 0 1 (Glicko2.expectedScore a b).2 := by
  have hg := score_finite (g2_in L (L.hypot_nan _ _ (div_scale hdb) (div_scale hda)))
  have h := exp_score L (mul_fin_not_nan ((isFinite_neg' (E := E)).2 hg) h)
  exact ⟨h, one_sub_in h⟩

theorem C79_glicko2_expected_period (L : E.Lib) (a : Glicko2.Glicko2Rating (FP E))
    (l : List (Glicko2.Glicko2Rating (FP E))) (hda : ¬ a.deviation.isNaN)
    (hl : ∀ b ∈ l, ¬ b.deviation.isNaN ∧
      ((a.rating - 1500.0) / 173.7178 - (b.rating - 1500.0) / 173.7178).isFinite) :
    ∀ e ∈ Glicko2.expectedScoreRatingPeriod a l, In 0 1 e := by
  intro e he
  obtain ⟨b, hb, rfl⟩ := List.mem_map.1 he
  have hg := score_finite (g2_in L (L.hypot_nan _ _ (div_scale (hl b hb).1) (div_scale hda)))
  refine exp_score L ((isNaN_neg' (E := E)).not.2 (mul_fin_not_nan hg (hl b hb).2))

/-- Glicko and Glicko-2 with plain bounds on the ratings. -/
theorem C79_glicko_expected_bounded (L : E.Lib) (a b : Glicko.GlickoRating (FP E))
    (hda : ¬ a.deviation.isNaN) (hdb : ¬ b.deviation.isNaN) (ha : a.rating.isFinite)
    (hb : b.rating.isFinite) (ha' : |a.rating.toR| ≤ 2 ^ 970) (hb' : |b.rating.toR| ≤ 2 ^ 970) :
    In 0 1 (Glicko.expectedScore a b).1 ∧ In 0 1 (Glicko.expectedScore a b).2 :=
  C79_glicko_expected L a b hda hdb (sub_bound ha hb ha' hb' (SRep.two_pow 971 (by norm_num))
    (by rw [pow_succ (2 : ℝ) 970]; linarith)).1

theorem C79_glicko2_expected_bounded (L : E.Lib) (a b : Glicko2.Glicko2Rating (FP E))
    (hda : ¬ a.deviation.isNaN) (hdb : ¬ b.deviation.isNaN) (ha : a.rating.isFinite)
    (hb : b.rating.isFinite) (ha' : |a.rating.toR| ≤ 2 ^ 970) (hb' : |b.rating.toR| ≤ 2 ^ 970) :
    In 0 1 (Glicko2.expectedScore a b).1 ∧ In 0 1 (Glicko2.expectedScore a b).2 :=
  C79_glicko2_expected L a b hda hdb (sub_bound (scaled_bound ha ha').1 (scaled_bound hb hb').1
    (scaled_bound ha ha').2 (scaled_bound hb hb').2 (SRep.two_pow 971 (by norm_num))
    (by rw [pow_succ (2 : ℝ) 970]; linarith)).1

theorem C79_glickoBoost_expected_bounded (L : E.Lib)
    (a b : GlickoBoost.GlickoBoostRating (FP E)) (c : GlickoBoost.GlickoBoostConfig (FP E))
    (hda : ¬ a.deviation.isNaN) (hdb : ¬ b.deviation.isNaN) (ha : a.rating.isFinite)
    (hb : b.rating.isFinite) (hc : c.eta.isFinite) (ha' : |a.rating.toR| ≤ 2 ^ 969)
    (hb' : |b.rating.toR| ≤ 2 ^ 969) (hc' : |c.eta.toR| ≤ 2 ^ 969) :
    In 0 1 (GlickoBoost.expectedScore a b c).1 ∧ In 0 1 (GlickoBoost.expectedScore a b c).2 :=
  C79_glickoBoost_expected L a b c hda hdb (advantage_bound ha hc hb ha' hc' hb')

theorem C79_sticko_expected_bounded (L : E.Lib) (a b : Sticko.StickoRating (FP E))
    (c : Sticko.StickoConfig (FP E)) (hda : ¬ a.deviation.isNaN) (hdb : ¬ b.deviation.isNaN)
    (ha : a.rating.isFinite) (hb : b.rating.isFinite) (hc : c.gamma.isFinite)
    (ha' : |a.rating.toR| ≤ 2 ^ 969) (hb' : |b.rating.toR| ≤ 2 ^ 969)
    (hc' : |c.gamma.toR| ≤ 2 ^ 969) :
    In 0 1 (Sticko.expectedScore a b c).1 ∧ In 0 1 (Sticko.expectedScore a b c).2 :=
  C79_sticko_expected L a b c hda hdb (advantage_bound ha hc hb ha' hc' hb')

/-! Concrete cases in the arithmetic of `FPInstance.lean` (round to nearest, ties to even):
ratings 400 apart, where the exact expected score `1 / 11` is not representable. -/

example : In 0 1 (Elo.expectedScore (F := FP ieee) ⟨1000.0⟩ ⟨1400.0⟩).1 :=
  (C79_elo_expected ieee_lib _ _ (lit_finite 1000 (by norm_num) (by norm_num))
    (lit_finite 1400 (by norm_num) (by norm_num))).1

example : ∀ e ∈ Elo.expectedScoreRatingPeriod (F := FP ieee) ⟨1000.0⟩ [⟨1400.0⟩, ⟨900.0⟩],
    In 0 1 e :=
  C79_elo_expected_period ieee_lib _ _ (lit_finite 1000 (by norm_num) (by norm_num)) (by
    intro b hb
    simp only [List.mem_cons, List.not_mem_nil, or_false] at hb
    rcases hb with rfl | rfl
    · exact lit_finite 1400 (by norm_num) (by norm_num)
    · exact lit_finite 900 (by norm_num) (by norm_num))

example : In 0 1 (Fifa.expectedScore (F := FP ieee) ⟨1000.0⟩ ⟨1400.0⟩).2 :=
  (C79_fifa_expected ieee_lib _ _ (lit_finite 1000 (by norm_num) (by norm_num))
    (lit_finite 1400 (by norm_num) (by norm_num))).2

example : ∀ e ∈ Fifa.expectedScoreRatingPeriod (F := FP ieee) ⟨1000.0⟩ [⟨1400.0⟩], In 0 1 e :=
  C79_fifa_expected_period ieee_lib _ _ (lit_finite 1000 (by norm_num) (by norm_num)) (by
    intro b hb
    rw [List.mem_singleton.1 hb]
    exact lit_finite 1400 (by norm_num) (by norm_num))

example : In 0 1 (Dwz.expectedScore (F := FP ieee) ⟨1000.0, 1, 26⟩ ⟨1400.0, 6, 20⟩).1 :=
  (C79_dwz_expected ieee_lib _ _ (lit_finite 1000 (by norm_num) (by norm_num))
    (lit_finite 1400 (by norm_num) (by norm_num))).1

example : ∀ e ∈ Dwz.expectedScoreRatingPeriod (F := FP ieee) ⟨1000.0, 1, 26⟩ [⟨1400.0, 6, 20⟩],
    In 0 1 e :=
  C79_dwz_expected_period ieee_lib _ _ (lit_finite 1000 (by norm_num) (by norm_num)) (by
    intro b hb
    rw [List.mem_singleton.1 hb]
    exact lit_finite 1400 (by norm_num) (by norm_num))

example : In 0 1 (Uscf.expectedScore (F := FP ieee) ⟨1000.0, 10⟩ ⟨1400.0, 20⟩).1 :=
  (C79_uscf_expected ieee_lib _ _ (lit_finite 1000 (by norm_num) (by norm_num))
    (lit_finite 1400 (by norm_num) (by norm_num))).1

example : ∀ e ∈ Uscf.expectedScoreRatingPeriod (F := FP ieee) ⟨1000.0, 10⟩ [⟨1400.0, 20⟩],
    In 0 1 e :=
  C79_uscf_expected_period ieee_lib _ _ (lit_finite 1000 (by norm_num) (by norm_num)) (by
    intro b hb
    rw [List.mem_singleton.1 hb]
    exact lit_finite 1400 (by norm_num) (by norm_num))

/-- The conditions of the Glicko family hold for 1000 and 1400 with deviation 350. -/
theorem sample_dev : ¬ isNaN (350.0 : FP ieee) :=
  FPVal.isFinite.not_nan (lit_finite (E := ieee) 350 (by norm_num) (by norm_num))

example : In 0 1 (Glicko.expectedScore (F := FP ieee) ⟨1000.0, 350.0⟩ ⟨1400.0, 350.0⟩).1 :=
  (C79_glicko_expected_bounded ieee_lib _ _ sample_dev sample_dev
    (lit_finite 1000 (by norm_num) (by norm_num)) (lit_finite 1400 (by norm_num) (by norm_num))
    (lit_bound 1000 970 (by norm_num) (by norm_num) (by norm_num))
    (lit_bound 1400 970 (by norm_num) (by norm_num) (by norm_num))).1

example : ∀ e ∈ Glicko.expectedScoreRatingPeriod (F := FP ieee) ⟨1000.0, 350.0⟩
    [⟨1400.0, 350.0⟩], In 0 1 e :=
  C79_glicko_expected_period ieee_lib _ _ sample_dev (by
    intro b hb
    rw [List.mem_singleton.1 hb]
    exact ⟨sample_dev, (sub_bound (lit_finite 1000 (by norm_num) (by norm_num))
      (lit_finite 1400 (by norm_num) (by norm_num))
      (lit_bound 1000 53 (by norm_num) (by norm_num) (by norm_num))
      (lit_bound 1400 53 (by norm_num) (by norm_num) (by norm_num))
      (SRep.two_pow 54 (by norm_num)) (by norm_num)).1⟩)

example : In 0 1 (Glicko2.expectedScore (F := FP ieee) ⟨1000.0, 350.0, 0.06⟩
    ⟨1400.0, 350.0, 0.06⟩).1 :=
  (C79_glicko2_expected_bounded ieee_lib _ _ sample_dev sample_dev
    (lit_finite 1000 (by norm_num) (by norm_num)) (lit_finite 1400 (by norm_num) (by norm_num))
    (lit_bound 1000 970 (by norm_num) (by norm_num) (by norm_num))
    (lit_bound 1400 970 (by norm_num) (by norm_num) (by norm_num))).1

example : ∀ e ∈ Glicko2.expectedScoreRatingPeriod (F := FP ieee) ⟨1000.0, 350.0, 0.06⟩
    [⟨1400.0, 350.0, 0.06⟩], In 0 1 e :=
  C79_glicko2_expected_period ieee_lib _ _ sample_dev (by
    intro b hb
    rw [List.mem_singleton.1 hb]
    have h1 := scaled_bound (E := ieee) (x := 1000.0) (lit_finite 1000 (by norm_num) (by norm_num))
      (lit_bound 1000 970 (by norm_num) (by norm_num) (by norm_num))
    have h2 := scaled_bound (E := ieee) (x := 1400.0) (lit_finite 1400 (by norm_num) (by norm_num))
      (lit_bound 1400 970 (by norm_num) (by norm_num) (by norm_num))
    exact ⟨sample_dev, (sub_bound h1.1 h2.1 h1.2 h2.2 (SRep.two_pow 971 (by norm_num))
      (by rw [pow_succ (2 : ℝ) 970]; linarith)).1⟩)

example : In 0 1 (GlickoBoost.expectedScore (F := FP ieee) ⟨1000.0, 350.0⟩ ⟨1400.0, 350.0⟩
    { GlickoBoost.GlickoBoostConfig.new with eta := 30.0 }).1 :=
  (C79_glickoBoost_expected_bounded ieee_lib _ _ _ sample_dev sample_dev
    (lit_finite 1000 (by norm_num) (by norm_num)) (lit_finite 1400 (by norm_num) (by norm_num))
    (lit_finite 30 (by norm_num) (by norm_num))
    (lit_bound 1000 969 (by norm_num) (by norm_num) (by norm_num))
    (lit_bound 1400 969 (by norm_num) (by norm_num) (by norm_num))
    (lit_bound 30 969 (by norm_num) (by norm_num) (by norm_num))).1

example : ∀ e ∈ GlickoBoost.expectedScoreRatingPeriod (F := FP ieee) ⟨1000.0, 350.0⟩
    [(⟨1400.0, 350.0⟩, true)] { GlickoBoost.GlickoBoostConfig.new with eta := 30.0 }, In 0 1 e :=
  C79_glickoBoost_expected_period ieee_lib _ _ _ sample_dev (by
    intro b hb
    rw [List.mem_singleton.1 hb]
    exact ⟨sample_dev, advantage_bound (lit_finite 1000 (by norm_num) (by norm_num))
      (lit_finite 30 (by norm_num) (by norm_num)) (lit_finite 1400 (by norm_num) (by norm_num))
      (lit_bound 1000 969 (by norm_num) (by norm_num) (by norm_num))
      (lit_bound 30 969 (by norm_num) (by norm_num) (by norm_num))
      (lit_bound 1400 969 (by norm_num) (by norm_num) (by norm_num))⟩)

example : In 0 1 (Sticko.expectedScore (F := FP ieee) ⟨1000.0, 350.0⟩ ⟨1400.0, 350.0⟩
    { Sticko.StickoConfig.new with gamma := 30.0 }).1 :=
  (C79_sticko_expected_bounded ieee_lib _ _ _ sample_dev sample_dev
    (lit_finite 1000 (by norm_num) (by norm_num)) (lit_finite 1400 (by norm_num) (by norm_num))
    (lit_finite 30 (by norm_num) (by norm_num))
    (lit_bound 1000 969 (by norm_num) (by norm_num) (by norm_num))
    (lit_bound 1400 969 (by norm_num) (by norm_num) (by norm_num))
    (lit_bound 30 969 (by norm_num) (by norm_num) (by norm_num))).1

example : ∀ e ∈ Sticko.expectedScoreRatingPeriod (F := FP ieee) ⟨1000.0, 350.0⟩
    [(⟨1400.0, 350.0⟩, true)] { Sticko.StickoConfig.new with gamma := 30.0 }, In 0 1 e :=
  C79_sticko_expected_period ieee_lib _ _ _ sample_dev (by
    intro b hb
    rw [List.mem_singleton.1 hb]
    exact ⟨sample_dev, advantage_bound (lit_finite 1000 (by norm_num) (by norm_num))
      (lit_finite 30 (by norm_num) (by norm_num)) (lit_finite 1400 (by norm_num) (by norm_num))
      (lit_bound 1000 969 (by norm_num) (by norm_num) (by norm_num))
      (lit_bound 30 969 (by norm_num) (by norm_num) (by norm_num))
      (lit_bound 1400 969 (by norm_num) (by norm_num) (by norm_num))⟩)

end Skillratings
