import Verif.Props.Monotone
import Verif.Props.GlickoBoost
import Mathlib.Analysis.Real.Pi.Bounds
/-
C95: better results in Glicko-Boost.
-/
namespace Skillratings.GlickoBoost
open Real Spec

theorem boostZ_mono (P : BoostParams) (r : ℝ) {rs rs' : List (GlickoBoostRating ℝ × Outcomes × Bool)}
    (h : NoWorse₃ rs rs') : boostZ P r (rs.map game) ≤ boostZ P r (rs'.map game) := by
  unfold boostZ
  simp only [List.map_map, Function.comp_def]
  have e := h.map_eq fun x f => boostVar P r ⟨x.rating, x.deviation, 0, f⟩
  have e' : (rs.map fun x => boostVar P r (game x)) = rs'.map fun x => boostVar P r (game x) := e
  have hs : (rs.map fun x => boostDelta P r (game x)).sum
      ≤ (rs'.map fun x => boostDelta P r (game x)).sum :=
    h.sum_le (fun x f s => glickoG x.deviation
      * (s - glickoE (r + P.eta * colour f) x.rating x.deviation))
      fun x f s t hst => mul_le_mul_of_nonneg_left (by linarith) (glickoG_pos _).le
  rw [e']
  gcongr

/-- Among performances that are not exceptional (or without a threshold) better results never make
the rating worse. -/
theorem C95_glickoBoost_period_mono_partial (p : GlickoBoostRating ℝ)
    (rs rs' : List (GlickoBoostRating ℝ × Outcomes × Bool)) (c : GlickoBoostConfig ℝ)
    (h : NoWorse₃ rs rs')
    (hz : c.k = 0 ∨ boostZ ⟨c.eta, c.k, c.b.1, c.b.2, c.alpha.a0, c.alpha.a1, c.alpha.a2,
      c.alpha.a3, c.alpha.a4⟩ p.rating
        (rs'.map fun r => ⟨r.1.rating, r.1.deviation, points r.2.1, r.2.2⟩) ≤ c.k) :
    (glickoBoostRatingPeriod p rs c).rating ≤ (glickoBoostRatingPeriod p rs' c).rating := by
  by_cases hr : rs = []
  · subst hr
    cases h
    exact le_rfl
  rw [period_real p rs c hr, period_real p rs' c (h.ne_nil hr)]
  have hz1 : ∀ xs, boostZ (params c) p.rating xs ≤ boostZ (params c) p.rating (rs'.map game) →
      boostPre (params c) p.rating p.deviation xs = p.deviation := by
    intro xs hle
    unfold boostPre
    rw [if_neg]
    rintro ⟨h1, h2⟩
    rcases hz with hz | hz
    · exact h2 hz
    · change c.k < _ at h1
      change boostZ (params c) p.rating (rs'.map game) ≤ c.k at hz
      linarith
  have e := h.map_eq fun x f => boostVar (params c) p.rating ⟨x.rating, x.deviation, 0, f⟩
  have e' : ((rs.map game).map fun x => boostVar (params c) p.rating x)
      = (rs'.map game).map fun x => boostVar (params c) p.rating x := by
    simp only [List.map_map, Function.comp_def]
    exact e
  have hs : ((rs.map game).map fun x => boostDelta (params c) p.rating x).sum
      ≤ ((rs'.map game).map fun x => boostDelta (params c) p.rating x).sum := by
    simp only [List.map_map, Function.comp_def]
    exact h.sum_le (fun x f s => glickoG x.deviation
      * (s - glickoE (p.rating + c.eta * colour f) x.rating x.deviation))
      fun x f s t hst => mul_le_mul_of_nonneg_left (by linarith) (glickoG_pos _).le
  have hrd : boostRd1 (params c) p.rating p.deviation (rs.map game)
      = boostRd1 (params c) p.rating p.deviation (rs'.map game) := by
    unfold boostRd1
    rw [hz1 _ (boostZ_mono _ _ h), hz1 _ le_rfl, boostInfo, boostInfo, e']
  simp only [updated, boostRating, hrd]
  have := glickoQ_pos
  gcongr

/-- But the boost of an exceptional performance does the opposite of what it is for: with the
default configuration, a new player (deviation 350) who wins all four games against even opponents
gets *fewer* points than one who wins three and draws one.  The boosted deviation is computed from
the deviation after the games and is smaller than the one before. -/
theorem C95_glickoBoost_perfect_score_pays_less (r d : ℝ) (hd : |d| ≤ 350) :
    let c : GlickoBoostConfig ℝ := GlickoBoostConfig.new
    let p : GlickoBoostRating ℝ := ⟨r, 350⟩
    let b : GlickoBoostRating ℝ := ⟨r + 30, d⟩
    (glickoBoostRatingPeriod p
        [(b, .WIN, true), (b, .WIN, true), (b, .WIN, true), (b, .WIN, true)] c).rating
      < (glickoBoostRatingPeriod p
        [(b, .WIN, true), (b, .WIN, true), (b, .WIN, true), (b, .DRAW, true)] c).rating := by
  intro c p b
  rw [period_real _ _ _ (by simp), period_real _ _ _ (by simp)]
  have hc : params c = ⟨30, 1.96, 0.20139, 17.5, c.alpha.a0, c.alpha.a1, c.alpha.a2, c.alpha.a3,
      c.alpha.a4⟩ := by
    simp only [params, c, GlickoBoostConfig.new]
    norm_num
  set P := params c with hP
  have hk : P.k = 1.96 := by rw [hc]
  have hb0 : P.b0 = 0.20139 := by rw [hc]
  have hb1 : P.b1 = 17.5 := by rw [hc]
  have heta : P.eta = 30 := by rw [hc]
  -- an even game
  have hE : ∀ o, boostE P r (game (b, o, true)) = 1 / 2 := by
    intro o
    simp only [boostE, game, b, colour, heta, if_true, mul_one, glickoE, sub_self, mul_zero,
      zero_div, neg_zero, Real.rpow_zero]
    norm_num
  set g := glickoG d with hg
  have g0 : 0 < g := glickoG_pos d
  have hvar : ∀ o, boostVar P r (game (b, o, true)) = g ^ 2 / 4 := by
    intro o
    have : (game (b, o, true)).deviation = d := rfl
    simp only [boostVar, hE, this]
    ring
  have hdel : ∀ o, boostDelta P r (game (b, o, true)) = g * (points o - 1 / 2) := by
    intro o
    have h1 : (game (b, o, true)).deviation = d := rfl
    have h2 : (game (b, o, true)).points = points o := rfl
    simp only [boostDelta, hE, h1, h2, hg]
  have hsq : √(g ^ 2 / 4 + (g ^ 2 / 4 + (g ^ 2 / 4 + g ^ 2 / 4))) = g := by
    rw [show g ^ 2 / 4 + (g ^ 2 / 4 + (g ^ 2 / 4 + g ^ 2 / 4)) = g ^ 2 by ring]
    exact Real.sqrt_sq g0.le
  simp only [updated, List.map_cons, List.map_nil]
  set xs := [game (b, .WIN, true), game (b, .WIN, true), game (b, .WIN, true), game (b, .WIN, true)]
  set ys := [game (b, .WIN, true), game (b, .WIN, true), game (b, .WIN, true), game (b, .DRAW, true)]
  have zx : boostZ P r xs = 2 := by
    simp only [boostZ, xs, List.map_cons, List.map_nil, List.sum_cons, List.sum_nil, add_zero, hvar,
      hdel, hsq, points]
    field_simp; ring
  have zy : boostZ P r ys = 3 / 2 := by
    simp only [boostZ, ys, List.map_cons, List.map_nil, List.sum_cons, List.sum_nil, add_zero, hvar,
      hdel, hsq, points]
    field_simp; ring
  set I := glickoQ ^ 2 * g ^ 2 with hI
  have ix : boostInfo P r xs = I := by
    simp only [boostInfo, xs, List.map_cons, List.map_nil, List.sum_cons, List.sum_nil, add_zero,
      hvar]
    ring
  have iy : boostInfo P r ys = I := by
    simp only [boostInfo, ys, List.map_cons, List.map_nil, List.sum_cons, List.sum_nil, add_zero,
      hvar]
    ring
  have sx : (xs.map (boostDelta P r)).sum = 2 * g := by
    simp only [xs, List.map_cons, List.map_nil, List.sum_cons, List.sum_nil, add_zero, hdel, points]
    ring
  have sy : (ys.map (boostDelta P r)).sum = 3 / 2 * g := by
    simp only [ys, List.map_cons, List.map_nil, List.sum_cons, List.sum_nil, add_zero, hdel, points]
    ring
  -- the information of the games
  have q1 := glickoQ_lt
  have q0 : 0.0057564 < glickoQ := by unfold glickoQ; linarith [log_ten_gt]
  have g1 : g ≤ 1 := glickoG_le_one d
  have hgsq : g ^ 2 = 1 / (1 + 3 * glickoQ ^ 2 * d ^ 2 / π ^ 2) := by
    rw [hg, glickoG, div_pow, one_pow, Real.sq_sqrt (glickoG_radicand_pos d).le]
  have hd2 : d ^ 2 ≤ 350 ^ 2 := sq_le_sq' (abs_le.1 hd).1 (abs_le.1 hd).2
  have hq2 : glickoQ ^ 2 ≤ 0.0057565 ^ 2 := by
    apply pow_le_pow_left₀ (by linarith) q1.le
  have hq2' : 0.0057564 ^ 2 ≤ glickoQ ^ 2 := by
    apply pow_le_pow_left₀ (by norm_num) q0.le
  have hpi : (9 : ℝ) ≤ π ^ 2 := by nlinarith [Real.pi_gt_three]
  have hrad : 1 + 3 * glickoQ ^ 2 * d ^ 2 / π ^ 2 ≤ 5 / 2 := by
    have : 3 * glickoQ ^ 2 * d ^ 2 / π ^ 2 ≤ 3 * 0.0057565 ^ 2 * 350 ^ 2 / 9 := by gcongr
    norm_num at this ⊢
    linarith
  have hg2 : 2 / 5 ≤ g ^ 2 := by
    rw [hgsq, le_div_iff₀ (glickoG_radicand_pos d)]
    linarith
  have hg2' : g ^ 2 ≤ 1 := by nlinarith
  have hIu : I ≤ 0.0000331373 := by
    rw [hI]; norm_num at hq2 ⊢; nlinarith
  have hIl : 0.0000132 ≤ I := by
    rw [hI]; norm_num at hq2' ⊢; nlinarith
  -- the deviation after the games
  set w := posterior (350 ^ 2) I with hw
  have wpos : 0 < w := posterior_pos (by norm_num) (by linarith)
  have winv : 1 / w = 1 / 350 ^ 2 + I := by
    rw [hw, posterior, one_div_one_div]
  set u := √w with hu
  have u0 : 0 < u := Real.sqrt_pos.2 wpos
  have u2 : u ^ 2 = w := Real.sq_sqrt wpos.le
  have hwu : w ≤ 50000 := by
    rw [← one_div_le_one_div (by norm_num) wpos, winv]; norm_num at hIl ⊢; linarith
  have hwl : 24180 ≤ w := by
    rw [← one_div_le_one_div wpos (by norm_num), winv]; norm_num at hIu ⊢; linarith
  have ul : 155 ≤ u := by
    apply Real.le_sqrt_of_sq_le; norm_num; linarith
  have px : boostPre P r 350 xs = (1 + (2 - 1.96) * 0.20139) * u + 17.5 := by
    unfold boostPre
    rw [if_pos ⟨by rw [hk, zx]; norm_num, by rw [hk]; norm_num⟩, zx, ix, hk, hb0, hb1]
  have py : boostPre P r 350 ys = 350 := by
    unfold boostPre
    rw [if_neg]
    rintro ⟨h1, -⟩
    rw [hk, zy] at h1; norm_num at h1
  have rdy : boostRd1 P r 350 ys ^ 2 = w := by
    unfold boostRd1
    rw [py, iy, ← hw, ← hu, min_eq_left, u2]
    have : u ^ 2 ≤ 350 ^ 2 := by rw [u2]; linarith
    exact le_of_sq_le_sq this (by norm_num)
  set v := (1 + (2 - 1.96) * 0.20139) * u + 17.5 with hv
  have v0 : 0 < v := by rw [hv]; positivity
  have hvu : v ≤ 1.121 * u := by rw [hv]; norm_num at ul ⊢; linarith
  have rdx : boostRd1 P r 350 xs ^ 2 ≤ posterior (v ^ 2) I := by
    unfold boostRd1
    rw [px, ix]
    have h0 := posterior_pos (v := v ^ 2) (i := I) (by positivity) (by linarith)
    calc min √(posterior (v ^ 2) I) 350 ^ 2 ≤ √(posterior (v ^ 2) I) ^ 2 :=
          pow_le_pow_left₀ (le_min (Real.sqrt_nonneg _) (by norm_num)) (min_le_left _ _) 2
      _ = posterior (v ^ 2) I := Real.sq_sqrt h0.le
  -- the comparison
  have key : posterior (v ^ 2) I * 2 < w * (3 / 2) := by
    have hv2 : v ^ 2 ≤ 1.256641 * w := by
      rw [← u2]
      have := pow_le_pow_left₀ v0.le hvu 2
      norm_num at this ⊢; linarith
    have h1 : 1 / (1.256641 * w) ≤ 1 / v ^ 2 :=
      one_div_le_one_div_of_le (by positivity) hv2
    have h2 : 1 / (1.256641 * w) = 1 / 1.256641 * (1 / w) := by
      rw [one_div_mul_one_div]
    have hpos : 0 < 1 / v ^ 2 + I := by positivity
    rw [posterior, div_mul_eq_mul_div, one_mul, div_lt_iff₀ hpos]
    have h3 : 2 / w < 3 / 2 * (1 / v ^ 2 + I) := by
      have h4 : I = 1 / w - 1 / 350 ^ 2 := by rw [winv]; ring
      have h5 : (1 : ℝ) / 50000 ≤ 1 / w := one_div_le_one_div_of_le wpos hwu
      have h6 : 2 / w = 2 * (1 / w) := by ring
      rw [h6, h4]
      rw [h2] at h1
      generalize 1 / w = t at *
      generalize 1 / v ^ 2 = y at *
      norm_num at h1 h5 ⊢
      linarith
    rw [div_lt_iff₀ wpos] at h3
    linarith
  simp only [boostRating]
  have hq := glickoQ_pos
  change r + glickoQ * boostRd1 P r 350 xs ^ 2 * (xs.map (boostDelta P r)).sum
    < r + glickoQ * boostRd1 P r 350 ys ^ 2 * (ys.map (boostDelta P r)).sum
  rw [sx, sy]
  change r + glickoQ * boostRd1 P r 350 xs ^ 2 * (2 * g)
    < r + glickoQ * boostRd1 P r 350 ys ^ 2 * (3 / 2 * g)
  rw [rdy]
  have h7 : glickoQ * boostRd1 P r 350 xs ^ 2 * (2 * g)
      ≤ glickoQ * posterior (v ^ 2) I * (2 * g) := by gcongr
  have h8 : (glickoQ * g) * (posterior (v ^ 2) I * 2) < (glickoQ * g) * (w * (3 / 2)) :=
    mul_lt_mul_of_pos_left key (by positivity)
  linarith

/-- The deviations of the opponents of the counterexample are ordinary ones. -/
example : |(60 : ℝ)| ≤ 350 := by norm_num

end Skillratings.GlickoBoost
