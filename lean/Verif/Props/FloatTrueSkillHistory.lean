import Verif.Proofs.FPTsGame
import Verif.Props.FloatMargin
/-
C100, TrueSkill: histories of decided games in floating-point arithmetic.
-/

namespace Skillratings
open FP Spec MeasureTheory
variable {E : FloatEnv}

namespace TrueSkill

/-- A configuration for long histories: `beta` between `2 ^ -18` and `2 ^ 16`, a dynamics factor that does not
vanish and is at most half of `beta`, and a draw probability below one. -/
structure TsSteady (c : TrueSkillConfig (FP E)) : Prop where
  beta : Between (1 / 2 ^ 18) (2 ^ 16) c.beta
  dynamics : c.dynamicsFactor.isFinite
  moving : 1 / 2 ^ 19 ≤ |c.dynamicsFactor.toR|
  slow : 2 * |c.dynamicsFactor.toR| ≤ c.beta.toR
  draw : Between 0 (1 - 1 / 2 ^ 20) c.drawProbability

/-- A finite rating of at most `B` times `beta`, and a finite uncertainty of at least `2 ^ -20` whose square is at
most `V` times the square of `beta`. -/
structure TsSane (c : TrueSkillConfig (FP E)) (B V : ℝ) (a : TrueSkillRating (FP E)) : Prop where
  rating : Within (B * c.beta.toR) a.rating
  uncertainty : a.uncertainty.isFinite
  positive : 1 / 2 ^ 20 ≤ a.uncertainty.toR
  variance : a.uncertainty.toR ^ 2 ≤ V * c.beta.toR ^ 2

/-- What a game adds at most to the variance, in units of the square of `beta`. -/
noncomputable def gameDrift (c : TrueSkillConfig (FP E)) : ℝ :=
  c.dynamicsFactor.toR ^ 2 / c.beta.toR ^ 2 + 1 / 2 ^ 23

theorem gameDrift_nonneg (c : TrueSkillConfig (FP E)) : 0 ≤ gameDrift c := by rw [gameDrift]; positivity

theorem TsSane.mono {c : TrueSkillConfig (FP E)} {B B' V V' : ℝ} {a : TrueSkillRating (FP E)} (h : TsSane c B V a)
    (hβ : 0 ≤ c.beta.toR) (hB : B ≤ B') (hV : V ≤ V') : TsSane c B' V' a :=
  ⟨h.rating.mono (mul_le_mul_of_nonneg_right hB hβ), h.uncertainty, h.positive,
    h.variance.trans (mul_le_mul_of_nonneg_right hV (by positivity))⟩

theorem TsSane.usual {c : TrueSkillConfig (FP E)} {B V : ℝ} {a : TrueSkillRating (FP E)} (h : TsSane c B V a)
    (hc : TsSteady c) (hV : V ≤ 256) : TsUsual a := by
  have hβ0 : 0 < c.beta.toR := lt_of_lt_of_le (by positivity) hc.beta.2.1
  refine ⟨h.rating.1, h.uncertainty, h.positive, ?_⟩
  refine le_of_sq_le_sq (h.variance.trans ?_) (by positivity)
  have h1 : V * c.beta.toR ^ 2 ≤ 256 * (2 ^ 16) ^ 2 :=
    mul_le_mul hV (pow_le_pow_left₀ hβ0.le hc.beta.2.2 2) (by positivity) (by norm_num)
  exact h1.trans (by norm_num)

theorem margin_le (L : E.Lib) (A : E.Accurate) (G : E.LogAccurate) {c : TrueSkillConfig (FP E)} (hc : TsSteady c) :
    (drawMargin c.drawProbability c.beta (2.0 : FP E)).isFinite ∧
      |(drawMargin c.drawProbability c.beta (2.0 : FP E)).toR| ≤ 15 * c.beta.toR := by
  obtain ⟨ε, h1, h2, -⟩ := C126_trueskill_draw_probability (P := Measure.dirac ()) L A G c
    ⟨hc.beta.1, le_trans (by norm_num) hc.beta.2.1, hc.beta.2.2.trans (by norm_num)⟩ hc.draw
  exact ⟨h1.1, by rw [h1.2]; exact h2⟩

/-- A decided game, `x` being the winner. -/
theorem decided_sane (L : E.Lib) (A : E.Accurate) (G : E.LogAccurate) (X : E.Fading) {c : TrueSkillConfig (FP E)}
    (hc : TsSteady c) {x y : TrueSkillRating (FP E)} {B V : ℝ} (hx : TsSane c B V x) (hy : TsSane c B V y)
    (hB0 : 0 ≤ B) (hB : B ≤ 2 ^ 40) (hV : V ≤ 256) {s : FP E} {C : ℝ} (hs : Ap 20 50 s C)
    (hC : C ^ 2 = 2 * c.beta.toR ^ 2 + x.uncertainty.toR ^ 2 + y.uncertainty.toR ^ 2) :
    let m := drawMargin c.drawProbability c.beta (2.0 : FP E)
    TsSane c (B + 40) (V + gameDrift c) ⟨newRating x.rating x.uncertainty (vNonDraw (x.rating - y.rating) m s) s
      c.dynamicsFactor (1.0 : FP E), newUncertainty x.uncertainty s (wNonDraw (x.rating - y.rating) m s) c.dynamicsFactor⟩ ∧
    TsSane c (B + 40) (V + gameDrift c) ⟨newRating y.rating y.uncertainty (vNonDraw (x.rating - y.rating) m s) s
      c.dynamicsFactor (-1.0 : FP E), newUncertainty y.uncertainty s (wNonDraw (x.rating - y.rating) m s) c.dynamicsFactor⟩ := by
  intro m
  obtain ⟨hm1, hm2⟩ := margin_le L A G hc
  change m.isFinite at hm1
  change |m.toR| ≤ _ at hm2
  have ux := hx.usual hc hV
  have uy := hy.usual hc hV
  have xb := hx.rating.2
  have yb := hy.rating.2
  have vx := hx.variance
  have vy := hy.variance
  obtain ⟨hβf, hβ1, hβ2⟩ := hc.beta
  have hβ0 : 0 < c.beta.toR := lt_of_lt_of_le (by positivity) hβ1
  obtain ⟨k, hk⟩ := sub_fin ux.1 uy.1
  have hdrift : V + gameDrift c = V + c.dynamicsFactor.toR ^ 2 / c.beta.toR ^ 2 + 1 / 2 ^ 23 := by
    rw [gameDrift]; ring
  rw [hdrift]
  set β := c.beta.toR with hβ
  set R := B * β with hR
  have hR2 : R ≤ 2 ^ 40 * β := mul_le_mul_of_nonneg_right hB hβ0.le
  have x' := abs_le.1 xb
  have y' := abs_le.1 yb
  have hxy : |x.rating.toR - y.rating.toR| ≤ 2 ^ 42 * β := by
    refine (abs_sub _ _).trans ?_
    norm_num at hR2 ⊢; linarith
  have hd := round_abs (E := E) k hxy (by norm_num at hβ1 ⊢; linarith)
    (le_huge 60 (by norm_num at hβ2 ⊢; linarith) (by norm_num))
  rw [← hk] at hd
  have hd' := abs_le.1 hd.2
  have hdb := hd.abs_le
  have hC0 := hs.2.pos
  have hCβ : 1.41 * β ≤ C := by
    refine le_of_sq_le_sq ?_ hC0.le
    rw [hC, mul_pow]
    nlinarith [_root_.sq_nonneg x.uncertainty.toR, _root_.sq_nonneg y.uncertainty.toR]
  have hu := decided_any L A X hd.1 hm1 hs (by norm_num at hdb hxy hCβ ⊢; linarith)
    (by norm_num at hCβ ⊢; linarith) rfl
  have hm3 := abs_le.1 hm2
  set U := ((x.rating - y.rating).toR - m.toR) / C with hU
  have hUb : |U| ≤ 2 ^ 50 := by
    rw [hU, abs_div, abs_of_pos hC0, div_le_iff₀ hC0]
    refine (abs_sub _ _).trans ?_
    norm_num at hdb hxy hCβ ⊢; linarith
  have hUC : C * max 0 (-U) ≤ max 0 (y.rating.toR - x.rating.toR + 16 * β) := by
    rw [mul_max_of_nonneg _ _ hC0.le, mul_zero]
    refine max_le_max le_rfl ?_
    have : C * -U = m.toR - (x.rating - y.rating).toR := by
      rw [hU]; field_simp; ring
    rw [this]
    norm_num at hd' hm3 ⊢; linarith [hd'.1, hm3.2]
  have hq : max 0 (y.rating.toR - x.rating.toR + 16 * β) ≤ 2 ^ 42 * β := by
    refine max_le (by positivity) ?_
    norm_num at hR2 ⊢; linarith [x'.1, y'.2]
  have hCx : x.uncertainty.toR ^ 2 + 2 * β ^ 2 ≤ C ^ 2 := by
    rw [hC]; nlinarith [_root_.sq_nonneg y.uncertainty.toR]
  have hCy : y.uncertainty.toR ^ 2 + 2 * β ^ 2 ≤ C ^ 2 := by
    rw [hC]; nlinarith [_root_.sq_nonneg x.uncertainty.toR]
  obtain ⟨⟨p1, z, z1, z2, z3⟩, p2, p3, p4⟩ := side_any L ux.2 hβ1 hβ2 vx hV hc.dynamics hc.moving hc.slow hs hCx
    ux.1 xb hR2 one_near (by simp) hu hUb hUC hq
  obtain ⟨⟨o1, t, t1, t2, t3⟩, o2, o3, o4⟩ := side_any L uy.2 hβ1 hβ2 vy hV hc.dynamics hc.moving hc.slow hs hCy
    uy.1 yb hR2 neg_one_near (by simp) hu hUb hUC hq
  have z4 := abs_le.1 z3
  have t4 := abs_le.1 t3
  have hRe : (B + 40) * β = R + 40 * β := by rw [hR]; ring
  refine ⟨⟨⟨p1, ?_⟩, p2, p3, p4⟩, ⟨⟨o1, ?_⟩, o2, o3, o4⟩⟩
  · rw [hRe, abs_le]
    rcases le_total (y.rating.toR - x.rating.toR + 16 * β) 0 with h | h
    · rw [max_eq_left h] at z2
      constructor <;> linarith [z4.1, z4.2, x'.1, x'.2]
    · rw [max_eq_right h] at z2
      constructor <;> linarith [z4.1, z4.2, x'.1, x'.2, y'.2]
  · rw [hRe, abs_le]
    rcases le_total (y.rating.toR - x.rating.toR + 16 * β) 0 with h | h
    · rw [max_eq_left h] at t2
      constructor <;> linarith [t4.1, t4.2, y'.1, y'.2]
    · rw [max_eq_right h] at t2
      constructor <;> linarith [t4.1, t4.2, y'.1, y'.2, x'.1]

/-- One decided game. -/
theorem game_sane (L : E.Lib) (A : E.Accurate) (G : E.LogAccurate) (X : E.Fading) {c : TrueSkillConfig (FP E)}
    (hc : TsSteady c) {a b : TrueSkillRating (FP E)} {B V : ℝ} (ha : TsSane c B V a) (hb : TsSane c B V b)
    (hB0 : 0 ≤ B) (hB : B ≤ 2 ^ 40) (hV : V ≤ 256) {o : Outcomes} (ho : o ≠ .DRAW) :
    TsSane c (B + 40) (V + gameDrift c) (trueskill a b o c).1 ∧ TsSane c (B + 40) (V + gameDrift c) (trueskill a b o c).2 := by
  have hβ : Between (1 / 2 ^ 20) (2 ^ 20) c.beta :=
    ⟨hc.beta.1, le_trans (by norm_num) hc.beta.2.1, hc.beta.2.2.trans (by norm_num)⟩
  obtain ⟨hs, hC⟩ := spread_ap L hβ (ha.usual hc hV) (hb.usual hc hV)
  cases o with
  | DRAW => exact absurd rfl ho
  | WIN => exact decided_sane L A G X hc ha hb hB0 hB hV hs hC
  | LOSS => exact (decided_sane L A G X hc hb ha hB0 hB hV hs (by rw [hC]; ring)).symm

/-- TrueSkill: a decided game moves a rating, beyond the larger of the two ratings, by at most 40 `beta`, and adds at
most the square of the dynamics factor to the variance (and `2 ^ -23` of the square of `beta` for the
rounding).  As long as the variances stay below 256 times the square of `beta`, nothing overflows and no uncertainty vanishes, whatever
the differences of the ratings. -/
theorem C100_trueskill_history {ι : Type} [DecidableEq ι] (L : E.Lib) (A : E.Accurate) (G : E.LogAccurate)
    (X : E.Fading) (pool : ι → TrueSkillRating (FP E)) (games : List (Game ι (TrueSkillConfig (FP E))))
    (c : TrueSkillConfig (FP E)) (hc : TsSteady c) (B V : ℝ) (hB0 : 0 ≤ B) (hp : ∀ i, TsSane c B V (pool i))
    (hg : ∀ g ∈ games, g.outcome ≠ .DRAW ∧ g.config = c) (hB : B + 40 * games.length ≤ 2 ^ 40)
    (hV : V + gameDrift c * games.length ≤ 256) (i : ι) :
    TsSane c (B + 40 * games.length) (V + gameDrift c * games.length) (tournament trueskill pool games i) := by
  have hβ0 : 0 ≤ c.beta.toR := le_trans (by positivity) hc.beta.2.1
  have hd := gameDrift_nonneg c
  have := tournament_games trueskill
    (fun n a => TsSane (E := E) c (B + 40 * n) (V + gameDrift c * n) a) (fun o c' => o ≠ .DRAW ∧ c' = c) games.length
    (fun n a ha => ha.mono hβ0 (by push_cast; linarith) (by push_cast; nlinarith))
    (by
      rintro n a b o c' hn ⟨ho, rfl⟩ ha hb
      have h1 : ((n : ℝ) + 1) ≤ games.length := by exact_mod_cast hn
      have h2 := mul_le_mul_of_nonneg_left h1 hd
      have := game_sane L A G X hc ha hb (by positivity) (by linarith) (by linarith) ho
      push_cast
      rwa [mul_add, mul_one, ← add_assoc, mul_add, mul_one, ← add_assoc])
    pool games 0 (by omega) hg (by simpa using hp) i
  simpa using this

/-- The same for a rating period of decided games. -/
theorem C100_trueskill_period (L : E.Lib) (A : E.Accurate) (G : E.LogAccurate) (X : E.Fading)
    (a : TrueSkillRating (FP E)) (results : List (TrueSkillRating (FP E) × Outcomes))
    (c : TrueSkillConfig (FP E)) (hc : TsSteady c) (B V : ℝ) (hB0 : 0 ≤ B) (ha : TsSane c B V a)
    (hr : ∀ r ∈ results, r.2 ≠ .DRAW ∧ TsSane c B V r.1) (hB : B + 40 * results.length ≤ 2 ^ 40)
    (hV : V + gameDrift c * results.length ≤ 256) :
    TsSane c (B + 40 * results.length) (V + gameDrift c * results.length) (trueskillRatingPeriod a results c) := by
  have hβ0 : 0 ≤ c.beta.toR := le_trans (by positivity) hc.beta.2.1
  have hd := gameDrift_nonneg c
  rw [trueskillRatingPeriod]
  induction results generalizing a B V with
  | nil => simpa using ha
  | cons r rs ih =>
    simp only [List.foldl_cons, List.length_cons] at hB hV ⊢
    push_cast at hB hV ⊢
    have l0 : (0 : ℝ) ≤ rs.length := Nat.cast_nonneg _
    have hl := mul_nonneg hd l0
    obtain ⟨ho, hr1⟩ := hr r List.mem_cons_self
    have h1 := (game_sane L A G X hc ha hr1 hB0 (by linarith) (by nlinarith) ho).1
    have h2 := ih (periodStep c (drawMargin c.drawProbability c.beta (2.0 : FP E)) a r) (B + 40) (V + gameDrift c)
      (by linarith) h1
      (fun r' h' => ⟨(hr r' (List.mem_cons_of_mem _ h')).1,
        (hr r' (List.mem_cons_of_mem _ h')).2.mono hβ0 (by linarith) (by linarith)⟩)
      (by linarith) (by linarith)
    rwa [show B + 40 * ((rs.length : ℝ) + 1) = B + 40 + 40 * rs.length by ring,
      show V + gameDrift c * ((rs.length : ℝ) + 1) = V + gameDrift c + gameDrift c * rs.length by ring]

/-! A concrete instance: players at 25 with an uncertainty of 8, `beta` 4 and a dynamics factor of an eighth. -/

noncomputable def steadyConfig : TrueSkillConfig (FP ieee) := ⟨0.1, 4.0, 0.125⟩

theorem steady_dynamics : (0.125 : FP ieee).isFinite ∧ (0.125 : FP ieee).toR = 1 / 8 := by
  have h := lit_in (E := ieee) (m := 125) (s := true) (e := 3) (v := 1 / 8) (by norm_num)
    (by have := SRep.inv_two_pow 3 (by norm_num); norm_num at this ⊢; exact this)
  exact ⟨h.finite, le_antisymm h.toR.2 h.toR.1⟩

theorem steady_config : TsSteady steadyConfig := by
  have hb : steadyConfig.beta.toR = 4 := cfg4_beta
  have hd : steadyConfig.dynamicsFactor.toR = 1 / 8 := steady_dynamics.2
  refine ⟨⟨four_in.finite, ?_, ?_⟩, steady_dynamics.1, ?_, ?_, cfg4_probability.1⟩
  · rw [hb]; norm_num
  · rw [hb]; norm_num
  · rw [hd, abs_of_pos (by norm_num)]; norm_num
  · rw [hb, hd, abs_of_pos (by norm_num)]; norm_num

theorem steady_player : TsSane steadyConfig 7 4 tom := by
  have hb : steadyConfig.beta.toR = 4 := cfg4_beta
  refine ⟨⟨tom_member.1.1, ?_⟩, tom_member.1.2.1, ?_, ?_⟩
  · rw [hb, tom_rating]; norm_num
  · rw [tom_uncertainty]; norm_num
  · rw [hb, tom_uncertainty]; norm_num

/-- Two hundred thousand games. -/
example (games : List (Game (Fin 3) (TrueSkillConfig (FP ieee))))
    (hg : ∀ g ∈ games, g.outcome ≠ .DRAW ∧ g.config = steadyConfig) (hn : games.length ≤ 200000) (i : Fin 3) :
    (tournament trueskill (fun _ => tom) games i).rating.isFinite ∧
      (tournament trueskill (fun _ => tom) games i).uncertainty.isFinite := by
  have hn' : (games.length : ℝ) ≤ 200000 := by exact_mod_cast hn
  have hd : gameDrift steadyConfig ≤ 1 / 1000 := by
    rw [gameDrift, show steadyConfig.beta.toR = 4 from cfg4_beta,
      show steadyConfig.dynamicsFactor.toR = 1 / 8 from steady_dynamics.2]
    norm_num
  have h := C100_trueskill_history ieee_lib ieee_accurate ieee_logAccurate ieee_fading (fun _ => tom) games steadyConfig
    steady_config 7 4 (by norm_num) (fun _ => steady_player) hg (by norm_num; linarith)
    (by
      have := mul_le_mul hd hn' (Nat.cast_nonneg _) (by norm_num)
      norm_num at this; linarith) i
  exact ⟨h.rating.1, h.uncertainty⟩

example : (trueskillRatingPeriod tom [(tom, .WIN), (tom, .LOSS)] steadyConfig).rating.isFinite := by
  have hd : gameDrift steadyConfig ≤ 1 / 1000 := by
    rw [gameDrift, show steadyConfig.beta.toR = 4 from cfg4_beta,
      show steadyConfig.dynamicsFactor.toR = 1 / 8 from steady_dynamics.2]
    norm_num
  refine (C100_trueskill_period ieee_lib ieee_accurate ieee_logAccurate ieee_fading tom _ steadyConfig
    steady_config 7 4 (by norm_num) steady_player ?_ (by norm_num) (by norm_num; linarith)).rating.1
  intro r h
  simp only [List.mem_cons, List.not_mem_nil, or_false] at h
  rcases h with rfl | rfl <;> exact ⟨by simp, steady_player⟩

end TrueSkill
end Skillratings
