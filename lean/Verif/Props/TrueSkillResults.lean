import Verif.Proofs.DrawV
import Verif.Props.PeriodOrder
/-
C122: a loss, a draw and a win in TrueSkill.  The order of the three ratings is as expected unless the
draw margin is minute compared with the uncertainties; for minute margins the crate's approximation of the
normal distribution can put a draw above a win.
-/
namespace Skillratings.TrueSkill
open Real Spec

theorem corrV_mono {t ε : ℝ} (he : ε = 0 ∨ 1 / 500 ≤ ε) {o o' : Outcomes} (ho : points o ≤ points o') :
    corrV o t ε ≤ corrV o' t ε := by
  obtain ⟨h1, h2⟩ := corrV_ordered (t := t) he
  cases o <;> cases o' <;> norm_num [points] at ho <;> first | exact le_rfl | linarith

theorem tsRating_mono {μ s τ c V V' : ℝ} (hs : 0 ≤ s) (hc : 0 ≤ c) (h : V ≤ V') :
    tsRating μ s τ c V ≤ tsRating μ s τ c V' := by
  unfold tsRating
  gcongr

theorem margin_ratio {m c : ℝ} (hm : m = 0 ∨ c / 500 ≤ m) (hc : 0 < c) :
    m / c = 0 ∨ 1 / 500 ≤ m / c := by
  rcases hm with h | h
  · exact .inl (by rw [h, zero_div])
  · refine .inr ?_
    rw [le_div_iff₀ hc]; linarith

/-- A better result of a game of two players. Missing: positive margins below `c/500`, for which
`C122_trueskill_draw_beats_win` shows that the claim can fail. -/
theorem C122_trueskill_mono_partial (a b : TrueSkillRating ℝ) (o o' : Outcomes) (cfg : TrueSkillConfig ℝ)
    (ho : points o ≤ points o')
    (hm : tsMargin cfg.drawProbability cfg.beta 2 = 0 ∨
      √(2 * cfg.beta ^ 2 + a.uncertainty ^ 2 + b.uncertainty ^ 2) / 500
        ≤ tsMargin cfg.drawProbability cfg.beta 2)
    (hc : 0 < 2 * cfg.beta ^ 2 + a.uncertainty ^ 2 + b.uncertainty ^ 2) :
    (trueskill a b o cfg).1.rating ≤ (trueskill a b o' cfg).1.rating ∧
      (trueskill a b o' cfg).2.rating ≤ (trueskill a b o cfg).2.rating := by
  have e : tsC cfg.beta (solo a) (solo b)
      = √(2 * cfg.beta ^ 2 + a.uncertainty ^ 2 + b.uncertainty ^ 2) := by
    simp only [tsC, solo]; norm_num
  have h := corrV_mono (t := ((solo a).μ - (solo b).μ) / tsC cfg.beta (solo a) (solo b))
    (margin_ratio hm (Real.sqrt_pos.2 hc)) ho
  rw [← e] at h
  rw [trueskill_real, trueskill_real]
  have h0 : 0 ≤ tsC cfg.beta (solo a) (solo b) := by unfold tsC; positivity
  exact ⟨tsRating_mono (sq_nonneg _) h0 h, tsRating_mono (sq_nonneg _) h0 (neg_le_neg h)⟩

/-- A better result of a game of two teams: no rating of the first team falls, none of the second team
rises. Missing: as in `C122_trueskill_mono_partial`. -/
theorem C122_trueskillTwoTeams_mono_partial (s t : List (TrueSkillRating ℝ)) (o o' : Outcomes)
    (cfg : TrueSkillConfig ℝ) (ho : points o ≤ points o')
    (hm : tsMargin cfg.drawProbability cfg.beta (s.length + t.length) = 0 ∨
      √((s.length + t.length : ℕ) * cfg.beta ^ 2 + (s.map fun p => p.uncertainty ^ 2).sum
          + (t.map fun p => p.uncertainty ^ 2).sum) / 500
        ≤ tsMargin cfg.drawProbability cfg.beta (s.length + t.length))
    (hc : 0 < (s.length + t.length : ℕ) * cfg.beta ^ 2 + (s.map fun p => p.uncertainty ^ 2).sum
          + (t.map fun p => p.uncertainty ^ 2).sum) :
    List.Forall₂ (fun p p' => p.rating ≤ p'.rating) (trueskillTwoTeams s t o cfg).1
        (trueskillTwoTeams s t o' cfg).1 ∧
      List.Forall₂ (fun p p' => p'.rating ≤ p.rating) (trueskillTwoTeams s t o cfg).2
        (trueskillTwoTeams s t o' cfg).2 := by
  by_cases hs : s = []
  · subst hs
    simp [trueskillTwoTeams, List.forall₂_same]
  by_cases ht : t = []
  · subst ht
    simp [trueskillTwoTeams, List.forall₂_same]
  have h := corrV_mono (t := ((side s).μ - (side t).μ) / tsC cfg.beta (side s) (side t))
    (margin_ratio (c := tsC cfg.beta (side s) (side t)) hm (Real.sqrt_pos.2 hc)) ho
  rw [twoTeams_real s t o cfg hs ht, twoTeams_real s t o' cfg hs ht]
  have h0 : 0 ≤ tsC cfg.beta (side s) (side t) := by unfold tsC; positivity
  simp only [List.forall₂_map_left_iff, List.forall₂_map_right_iff, List.forall₂_same]
  exact ⟨fun p _ => tsRating_mono (sq_nonneg _) h0 h,
    fun p _ => tsRating_mono (sq_nonneg _) h0 (neg_le_neg h)⟩

/-- A better result of the last game of a rating period. Missing: as in
`C122_trueskill_mono_partial`; for earlier games `C122_trueskill_period_fails`. -/
theorem C122_trueskill_period_mono_partial (p q : TrueSkillRating ℝ)
    (rs : List (TrueSkillRating ℝ × Outcomes)) (o o' : Outcomes) (cfg : TrueSkillConfig ℝ)
    (ho : points o ≤ points o')
    (hm : tsMargin cfg.drawProbability cfg.beta 2 = 0 ∨
      √(2 * cfg.beta ^ 2 + (trueskillRatingPeriod p rs cfg).uncertainty ^ 2 + q.uncertainty ^ 2) / 500
        ≤ tsMargin cfg.drawProbability cfg.beta 2)
    (hc : 0 < 2 * cfg.beta ^ 2 + (trueskillRatingPeriod p rs cfg).uncertainty ^ 2 + q.uncertainty ^ 2) :
    (trueskillRatingPeriod p (rs ++ [(q, o)]) cfg).rating
      ≤ (trueskillRatingPeriod p (rs ++ [(q, o')]) cfg).rating := by
  have h := C122_trueskill_mono_partial (trueskillRatingPeriod p rs cfg) q o o' cfg ho hm hc
  simp only [trueskillRatingPeriod, List.foldl_append, List.foldl_cons, List.foldl_nil] at h ⊢
  exact h.1

/-! ### A draw that is worth more than a win -/

theorem fit_continuousOn : ContinuousOn fit (Set.Ici 0) := fun z hz =>
  (hasDerivAt_fit hz).continuousAt.continuousWithinAt

/-- For some minute margin the weight of a draw is `10⁻¹⁹`, although the numerator is not as small. -/
theorem exists_margin : ∃ ε : ℝ, 1e-8 ≤ ε ∧ ε ≤ 2e-6 ∧ tsDrawNorm (-(ε / 2)) ε = 1e-19 := by
  have hc : ContinuousOn (fun z => 1 - (fit (z / 2) + fit (3 * z / 2)) / 2) (Set.Icc 0 1e-6) := by
    have h1 : ContinuousOn (fun z : ℝ => fit (z / 2)) (Set.Icc 0 1e-6) :=
      fit_continuousOn.comp (by fun_prop) fun z hz => by
        have := hz.1
        simp only [Set.mem_Ici]; positivity
    have h2 : ContinuousOn (fun z : ℝ => fit (3 * z / 2)) (Set.Icc 0 1e-6) :=
      fit_continuousOn.comp (by fun_prop) fun z hz => by
        have := hz.1
        simp only [Set.mem_Ici]; positivity
    exact continuousOn_const.sub ((h1.add h2).div_const 2)
  have h0 : 1 - (fit (0 / 2) + fit (3 * 0 / 2)) / 2 ≤ 1e-19 := by
    have := Real.add_one_le_exp (0.00000003 : ℝ)
    rw [zero_div, mul_zero, zero_div, fit_zero]
    norm_num at this ⊢; linarith
  have h1 : (1e-19 : ℝ) ≤ 1 - (fit (1e-6 / 2) + fit (3 * 1e-6 / 2)) / 2 := by
    have k1 := fit_le_inv' (x := 1e-6 / 2) (by norm_num)
    have k2 := fit_le_inv' (x := 3 * 1e-6 / 2) (by norm_num)
    norm_num at k1 k2 ⊢; linarith
  obtain ⟨z, ⟨hz0, hz1⟩, hz⟩ := intermediate_value_Icc (by norm_num) hc ⟨h0, h1⟩
  simp only at hz
  have hz8 : 1e-8 ≤ z := by
    have k1 := erf_small_le (z := z / 2) (by positivity) (by norm_num at hz1 ⊢; linarith)
    have k2 := erf_small_le (z := 3 * z / 2) (by positivity) (by norm_num at hz1 ⊢; linarith)
    by_contra h
    have e1 := Real.exp_pos (-(z / 2) ^ 2)
    have e2 := Real.exp_pos (-(3 * z / 2) ^ 2)
    norm_num at h k1 k2 hz
    nlinarith
  have s1 : (1 : ℝ) ≤ √2 := Real.one_le_sqrt.2 (by norm_num)
  have s2 : √2 ≤ (2 : ℝ) := by rw [Real.sqrt_le_left (by norm_num)]; norm_num
  have hz' : 0 < z := lt_of_lt_of_le (by norm_num) hz8
  refine ⟨√2 * z, by nlinarith, by nlinarith, ?_⟩
  have hp : 0 < √2 * z / 2 := by positivity
  have hq : 0 < 3 * (√2 * z) / 2 := by positivity
  rw [tsDrawNorm, abs_neg, abs_of_pos hp, show √2 * z - √2 * z / 2 = √2 * z / 2 by ring,
    show -(√2 * z) - √2 * z / 2 = -(3 * (√2 * z) / 2) by ring,
    show normalCdf (√2 * z / 2) = 1 - normalCdf (-(√2 * z / 2)) by rw [normalCdf_neg hp.ne']; ring,
    normalCdf, normalCdf, neg_neg, neg_neg, erfcFit_of_nonneg (by positivity),
    erfcFit_of_nonneg (by positivity), show √2 * z / 2 / √2 = z / 2 by field_simp,
    show 3 * (√2 * z) / 2 / √2 = 3 * z / 2 by field_simp]
  linarith

theorem draw_num_ge {ε : ℝ} (h0 : 1e-8 ≤ ε) (h1 : ε ≤ 2e-6) :
    1e-17 ≤ normalPdf (ε - ε / 2) - normalPdf (-ε - ε / 2) := by
  have e : normalPdf (-ε - ε / 2) = normalPdf (ε - ε / 2) * exp (-ε ^ 2) := by
    simp only [normalPdf]
    rw [div_mul_eq_mul_div, ← Real.exp_add]
    congr 2; ring
  have h2 := pdf_ge_small (x := ε - ε / 2) (by
    rw [abs_of_nonneg (by norm_num at h0; linarith)]; norm_num at h1 ⊢; linarith)
  have h3 : exp (-ε ^ 2) ≤ 1 - ε ^ 2 / 2 := by
    have h4 : exp (-ε ^ 2) ≤ 1 / (1 + ε ^ 2) := by
      rw [Real.exp_neg, inv_eq_one_div]
      exact one_div_le_one_div_of_le (by positivity) (by linarith [Real.add_one_le_exp (ε ^ 2)])
    refine h4.trans ?_
    rw [div_le_iff₀ (by positivity)]
    have : ε ^ 2 ≤ 1 := by norm_num at h1; nlinarith
    nlinarith [sq_nonneg ε]
  have h4 : 1e-16 ≤ ε ^ 2 := by
    calc (1e-16 : ℝ) = 1e-8 ^ 2 := by norm_num
      _ ≤ ε ^ 2 := by gcongr
  rw [e]
  have h5 : normalPdf (ε - ε / 2) * exp (-ε ^ 2) ≤ normalPdf (ε - ε / 2) * (1 - ε ^ 2 / 2) := by
    have := pdf_pos' (ε - ε / 2)
    gcongr
  have h6 : 0.34 * 1e-16 ≤ normalPdf (ε - ε / 2) * ε ^ 2 := by gcongr
  norm_num at h6 ⊢; linarith

theorem tsVWin_le_two {t ε : ℝ} (h : -1 ≤ t - ε) : tsVWin t ε ≤ 2 := by
  have hp := tsVWin_pos t ε
  by_cases hn : normalCdf (t - ε) < tsTiny
  · rw [tsVWin, if_pos hn]; linarith
  · have hw := (tsWWin_bounds t ε).2
    rw [tsWWin, if_neg hn] at hw
    nlinarith

/-- With the default draw probability, a positive β and any dynamics factor there are two players for whom
a draw gives the first player a higher rating than a win. -/
theorem C122_trueskill_draw_beats_win (β τ : ℝ) (hβ : 0 < β) :
    ∃ p q : TrueSkillRating ℝ, 0 < p.uncertainty ∧ 0 < q.uncertainty ∧
      (trueskill p q .WIN ⟨1 / 10, β, τ⟩).1.rating < (trueskill p q .DRAW ⟨1 / 10, β, τ⟩).1.rating := by
  obtain ⟨ε, h0, h1, hD⟩ := exists_margin
  have hε : 0 < ε := lt_of_lt_of_le (by norm_num) h0
  obtain ⟨m1, -⟩ := margin_tenth hβ.le
  set κ := tsMargin (1 / 10) β 2 with hκ
  set c := κ / ε with hcd
  have hc : 50 * β ≤ c := by
    rw [hcd, le_div_iff₀ hε]
    have : 50 * β * ε ≤ 50 * β * 2e-6 := by gcongr
    norm_num at this m1 ⊢; linarith
  have hc0 : 0 < c := by linarith
  have hu : 0 < (c ^ 2 - 2 * β ^ 2) / 2 := by nlinarith
  set u := √((c ^ 2 - 2 * β ^ 2) / 2) with hud
  have hu0 : 0 < u := Real.sqrt_pos.2 hu
  have hu2 : u ^ 2 = (c ^ 2 - 2 * β ^ 2) / 2 := Real.sq_sqrt hu.le
  refine ⟨⟨0, u⟩, ⟨κ / 2, u⟩, hu0, hu0, ?_⟩
  have hC : √(2 * β ^ 2 + u ^ 2 + u ^ 2) = c := by
    rw [hu2, show 2 * β ^ 2 + (c ^ 2 - 2 * β ^ 2) / 2 + (c ^ 2 - 2 * β ^ 2) / 2 = c ^ 2 by ring,
      Real.sqrt_sq hc0.le]
  have hκ0 : 0 < κ := by norm_num at m1; linarith
  have hεc : κ / c = ε := by rw [hcd]; field_simp
  have ht : (0 - κ / 2) / c = -(ε / 2) := by rw [← hεc]; ring
  have g := fun o => (game_parts ⟨0, u⟩ ⟨κ / 2, u⟩ o ⟨1 / 10, β, τ⟩).1
  simp only [hC, ht, show (1 + 1 : ℕ) = 2 from rfl, ← hκ, hεc] at g
  have g1 := g .WIN
  have g2 := g .DRAW
  have e : ∀ o, (trueskill (⟨0, u⟩ : TrueSkillRating ℝ) ⟨κ / 2, u⟩ o ⟨1 / 10, β, τ⟩).1.rating
      = (periodStep ⟨1 / 10, β, τ⟩ (drawMargin (1 / 10) β 2.0) ⟨0, u⟩ (⟨κ / 2, u⟩, o)).rating :=
    fun o => rfl
  rw [e, e, g1, g2]
  have hv : tsVWin (-(ε / 2)) ε ≤ 2 := tsVWin_le_two (by norm_num at h1; linarith)
  have hd : 100 ≤ tsVDraw (-(ε / 2)) ε := by
    have hn : ¬ tsDrawNorm (-(ε / 2)) ε < tsTiny := by rw [hD]; norm_num [tsTiny]
    have := draw_num_ge h0 h1
    rw [tsVDraw, if_neg hn, if_pos (by linarith), hD, abs_neg, abs_of_pos (by positivity),
      le_div_iff₀ (by norm_num)]
    norm_num at this ⊢; linarith
  have : 0 < (u ^ 2 + τ ^ 2) / c := by positivity
  simp only [corrV]
  have : (u ^ 2 + τ ^ 2) / c * tsVWin (-(ε / 2)) ε < (u ^ 2 + τ ^ 2) / c * tsVDraw (-(ε / 2)) ε := by
    gcongr; linarith
  linarith

/-- The default settings and two players with ordinary uncertainties. -/
example (o o' : Outcomes) (ho : points o ≤ points o') :
    (trueskill ⟨25, 25 / 3⟩ ⟨40, 3⟩ o ⟨1 / 10, 25 / 6, 25 / 300⟩).1.rating
      ≤ (trueskill (F := ℝ) ⟨25, 25 / 3⟩ ⟨40, 3⟩ o' ⟨1 / 10, 25 / 6, 25 / 300⟩).1.rating := by
  refine (C122_trueskill_mono_partial _ _ o o' _ ho (.inr ?_) (by norm_num)).1
  have h := (margin_tenth (β := 25 / 6) (by norm_num)).1
  refine le_trans ?_ h
  have : √(2 * (25 / 6) ^ 2 + (25 / 3) ^ 2 + 3 ^ 2) ≤ (200 : ℝ) := by
    rw [Real.sqrt_le_left (by norm_num)]; norm_num
  norm_num at this ⊢; linarith

/-- Two against one. -/
example (o o' : Outcomes) (ho : points o ≤ points o') :
    List.Forall₂ (fun p p' => p.rating ≤ p'.rating)
      (trueskillTwoTeams (F := ℝ) [⟨25, 25 / 3⟩] [⟨10, 2⟩] o ⟨1 / 10, 25 / 6, 25 / 300⟩).1
      (trueskillTwoTeams [⟨25, 25 / 3⟩] [⟨10, 2⟩] o' ⟨1 / 10, 25 / 6, 25 / 300⟩).1 := by
  refine (C122_trueskillTwoTeams_mono_partial _ _ o o' _ ho (.inr ?_) (by norm_num)).1
  have h := (margin_tenth (β := 25 / 6) (by norm_num)).1
  refine le_trans ?_ h
  have : √((1 + 1 : ℕ) * (25 / 6) ^ 2 + (25 / 3) ^ 2 + 2 ^ 2) ≤ (200 : ℝ) := by
    rw [Real.sqrt_le_left (by norm_num)]; norm_num
  norm_num at this ⊢; linarith

/-- A period with an empty start. -/
example (o o' : Outcomes) (ho : points o ≤ points o') :
    (trueskillRatingPeriod ⟨25, 25 / 3⟩ ([] ++ [(⟨40, 3⟩, o)]) ⟨1 / 10, 25 / 6, 25 / 300⟩).rating
      ≤ (trueskillRatingPeriod (F := ℝ) ⟨25, 25 / 3⟩ ([] ++ [(⟨40, 3⟩, o')])
          ⟨1 / 10, 25 / 6, 25 / 300⟩).rating := by
  refine C122_trueskill_period_mono_partial _ _ [] o o' _ ho (.inr ?_) (by norm_num; positivity)
  have h := (margin_tenth (β := 25 / 6) (by norm_num)).1
  refine le_trans ?_ h
  simp only [trueskillRatingPeriod, List.foldl_nil]
  have : √(2 * (25 / 6) ^ 2 + (25 / 3) ^ 2 + 3 ^ 2) ≤ (200 : ℝ) := by
    rw [Real.sqrt_le_left (by norm_num)]; norm_num
  norm_num at this ⊢; linarith

example : ∃ p q : TrueSkillRating ℝ, 0 < p.uncertainty ∧ 0 < q.uncertainty ∧
    (trueskill p q .WIN ⟨1 / 10, 25 / 6, 25 / 300⟩).1.rating
      < (trueskill p q .DRAW ⟨1 / 10, 25 / 6, 25 / 300⟩).1.rating :=
  C122_trueskill_draw_beats_win _ _ (by norm_num)

end Skillratings.TrueSkill
