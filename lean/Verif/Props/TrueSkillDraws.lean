import Verif.Props.TrueSkill
import Verif.Proofs.DrawW
import Verif.Proofs.TruncVar
import Verif.Proofs.DrawTail
/-
C102: the uncertainties after a drawn TrueSkill game (/repo/src/trueskill/mod.rs `trueskill`,
/repo/src/trueskill/math.rs `w_draw`, `new_uncertainty`).
-/
namespace Skillratings.TrueSkill
open Real Spec

/-- The number whose square root becomes the new uncertainty of the first player after a
drawn game, written with the published formulas. -/
noncomputable def drawRadicand (a b : TrueSkillRating ℝ) (cfg : TrueSkillConfig ℝ) : ℝ :=
  let c := √(2 * cfg.beta ^ 2 + a.uncertainty ^ 2 + b.uncertainty ^ 2)
  let s := a.uncertainty ^ 2 + cfg.dynamicsFactor ^ 2
  s * (1 - tsWDraw ((a.rating - b.rating) / c)
    (tsMargin cfg.drawProbability cfg.beta 2 / c) * (s / c ^ 2))

theorem draw_uncertainty (a b : TrueSkillRating ℝ) (cfg : TrueSkillConfig ℝ) :
    (trueskill a b .DRAW cfg).1.uncertainty = √(drawRadicand a b cfg) := by
  rw [trueskill_real]
  simp only [upd, tsUncertainty, drawRadicand, matchW, corrW, tsC, solo]
  norm_num

/-- Two equally rated players draw.  If the first is at least about 80 times as uncertain as
everything else together and the draw margin is small against the total uncertainty (but not
below the resolution of the error function), the number under the square root is negative:
the exact result has no uncertainty, the program's is not a number. -/
theorem C102_draw_no_uncertainty (a b : TrueSkillRating ℝ) (cfg : TrueSkillConfig ℝ)
    (hr : a.rating = b.rating)
    (hlo : 1e-7 ≤ tsMargin cfg.drawProbability cfg.beta 2
      / √(2 * cfg.beta ^ 2 + a.uncertainty ^ 2 + b.uncertainty ^ 2) / √2)
    (hhi : tsMargin cfg.drawProbability cfg.beta 2
      / √(2 * cfg.beta ^ 2 + a.uncertainty ^ 2 + b.uncertainty ^ 2) / √2 ≤ 1e-4)
    (hs : 2 * cfg.beta ^ 2 + b.uncertainty ^ 2 < 1.6e-4 * a.uncertainty ^ 2) :
    drawRadicand a b cfg < 0 ∧ (trueskill a b .DRAW cfg).1.uncertainty = 0 := by
  have key : drawRadicand a b cfg < 0 := by
    have hw := wDraw_gt rfl hlo hhi
    simp only [drawRadicand]
    rw [hr, sub_self, zero_div]
    have ha : 0 < a.uncertainty ^ 2 := by nlinarith [sq_nonneg cfg.beta, sq_nonneg b.uncertainty]
    have hc2 : √(2 * cfg.beta ^ 2 + a.uncertainty ^ 2 + b.uncertainty ^ 2) ^ 2
        = 2 * cfg.beta ^ 2 + a.uncertainty ^ 2 + b.uncertainty ^ 2 := Real.sq_sqrt (by positivity)
    set z := tsMargin cfg.drawProbability cfg.beta 2
      / √(2 * cfg.beta ^ 2 + a.uncertainty ^ 2 + b.uncertainty ^ 2) / √2
    set c := √(2 * cfg.beta ^ 2 + a.uncertainty ^ 2 + b.uncertainty ^ 2)
    have hz0 : 0 < z := lt_of_lt_of_le (by norm_num) hlo
    have h1 : 1.6e-4 ≤ 1.6e-8 / z := by
      rw [le_div_iff₀ hz0]
      norm_num at hhi ⊢
      linarith
    set W := tsWDraw 0 (tsMargin cfg.drawProbability cfg.beta 2 / c)
    have hW : 1 + 1.6e-4 ≤ W := by linarith
    have hτ := sq_nonneg cfg.dynamicsFactor
    set s := a.uncertainty ^ 2 + cfg.dynamicsFactor ^ 2
    have hsp : 0 < s := by positivity
    have hcp : 0 < c ^ 2 := by rw [hc2]; positivity
    apply mul_neg_of_pos_of_neg hsp
    rw [sub_neg, ← mul_div_assoc, lt_div_iff₀ hcp, one_mul, hc2]
    have : (1 + 1.6e-4) * s ≤ W * s := by gcongr
    have h2 : a.uncertainty ^ 2 ≤ s := by simp only [s]; linarith
    nlinarith
  exact ⟨key, by rw [draw_uncertainty, Real.sqrt_eq_zero_of_nonpos key.le]⟩

/-- A new player of uncertainty 25 and an equally rated one of uncertainty 1/1000, in a game
with little luck. -/
noncomputable def sharp : TrueSkillConfig ℝ := ⟨1 / 10, 1 / 1000, 0⟩

theorem sharp_range :
    1e-7 ≤ tsMargin sharp.drawProbability sharp.beta 2
      / √(2 * sharp.beta ^ 2 + (25 : ℝ) ^ 2 + (1 / 1000 : ℝ) ^ 2) / √2 ∧
    tsMargin sharp.drawProbability sharp.beta 2
      / √(2 * sharp.beta ^ 2 + (25 : ℝ) ^ 2 + (1 / 1000 : ℝ) ^ 2) / √2 ≤ 1e-4 := by
  obtain ⟨h1, h2⟩ := margin_tenth (β := 1 / 1000) (by norm_num)
  have e : √(2 * sharp.beta ^ 2 + (25 : ℝ) ^ 2 + (1 / 1000 : ℝ) ^ 2) * √2
      = √(1250.000006) := by
    rw [← Real.sqrt_mul (by positivity)]
    congr 1
    norm_num [sharp]
  have l1 : 35 ≤ √(1250.000006 : ℝ) := by
    rw [Real.le_sqrt' (by norm_num)]; norm_num
  have l2 : √(1250.000006 : ℝ) ≤ 36 := by
    rw [Real.sqrt_le_left (by norm_num)]; norm_num
  rw [div_div, e]
  simp only [sharp]
  generalize √(1250.000006 : ℝ) = q at l1 l2 ⊢
  constructor
  · rw [le_div_iff₀ (by linarith)]
    norm_num at h1 ⊢
    linarith
  · rw [div_le_iff₀ (by linarith)]
    norm_num at h2 ⊢
    linarith

/-- So the claim that a drawn game leaves every player a positive uncertainty is false. -/
theorem C102_draw_uncertainty_fails :
    ¬ ∀ (a b : TrueSkillRating ℝ) (cfg : TrueSkillConfig ℝ), 0 < a.uncertainty →
      0 < b.uncertainty → 0 < cfg.beta → 0 < cfg.drawProbability → cfg.drawProbability < 1 →
      cfg.dynamicsFactor ^ 2 ≤ 2 * cfg.beta ^ 2 →
      0 < (trueskill a b .DRAW cfg).1.uncertainty := by
  intro h
  have h1 := h ⟨25, 25⟩ ⟨25, 1 / 1000⟩ sharp (by norm_num) (by norm_num) (by norm_num [sharp])
    (by norm_num [sharp]) (by norm_num [sharp]) (by norm_num [sharp])
  have h2 := C102_draw_no_uncertainty ⟨25, 25⟩ ⟨25, 1 / 1000⟩ sharp rfl sharp_range.1 sharp_range.2
    (by norm_num [sharp])
  exact h1.ne' h2.2

/-- What does hold: every draw whose margin is at least one percent of the total uncertainty plus
the difference of the ratings, a draw between equally rated players whose margin is at least 0.6
percent of the total uncertainty, every draw whose probability `p` under the two ratings satisfies
`0.23 p³ > 7e-7 (1 + 5 (|Δ| + ε)² / c²)` (for example a probability of six percent at a difference
and margin of up to three total uncertainties together), and every draw that counts as impossible,
leaves both players an uncertainty which is positive and at most `√(σ² + τ²)`.  Missing: smaller
margins. -/
theorem C102_draw_uncertainty_partial (a b : TrueSkillRating ℝ) (cfg : TrueSkillConfig ℝ)
    (ha : 0 < a.uncertainty) (hb : 0 < b.uncertainty)
    (hτ : cfg.dynamicsFactor ^ 2 ≤ 2 * cfg.beta ^ 2)
    (h : let c := √(2 * cfg.beta ^ 2 + a.uncertainty ^ 2 + b.uncertainty ^ 2)
      let ε := tsMargin cfg.drawProbability cfg.beta 2 / c
      0.01 * (1 + |(a.rating - b.rating) / c|) ≤ ε ∨
      (a.rating = b.rating ∧ 0.006 ≤ ε) ∨
      (0 < ε ∧ 7e-7 * (1 + 5 * (|(a.rating - b.rating) / c| + ε) ^ 2)
        < 0.23 * (Phi (ε - (a.rating - b.rating) / c) - Phi (-ε - (a.rating - b.rating) / c)) ^ 3) ∨
      tsDrawNorm ((a.rating - b.rating) / c) ε < tsTiny) :
    (0 < (trueskill a b .DRAW cfg).1.uncertainty ∧ (trueskill a b .DRAW cfg).1.uncertainty
      ≤ √(a.uncertainty ^ 2 + cfg.dynamicsFactor ^ 2)) ∧
    (0 < (trueskill a b .DRAW cfg).2.uncertainty ∧ (trueskill a b .DRAW cfg).2.uncertainty
      ≤ √(b.uncertainty ^ 2 + cfg.dynamicsFactor ^ 2)) := by
  have hc : tsC cfg.beta (solo a) (solo b)
      = √(2 * cfg.beta ^ 2 + a.uncertainty ^ 2 + b.uncertainty ^ 2) := by
    simp only [tsC, solo]; norm_num
  have hc2 : tsC cfg.beta (solo a) (solo b) ^ 2
      = 2 * cfg.beta ^ 2 + a.uncertainty ^ 2 + b.uncertainty ^ 2 := by
    rw [hc, Real.sq_sqrt (by positivity)]
  have hW : 0 ≤ matchW cfg .DRAW (solo a) (solo b) ∧ matchW cfg .DRAW (solo a) (solo b) ≤ 1 := by
    simp only [matchW, corrW, hc]
    simp only [solo]
    rcases h with h | ⟨hr, he⟩ | ⟨he, h⟩ | h
    · have := tsWDraw_unit h
      exact ⟨this.1.le, this.2.elim (fun h => h.1.le) le_of_lt⟩
    · rw [hr, sub_self, zero_div]
      apply wDraw_le
      rw [le_div_iff₀ (by positivity)]
      have : √(2 : ℝ) ≤ 1.5 := by
        rw [Real.sqrt_le_left (by norm_num)]; norm_num
      norm_num at he ⊢
      linarith
    · have := tsWDraw_mem he h
      exact ⟨this.1.le, this.2.le⟩
    · rw [tsWDraw, if_pos h]
      norm_num
  have h1 : 0 < a.uncertainty ^ 2 := by positivity
  have h2 : 0 < b.uncertainty ^ 2 := by positivity
  rw [trueskill_real]
  exact ⟨upd_uncertainty hW.1 hW.2 (by rw [hc2]; linarith) ha.ne',
    upd_uncertainty hW.1 hW.2 (by rw [hc2]; linarith) hb.ne'⟩

/-- In terms of the margin itself: a drawn game of two players whose draw margin is at least one
percent of the total uncertainty plus the difference of the ratings.  Missing: smaller margins, for
which the claim fails (`C102_draw_no_uncertainty`). -/
theorem C102_draw_wide_margin_partial (a b : TrueSkillRating ℝ) (cfg : TrueSkillConfig ℝ)
    (ha : 0 < a.uncertainty) (hb : 0 < b.uncertainty)
    (hτ : cfg.dynamicsFactor ^ 2 ≤ 2 * cfg.beta ^ 2)
    (h : (√(2 * cfg.beta ^ 2 + a.uncertainty ^ 2 + b.uncertainty ^ 2) + |a.rating - b.rating|) / 100
      ≤ tsMargin cfg.drawProbability cfg.beta 2) :
    (0 < (trueskill a b .DRAW cfg).1.uncertainty ∧ (trueskill a b .DRAW cfg).1.uncertainty
      ≤ √(a.uncertainty ^ 2 + cfg.dynamicsFactor ^ 2)) ∧
    (0 < (trueskill a b .DRAW cfg).2.uncertainty ∧ (trueskill a b .DRAW cfg).2.uncertainty
      ≤ √(b.uncertainty ^ 2 + cfg.dynamicsFactor ^ 2)) := by
  refine C102_draw_uncertainty_partial a b cfg ha hb hτ (Or.inl ?_)
  have hc : 0 < √(2 * cfg.beta ^ 2 + a.uncertainty ^ 2 + b.uncertainty ^ 2) := by positivity
  rw [abs_div, abs_of_pos hc, le_div_iff₀ hc]
  refine le_trans (le_of_eq ?_) h
  field_simp
  ring

/-- The correction of a draw of two teams. -/
theorem drawn_matchW {cfg : TrueSkillConfig ℝ} {a b : TsSide} (hc : 0 < tsC cfg.beta a b)
    (h : (tsC cfg.beta a b + |a.μ - b.μ|) / 100 ≤ tsMargin cfg.drawProbability cfg.beta (a.n + b.n)) :
    0 ≤ matchW cfg .DRAW a b ∧ matchW cfg .DRAW a b ≤ 1 := by
  simp only [matchW, corrW]
  have := tsWDraw_unit (t := (a.μ - b.μ) / tsC cfg.beta a b)
    (e := tsMargin cfg.drawProbability cfg.beta (a.n + b.n) / tsC cfg.beta a b) (by
      rw [abs_div, abs_of_pos hc, le_div_iff₀ hc]
      refine le_trans (le_of_eq ?_) h
      field_simp
      ring)
  exact ⟨this.1.le, this.2.elim (fun h => h.1.le) le_of_lt⟩

/-- A drawn game of two teams whose draw margin is at least one percent of the total uncertainty
plus the difference of the summed ratings.  Missing: as for two players. -/
theorem C102_two_teams_draw_partial (s t : List (TrueSkillRating ℝ)) (cfg : TrueSkillConfig ℝ)
    (hs : ∀ p ∈ s, 0 < p.uncertainty) (ht : ∀ p ∈ t, 0 < p.uncertainty) (hs0 : s ≠ []) (ht0 : t ≠ [])
    (hτ : cfg.dynamicsFactor ^ 2 ≤ 2 * cfg.beta ^ 2)
    (h : (√((s.length + t.length : ℕ) * cfg.beta ^ 2 + (s.map fun p => p.uncertainty ^ 2).sum
        + (t.map fun p => p.uncertainty ^ 2).sum) + |(s.map (·.rating)).sum - (t.map (·.rating)).sum|)
        / 100 ≤ tsMargin cfg.drawProbability cfg.beta (s.length + t.length)) :
    (∀ (i : ℕ) (p p' : TrueSkillRating ℝ), s[i]? = some p →
      (trueskillTwoTeams s t .DRAW cfg).1[i]? = some p' → 0 < p'.uncertainty ∧
        p'.uncertainty ≤ √(p.uncertainty ^ 2 + cfg.dynamicsFactor ^ 2)) ∧
    (∀ (i : ℕ) (p p' : TrueSkillRating ℝ), t[i]? = some p →
      (trueskillTwoTeams s t .DRAW cfg).2[i]? = some p' → 0 < p'.uncertainty ∧
        p'.uncertainty ≤ √(p.uncertainty ^ 2 + cfg.dynamicsFactor ^ 2)) := by
  have hle : ∀ {l : List (TrueSkillRating ℝ)} {p : TrueSkillRating ℝ}, p ∈ l →
      p.uncertainty ^ 2 ≤ (side l).v := by
    intro l p hp
    apply List.single_le_sum
    · intro x hx
      obtain ⟨q, _, rfl⟩ := List.mem_map.1 hx
      positivity
    · exact List.mem_map.2 ⟨p, hp, rfl⟩
  have hn : 2 * cfg.beta ^ 2 ≤ (((side s).n + (side t).n : ℕ) : ℝ) * cfg.beta ^ 2 := by
    have h1 := List.length_pos_iff.2 hs0
    have h2 := List.length_pos_iff.2 ht0
    have : 2 ≤ (side s).n + (side t).n := by simp only [side]; omega
    have : (2 : ℝ) ≤ (((side s).n + (side t).n : ℕ) : ℝ) := by exact_mod_cast this
    gcongr
  obtain ⟨q, hq⟩ := List.exists_mem_of_ne_nil s hs0
  obtain ⟨r, hr⟩ := List.exists_mem_of_ne_nil t ht0
  have hsv := side_v_pos hq (hs q hq)
  have htv := side_v_pos hr (ht r hr)
  have hc := tsC_sq (β := cfg.beta) (side_v_nonneg s) (side_v_nonneg t)
  have hcp : 0 < tsC cfg.beta (side s) (side t) := by
    have hc0 : 0 ≤ tsC cfg.beta (side s) (side t) := Real.sqrt_nonneg _
    refine hc0.lt_of_ne' fun h0 => ?_
    rw [h0] at hc
    nlinarith [sq_nonneg cfg.beta]
  have hW := drawn_matchW (cfg := cfg) (a := side s) (b := side t) hcp h
  rw [twoTeams_real _ _ _ _ hs0 ht0]
  constructor
  · intro i p p' h h'
    have hp := List.mem_of_getElem? h
    simp only [List.getElem?_map, h, Option.map_some, Option.some.injEq] at h'
    rw [← h']
    exact upd_uncertainty hW.1 hW.2 (by rw [hc]; linarith [hle hp]) (hs p hp).ne'
  · intro i p p' h h'
    have hp := List.mem_of_getElem? h
    simp only [List.getElem?_map, h, Option.map_some, Option.some.injEq] at h'
    rw [← h']
    exact upd_uncertainty hW.1 hW.2 (by rw [hc]; linarith [hle hp]) (ht p hp).ne'

/-- Under the default configuration the margin is wide enough for two players of at most the default
uncertainty whose ratings are at most 25 apart. -/
theorem default_margin_wide (a b : TrueSkillRating ℝ) (ha : a.uncertainty ^ 2 ≤ (25 / 3) ^ 2)
    (hb : b.uncertainty ^ 2 ≤ (25 / 3) ^ 2) (h : |a.rating - b.rating| ≤ 25) :
    (√(2 * cfg0.beta ^ 2 + a.uncertainty ^ 2 + b.uncertainty ^ 2) + |a.rating - b.rating|) / 100
      ≤ tsMargin cfg0.drawProbability cfg0.beta 2 := by
  obtain ⟨h1, h2⟩ := margin_tenth (β := 25 / 6) (by norm_num)
  have l2 : √(2 * cfg0.beta ^ 2 + a.uncertainty ^ 2 + b.uncertainty ^ 2) ≤ 14 := by
    rw [Real.sqrt_le_left (by norm_num)]; norm_num [cfg0] at ha hb ⊢; linarith
  simp only [cfg0] at *
  norm_num at *
  linarith

example : 0 < (trueskill ⟨20, 3⟩ ⟨40, 8⟩ .DRAW cfg0).1.uncertainty :=
  (C102_draw_wide_margin_partial ⟨20, 3⟩ ⟨40, 8⟩ cfg0 (by norm_num) (by norm_num) (by norm_num [cfg0])
    (default_margin_wide _ _ (by norm_num) (by norm_num) (by norm_num))).1.1

/-- Two default players under the default configuration. -/
example : 0.006 ≤ tsMargin cfg0.drawProbability cfg0.beta 2
    / √(2 * cfg0.beta ^ 2 + ada.uncertainty ^ 2 + ada.uncertainty ^ 2) := by
  obtain ⟨h1, h2⟩ := margin_tenth (β := 25 / 6) (by norm_num)
  have l2 : √(2 * cfg0.beta ^ 2 + ada.uncertainty ^ 2 + ada.uncertainty ^ 2) ≤ 14 := by
    rw [Real.sqrt_le_left (by norm_num)]; norm_num [cfg0, ada]
  have l1 : 0 < √(2 * cfg0.beta ^ 2 + ada.uncertainty ^ 2 + ada.uncertainty ^ 2) := by
    apply Real.sqrt_pos.2; norm_num [cfg0, ada]
  rw [le_div_iff₀ l1]
  simp only [cfg0] at h1 ⊢
  norm_num at h1 ⊢
  simp only [cfg0] at l2
  norm_num at l2
  linarith

/-- A draw between a default player and a better opponent of little uncertainty, under the
default configuration. -/
example : let c := √(2 * cfg0.beta ^ 2 + ada.uncertainty ^ 2 + (2 : ℝ) ^ 2)
    let ε := tsMargin cfg0.drawProbability cfg0.beta 2 / c
    0 < ε ∧ 7e-7 * (1 + 5 * (|(ada.rating - 26) / c| + ε) ^ 2)
      < 0.23 * (Phi (ε - (ada.rating - 26) / c) - Phi (-ε - (ada.rating - 26) / c)) ^ 3 := by
  intro c ε
  obtain ⟨h1, h2⟩ := margin_tenth (β := 25 / 6) (by norm_num)
  have hc1 : 10 ≤ c := by
    rw [Real.le_sqrt' (by norm_num)]; norm_num [cfg0, ada]
  have hc2 : c ≤ 11 := by
    rw [Real.sqrt_le_left (by norm_num)]; norm_num [cfg0, ada]
  have hε1 : 0.037 ≤ ε := by
    rw [le_div_iff₀ (by linarith)]
    simp only [cfg0]
    norm_num at h1 ⊢; linarith
  have hε2 : ε ≤ 0.25 := by
    rw [div_le_iff₀ (by linarith)]
    simp only [cfg0]
    norm_num at h2 ⊢; linarith
  have ht1 : (ada.rating - 26) / c ≤ 0 := by
    apply div_nonpos_of_nonpos_of_nonneg <;> norm_num [ada]; linarith
  have ht2 : -0.1 ≤ (ada.rating - 26) / c := by
    rw [le_div_iff₀ (by linarith)]
    norm_num [ada]; linarith
  clear_value ε
  set t := (ada.rating - 26) / c
  clear_value t
  norm_num at hε1 hε2 ht2
  have hlow : ∀ x ∈ Set.Icc (-ε - t) (ε - t), (0.37 : ℝ) ≤ normalPdf x := by
    intro x hx
    have hx2 : x ^ 2 ≤ 0.1225 := by
      obtain ⟨g1, g2⟩ := hx
      have : |x| ≤ 0.35 := abs_le.2 ⟨by norm_num; linarith, by norm_num; linarith⟩
      calc x ^ 2 = |x| ^ 2 := (sq_abs x).symm
        _ ≤ 0.35 ^ 2 := by gcongr
        _ = _ := by norm_num
    have he : 0.93 ≤ exp (-x ^ 2 / 2) := by
      have := Real.add_one_le_exp (-x ^ 2 / 2)
      norm_num at hx2 ⊢; linarith
    have hs : √(2 * π) ≤ 2.51 := by
      rw [Real.sqrt_le_left (by norm_num)]
      have := Real.pi_lt_d4
      norm_num at this ⊢; linarith
    have hs0 : 0 < √(2 * π) := by positivity
    rw [normalPdf, le_div_iff₀ hs0]
    norm_num at he hs ⊢; linarith
  have hP : 0.027 ≤ Phi (ε - t) - Phi (-ε - t) := by
    rw [← integral_pdf (by linarith)]
    have := MeasureTheory.setIntegral_mono_on (μ := MeasureTheory.volume) (s := Set.Icc (-ε - t) (ε - t))
      (f := fun _ => (0.37 : ℝ)) (g := normalPdf) (by simp)
      (continuous_normalPdf.continuousOn.integrableOn_compact isCompact_Icc) measurableSet_Icc hlow
    rw [MeasureTheory.setIntegral_const, Real.volume_real_Icc_of_le (by linarith)] at this
    refine le_trans ?_ this
    norm_num
    linarith
  refine ⟨by linarith, ?_⟩
  have h3 : (0.027 : ℝ) ^ 3 ≤ (Phi (ε - t) - Phi (-ε - t)) ^ 3 := by gcongr
  have h4 : (|t| + ε) ^ 2 ≤ 0.35 ^ 2 := by
    rw [abs_of_nonpos ht1]
    have : 0 ≤ -t + ε := by linarith
    gcongr
    norm_num; linarith
  norm_num at h3 h4 ⊢
  linarith

end Skillratings.TrueSkill
