import Verif.Props.TrueSkillBayes
import Verif.Proofs.QuantileAccuracy
/-
C116: the draw margin.  Quantiles of the normal distribution are accurate, so that equally strong
sides draw with the configured probability.
-/
namespace Skillratings.TrueSkill
open MeasureTheory ProbabilityTheory Spec Real

/-- The quantile of any normal law at `p`: the probability below it is `p` up to a relative error of
7e-7 of the smaller of `p` and `1 - p`. -/
theorem C116_normal_quantile (μ : ℝ) {σ p : ℝ} (hσ : 0 < σ) (h0 : 5e-18 ≤ p) (h1 : p ≤ 1 - 5e-18) :
    |(gaussianReal μ (σ ^ 2).toNNReal).real (Set.Iic (inverseCdf p μ σ)) - p|
      ≤ 7e-7 * min p (1 - p) := by
  rw [gaussian_Iic _ _ hσ, C114_normal_quantile, add_sub_cancel_left, mul_div_cancel_left₀ _ hσ.ne']
  have e : inverseCdf p 0 1 = -(√2 * erfcInv (2 * p)) := by
    simp only [inverseCdf, inverseErfc_eq, flt]
    ring
  rw [e, erfcInv, if_neg (by norm_num at h1 ⊢; linarith), if_neg (by norm_num at h0 ⊢; linarith)]
  split_ifs with hp
  · rw [min_eq_left (by linarith)]
    have h := erfcInv_accurate (y := 2 * p) (by norm_num at h0 ⊢; linarith) hp.le
    rw [erfcExact] at h
    rw [abs_le] at h ⊢
    constructor <;> linarith
  · push Not at hp
    rw [min_eq_right (by linarith)]
    have h := erfcInv_accurate (y := 2 - 2 * p) (by norm_num at h1 ⊢; linarith) (by linarith)
    rw [erfcExact, Phi_neg] at h
    rw [mul_neg, neg_neg]
    rw [abs_le] at h ⊢
    constructor <;> linarith

example : (0 : ℝ) < 25 / 6 ∧ (5e-18 : ℝ) ≤ 0.55 ∧ (0.55 : ℝ) ≤ 1 - 5e-18 := by norm_num

section
variable {Ω : Type*} [MeasurableSpace Ω] {P : Measure Ω} [IsProbabilityMeasure P]

/-- The probability that sides of known and equal strength are within a margin of each other. -/
theorem even_draw (s t : List (TrueSkillRating ℝ)) {β ε : ℝ} (hβ : 0 < β) (hε : 0 < ε) (hs : s ≠ [])
    (heq : (s.map (·.rating)).sum = (t.map (·.rating)).sum)
    {X N : Fin s.length ⊕ Fin t.length → Ω → ℝ}
    (h : IsContest P X N (both s t (·.rating)) (fun _ => 0) β) :
    P.real (happened .DRAW ε (lead (versus s.length t.length) X N))
      = 1 - 2 * Phi (-(ε / (√(s.length + t.length : ℕ) * β))) := by
  have hn : (0 : ℝ) < (s.length + t.length : ℕ) := by
    exact_mod_cast Nat.add_pos_left (List.length_pos_iff.2 hs) _
  have hc : 0 < √(s.length + t.length : ℕ) * β := mul_pos (Real.sqrt_pos.2 hn) hβ
  have hc2 : (√(s.length + t.length : ℕ) * β) ^ 2
      = ∑ i, versus s.length t.length i ^ 2 * ((0 : ℝ) + β ^ 2) := by
    rw [mul_pow, Real.sq_sqrt hn.le, Fintype.sum_sum_type]
    simp [versus]
    ring
  have hm : ∑ i, versus s.length t.length i * both s t (·.rating) i = 0 := by
    rw [versus_mean]
    simp only [side]
    rw [heq, sub_self]
  have h1 := (h.posterior_draw (fun _ => le_rfl) _ hc hc2 hε rfl rfl).1
  rw [hm, zero_div, sub_zero, sub_zero] at h1
  rw [happened, h1, Phi_neg]
  ring

/-- Sides of known and equal strength draw with the configured probability, up to a relative error
of 7e-7 in the probability that the game is decided. -/
theorem C116_trueskill_draw_probability (s t : List (TrueSkillRating ℝ)) (cfg : TrueSkillConfig ℝ)
    (hβ : 0 < cfg.beta) (h0 : 0 ≤ cfg.drawProbability) (h1 : cfg.drawProbability ≤ 1 - 1e-17)
    (hs : s ≠ []) (heq : (s.map (·.rating)).sum = (t.map (·.rating)).sum)
    {X N : Fin s.length ⊕ Fin t.length → Ω → ℝ}
    (h : IsContest P X N (both s t (·.rating)) (fun _ => 0) cfg.beta) :
    |P.real (happened .DRAW (drawMargin cfg.drawProbability cfg.beta ((s.length + t.length : ℕ) : ℝ))
        (lead (versus s.length t.length) X N)) - cfg.drawProbability|
      ≤ 7e-7 * (1 - cfg.drawProbability) := by
  have hl : 0 < s.length + t.length := Nat.add_pos_left (List.length_pos_iff.2 hs) _
  rw [drawMargin_eq, even_draw s t hβ (tsMargin_pos h0 hβ hl) hs heq h, tsMargin]
  have hn : 0 < √(s.length + t.length : ℕ) := Real.sqrt_pos.2 (by exact_mod_cast hl)
  rw [mul_assoc, mul_div_cancel_right₀ _ (mul_pos hn hβ).ne', erfcInv,
    if_neg (by norm_num at h1 ⊢; linarith), if_neg (by linarith), if_neg (by linarith), mul_neg, neg_neg,
    show 2 - (cfg.drawProbability + 1) = 1 - cfg.drawProbability by ring]
  have hq := erfcInv_accurate (y := 1 - cfg.drawProbability) (by norm_num at h1 ⊢; linarith)
    (by linarith)
  rw [erfcExact] at hq
  rw [abs_le] at hq ⊢
  constructor <;> linarith

/-- If draws are configured to be certain, they nearly are. -/
theorem C116_trueskill_draw_certain (s t : List (TrueSkillRating ℝ)) (cfg : TrueSkillConfig ℝ)
    (hβ : 0 < cfg.beta) (h1 : 1 ≤ cfg.drawProbability)
    (hs : s ≠ []) (heq : (s.map (·.rating)).sum = (t.map (·.rating)).sum)
    {X N : Fin s.length ⊕ Fin t.length → Ω → ℝ}
    (h : IsContest P X N (both s t (·.rating)) (fun _ => 0) cfg.beta) :
    1 - 1e-50 ≤
      P.real (happened .DRAW (drawMargin cfg.drawProbability cfg.beta ((s.length + t.length : ℕ) : ℝ))
        (lead (versus s.length t.length) X N)) := by
  have hl : 0 < s.length + t.length := Nat.add_pos_left (List.length_pos_iff.2 hs) _
  rw [drawMargin_eq, even_draw s t hβ (tsMargin_pos (by linarith) hβ hl) hs heq h, tsMargin]
  have hn : 0 < √(s.length + t.length : ℕ) := Real.sqrt_pos.2 (by exact_mod_cast hl)
  rw [mul_assoc, mul_div_cancel_right₀ _ (mul_pos hn hβ).ne', erfcInv, if_pos (by linarith), mul_neg,
    neg_neg]
  have h2 := tail_le (x := 100) (by norm_num)
  rw [div_le_iff₀ (slope_pos _), erfcExact] at h2
  have h3 : slope 100 ≤ 1.129 * exp (-200) := by
    unfold slope
    have := slope_le
    gcongr
    norm_num
  have h4 : exp (-200 : ℝ) ≤ 1e-51 := by
    rw [Real.exp_neg, inv_le_comm₀ (Real.exp_pos _) (by norm_num)]
    have e : exp (200 : ℝ) = exp 1 ^ 200 := by rw [← Real.exp_nat_mul]; congr 1; norm_num
    have h5 : (2.7 : ℝ) ≤ exp 1 := by have := Real.exp_one_gt_d9; norm_num at this ⊢; linarith
    rw [e]
    calc (1e-51 : ℝ)⁻¹ ≤ 2.7 ^ 200 := by norm_num
      _ ≤ _ := by gcongr
  norm_num at h2 h3 h4 ⊢
  linarith

/-- Two against one, of equal total strength, with the default chance of a draw. -/
example : ∃ (s t : List (TrueSkillRating ℝ)) (cfg : TrueSkillConfig ℝ)
    (X N : Fin s.length ⊕ Fin t.length → ((Fin s.length ⊕ Fin t.length) ⊕
      (Fin s.length ⊕ Fin t.length) → ℝ) → ℝ)
    (P : Measure ((Fin s.length ⊕ Fin t.length) ⊕ (Fin s.length ⊕ Fin t.length) → ℝ)),
    0 < cfg.beta ∧ 0 ≤ cfg.drawProbability ∧ cfg.drawProbability ≤ 1 - 1e-17 ∧ s ≠ [] ∧
    (s.map (·.rating)).sum = (t.map (·.rating)).sum ∧ IsProbabilityMeasure P ∧
    IsContest P X N (both s t (·.rating)) (fun _ => 0) cfg.beta := by
  obtain ⟨X, N, P, hP, hC⟩ := exists_contest
    (both [⟨10, 1⟩, ⟨15, 1⟩] [⟨25, 1⟩] (·.rating)) (fun _ => 0) (25 / 6)
  exact ⟨_, _, { drawProbability := 0.1, beta := 25 / 6, dynamicsFactor := 0 }, X, N, P,
    by norm_num, by norm_num, by norm_num, by simp, by norm_num, hP, hC⟩

end

end Skillratings.TrueSkill
