import Verif.Model.TrueSkill
import Verif.Proofs.Logistic
/-
The approximation of the error function over the reals.
-/
namespace Skillratings.TrueSkill
open Real

/-- The exponent of the Chebyshev fit, without `-z²`. -/
noncomputable def fitQ (t : ℝ) : ℝ :=
  t * (t * (t * (t * (t * (t * (t * (t * (t * 0.17087277 + -0.82215223) + 1.48851587)
    + -1.13520398) + 0.27886807) + -0.18628806) + 0.09678418) + 0.37409196) + 1.00002368)
    + -1.26551223

/-- The fit on `z ≥ 0`. -/
noncomputable def fit (z : ℝ) : ℝ :=
  (1 + z / 2)⁻¹ * exp (fitQ (1 + z / 2)⁻¹ - z ^ 2)

theorem erfc_real (x : ℝ) : erfc x = if x < 0 then 2 - fit |x| else fit |x| := by
  have h : ∀ z t : ℝ, t * exp (t *
      (t * (t * (t * (t * (t * (t * (t * (t * 0.17087277 + -0.82215223) + 1.48851587)
    + -1.13520398) + 0.27886807) + -0.18628806) + 0.09678418) + 0.37409196) + 1.00002368)
    + (-z * z + -1.26551223)) = t * exp (fitQ t - z ^ 2) := by
    intro z t
    congr 2
    rw [fitQ]; ring
  rw [erfc]
  simp only [Flt.abs_real, Flt.lit_1, Flt.lit_2, Flt.recip_real, Flt.exp_real, Flt.mulAdd_real, h,
    Flt.lt_real, Flt.lit_0]
  rfl

theorem fit_pos {z : ℝ} (hz : 0 ≤ z) : 0 < fit z := by unfold fit; positivity

theorem fitQ_le {t : ℝ} (h0 : 0 ≤ t) (h1 : t ≤ 1) : fitQ t ≤ 0.652 := by
  have p2 : t ^ 2 ≤ 1 := pow_le_one₀ h0 h1
  have p3 : t ^ 3 ≤ 1 := pow_le_one₀ h0 h1
  have p4 : t ^ 4 ≤ 1 := pow_le_one₀ h0 h1
  have p6 : t ^ 6 ≤ 1 := pow_le_one₀ h0 h1
  have p5 : t ^ 5 ≤ t ^ 4 := pow_le_pow_of_le_one h0 h1 (by norm_num)
  have p7 : t ^ 7 ≤ t ^ 6 := pow_le_pow_of_le_one h0 h1 (by norm_num)
  have p9 : t ^ 9 ≤ t ^ 8 := pow_le_pow_of_le_one h0 h1 (by norm_num)
  have p8 : 0 ≤ t ^ 8 := by positivity
  have p4' : 0 ≤ t ^ 4 := by positivity
  have p6' : 0 ≤ t ^ 6 := by positivity
  have e : fitQ t = 0.17087277 * t ^ 9 - 0.82215223 * t ^ 8 + 1.48851587 * t ^ 7
      - 1.13520398 * t ^ 6 + 0.27886807 * t ^ 5 - 0.18628806 * t ^ 4 + 0.09678418 * t ^ 3
      + 0.37409196 * t ^ 2 + 1.00002368 * t - 1.26551223 := by
    unfold fitQ; ring
  rw [e]
  nlinarith

theorem exp_small : exp (0.652 : ℝ) < 1.92 := by
  have h : exp (0.652 : ℝ) ^ 250 < 1.92 ^ 250 := by
    rw [← Real.exp_nat_mul]
    have e : ((250 : ℕ) : ℝ) * 0.652 = (163 : ℕ) * 1 := by norm_num
    rw [e, Real.exp_nat_mul]
    calc exp 1 ^ 163 < (2.7182818286 : ℝ) ^ 163 := by
          gcongr
          exact Real.exp_one_lt_d9
      _ < 1.92 ^ 250 := by norm_num
  exact lt_of_pow_lt_pow_left₀ _ (by norm_num) h

theorem fit_lt {z : ℝ} (hz : 0 ≤ z) : fit z < 1.92 := by
  have ht0 : 0 < (1 + z / 2)⁻¹ := by positivity
  have ht1 : (1 + z / 2)⁻¹ ≤ 1 := inv_le_one_of_one_le₀ (by linarith)
  have hq := fitQ_le ht0.le ht1
  have h1 : exp (fitQ (1 + z / 2)⁻¹ - z ^ 2) ≤ exp 0.652 := by
    apply Real.exp_le_exp.2
    nlinarith [sq_nonneg z]
  have h2 := exp_small
  have h3 := Real.exp_pos (fitQ (1 + z / 2)⁻¹ - z ^ 2)
  unfold fit
  nlinarith

theorem fitQ_one : fitQ 1 = 0.00000003 := by unfold fitQ; norm_num

theorem fit_zero : fit 0 = exp 0.00000003 := by
  unfold fit
  norm_num [fitQ_one]

/-- The derivative of the exponent. -/
noncomputable def fitQ' (t : ℝ) : ℝ :=
  9 * 0.17087277 * t ^ 8 - 8 * 0.82215223 * t ^ 7
      + 7 * 1.48851587 * t ^ 6 - 6 * 1.13520398 * t ^ 5 + 5 * 0.27886807 * t ^ 4
      - 4 * 0.18628806 * t ^ 3 + 3 * 0.09678418 * t ^ 2 + 2 * 0.37409196 * t + 1.00002368

theorem hasDerivAt_fitQ (t : ℝ) : HasDerivAt fitQ (fitQ' t) t := by
  unfold fitQ'
  have e : fitQ = fun t => 0.17087277 * t ^ 9 + -0.82215223 * t ^ 8 + 1.48851587 * t ^ 7
    + -1.13520398 * t ^ 6 + 0.27886807 * t ^ 5 + -0.18628806 * t ^ 4 + 0.09678418 * t ^ 3
    + 0.37409196 * t ^ 2 + 1.00002368 * t ^ 1 + -1.26551223 := by
    funext t; unfold fitQ; ring
  rw [e]
  have p : ∀ (n : ℕ) (c : ℝ), HasDerivAt (fun t : ℝ => c * t ^ n) (c * (n * t ^ (n - 1))) t :=
    fun n c => (hasDerivAt_pow n t).const_mul c
  have h := ((((((((((p 9 0.17087277).add (p 8 (-0.82215223))).add (p 7 1.48851587)).add
    (p 6 (-1.13520398))).add (p 5 0.27886807)).add (p 4 (-0.18628806))).add (p 3 0.09678418)).add
    (p 2 0.37409196)).add (p 1 1.00002368)).add_const (-1.26551223))
  refine h.congr_deriv ?_
  norm_num
  ring

theorem continuous_fitQ : Continuous fitQ :=
  continuous_iff_continuousAt.2 fun t => (hasDerivAt_fitQ t).continuousAt

theorem fitQ'_pos {t : ℝ} (h0 : 0 < t) (h1 : t < 1) : 0 < fitQ' t := by
  unfold fitQ'
  have e : 9 * 0.17087277 * t ^ 8 - 8 * 0.82215223 * t ^ 7
    + 7 * 1.48851587 * t ^ 6 - 6 * 1.13520398 * t ^ 5 + 5 * 0.27886807 * t ^ 4
    - 4 * 0.18628806 * t ^ 3 + 3 * 0.09678418 * t ^ 2 + 2 * 0.37409196 * t + 1.00002368
    = t ^ 4 * (t ^ 2 * (1.53785493 * t ^ 2 - 6.57721784 * t + 10.41961109)
        - 6.81122388 * t + 1.39434035 )
      + t * (- 0.74515224 * t ^ 2 + 0.29035254 * t + 0.74818392) + 1.00002368 := by ring
  rw [e]
  have b1 : -0.9 ≤ t ^ 2 * (1.53785493 * t ^ 2 - 6.57721784 * t + 10.41961109)
        - 6.81122388 * t + 1.39434035 := by
    have : 5.3 ≤ 1.53785493 * t ^ 2 - 6.57721784 * t + 10.41961109 := by nlinarith
    have h2 : 5.3 * t ^ 2 ≤ t ^ 2 * (1.53785493 * t ^ 2 - 6.57721784 * t + 10.41961109) := by
      nlinarith [sq_nonneg t]
    nlinarith [sq_nonneg (t - 0.6426)]
  have b2 : 0 ≤ - 0.74515224 * t ^ 2 + 0.29035254 * t + 0.74818392 := by nlinarith
  have p4 : t ^ 4 ≤ 1 := pow_le_one₀ h0.le h1.le
  have p4' : 0 ≤ t ^ 4 := by positivity
  have := mul_nonneg h0.le b2
  nlinarith

/-- The derivative is positive on `[0, 1]`. -/
theorem fitQ_strictMono : StrictMonoOn fitQ (Set.Icc 0 1) := by
  apply strictMonoOn_of_deriv_pos (convex_Icc 0 1) continuous_fitQ.continuousOn
  intro t ht
  rw [interior_Icc] at ht
  rw [(hasDerivAt_fitQ t).deriv]
  exact fitQ'_pos ht.1 ht.2

end Skillratings.TrueSkill
