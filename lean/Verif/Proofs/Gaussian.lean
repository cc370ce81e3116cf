import Mathlib.MeasureTheory.Integral.IntervalIntegral.FundThmCalculus
import Mathlib.MeasureTheory.Integral.IntegralEqImproper
import Mathlib.Probability.CDF
import Verif.Spec.Gaussian
import Verif.Spec.TrueSkill
/-
The distribution function of the standard normal distribution: derivative, limits, reflection.
-/
namespace Skillratings
open MeasureTheory ProbabilityTheory Spec Filter Real
open scoped Topology

theorem pdf_std (x : ℝ) : gaussianPDFReal 0 1 x = normalPdf x := by
  simp only [gaussianPDFReal, normalPdf, NNReal.coe_one, sub_zero, mul_one]
  ring

theorem continuous_normalPdf : Continuous normalPdf := by
  unfold normalPdf; fun_prop

theorem integrable_normalPdf : Integrable normalPdf := by
  have h := integrable_gaussianPDFReal 0 1
  rwa [show gaussianPDFReal 0 1 = normalPdf from funext pdf_std] at h

theorem Phi_eq (x : ℝ) : Phi x = ∫ y in Set.Iic x, normalPdf y := by
  rw [Phi, measureReal_def, gaussianReal_apply_eq_integral 0 one_ne_zero]
  rw [ENNReal.toReal_ofReal]
  · simp only [pdf_std]
  · exact integral_nonneg fun y => gaussianPDFReal_nonneg _ _ _

theorem Phi_sub (x y : ℝ) : Phi y - Phi x = ∫ z in x..y, normalPdf z := by
  rw [Phi_eq, Phi_eq]
  exact intervalIntegral.integral_Iic_sub_Iic integrable_normalPdf.integrableOn
    integrable_normalPdf.integrableOn

theorem hasDerivAt_Phi (x : ℝ) : HasDerivAt Phi (normalPdf x) x := by
  have h : HasDerivAt (fun y => ∫ z in (0 : ℝ)..y, normalPdf z) (normalPdf x) x :=
    intervalIntegral.integral_hasDerivAt_right
      (continuous_normalPdf.intervalIntegrable _ _)
      (continuous_normalPdf.stronglyMeasurableAtFilter _ _) continuous_normalPdf.continuousAt
  have e : Phi = fun y => Phi 0 + ∫ z in (0 : ℝ)..y, normalPdf z := by
    funext y; rw [← Phi_sub]; ring
  rw [e]
  exact h.const_add _

theorem Phi_cdf (x : ℝ) : Phi x = cdf (gaussianReal 0 1) x := by
  rw [cdf_eq_real]; rfl

theorem tendsto_Phi_atBot : Tendsto Phi atBot (𝓝 0) := by
  have := tendsto_cdf_atBot (gaussianReal 0 1)
  exact this.congr fun x => (Phi_cdf x).symm

theorem tendsto_Phi_atTop : Tendsto Phi atTop (𝓝 1) := by
  have := tendsto_cdf_atTop (gaussianReal 0 1)
  exact this.congr fun x => (Phi_cdf x).symm

theorem Phi_nonneg (x : ℝ) : 0 ≤ Phi x := measureReal_nonneg

theorem Phi_le_one (x : ℝ) : Phi x ≤ 1 := by rw [Phi_cdf]; exact cdf_le_one _ _

theorem pdf_pos' (x : ℝ) : 0 < normalPdf x := by rw [← pdf_std]; exact gaussianPDFReal_pos _ _ _ one_ne_zero

theorem Phi_strictMono : StrictMono Phi :=
  strictMono_of_deriv_pos fun x => by rw [(hasDerivAt_Phi x).deriv]; exact pdf_pos' x

theorem Phi_pos (x : ℝ) : 0 < Phi x := (Phi_nonneg (x - 1)).trans_lt (Phi_strictMono (by linarith))

theorem Phi_lt_one (x : ℝ) : Phi x < 1 := (Phi_strictMono (by linarith)).trans_le (Phi_le_one (x + 1))

theorem normalPdf_neg (x : ℝ) : normalPdf (-x) = normalPdf x := by simp [normalPdf]

theorem Phi_neg (x : ℝ) : Phi (-x) = 1 - Phi x := by
  have hd : ∀ y, HasDerivAt (fun y => Phi y + Phi (-y)) 0 y := by
    intro y
    have h := (hasDerivAt_Phi y).add ((hasDerivAt_Phi (-y)).comp y (hasDerivAt_neg y))
    refine h.congr_deriv ?_
    rw [normalPdf_neg]; ring
  have hc : ∀ y z, Phi y + Phi (-y) = Phi z + Phi (-z) := fun y z =>
    is_const_of_deriv_eq_zero (fun w => (hd w).differentiableAt) (fun w => (hd w).deriv) y z
  have hl : Tendsto (fun y => Phi y + Phi (-y)) atTop (𝓝 (1 + 0)) :=
    tendsto_Phi_atTop.add (tendsto_Phi_atBot.comp tendsto_neg_atTop_atBot)
  have hl2 : Tendsto (fun _ : ℝ => Phi x + Phi (-x)) atTop (𝓝 (1 + 0)) :=
    hl.congr fun y => hc y x
  have := tendsto_nhds_unique tendsto_const_nhds hl2
  linarith

theorem Phi_zero : Phi 0 = 1 / 2 := by
  have := Phi_neg 0
  rw [neg_zero] at this
  linarith

/-- The complementary error function `2 Φ(-√2 z)`. -/
noncomputable def erfcExact (z : ℝ) : ℝ := 2 * Phi (-(√2 * z))

theorem hasDerivAt_erfcExact (z : ℝ) :
    HasDerivAt erfcExact (-(2 / √π * exp (-z ^ 2))) z := by
  have h := ((hasDerivAt_Phi (-(√2 * z))).comp z
    (((hasDerivAt_id z).const_mul √2).neg)).const_mul 2
  refine h.congr_deriv ?_
  have s2 : √2 ^ 2 = (2 : ℝ) := Real.sq_sqrt (by norm_num)
  have e1 : -(-(√2 * z)) ^ 2 / 2 = -z ^ 2 := by rw [neg_sq, mul_pow, s2]; ring
  rw [normalPdf, e1, Real.sqrt_mul (by norm_num)]
  have h3 : 0 < √π := Real.sqrt_pos.2 Real.pi_pos
  have h4 : (0 : ℝ) < √2 := by positivity
  field_simp

theorem erfcExact_zero : erfcExact 0 = 1 := by
  rw [erfcExact, mul_zero, neg_zero, Phi_zero]; norm_num

theorem erfcExact_pos (z : ℝ) : 0 < erfcExact z := by
  have := Phi_pos (-(√2 * z)); unfold erfcExact; linarith

theorem tendsto_erfcExact : Tendsto erfcExact atTop (𝓝 0) := by
  have h : Tendsto (fun z : ℝ => -(√2 * z)) atTop atBot := by
    apply tendsto_neg_atTop_atBot.comp
    exact tendsto_id.const_mul_atTop (by positivity)
  have := (tendsto_Phi_atBot.comp h).const_mul 2
  rwa [mul_zero] at this

end Skillratings
