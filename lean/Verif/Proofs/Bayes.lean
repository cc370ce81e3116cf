import Mathlib.Analysis.SpecialFunctions.Gaussian.PoissonSummation
import Mathlib.Probability.ConditionalProbability
import Mathlib.Probability.Distributions.Gaussian.HasGaussianLaw.Independence
import Mathlib.Probability.Independence.Integration
import Mathlib.Probability.Moments.Covariance
import Verif.Proofs.Gaussian
/-
Bayesian inference for normal skills observed through the result of a game: conditioning on an
event about the performance difference.
-/
set_option linter.unusedSectionVars false

namespace Skillratings
open MeasureTheory ProbabilityTheory Spec Filter Real
open scoped Topology

section Cond
variable {Ω : Type*} [MeasurableSpace Ω] {P : Measure Ω} [IsProbabilityMeasure P]

theorem integral_cond {S : Set Ω} (f : Ω → ℝ) :
    ∫ ω, f ω ∂P[|S] = (P.real S)⁻¹ * ∫ ω in S, f ω ∂P := by
  rw [ProbabilityTheory.cond, integral_smul_measure, ENNReal.toReal_inv, smul_eq_mul, measureReal_def]

theorem memLp_cond {S : Set Ω} (hS : P S ≠ 0) {f : Ω → ℝ} (hf : MemLp f 2 P) : MemLp f 2 P[|S] := by
  rw [ProbabilityTheory.cond]
  exact (hf.restrict S).smul_measure (ENNReal.inv_ne_top.2 hS)

/-- Conditioning on an event about `Z` leaves a variable independent of `Z` alone. -/
theorem cond_mul {R Z : Ω → ℝ} (hR : Measurable R) (hZ : Measurable Z) (h : IndepFun R Z P)
    {B : Set ℝ} (hB : MeasurableSet B) {f g : ℝ → ℝ} (hf : Measurable f) (hg : Measurable g) :
    ∫ ω, f (R ω) * g (Z ω) ∂P[|Z ⁻¹' B] = (∫ ω, f (R ω) ∂P) * ∫ ω, g (Z ω) ∂P[|Z ⁻¹' B] := by
  have hi : IndepFun (fun ω => f (R ω)) (fun ω => B.indicator g (Z ω)) P :=
    h.comp hf (hg.indicator hB)
  have e := hi.integral_fun_mul_eq_mul_integral (hf.comp hR).aestronglyMeasurable
    ((hg.indicator hB).comp hZ).aestronglyMeasurable
  have e1 : ∫ ω in Z ⁻¹' B, f (R ω) * g (Z ω) ∂P = ∫ ω, f (R ω) * B.indicator g (Z ω) ∂P := by
    rw [← integral_indicator (hZ hB)]
    refine integral_congr_ae (.of_forall fun ω => ?_)
    by_cases hω : Z ω ∈ B
    · simp [Set.indicator, hω]
    · simp [Set.indicator, hω]
  have e2 : ∫ ω in Z ⁻¹' B, g (Z ω) ∂P = ∫ ω, B.indicator g (Z ω) ∂P := by
    rw [← integral_indicator (hZ hB)]
    refine integral_congr_ae (.of_forall fun ω => ?_)
    by_cases hω : Z ω ∈ B
    · simp [Set.indicator, hω]
    · simp [Set.indicator, hω]
  rw [integral_cond, integral_cond, e1, e2, e]
  ring

/-- A normal variable after an observation of a jointly normal standard variable. -/
theorem cond_gaussian {X Z : Ω → ℝ} (hX : Measurable X) (hZ : Measurable Z)
    (hG : HasGaussianLaw (fun ω => (X ω, Z ω)) P) (h0 : ∫ ω, Z ω ∂P = 0) (h1 : Var[Z; P] = 1)
    {B : Set ℝ} (hB : MeasurableSet B) (hp : P (Z ⁻¹' B) ≠ 0) :
    ∫ ω, X ω ∂P[|Z ⁻¹' B] = ∫ ω, X ω ∂P + cov[X, Z; P] * ∫ ω, Z ω ∂P[|Z ⁻¹' B] ∧
    Var[X; P[|Z ⁻¹' B]] = Var[X; P] - cov[X, Z; P] ^ 2 * (1 - Var[Z; P[|Z ⁻¹' B]]) := by
  set k := cov[X, Z; P] with hk
  have hX2 : MemLp X 2 P := hG.fst.memLp_two
  have hZ2 : MemLp Z 2 P := hG.snd.memLp_two
  let R : Ω → ℝ := fun ω => X ω - k * Z ω
  have hkZ2 : MemLp (fun ω => k * Z ω) 2 P := hZ2.const_mul k
  have hR : Measurable R := hX.sub (hZ.const_mul k)
  have hR2 : MemLp R 2 P := hX2.sub hkZ2
  have hGR : HasGaussianLaw (fun ω => (R ω, Z ω)) P := by
    have := hG.map_fun (((ContinuousLinearMap.fst ℝ ℝ ℝ) - k • (ContinuousLinearMap.snd ℝ ℝ ℝ)).prod
      (ContinuousLinearMap.snd ℝ ℝ ℝ))
    simpa [R] using this
  have hcov : cov[R, Z; P] = 0 := by
    have : R = fun ω => X ω - (fun ω => k * Z ω) ω := rfl
    rw [this, covariance_fun_sub_left hX2 hkZ2 hZ2, covariance_const_mul_left,
      covariance_self hZ.aemeasurable, h1, ← hk]
    ring
  have hind : IndepFun R Z P := hGR.indepFun_of_covariance_eq_zero hcov
  have hER : ∫ ω, R ω ∂P = ∫ ω, X ω ∂P := by
    rw [show (∫ ω, R ω ∂P) = ∫ ω, X ω - k * Z ω ∂P from rfl,
      integral_sub (hX2.integrable (by norm_num)) (hkZ2.integrable (by norm_num)),
      integral_const_mul, h0]
    ring
  have hVR : Var[R; P] = Var[X; P] - k ^ 2 := by
    have e : X = fun ω => R ω + k * Z ω := by funext ω; simp [R]
    have : Var[X; P] = Var[R; P] + 2 * cov[R, fun ω => k * Z ω; P] + Var[fun ω => k * Z ω; P] := by
      conv_lhs => rw [e]
      exact variance_fun_add hR2 hkZ2
    rw [covariance_const_mul_right, hcov, variance_const_mul, h1] at this
    linarith
  set Q := P[|Z ⁻¹' B] with hQ
  have : IsProbabilityMeasure Q := cond_isProbabilityMeasure hp
  have hRQ : MemLp R 2 Q := memLp_cond hp hR2
  have hZQ : MemLp Z 2 Q := memLp_cond hp hZ2
  have hkZQ : MemLp (fun ω => k * Z ω) 2 Q := hZQ.const_mul k
  have m1 : ∫ ω, R ω ∂Q = ∫ ω, R ω ∂P := by
    have := cond_mul hR hZ hind hB measurable_id (measurable_const (a := (1 : ℝ)))
    simpa [← hQ] using this
  have m2 : ∫ ω, R ω ^ 2 ∂Q = ∫ ω, R ω ^ 2 ∂P := by
    have := cond_mul hR hZ hind hB (f := fun x => x ^ 2) (by fun_prop) (measurable_const (a := (1 : ℝ)))
    simpa [← hQ] using this
  have m3 : ∫ ω, R ω * Z ω ∂Q = (∫ ω, R ω ∂P) * ∫ ω, Z ω ∂Q :=
    cond_mul hR hZ hind hB measurable_id measurable_id
  have hXQ : ∫ ω, X ω ∂Q = ∫ ω, X ω ∂P + k * ∫ ω, Z ω ∂Q := by
    have e : X = fun ω => R ω + k * Z ω := by funext ω; simp [R]
    calc ∫ ω, X ω ∂Q = ∫ ω, R ω + k * Z ω ∂Q := by conv_lhs => rw [e]
      _ = _ := by
        rw [integral_add (hRQ.integrable (by norm_num)) (hkZQ.integrable (by norm_num)), m1, hER,
          integral_const_mul]
  refine ⟨hXQ, ?_⟩
  have vR : Var[R; Q] = Var[R; P] := by
    rw [variance_eq_sub hRQ, variance_eq_sub hR2]
    simp only [Pi.pow_apply]
    rw [m1, m2]
  have cR : cov[R, Z; Q] = 0 := by
    rw [covariance_eq_sub hRQ hZQ]
    simp only [Pi.mul_apply]
    rw [m3, m1, sub_self]
  have e : X = fun ω => R ω + k * Z ω := by funext ω; simp [R]
  have : Var[X; Q] = Var[R; Q] + 2 * cov[R, fun ω => k * Z ω; Q] + Var[fun ω => k * Z ω; Q] := by
    conv_lhs => rw [e]
    exact variance_fun_add hRQ hkZQ
  rw [this, covariance_const_mul_right, cR, variance_const_mul, vR, hVR]
  ring

end Cond

/-! ### Truncated standard normal variables -/

theorem hasDerivAt_normalPdf (x : ℝ) : HasDerivAt normalPdf (-(x * normalPdf x)) x := by
  have h : HasDerivAt (fun x : ℝ => -(x ^ 2) / 2) (-x) x := by
    refine (((hasDerivAt_id x).pow 2).neg.div_const 2).congr_deriv ?_
    simp; ring
  refine ((h.exp).const_mul (Real.sqrt (2 * π))⁻¹ |>.congr_deriv ?_).congr_of_eventuallyEq ?_
  · simp only [normalPdf]; ring_nf
  · refine .of_forall fun y => ?_
    simp only [normalPdf]; ring_nf

theorem integrable_id_mul_normalPdf : Integrable fun x => x * normalPdf x := by
  have h := integrable_rpow_mul_exp_neg_mul_sq (b := 1 / 2) (by norm_num) (s := 1) (by norm_num)
  refine (h.div_const (√(2 * π))).congr (.of_forall fun x => ?_)
  simp only [rpow_one, normalPdf]
  rw [show -(1 / 2) * x ^ 2 = -x ^ 2 / 2 by ring]; ring

theorem integrable_sq_mul_normalPdf : Integrable fun x => x ^ 2 * normalPdf x := by
  have h := integrable_rpow_mul_exp_neg_mul_sq (b := 1 / 2) (by norm_num) (s := 2) (by norm_num)
  refine (h.div_const (√(2 * π))).congr (.of_forall fun x => ?_)
  simp only [rpow_two, normalPdf]
  rw [show -(1 / 2) * x ^ 2 = -x ^ 2 / 2 by ring]; ring

theorem tendsto_pow_mul_normalPdf (n : ℕ) :
    Tendsto (fun x => x ^ n * normalPdf x) (cocompact ℝ) (𝓝 0) := by
  have h := (tendsto_rpow_abs_mul_exp_neg_mul_sq_cocompact (a := 1 / 2) (by norm_num) n).div_const
    (√(2 * π))
  rw [zero_div] at h
  refine squeeze_zero_norm (fun x => ?_) h
  rw [norm_mul, norm_pow, Real.norm_eq_abs, Real.norm_eq_abs, abs_of_pos (pdf_pos' x), rpow_natCast,
    normalPdf, show -(1 / 2) * x ^ 2 = -x ^ 2 / 2 by ring, mul_div_assoc]

theorem integral_Iic_id (x : ℝ) : ∫ y in Set.Iic x, y * normalPdf y = -normalPdf x := by
  have h := integral_Iic_of_hasDerivAt_of_tendsto' (f := fun y => -normalPdf y)
    (f' := fun y => y * normalPdf y) (a := x) (m := 0)
    (fun y _ => (hasDerivAt_normalPdf y).neg.congr_deriv (by ring))
    integrable_id_mul_normalPdf.integrableOn (by
      have := ((tendsto_pow_mul_normalPdf 0).mono_left atBot_le_cocompact).neg
      simpa using this)
  rw [h, sub_zero]

theorem integral_Iic_sq (x : ℝ) :
    ∫ y in Set.Iic x, y ^ 2 * normalPdf y = Phi x - x * normalPdf x := by
  have h := integral_Iic_of_hasDerivAt_of_tendsto' (f := fun y => Phi y - y * normalPdf y)
    (f' := fun y => y ^ 2 * normalPdf y) (a := x) (m := 0)
    (fun y _ => ((hasDerivAt_Phi y).sub ((hasDerivAt_id y).mul (hasDerivAt_normalPdf y))).congr_deriv
      (by simp only [id]; ring))
    integrable_sq_mul_normalPdf.integrableOn (by
      have := tendsto_Phi_atBot.sub ((tendsto_pow_mul_normalPdf 1).mono_left atBot_le_cocompact)
      simpa using this)
  rw [h, sub_zero]

theorem integral_Ioi_id (x : ℝ) : ∫ y in Set.Ioi x, y * normalPdf y = normalPdf x := by
  have h := integral_Ioi_of_hasDerivAt_of_tendsto' (f := fun y => -normalPdf y)
    (f' := fun y => y * normalPdf y) (a := x) (m := 0)
    (fun y _ => (hasDerivAt_normalPdf y).neg.congr_deriv (by ring))
    integrable_id_mul_normalPdf.integrableOn (by
      have := ((tendsto_pow_mul_normalPdf 0).mono_left atTop_le_cocompact).neg
      simpa using this)
  rw [h]; ring

theorem integral_Ioi_sq (x : ℝ) :
    ∫ y in Set.Ioi x, y ^ 2 * normalPdf y = 1 - Phi x + x * normalPdf x := by
  have h := integral_Ioi_of_hasDerivAt_of_tendsto' (f := fun y => Phi y - y * normalPdf y)
    (f' := fun y => y ^ 2 * normalPdf y) (a := x) (m := 1)
    (fun y _ => ((hasDerivAt_Phi y).sub ((hasDerivAt_id y).mul (hasDerivAt_normalPdf y))).congr_deriv
      (by simp only [id]; ring))
    integrable_sq_mul_normalPdf.integrableOn (by
      have := tendsto_Phi_atTop.sub ((tendsto_pow_mul_normalPdf 1).mono_left atTop_le_cocompact)
      simpa using this)
  rw [h]; ring

theorem integral_Icc_id {a b : ℝ} (h : a ≤ b) :
    ∫ y in Set.Icc a b, y * normalPdf y = normalPdf a - normalPdf b := by
  have hc : Continuous fun y => y * normalPdf y := continuous_id.mul continuous_normalPdf
  rw [integral_Icc_eq_integral_Ioc, ← intervalIntegral.integral_of_le h,
    intervalIntegral.integral_eq_sub_of_hasDerivAt (f := fun y => -normalPdf y)
      (fun y _ => (hasDerivAt_normalPdf y).neg.congr_deriv (by ring)) (hc.intervalIntegrable _ _)]
  ring

theorem integral_Icc_sq {a b : ℝ} (h : a ≤ b) :
    ∫ y in Set.Icc a b, y ^ 2 * normalPdf y
      = Phi b - Phi a + a * normalPdf a - b * normalPdf b := by
  have hc : Continuous fun y => y ^ 2 * normalPdf y := (continuous_id.pow 2).mul continuous_normalPdf
  rw [integral_Icc_eq_integral_Ioc, ← intervalIntegral.integral_of_le h,
    intervalIntegral.integral_eq_sub_of_hasDerivAt (f := fun y => Phi y - y * normalPdf y)
      (fun y _ => ((hasDerivAt_Phi y).sub
        ((hasDerivAt_id y).mul (hasDerivAt_normalPdf y))).congr_deriv (by simp only [id]; ring))
      (hc.intervalIntegrable _ _)]
  ring

section Std
variable {Ω : Type*} [MeasurableSpace Ω] {P : Measure Ω} [IsProbabilityMeasure P]

theorem std_setIntegral {Z : Ω → ℝ} (hZ : Measurable Z) (hL : HasLaw Z (gaussianReal 0 1) P)
    {B : Set ℝ} (hB : MeasurableSet B) {g : ℝ → ℝ} (hg : Measurable g) :
    ∫ ω in Z ⁻¹' B, g (Z ω) ∂P = ∫ y in B, g y * normalPdf y := by
  have e := hL.integral_comp (f := B.indicator g) (hg.indicator hB).aestronglyMeasurable
  rw [integral_gaussianReal_eq_integral_smul one_ne_zero] at e
  rw [← integral_indicator (hZ hB), ← integral_indicator hB]
  convert e using 1
  · refine integral_congr_ae (.of_forall fun ω => ?_)
    by_cases hω : Z ω ∈ B <;> simp [Set.indicator, hω]
  · refine integral_congr_ae (.of_forall fun y => ?_)
    by_cases hy : y ∈ B <;> simp [Set.indicator, hy, pdf_std, mul_comm]

theorem std_prob {Z : Ω → ℝ} (hZ : Measurable Z) (hL : HasLaw Z (gaussianReal 0 1) P)
    {B : Set ℝ} (hB : MeasurableSet B) : P.real (Z ⁻¹' B) = ∫ y in B, normalPdf y := by
  have := std_setIntegral hZ hL hB (measurable_const (a := (1 : ℝ)))
  simpa using this

theorem std_prob_Ioi {Z : Ω → ℝ} (hZ : Measurable Z) (hL : HasLaw Z (gaussianReal 0 1) P) (u : ℝ) :
    P.real (Z ⁻¹' Set.Ioi (-u)) = Phi u := by
  rw [std_prob hZ hL measurableSet_Ioi]
  have h := integral_add_compl (measurableSet_Iic (a := -u)) integrable_normalPdf
  rw [Set.compl_Iic, ← Phi_eq, Phi_neg] at h
  have : ∫ y, normalPdf y = 1 := by
    have := integral_gaussianPDFReal_eq_one 0 one_ne_zero
    simpa only [pdf_std] using this
  rw [this] at h
  linarith

theorem std_prob_Icc {Z : Ω → ℝ} (hZ : Measurable Z) (hL : HasLaw Z (gaussianReal 0 1) P) {a b : ℝ}
    (h : a ≤ b) : P.real (Z ⁻¹' Set.Icc a b) = Phi b - Phi a := by
  rw [std_prob hZ hL measurableSet_Icc, integral_Icc_eq_integral_Ioc,
    ← intervalIntegral.integral_of_le h, Phi_sub]

theorem std_memLp {Z : Ω → ℝ} (hL : HasLaw Z (gaussianReal 0 1) P) : MemLp Z 2 P :=
  hL.hasGaussianLaw.memLp_two

/-- Mean and variance of a standard normal variable known to exceed `-u`. -/
theorem std_Ioi {Z : Ω → ℝ} (hZ : Measurable Z) (hL : HasLaw Z (gaussianReal 0 1) P) (u : ℝ) :
    P (Z ⁻¹' Set.Ioi (-u)) ≠ 0 ∧
    ∫ ω, Z ω ∂P[|Z ⁻¹' Set.Ioi (-u)] = normalPdf u / Phi u ∧
    Var[Z; P[|Z ⁻¹' Set.Ioi (-u)]] = 1 - normalPdf u / Phi u * (normalPdf u / Phi u + u) := by
  have hP := std_prob_Ioi hZ hL u
  have h0 : P (Z ⁻¹' Set.Ioi (-u)) ≠ 0 := by
    intro h
    rw [measureReal_def, h] at hP
    exact (Phi_pos u).ne hP
  have : IsProbabilityMeasure P[|Z ⁻¹' Set.Ioi (-u)] := cond_isProbabilityMeasure h0
  have m1 : ∫ ω, Z ω ∂P[|Z ⁻¹' Set.Ioi (-u)] = normalPdf u / Phi u := by
    have := std_setIntegral hZ hL (measurableSet_Ioi (a := -u)) measurable_id
    simp only [id] at this
    rw [integral_cond, this, integral_Ioi_id, hP, normalPdf_neg, inv_mul_eq_div]
  have m2 : ∫ ω, Z ω ^ 2 ∂P[|Z ⁻¹' Set.Ioi (-u)] = 1 - u * (normalPdf u / Phi u) := by
    have := std_setIntegral hZ hL (measurableSet_Ioi (a := -u)) (g := fun y => y ^ 2) (by fun_prop)
    rw [integral_cond, this, integral_Ioi_sq, hP, normalPdf_neg, Phi_neg]
    have := (Phi_pos u).ne'
    field_simp
    ring
  refine ⟨h0, m1, ?_⟩
  rw [variance_eq_sub (memLp_cond h0 (std_memLp hL))]
  simp only [Pi.pow_apply]
  rw [m1, m2]
  ring

/-- Mean and variance of a standard normal variable known to lie between `a` and `b`. -/
theorem std_Icc {Z : Ω → ℝ} (hZ : Measurable Z) (hL : HasLaw Z (gaussianReal 0 1) P) {a b : ℝ}
    (h : a < b) :
    P (Z ⁻¹' Set.Icc a b) ≠ 0 ∧
    ∫ ω, Z ω ∂P[|Z ⁻¹' Set.Icc a b] = (normalPdf a - normalPdf b) / (Phi b - Phi a) ∧
    Var[Z; P[|Z ⁻¹' Set.Icc a b]] = 1 - (b * normalPdf b - a * normalPdf a) / (Phi b - Phi a)
      - ((normalPdf a - normalPdf b) / (Phi b - Phi a)) ^ 2 := by
  have hP := std_prob_Icc hZ hL h.le
  have hlt : 0 < Phi b - Phi a := sub_pos.2 (Phi_strictMono h)
  have h0 : P (Z ⁻¹' Set.Icc a b) ≠ 0 := by
    intro h
    rw [measureReal_def, h] at hP
    exact hlt.ne hP
  have : IsProbabilityMeasure P[|Z ⁻¹' Set.Icc a b] := cond_isProbabilityMeasure h0
  have m1 : ∫ ω, Z ω ∂P[|Z ⁻¹' Set.Icc a b] = (normalPdf a - normalPdf b) / (Phi b - Phi a) := by
    have := std_setIntegral hZ hL (measurableSet_Icc (a := a) (b := b)) measurable_id
    simp only [id] at this
    rw [integral_cond, this, integral_Icc_id h.le, hP, inv_mul_eq_div]
  have m2 : ∫ ω, Z ω ^ 2 ∂P[|Z ⁻¹' Set.Icc a b]
      = 1 - (b * normalPdf b - a * normalPdf a) / (Phi b - Phi a) := by
    have := std_setIntegral hZ hL (measurableSet_Icc (a := a) (b := b)) (g := fun y => y ^ 2)
      (by fun_prop)
    rw [integral_cond, this, integral_Icc_sq h.le, hP]
    field_simp
    ring
  refine ⟨h0, m1, ?_⟩
  rw [variance_eq_sub (memLp_cond h0 (std_memLp hL))]
  simp only [Pi.pow_apply]
  rw [m1, m2]

end Std

/-! ### The lead of a contest -/

section Contest
variable {Ω ι : Type*} [MeasurableSpace Ω] [Fintype ι] {P : Measure Ω} [IsProbabilityMeasure P]
  {X N : ι → Ω → ℝ} {μ v : ι → ℝ} {β : ℝ}

theorem Spec.IsContest.measurable_lead (h : IsContest P X N μ v β) (k : ι → ℝ) :
    Measurable (lead k X N) := by
  unfold lead
  refine Finset.measurable_sum _ fun i _ => ?_
  exact ((h.measurable_skill i).add (h.measurable_form i)).const_mul _

theorem Spec.IsContest.gaussian (h : IsContest P X N μ v β) (k : ι → ℝ) (j : ι) :
    HasGaussianLaw (fun ω => (X j ω, lead k X N ω)) P := by
  have hG := h.indep.hasGaussianLaw (fun i => by
    cases i with
    | inl i => exact (h.skill i).hasGaussianLaw
    | inr i => exact (h.form i).hasGaussianLaw)
  have := hG.map_fun ((ContinuousLinearMap.proj (R := ℝ) (φ := fun _ : ι ⊕ ι => ℝ) (Sum.inl j)).prod
    (∑ i, k i • (ContinuousLinearMap.proj (R := ℝ) (φ := fun _ : ι ⊕ ι => ℝ) (Sum.inl i)
      + ContinuousLinearMap.proj (R := ℝ) (φ := fun _ : ι ⊕ ι => ℝ) (Sum.inr i))))
  simpa [lead, mul_add] using this

theorem Spec.IsContest.gaussian_lead (h : IsContest P X N μ v β) (k : ι → ℝ) :
    HasGaussianLaw (lead k X N) P := by
  have hG := h.indep.hasGaussianLaw (fun i => by
    cases i with
    | inl i => exact (h.skill i).hasGaussianLaw
    | inr i => exact (h.form i).hasGaussianLaw)
  have := hG.map_fun 
    (∑ i, k i • (ContinuousLinearMap.proj (R := ℝ) (φ := fun _ : ι ⊕ ι => ℝ) (Sum.inl i)
      + ContinuousLinearMap.proj (R := ℝ) (φ := fun _ : ι ⊕ ι => ℝ) (Sum.inr i)))
  have e : lead k X N = fun ω => ∑ i, (k i * X i ω + k i * N i ω) := by
    funext ω; simp [lead, mul_add]
  rw [e]
  simpa [mul_add] using this

theorem Spec.IsContest.mean_skill (h : IsContest P X N μ v β) (i : ι) : ∫ ω, X i ω ∂P = μ i := by
  rw [(h.skill i).integral_eq, integral_id_gaussianReal]

theorem Spec.IsContest.var_skill (h : IsContest P X N μ v β) (hv : ∀ i, 0 ≤ v i) (i : ι) :
    Var[X i; P] = v i := by
  rw [(h.skill i).variance_eq, variance_id_gaussianReal, Real.coe_toNNReal _ (hv i)]

theorem Spec.IsContest.mean_form (h : IsContest P X N μ v β) (i : ι) : ∫ ω, N i ω ∂P = 0 := by
  rw [(h.form i).integral_eq, integral_id_gaussianReal]

theorem Spec.IsContest.var_form (h : IsContest P X N μ v β) (i : ι) : Var[N i; P] = β ^ 2 := by
  rw [(h.form i).variance_eq, variance_id_gaussianReal, Real.coe_toNNReal _ (sq_nonneg _)]

theorem Spec.IsContest.memLp_skill (h : IsContest P X N μ v β) (i : ι) : MemLp (X i) 2 P :=
  (h.skill i).hasGaussianLaw.memLp_two

theorem Spec.IsContest.memLp_form (h : IsContest P X N μ v β) (i : ι) : MemLp (N i) 2 P :=
  (h.form i).hasGaussianLaw.memLp_two

theorem Spec.IsContest.mean_lead (h : IsContest P X N μ v β) (k : ι → ℝ) :
    ∫ ω, lead k X N ω ∂P = ∑ i, k i * μ i := by
  have hi : ∀ i, Integrable (X i) P := fun i => (h.memLp_skill i).integrable (by norm_num)
  have hn : ∀ i, Integrable (N i) P := fun i => (h.memLp_form i).integrable (by norm_num)
  unfold lead
  rw [integral_finsetSum _ fun i _ => show Integrable (fun ω => k i * (X i ω + N i ω)) P from
    ((hi i).add (hn i)).const_mul _]
  refine Finset.sum_congr rfl fun i _ => ?_
  rw [integral_const_mul, integral_add (hi i) (hn i), h.mean_skill, h.mean_form, add_zero]

theorem Spec.IsContest.cov_zero (h : IsContest P X N μ v β) {a b : ι ⊕ ι} (hab : a ≠ b) :
    cov[Sum.elim X N a, Sum.elim X N b; P] = 0 := by
  have hm : ∀ c : ι ⊕ ι, MemLp (Sum.elim X N c) 2 P := by
    rintro (i | i)
    · exact h.memLp_skill i
    · exact h.memLp_form i
  exact (h.indep.indepFun hab).covariance_eq_zero (hm a) (hm b)

theorem Spec.IsContest.cov_skill_perf [DecidableEq ι] (h : IsContest P X N μ v β) (hv : ∀ i, 0 ≤ v i)
    (j i : ι) : cov[X j, fun ω => X i ω + N i ω; P] = if i = j then v j else 0 := by
  have e := covariance_add_right (h.memLp_skill j) (h.memLp_skill i) (h.memLp_form i)
  have e2 : cov[X j, N i; P] = 0 := h.cov_zero (a := .inl j) (b := .inr i) (by simp)
  rw [e2, add_zero] at e
  rw [show (fun ω => X i ω + N i ω) = X i + N i from rfl, e]
  split_ifs with hij
  · subst hij
    rw [covariance_self (h.measurable_skill i).aemeasurable, h.var_skill hv]
  · exact h.cov_zero (a := .inl j) (b := .inl i) (by simpa using fun hh => hij hh.symm)

theorem Spec.IsContest.cov_lead (h : IsContest P X N μ v β) (hv : ∀ i, 0 ≤ v i) (k : ι → ℝ) (j : ι) :
    cov[X j, lead k X N; P] = k j * v j := by
  classical
  have hm : ∀ i, MemLp (fun ω => k i * (X i ω + N i ω)) 2 P := fun i =>
    ((h.memLp_skill i).add (h.memLp_form i)).const_mul _
  unfold lead
  rw [covariance_fun_sum_right hm (h.memLp_skill j)]
  have : ∀ i, cov[X j, fun ω => k i * (X i ω + N i ω); P] = if i = j then k j * v j else 0 := by
    intro i
    rw [covariance_const_mul_right, h.cov_skill_perf hv]
    split_ifs with hij
    · rw [hij]
    · rw [mul_zero]
  simp only [this, Finset.sum_ite_eq', Finset.mem_univ, if_true]

theorem Spec.IsContest.var_lead (h : IsContest P X N μ v β) (hv : ∀ i, 0 ≤ v i) (k : ι → ℝ) :
    Var[lead k X N; P] = ∑ i, k i ^ 2 * (v i + β ^ 2) := by
  classical
  have hm : ∀ i, MemLp (fun ω => k i * (X i ω + N i ω)) 2 P := fun i =>
    ((h.memLp_skill i).add (h.memLp_form i)).const_mul _
  have hl := h.measurable_lead k
  have hl2 : MemLp (lead k X N) 2 P := (h.gaussian_lead k).memLp_two
  have hperf : ∀ i, cov[fun ω => X i ω + N i ω, lead k X N; P] = k i * (v i + β ^ 2) := by
    intro i
    have e := covariance_add_left (h.memLp_skill i) (h.memLp_form i) hl2
    rw [show (fun ω => X i ω + N i ω) = X i + N i from rfl, e, h.cov_lead hv]
    have : cov[N i, lead k X N; P] = k i * β ^ 2 := by
      unfold lead
      rw [covariance_fun_sum_right hm (h.memLp_form i)]
      have : ∀ j, cov[N i, fun ω => k j * (X j ω + N j ω); P] = if j = i then k i * β ^ 2 else 0 := by
        intro j
        rw [covariance_const_mul_right]
        have e := covariance_add_right (h.memLp_form i) (h.memLp_skill j) (h.memLp_form j)
        have e2 : cov[N i, X j; P] = 0 := h.cov_zero (a := .inr i) (b := .inl j) (by simp)
        rw [e2, zero_add] at e
        rw [show (fun ω => X j ω + N j ω) = X j + N j from rfl, e]
        split_ifs with hij
        · subst hij
          rw [covariance_self (h.measurable_form j).aemeasurable, h.var_form]
        · rw [show cov[N i, N j; P] = 0 from
            h.cov_zero (a := .inr i) (b := .inr j) (by simpa using fun hh => hij hh.symm), mul_zero]
      simp only [this, Finset.sum_ite_eq', Finset.mem_univ, if_true]
    rw [this]; ring
  rw [← covariance_self hl.aemeasurable]
  have : cov[lead k X N, lead k X N; P]
      = cov[fun ω => ∑ i, k i * (X i ω + N i ω), lead k X N; P] := rfl
  rw [this, covariance_fun_sum_left hm hl2]
  refine Finset.sum_congr rfl fun i _ => ?_
  rw [covariance_const_mul_left, hperf]
  ring

/-- The standardised lead. -/
noncomputable def zlead (k : ι → ℝ) (X N : ι → Ω → ℝ) (m c : ℝ) (ω : Ω) : ℝ :=
  (lead k X N ω - m) / c

theorem Spec.IsContest.law_zlead (h : IsContest P X N μ v β) (hv : ∀ i, 0 ≤ v i) (k : ι → ℝ) {c : ℝ}
    (hc : 0 < c) (hc2 : c ^ 2 = ∑ i, k i ^ 2 * (v i + β ^ 2)) :
    HasLaw (zlead k X N (∑ i, k i * μ i) c) (gaussianReal 0 1) P := by
  have hl : HasLaw (lead k X N) (gaussianReal (∑ i, k i * μ i) (c ^ 2).toNNReal) P := by
    refine ⟨(h.measurable_lead k).aemeasurable, ?_⟩
    rw [(h.gaussian_lead k).map_eq_gaussianReal, h.mean_lead, h.var_lead hv, hc2]
  have := gaussianReal_div_const (gaussianReal_sub_const hl (∑ i, k i * μ i)) c
  have e : (c ^ 2).toNNReal / NNReal.mk (c ^ 2) (sq_nonneg c) = 1 := by
    ext
    simp only [NNReal.coe_div, Real.coe_toNNReal _ (sq_nonneg c), NNReal.coe_one, NNReal.coe_mk]
    exact div_self (by positivity)
  rw [e, sub_self, zero_div] at this
  exact this

theorem Spec.IsContest.gaussian_zlead (h : IsContest P X N μ v β) (k : ι → ℝ) (j : ι) (m c : ℝ) :
    HasGaussianLaw (fun ω => (X j ω, zlead k X N m c ω)) P := by
  have hG := h.gaussian k j
  have h1 : HasGaussianLaw (fun ω => (X j ω, lead k X N ω) - ((0 : ℝ), m)) P := by
    have hm : AEMeasurable (fun ω => (X j ω, lead k X N ω)) P := hG.aemeasurable
    have := hG.isGaussian_map
    refine ⟨?_⟩
    have e : P.map (fun ω => (X j ω, lead k X N ω) - ((0 : ℝ), m))
        = (P.map (fun ω => (X j ω, lead k X N ω))).map (fun x => x - ((0 : ℝ), m)) := by
      rw [AEMeasurable.map_map_of_aemeasurable (by fun_prop) hm]
      rfl
    rw [e]
    infer_instance
  have := h1.map_fun ((ContinuousLinearMap.fst ℝ ℝ ℝ).prod (c⁻¹ • ContinuousLinearMap.snd ℝ ℝ ℝ))
  simpa [zlead, div_eq_inv_mul] using this

theorem Spec.IsContest.measurable_zlead (h : IsContest P X N μ v β) (k : ι → ℝ) (m c : ℝ) :
    Measurable (zlead k X N m c) := ((h.measurable_lead k).sub_const m).div_const c

theorem Spec.IsContest.cov_zlead (h : IsContest P X N μ v β) (hv : ∀ i, 0 ≤ v i) (k : ι → ℝ) (j : ι)
    (m c : ℝ) : cov[X j, zlead k X N m c; P] = k j * v j / c := by
  have e : zlead k X N m c = fun ω => (fun ω => lead k X N ω - m) ω / c := rfl
  rw [e, covariance_fun_div_right, covariance_sub_const_right (h.gaussian_lead k).integrable,
    h.cov_lead hv]

theorem Spec.IsContest.mean_zlead (h : IsContest P X N μ v β) (hv : ∀ i, 0 ≤ v i) (k : ι → ℝ) {c : ℝ}
    (hc : 0 < c) (hc2 : c ^ 2 = ∑ i, k i ^ 2 * (v i + β ^ 2)) :
    ∫ ω, zlead k X N (∑ i, k i * μ i) c ω ∂P = 0 := by
  rw [(h.law_zlead hv k hc hc2).integral_eq, integral_id_gaussianReal]

theorem Spec.IsContest.var_zlead (h : IsContest P X N μ v β) (hv : ∀ i, 0 ≤ v i) (k : ι → ℝ) {c : ℝ}
    (hc : 0 < c) (hc2 : c ^ 2 = ∑ i, k i ^ 2 * (v i + β ^ 2)) :
    Var[zlead k X N (∑ i, k i * μ i) c; P] = 1 := by
  rw [(h.law_zlead hv k hc hc2).variance_eq, variance_id_gaussianReal, NNReal.coe_one]

/-- What a lead of more than `ε` reveals about the skill of a player. -/
theorem Spec.IsContest.posterior_win (h : IsContest P X N μ v β) (hv : ∀ i, 0 ≤ v i) (k : ι → ℝ)
    {c : ℝ} (hc : 0 < c) (hc2 : c ^ 2 = ∑ i, k i ^ 2 * (v i + β ^ 2)) (ε : ℝ) {u : ℝ}
    (hu : u = (∑ i, k i * μ i - ε) / c) :
    P.real {ω | ε < lead k X N ω} = Phi u ∧ ∀ j,
    ∫ ω, X j ω ∂P[|{ω | ε < lead k X N ω}] = μ j + k j * v j / c * (normalPdf u / Phi u) ∧
    Var[X j; P[|{ω | ε < lead k X N ω}]]
      = v j - (k j * v j / c) ^ 2 * (normalPdf u / Phi u * (normalPdf u / Phi u + u)) := by
  have hS : {ω | ε < lead k X N ω} = zlead k X N (∑ i, k i * μ i) c ⁻¹' Set.Ioi (-u) := by
    ext ω
    simp only [Set.mem_ofPred_eq, Set.mem_preimage, Set.mem_Ioi, zlead]
    rw [lt_div_iff₀ hc, hu]
    rw [show -((∑ i, k i * μ i - ε) / c) * c = ε - ∑ i, k i * μ i by field_simp; ring]
    constructor <;> intro h <;> linarith
  have hZ := h.measurable_zlead k (∑ i, k i * μ i) c
  have hL := h.law_zlead hv k hc hc2
  obtain ⟨h0, h1, h2⟩ := std_Ioi hZ hL u
  rw [hS]
  refine ⟨std_prob_Ioi hZ hL u, fun j => ?_⟩
  obtain ⟨e1, e2⟩ := cond_gaussian (h.measurable_skill j) hZ (h.gaussian_zlead k j _ c)
    (h.mean_zlead hv k hc hc2) (h.var_zlead hv k hc hc2) measurableSet_Ioi h0
  rw [e1, e2, h1, h2, h.mean_skill, h.var_skill hv, h.cov_zlead hv]
  exact ⟨rfl, by ring⟩

/-- What a lead between `-ε` and `ε` reveals about the skill of a player. -/
theorem Spec.IsContest.posterior_draw (h : IsContest P X N μ v β) (hv : ∀ i, 0 ≤ v i) (k : ι → ℝ)
    {c : ℝ} (hc : 0 < c) (hc2 : c ^ 2 = ∑ i, k i ^ 2 * (v i + β ^ 2)) {ε : ℝ} (hε : 0 < ε) {t e : ℝ}
    (ht : t = (∑ i, k i * μ i) / c) (he : e = ε / c) :
    P.real {ω | |lead k X N ω| ≤ ε} = Phi (e - t) - Phi (-e - t) ∧ ∀ j,
    ∫ ω, X j ω ∂P[|{ω | |lead k X N ω| ≤ ε}] = μ j + k j * v j / c *
      ((normalPdf (-e - t) - normalPdf (e - t)) / (Phi (e - t) - Phi (-e - t))) ∧
    Var[X j; P[|{ω | |lead k X N ω| ≤ ε}]] = v j - (k j * v j / c) ^ 2 *
      (((normalPdf (-e - t) - normalPdf (e - t)) / (Phi (e - t) - Phi (-e - t))) ^ 2
        + ((e - t) * normalPdf (e - t) - (-e - t) * normalPdf (-e - t))
          / (Phi (e - t) - Phi (-e - t))) := by
  have hS : {ω | |lead k X N ω| ≤ ε}
      = zlead k X N (∑ i, k i * μ i) c ⁻¹' Set.Icc (-e - t) (e - t) := by
    ext ω
    simp only [Set.mem_ofPred_eq, Set.mem_preimage, Set.mem_Icc, zlead]
    rw [le_div_iff₀ hc, div_le_iff₀ hc, ht, he, abs_le]
    rw [show (-(ε / c) - (∑ i, k i * μ i) / c) * c = -ε - ∑ i, k i * μ i by field_simp,
      show (ε / c - (∑ i, k i * μ i) / c) * c = ε - ∑ i, k i * μ i by field_simp]
    constructor <;> rintro ⟨h1, h2⟩ <;> constructor <;> linarith
  have he0 : 0 < e := by rw [he]; positivity
  have hZ := h.measurable_zlead k (∑ i, k i * μ i) c
  have hL := h.law_zlead hv k hc hc2
  have hab : -e - t < e - t := by linarith
  obtain ⟨h0, h1, h2⟩ := std_Icc hZ hL hab
  rw [hS]
  refine ⟨std_prob_Icc hZ hL hab.le, fun j => ?_⟩
  obtain ⟨e1, e2⟩ := cond_gaussian (h.measurable_skill j) hZ (h.gaussian_zlead k j _ c)
    (h.mean_zlead hv k hc hc2) (h.var_zlead hv k hc hc2) measurableSet_Icc h0
  rw [e1, e2, h1, h2, h.mean_skill, h.var_skill hv, h.cov_zlead hv]
  exact ⟨rfl, by ring⟩

/-- Such contests exist. -/
theorem exists_contest (μ v : ι → ℝ) (β : ℝ) :
    ∃ (X N : ι → (ι ⊕ ι → ℝ) → ℝ) (P : Measure (ι ⊕ ι → ℝ)), IsProbabilityMeasure P ∧
      IsContest P X N μ v β := by
  let ν : ι ⊕ ι → Measure ℝ := Sum.elim (fun i => gaussianReal (μ i) (v i).toNNReal)
    (fun _ => gaussianReal 0 (β ^ 2).toNNReal)
  have hν : ∀ a, IsProbabilityMeasure (ν a) := by
    rintro (i | i)
    · exact inferInstanceAs (IsProbabilityMeasure (gaussianReal _ _))
    · exact inferInstanceAs (IsProbabilityMeasure (gaussianReal _ _))
  have hl : ∀ a, HasLaw (fun x : ι ⊕ ι → ℝ => x a) (ν a) (Measure.pi ν) := fun a =>
    (measurePreserving_eval ν a).hasLaw
  refine ⟨fun i x => x (.inl i), fun i x => x (.inr i), Measure.pi ν, inferInstance,
    fun i => measurable_pi_apply _, fun i => measurable_pi_apply _, fun i => hl (.inl i),
    fun i => hl (.inr i), ?_⟩
  have := iIndepFun_pi (μ := ν) (X := fun _ x => x) (fun a => measurable_id.aemeasurable)
  convert this using 1
  funext a
  cases a <;> rfl

end Contest

end Skillratings
