import Verif.Proofs.TruncVar
import Verif.Proofs.NormalAccuracy
/-
The correction of the uncertainty after a draw whose margin is at least one percent of the
difference and the total uncertainty together.  The fitted distribution function is far more
accurate on differences than on values: its derivative is the normal density up to a relative error,
and so is the probability of a window on one side of zero, however improbable.
-/
namespace Skillratings.TrueSkill
open Real Spec MeasureTheory ProbabilityTheory Poly

theorem le_of_deriv {f f' : ℝ → ℝ} {a b : ℝ} (hab : a ≤ b)
    (hd : ∀ y ∈ Set.Icc a b, HasDerivAt f (f' y) y) (hn : ∀ y ∈ Set.Icc a b, 0 ≤ f' y) :
    f a ≤ f b := by
  have h : MonotoneOn f (Set.Icc a b) := by
    refine monotoneOn_of_deriv_nonneg (convex_Icc a b)
      (fun x hx => (hd x hx).continuousAt.continuousWithinAt) (fun x hx => ?_) (fun x hx => ?_)
    · exact (hd x (interior_subset hx)).differentiableAt.differentiableWithinAt
    · rw [(hd x (interior_subset hx)).deriv]
      exact hn x (interior_subset hx)
  exact h (Set.left_mem_Icc.2 hab) (Set.right_mem_Icc.2 hab) hab

/-! ### The variance of a truncated normal variable -/

/-- Among the distributions on a window whose density is at most `M / p` the uniform one has the
least variance. -/
theorem truncVar_ge {a b M : ℝ} (h : a < b) (hM : ∀ y ∈ Set.Icc a b, normalPdf y ≤ M) :
    ((Phi b - Phi a) / M) ^ 2 / 12 ≤ 1 - truncW a b := by
  have hp : 0 < Phi b - Phi a := sub_pos.2 (Phi_strictMono h)
  have hM0 : 0 < M := (pdf_pos' a).trans_le (hM a ⟨le_rfl, h.le⟩)
  set p := Phi b - Phi a with hpd
  set m := (normalPdf a - normalPdf b) / p with hm
  have hmp : m * p = normalPdf a - normalPdf b := div_mul_cancel₀ _ hp.ne'
  obtain ⟨k, hk⟩ : ∃ k, k = p / (2 * M) := ⟨_, rfl⟩
  have hk0 : 0 < k := by rw [hk]; positivity
  have e1 := integral_shift_sq h.le m
  have i1 : IntegrableOn (fun y => (y - m) ^ 2 * normalPdf y) (Set.Icc a b) :=
    integrable_poly_pdf (by fun_prop) a b
  have i2 := integrable_poly_pdf (continuous_const (y := k ^ 2)) a b
  have c3 : Continuous fun y : ℝ => M * (k ^ 2 - (y - m) ^ 2) := by fun_prop
  have i3 : IntegrableOn ((Set.Ioo (m - k) (m + k)).indicator fun y => M * (k ^ 2 - (y - m) ^ 2))
      (Set.Icc a b) := (c3.integrableOn_Icc).indicator measurableSet_Ioo
  have hle : ∫ y in Set.Icc a b, (k ^ 2 * normalPdf y
      - (Set.Ioo (m - k) (m + k)).indicator (fun y => M * (k ^ 2 - (y - m) ^ 2)) y)
      ≤ ∫ y in Set.Icc a b, (y - m) ^ 2 * normalPdf y := by
    refine setIntegral_mono_on (i2.sub i3) i1 measurableSet_Icc fun y hyI => ?_
    have h1 := hM y hyI
    have h2 := pdf_pos' y
    by_cases hy : y ∈ Set.Ioo (m - k) (m + k)
    · simp only [Set.indicator_of_mem hy]
      have : 0 ≤ k ^ 2 - (y - m) ^ 2 := by
        have := hy.1; have := hy.2; nlinarith
      nlinarith [mul_le_mul_of_nonneg_right h1 this]
    · simp only [Set.indicator_of_notMem hy, sub_zero]
      gcongr 1
      rw [Set.mem_Ioo, not_and_or, not_lt, not_lt] at hy
      rcases hy with hy | hy <;> nlinarith
  rw [integral_sub i2 i3, integral_const_mul, integral_pdf h.le,
    setIntegral_indicator measurableSet_Ioo] at hle
  have hv : ∫ y in Set.Icc a b ∩ Set.Ioo (m - k) (m + k), M * (k ^ 2 - (y - m) ^ 2)
      ≤ M * (4 / 3 * k ^ 3) := by
    have s1 : ∫ y in Set.Icc a b ∩ Set.Ioo (m - k) (m + k), M * (k ^ 2 - (y - m) ^ 2)
        ≤ ∫ y in Set.Ioo (m - k) (m + k), M * (k ^ 2 - (y - m) ^ 2) := by
      refine setIntegral_mono_set (c3.integrableOn_Icc.mono_set Set.Ioo_subset_Icc_self) ?_
        (Filter.Eventually.of_forall fun _ hy => hy.2)
      refine (ae_restrict_iff' measurableSet_Ioo).2 (Filter.Eventually.of_forall fun y hy => ?_)
      have : 0 ≤ k ^ 2 - (y - m) ^ 2 := by
        have := hy.1; have := hy.2; nlinarith
      exact mul_nonneg hM0.le this
    refine s1.trans (le_of_eq ?_)
    rw [← integral_Ioc_eq_integral_Ioo, ← intervalIntegral.integral_of_le (by linarith)]
    have hF : ∀ y ∈ Set.uIcc (m - k) (m + k),
        HasDerivAt (fun y => M * (k ^ 2 * y - (y - m) ^ 3 / 3)) (M * (k ^ 2 - (y - m) ^ 2)) y := by
      intro y _
      have h3 := (((hasDerivAt_id y).sub_const m).pow 3).div_const 3
      have h4 := (((hasDerivAt_id y).const_mul (k ^ 2)).sub h3).const_mul M
      refine h4.congr_deriv ?_
      simp
    rw [intervalIntegral.integral_eq_sub_of_hasDerivAt hF (c3.intervalIntegrable _ _)]
    ring
  rw [e1, ← hpd] at hle
  have key : k ^ 2 * p - M * (4 / 3 * k ^ 3) ≤ p * (1 - truncW a b) := by
    have e : p * (1 - truncW a b) = (p + a * normalPdf a - b * normalPdf b)
        - 2 * m * (normalPdf a - normalPdf b) + m ^ 2 * p := by
      rw [truncW, ← hpd, ← hm, ← hmp]
      field_simp
      ring
    rw [e]
    linarith
  have ek : k ^ 2 * p - M * (4 / 3 * k ^ 3) = p * ((p / M) ^ 2 / 12) := by
    rw [hk]; field_simp; ring
  rw [ek] at key
  exact le_of_mul_le_mul_left key hp

theorem pdf_anti {x y : ℝ} (hx : 0 ≤ x) (h : x ≤ y) : normalPdf y ≤ normalPdf x := by
  have : x ^ 2 ≤ y ^ 2 := by gcongr
  unfold normalPdf
  gcongr 2
  linarith

/-- The mass of a window that starts at `a`, in units of the density there. -/
theorem window_mills {a b L : ℝ} (ha : 0 ≤ a) (hL : 0 < L) (hLb : a + L ≤ b) :
    normalPdf a * ((1 - exp (-((a + L / 2) * L))) / (a + L / 2)) ≤ Phi b - Phi a := by
  have hA : 0 < a + L / 2 := by linarith
  set A := a + L / 2 with hAd
  have hm : Phi (a + L) ≤ Phi b := Phi_strictMono.monotone hLb
  have h := le_of_deriv (a := a) (b := a + L)
    (f := fun y => Phi y - normalPdf a * ((1 - exp (-(A * (y - a)))) / A))
    (f' := fun y => normalPdf y - normalPdf a * exp (-(A * (y - a)))) (by linarith) ?_ ?_
  · simp only [sub_self, mul_zero, neg_zero, exp_zero, zero_div, sub_zero, add_sub_cancel_left] at h
    linarith
  · intro y _
    have h1 : HasDerivAt (fun y : ℝ => -(A * (y - a))) (-A) y := by
      exact ((((hasDerivAt_id y).sub_const a).const_mul A).neg).congr_deriv (by simp)
    have h2 := ((((h1.exp).const_sub 1).div_const A).const_mul (normalPdf a))
    refine ((hasDerivAt_Phi y).sub h2).congr_deriv ?_
    field_simp
  · intro y hy
    have e : normalPdf y = normalPdf a * exp (-(a * (y - a) + (y - a) ^ 2 / 2)) := by
      unfold normalPdf
      rw [div_mul_eq_mul_div, ← Real.exp_add]
      congr 2; ring
    rw [e]
    have : exp (-(A * (y - a))) ≤ exp (-(a * (y - a) + (y - a) ^ 2 / 2)) := by
      apply Real.exp_le_exp.2
      have h1 : 0 ≤ y - a := by linarith [hy.1]
      have h2 : y - a ≤ L := by linarith [hy.2]
      have h3 := mul_le_mul_of_nonneg_left h2 h1
      rw [hAd]
      nlinarith
    have := mul_le_mul_of_nonneg_left this (pdf_pos' a).le
    linarith

theorem hasDerivAt_normalPdf (y : ℝ) : HasDerivAt normalPdf (-(y * normalPdf y)) y := by
  unfold normalPdf
  have h1 : HasDerivAt (fun y : ℝ => -y ^ 2 / 2) (-y) y := by
    have := ((hasDerivAt_pow 2 y).neg).div_const 2
    refine this.congr_deriv ?_
    push_cast; ring
  exact ((h1.exp).div_const (√(2 * π))).congr_deriv (by ring)

/-- The mean of a truncated normal variable is inside the window. -/
theorem trunc_mean_le {a b : ℝ} (h : a ≤ b) :
    normalPdf a - normalPdf b ≤ b * (Phi b - Phi a) := by
  have k := le_of_deriv (f := fun y => b * Phi y + normalPdf y)
    (f' := fun y => b * normalPdf y + -(y * normalPdf y)) h
    (fun y _ => ((hasDerivAt_Phi y).const_mul b).add (hasDerivAt_normalPdf y))
    (fun y hy => by
      have := mul_nonneg (sub_nonneg.2 hy.2) (pdf_pos' y).le
      linarith)
  linarith

theorem trunc_mean_ge {a b : ℝ} (h : a ≤ b) :
    a * (Phi b - Phi a) ≤ normalPdf a - normalPdf b := by
  have k := le_of_deriv (f := fun y => -normalPdf y - a * Phi y)
    (f' := fun y => -(-(y * normalPdf y)) - a * normalPdf y) h
    (fun y _ => ((hasDerivAt_normalPdf y).neg).sub ((hasDerivAt_Phi y).const_mul a))
    (fun y hy => by
      have := mul_nonneg (sub_nonneg.2 hy.1) (pdf_pos' y).le
      linarith)
  linarith

/-! ### The fit on differences -/

/-- Half of the fit, as a function of the argument of the distribution function. -/
noncomputable def halfFit (y : ℝ) : ℝ := fit (y / √2) / 2

theorem hasDerivAt_halfFit {y : ℝ} (hy : 0 ≤ y) :
    HasDerivAt halfFit (-(normalPdf y * exp (G (1 + y / √2 / 2)⁻¹))) y := by
  have h2 : HasDerivAt (fun y : ℝ => y / √2) (1 / √2) y := (hasDerivAt_id y).div_const _
  have h := ((hasDerivAt_fit (z := y / √2) (by positivity)).comp y h2).div_const 2
  refine h.congr_deriv ?_
  have e : (y / √2) ^ 2 = y ^ 2 / 2 := by rw [div_pow, Real.sq_sqrt (by norm_num)]
  have e2 : √(2 * π) = √2 * √π := Real.sqrt_mul (by norm_num) π
  have hs : 0 < √π := Real.sqrt_pos.2 Real.pi_pos
  have hs2 : 0 < √(2 : ℝ) := by positivity
  rw [e, normalPdf, e2, neg_div]
  field_simp

theorem halfFit_rel {a b M D : ℝ} (ha : 0 ≤ a) (hab : a ≤ b) (hM : M ≤ 1e-5)
    (hD : M + 1e-5 * M ≤ D) (hG : ∀ y, a ≤ y → y ≤ b → |G (1 + y / √2 / 2)⁻¹| ≤ M) :
    (1 - D) * (Phi b - Phi a) ≤ halfFit a - halfFit b ∧
      halfFit a - halfFit b ≤ (1 + D) * (Phi b - Phi a) := by
  have he : ∀ y ∈ Set.Icc a b, |exp (G (1 + y / √2 / 2)⁻¹) - 1| ≤ D := fun y hy =>
    (exp_sub_one_le (hG y hy.1 hy.2) hM).trans hD
  constructor
  · have h := le_of_deriv (f := fun y => -halfFit y - (1 - D) * Phi y)
      (f' := fun y => -(-(normalPdf y * exp (G (1 + y / √2 / 2)⁻¹))) - (1 - D) * normalPdf y) hab
      (fun y hy => ((hasDerivAt_halfFit (ha.trans hy.1)).neg).sub ((hasDerivAt_Phi y).const_mul _))
      (fun y hy => by
        have h1 := (abs_le.1 (he y hy)).1
        have := mul_nonneg (pdf_pos' y).le (show 0 ≤ exp (G (1 + y / √2 / 2)⁻¹) - (1 - D) by linarith)
        linarith)
    linarith
  · have h := le_of_deriv (f := fun y => halfFit y + (1 + D) * Phi y)
      (f' := fun y => -(normalPdf y * exp (G (1 + y / √2 / 2)⁻¹)) + (1 + D) * normalPdf y) hab
      (fun y hy => (hasDerivAt_halfFit (ha.trans hy.1)).add ((hasDerivAt_Phi y).const_mul _))
      (fun y hy => by
        have h1 := (abs_le.1 (he y hy)).2
        have := mul_nonneg (pdf_pos' y).le (show 0 ≤ (1 + D) - exp (G (1 + y / √2 / 2)⁻¹) by linarith)
        linarith)
    linarith

theorem table_T : checkAbs (add tS [-1.065e-7]) 1.1e-7 0.002 100 0 = true := by
  decide +kernel

theorem G_T {t : ℝ} (h0 : 0 ≤ t) (h1 : t ≤ 0.37) : |G t| ≤ 1.2e-7 := by
  have := G_of_table (by norm_num) table_T h0 (h1.trans (by norm_num)) (by simpa using h0)
    (by norm_num at h1 ⊢; linarith)
  norm_num at this ⊢; linarith

theorem G_all {t : ℝ} (h0 : 0 ≤ t) (h1 : t ≤ 1) : |G t| ≤ 6.35e-6 := by
  rcases le_total t 0.93 with h | h
  · exact (G_A h0 h).trans (by norm_num)
  rcases le_total t 0.98 with h' | h'
  · exact (G_B h h').trans (by norm_num)
  rcases le_total t 0.99 with h'' | h''
  · exact (G_C h' h'').trans (by norm_num)
  · exact G_D h'' h1

/-- The mass of a window on one side of zero. -/
theorem halfFit_all {a b : ℝ} (ha : 0 ≤ a) (hab : a ≤ b) :
    (1 - 6.36e-6) * (Phi b - Phi a) ≤ halfFit a - halfFit b ∧
      halfFit a - halfFit b ≤ (1 + 6.36e-6) * (Phi b - Phi a) := by
  refine halfFit_rel ha hab (M := 6.35e-6) (by norm_num) (by norm_num) fun y h1 _ => ?_
  have hy : 0 ≤ y := ha.trans h1
  exact G_all (by positivity) (inv_le_one_of_one_le₀ (by
    have : 0 ≤ y / √2 / 2 := by positivity
    linarith))

/-- The same in the tail. -/
theorem halfFit_tail {a b : ℝ} (ha : 5 ≤ a) (hab : a ≤ b) :
    (1 - 1.21e-7) * (Phi b - Phi a) ≤ halfFit a - halfFit b ∧
      halfFit a - halfFit b ≤ (1 + 1.21e-7) * (Phi b - Phi a) := by
  refine halfFit_rel (by linarith) hab (M := 1.2e-7) (by norm_num) (by norm_num) fun y h1 _ => ?_
  have hy : 5 ≤ y := ha.trans h1
  have s2 : √(2 : ℝ) ≤ 1.4143 := by rw [Real.sqrt_le_left (by norm_num)]; norm_num
  have s0 : 0 < √(2 : ℝ) := by positivity
  have h5 : 3.5 ≤ y / √2 := by
    rw [le_div_iff₀ s0]
    norm_num at s2 ⊢
    linarith
  refine G_T (by positivity) ?_
  rw [inv_le_comm₀ (by positivity) (by norm_num)]
  norm_num at h5 ⊢
  linarith

/-! ### The correction computed with an inexact mass -/

section core
variable {p N D m s V : ℝ}

/-- `m² + s/r` with `r = N/p`, where `m² + s = 1 - V`, stays below one. -/
theorem core_lt (hp : 0 < p) (hD0 : 0 ≤ D) (hD : D < 1) (hN : (1 - D) * p ≤ N) (hs : m ^ 2 + s = 1 - V)
    (hV : D * (1 + m ^ 2 + V) < V) : (m * p / N) ^ 2 + s * p / N < 1 := by
  have hN0 : 0 < N := lt_of_lt_of_le (mul_pos (by linarith) hp) hN
  obtain ⟨r, hr⟩ : ∃ r, r = N / p := ⟨_, rfl⟩
  have hNr : N = r * p := by rw [hr]; field_simp
  have hr1 : 1 - D ≤ r := by rw [hr, le_div_iff₀ hp]; exact hN
  have hr0 : 0 < r := by linarith
  have e : (m * p / N) ^ 2 + s * p / N = (m ^ 2 + s * r) / r ^ 2 := by
    rw [hNr]; field_simp
  rw [e, div_lt_one (by positivity)]
  have e2 : s = 1 - V - m ^ 2 := by linarith
  rw [e2]
  have hV0 : 0 ≤ 1 + m ^ 2 + V := by
    by_contra hc
    push Not at hc
    have : 0 ≤ m ^ 2 := sq_nonneg m
    nlinarith
  nlinarith [mul_nonneg hV0 (show 0 ≤ r - (1 - D) by linarith), sq_nonneg (r - 1)]

/-- And above zero. -/
theorem core_pos (hp : 0 < p) (hD0 : 0 ≤ D) (hD : D < 1) (hN : (1 - D) * p ≤ N) (hN' : N ≤ (1 + D) * p)
    (hs : 0 < m ^ 2 + s) (hV : D * m ^ 2 < m ^ 2 + s) : 0 < (m * p / N) ^ 2 + s * p / N := by
  have hN0 : 0 < N := lt_of_lt_of_le (mul_pos (by linarith) hp) hN
  obtain ⟨r, hr⟩ : ∃ r, r = N / p := ⟨_, rfl⟩
  have hNr : N = r * p := by rw [hr]; field_simp
  have hr1 : 1 - D ≤ r := by rw [hr, le_div_iff₀ hp]; exact hN
  have hr2 : r ≤ 1 + D := by rw [hr, div_le_iff₀ hp]; exact hN'
  have hr0 : 0 < r := by linarith
  have e : (m * p / N) ^ 2 + s * p / N = (m ^ 2 + s * r) / r ^ 2 := by
    rw [hNr]; field_simp
  rw [e]
  refine div_pos ?_ (by positivity)
  rcases le_total 0 s with h | h
  · have := mul_le_mul_of_nonneg_left hr1 h
    nlinarith [sq_nonneg m]
  · have := mul_le_mul_of_nonpos_left hr2 h
    nlinarith [sq_nonneg m]

end core

theorem tsWDraw_eq {t e : ℝ} (hn : ¬ tsDrawNorm t e < tsTiny) :
    tsWDraw t e = ((normalPdf (|t| - e) - normalPdf (|t| + e)) / tsDrawNorm t e) ^ 2
      + ((|t| + e) * normalPdf (|t| + e) - (|t| - e) * normalPdf (|t| - e)) / tsDrawNorm t e := by
  have e1 : normalPdf (e - |t|) = normalPdf (|t| - e) := by
    rw [← normalPdf_neg]; congr 1; ring
  have e2 : normalPdf (-e - |t|) = normalPdf (|t| + e) := by
    rw [← normalPdf_neg]; congr 1; ring
  rw [tsWDraw, if_neg hn, tsVDraw, if_neg hn, e1, e2]
  congr 1
  · split_ifs <;> ring
  · congr 1; ring

theorem normalCdf_halfFit {y : ℝ} (hy : 0 ≤ y) : normalCdf (-y) = halfFit y := by
  have h : 0 ≤ - -y / √2 := by rw [neg_neg]; positivity
  rw [normalCdf, erfcFit, if_neg (not_lt.2 h), erfcTail_eq h, neg_neg, halfFit]

theorem drawNorm_side {t e : ℝ} (he : 0 < e) (h : e ≤ |t|) :
    tsDrawNorm t e = halfFit (|t| - e) - halfFit (|t| + e) := by
  rw [tsDrawNorm, ← normalCdf_halfFit (y := |t| - e) (by linarith),
    ← normalCdf_halfFit (y := |t| + e) (by linarith)]
  congr 2 <;> ring

/-- Far out nothing is left. -/
theorem halfFit_far {a b : ℝ} (ha : 27.3 ≤ a) (hab : a ≤ b) : halfFit a - halfFit b < tsTiny := by
  have h1 := (halfFit_tail (le_trans (by norm_num) ha) hab).2
  have h2 := trunc_mean_ge hab
  have hp0 : 0 ≤ Phi b - Phi a := sub_nonneg.2 (Phi_strictMono.monotone hab)
  have hp : 27 * (Phi b - Phi a) ≤ normalPdf a := by
    have := pdf_pos' b
    have h27 : 27 * (Phi b - Phi a) ≤ a * (Phi b - Phi a) := by
      norm_num at ha
      gcongr
      linarith
    linarith
  have hφ : normalPdf a ≤ 2e-162 := by
    have hs : (1 : ℝ) ≤ √(2 * π) := by
      apply Real.le_sqrt_of_sq_le
      have := Real.pi_gt_d2
      norm_num at this ⊢; linarith
    have he : (1 / 3e-162 : ℝ) ≤ exp 372 := by
      rw [show (372 : ℝ) = (93 : ℕ) * ((4 : ℕ) * 1) by norm_num, Real.exp_nat_mul, Real.exp_nat_mul]
      have : ((2.718 : ℝ) ^ 4) ^ 93 ≤ (exp 1 ^ 4) ^ 93 := by
        have := Real.exp_one_gt_d9
        gcongr
        norm_num at this ⊢; linarith
      refine le_trans ?_ this
      norm_num
    have hx : exp (-a ^ 2 / 2) ≤ (exp 372)⁻¹ := by
      rw [← Real.exp_neg]
      apply Real.exp_le_exp.2
      norm_num at ha ⊢
      nlinarith
    have hx2 : (exp 372 : ℝ)⁻¹ ≤ (1 / 3e-162)⁻¹ := inv_anti₀ (by norm_num) he
    have hx3 := hx.trans hx2
    have hs2 : (2.5 : ℝ) ≤ √(2 * π) := by
      apply Real.le_sqrt_of_sq_le
      have := Real.pi_gt_d2
      norm_num at this ⊢; linarith
    rw [normalPdf, div_le_iff₀ (by linarith)]
    refine hx3.trans (le_trans ?_ (mul_le_mul_of_nonneg_left hs2 (by norm_num)))
    norm_num
  refine lt_of_le_of_lt h1 (lt_of_le_of_lt (b := 2 * (2e-162 / 27)) ?_ (by norm_num [tsTiny]))
  have h3 : Phi b - Phi a ≤ 2e-162 / 27 := by
    rw [le_div_iff₀ (by norm_num)]
    linarith
  generalize (2e-162 / 27 : ℝ) = q at h3 ⊢
  generalize Phi b - Phi a = p at hp0 h3 ⊢
  norm_num
  nlinarith

/-! ### Windows on one side of zero -/

/-- What the two estimates of the mass need. -/
theorem side_core {a b N D R : ℝ} (ha : 0 ≤ a) (hab : a < b) (hD0 : 0 ≤ D) (hD1 : D ≤ 1e-5)
    (hN : (1 - D) * (Phi b - Phi a) ≤ N ∧ N ≤ (1 + D) * (Phi b - Phi a))
    (hR0 : 0 < R) (hR : normalPdf a * R ≤ Phi b - Phi a) {m2 : ℝ}
    (hm : 1 / R ^ 2 ≤ m2 ∨ b ^ 2 ≤ m2)
    (h1 : D * (1 + m2) < (1 - D) * (R ^ 2 / 12)) (h2 : D * m2 < 0.49) :
    0 < ((normalPdf a - normalPdf b) / N) ^ 2 + (b * normalPdf b - a * normalPdf a) / N ∧
      ((normalPdf a - normalPdf b) / N) ^ 2 + (b * normalPdf b - a * normalPdf a) / N < 1 := by
  have hp : 0 < Phi b - Phi a := sub_pos.2 (Phi_strictMono hab)
  have hφ := pdf_pos' a
  have hφb := pdf_pos' b
  have hV := truncVar_ge hab (M := normalPdf a) fun y hy => pdf_anti ha hy.1
  have hlow := truncW_ge ha hab
  have hanti := pdf_anti ha hab.le
  have hmean := trunc_mean_le hab.le
  set p := Phi b - Phi a with hpd
  obtain ⟨m, hmd⟩ : ∃ m, m = (normalPdf a - normalPdf b) / p := ⟨_, rfl⟩
  obtain ⟨s, hsd⟩ : ∃ s, s = (b * normalPdf b - a * normalPdf a) / p := ⟨_, rfl⟩
  have hmp : normalPdf a - normalPdf b = m * p := by rw [hmd]; field_simp
  have hsp : b * normalPdf b - a * normalPdf a = s * p := by rw [hsd]; field_simp
  have hms : truncW a b = m ^ 2 + s := by rw [truncW, ← hpd, hmd, hsd]
  have hm0 : 0 ≤ m := by rw [hmd]; exact div_nonneg (by linarith) hp.le
  have hRp : R ≤ p / normalPdf a := by rw [le_div_iff₀ hφ]; linarith
  have hm2 : m ^ 2 ≤ m2 := by
    rcases hm with hm | hm
    · refine le_trans ?_ hm
      have : m ≤ 1 / R := by
        rw [hmd, div_le_div_iff₀ hp hR0]
        nlinarith
      calc m ^ 2 ≤ (1 / R) ^ 2 := by gcongr
        _ = 1 / R ^ 2 := by rw [div_pow, one_pow]
    · refine le_trans ?_ hm
      have : m ≤ b := by
        rw [hmd, div_le_iff₀ hp]; exact hmean
      gcongr
  have hV' : R ^ 2 / 12 ≤ 1 - truncW a b := by
    refine le_trans ?_ hV
    gcongr
  rw [hms] at hV' hlow
  rw [hmp, hsp]
  have hDm := mul_le_mul_of_nonneg_left hm2 hD0
  have hD1' : D < 1 := lt_of_le_of_lt hD1 (by norm_num)
  refine ⟨core_pos hp hD0 hD1' hN.1 hN.2 (by norm_num at hlow ⊢; linarith) (by linarith),
    core_lt hp hD0 hD1' hN.1 (V := 1 - (m ^ 2 + s)) (by ring) ?_⟩
  have := mul_le_mul_of_nonneg_left hV' (show 0 ≤ 1 - D by linarith)
  linarith

theorem one_sub_exp_neg {x : ℝ} (hx : 0 ≤ x) : x / (1 + x) ≤ 1 - exp (-x) := by
  have h := Real.add_one_le_exp x
  rw [Real.exp_neg]
  have : (exp x)⁻¹ ≤ (1 + x)⁻¹ := inv_anti₀ (by linarith) (by linarith)
  have e : x / (1 + x) = 1 - (1 + x)⁻¹ := by field_simp; ring
  linarith

theorem draw_side {T e : ℝ} (he : 0.01 * (1 + T) ≤ e) (hT : e ≤ T)
    (hn : ¬ halfFit (T - e) - halfFit (T + e) < tsTiny) :
    0 < ((normalPdf (T - e) - normalPdf (T + e)) / (halfFit (T - e) - halfFit (T + e))) ^ 2
      + ((T + e) * normalPdf (T + e) - (T - e) * normalPdf (T - e))
        / (halfFit (T - e) - halfFit (T + e)) ∧
    ((normalPdf (T - e) - normalPdf (T + e)) / (halfFit (T - e) - halfFit (T + e))) ^ 2
      + ((T + e) * normalPdf (T + e) - (T - e) * normalPdf (T - e))
        / (halfFit (T - e) - halfFit (T + e)) < 1 := by
  norm_num at he
  have hT0 : 0 < T := by linarith
  have he0 : 0 < e := by linarith
  have ha : 0 ≤ T - e := by linarith
  have hab : T - e < T + e := by linarith
  rcases le_total (2 * e * T) 1 with hx | hx
  · -- a narrow window
    have hmill := window_mills (a := T - e) (b := T + e) (L := 2 * e) ha (by linarith) (by linarith)
    rw [show T - e + 2 * e / 2 = T by ring] at hmill
    have hR : normalPdf (T - e) * e ≤ Phi (T + e) - Phi (T - e) := by
      refine le_trans (mul_le_mul_of_nonneg_left ?_ (pdf_pos' _).le) hmill
      have h1 := one_sub_exp_neg (x := T * (2 * e)) (by positivity)
      rw [le_div_iff₀ hT0]
      refine le_trans ?_ h1
      rw [le_div_iff₀ (by positivity)]
      nlinarith [mul_pos hT0 he0]
    have hb : T + e ≤ 101 * e - 1 := by linarith
    have hT1 : T ≤ 8 := by
      by_contra hc
      push Not at hc
      nlinarith
    refine side_core ha hab (D := 6.36e-6) (by norm_num) (by norm_num) (halfFit_all ha hab.le) he0 hR
      (m2 := (T + e) ^ 2) (Or.inr le_rfl) ?_ ?_
    · have h3 : (T + e + 1) ^ 2 ≤ (101 * e) ^ 2 := by
        have : 0 ≤ T + e + 1 := by linarith
        gcongr; linarith
      have h4 : 1 + (T + e) ^ 2 ≤ (101 * e) ^ 2 := by nlinarith
      have h5 : (0.01 : ℝ) ≤ e := by norm_num; linarith
      norm_num at h5 ⊢
      nlinarith
    · have : (T + e) ^ 2 ≤ 16 ^ 2 := by
        have : 0 ≤ T + e := by linarith
        gcongr; linarith
      norm_num at this ⊢
      linarith
  have hfar : T - e < 27.3 := by
    by_contra hc
    push Not at hc
    exact hn (halfFit_far hc hab.le)
  obtain ⟨a, had⟩ : ∃ a, a = T - e := ⟨_, rfl⟩
  rw [← had] at ha hab hfar ⊢
  have hea : a + 2 * e = T + e := by rw [had]; ring
  rcases le_total a 16 with h16 | h16
  · -- the part of the window where the density falls to a third
    obtain ⟨L, hLd⟩ : ∃ L, L = √(a ^ 2 + 2) - a := ⟨_, rfl⟩
    have hq := Real.sq_sqrt (show 0 ≤ a ^ 2 + 2 by positivity)
    have hqa : a < √(a ^ 2 + 2) := Real.lt_sqrt_of_sq_lt (by linarith)
    have hL0 : 0 < L := by rw [hLd]; linarith
    have hLA : (a + L / 2) * L = 1 := by rw [hLd]; linear_combination hq / 2
    have hLe : L ≤ 2 * e := by
      by_contra hc
      push Not at hc
      have h1 : T = a + e := by rw [had]; ring
      have : (a + e) * (2 * e) < (a + L / 2) * L := by
        apply mul_lt_mul'' <;> first | linarith | positivity
      rw [hLA, ← h1] at this
      linarith
    have hA0 : 0 < a + L / 2 := by linarith
    have hmill := window_mills (a := a) (b := T + e) (L := L) ha hL0 (by linarith)
    rw [hLA] at hmill
    have he1 : (0.632 : ℝ) ≤ 1 - exp (-1) := by
      have := Real.exp_neg_one_lt_d9
      norm_num at this ⊢; linarith
    have hR : ∀ A, a + L / 2 ≤ A → normalPdf a * (0.632 / A) ≤ Phi (T + e) - Phi a := fun A hA =>
      le_trans (mul_le_mul_of_nonneg_left (div_le_div₀ (by linarith [he1]) he1 hA0 hA) (pdf_pos' _).le)
        hmill
    rcases le_total a 5 with h5 | h5
    · have hA : a + L / 2 ≤ 5.8 := by
        have : √(a ^ 2 + 2) ≤ a + 1.5 := by
          rw [Real.sqrt_le_left (by linarith)]; nlinarith
        rw [hLd]; norm_num at this ⊢; linarith
      refine side_core ha hab (D := 6.36e-6) (by norm_num) (by norm_num) (halfFit_all ha hab.le)
        (by norm_num) (hR _ hA) (Or.inl le_rfl) ?_ ?_ <;> norm_num
    · have hA : a + L / 2 ≤ 16.1 := by
        have : √(a ^ 2 + 2) ≤ a + 0.2 := by
          rw [Real.sqrt_le_left (by linarith)]; norm_num; nlinarith
        rw [hLd]; norm_num at this ⊢; linarith
      refine side_core ha hab (D := 1.21e-7) (by norm_num) (by norm_num) (halfFit_tail h5 hab.le)
        (by norm_num) (hR _ hA) (Or.inl le_rfl) ?_ ?_ <;> norm_num
  · have he17 : 0.17 ≤ e := by norm_num; linarith
    have hmill := window_mills (a := a) (b := T + e) (L := 0.25) ha (by norm_num)
      (by norm_num at he17 ⊢; linarith)
    have he4 : (0.98 : ℝ) ≤ 1 - exp (-((a + 0.25 / 2) * 0.25)) := by
      have h1 : exp (-((a + 0.25 / 2) * 0.25)) ≤ exp (-4) := by
        apply Real.exp_le_exp.2; norm_num; linarith
      have h2 : exp (-4 : ℝ) = exp (-1) ^ 4 := by
        rw [← Real.exp_nat_mul]; norm_num
      have h3 : exp (-1 : ℝ) ^ 4 ≤ 0.368 ^ 4 := by
        have := Real.exp_neg_one_lt_d9
        gcongr
        norm_num at this ⊢; linarith
      rw [h2] at h1
      have h4 := h1.trans h3
      generalize exp (-((a + 0.25 / 2) * 0.25)) = q at h4 ⊢
      norm_num at h4 ⊢; linarith
    have hA : a + 0.25 / 2 ≤ 27.425 := by norm_num at hfar ⊢; linarith
    have hR : normalPdf a * (0.98 / 27.425) ≤ Phi (T + e) - Phi a :=
      le_trans (mul_le_mul_of_nonneg_left
        (div_le_div₀ (by linarith [he4]) he4 (by norm_num; linarith) hA) (pdf_pos' _).le) hmill
    refine side_core ha hab (D := 1.21e-7) (by norm_num) (by norm_num)
      (halfFit_tail (by linarith) hab.le) (by norm_num) hR (Or.inl le_rfl) ?_ ?_ <;> norm_num

/-! ### Windows around zero -/

theorem pdf_near_zero {y : ℝ} (h : |y| ≤ 0.02) : 0.3988 ≤ normalPdf y := by
  have h2 : √(2 * π) ≤ 2.5067 := by
    rw [Real.sqrt_le_left (by norm_num)]
    have := Real.pi_lt_d6
    norm_num at this ⊢; linarith
  have h0 : 0 < √(2 * π) := by positivity
  have hy : y ^ 2 ≤ 0.02 ^ 2 := by rw [← sq_abs]; gcongr
  have h1 := Real.add_one_le_exp (-y ^ 2 / 2)
  rw [normalPdf, le_div_iff₀ h0]
  norm_num at h2 hy ⊢
  linarith

theorem window_ge {a b : ℝ} (ha : a ≤ 0) (hb : 0 ≤ b) (h : 0.02 ≤ b - a) :
    0.007976 ≤ Phi b - Phi a := by
  have key : ∀ x y : ℝ, -0.02 ≤ x → y ≤ 0.02 → y - x = 0.02 → 0.007976 ≤ Phi y - Phi x := by
    intro x y hx hy hxy
    have hle : x ≤ y := by norm_num at hxy; linarith
    have k := le_of_deriv (f := fun z => Phi z - 0.3988 * z) (f' := fun z => normalPdf z - 0.3988 * 1)
      hle (fun z _ => (hasDerivAt_Phi z).sub ((hasDerivAt_id z).const_mul _))
      (fun z hz => by
        have := pdf_near_zero (y := z) (abs_le.2 ⟨by linarith [hz.1], by linarith [hz.2]⟩)
        linarith)
    norm_num at k hxy ⊢
    linarith
  rcases le_total 0.02 b with hb2 | hb2
  · have k := key 0 0.02 (by norm_num) le_rfl (by norm_num)
    have h1 := Phi_strictMono.monotone hb2
    have h2 := Phi_strictMono.monotone ha
    linarith
  · have k := key (b - 0.02) b (by linarith) hb2 (by ring)
    have h2 := Phi_strictMono.monotone (show a ≤ b - 0.02 by linarith)
    linarith

theorem draw_middle {T e : ℝ} (h0 : 0 ≤ T) (he : 0.01 ≤ e) (hT : T < e) {N : ℝ}
    (hN : N = 1 - halfFit (e - T) - halfFit (T + e)) :
    0 < ((normalPdf (T - e) - normalPdf (T + e)) / N) ^ 2
      + ((T + e) * normalPdf (T + e) - (T - e) * normalPdf (T - e)) / N ∧
    ((normalPdf (T - e) - normalPdf (T + e)) / N) ^ 2
      + ((T + e) * normalPdf (T + e) - (T - e) * normalPdf (T - e)) / N < 1 := by
  have hab : T - e < T + e := by norm_num at he; linarith
  have he0 : 0 < e := by linarith
  have hw := window_ge (a := T - e) (b := T + e) (by linarith) (by linarith)
    (by norm_num at he ⊢; linarith)
  have hV := truncVar_ge hab (M := 0.4) fun y _ => normalPdf_le y
  have h1 := (halfFit_all le_rfl (show 0 ≤ e - T by linarith)).1
  have h2 := (halfFit_all le_rfl (show 0 ≤ T + e by linarith)).1
  have h3 : halfFit 0 ≤ 1 / 2 + 1.55e-8 := by
    have := (abs_le.1 fit_start).2
    rw [erfcExact_zero] at this
    rw [halfFit, zero_div]
    norm_num at this ⊢; linarith
  have hneg : Phi (T - e) = 1 - Phi (e - T) := by rw [← Phi_neg]; congr 1; ring
  rw [Phi_zero] at h1 h2
  have hNp : (1 - 1.03e-5) * (Phi (T + e) - Phi (T - e)) ≤ N := by
    rw [hN]
    rw [hneg] at hw ⊢
    generalize Phi (T + e) = u at *
    generalize Phi (e - T) = v at *
    norm_num at *
    linarith
  have hp : 0 < Phi (T + e) - Phi (T - e) := sub_pos.2 (Phi_strictMono hab)
  have hN0 : 0 < N := lt_of_lt_of_le (mul_pos (by norm_num) hp) hNp
  have q1 := pdf_pos' (T + e)
  have q2 := pdf_pos' (T - e)
  have hq : 0 < (T + e) * normalPdf (T + e) - (T - e) * normalPdf (T - e) := by
    have : 0 < (T + e) * normalPdf (T + e) := mul_pos (by linarith) q1
    have : 0 ≤ (e - T) * normalPdf (T - e) := mul_nonneg (by linarith) q2.le
    linarith
  refine ⟨by have := div_pos hq hN0; positivity, ?_⟩
  set p := Phi (T + e) - Phi (T - e) with hpd
  obtain ⟨m, hmd⟩ : ∃ m, m = (normalPdf (T - e) - normalPdf (T + e)) / p := ⟨_, rfl⟩
  obtain ⟨s, hsd⟩ : ∃ s, s = ((T + e) * normalPdf (T + e) - (T - e) * normalPdf (T - e)) / p :=
    ⟨_, rfl⟩
  have hs0 : 0 < s := by rw [hsd]; exact div_pos hq hp
  have hmp : normalPdf (T - e) - normalPdf (T + e) = m * p := by rw [hmd]; field_simp
  have hsp : (T + e) * normalPdf (T + e) - (T - e) * normalPdf (T - e) = s * p := by
    rw [hsd]; field_simp
  have hms : truncW (T - e) (T + e) = m ^ 2 + s := by rw [truncW, ← hpd, hmd, hsd]
  rw [hms] at hV
  rw [hmp, hsp]
  refine core_lt hp (D := 1.03e-5) (by norm_num) (by norm_num) hNp (V := 1 - (m ^ 2 + s)) (by ring) ?_
  have hp2 : 0.007976 ^ 2 ≤ p ^ 2 := by gcongr
  have e4 : (p / 0.4) ^ 2 / 12 = p ^ 2 / 1.92 := by rw [div_pow]; norm_num; ring
  rw [e4] at hV
  generalize m ^ 2 = m2 at *
  norm_num at *
  linarith

/-- **The correction of the uncertainty after a draw** whose margin is at least one percent of the
total uncertainty and the difference together, in units of the total uncertainty. -/
theorem tsWDraw_unit {t e : ℝ} (he : 0.01 * (1 + |t|) ≤ e) :
    0 < tsWDraw t e ∧ (tsWDraw t e = 1 ∧ tsDrawNorm t e < tsTiny ∨ tsWDraw t e < 1) := by
  by_cases hn : tsDrawNorm t e < tsTiny
  · have : tsWDraw t e = 1 := by rw [tsWDraw, if_pos hn]
    rw [this]
    exact ⟨one_pos, Or.inl ⟨rfl, hn⟩⟩
  have ht := abs_nonneg t
  have he0 : 0.01 ≤ e := by norm_num at he ⊢; linarith
  have he1 : 0 < e := lt_of_lt_of_le (by norm_num) he0
  rw [tsWDraw_eq hn]
  rcases le_or_gt e |t| with h | h
  · have e1 := drawNorm_side he1 h
    rw [e1] at hn ⊢
    have := draw_side he h hn
    exact ⟨this.1, Or.inr this.2⟩
  · have e1 : tsDrawNorm t e = 1 - halfFit (e - |t|) - halfFit (|t| + e) := by
      rw [tsDrawNorm, ← normalCdf_halfFit (y := e - |t|) (by linarith),
        ← normalCdf_halfFit (y := |t| + e) (by linarith), normalCdf_neg (by linarith)]
      rw [show -e - |t| = -(|t| + e) by ring]
      ring
    have := draw_middle ht he0 h e1
    exact ⟨this.1, Or.inr this.2⟩

/-! ### Improbable draws -/

theorem drawNorm_rel {t e : ℝ} (he : 0 < e) (h : e ≤ |t|) :
    |tsDrawNorm t e - (Phi (e - t) - Phi (-e - t))| ≤ 6.36e-6 * (Phi (e - t) - Phi (-e - t)) := by
  rw [drawNorm_side he h, ← Phi_gap_symm]
  have e1 : Phi (e - |t|) = 1 - Phi (|t| - e) := by rw [← Phi_neg]; congr 1; ring
  have e2 : Phi (-e - |t|) = 1 - Phi (|t| + e) := by rw [← Phi_neg]; congr 1; ring
  have k := halfFit_all (a := |t| - e) (b := |t| + e) (by linarith) (by linarith)
  rw [e1, e2, abs_le]
  constructor <;> linarith [k.1, k.2]

theorem inv_rel {D d : ℝ} (hd : 3e-162 ≤ d) (h : |D - d| ≤ 6.36e-6 * d) (x : ℝ) :
    ¬ D < tsTiny ∧ |x / D - x / d| ≤ 6.5e-6 * |x / d| := by
  obtain ⟨h1, h2⟩ := abs_le.1 h
  have hd0 : 0 < d := lt_of_lt_of_le (by norm_num) hd
  have hD : 0.99 * d ≤ D := by norm_num at h1 ⊢; linarith
  have hD0 : 0 < D := lt_of_lt_of_le (by positivity) hD
  refine ⟨?_, ?_⟩
  · rw [tsTiny, not_lt]
    refine le_trans ?_ ((mul_le_mul_of_nonneg_left hd (by norm_num)).trans hD)
    norm_num
  · have e : x / D - x / d = (d - D) / D * (x / d) := by field_simp
    rw [e, abs_mul]
    refine mul_le_mul_of_nonneg_right ?_ (abs_nonneg _)
    rw [abs_div, abs_of_pos hD0, abs_sub_comm, div_le_iff₀ hD0]
    refine h.trans ?_
    norm_num at hD ⊢
    linarith

/-- The computed mean correction of a draw whose window is on one side of zero. -/
theorem tsVDraw_rel {t e : ℝ} (he : 0 < e) (hte : e ≤ |t|)
    (h : 3e-162 ≤ Phi (e - t) - Phi (-e - t)) :
    |tsVDraw t e - (normalPdf (-e - t) - normalPdf (e - t)) / (Phi (e - t) - Phi (-e - t))|
      ≤ 6.5e-6 * |(normalPdf (-e - t) - normalPdf (e - t)) / (Phi (e - t) - Phi (-e - t))| := by
  obtain ⟨h1, h2⟩ := inv_rel h (drawNorm_rel he hte) (normalPdf (-e - t) - normalPdf (e - t))
  rwa [tsVDraw, if_neg h1, draw_num]

theorem tsWDraw_rel {t e : ℝ} (he : 0 < e) (hte : e ≤ |t|)
    (h : 3e-162 ≤ Phi (e - t) - Phi (-e - t)) :
    |tsWDraw t e - (((normalPdf (-e - t) - normalPdf (e - t)) / (Phi (e - t) - Phi (-e - t))) ^ 2
        + ((e - t) * normalPdf (e - t) - (-e - t) * normalPdf (-e - t))
          / (Phi (e - t) - Phi (-e - t)))|
      ≤ 6.5e-6 * (1 + 5 * (|t| + e) ^ 2) := by
  have hV := tsVDraw_rel he hte h
  obtain ⟨h1, h2⟩ := inv_rel h (drawNorm_rel he hte)
    ((e - t) * normalPdf (e - t) - (-e - t) * normalPdf (-e - t))
  rw [tsWDraw, if_neg h1, draw_sq]
  have hm := draw_mean_le (t := t) he
  have hs := draw_sq_bounds (t := t) he
  set d := Phi (e - t) - Phi (-e - t)
  set v := (normalPdf (-e - t) - normalPdf (e - t)) / d
  set q := ((e - t) * normalPdf (e - t) - (-e - t) * normalPdf (-e - t))
  set A := |t| + e
  set V := tsVDraw t e
  have hd0 : 0 < d := lt_of_lt_of_le (by norm_num) h
  have hr0 : (0 : ℝ) < 6.5e-6 := by norm_num
  have hr1 : (6.5e-6 : ℝ) ≤ 0.07 := by norm_num
  generalize (6.5e-6 : ℝ) = r at *
  have hA : 0 ≤ A := (abs_nonneg v).trans hm
  have b1 : |V - v| ≤ r * A := hV.trans (mul_le_mul_of_nonneg_left hm hr0.le)
  have b2 : |V + v| ≤ 2.07 * A := by
    have e1 : V + v = (V - v) + 2 * v := by ring
    rw [e1]
    refine (abs_add_le _ _).trans ?_
    rw [abs_mul, abs_two]
    have : r * A ≤ 0.07 * A := mul_le_mul_of_nonneg_right hr1 hA
    norm_num at this ⊢
    linarith
  have e1 : V ^ 2 + q / tsDrawNorm t e - (v ^ 2 + q / d)
      = (V - v) * (V + v) + (q / tsDrawNorm t e - q / d) := by ring
  rw [e1]
  refine (abs_add_le _ _).trans ?_
  rw [abs_mul]
  have b3 : |V - v| * |V + v| ≤ r * A * (2.07 * A) :=
    mul_le_mul b1 b2 (abs_nonneg _) (by positivity)
  have b4 : |q / tsDrawNorm t e - q / d| ≤ r * (1 + 2 * A ^ 2) :=
    h2.trans (mul_le_mul_of_nonneg_left hs hr0.le)
  have b5 : 0 ≤ r * A ^ 2 := by positivity
  norm_num at b3 ⊢
  nlinarith

section
variable {Ω ι : Type*} [MeasurableSpace Ω] [Fintype ι] {P : Measure Ω} [IsProbabilityMeasure P]
  {X N : ι → Ω → ℝ} {μ v : ι → ℝ} {b : ℝ}

/-- The update of player `j` after a drawn game whose window is on one side of zero. -/
theorem drawn_rel (h : IsContest P X N μ v b) (hv : ∀ i, 0 ≤ v i) (k : ι → ℝ)
    {c : ℝ} (hc : 0 < c) (hc2 : c ^ 2 = ∑ i, k i ^ 2 * (v i + b ^ 2)) {ε : ℝ}
    (hp : 3e-162 ≤ P.real (happened .DRAW ε (lead k X N))) (hd : ε ≤ |∑ i, k i * μ i|) {j : ι} {s τ : ℝ}
    (hj : v j = s + τ ^ 2) :
    |tsRating (μ j) s τ c (k j * corrV .DRAW ((∑ i, k i * μ i) / c) (ε / c))
        - ∫ ω, X j ω ∂P[|happened .DRAW ε (lead k X N)]|
      ≤ 6.5e-6 *
        |∫ ω, X j ω ∂P[|happened .DRAW ε (lead k X N)] - μ j| ∧
    |√((s + τ ^ 2) * (1 - corrW .DRAW ((∑ i, k i * μ i) / c) (ε / c)
          * (k j ^ 2 * (s + τ ^ 2) / c ^ 2))) ^ 2
        - Var[X j; P[|happened .DRAW ε (lead k X N)]]|
      ≤ 6.5e-6 *
        (1 + 5 * ((|∑ i, k i * μ i| + ε) / c) ^ 2) * (s + τ ^ 2) := by
  have hε : 0 < ε := draw_margin_pos h hv k hc hc2 (lt_of_lt_of_le (by norm_num) hp)
  obtain ⟨hP, hpost⟩ := h.posterior_draw hv k hc hc2 hε rfl rfl
  obtain ⟨hE, hVar⟩ := hpost j
  simp only [happened]
  simp only [happened] at hp
  rw [hP] at hp
  have he : 0 < ε / c := by positivity
  have hte : ε / c ≤ |(∑ i, k i * μ i) / c| := by rw [abs_div, abs_of_pos hc]; gcongr
  have hV := tsVDraw_rel he hte hp
  have hW := tsWDraw_rel he hte hp
  rw [hj] at hE hVar
  refine ⟨rating_near hE hV, ?_⟩
  refine (sqrt_near hc (hj ▸ hv j) (hj ▸ weight_le hv k hc2 j) hVar (variance_nonneg _ _) hW).trans (le_of_eq ?_)
  rw [abs_div, abs_of_pos hc, ← add_div]

end

end Skillratings.TrueSkill
