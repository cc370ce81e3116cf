import Verif.Proofs.BayesAccuracy
/-
The variance of a standard normal variable that is known to lie in an interval: not too small, and
at most 0.51 if the interval does not contain zero in its interior.  Consequences for the crate's
correction of the uncertainty after a draw.
-/
namespace Skillratings.TrueSkill
open Real Spec MeasureTheory

/-- One minus the variance of a standard normal variable known to lie in `[a, b]`. -/
noncomputable def truncW (a b : ℝ) : ℝ :=
  ((normalPdf a - normalPdf b) / (Phi b - Phi a)) ^ 2
    + (b * normalPdf b - a * normalPdf a) / (Phi b - Phi a)

theorem truncW_symm (a b : ℝ) : truncW (-b) (-a) = truncW a b := by
  simp only [truncW, normalPdf_neg, Phi_neg]
  rw [show 1 - Phi a - (1 - Phi b) = Phi b - Phi a by ring]
  congr 1
  · rw [div_pow, div_pow]; congr 1; ring
  · congr 1; ring

theorem normalPdf_le (x : ℝ) : normalPdf x ≤ 0.4 := by
  have h : (2.5 : ℝ) ≤ √(2 * π) := by
    apply Real.le_sqrt_of_sq_le
    have := Real.pi_gt_d2
    norm_num at this ⊢; linarith
  have h1 : exp (-x ^ 2 / 2) ≤ 1 := Real.exp_le_one_iff.2 (by nlinarith [sq_nonneg x])
  rw [normalPdf, div_le_iff₀ (by linarith)]
  norm_num at h ⊢; linarith

theorem integral_pdf {a b : ℝ} (h : a ≤ b) : ∫ y in Set.Icc a b, normalPdf y = Phi b - Phi a := by
  rw [integral_Icc_eq_integral_Ioc, ← intervalIntegral.integral_of_le h, Phi_sub]

theorem integrable_poly_pdf {f : ℝ → ℝ} (hf : Continuous f) (a b : ℝ) :
    IntegrableOn (fun y => f y * normalPdf y) (Set.Icc a b) :=
  (hf.mul continuous_normalPdf).continuousOn.integrableOn_compact isCompact_Icc

theorem integral_shift_sq {a b : ℝ} (h : a ≤ b) (m : ℝ) :
    ∫ y in Set.Icc a b, (y - m) ^ 2 * normalPdf y
      = (Phi b - Phi a + a * normalPdf a - b * normalPdf b) - 2 * m * (normalPdf a - normalPdf b)
        + m ^ 2 * (Phi b - Phi a) := by
  have e : ∀ y : ℝ, (y - m) ^ 2 * normalPdf y
      = (y ^ 2 * normalPdf y - 2 * m * (y * normalPdf y)) + m ^ 2 * normalPdf y := fun y => by ring
  simp only [e]
  have i1 : IntegrableOn (fun y => y ^ 2 * normalPdf y) (Set.Icc a b) :=
    integrable_poly_pdf (by fun_prop) a b
  have i2 : IntegrableOn (fun y => 2 * m * (y * normalPdf y)) (Set.Icc a b) :=
    (integrable_poly_pdf (f := fun y => y) (by fun_prop) a b).const_mul (2 * m)
  have i3 : IntegrableOn (fun y => m ^ 2 * normalPdf y) (Set.Icc a b) :=
    integrable_poly_pdf (by fun_prop) a b
  have i12 : IntegrableOn (fun y => y ^ 2 * normalPdf y - 2 * m * (y * normalPdf y)) (Set.Icc a b) :=
    i1.sub i2
  rw [integral_add i12 i3, integral_sub i1 i2, integral_const_mul, integral_const_mul,
    integral_Icc_sq h, integral_Icc_id h, integral_pdf h]

/-- The variance of a normal variable known to lie in an event of probability `p` is at least
`0.23 p²`. -/
theorem truncW_le {a b : ℝ} (h : a < b) : truncW a b ≤ 1 - 0.23 * (Phi b - Phi a) ^ 2 := by
  have hp : 0 < Phi b - Phi a := sub_pos.2 (Phi_strictMono h)
  set p := Phi b - Phi a with hpd
  set m := (normalPdf a - normalPdf b) / p with hm
  have hmp : m * p = normalPdf a - normalPdf b := div_mul_cancel₀ _ hp.ne'
  obtain ⟨k, hk⟩ : ∃ k, k = 5 / 6 * p := ⟨_, rfl⟩
  have hk0 : 0 < k := by rw [hk]; positivity
  have e1 := integral_shift_sq h.le m
  have i1 : IntegrableOn (fun y => (y - m) ^ 2 * normalPdf y) (Set.Icc a b) :=
    integrable_poly_pdf (by fun_prop) a b
  have i2 := integrable_poly_pdf (continuous_const (y := k ^ 2)) a b
  have i3 : IntegrableOn ((Set.Ioo (m - k) (m + k)).indicator fun _ => 0.4 * k ^ 2) (Set.Icc a b) :=
    (integrableOn_const (by simp)).indicator measurableSet_Ioo
  have hle : ∫ y in Set.Icc a b, (k ^ 2 * normalPdf y
      - (Set.Ioo (m - k) (m + k)).indicator (fun _ => 0.4 * k ^ 2) y)
      ≤ ∫ y in Set.Icc a b, (y - m) ^ 2 * normalPdf y := by
    refine setIntegral_mono (i2.sub i3) i1 fun y => ?_
    have h1 := normalPdf_le y
    have h2 := pdf_pos' y
    by_cases hy : y ∈ Set.Ioo (m - k) (m + k)
    · simp only [Set.indicator_of_mem hy]
      have : 0 ≤ (y - m) ^ 2 * normalPdf y := by positivity
      have : k ^ 2 * normalPdf y ≤ k ^ 2 * 0.4 := by gcongr
      linarith
    · simp only [Set.indicator_of_notMem hy, sub_zero]
      gcongr 1
      rw [Set.mem_Ioo, not_and_or, not_lt, not_lt] at hy
      rcases hy with hy | hy <;> nlinarith
  rw [integral_sub i2 i3, integral_const_mul, integral_pdf h.le, setIntegral_indicator measurableSet_Ioo,
    setIntegral_const, smul_eq_mul] at hle
  have hv : volume.real (Set.Icc a b ∩ Set.Ioo (m - k) (m + k)) ≤ 2 * k := by
    refine (measureReal_mono Set.inter_subset_right (by simp)).trans ?_
    rw [Real.volume_real_Ioo_of_le (by linarith)]
    linarith
  have hv2 := mul_le_mul_of_nonneg_right hv (show 0 ≤ 0.4 * k ^ 2 by positivity)
  rw [e1, ← hpd] at hle
  have key : k ^ 2 * (p - 0.8 * k) ≤ p * (1 - truncW a b) := by
    have e : p * (1 - truncW a b) = (p + a * normalPdf a - b * normalPdf b)
        - 2 * m * (normalPdf a - normalPdf b) + m ^ 2 * p := by
      rw [truncW, ← hpd, ← hm, ← hmp]
      field_simp
      ring
    rw [e]
    nlinarith
  rw [hk] at key
  have : p * (0.23 * p ^ 2) ≤ p * (1 - truncW a b) := by nlinarith [pow_pos hp 3]
  have := le_of_mul_le_mul_left this hp
  linarith

theorem integral_by_parts {a b : ℝ} (h : a ≤ b) :
    ∫ y in Set.Icc a b, (y - a) ^ 2 * y * normalPdf y
      = 2 * ((normalPdf a - normalPdf b) - a * (Phi b - Phi a)) - (b - a) ^ 2 * normalPdf b := by
  have hc : Continuous fun y => (y - a) ^ 2 * y * normalPdf y :=
    (((continuous_id.sub continuous_const).pow 2).mul continuous_id).mul continuous_normalPdf
  rw [integral_Icc_eq_integral_Ioc, ← intervalIntegral.integral_of_le h,
    intervalIntegral.integral_eq_sub_of_hasDerivAt
      (f := fun y => -((y - a) ^ 2 * normalPdf y) + 2 * (-normalPdf y - a * Phi y))
      (fun y _ => ?_) (hc.intervalIntegrable _ _)]
  · ring
  · have h1 := (((hasDerivAt_id y).sub_const a).pow 2).mul (hasDerivAt_normalPdf y)
    have h2 := ((hasDerivAt_normalPdf y).neg.sub ((hasDerivAt_Phi y).const_mul a)).const_mul 2
    refine (h1.neg.add h2).congr_deriv ?_
    simp only [id, Pi.pow_apply]
    push_cast
    ring

/-- On one side of zero the variance is at most 0.51. -/
theorem truncW_ge {a b : ℝ} (ha : 0 ≤ a) (h : a < b) : 0.49 ≤ truncW a b := by
  have hp : 0 < Phi b - Phi a := sub_pos.2 (Phi_strictMono h)
  have hb := pdf_pos' b
  have e2 := integral_shift_sq h.le a
  have e3 := integral_by_parts h.le
  set p := Phi b - Phi a with hpd
  obtain ⟨d, hd⟩ : ∃ d, d = (normalPdf a - normalPdf b) / p - a := ⟨_, rfl⟩
  have hdp : normalPdf a - normalPdf b = (d + a) * p := by
    rw [hd, sub_add_cancel, div_mul_cancel₀ _ hp.ne']
  have i1 : IntegrableOn (fun y => (y - a) * normalPdf y) (Set.Icc a b) :=
    integrable_poly_pdf (by fun_prop) a b
  have i2 : IntegrableOn (fun y => (y - a) ^ 2 * normalPdf y) (Set.Icc a b) :=
    integrable_poly_pdf (by fun_prop) a b
  have i3 : IntegrableOn (fun y => (y - a) ^ 2 * y * normalPdf y) (Set.Icc a b) :=
    integrable_poly_pdf (f := fun y => (y - a) ^ 2 * y) (by fun_prop) a b
  have e1 : ∫ y in Set.Icc a b, (y - a) * normalPdf y = d * p := by
    have i4 := integrable_poly_pdf continuous_id a b
    simp only [id] at i4
    have : ∀ y : ℝ, (y - a) * normalPdf y = y * normalPdf y - a * normalPdf y := fun y => by ring
    simp only [this]
    rw [integral_sub i4 (integrable_poly_pdf continuous_const a b), integral_const_mul,
      integral_Icc_id h.le, integral_pdf h.le, hdp]
    ring
  set I2 := ∫ y in Set.Icc a b, (y - a) ^ 2 * normalPdf y with hI2
  have hd0 : 0 ≤ d := by
    have : 0 ≤ d * p := by
      rw [← e1]
      refine setIntegral_nonneg measurableSet_Icc fun y hy => ?_
      exact mul_nonneg (by linarith [hy.1]) (pdf_pos' y).le
    exact nonneg_of_mul_nonneg_left this hp
  have hI0 : 0 ≤ I2 := setIntegral_nonneg measurableSet_Icc fun y hy =>
    mul_nonneg (sq_nonneg _) (pdf_pos' y).le
  -- the second moment from the third
  have k1 : 0 ≤ 9 / 4 * (d * p) - 3 * I2 + (2 * (d * p) - (b - a) ^ 2 * normalPdf b) := by
    have e4 : (2 * ((normalPdf a - normalPdf b) - a * p) - (b - a) ^ 2 * normalPdf b)
        = 2 * (d * p) - (b - a) ^ 2 * normalPdf b := by rw [hdp]; ring
    rw [e4] at e3
    have i4 : IntegrableOn (fun y => 9 / 4 * ((y - a) * normalPdf y)
        - 3 * ((y - a) ^ 2 * normalPdf y)) (Set.Icc a b) := (i1.const_mul _).sub (i2.const_mul _)
    rw [← e3, ← e1, ← integral_const_mul, hI2, ← integral_const_mul,
      ← integral_sub (i1.const_mul _) (i2.const_mul _), ← integral_add i4 i3]
    refine setIntegral_nonneg measurableSet_Icc fun y hy => ?_
    have hy' : 0 ≤ y - a := by linarith [hy.1]
    have e5 : 9 / 4 * ((y - a) * normalPdf y) - 3 * ((y - a) ^ 2 * normalPdf y)
        + (y - a) ^ 2 * y * normalPdf y
        = ((y - a) * (3 / 2 - (y - a)) ^ 2 + a * (y - a) ^ 2) * normalPdf y := by ring
    rw [e5]
    have := (pdf_pos' y).le
    positivity
  have k2 : I2 ≤ p := by
    rw [e2]
    have : 0 ≤ (b - a) * normalPdf b := mul_nonneg (by linarith) hb.le
    have : 0 ≤ a * (d * p) := mul_nonneg ha (mul_nonneg hd0 hp.le)
    nlinarith
  have k3 : I2 ≤ 17 / 12 * (d * p) := by
    have : 0 ≤ (b - a) ^ 2 * normalPdf b := mul_nonneg (sq_nonneg _) hb.le
    linarith
  have e : p * (1 - truncW a b) = I2 - d ^ 2 * p := by
    rw [truncW, ← hpd, e2]
    have : (normalPdf a - normalPdf b) / p = d + a := by rw [hd]; ring
    rw [this, hdp]
    field_simp
    ring
  have : p * (1 - truncW a b) ≤ p * 0.51 := by
    rw [e]
    rcases le_total d 0.7 with h7 | h7
    · nlinarith [mul_nonneg hp.le (mul_nonneg (sub_nonneg.2 h7) hd0), mul_nonneg hp.le (sub_nonneg.2 h7)]
    · have : 0.49 ≤ d ^ 2 := by norm_num at h7 ⊢; nlinarith
      nlinarith
  have := le_of_mul_le_mul_left this hp
  linarith

/-- The crate's correction of the uncertainty after a draw that is not too improbable. -/
theorem tsWDraw_mem {t e : ℝ} (he : 0 < e)
    (h : 7e-7 * (1 + 5 * (|t| + e) ^ 2) < 0.23 * (Phi (e - t) - Phi (-e - t)) ^ 3) :
    0 < tsWDraw t e ∧ tsWDraw t e < 1 := by
  have hab : -e - t < e - t := by linarith
  have hp0 : 0 < Phi (e - t) - Phi (-e - t) := sub_pos.2 (Phi_strictMono hab)
  have hp1 : Phi (e - t) - Phi (-e - t) ≤ 1 := by
    have := Phi_le_one (e - t); have := Phi_nonneg (-e - t); linarith
  have hup := truncW_le hab
  set p := Phi (e - t) - Phi (-e - t) with hpd
  have hp : 1e-5 ≤ p := by
    by_contra hc
    push Not at hc
    have : p ^ 3 ≤ 1e-5 ^ 3 := by gcongr
    have : 0 ≤ (|t| + e) ^ 2 := sq_nonneg _
    norm_num at *; nlinarith
  have hW := tsWDraw_near he hp
  rw [← hpd] at hW
  have eW : ((normalPdf (-e - t) - normalPdf (e - t)) / p) ^ 2
        + ((e - t) * normalPdf (e - t) - (-e - t) * normalPdf (-e - t)) / p = truncW (-e - t) (e - t) := by
    rw [truncW, hpd]
  rw [eW] at hW
  have hB : 7e-7 / p * (1 + 5 * (|t| + e) ^ 2) < 0.23 * p ^ 2 := by
    rw [div_mul_eq_mul_div, div_lt_iff₀ hp0]
    calc _ < _ := h
      _ = _ := by ring
  obtain ⟨w1, w2⟩ := abs_le.1 hW
  refine ⟨?_, by linarith⟩
  have hp2 : p ^ 2 ≤ 1 := pow_le_one₀ hp0.le hp1
  rcases le_or_gt |t| e with hte | hte
  · have hn : ¬ tsDrawNorm t e < tsTiny := (inv_near hp (drawNorm_near t e) 0).1
    have hn0 : 0 < tsDrawNorm t e := by
      have := (abs_le.1 (drawNorm_near t e)).1
      rw [← hpd] at this
      norm_num at this hp; linarith
    rw [tsWDraw, if_neg hn]
    have h1 := pdf_pos' (e - |t|)
    have h2 := pdf_pos' (-e - |t|)
    have h3 : 0 < (e - |t|) * normalPdf (e - |t|) - (-e - |t|) * normalPdf (-e - |t|) := by
      have : 0 ≤ (e - |t|) * normalPdf (e - |t|) := mul_nonneg (by linarith) h1.le
      have : 0 < (e + |t|) * normalPdf (-e - |t|) := mul_pos (by linarith [abs_nonneg t]) h2
      linarith
    have := div_pos h3 hn0
    positivity
  · have hlow : 0.49 ≤ truncW (-e - t) (e - t) := by
      rcases lt_abs.1 hte with h1 | h1
      · rw [← truncW_symm]
        exact truncW_ge (by linarith) (by linarith)
      · exact truncW_ge (by linarith) hab
    linarith

end Skillratings.TrueSkill
