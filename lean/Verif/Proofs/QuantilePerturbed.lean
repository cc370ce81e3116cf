import Verif.Proofs.QuantileAccuracy
/-
The inverse of the complementary error function with perturbed steps.
-/
namespace Skillratings.TrueSkill
open Real Spec Set

theorem slope_close {u v h : ℝ} (hu : |u| ≤ 6.5) (hv : |v| ≤ 6.5) (h1 : |u - v| ≤ h) :
    slope u ≤ exp (13 * h) * slope v := by
  have h3 : 0 < √π := Real.sqrt_pos.2 Real.pi_pos
  rw [slope, slope, mul_left_comm, ← Real.exp_add]
  have : -u ^ 2 ≤ 13 * h + -v ^ 2 := by
    have e : v ^ 2 - u ^ 2 = (v - u) * (u + v) := by ring
    have h2 : |v ^ 2 - u ^ 2| ≤ h * 13 := by
      rw [e, abs_mul, abs_sub_comm]
      refine mul_le_mul h1 ((abs_add_le _ _).trans ?_) (abs_nonneg _) ((abs_nonneg _).trans h1)
      norm_num at hu hv ⊢; linarith
    linarith [le_abs_self (v ^ 2 - u ^ 2)]
  gcongr

theorem erfc_close {x z h : ℝ} (hx : |x| ≤ 6.5) (hz : |z| ≤ 6.5) (h1 : |x - z| ≤ h) :
    |erfcExact x - erfcExact z| ≤ exp (13 * h) * slope z * |x - z| := by
  have hb : ∀ u ∈ uIcc z x, ‖-slope u‖ ≤ exp (13 * h) * slope z := by
    intro u hu
    rw [norm_neg, Real.norm_eq_abs, abs_of_pos (slope_pos u)]
    have h2 := abs_sub_left_of_mem_uIcc hu
    have h3 := uIcc_subset_Icc (abs_le.1 hz : z ∈ Icc (-6.5 : ℝ) 6.5) (abs_le.1 hx) hu
    exact slope_close (abs_le.2 h3) hz (h2.trans h1)
  have := (convex_uIcc z x).norm_image_sub_le_of_norm_hasDerivWithin_le
    (fun u _ => (hasDerivAt_erfcExact u).hasDerivWithinAt) hb left_mem_uIcc right_mem_uIcc
  simpa [Real.norm_eq_abs] using this

theorem slope_zero_le : slope 0 ≤ 1.13 := by
  rw [slope]
  have h3 : (1.7715 : ℝ) ≤ √π := by
    refine Real.le_sqrt_of_sq_le ?_
    have := Real.pi_gt_d4
    norm_num at this ⊢; linarith
  have : 2 / √π ≤ 1.13 := by
    rw [div_le_iff₀ (by linarith)]; norm_num at h3 ⊢; linarith
  simpa using this

theorem exp_near_zero : exp (13 * 0.02 : ℝ) ≤ 1.36 := by
  have := Real.exp_bound_div_one_sub_of_interval (x := 13 * 0.02) (by norm_num) (by norm_num)
  refine this.trans ?_
  norm_num

theorem erfc_le_near {x : ℝ} (hx : -0.02 ≤ x) : erfcExact x ≤ 1.04 := by
  rcases le_or_gt 0 x with h | h
  · have := erfcExact_strictAnti.antitone h
    rw [erfcExact_zero] at this
    norm_num; linarith
  · have hx' : |x| ≤ 0.02 := by rw [abs_of_neg h]; linarith
    have h1 := erfc_close (x := x) (z := 0) (h := 0.02) (hx'.trans (by norm_num)) (by norm_num) (by simpa using hx')
    rw [erfcExact_zero, sub_zero] at h1
    have h2 : exp (13 * 0.02) * slope 0 * |x| ≤ 1.36 * 1.13 * 0.02 := by
      have := slope_zero_le
      have := exp_near_zero
      have := (slope_pos 0).le
      gcongr
    have h3 := (abs_le.1 (h1.trans h2)).2
    norm_num at h3 ⊢; linarith

theorem tail_near {x : ℝ} (hx : -0.02 ≤ x) : erfcExact x / slope x ≤ 1.3 := by
  rcases le_or_gt 0 x with h | h
  · refine (tail_le h).trans (by norm_num)
  · have hx' : |x| ≤ 0.02 := by rw [abs_of_neg h]; linarith
    have h1 := slope_close (u := 0) (v := x) (h := 0.02) (by norm_num) (hx'.trans (by norm_num)) (by simpa using hx')
    have h2 := erfc_le_near hx
    have h3 : 1.128 ≤ slope 0 := by
      have := two_div_sqrt_pi
      rw [slope]; norm_num at this ⊢; linarith
    have h4 := mul_le_mul_of_nonneg_right exp_near_zero (slope_pos x).le
    rw [div_le_iff₀ (slope_pos x)]
    norm_num at h1 h2 h3 h4 ⊢; linarith

/-- A step with a perturbed error, near the exact value. -/
theorem step_real {x z y w h : ℝ} (hz : erfcExact z = y) (hz0 : 0 ≤ z) (hz6 : z ≤ 6.38) (hy : 1 / 2 ^ 21 ≤ y)
    (hd : |z - x| ≤ h) (hh : h ≤ 0.0101) (hw : |w - (erfcExact x - y)| ≤ 6.01e-7 * erfcExact x + 5e-16) :
    |z - (x + w / (slope x - x * w))|
        ≤ (207 * h ^ 3 + 6.01e-7 * (erfcExact x / slope x) + 1.1e-9) * (1 + 6.4 * h) ^ 2 / 0.99 ∧
      0.9 * slope x ≤ slope x - x * w ∧ |w| ≤ 0.012 * slope x ∧ 4.6e-7 ≤ slope x ∧ |x| ≤ 6.4 ∧ -0.02 ≤ x ∧
      erfcExact x / slope x ≤ 1.3 := by
  have h0 : 0 ≤ h := (abs_nonneg _).trans hd
  have hd' := abs_le.1 hd
  have hx : |x| ≤ 6.4 := by rw [abs_le]; constructor <;> norm_num at hz6 hh ⊢ <;> linarith [hd'.1, hd'.2]
  have hx2 : -0.02 ≤ x := by norm_num at hh ⊢; linarith [hd'.2]
  have hm := tail_near hx2
  have hs := slope_pos x
  have hsx : 4.6e-7 ≤ slope x := by
    have h1 := slope_close (u := z) (v := x) (h := 0.0101) (by rw [abs_of_nonneg hz0]; norm_num at hz6 ⊢; linarith)
      (hx.trans (by norm_num)) (hd.trans hh)
    have h2 := tail_le hz0
    rw [div_le_iff₀ (slope_pos z), hz] at h2
    have h3 : exp (13 * 0.0101 : ℝ) ≤ 1.152 := by
      have := Real.exp_bound_div_one_sub_of_interval (x := 13 * 0.0101) (by norm_num) (by norm_num)
      refine this.trans ?_
      norm_num
    have h4 := mul_le_mul_of_nonneg_right h3 hs.le
    norm_num at hy h1 h2 h4 ⊢; linarith
  set m := erfcExact x / slope x with hmd
  have hm0 : 0 < m := div_pos (erfcExact_pos x) hs
  have hxd : |x * (z - x)| ≤ 6.4 * h := by
    rw [abs_mul]; exact mul_le_mul hx hd (abs_nonneg _) (by norm_num)
  have hκ : 1.25 * (1 + 4 * x ^ 2) * |z - x| ^ 3 + |w - (erfcExact x - y)| / slope x
      ≤ 207 * h ^ 3 + 6.01e-7 * m + 1.1e-9 := by
    have hx3 : x ^ 2 ≤ 6.4 ^ 2 := by rw [← sq_abs]; exact pow_le_pow_left₀ (abs_nonneg _) hx 2
    have k1 : 1.25 * (1 + 4 * x ^ 2) * |z - x| ^ 3 ≤ 1.25 * (1 + 4 * 6.4 ^ 2) * h ^ 3 := by gcongr
    have k2 : |w - (erfcExact x - y)| / slope x ≤ 6.01e-7 * m + 1.1e-9 := by
      rw [div_le_iff₀ hs, add_mul, mul_assoc, hmd, div_mul_cancel₀ _ hs.ne']
      refine hw.trans (add_le_add le_rfl ?_)
      norm_num at hsx ⊢; linarith
    have h3 : 0 ≤ h ^ 3 := by positivity
    norm_num at k1 k2 ⊢; linarith
  have hh3 : h ^ 3 ≤ 0.0101 ^ 3 := pow_le_pow_left₀ h0 hh 3
  have hκ1 : 207 * h ^ 3 + 6.01e-7 * m + 1.1e-9 ≤ 2.2e-4 := by norm_num at hh3 hm ⊢; linarith
  set κ := 207 * h ^ 3 + 6.01e-7 * m + 1.1e-9 with hκd
  have hκ0 : 0 ≤ κ := by positivity
  obtain ⟨r1, r2, r3⟩ := halley_perturbed hz (hxd.trans (by norm_num at hh ⊢; linarith)) hκ (by
    have := mul_le_mul hx hκ1 hκ0 (by norm_num)
    norm_num at this ⊢; linarith)
  refine ⟨r1.trans ?_, r2, r3.trans (mul_le_mul_of_nonneg_right ?_ hs.le), hsx, hx, hx2, hm⟩
  · gcongr
  · have := div_le_div_of_nonneg_right (hd.trans hh) (by norm_num : (0 : ℝ) ≤ 0.9)
    norm_num at this hκ1 ⊢; linarith

/-- Two perturbed steps from a perturbed guess. -/
theorem two_steps {y z x₀ x₁ x₂ w₀ w₁ : ℝ} (hz : erfcExact z = y) (hz0 : 0 ≤ z) (hz6 : z ≤ 6.38)
    (hy : 1 / 2 ^ 21 ≤ y) (hy1 : y ≤ 1)
    (d0 : |z - x₀| ≤ 0.0101) (hw0 : |w₀ - (erfcExact x₀ - y)| ≤ 6.01e-7 * erfcExact x₀ + 5e-16)
    (e1 : |x₁ - (x₀ + w₀ / (slope x₀ - x₀ * w₀))| ≤ 1 / 2 ^ 40) :
    |z - x₁| ≤ 2.5e-4 ∧
    (|w₁ - (erfcExact x₁ - y)| ≤ 6.01e-7 * erfcExact x₁ + 5e-16 →
      |x₂ - (x₁ + w₁ / (slope x₁ - x₁ * w₁))| ≤ 1 / 2 ^ 40 →
      |z - x₂| ≤ 1e-6 ∧ |erfcExact x₂ - y| ≤ 6.9e-7 * y) := by
  obtain ⟨a1, -, -, -, -, -, a7⟩ := step_real hz hz0 hz6 hy d0 le_rfl hw0
  have d1 : |z - x₁| ≤ 2.5e-4 := by
    have h1 := abs_sub_le z (x₀ + w₀ / (slope x₀ - x₀ * w₀)) x₁
    rw [abs_sub_comm (x₀ + w₀ / (slope x₀ - x₀ * w₀)) x₁] at h1
    refine h1.trans ((add_le_add a1 e1).trans ?_)
    norm_num at a7 ⊢; linarith
  refine ⟨d1, fun hw1 e2 => ?_⟩
  obtain ⟨b1, -, -, b4, b5, b6, b7⟩ := step_real hz hz0 hz6 hy d1 (by norm_num) hw1
  have p0 : 0 < erfcExact x₁ / slope x₁ := div_pos (erfcExact_pos _) (slope_pos _)
  have hq : |z - x₂| ≤ 4.6e-9 + 6.12e-7 * (erfcExact x₁ / slope x₁) := by
    have h1 := abs_sub_le z (x₁ + w₁ / (slope x₁ - x₁ * w₁)) x₂
    rw [abs_sub_comm (x₁ + w₁ / (slope x₁ - x₁ * w₁)) x₂] at h1
    refine h1.trans ((add_le_add b1 e2).trans ?_)
    norm_num; linarith
  have d2 : |z - x₂| ≤ 1e-6 := by norm_num at hq b7 ⊢; linarith
  refine ⟨d2, ?_⟩
  have hsz := slope_le_tail hz0
  rw [hz] at hsz
  have hsz' : slope z ≤ 14.2 * y := by
    refine hsz.trans ?_
    refine mul_le_mul_of_nonneg_right ?_ (lt_of_lt_of_le (by norm_num) hy).le
    norm_num at hz6 ⊢; linarith
  have hexp : exp (13 * 2.5e-4 : ℝ) ≤ 1.00327 := by
    have := Real.exp_bound_div_one_sub_of_interval (x := 13 * 2.5e-4) (by norm_num) (by norm_num)
    refine this.trans (by norm_num)
  have hexp' : exp (13 * 1e-6 : ℝ) ≤ 1.00002 := by
    have := Real.exp_bound_div_one_sub_of_interval (x := 13 * 1e-6) (by norm_num) (by norm_num)
    refine this.trans (by norm_num)
  have hz65 : |z| ≤ 6.5 := by rw [abs_of_nonneg hz0]; norm_num at hz6 ⊢; linarith
  have x65 : |x₁| ≤ 6.5 := b5.trans (by norm_num)
  have x65' : |x₂| ≤ 6.5 := by
    have := abs_le.1 d2
    rw [abs_le]; constructor <;> norm_num at this hz6 ⊢ <;> linarith [this.1, this.2]
  have c1 := erfc_close (h := 2.5e-4) x65 hz65 (by rw [abs_sub_comm]; exact d1)
  have c2 := erfc_close (h := 1e-6) x65' hz65 (by rw [abs_sub_comm]; exact d2)
  rw [hz, abs_sub_comm x₁ z] at c1
  rw [hz, abs_sub_comm x₂ z] at c2
  have hs0 := slope_pos z
  have hy0 : 0 < y := lt_of_lt_of_le (by norm_num) hy
  have f1 : erfcExact x₁ ≤ 1.0036 * y := by
    have : exp (13 * 2.5e-4) * slope z * |z - x₁| ≤ 1.00327 * (14.2 * y) * 2.5e-4 := by gcongr
    have h2 := (abs_le.1 (c1.trans this)).2
    norm_num at h2 ⊢; linarith
  have f2 : slope z * (erfcExact x₁ / slope x₁) ≤ 1.007 * y := by
    have hsl := slope_close hz65 x65 d1
    have hs1 := slope_pos x₁
    have h3 : slope z / slope x₁ ≤ 1.00327 := by
      rw [div_le_iff₀ hs1]
      exact hsl.trans (by gcongr)
    calc slope z * (erfcExact x₁ / slope x₁) = slope z / slope x₁ * erfcExact x₁ := by ring
      _ ≤ 1.00327 * (1.0036 * y) := mul_le_mul h3 f1 (erfcExact_pos _).le (by norm_num)
      _ ≤ _ := by norm_num; linarith
  refine c2.trans ?_
  calc exp (13 * 1e-6) * slope z * |z - x₂|
      ≤ 1.00002 * slope z * (4.6e-9 + 6.12e-7 * (erfcExact x₁ / slope x₁)) := by gcongr
    _ = 1.00002 * (4.6e-9 * slope z + 6.12e-7 * (slope z * (erfcExact x₁ / slope x₁))) := by ring
    _ ≤ 1.00002 * (4.6e-9 * (14.2 * y) + 6.12e-7 * (1.007 * y)) := by gcongr
    _ ≤ 6.9e-7 * y := by norm_num; linarith

end Skillratings.TrueSkill
