import Mathlib.Analysis.Calculus.Deriv.MeanValue
import Verif.Proofs.ErfcAccuracy
/-
The fitted distribution function against the true one.
-/
namespace Skillratings.TrueSkill
open Real Spec Filter
open scoped Topology

theorem slope_le : 2 / √π ≤ 1.129 := by
  have h : (1.7724 : ℝ) ≤ √π := by
    apply Real.le_sqrt_of_sq_le
    have := Real.pi_gt_d6
    norm_num at this ⊢; linarith
  rw [div_le_iff₀ (by positivity)]
  norm_num at h ⊢; linarith

theorem exp_sub_one_le {x M : ℝ} (h : |x| ≤ M) (hM : M ≤ 1e-5) :
    |exp x - 1| ≤ M + 1e-5 * M := by
  have h1 : |x| ≤ 1 := h.trans (hM.trans (by norm_num))
  have h2 := Real.abs_exp_sub_one_sub_id_le h1
  have h3 : x ^ 2 ≤ 1e-5 * M := by
    rw [← sq_abs]
    have := abs_nonneg x
    nlinarith
  have h4 : |exp x - 1| ≤ |exp x - 1 - x| + |x| := by
    have := abs_add_le (exp x - 1 - x) x
    rwa [sub_add_cancel] at this
  linarith

theorem tendsto_fit : Tendsto fit atTop (𝓝 0) := by
  have h1 : Tendsto (fun z : ℝ => (1 + z / 2)⁻¹) atTop (𝓝 0) := by
    apply tendsto_inv_atTop_zero.comp
    exact tendsto_atTop_add_const_left _ _ (tendsto_id.atTop_div_const (by norm_num))
  have h2 := h1.mul_const (exp 0.652)
  rw [zero_mul] at h2
  refine tendsto_of_tendsto_of_tendsto_of_le_of_le' tendsto_const_nhds h2 ?_ ?_
  · filter_upwards [eventually_ge_atTop 0] with z hz using (fit_pos hz).le
  · filter_upwards [eventually_ge_atTop 0] with z hz
    have ht0 : 0 < (1 + z / 2)⁻¹ := by positivity
    have ht1 : (1 + z / 2)⁻¹ ≤ 1 := inv_le_one_of_one_le₀ (by linarith)
    unfold fit
    refine mul_le_mul_of_nonneg_left (Real.exp_le_exp.2 ?_) ht0.le
    have := fitQ_le ht0.le ht1
    nlinarith [sq_nonneg z]

/-- A function that decreases to zero is nonnegative. -/
theorem nonneg_of_decreasing {f f' : ℝ → ℝ} {a : ℝ} (hd : ∀ z, a ≤ z → HasDerivAt f (f' z) z)
    (hn : ∀ z, a ≤ z → f' z ≤ 0) (hl : Tendsto f atTop (𝓝 0)) {z : ℝ} (hz : a ≤ z) : 0 ≤ f z := by
  have hanti : AntitoneOn f (Set.Ici a) := by
    refine antitoneOn_of_deriv_nonpos (convex_Ici a) (fun x hx => (hd x hx).continuousAt.continuousWithinAt)
      (fun x hx => ?_) (fun x hx => ?_)
    · rw [interior_Ici] at hx
      exact (hd x hx.le).differentiableAt.differentiableWithinAt
    · rw [interior_Ici] at hx
      rw [(hd x hx.le).deriv]; exact hn x hx.le
  refine le_of_tendsto hl ?_
  filter_upwards [eventually_ge_atTop z] with y hy using hanti hz (hz.trans hy) hy

/-- Far from zero: integrate from infinity. -/
theorem fit_far {z : ℝ} (hz : 14 / 93 ≤ z) : |fit z - erfcExact z| ≤ 6e-7 * erfcExact z := by
  have hG : ∀ y : ℝ, 14 / 93 ≤ y → |exp (G (1 + y / 2)⁻¹) - 1| ≤ 6e-7 := by
    intro y hy
    have h0 : (0 : ℝ) < 1 + y / 2 := by linarith
    have h1 : (1 + y / 2)⁻¹ ≤ 0.93 := by
      rw [inv_le_comm₀ h0 (by norm_num)]
      norm_num; linarith
    have h2 := exp_sub_one_le (G_A (inv_pos.2 h0).le h1) (by norm_num)
    norm_num at h2 ⊢; linarith
  have hp : ∀ y : ℝ, 0 < 2 / √π * exp (-y ^ 2) := by
    intro y
    have : 0 < √π := Real.sqrt_pos.2 Real.pi_pos
    positivity
  have up : 0 ≤ (1 + 6e-7) * erfcExact z - fit z := by
    refine nonneg_of_decreasing (a := 14 / 93)
      (f := fun y => (1 + 6e-7) * erfcExact y - fit y)
      (fun y hy => ((hasDerivAt_erfcExact y).const_mul (1 + 6e-7)).sub
        (hasDerivAt_fit (le_trans (by norm_num) hy))) ?_ ?_ hz
    · intro y hy
      have h1 := (abs_le.1 (hG y hy)).2
      have h2 := hp y
      nlinarith
    · have := (tendsto_erfcExact.const_mul (1 + 6e-7)).sub tendsto_fit
      simpa using this
  have low : 0 ≤ fit z - (1 - 6e-7) * erfcExact z := by
    refine nonneg_of_decreasing (a := 14 / 93)
      (f := fun y => fit y - (1 - 6e-7) * erfcExact y)
      (fun y hy => (hasDerivAt_fit (le_trans (by norm_num) hy)).sub
        ((hasDerivAt_erfcExact y).const_mul (1 - 6e-7))) ?_ ?_ hz
    · intro y hy
      have h1 := (abs_le.1 (hG y hy)).1
      have h2 := hp y
      nlinarith
    · have := tendsto_fit.sub (tendsto_erfcExact.const_mul (1 - 6e-7))
      simpa using this
  rw [abs_le]
  constructor <;> linarith

/-- A piece near zero. -/
theorem fit_piece {a b M : ℝ} (ha : 0 ≤ a) (hab : a ≤ b) (hM0 : 0 ≤ M) (hM : M ≤ 1e-5)
    (hG : ∀ y, a ≤ y → y ≤ b → |G (1 + y / 2)⁻¹| ≤ M) :
    |(fit b - erfcExact b) - (fit a - erfcExact a)| ≤ 1.129 * (M + 1e-5 * M) * (b - a) := by
  have hd : ∀ y ∈ Set.Icc a b, HasDerivWithinAt (fun y => fit y - erfcExact y)
      (-(2 / √π * exp (-y ^ 2)) * exp (G (1 + y / 2)⁻¹) - -(2 / √π * exp (-y ^ 2)))
      (Set.Icc a b) y := fun y hy =>
    ((hasDerivAt_fit (ha.trans hy.1)).sub (hasDerivAt_erfcExact y)).hasDerivWithinAt
  have hb : ∀ y ∈ Set.Icc a b, ‖-(2 / √π * exp (-y ^ 2)) * exp (G (1 + y / 2)⁻¹)
      - -(2 / √π * exp (-y ^ 2))‖ ≤ 1.129 * (M + 1e-5 * M) := by
    intro y hy
    have h1 := exp_sub_one_le (hG y hy.1 hy.2) hM
    have e : -(2 / √π * exp (-y ^ 2)) * exp (G (1 + y / 2)⁻¹) - -(2 / √π * exp (-y ^ 2))
        = -(2 / √π * exp (-y ^ 2)) * (exp (G (1 + y / 2)⁻¹) - 1) := by ring
    have h2 : exp (-y ^ 2) ≤ 1 := Real.exp_le_one_iff.2 (by nlinarith [sq_nonneg y])
    have h3 : 0 < 2 / √π := by
      have : 0 < √π := Real.sqrt_pos.2 Real.pi_pos
      positivity
    rw [Real.norm_eq_abs, e, abs_mul, abs_neg, abs_of_pos (by positivity)]
    refine mul_le_mul ?_ h1 (abs_nonneg _) (by norm_num)
    calc 2 / √π * exp (-y ^ 2) ≤ 2 / √π * 1 := mul_le_mul_of_nonneg_left h2 h3.le
      _ ≤ 1.129 := by rw [mul_one]; exact slope_le
  have h := (convex_Icc a b).norm_image_sub_le_of_norm_hasDerivWithin_le hd hb
    (Set.left_mem_Icc.2 hab) (Set.right_mem_Icc.2 hab)
  rwa [Real.norm_eq_abs, Real.norm_eq_abs, abs_of_nonneg (sub_nonneg.2 hab)] at h

theorem fit_start : |fit 0 - erfcExact 0| ≤ 3.1e-8 := by
  rw [fit_zero, erfcExact_zero]
  have := exp_sub_one_le (x := 0.00000003) (M := 3e-8) (by rw [abs_of_pos] <;> norm_num) (by norm_num)
  norm_num at this ⊢; linarith

theorem inv_ge {y c : ℝ} (hy : 0 ≤ y) (hc : 0 < c) (h : y ≤ 2 * (1 / c - 1)) :
    c ≤ (1 + y / 2)⁻¹ := by
  rw [le_inv_comm₀ hc (by positivity), inv_eq_one_div]; linarith

theorem inv_le {y c : ℝ} (hy : 0 ≤ y) (hc : 0 < c) (h : 2 * (1 / c - 1) ≤ y) :
    (1 + y / 2)⁻¹ ≤ c := by
  rw [inv_le_comm₀ (by positivity) hc, inv_eq_one_div]; linarith

theorem fit_near {z : ℝ} (h0 : 0 ≤ z) (hz : z ≤ 14 / 93) : |fit z - erfcExact z| ≤ 4e-7 := by
  have k0 := fit_start
  have pD : ∀ b : ℝ, 0 ≤ b → b ≤ 2 / 99 →
      |(fit b - erfcExact b) - (fit 0 - erfcExact 0)| ≤ 1.284e-7 * 1.13 := by
    intro b hb hb'
    have h := fit_piece le_rfl hb (M := 6.35e-6) (by norm_num) (by norm_num) fun y h1 h2 =>
      G_D (inv_ge h1 (by norm_num) (by norm_num; linarith))
        (inv_le_one_of_one_le₀ (by linarith))
    norm_num at h ⊢; linarith
  have pC : ∀ b : ℝ, 2 / 99 ≤ b → b ≤ 2 / 49 →
      |(fit b - erfcExact b) - (fit (2 / 99) - erfcExact (2 / 99))| ≤ 4.51e-8 * 1.13 := by
    intro b hb hb'
    have h := fit_piece (by norm_num) hb (M := 2.18e-6) (by norm_num) (by norm_num) fun y h1 h2 =>
      G_C (inv_ge (le_trans (by norm_num) h1) (by norm_num) (by norm_num; linarith))
        (inv_le (le_trans (by norm_num) h1) (by norm_num) (by norm_num; linarith))
    norm_num at h ⊢; linarith
  have pB : ∀ b : ℝ, 2 / 49 ≤ b → b ≤ 14 / 93 →
      |(fit b - erfcExact b) - (fit (2 / 49) - erfcExact (2 / 49))| ≤ 1.52e-7 * 1.13 := by
    intro b hb hb'
    have h := fit_piece (by norm_num) hb (M := 1.38e-6) (by norm_num) (by norm_num) fun y h1 h2 =>
      G_B (inv_ge (le_trans (by norm_num) h1) (by norm_num) (by norm_num; linarith))
        (inv_le (le_trans (by norm_num) h1) (by norm_num) (by norm_num; linarith))
    norm_num at h ⊢; linarith
  rw [abs_le] at k0
  have k1 := abs_le.1 (pD (2 / 99) (by norm_num) le_rfl)
  have k2 := abs_le.1 (pC (2 / 49) (by norm_num) le_rfl)
  rw [abs_le]
  rcases le_total z (2 / 99) with h1 | h1
  · have := abs_le.1 (pD z h0 h1)
    norm_num at k0 this ⊢; constructor <;> linarith
  rcases le_total z (2 / 49) with h2 | h2
  · have := abs_le.1 (pC z h1 h2)
    norm_num at k0 k1 this ⊢; constructor <;> linarith
  · have := abs_le.1 (pB z h2 hz)
    norm_num at k0 k1 k2 this ⊢; constructor <;> linarith

theorem erfcExact_ge {z : ℝ} (h0 : 0 ≤ z) (hz : z ≤ 14 / 93) : 0.83 ≤ erfcExact z := by
  have hd : ∀ y ∈ Set.Icc 0 z, HasDerivWithinAt erfcExact (-(2 / √π * exp (-y ^ 2)))
      (Set.Icc 0 z) y := fun y _ => (hasDerivAt_erfcExact y).hasDerivWithinAt
  have hb : ∀ y ∈ Set.Icc 0 z, ‖-(2 / √π * exp (-y ^ 2))‖ ≤ 1.129 := by
    intro y hy
    have h2 : exp (-y ^ 2) ≤ 1 := Real.exp_le_one_iff.2 (by nlinarith [sq_nonneg y])
    have h3 : 0 < 2 / √π := by
      have : 0 < √π := Real.sqrt_pos.2 Real.pi_pos
      positivity
    rw [Real.norm_eq_abs, abs_neg, abs_of_pos (by positivity)]
    calc 2 / √π * exp (-y ^ 2) ≤ 2 / √π * 1 := mul_le_mul_of_nonneg_left h2 h3.le
      _ ≤ 1.129 := by rw [mul_one]; exact slope_le
  have h := (convex_Icc 0 z).norm_image_sub_le_of_norm_hasDerivWithin_le hd hb
    (Set.left_mem_Icc.2 h0) (Set.right_mem_Icc.2 h0)
  rw [Real.norm_eq_abs, Real.norm_eq_abs, sub_zero, abs_of_nonneg h0, erfcExact_zero] at h
  have := (abs_le.1 h).1
  norm_num at this ⊢; linarith

theorem fit_accurate {z : ℝ} (h0 : 0 ≤ z) : |fit z - erfcExact z| ≤ 6e-7 * erfcExact z := by
  rcases le_total z (14 / 93) with hz | hz
  · have h1 := fit_near h0 hz
    have h2 := erfcExact_ge h0 hz
    norm_num at h1 h2 ⊢; linarith
  · exact fit_far hz

theorem normalCdf_accurate_neg {x : ℝ} (hx : x ≤ 0) : |normalCdf x - Phi x| ≤ 6e-7 * Phi x := by
  have s2 : (0 : ℝ) < √2 := by positivity
  have hz : 0 ≤ -x / √2 := div_nonneg (by linarith) s2.le
  have h := fit_accurate hz
  have e : erfcExact (-x / √2) = 2 * Phi x := by
    rw [erfcExact]; congr 2; field_simp
  rw [e] at h
  rw [normalCdf, erfcFit, if_neg (not_lt.2 hz), erfcTail_eq hz]
  rw [abs_le] at h ⊢
  constructor <;> linarith

theorem normalCdf_accurate_pos {x : ℝ} (hx : 0 < x) :
    |normalCdf x - Phi x| ≤ 6e-7 * (1 - Phi x) := by
  have h := normalCdf_accurate_neg (x := -x) (by linarith)
  rw [normalCdf_neg hx.ne', Phi_neg] at h
  rw [← abs_neg]
  convert h using 2; ring

theorem normalCdf_accurate (x : ℝ) :
    |normalCdf x - Phi x| ≤ 6e-7 * Phi x ∧ |normalCdf x - Phi x| ≤ 3e-7 := by
  rcases le_or_gt x 0 with hx | hx
  · have h := normalCdf_accurate_neg hx
    have h2 : Phi x ≤ 1 / 2 := Phi_zero ▸ Phi_strictMono.monotone hx
    refine ⟨h, ?_⟩
    norm_num at h ⊢; linarith
  · have h := normalCdf_accurate_pos hx
    have h2 : 1 / 2 ≤ Phi x := Phi_zero ▸ Phi_strictMono.monotone hx.le
    constructor <;> (norm_num at h ⊢; linarith)

end Skillratings.TrueSkill
