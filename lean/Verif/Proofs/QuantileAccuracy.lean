import Verif.Proofs.QuantileTable
import Verif.Proofs.BayesAccuracy
/-
The inverse of the complementary error function: the starting guess is within 0.01 of the exact
value (by the table), and the error of a step of Halley's method is cubic up to the error of the
fit.
-/
namespace Skillratings.TrueSkill
open Real Spec Poly Set

theorem erfcExact_strictAnti : StrictAnti erfcExact := by
  intro a b h
  have s2 : (0 : ℝ) < √2 := by positivity
  have := Phi_strictMono (show -(√2 * b) < -(√2 * a) by nlinarith)
  unfold erfcExact; linarith

theorem continuous_erfcExact : Continuous erfcExact :=
  continuous_iff_continuousAt.2 fun x => (hasDerivAt_erfcExact x).continuousAt

/-- Every value in `(0, 1]` is taken once. -/
theorem exists_erfc {y : ℝ} (h0 : 0 < y) (h1 : y ≤ 1) : ∃ z, 0 ≤ z ∧ erfcExact z = y := by
  obtain ⟨b, hb, hb0⟩ := ((tendsto_erfcExact.eventually (gt_mem_nhds h0)).and
    (Filter.eventually_ge_atTop 0)).exists
  have := intermediate_value_Icc' hb0 continuous_erfcExact.continuousOn
  obtain ⟨z, hz, e⟩ := this ⟨hb.le, by rw [erfcExact_zero]; exact h1⟩
  exact ⟨z, hz.1, e⟩

theorem wr_mono {a b : ℝ} (h0 : 0 ≤ a) (h : a ≤ b) : wr a ≤ wr b := by
  have h1 : 0 < 1 + 0.99229 * a + 0.04481 * a ^ 2 := by positivity
  have hb : 0 ≤ b := h0.trans h
  have h2 : 0 < 1 + 0.99229 * b + 0.04481 * b ^ 2 := by positivity
  have : (2.30753 + 0.27061 * b) / (1 + 0.99229 * b + 0.04481 * b ^ 2)
      ≤ (2.30753 + 0.27061 * a) / (1 + 0.99229 * a + 0.04481 * a ^ 2) := by
    rw [div_le_div_iff₀ h2 h1]
    have e : (2.30753 + 0.27061 * a) * (1 + 0.99229 * b + 0.04481 * b ^ 2)
        - (2.30753 + 0.27061 * b) * (1 + 0.99229 * a + 0.04481 * a ^ 2)
        = (b - a) * (2.0191289437 + 0.1034004193 * (a + b) + 0.0121260341 * (a * b)) := by ring
    have : 0 ≤ (b - a) * (2.0191289437 + 0.1034004193 * (a + b) + 0.0121260341 * (a * b)) := by
      apply mul_nonneg (by linarith); positivity
    linarith
  unfold wr; linarith

theorem fit_rat (z : ℚ) : fit (z : ℝ) = ((1 / (1 + z / 2) : ℚ) : ℝ)
    * exp ((evq (1 / (1 + z / 2)) tP : ℚ) - (z : ℝ) ^ 2) := by
  rw [fit, ← ev_tP]
  have e : ((1 + (z : ℝ) / 2)⁻¹) = ((1 / (1 + z / 2) : ℚ) : ℝ) := by push_cast; simp
  rw [e, ev_cast]

theorem sqrt_two_bounds : 0.7071067 ≤ 1 / √(2 : ℝ) ∧ 1 / √(2 : ℝ) ≤ 0.7071068 := by
  have h1 : √(2 : ℝ) ≤ 1 / 0.7071067 := by
    rw [Real.sqrt_le_left (by norm_num)]; norm_num
  have h2 : 1 / 0.7071068 ≤ √(2 : ℝ) := by
    apply Real.le_sqrt_of_sq_le; norm_num
  have h0 : (0 : ℝ) < √2 := by positivity
  constructor
  · rw [le_div_iff₀ h0]; norm_num at h1 ⊢; linarith
  · rw [div_le_iff₀ h0]; norm_num at h2 ⊢; linarith

theorem cellHi_sound {a b : ℚ} (ha : 0 ≤ a) (hc : cellHi a b = true) {s : ℝ} (h1 : a ≤ s)
    (h2 : s ≤ b) : erfcExact (wr s / √2 + 0.01) ≤ 2 * exp (-s ^ 2 / 2) := by
  simp only [cellHi, Bool.and_eq_true, decide_eq_true_eq] at hc
  obtain ⟨⟨hw, hz⟩, hE⟩ := hc
  set z := down (wq a * 0.7071067 + 0.01) with hzd
  set t := 1 / (1 + z / 2) with ht
  have ha' : (0 : ℝ) ≤ a := by exact_mod_cast ha
  have hz' : (0 : ℝ) ≤ z := by exact_mod_cast hz
  have hzle : (z : ℝ) ≤ wr s / √2 + 0.01 := by
    have k1 : (z : ℝ) ≤ ((wq a * 0.7071067 + 0.01 : ℚ) : ℝ) := by exact_mod_cast down_le _
    have k2 := wr_mono ha' h1
    rw [wr_cast] at k2
    have k3 : (0 : ℝ) ≤ wq a := by exact_mod_cast hw
    push_cast at k1
    have k4 := sqrt_two_bounds.1
    have k5 : (wq a : ℝ) * 0.7071067 ≤ wr s * (1 / √2) := by
      apply mul_le_mul k2 k4 (by norm_num) (by linarith)
    rw [mul_one_div] at k5
    norm_num at k1 k5 ⊢
    linarith
  refine (erfcExact_strictAnti.antitone hzle).trans ?_
  have hf := (abs_le.1 (fit_accurate hz')).1
  have hp := erfcExact_pos (z : ℝ)
  have hfp := fit_pos hz'
  have h3 : erfcExact (z : ℝ) ≤ (1 + 7e-7) * fit z := by norm_num at hf ⊢; linarith
  refine h3.trans ?_
  have hE' : ((1 + 7e-7) * t / 2 : ℝ) ≤ exp ((z : ℝ) ^ 2 - s ^ 2 / 2 - (evq t tP : ℚ)) := by
    have k1 : (((1 + 7e-7) * t / 2 : ℚ) : ℝ) ≤ (expLow (down (z ^ 2 - b ^ 2 / 2 - evq t tP)) : ℝ) := by
      exact_mod_cast hE
    refine le_trans (le_of_eq ?_) (k1.trans ((expLow_le _).trans (Real.exp_le_exp.2 ?_)))
    · push_cast; norm_num
    · have k2 : (down (z ^ 2 - b ^ 2 / 2 - evq t tP) : ℝ) ≤ ((z ^ 2 - b ^ 2 / 2 - evq t tP : ℚ) : ℝ) := by
        exact_mod_cast down_le _
      push_cast at k2
      have hs : 0 ≤ s := ha'.trans h1
      nlinarith
  rw [fit_rat, ← ht]
  calc (1 + 7e-7) * ((t : ℝ) * exp ((evq t tP : ℚ) - (z : ℝ) ^ 2))
      = ((1 + 7e-7) * t / 2 : ℝ) * (2 * exp ((evq t tP : ℚ) - (z : ℝ) ^ 2)) := by ring
    _ ≤ exp ((z : ℝ) ^ 2 - s ^ 2 / 2 - (evq t tP : ℚ)) * (2 * exp ((evq t tP : ℚ) - (z : ℝ) ^ 2)) := by
        gcongr
    _ = 2 * exp (-s ^ 2 / 2) := by
        rw [mul_left_comm, ← Real.exp_add]; congr 2; ring

theorem cellLo_sound {a b : ℚ} (ha : 0 ≤ a) (hc : cellLo a b = true) {s : ℝ} (h1 : a ≤ s)
    (h2 : s ≤ b) (hy : 2 * exp (-s ^ 2 / 2) ≤ 1) :
    2 * exp (-s ^ 2 / 2) ≤ erfcExact (wr s / √2 - 0.01) := by
  simp only [cellLo, Bool.and_eq_true, Bool.or_eq_true, decide_eq_true_eq] at hc
  obtain ⟨hw, hc⟩ := hc
  set z := up (wq b * 0.7071068 - 0.01) with hzd
  set t := 1 / (1 + z / 2) with ht
  have ha' : (0 : ℝ) ≤ a := by exact_mod_cast ha
  have hs : 0 ≤ s := ha'.trans h1
  have hzle : wr s / √2 - 0.01 ≤ (z : ℝ) := by
    have k1 : ((wq b * 0.7071068 - 0.01 : ℚ) : ℝ) ≤ (z : ℝ) := by exact_mod_cast le_up _
    have k2 := wr_mono hs h2
    rw [wr_cast] at k2
    have k3 : (0 : ℝ) ≤ wq b := by exact_mod_cast hw
    push_cast at k1
    have k4 := sqrt_two_bounds.2
    have k5 : wr s * (1 / √2) ≤ (wq b : ℝ) * 0.7071068 :=
      mul_le_mul k2 k4 (by positivity) k3
    rw [mul_one_div] at k5
    norm_num at k1 k5 ⊢
    linarith
  rcases hc with hz | hE
  · refine hy.trans ?_
    rw [← erfcExact_zero]
    have : (z : ℝ) ≤ 0 := by exact_mod_cast hz
    exact erfcExact_strictAnti.antitone (by linarith)
  rcases le_or_gt z 0 with hz | hz
  · refine hy.trans ?_
    rw [← erfcExact_zero]
    have : (z : ℝ) ≤ 0 := by exact_mod_cast hz
    exact erfcExact_strictAnti.antitone (by linarith)
  have hz' : (0 : ℝ) ≤ z := by exact_mod_cast hz.le
  refine le_trans ?_ (erfcExact_strictAnti.antitone hzle)
  have hf := (abs_le.1 (fit_accurate hz')).2
  have hp := erfcExact_pos (z : ℝ)
  have hfp := fit_pos hz'
  have h3 : (1 - 7e-7) * fit z ≤ erfcExact (z : ℝ) := by norm_num at hf ⊢; linarith
  refine le_trans ?_ h3
  have ht0 : (0 : ℝ) < t := by
    have : 0 < t := by rw [ht]; positivity
    exact_mod_cast this
  have hE' : (2 / ((1 - 7e-7) * t) : ℝ) ≤ exp ((evq t tP : ℚ) + s ^ 2 / 2 - (z : ℝ) ^ 2) := by
    have k1 : ((2 / ((1 - 7e-7) * t) : ℚ) : ℝ) ≤ (expLow (down (evq t tP + a ^ 2 / 2 - z ^ 2)) : ℝ) := by
      exact_mod_cast hE
    refine le_trans (le_of_eq ?_) (k1.trans ((expLow_le _).trans (Real.exp_le_exp.2 ?_)))
    · push_cast; norm_num
    · have k2 : (down (evq t tP + a ^ 2 / 2 - z ^ 2) : ℝ) ≤ ((evq t tP + a ^ 2 / 2 - z ^ 2 : ℚ) : ℝ) := by
        exact_mod_cast down_le _
      push_cast at k2
      nlinarith
  rw [div_le_iff₀ (by positivity)] at hE'
  rw [fit_rat, ← ht]
  calc 2 * exp (-s ^ 2 / 2)
      ≤ (exp ((evq t tP : ℚ) + s ^ 2 / 2 - (z : ℝ) ^ 2) * ((1 - 7e-7) * t)) * exp (-s ^ 2 / 2) := by
        gcongr
    _ = (1 - 7e-7) * (t * (exp ((evq t tP : ℚ) + s ^ 2 / 2 - (z : ℝ) ^ 2) * exp (-s ^ 2 / 2))) := by ring
    _ = _ := by rw [← Real.exp_add]; congr 3; ring

theorem cells_sound (n : ℕ) (a : ℚ) (ha : 0 ≤ a) (hc : cells n a = true) {s : ℝ} (h1 : a ≤ s)
    (h2 : s < a + n / 125) (hy : 2 * exp (-s ^ 2 / 2) ≤ 1) :
    erfcExact (wr s / √2 + 0.01) ≤ 2 * exp (-s ^ 2 / 2) ∧
    2 * exp (-s ^ 2 / 2) ≤ erfcExact (wr s / √2 - 0.01) := by
  induction n generalizing a with
  | zero => simp at h2; linarith
  | succ n ih =>
    simp only [cells, Bool.and_eq_true] at hc
    rcases le_or_gt s ((a + 1 / 125 : ℚ) : ℝ) with h | h
    · exact ⟨cellHi_sound ha hc.1.1 h1 h, cellLo_sound ha hc.1.2 h1 h hy⟩
    · refine ih (a + 1 / 125) (by positivity) hc.2 h.le ?_
      push_cast at h2 ⊢
      linarith

theorem root_lt_nine {y : ℝ} (h0 : 1e-17 ≤ y) (h1 : y ≤ 1) : √(-2 * log (y / 2)) < 9 := by
  have hy : 0 < y := lt_of_lt_of_le (by norm_num) h0
  rw [Real.sqrt_lt' (by norm_num)]
  have h4 : exp (-40.5 : ℝ) ≤ 4e-18 := by
    rw [Real.exp_neg, inv_le_comm₀ (Real.exp_pos _) (by norm_num)]
    have e : exp (40.5 : ℝ) = exp 1 ^ 40 * exp 0.5 := by
      rw [← Real.exp_nat_mul, ← Real.exp_add]; congr 1; norm_num
    have h5 : (2.7182 : ℝ) ≤ exp 1 := by have := Real.exp_one_gt_d9; norm_num at this ⊢; linarith
    have h6 : (1.5 : ℝ) ≤ exp 0.5 := by have := Real.add_one_le_exp 0.5; norm_num at this ⊢; linarith
    rw [e]
    calc (4e-18 : ℝ)⁻¹ ≤ 2.7182 ^ 40 * 1.5 := by norm_num
      _ ≤ _ := by gcongr
  have h5 : -40.5 < log (y / 2) := by
    rw [Real.lt_log_iff_exp_lt (by positivity)]
    norm_num at h0 h4 ⊢; linarith
  norm_num at h5 ⊢; linarith

/-- The starting guess is within 0.01 of the exact value. -/
theorem guess_near {y z : ℝ} (h0 : 1e-17 ≤ y) (h1 : y ≤ 1) (hz : erfcExact z = y) :
    |z - erfcInvGuess y| ≤ 0.01 := by
  have hy : 0 < y := lt_of_lt_of_le (by norm_num) h0
  have hlog : log (y / 2) ≤ -log 2 := by
    rw [← Real.log_inv]
    exact Real.log_le_log (by positivity) (by linarith)
  have hl2 := Real.log_two_gt_d9
  have hsu := root_lt_nine h0 h1
  set s := √(-2 * log (y / 2)) with hs
  have hs2 : s ^ 2 = -2 * log (y / 2) := Real.sq_sqrt (by linarith)
  have hy2 : y = 2 * exp (-s ^ 2 / 2) := by
    rw [hs2, show -(-2 * log (y / 2)) / 2 = log (y / 2) by ring, Real.exp_log (by positivity)]; ring
  have hsl : ((1.17741 : ℚ) : ℝ) ≤ s := by
    push_cast
    apply Real.le_sqrt_of_sq_le
    norm_num at hl2 ⊢
    linarith
  have key := cells_sound 980 1.17741 (by norm_num) cells_ok hsl (by push_cast; norm_num; linarith)
    (by rw [← hy2]; exact h1)
  rw [← hy2, ← hz] at key
  have k1 := erfcExact_strictAnti.le_iff_ge.1 key.1
  have k2 := erfcExact_strictAnti.le_iff_ge.1 key.2
  have e : erfcInvGuess y = wr s / √2 := by
    rw [erfcInvGuess, wr, neg_sub]
  rw [e, abs_le]
  constructor <;> linarith

/-! ### A step of Halley's method -/

/-- The slope of `erfcExact`, without the sign. -/
noncomputable def slope (x : ℝ) : ℝ := 2 / √π * exp (-x ^ 2)

theorem slope_pos (x : ℝ) : 0 < slope x := by
  have : 0 < √π := Real.sqrt_pos.2 Real.pi_pos
  unfold slope; positivity

theorem exp_sub_two_sq {a : ℝ} (h : |a| ≤ 0.1) : exp (a - 2 * a ^ 2) ≤ 1 + a := by
  obtain ⟨h1, h2⟩ := abs_le.1 h
  have hv : |a - 2 * a ^ 2| ≤ 1 := by rw [abs_le]; constructor <;> nlinarith
  have := (abs_le.1 (Real.abs_exp_sub_one_sub_id_le hv)).2
  have e : (a - 2 * a ^ 2) ^ 2 = a ^ 2 - a ^ 2 * (4 * a - 4 * a ^ 2) := by ring
  have : 0 ≤ a ^ 2 * (1 + 4 * a - 4 * a ^ 2) := by
    apply mul_nonneg (sq_nonneg a); nlinarith
  nlinarith

/-- Newton's correction against the correction that is exact for Halley's method. -/
theorem newton_near {x d : ℝ} (hd : |x * d| ≤ 0.1) :
    |(erfcExact x - erfcExact (x + d)) / slope x - d / (1 + x * d)|
      ≤ 1.25 * (1 + 4 * x ^ 2) * |d| ^ 3 := by
  have hs := slope_pos x
  have hu : ∀ u ∈ uIcc 0 d, |u| ≤ |d| := by
    intro u hu
    have := abs_sub_left_of_mem_uIcc hu
    simpa using this
  have ha : ∀ u ∈ uIcc 0 d, |x * u| ≤ 0.1 := by
    intro u h
    rw [abs_mul] at hd ⊢
    exact (mul_le_mul_of_nonneg_left (hu u h) (abs_nonneg x)).trans hd
  have hder : ∀ u ∈ uIcc 0 d, HasDerivWithinAt
      (fun u => (erfcExact x - erfcExact (x + u)) / slope x - u / (1 + x * u))
      (slope (x + u) / slope x - 1 / (1 + x * u) ^ 2) (uIcc 0 d) u := by
    intro u h
    have h1 := abs_le.1 (ha u h)
    have hne : 1 + x * u ≠ 0 := by linarith [h1.1]
    have e1 : HasDerivAt (fun u => erfcExact (x + u)) (-slope (x + u)) u := by
      have := (hasDerivAt_erfcExact (x + u)).comp u ((hasDerivAt_id u).const_add x)
      refine this.congr_deriv ?_
      simp [slope]
    have e2 : HasDerivAt (fun u => 1 + x * u) x u := by
      have := ((hasDerivAt_id u).const_mul x).const_add 1
      refine this.congr_deriv (by simp)
    have := ((e1.const_sub (erfcExact x)).div_const (slope x)).sub ((hasDerivAt_id u).div e2 hne)
    refine (this.congr_deriv ?_).hasDerivWithinAt
    simp only [id, neg_neg]
    congr 2
    ring
  have hb : ∀ u ∈ uIcc 0 d, ‖slope (x + u) / slope x - 1 / (1 + x * u) ^ 2‖
      ≤ 1.25 * (1 + 4 * x ^ 2) * |d| ^ 2 := by
    intro u h
    have h1 := abs_le.1 (ha u h)
    have hpos : 0 < 1 + x * u := by linarith [h1.1]
    have e : slope (x + u) / slope x = exp (-2 * (x * u) - u ^ 2) := by
      have h3 : 0 < √π := Real.sqrt_pos.2 Real.pi_pos
      rw [slope, slope, mul_div_mul_left _ _ (by positivity), ← Real.exp_sub]
      congr 1; ring
    have k1 : exp (-2 * (x * u) - u ^ 2) * (1 + x * u) ^ 2 ≤ 1 := by
      have : 1 + x * u ≤ exp (x * u) := by linarith [Real.add_one_le_exp (x * u)]
      calc exp (-2 * (x * u) - u ^ 2) * (1 + x * u) ^ 2
          ≤ exp (-2 * (x * u) - u ^ 2) * exp (x * u) ^ 2 := by gcongr
        _ = exp (-u ^ 2) := by rw [← Real.exp_nat_mul, ← Real.exp_add]; congr 1; push_cast; ring
        _ ≤ 1 := Real.exp_le_one_iff.2 (by nlinarith [sq_nonneg u])
    have k2 : 1 - (1 + 4 * x ^ 2) * u ^ 2 ≤ exp (-2 * (x * u) - u ^ 2) * (1 + x * u) ^ 2 := by
      have h2 := exp_sub_two_sq (ha u h)
      calc 1 - (1 + 4 * x ^ 2) * u ^ 2 ≤ exp (-(1 + 4 * x ^ 2) * u ^ 2) := by
            linarith [Real.add_one_le_exp (-(1 + 4 * x ^ 2) * u ^ 2)]
        _ = exp (-2 * (x * u) - u ^ 2) * exp (x * u - 2 * (x * u) ^ 2) ^ 2 := by
            rw [← Real.exp_nat_mul, ← Real.exp_add]; congr 1; push_cast; ring
        _ ≤ _ := by gcongr
    have hsq : 0.8 ≤ (1 + x * u) ^ 2 := by nlinarith [h1.1]
    have hq : 0 < (1 + x * u) ^ 2 := by positivity
    rw [e, Real.norm_eq_abs]
    have e3 : exp (-2 * (x * u) - u ^ 2) - 1 / (1 + x * u) ^ 2
        = (exp (-2 * (x * u) - u ^ 2) * (1 + x * u) ^ 2 - 1) / (1 + x * u) ^ 2 := by
      field_simp
    rw [e3, abs_div, abs_of_pos hq, div_le_iff₀ hq]
    have hud : u ^ 2 ≤ |d| ^ 2 := by rw [sq_abs]; exact sq_le_sq.2 (hu u h)
    have h5 : (1 + 4 * x ^ 2) * u ^ 2 ≤ (1 + 4 * x ^ 2) * |d| ^ 2 := by gcongr
    have h6 : |exp (-2 * (x * u) - u ^ 2) * (1 + x * u) ^ 2 - 1| ≤ (1 + 4 * x ^ 2) * |d| ^ 2 := by
      rw [abs_le]; constructor <;> linarith [show 0 ≤ (1 + 4 * x ^ 2) * |d| ^ 2 by positivity]
    refine h6.trans ?_
    have : 0 ≤ (1 + 4 * x ^ 2) * |d| ^ 2 := by positivity
    nlinarith
  have h := (convex_uIcc 0 d).norm_image_sub_le_of_norm_hasDerivWithin_le hder hb
    left_mem_uIcc right_mem_uIcc
  simp only [add_zero, sub_self, zero_div, sub_zero, mul_zero, Real.norm_eq_abs] at h
  refine h.trans (le_of_eq ?_)
  ring

/-- The error of a step of Halley's method with a perturbed value `w` of `erfcExact x - y`. -/
theorem halley_perturbed {x y z w κ : ℝ} (hz : erfcExact z = y) (ha : |x * (z - x)| ≤ 0.1)
    (hκ : 1.25 * (1 + 4 * x ^ 2) * |z - x| ^ 3 + |w - (erfcExact x - y)| / slope x ≤ κ)
    (hk : |x| * κ * 1.1 ≤ 0.01) :
    |z - (x + w / (slope x - x * w))| ≤ κ * (1 + |x * (z - x)|) ^ 2 / 0.99 ∧
      0.9 * slope x ≤ slope x - x * w ∧ |w| ≤ (|z - x| / 0.9 + κ) * slope x := by
  have hs := slope_pos x
  obtain ⟨a, had⟩ : ∃ a, a = x * (z - x) := ⟨_, rfl⟩
  have h1 := newton_near ha
  rw [add_sub_cancel, hz, ← had] at h1
  obtain ⟨r, hr⟩ : ∃ r, r = w / slope x := ⟨_, rfl⟩
  have h2 : |r - (z - x) / (1 + a)| ≤ κ := by
    have e : r - (z - x) / (1 + a) = ((erfcExact x - y) / slope x - (z - x) / (1 + a))
        + (w - (erfcExact x - y)) / slope x := by rw [hr]; ring
    rw [e]
    refine (abs_add_le _ _).trans ?_
    rw [abs_div (w - (erfcExact x - y)), abs_of_pos hs]
    linarith
  rw [← had] at ha ⊢
  obtain ⟨ha1, ha2⟩ := abs_le.1 ha
  have hp : 0 < 1 + a := by linarith
  obtain ⟨k, hk'⟩ : ∃ k, k = r - (z - x) / (1 + a) := ⟨_, rfl⟩
  rw [← hk'] at h2
  have hr2 : r = (z - x) / (1 + a) + k := by rw [hk']; ring
  have hxr : 1 - x * r = 1 / (1 + a) - x * k := by
    rw [hr2]
    field_simp
    rw [had]; ring
  have hκ0 : 0 ≤ κ := (abs_nonneg _).trans h2
  have hxk : |x * k * (1 + a)| ≤ 0.01 := by
    rw [abs_mul, abs_mul, abs_of_pos hp]
    have : |x| * |k| ≤ |x| * κ := by gcongr
    have : 0 ≤ |x| * |k| := by positivity
    nlinarith
  have hden : 0 < 1 - x * k * (1 + a) := by linarith [(abs_le.1 hxk).2]
  have hw : w = r * slope x := by rw [hr, div_mul_cancel₀ _ hs.ne']
  have hslope : slope x - x * w = slope x * (1 - x * r) := by rw [hw]; ring
  have hstep : w / (slope x - x * w) = r / (1 - x * r) := by
    rw [hslope, hr, div_mul_eq_div_div]
  have h1r : 1 - x * r = (1 - x * k * (1 + a)) / (1 + a) := by
    rw [hxr]; field_simp
  have e : z - (x + w / (slope x - x * w)) = -(k * (1 + a) ^ 2 / (1 - x * k * (1 + a))) := by
    rw [hstep, h1r, hr2]
    have e1 : ((z - x) / (1 + a) + k) / ((1 - x * k * (1 + a)) / (1 + a))
        = ((z - x) + k * (1 + a)) / (1 - x * k * (1 + a)) := by
      field_simp
    rw [e1, ← neg_div, ← sub_sub, eq_div_iff hden.ne', sub_mul, div_mul_cancel₀ _ hden.ne']
    linear_combination k * (1 + a) * had
  have h8 : (0.99 : ℝ) ≤ 1 - x * k * (1 + a) := by
    have := (abs_le.1 hxk).2
    norm_num at this ⊢; linarith
  have h9 : 1 + a ≤ 1 + |a| := by linarith [le_abs_self a]
  refine ⟨?_, ?_, ?_⟩
  · rw [e, abs_neg, abs_div, abs_of_pos hden, abs_mul, abs_of_pos (by positivity : 0 < (1 + a) ^ 2)]
    gcongr
  · rw [hslope, mul_comm]
    refine mul_le_mul_of_nonneg_left ?_ hs.le
    rw [h1r, le_div_iff₀ hp]
    norm_num at h8 ha2 ⊢; linarith
  · rw [hw, abs_mul, abs_of_pos hs]
    refine mul_le_mul_of_nonneg_right ?_ hs.le
    rw [hr2]
    refine (abs_add_le _ _).trans (add_le_add ?_ h2)
    rw [abs_div, abs_of_pos hp]
    refine div_le_div_of_nonneg_left (abs_nonneg _) (by norm_num) ?_
    norm_num at ha1 ⊢; linarith

/-- The error of a step of Halley's method. -/
theorem halley_near {x y z κ : ℝ} (hx : 0 ≤ x) (hz : erfcExact z = y) (ha : |x * (z - x)| ≤ 0.1)
    (hκ : 1.25 * (1 + 4 * x ^ 2) * |z - x| ^ 3 + 6e-7 * (erfcExact x / slope x) ≤ κ)
    (hk : x * κ * 1.1 ≤ 0.01) :
    |z - erfcInvStep y x| ≤ κ * (1 + |x * (z - x)|) ^ 2 / 0.99 := by
  have hs := slope_pos x
  have hf := fit_accurate hx
  have h := (halley_perturbed (w := fit x - y) hz ha (le_trans (add_le_add le_rfl ?_) hκ)
    (by rwa [abs_of_nonneg hx])).1
  · rwa [erfcInvStep, erfcFit_of_nonneg hx]
  · rw [show fit x - y - (erfcExact x - y) = fit x - erfcExact x by ring, ← mul_div_assoc]
    gcongr

/-! ### Two steps -/

theorem tail_le {x : ℝ} (hx : 0 ≤ x) : erfcExact x / slope x ≤ 0.89 := by
  have hf := (abs_le.1 (fit_accurate hx)).1
  have h2 := (fit_small hx).2
  have h3 : 1.128379 * exp (-x ^ 2) ≤ slope x :=
    mul_le_mul_of_nonneg_right two_div_sqrt_pi.le (Real.exp_pos _).le
  have h4 := erfcExact_pos x
  have h5 := Real.exp_pos (-x ^ 2)
  rw [div_le_iff₀ (slope_pos x)]
  norm_num at hf h2 h3 ⊢
  linarith

theorem slope_le_tail {x : ℝ} (hx : 0 ≤ x) : slope x ≤ (2 * x + 1.4143) * erfcExact x := by
  have h := mills_le (-(√2 * x))
  have hP := Phi_pos (-(√2 * x))
  have s2 : √2 * √2 = (2 : ℝ) := Real.mul_self_sqrt (by norm_num)
  have s0 : (0 : ℝ) < √2 := by positivity
  have s1 : √(2 : ℝ) ≤ 1.4143 := by rw [Real.sqrt_le_left (by norm_num)]; norm_num
  rw [div_le_iff₀ hP, abs_neg, abs_of_nonneg (by positivity)] at h
  have e : slope x = 2 * √2 * normalPdf (-(√2 * x)) := by
    have e1 : -(-(√2 * x)) ^ 2 / 2 = -x ^ 2 := by
      rw [neg_sq, mul_pow, sq √2, s2]; ring
    have h3 : 0 < √π := Real.sqrt_pos.2 Real.pi_pos
    rw [slope, normalPdf, e1, Real.sqrt_mul (by norm_num)]
    field_simp
  rw [e, erfcExact]
  calc 2 * √2 * normalPdf (-(√2 * x)) ≤ 2 * √2 * ((√2 * x + 1) * Phi (-(√2 * x))) := by gcongr
    _ = (√2 * √2 * x + √2) * (2 * Phi (-(√2 * x))) := by ring
    _ ≤ _ := by rw [s2]; gcongr

theorem slope_le_slope {u v h : ℝ} (hu0 : 0 ≤ u) (hv0 : 0 ≤ v) (hu : u ≤ 6.5) (hv : v ≤ 6.5)
    (h1 : |u - v| ≤ h) : slope u ≤ exp (13 * h) * slope v := by
  have h3 : 0 < √π := Real.sqrt_pos.2 Real.pi_pos
  rw [slope, slope, mul_left_comm, ← Real.exp_add]
  have : -u ^ 2 ≤ 13 * h + -v ^ 2 := by
    have h2 := abs_le.1 h1
    have h4 := neg_abs_le (u - v)
    have : v ^ 2 - u ^ 2 ≤ (u + v) * |u - v| := by
      have : (v - u) ≤ |u - v| := by linarith
      nlinarith
    have : (u + v) * |u - v| ≤ 13 * h :=
      mul_le_mul (by linarith) h1 (abs_nonneg _) (by norm_num)
    linarith
  gcongr

theorem erfc_change {x z h : ℝ} (hx0 : 0 ≤ x) (hz0 : 0 ≤ z) (hx : x ≤ 6.5) (hz : z ≤ 6.5)
    (h1 : |x - z| ≤ h) : |erfcExact x - erfcExact z| ≤ exp (13 * h) * slope z * |x - z| := by
  have hb : ∀ u ∈ uIcc z x, ‖-slope u‖ ≤ exp (13 * h) * slope z := by
    intro u hu
    rw [norm_neg, Real.norm_eq_abs, abs_of_pos (slope_pos u)]
    have h2 := abs_sub_left_of_mem_uIcc hu
    have h3 := uIcc_subset_Icc (⟨hz0, hz⟩ : z ∈ Icc (0 : ℝ) 6.5) ⟨hx0, hx⟩ hu
    exact slope_le_slope h3.1 hz0 h3.2 hz (h2.trans h1)
  have := (convex_uIcc z x).norm_image_sub_le_of_norm_hasDerivWithin_le
    (fun u _ => (hasDerivAt_erfcExact u).hasDerivWithinAt) hb left_mem_uIcc right_mem_uIcc
  simpa [Real.norm_eq_abs] using this

/-- The inverse of the complementary error function is right to a relative error of 7e-7. -/
theorem erfcInv_accurate {y : ℝ} (h0 : 1e-17 ≤ y) (h1 : y ≤ 1) :
    |erfcExact (erfcInvStep y (erfcInvStep y (erfcInvGuess y))) - y| ≤ 7e-7 * y := by
  have hy : 0 < y := lt_of_lt_of_le (by norm_num) h0
  obtain ⟨z, hz0, hz⟩ := exists_erfc hy h1
  obtain ⟨g0, g1⟩ := guess_bounds hy h1
  have g2 := guess_near h0 h1 hz
  have g3 : erfcInvGuess y ≤ 6.365 := by
    refine g1.trans ?_
    rw [← mul_one_div]
    calc √(-2 * log (y / 2)) * (1 / √2) ≤ 9 * 0.7071068 :=
          mul_le_mul (root_lt_nine h0 h1).le sqrt_two_bounds.2 (by positivity) (by norm_num)
      _ ≤ _ := by norm_num
  obtain ⟨a0, -⟩ := step_bounds hy h1 g0
  obtain ⟨b0, -⟩ := step_bounds hy h1 a0
  set x₀ := erfcInvGuess y
  set x₁ := erfcInvStep y x₀
  set x₂ := erfcInvStep y x₁
  have m0 := tail_le g0.le
  have m1 := tail_le a0.le
  have p0 : 0 < erfcExact x₁ / slope x₁ := div_pos (erfcExact_pos _) (slope_pos _)
  -- the first step
  have d1 : |z - x₁| ≤ 2.4e-4 := by
    have ha : |x₀ * (z - x₀)| ≤ 0.06365 := by
      rw [abs_mul, abs_of_pos g0]
      calc x₀ * |z - x₀| ≤ 6.365 * 0.01 := mul_le_mul g3 g2 (abs_nonneg _) (by norm_num)
        _ ≤ _ := by norm_num
    have hκ : 1.25 * (1 + 4 * x₀ ^ 2) * |z - x₀| ^ 3 + 6e-7 * (erfcExact x₀ / slope x₀) ≤ 2.05e-4 := by
      have k1 : 1.25 * (1 + 4 * x₀ ^ 2) * |z - x₀| ^ 3 ≤ 1.25 * (1 + 4 * 6.365 ^ 2) * 0.01 ^ 3 := by
        gcongr
      norm_num at k1 m0 ⊢; linarith
    have h := halley_near g0.le hz (ha.trans (by norm_num)) hκ (by norm_num at g3 ⊢; linarith)
    refine h.trans ?_
    calc (2.05e-4 : ℝ) * (1 + |x₀ * (z - x₀)|) ^ 2 / 0.99 ≤ 2.05e-4 * (1 + 0.06365) ^ 2 / 0.99 := by
          gcongr
      _ ≤ _ := by norm_num
  have hz6 : z ≤ 6.38 := by have := (abs_le.1 g2).2; norm_num at this g3 ⊢; linarith
  have x6 : x₁ ≤ 6.4 := by have := (abs_le.1 d1).1; norm_num at this hz6 ⊢; linarith
  -- the second step
  have d2 : |z - x₂| ≤ 2.95e-9 + 6.09e-7 * (erfcExact x₁ / slope x₁) := by
    have ha : |x₁ * (z - x₁)| ≤ 1.54e-3 := by
      rw [abs_mul, abs_of_pos a0]
      calc x₁ * |z - x₁| ≤ 6.4 * 2.4e-4 := mul_le_mul x6 d1 (abs_nonneg _) (by norm_num)
        _ ≤ _ := by norm_num
    have hκ : 1.25 * (1 + 4 * x₁ ^ 2) * |z - x₁| ^ 3 + 6e-7 * (erfcExact x₁ / slope x₁)
        ≤ 2.86e-9 + 6e-7 * (erfcExact x₁ / slope x₁) := by
      have k1 : 1.25 * (1 + 4 * x₁ ^ 2) * |z - x₁| ^ 3 ≤ 1.25 * (1 + 4 * 6.4 ^ 2) * 2.4e-4 ^ 3 := by
        gcongr
      have k2 : (1.25 * (1 + 4 * 6.4 ^ 2) * 2.4e-4 ^ 3 : ℝ) ≤ 2.86e-9 := by norm_num
      linarith
    have h := halley_near a0.le hz (ha.trans (by norm_num)) hκ (by
      have : x₁ * (2.86e-9 + 6e-7 * (erfcExact x₁ / slope x₁)) ≤ 6.4 * (2.86e-9 + 6e-7 * 0.89) := by
        gcongr
      norm_num at this ⊢; linarith)
    refine h.trans ?_
    calc (2.86e-9 + 6e-7 * (erfcExact x₁ / slope x₁)) * (1 + |x₁ * (z - x₁)|) ^ 2 / 0.99
        ≤ (2.86e-9 + 6e-7 * (erfcExact x₁ / slope x₁)) * (1 + 1.54e-3) ^ 2 / 0.99 := by gcongr
      _ ≤ _ := by norm_num at p0 ⊢; linarith
  have d2' : |z - x₂| ≤ 1e-6 := by norm_num at d2 m1 ⊢; linarith
  have x6' : x₂ ≤ 6.4 := by have := (abs_le.1 d2').1; norm_num at this hz6 ⊢; linarith
  -- the tail
  have hsz := slope_le_tail hz0
  rw [hz] at hsz
  have hsz' : slope z ≤ 14.2 * y := by
    refine hsz.trans ?_
    gcongr
    norm_num at hz6 ⊢; linarith
  have hexp : exp (13 * 2.4e-4 : ℝ) ≤ 1.00314 := by
    have := Real.exp_bound_div_one_sub_of_interval (x := 13 * 2.4e-4) (by norm_num) (by norm_num)
    refine this.trans (by norm_num)
  have hexp' : exp (13 * 1e-6 : ℝ) ≤ 1.00002 := by
    have := Real.exp_bound_div_one_sub_of_interval (x := 13 * 1e-6) (by norm_num) (by norm_num)
    refine this.trans (by norm_num)
  have hz65 : z ≤ 6.5 := by norm_num at hz6 ⊢; linarith
  have x65 : x₁ ≤ 6.5 := by norm_num at x6 ⊢; linarith
  have x65' : x₂ ≤ 6.5 := by norm_num at x6' ⊢; linarith
  have c1 := erfc_change (h := 2.4e-4) a0.le hz0 x65 hz65 (by rw [abs_sub_comm]; exact d1)
  have c2 := erfc_change (h := 1e-6) b0.le hz0 x65' hz65 (by rw [abs_sub_comm]; exact d2')
  rw [hz, abs_sub_comm x₁ z] at c1
  rw [hz, abs_sub_comm x₂ z] at c2
  have hs0 := slope_pos z
  have e1 : erfcExact x₁ ≤ 1.0035 * y := by
    have : exp (13 * 2.4e-4) * slope z * |z - x₁| ≤ 1.00314 * (14.2 * y) * 2.4e-4 := by gcongr
    have h2 := (abs_le.1 (c1.trans this)).2
    norm_num at h2 ⊢; linarith
  have e2 : slope z * (erfcExact x₁ / slope x₁) ≤ 1.0067 * y := by
    have hsl := slope_le_slope hz0 a0.le hz65 x65 d1
    have hs1 := slope_pos x₁
    have h3 : slope z / slope x₁ ≤ 1.00314 := by
      rw [div_le_iff₀ hs1]
      exact hsl.trans (by gcongr)
    calc slope z * (erfcExact x₁ / slope x₁) = slope z / slope x₁ * erfcExact x₁ := by ring
      _ ≤ 1.00314 * (1.0035 * y) := mul_le_mul h3 e1 (erfcExact_pos _).le (by norm_num)
      _ ≤ _ := by norm_num; linarith
  refine c2.trans ?_
  calc exp (13 * 1e-6) * slope z * |z - x₂|
      ≤ 1.00002 * slope z * (2.95e-9 + 6.09e-7 * (erfcExact x₁ / slope x₁)) := by gcongr
    _ = 1.00002 * (2.95e-9 * slope z + 6.09e-7 * (slope z * (erfcExact x₁ / slope x₁))) := by ring
    _ ≤ 1.00002 * (2.95e-9 * (14.2 * y) + 6.09e-7 * (1.0067 * y)) := by gcongr
    _ ≤ 7e-7 * y := by norm_num; linarith

end Skillratings.TrueSkill
