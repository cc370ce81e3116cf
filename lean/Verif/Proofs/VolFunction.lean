import Mathlib.Analysis.Calculus.MeanValue
import Mathlib.Analysis.SpecialFunctions.ExpDeriv
import Mathlib.Analysis.Complex.ExponentialBounds
import Mathlib.Tactic.FieldSimp
import Mathlib.Tactic.Linarith
/-
The function of step 5 of Glicko-2, quantitatively: its zero and its slope.
-/
namespace Skillratings.Glicko2
open Real

/-- The first part of the function; `c` is `Δ² - φ² - v` and `d` is `φ² + v`. -/
noncomputable def volI (c d x : ℝ) : ℝ := exp x * (c - exp x) / (2 * (d + exp x) ^ 2)

/-- A bound for it. -/
noncomputable def volB (c d x : ℝ) : ℝ := exp x * (|c| + exp x) / (2 * (d + exp x) ^ 2)

/-- The function; `a₀` is the logarithm of the squared old volatility and `t` is `τ²`. -/
noncomputable def volF (c d a₀ t x : ℝ) : ℝ := volI c d x - (x - a₀) / t

/-- A range of parameters. -/
structure VolParams (c d a₀ t : ℝ) : Prop where
  d0 : 1 / 2 ^ 20 ≤ d
  d1 : d ≤ 2 ^ 15
  c0 : -d ≤ c
  c1 : t * c ≤ 13 * d
  t0 : 1 / 2 ^ 10 ≤ t
  t1 : t ≤ 3 / 2
  a0 : -19 ≤ a₀
  a1 : a₀ ≤ -(41 / 10)
  z : exp a₀ ≤ d / 50
  cz : t * |c| * exp a₀ ≤ 13 / 400 * d ^ 2

section
variable {c d a₀ t x : ℝ}

/-- The slope of the first part. -/
noncomputable def slopeI (c d x : ℝ) : ℝ :=
  exp x * (c * (d - exp x) - 2 * d * exp x) / (2 * (d + exp x) ^ 3)

theorem hasDerivAt_volI (hd : 0 < d) (x : ℝ) : HasDerivAt (volI c d) (slopeI c d x) x := by
  have hp := exp_pos x
  have h1 : HasDerivAt (fun x => exp x * (c - exp x)) (exp x * (c - exp x) + exp x * (0 - exp x)) x :=
    (Real.hasDerivAt_exp x).mul ((hasDerivAt_const x c).sub (Real.hasDerivAt_exp x))
  have h2 : HasDerivAt (fun x => 2 * (d + exp x) ^ 2) (2 * (2 * (d + exp x) ^ 1 * (0 + exp x))) x := by
    have := (((hasDerivAt_const x d).add (Real.hasDerivAt_exp x)).pow 2).const_mul 2
    simpa using this
  have h3 := h1.div h2 (by positivity : 2 * (d + exp x) ^ 2 ≠ 0)
  refine h3.congr_deriv ?_
  rw [slopeI]
  field_simp
  ring

theorem hasDerivAt_volF (hd : 0 < d) (x : ℝ) : HasDerivAt (volF c d a₀ t) (slopeI c d x - 1 / t) x := by
  have h := ((hasDerivAt_id x).sub_const a₀).div_const t
  exact (hasDerivAt_volI hd x).sub h

theorem abs_volI_le (hd : 0 < d) (x : ℝ) : |volI c d x| ≤ volB c d x := by
  have hp := exp_pos x
  rw [volI, volB, abs_div, abs_of_pos (by positivity : 0 < 2 * (d + exp x) ^ 2), abs_mul, abs_of_pos hp]
  gcongr
  refine (abs_sub _ _).trans ?_
  rw [abs_of_pos hp]

theorem VolParams.dpos (P : VolParams c d a₀ t) : 0 < d := lt_of_lt_of_le (by positivity) P.d0
theorem VolParams.tpos (P : VolParams c d a₀ t) : 0 < t := lt_of_lt_of_le (by positivity) P.t0

theorem VolParams.abs_c (P : VolParams c d a₀ t) : t * |c| ≤ 13 * d := by
  have hd := P.dpos
  have ht := P.tpos
  rcases abs_cases c with ⟨h, -⟩ | ⟨h, -⟩
  · rw [h]; exact P.c1
  · rw [h]
    have h1 : t * -c ≤ t * d := mul_le_mul_of_nonneg_left (by linarith [P.c0]) ht.le
    have h2 : t * d ≤ 3 / 2 * d := mul_le_mul_of_nonneg_right P.t1 hd.le
    linarith

theorem VolParams.bound (P : VolParams c d a₀ t) (x : ℝ) :
    t * volB c d x ≤ 13 / 2 * (exp x / (d + exp x)) := by
  have hd := P.dpos
  have ht := P.tpos
  have hp := exp_pos x
  rw [volB, ← mul_div_assoc, mul_div_assoc', div_le_div_iff₀ (by positivity) (by positivity)]
  generalize exp x = p at *
  have h1 : t * (|c| + p) ≤ 13 * (d + p) := by
    have : t * p ≤ 3 / 2 * p := mul_le_mul_of_nonneg_right P.t1 hp.le
    linarith [P.abs_c]
  have h2 : p * (d + p) * (t * (|c| + p)) ≤ p * (d + p) * (13 * (d + p)) :=
    mul_le_mul_of_nonneg_left h1 (by positivity)
  linarith

theorem VolParams.bound_one (P : VolParams c d a₀ t) (x : ℝ) : t * volB c d x ≤ 13 / 2 := by
  have hd := P.dpos
  have hp := exp_pos x
  have : exp x / (d + exp x) ≤ 1 := by rw [div_le_one (by positivity)]; linarith
  linarith [P.bound x]

theorem VolParams.exp_at (P : VolParams c d a₀ t) {y : ℝ} (hx : x ≤ a₀ + y) (hy : y < 1) :
    exp x ≤ d / 50 / (1 - y) ∧ t * |c| * exp x ≤ 13 / 400 * d ^ 2 / (1 - y) := by
  have hd := P.dpos
  have ht := P.tpos
  have h1 : exp x ≤ exp a₀ * exp y := by rw [← exp_add]; exact exp_le_exp.2 hx
  have h2 : exp y ≤ 1 / (1 - y) := by
    have h3 := Real.add_one_le_exp (-y)
    rw [exp_neg] at h3
    rw [le_div_iff₀ (by linarith), mul_comm]
    have := mul_le_mul_of_nonneg_right (by linarith : 1 - y ≤ (exp y)⁻¹) (exp_pos y).le
    rwa [inv_mul_cancel₀ (exp_pos y).ne'] at this
  constructor
  · refine h1.trans ((mul_le_mul P.z h2 (exp_pos y).le (by positivity)).trans (le_of_eq ?_))
    rw [mul_one_div]
  · calc t * |c| * exp x ≤ t * |c| * (exp a₀ * exp y) := mul_le_mul_of_nonneg_left h1 (by positivity)
      _ = (t * |c| * exp a₀) * exp y := by ring
      _ ≤ (13 / 400 * d ^ 2) * (1 / (1 - y)) := mul_le_mul P.cz h2 (exp_pos y).le (by positivity)
      _ = _ := by rw [mul_one_div]

theorem VolParams.bound_at (P : VolParams c d a₀ t) {y : ℝ} (hx : x ≤ a₀ + y) (hy : y < 1) :
    t * volB c d x ≤ 13 / 800 / (1 - y) + 3 / 10000 / (1 - y) ^ 2 := by
  have hd := P.dpos
  have hp := exp_pos x
  have hy0 : 0 < 1 - y := by linarith
  obtain ⟨h1, h2⟩ := P.exp_at hx hy
  have h3 : exp x ^ 2 ≤ (d / 50 / (1 - y)) ^ 2 := pow_le_pow_left₀ hp.le h1 2
  have h4 : t * exp x ^ 2 ≤ 3 / 2 * (d / 50 / (1 - y)) ^ 2 := mul_le_mul P.t1 h3 (by positivity) (by norm_num)
  have h5 : 2 * d ^ 2 ≤ 2 * (d + exp x) ^ 2 := by
    have : d ^ 2 ≤ (d + exp x) ^ 2 := pow_le_pow_left₀ hd.le (by linarith) 2
    linarith
  have h6 : t * (exp x * (|c| + exp x)) ≤ (13 / 800 / (1 - y) + 3 / 10000 / (1 - y) ^ 2) * (2 * d ^ 2) := by
    have e : (13 / 800 / (1 - y) + 3 / 10000 / (1 - y) ^ 2) * (2 * d ^ 2) =
        13 / 400 * d ^ 2 / (1 - y) + 3 / 2 * (d / 50 / (1 - y)) ^ 2 := by
      field_simp; ring
    rw [e]
    linarith
  rw [volB, ← mul_div_assoc, div_le_iff₀ (by positivity)]
  exact h6.trans (mul_le_mul_of_nonneg_left h5 (by positivity))

/-! ### The slope -/

theorem VolParams.slope_le (P : VolParams c d a₀ t) (x : ℝ) : t * slopeI c d x ≤ 64 / 100 := by
  have hd := P.dpos
  have ht := P.tpos
  have hp := exp_pos x
  have hc := P.c0
  have hc1 := P.c1
  rw [slopeI, ← mul_div_assoc, div_le_iff₀ (by positivity)]
  generalize exp x = p at *
  have hdp : 0 < d * p := mul_pos hd hp
  rcases le_or_gt c 0 with h | h
  · have h1 : c * (d - p) ≤ d * p := by
      nlinarith [mul_nonneg (by linarith : 0 ≤ -c) hd.le, mul_nonneg (by linarith : 0 ≤ c + d) hp.le]
    have h2 : t * (p * (c * (d - p) - 2 * d * p)) ≤ 0 :=
      mul_nonpos_of_nonneg_of_nonpos ht.le (mul_nonpos_of_nonneg_of_nonpos hp.le (by linarith))
    have h3 : 0 ≤ 64 / 100 * (2 * (d + p) ^ 3) := by positivity
    linarith
  · rcases le_or_gt d p with h' | h'
    · have h1 : c * (d - p) ≤ 0 := mul_nonpos_of_nonneg_of_nonpos h.le (by linarith)
      have h2 : t * (p * (c * (d - p) - 2 * d * p)) ≤ 0 :=
        mul_nonpos_of_nonneg_of_nonpos ht.le (mul_nonpos_of_nonneg_of_nonpos hp.le (by linarith))
      have h3 : 0 ≤ 64 / 100 * (2 * (d + p) ^ 3) := by positivity
      linarith
    · have h1 : t * c * (p * (d - p)) ≤ 13 * d * (p * (d - p)) :=
        mul_le_mul_of_nonneg_right hc1 (mul_nonneg hp.le (by linarith))
      have h2 : 0 ≤ t * (p * (2 * d * p)) := by positivity
      have h3 : 41 / 4 * (d * p * (d - p)) ≤ (d + p) ^ 3 := by
        have k1 : 0 ≤ d * (d ^ 2 - 29 / 4 * d * p + 53 / 4 * p ^ 2) := by
          apply mul_nonneg hd.le
          nlinarith [sq_nonneg (d - 29 / 8 * p), sq_nonneg p]
        have k2 : 0 ≤ p ^ 3 := by positivity
        nlinarith
      have h4 : 0 ≤ (d + p) ^ 3 := by positivity
      linarith

theorem VolParams.le_slope (P : VolParams c d a₀ t) (x : ℝ) : -(6 / 5) ≤ t * slopeI c d x := by
  have hd := P.dpos
  have ht := P.tpos
  have hp := exp_pos x
  have hc := P.c0
  have hc1 := P.c1
  have ht1 := P.t1
  rw [slopeI, ← mul_div_assoc, le_div_iff₀ (by positivity)]
  generalize exp x = p at *
  have hdp : 0 < d * p := mul_pos hd hp
  have k0 : 27 * (d * p ^ 2) ≤ 4 * (d + p) ^ 3 := by
    have : 0 ≤ (p - 2 * d) ^ 2 * (4 * p + d) := by positivity
    linarith
  have k1 : d * p * (d + p) ≤ (d + p) ^ 3 := by
    have : d * p ≤ (d + p) ^ 2 := by nlinarith [sq_nonneg (d - p)]
    have := mul_le_mul_of_nonneg_right this (by linarith : 0 ≤ d + p)
    linarith
  have k2 : 0 < (d + p) ^ 3 := by positivity
  have hdt : t * (d * p ^ 2) ≤ 3 / 2 * (d * p ^ 2) := mul_le_mul_of_nonneg_right ht1 (by positivity)
  rcases le_or_gt 0 c with h | h
  · have h1 : t * c * p ^ 2 ≤ 13 * d * p ^ 2 := mul_le_mul_of_nonneg_right hc1 (by positivity)
    have h2 : 0 ≤ t * c * (p * d) := by positivity
    linarith
  · rcases le_or_gt p d with h' | h'
    · have h1 : -d * (d - p) ≤ c * (d - p) := mul_le_mul_of_nonneg_right hc (by linarith)
      have h2 : t * p * (-d * (d - p)) ≤ t * p * (c * (d - p)) := mul_le_mul_of_nonneg_left h1 (by positivity)
      have h3 : t * (d * p * (d + p)) ≤ 3 / 2 * (d * p * (d + p)) := mul_le_mul_of_nonneg_right ht1 (by positivity)
      have h4 : 8 * (d * p * (d + p)) ≤ 2 * (d + p) ^ 3 := by
        have : 4 * (d * p) ≤ (d + p) ^ 2 := by nlinarith [sq_nonneg (d - p)]
        have := mul_le_mul_of_nonneg_right this (by linarith : 0 ≤ d + p)
        linarith
      linarith
    · have h1 : 0 ≤ t * p * (c * (d - p)) :=
        mul_nonneg (by positivity) (mul_nonneg_of_nonpos_of_nonpos h.le (by linarith))
      linarith

theorem VolParams.slope_near (P : VolParams c d a₀ t) (hx : x ≤ a₀ + 12 / 100) :
    |t * slopeI c d x| ≤ 2 / 100 := by
  have hd := P.dpos
  have ht := P.tpos
  have hp := exp_pos x
  have ht1 := P.t1
  obtain ⟨h1, h2⟩ := P.exp_at hx (by norm_num)
  rw [slopeI, ← mul_div_assoc, abs_div, abs_of_pos (by positivity : 0 < 2 * (d + exp x) ^ 3),
    div_le_iff₀ (by positivity)]
  generalize exp x = p at *
  have h3 : 44 * p ≤ d := by norm_num at h1; linarith
  have h4 : |t * (p * (c * (d - p) - 2 * d * p))| ≤ t * |c| * p * d + 3 * (d * p ^ 2) := by
    rw [show t * (p * (c * (d - p) - 2 * d * p)) = t * c * p * (d - p) - t * (2 * (d * p ^ 2)) by ring]
    refine (abs_sub _ _).trans ?_
    rw [abs_mul, abs_mul, abs_mul, abs_of_pos ht, abs_of_pos hp, abs_of_pos (by linarith : 0 < d - p),
      abs_of_pos (by positivity : 0 < t * (2 * (d * p ^ 2)))]
    have h5 : t * |c| * p * (d - p) ≤ t * |c| * p * d := mul_le_mul_of_nonneg_left (by linarith) (by positivity)
    have h6 : t * (d * p ^ 2) ≤ 3 / 2 * (d * p ^ 2) := mul_le_mul_of_nonneg_right ht1 (by positivity)
    linarith
  refine h4.trans ?_
  have h5 : t * |c| * p * d ≤ 13 / 400 * d ^ 2 / (1 - 12 / 100) * d := mul_le_mul_of_nonneg_right h2 hd.le
  have h6 : p ^ 2 ≤ (d / 44) ^ 2 := pow_le_pow_left₀ hp.le (by linarith) 2
  have h7 : d * p ^ 2 ≤ d * (d / 44) ^ 2 := mul_le_mul_of_nonneg_left h6 hd.le
  have h8 : d ^ 3 ≤ (d + p) ^ 3 := pow_le_pow_left₀ hd.le (by linarith) 3
  have h9 : 0 < d ^ 3 := by positivity
  have e1 : 13 / 400 * d ^ 2 / (1 - 12 / 100) * d = 13 / 352 * d ^ 3 := by ring
  have e2 : d * (d / 44) ^ 2 = d ^ 3 / 1936 := by ring
  rw [e1] at h5
  rw [e2] at h7
  linarith

/-! ### The zero -/

theorem continuous_volF (hd : 0 < d) : Continuous (volF c d a₀ t) :=
  continuous_iff_continuousAt.2 fun x => (hasDerivAt_volF hd x).continuousAt

theorem VolParams.exists_zero (P : VolParams c d a₀ t) :
    ∃ r, volF c d a₀ t r = 0 ∧ |r - a₀| ≤ 2 / 100 := by
  have hd := P.dpos
  have ht := P.tpos
  have key : ∀ y, y ≤ a₀ + 2 / 100 → |t * volI c d y| ≤ 17 / 1000 := by
    intro y hy
    rw [abs_mul, abs_of_pos ht]
    refine (mul_le_mul_of_nonneg_left (abs_volI_le hd y) ht.le).trans ?_
    exact (P.bound_at hy (by norm_num)).trans (by norm_num)
  have h1 : volF c d a₀ t (a₀ + 2 / 100) ≤ 0 := by
    have := (abs_le.1 (key (a₀ + 2 / 100) le_rfl)).2
    rw [volF, sub_nonpos, le_div_iff₀ ht]
    linarith
  have h2 : 0 ≤ volF c d a₀ t (a₀ - 2 / 100) := by
    have := (abs_le.1 (key (a₀ - 2 / 100) (by linarith))).1
    rw [volF, sub_nonneg, div_le_iff₀ ht]
    linarith
  have := intermediate_value_Icc' (by linarith : a₀ - 2 / 100 ≤ a₀ + 2 / 100)
    (continuous_volF (c := c) (a₀ := a₀) (t := t) hd).continuousOn
  obtain ⟨r, hr, h0⟩ := this ⟨h1, h2⟩
  exact ⟨r, h0, by rw [abs_le]; constructor <;> linarith [hr.1, hr.2]⟩

/-- The function is close to a line of slope `-1/t` through its zero. -/
theorem VolParams.line (P : VolParams c d a₀ t) {r : ℝ} (h0 : volF c d a₀ t r = 0) (hr : |r - a₀| ≤ 2 / 100)
    (x : ℝ) : ∃ k, t * volF c d a₀ t x = -(k * (x - r)) ∧ 36 / 100 ≤ k ∧ k ≤ 22 / 10 ∧
      (|x - r| ≤ 1 / 10 → 98 / 100 ≤ k ∧ k ≤ 102 / 100) := by
  have hd := P.dpos
  have ht := P.tpos
  have hr' := abs_le.1 hr
  rcases eq_or_ne x r with rfl | hne
  · refine ⟨1, ?_, by norm_num, by norm_num, fun _ => by norm_num⟩
    rw [h0]; ring
  obtain ⟨ξ, hξ, hs⟩ : ∃ ξ, ((r < ξ ∧ ξ < x) ∨ (x < ξ ∧ ξ < r)) ∧
      volF c d a₀ t x - volF c d a₀ t r = (slopeI c d ξ - 1 / t) * (x - r) := by
    rcases lt_or_gt_of_ne hne with h | h
    · obtain ⟨ξ, h1, h2⟩ := exists_hasDerivAt_eq_slope (volF c d a₀ t) _ h
        (continuous_volF hd).continuousOn (fun y _ => hasDerivAt_volF hd y)
      refine ⟨ξ, Or.inr h1, ?_⟩
      have : r - x ≠ 0 := by linarith
      rw [h2]; field_simp; ring
    · obtain ⟨ξ, h1, h2⟩ := exists_hasDerivAt_eq_slope (volF c d a₀ t) _ h
        (continuous_volF hd).continuousOn (fun y _ => hasDerivAt_volF hd y)
      refine ⟨ξ, Or.inl h1, ?_⟩
      have : x - r ≠ 0 := by linarith
      rw [h2]; field_simp
  rw [h0, sub_zero] at hs
  refine ⟨1 - t * slopeI c d ξ, ?_, ?_, ?_, fun hx => ?_⟩
  · rw [hs]; field_simp; ring
  · linarith [P.slope_le ξ]
  · linarith [P.le_slope ξ]
  · have hx' := abs_le.1 hx
    have hξ' : ξ ≤ a₀ + 12 / 100 := by
      rcases hξ with h | h <;> linarith
    have := abs_le.1 (P.slope_near hξ')
    constructor <;> linarith [this.1, this.2]

end
end Skillratings.Glicko2
