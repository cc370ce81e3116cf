import Mathlib.Analysis.Calculus.MeanValue
import Mathlib.Analysis.SpecialFunctions.Sqrt
import Mathlib.Analysis.SpecialFunctions.Trigonometric.DerivHyp
import Verif.Proofs.WengLin
/-
How a Weng-Lin game reacts to a change of the player's rating and uncertainty.
-/

namespace Skillratings.WengLin
open Real Spec

/-- `z S(z) (1 - S(z))` is at most a quarter. -/
theorem sigmoid_slope_le (z : ℝ) : |z| * (sigmoid z * (1 - sigmoid z)) ≤ 1 / 4 := by
  have h1 : sigmoid z * (1 - sigmoid z) = 1 / (2 + 2 * cosh z) := by
    rw [← sigmoid_neg, sigmoid_def, sigmoid_def, cosh_eq, neg_neg]
    have := exp_pos z
    have := exp_pos (-z)
    have e : exp z * exp (-z) = 1 := by rw [← exp_add, add_neg_cancel, exp_zero]
    field_simp
    nlinarith
  have h2 : 1 + |z| ^ 2 / 2 ≤ cosh z := by
    have h3 : |z| / 2 ≤ sinh (|z| / 2) := self_le_sinh_iff.2 (by positivity)
    have h4 : cosh |z| = 1 + 2 * sinh (|z| / 2) ^ 2 := by
      have := cosh_two_mul (|z| / 2)
      rw [cosh_sq, show 2 * (|z| / 2) = |z| by ring] at this
      linarith
    rw [← cosh_abs, h4]
    have : (|z| / 2) ^ 2 ≤ sinh (|z| / 2) ^ 2 := pow_le_pow_left₀ (by positivity) h3 2
    nlinarith
  have h0 : 0 < 2 + 2 * cosh z := by have := cosh_pos z; linarith
  rw [h1, mul_one_div, div_le_iff₀ h0]
  nlinarith [sq_nonneg (|z| - 2)]

theorem sigmoid_var (z : ℝ) : 0 ≤ sigmoid z * (1 - sigmoid z) ∧ sigmoid z * (1 - sigmoid z) ≤ 1 / 4 :=
  ⟨mul_nonneg (sigmoid_nonneg z) (by linarith [sigmoid_le_one z]), by nlinarith [sq_nonneg (2 * sigmoid z - 1)]⟩

/-- A function on the positive numbers with a bounded derivative. -/
theorem lip_of_deriv {f f' : ℝ → ℝ} {K : ℝ} (h : ∀ s, 0 < s → HasDerivAt f (f' s) s) (hK : ∀ s, 0 < s → |f' s| ≤ K)
    {s t : ℝ} (hs : 0 < s) (ht : 0 < t) : |f s - f t| ≤ K * |s - t| := by
  have := Convex.norm_image_sub_le_of_norm_hasDerivWithin_le (f := f) (f' := f') (s := Set.Ioi 0) (C := K)
    (fun x hx => (h x hx).hasDerivWithinAt) (fun x hx => hK x hx) (convex_Ioi 0) (x := t) (y := s) ht hs
  exact this

section
variable {D d x : ℝ}

/-- The total uncertainty. -/
noncomputable def tot (D s : ℝ) : ℝ := √(s ^ 2 + D)

theorem tot_pos (hD : 0 ≤ D) {s : ℝ} (hs : 0 < s) : 0 < tot D s := Real.sqrt_pos.2 (by positivity)

theorem le_tot (hD : 0 ≤ D) {s : ℝ} (hs : 0 < s) : s ≤ tot D s := Real.le_sqrt_of_sq_le (by linarith)

theorem tot_deriv (hD : 0 ≤ D) {s : ℝ} (hs : 0 < s) : HasDerivAt (tot D) (s / tot D s) s := by
  have h1 : HasDerivAt (fun s : ℝ => s ^ 2 + D) (2 * s) s := by
    simpa using (hasDerivAt_pow 2 s).add_const D
  refine (h1.sqrt (by positivity)).congr_deriv ?_
  have : 0 < √(s ^ 2 + D) := tot_pos hD hs
  change 2 * s / (2 * √(s ^ 2 + D)) = s / √(s ^ 2 + D)
  field_simp

theorem share_deriv (hD : 0 ≤ D) {s : ℝ} (hs : 0 < s) :
    HasDerivAt (fun s => s / tot D s) ((1 - (s / tot D s) ^ 2) / tot D s) s := by
  have hc := tot_pos hD hs
  refine ((hasDerivAt_id s).div (tot_deriv hD hs) hc.ne').congr_deriv ?_
  change (1 * tot D s - s * (s / tot D s)) / tot D s ^ 2 = _
  field_simp

theorem prob_deriv (hD : 0 ≤ D) {s : ℝ} (hs : 0 < s) :
    HasDerivAt (fun s => sigmoid (d / tot D s)) (sigmoid (d / tot D s) * (1 - sigmoid (d / tot D s))
      * (-(d / tot D s) * (s / tot D s) / tot D s)) s := by
  have hc := tot_pos hD hs
  have h1 : HasDerivAt (fun s => d / tot D s) (-(d / tot D s) * (s / tot D s) / tot D s) s := by
    refine ((hasDerivAt_const s d).div (tot_deriv hD hs) hc.ne').congr_deriv ?_
    field_simp
    ring
  exact (hasDerivAt_sigmoid _).comp s h1

/-- The change of the rating as a function of the uncertainty. -/
theorem gain_lip (hD : 0 ≤ D) (hx : 0 ≤ x ∧ x ≤ 1) {s t : ℝ} (hs : 0 < s) (ht : 0 < t) :
    |s ^ 2 / tot D s * (x - sigmoid (d / tot D s)) - t ^ 2 / tot D t * (x - sigmoid (d / tot D t))|
      ≤ 1.34 * |s - t| := by
  refine lip_of_deriv (f := fun s => s ^ 2 / tot D s * (x - sigmoid (d / tot D s)))
    (f' := fun s => (2 * (s / tot D s) - (s / tot D s) ^ 3) * (x - sigmoid (d / tot D s))
      + s ^ 2 / tot D s * -(sigmoid (d / tot D s) * (1 - sigmoid (d / tot D s))
      * (-(d / tot D s) * (s / tot D s) / tot D s))) ?_ ?_ hs ht
  · intro s hs
    have hc := tot_pos hD hs
    have h1 : HasDerivAt (fun s => s ^ 2 / tot D s) (2 * (s / tot D s) - (s / tot D s) ^ 3) s := by
      refine ((hasDerivAt_pow 2 s).div (tot_deriv hD hs) hc.ne').congr_deriv ?_
      field_simp
      norm_num
      ring
    exact h1.mul ((prob_deriv hD hs).const_sub x)
  · intro s hs
    have hc := tot_pos hD hs
    set c := tot D s with hcc
    have hu1 : s / c ≤ 1 := (div_le_one hc).2 (le_tot hD hs)
    have hu0 : 0 ≤ s / c := by positivity
    set z := d / c with hz
    have e : s ^ 2 / c * -(sigmoid z * (1 - sigmoid z) * (-z * (s / c) / c))
        = (s / c) ^ 3 * (z * (sigmoid z * (1 - sigmoid z))) := by
      field_simp
    rw [e]
    set u := s / c with hu
    have a1 : |(2 * u - u ^ 3) * (x - sigmoid z)| ≤ 1.09 := by
      rw [abs_mul]
      have b1 : 0 ≤ 2 * u - u ^ 3 := by nlinarith [mul_nonneg hu0 (sub_nonneg.2 hu1), mul_nonneg (mul_nonneg hu0 hu0) (sub_nonneg.2 hu1)]
      have b2 : 2 * u - u ^ 3 ≤ 1.09 := by
        nlinarith [mul_nonneg hu0 (sq_nonneg (u - 0.8165)), sq_nonneg (u - 0.8165)]
      have b3 : |x - sigmoid z| ≤ 1 := by
        have := sigmoid_nonneg z
        have := sigmoid_le_one z
        exact abs_le.2 ⟨by linarith [hx.1], by linarith [hx.2]⟩
      rw [abs_of_nonneg b1]
      calc _ ≤ 1.09 * 1 := mul_le_mul b2 b3 (abs_nonneg _) (by norm_num)
        _ = _ := by norm_num
    have a2 : |u ^ 3 * (z * (sigmoid z * (1 - sigmoid z)))| ≤ 1 / 4 := by
      rw [abs_mul, abs_mul z, abs_of_nonneg (sigmoid_var z).1, abs_of_nonneg (by positivity)]
      calc _ ≤ 1 * (1 / 4) := mul_le_mul (pow_le_one₀ hu0 hu1) (sigmoid_slope_le z)
            (mul_nonneg (abs_nonneg _) (sigmoid_var z).1) (by norm_num)
        _ = _ := by norm_num
    refine (abs_add_le _ _).trans ?_
    norm_num at a1 a2 ⊢
    linarith

/-- The shrinking of the uncertainty as a function of the uncertainty. -/
theorem shrink_lip (hD : 0 ≤ D) {s t : ℝ} (hs : 0 < s) (ht : 0 < t) :
    |s * √(1 - (s / tot D s) ^ 3 * (sigmoid (d / tot D s) * (1 - sigmoid (d / tot D s))))
      - t * √(1 - (t / tot D t) ^ 3 * (sigmoid (d / tot D t) * (1 - sigmoid (d / tot D t))))| ≤ 1.25 * |s - t| := by
  have key : ∀ s, 0 < s → 3 / 4 ≤ 1 - (s / tot D s) ^ 3 * (sigmoid (d / tot D s) * (1 - sigmoid (d / tot D s))) ∧
      1 - (s / tot D s) ^ 3 * (sigmoid (d / tot D s) * (1 - sigmoid (d / tot D s))) ≤ 1 := by
    intro s hs
    have hc := tot_pos hD hs
    have hu1 : s / tot D s ≤ 1 := (div_le_one hc).2 (le_tot hD hs)
    have hu0 : 0 ≤ s / tot D s := by positivity
    have h3 := pow_le_one₀ hu0 hu1 (n := 3)
    have h4 := sigmoid_var (d / tot D s)
    have h5 := mul_le_mul h3 h4.2 h4.1 (by norm_num)
    have h6 := mul_nonneg (pow_nonneg hu0 3) h4.1
    constructor <;> linarith
  refine lip_of_deriv
    (f := fun s => s * √(1 - (s / tot D s) ^ 3 * (sigmoid (d / tot D s) * (1 - sigmoid (d / tot D s)))))
    (f' := fun s => 1 * √(1 - (s / tot D s) ^ 3 * (sigmoid (d / tot D s) * (1 - sigmoid (d / tot D s))))
      + s * (-(3 * (s / tot D s) ^ 2 * ((1 - (s / tot D s) ^ 2) / tot D s)
          * (sigmoid (d / tot D s) * (1 - sigmoid (d / tot D s)))
        + (s / tot D s) ^ 3 * (sigmoid (d / tot D s) * (1 - sigmoid (d / tot D s))
            * (-(d / tot D s) * (s / tot D s) / tot D s) * (1 - sigmoid (d / tot D s))
          + sigmoid (d / tot D s) * -(sigmoid (d / tot D s) * (1 - sigmoid (d / tot D s))
            * (-(d / tot D s) * (s / tot D s) / tot D s))))
        / (2 * √(1 - (s / tot D s) ^ 3 * (sigmoid (d / tot D s) * (1 - sigmoid (d / tot D s)))))))
    ?_ ?_ hs ht
  · intro s hs
    have hq := (key s hs).1
    have hp := prob_deriv (d := d) hD hs
    have h1 : HasDerivAt (fun s => (s / tot D s) ^ 3) (3 * (s / tot D s) ^ 2 * ((1 - (s / tot D s) ^ 2) / tot D s)) s := by
      exact ((share_deriv hD hs).pow 3).congr_deriv (by norm_num)
    have h2 := h1.mul (hp.mul (hp.const_sub 1))
    have h3 := ((h2.const_sub 1).sqrt (ne_of_gt (lt_of_lt_of_le (by norm_num) hq)))
    exact (hasDerivAt_id s).mul h3
  · intro s hs
    obtain ⟨hq, hq1⟩ := key s hs
    have hc := tot_pos hD hs
    set c := tot D s with hcc
    have hu1 : s / c ≤ 1 := (div_le_one hc).2 (le_tot hD hs)
    have hu0 : 0 ≤ s / c := by positivity
    set z := d / c with hz
    set P := sigmoid z with hP
    set Y := √(1 - (s / c) ^ 3 * (P * (1 - P))) with hY
    have hY0 : 0.866 ≤ Y := Real.le_sqrt_of_sq_le (by norm_num at hq ⊢; linarith)
    have hY1 : Y ≤ 1 := Real.sqrt_le_one.2 hq1
    have e : s * (-(3 * (s / c) ^ 2 * ((1 - (s / c) ^ 2) / c) * (P * (1 - P))
        + (s / c) ^ 3 * (P * (1 - P) * (-z * (s / c) / c) * (1 - P) + P * -(P * (1 - P) * (-z * (s / c) / c))))
        / (2 * Y)) = (-(3 * ((s / c) ^ 3 * (1 - (s / c) ^ 2)) * (P * (1 - P)))
          + (s / c) ^ 5 * (z * (P * (1 - P)) * (1 - 2 * P))) / (2 * Y) := by
      field_simp
      ring
    rw [e]
    set u := s / c with hu
    have p0 : 0 ≤ P := sigmoid_nonneg z
    have p1 : P ≤ 1 := sigmoid_le_one z
    have v := sigmoid_var z
    have w0 : 0 ≤ u ^ 3 * (1 - u ^ 2) := mul_nonneg (by positivity) (by nlinarith)
    have w1 : u ^ 3 * (1 - u ^ 2) ≤ 0.19 := by
      nlinarith [sq_nonneg (u - 0.7746), mul_nonneg hu0 (sq_nonneg (u - 0.7746)), sq_nonneg (u ^ 2 - 0.6),
        mul_nonneg hu0 (sq_nonneg (u ^ 2 - 0.6)), mul_nonneg (pow_nonneg hu0 3) (sq_nonneg (u - 0.7746))]
    have b1 : |3 * (u ^ 3 * (1 - u ^ 2)) * (P * (1 - P))| ≤ 0.1425 := by
      rw [abs_of_nonneg (mul_nonneg (by linarith) v.1)]
      calc _ ≤ 3 * 0.19 * (1 / 4) := mul_le_mul (by linarith) v.2 v.1 (by norm_num)
        _ = _ := by norm_num
    have b2 : |u ^ 5 * (z * (P * (1 - P)) * (1 - 2 * P))| ≤ 1 / 4 := by
      rw [abs_mul, abs_mul, abs_mul z, abs_of_nonneg v.1, abs_of_nonneg (by positivity)]
      have h1 : |1 - 2 * P| ≤ 1 := abs_le.2 ⟨by linarith, by linarith⟩
      calc _ ≤ 1 * (1 / 4 * 1) := mul_le_mul (pow_le_one₀ hu0 hu1)
            (mul_le_mul (sigmoid_slope_le z) h1 (abs_nonneg _) (by norm_num))
            (mul_nonneg (mul_nonneg (abs_nonneg _) v.1) (abs_nonneg _)) (by norm_num)
        _ = _ := by norm_num
    refine (abs_add_le _ _).trans ?_
    rw [one_mul, abs_of_pos (by linarith), abs_div, abs_of_pos (by linarith : (0 : ℝ) < 2 * Y)]
    have b3 : |-(3 * (u ^ 3 * (1 - u ^ 2)) * (P * (1 - P))) + u ^ 5 * (z * (P * (1 - P)) * (1 - 2 * P))|
        / (2 * Y) ≤ 0.23 := by
      rw [div_le_iff₀ (by linarith)]
      refine (abs_add_le _ _).trans ?_
      rw [abs_neg]
      norm_num at b1 b2 hY0 ⊢
      linarith
    norm_num at b3 ⊢
    linarith

theorem sigmoid_lip (y z : ℝ) : |sigmoid y - sigmoid z| ≤ 1 / 4 * |y - z| := by
  have := Convex.norm_image_sub_le_of_norm_hasDerivWithin_le (f := sigmoid)
    (f' := fun x => sigmoid x * (1 - sigmoid x)) (s := Set.univ) (C := 1 / 4)
    (fun x _ => (hasDerivAt_sigmoid x).hasDerivWithinAt) (fun x _ => by
      rw [Real.norm_eq_abs, abs_of_nonneg (sigmoid_var x).1]; exact (sigmoid_var x).2) convex_univ
    (x := z) (y := y) (Set.mem_univ _) (Set.mem_univ _)
  exact this

/-- The new rating as a function of the rating. -/
theorem gain_rating (hD : 0 ≤ D) {s : ℝ} (hs : 0 < s) (r r' R : ℝ) :
    |(r + s ^ 2 / tot D s * (x - sigmoid ((r - R) / tot D s)))
      - (r' + s ^ 2 / tot D s * (x - sigmoid ((r' - R) / tot D s)))| ≤ |r - r'| := by
  have hc := tot_pos hD hs
  set c := tot D s with hcc
  have hu1 : s / c ≤ 1 := (div_le_one hc).2 (le_tot hD hs)
  have hu0 : 0 ≤ s / c := by positivity
  wlog h : r' ≤ r generalizing r r' with H
  · have := H r' r (le_of_not_ge h)
    rwa [abs_sub_comm, abs_sub_comm r]
  have hz : (r' - R) / c ≤ (r - R) / c := by gcongr
  have h1 := sigmoid_le hz
  have h2 := sigmoid_lip ((r - R) / c) ((r' - R) / c)
  rw [abs_of_nonneg (sub_nonneg.2 h1), abs_of_nonneg (sub_nonneg.2 hz)] at h2
  have e : (r - R) / c - (r' - R) / c = (r - r') / c := by ring
  rw [e] at h2
  have hk : s ^ 2 / c * ((r - r') / c) ≤ r - r' := by
    rw [show s ^ 2 / c * ((r - r') / c) = (s / c) ^ 2 * (r - r') by field_simp]
    exact mul_le_of_le_one_left (by linarith) (pow_le_one₀ hu0 hu1)
  have hk0 : 0 ≤ s ^ 2 / c := by positivity
  have h3 := mul_le_mul_of_nonneg_left h2 hk0
  have h4 := mul_nonneg hk0 (sub_nonneg.2 h1)
  have e2 : (r + s ^ 2 / c * (x - sigmoid ((r - R) / c))) - (r' + s ^ 2 / c * (x - sigmoid ((r' - R) / c)))
      = (r - r') - s ^ 2 / c * (sigmoid ((r - R) / c) - sigmoid ((r' - R) / c)) := by ring
  rw [e2, abs_of_nonneg (sub_nonneg.2 h), abs_le]
  constructor <;> linarith

/-- The shrinking of the uncertainty as a function of the rating. -/
theorem shrink_rating (hD : 0 ≤ D) {s : ℝ} (hs : 0 < s) (r r' R : ℝ) :
    |s * √(1 - (s / tot D s) ^ 3 * (sigmoid ((r - R) / tot D s) * (1 - sigmoid ((r - R) / tot D s))))
      - s * √(1 - (s / tot D s) ^ 3 * (sigmoid ((r' - R) / tot D s) * (1 - sigmoid ((r' - R) / tot D s))))|
      ≤ 0.145 * |r - r'| := by
  have hc := tot_pos hD hs
  set c := tot D s with hcc
  have hu1 : s / c ≤ 1 := (div_le_one hc).2 (le_tot hD hs)
  have hu0 : 0 ≤ s / c := by positivity
  set z := (r - R) / c with hz
  set z' := (r' - R) / c with hz'
  have hY : ∀ z, 0.75 ≤ 1 - (s / c) ^ 3 * (sigmoid z * (1 - sigmoid z)) := by
    intro z
    have h5 := mul_le_mul (pow_le_one₀ hu0 hu1 (n := 3)) (sigmoid_var z).2 (sigmoid_var z).1 (by norm_num)
    norm_num at h5 ⊢
    linarith
  have hY' : ∀ z, 0.866 ≤ √(1 - (s / c) ^ 3 * (sigmoid z * (1 - sigmoid z))) := fun z =>
    Real.le_sqrt_of_sq_le (le_trans (by norm_num) (hY z))
  have hsq : ∀ z, √(1 - (s / c) ^ 3 * (sigmoid z * (1 - sigmoid z))) ^ 2
      = 1 - (s / c) ^ 3 * (sigmoid z * (1 - sigmoid z)) := fun z =>
    Real.sq_sqrt (le_trans (by norm_num) (hY z))
  set y := √(1 - (s / c) ^ 3 * (sigmoid z * (1 - sigmoid z)))
  set y' := √(1 - (s / c) ^ 3 * (sigmoid z' * (1 - sigmoid z')))
  have hp : |sigmoid z - sigmoid z'| ≤ 1 / 4 * (|r - r'| / c) := by
    have := sigmoid_lip z z'
    rwa [hz, hz', ← sub_div, sub_sub_sub_cancel_right, abs_div, abs_of_pos hc] at this
  have hq : |y ^ 2 - y' ^ 2| ≤ 1 / 4 * (|r - r'| / c) := by
    rw [hsq z, hsq z', show 1 - (s / c) ^ 3 * (sigmoid z * (1 - sigmoid z))
      - (1 - (s / c) ^ 3 * (sigmoid z' * (1 - sigmoid z')))
      = (s / c) ^ 3 * ((sigmoid z' - sigmoid z) * (1 - sigmoid z - sigmoid z')) by ring, abs_mul, abs_mul,
      abs_of_nonneg (by positivity)]
    have h1 : |1 - sigmoid z - sigmoid z'| ≤ 1 := by
      have := sigmoid_nonneg z
      have := sigmoid_nonneg z'
      have := sigmoid_le_one z
      have := sigmoid_le_one z'
      exact abs_le.2 ⟨by linarith, by linarith⟩
    calc _ ≤ 1 * (1 / 4 * (|r - r'| / c) * 1) := mul_le_mul (pow_le_one₀ hu0 hu1)
          (mul_le_mul (by rw [abs_sub_comm]; exact hp) h1 (abs_nonneg _) (by positivity)) (by positivity) (by norm_num)
      _ = _ := by ring
  have hyy : |y - y'| * 1.732 ≤ 1 / 4 * (|r - r'| / c) := by
    refine le_trans ?_ hq
    rw [show y ^ 2 - y' ^ 2 = (y - y') * (y + y') by ring, abs_mul]
    refine mul_le_mul_of_nonneg_left ?_ (abs_nonneg _)
    have a1 := hY' z
    have a2 := hY' z'
    rw [abs_of_pos (by linarith)]
    norm_num at a1 a2 ⊢
    linarith
  rw [← mul_sub, abs_mul, abs_of_pos hs]
  have h6 : s * (|r - r'| / c) ≤ |r - r'| := by
    rw [show s * (|r - r'| / c) = s / c * |r - r'| by ring]
    exact mul_le_of_le_one_left (abs_nonneg _) hu1
  have h7 := mul_le_mul_of_nonneg_left hyy hs.le
  have h8 : s * |y - y'| * 1.732 ≤ 1 / 4 * |r - r'| := by
    calc _ = s * (|y - y'| * 1.732) := by ring
      _ ≤ 1 / 4 * (s * (|r - r'| / c)) := h7.trans (le_of_eq (by ring))
      _ ≤ _ := by linarith
  norm_num at h8 ⊢
  linarith [abs_nonneg (r - r')]

end

theorem sqrt_max {s y κ : ℝ} (hs : 0 ≤ s) : √(s ^ 2 * max y κ) = max (s * √y) (s * √κ) := by
  rw [Real.sqrt_mul (by positivity), Real.sqrt_sq hs, ← mul_max_of_nonneg _ _ hs]
  congr 1
  rcases le_total y κ with h | h
  · rw [max_eq_right h, max_eq_right (Real.sqrt_le_sqrt h)]
  · rw [max_eq_left h, max_eq_left (Real.sqrt_le_sqrt h)]

end Skillratings.WengLin
