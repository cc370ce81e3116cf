import Mathlib.Analysis.SpecialFunctions.Sigmoid
import Mathlib.Analysis.SpecialFunctions.Pow.Real
import Mathlib.Analysis.Calculus.Deriv.MeanValue
import Mathlib.Analysis.SpecialFunctions.Log.Deriv
import Mathlib.Analysis.Complex.ExponentialBounds
import Verif.FltReal
import Verif.Tac
import Verif.Spec.Basic
/-
Facts about the logistic function, and the forms in which it occurs in the crate.
-/
namespace Skillratings
open Real

theorem inv_one_add_pow (x : ℝ) : (1 + (10 : ℝ) ^ x)⁻¹ = sigmoid (-(log 10 * x)) := by
  rw [sigmoid_def, neg_neg, Real.rpow_def_of_pos (by norm_num)]

theorem inv_one_add_exp (x : ℝ) : (1 + exp x)⁻¹ = sigmoid (-x) := by
  rw [sigmoid_def, neg_neg]

theorem log_ten_pos : 0 < log 10 := Real.log_pos (by norm_num)

theorem probabilityPair_sigmoid (x : ℝ) :
    Spec.ProbabilityPair (sigmoid x, 1 - sigmoid x) :=
  ⟨sigmoid_pos x, sigmoid_lt_one x, sub_pos.2 (sigmoid_lt_one x),
    sub_lt_self _ (sigmoid_pos x), by simp⟩

theorem odds_sigmoid (x : ℝ) : Spec.odds (sigmoid x) = exp x := by
  have h := Real.exp_pos (-x)
  rw [Spec.odds, ← sigmoid_neg, sigmoid_def, sigmoid_def, neg_neg, Real.exp_neg]
  have h := Real.exp_pos x
  field_simp
  ring

theorem sigmoid_eq_half_iff (x : ℝ) : sigmoid x = 1 / 2 ↔ x = 0 := by
  rw [one_div, ← sigmoid_zero, sigmoid_inj]

theorem sigmoid_mul_one_sub_le (x : ℝ) : sigmoid x * (1 - sigmoid x) ≤ 1 / 4 := by
  nlinarith [sq_nonneg (sigmoid x - 1 / 2)]

theorem sigmoid_mul_one_sub_pos (x : ℝ) : 0 < sigmoid x * (1 - sigmoid x) :=
  mul_pos (sigmoid_pos x) (sub_pos.2 (sigmoid_lt_one x))

/-- The logistic function grows at most with slope 1/4. -/
theorem sigmoid_sub_half_le {x : ℝ} (hx : 0 ≤ x) : sigmoid x - 1 / 2 ≤ x / 4 := by
  have hm : Monotone fun y : ℝ => y / 4 - sigmoid y := by
    apply monotone_of_deriv_nonneg
    · exact (differentiable_id.div_const 4).sub differentiable_sigmoid
    · intro y
      have h : HasDerivAt (fun y : ℝ => y / 4 - sigmoid y)
          (1 / 4 - sigmoid y * (1 - sigmoid y)) y :=
        ((hasDerivAt_id y).div_const 4).sub (hasDerivAt_sigmoid y)
      rw [h.deriv]
      linarith [sigmoid_mul_one_sub_le y]
  have h := hm hx
  simp only [sigmoid_zero] at h
  linarith

theorem log_ten_gt : 2.3025850926 < log 10 := by
  rw [Real.log_ten_eq]; linarith [Real.log_two_gt_d9, Real.log_five_gt_d9]

theorem log_ten_lt : log 10 < 2.3025850934 := by
  rw [Real.log_ten_eq]; linarith [Real.log_two_lt_d9, Real.log_five_lt_d9]

/-- The logistic curve with scale `s`: the expected score for a rating difference. -/
theorem exp_log_ten_mul (x : ℝ) : exp (log 10 * x) = (10 : ℝ) ^ x := by
  rw [Real.rpow_def_of_pos (by norm_num)]

@[flt] theorem toChessPoints_real (o : Outcomes) :
    (o.toChessPoints : ℝ) = Spec.points o := by
  cases o <;> norm_num [Outcomes.toChessPoints, Spec.points]

theorem points_mirror (o : Outcomes) : Spec.points (Spec.mirror o) = 1 - Spec.points o := by
  cases o <;> norm_num [Spec.points, Spec.mirror]

theorem points_nonneg (o : Outcomes) : 0 ≤ Spec.points o := by
  cases o <;> simp [Spec.points]

theorem points_le_one (o : Outcomes) : Spec.points o ≤ 1 := by
  cases o <;> simp [Spec.points]; norm_num

end Skillratings
