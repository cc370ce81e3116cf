import Mathlib.Analysis.SpecialFunctions.Pow.Real
import Mathlib.Analysis.SpecialFunctions.Trigonometric.Basic
import Mathlib.Algebra.Order.Round
import Verif.Flt
import Verif.FltAttr
/-
Reading 2 of the arithmetic: exact real numbers.

`infinity` and `isInfinite` have no meaning here: the theorems about `ℝ` stay away from
division by zero, and the special values are treated in `Verif/FP.lean`.

The simp set `flt` unfolds the operations and evaluates the literals.
-/

/-- Exact real arithmetic. -/
noncomputable instance instFltReal : Flt ℝ where
  toAdd := inferInstance
  toSub := inferInstance
  toMul := inferInstance
  toDiv := inferInstance
  toNeg := inferInstance
  toOfScientific := inferInstance
  mulAdd a b c := a * b + c
  recip a := a⁻¹
  powi a n := a ^ n
  powf a b := a ^ b
  exp := Real.exp
  expM1 x := Real.exp x - 1
  ln := Real.log
  ln1p x := Real.log (1 + x)
  sqrt := Real.sqrt
  hypot a b := Real.sqrt (a ^ 2 + b ^ 2)
  abs x := |x|
  fmax := max
  fmin := min
  lt a b := open Classical in decide (a < b)
  le a b := open Classical in decide (a ≤ b)
  feq a b := open Classical in decide (a = b)
  isSignNegative a := open Classical in decide (a < 0)
  isInfinite _ := false
  infinity := 0
  epsilon := 2 ^ (-52 : ℤ)
  pi := Real.pi
  sqrt2 := Real.sqrt 2
  frac1Sqrt2 := 1 / Real.sqrt 2
  frac2SqrtPi := 2 / Real.sqrt Real.pi
  ofNat n := n
  ofInt n := n
  roundToInt x := if 0 ≤ x then ⌊x + 1 / 2⌋ else ⌈x - 1 / 2⌉
  sumZero := 0

namespace Flt

variable (a b c : ℝ) (n : ℤ)

@[flt] theorem mulAdd_real : mulAdd a b c = a * b + c := rfl
@[flt] theorem recip_real : recip a = a⁻¹ := rfl
theorem powi_real : powi a n = a ^ n := rfl
@[flt] theorem powi_two : powi a 2 = a ^ 2 := by rw [powi_real]; norm_cast
@[flt] theorem powi_three : powi a 3 = a ^ 3 := by rw [powi_real]; norm_cast
@[flt] theorem powi_four : powi a 4 = a ^ 4 := by rw [powi_real]; norm_cast
@[flt] theorem powi_neg_one : powi a (-1) = a⁻¹ := by rw [powi_real]; exact zpow_neg_one a
@[flt] theorem powi_neg_two : powi a (-2) = (a ^ 2)⁻¹ := by
  rw [powi_real, zpow_neg]; norm_cast
@[flt] theorem powi_natCast (k : ℕ) : powi a (k : ℤ) = a ^ k := by
  rw [powi_real]; exact zpow_natCast a k
@[flt] theorem powf_real : powf a b = a ^ b := rfl
@[flt] theorem exp_real : exp a = Real.exp a := rfl
@[flt] theorem expM1_real : expM1 a = Real.exp a - 1 := rfl
@[flt] theorem ln_real : ln a = Real.log a := rfl
@[flt] theorem ln1p_real : ln1p a = Real.log (1 + a) := rfl
@[flt] theorem sqrt_real : sqrt a = Real.sqrt a := rfl
@[flt] theorem hypot_real : hypot a b = Real.sqrt (a ^ 2 + b ^ 2) := rfl
@[flt] theorem abs_real : abs a = |a| := rfl
@[flt] theorem fmax_real : fmax a b = max a b := rfl
@[flt] theorem fmin_real : fmin a b = min a b := rfl
@[flt] theorem lt_real : (a <? b) = true ↔ a < b := by simp [Flt.lt]
@[flt] theorem le_real : (a <=? b) = true ↔ a ≤ b := by simp [Flt.le]
@[flt] theorem feq_real : (a ==? b) = true ↔ a = b := by simp [Flt.feq]
@[flt] theorem lt_real_false : (a <? b) = false ↔ b ≤ a := by simp [Flt.lt]
@[flt] theorem le_real_false : (a <=? b) = false ↔ b < a := by simp [Flt.le]
@[flt] theorem feq_real_false : (a ==? b) = false ↔ a ≠ b := by simp [Flt.feq]
@[flt] theorem isSignNegative_real : isSignNegative a = true ↔ a < 0 := by
  simp [Flt.isSignNegative]
@[flt] theorem isInfinite_real : isInfinite a = false := rfl
@[flt] theorem epsilon_real : (epsilon : ℝ) = 2 ^ (-52 : ℤ) := rfl
@[flt] theorem pi_real : (pi : ℝ) = Real.pi := rfl
@[flt] theorem sqrt2_real : (sqrt2 : ℝ) = Real.sqrt 2 := rfl
@[flt] theorem frac1Sqrt2_real : (frac1Sqrt2 : ℝ) = 1 / Real.sqrt 2 := rfl
@[flt] theorem frac2SqrtPi_real : (frac2SqrtPi : ℝ) = 2 / Real.sqrt Real.pi := rfl
@[flt] theorem ofNat_real (k : ℕ) : (Flt.ofNat k : ℝ) = k := rfl
@[flt] theorem ofInt_real : (Flt.ofInt n : ℝ) = n := rfl
theorem roundToInt_real :
    roundToInt a = if 0 ≤ a then ⌊a + 1 / 2⌋ else ⌈a - 1 / 2⌉ := rfl
@[flt] theorem sumZero_real : (sumZero : ℝ) = 0 := rfl

/-- `Iterator::sum` is the sum. -/
@[flt] theorem sum_real (l : List ℝ) : Flt.sum l = l.sum := by
  rw [Flt.sum, List.sum_eq_foldl]; rfl

@[flt] theorem lit_1 : (1.0 : ℝ) = 1 := by norm_num
@[flt] theorem lit_0 : (0.0 : ℝ) = 0 := by norm_num
@[flt] theorem lit_10 : (10.0 : ℝ) = 10 := by norm_num
@[flt] theorem lit_2 : (2.0 : ℝ) = 2 := by norm_num
@[flt] theorem lit_400 : (400.0 : ℝ) = 400 := by norm_num
@[flt] theorem lit_350 : (350.0 : ℝ) = 350 := by norm_num
@[flt] theorem lit_1500 : (1500.0 : ℝ) = 1500 := by norm_num
@[flt] theorem lit_100 : (100.0 : ℝ) = 100 := by norm_num
@[flt] theorem lit_25 : (25.0 : ℝ) = 25 := by norm_num
@[flt] theorem lit_3 : (3.0 : ℝ) = 3 := by norm_num
@[flt] theorem lit_1000 : (1000.0 : ℝ) = 1000 := by norm_num
@[flt] theorem lit_5 : (5.0 : ℝ) = 5 := by norm_num
@[flt] theorem lit_50 : (50.0 : ℝ) = 50 := by norm_num
@[flt] theorem lit_800 : (800.0 : ℝ) = 800 := by norm_num
@[flt] theorem lit_1300 : (1300.0 : ℝ) = 1300 := by norm_num
@[flt] theorem lit_8 : (8.0 : ℝ) = 8 := by norm_num
@[flt] theorem lit_600 : (600.0 : ℝ) = 600 := by norm_num
@[flt] theorem lit_30 : (30.0 : ℝ) = 30 := by norm_num
@[flt] theorem lit_20 : (20.0 : ℝ) = 20 := by norm_num
@[flt] theorem lit_150 : (150.0 : ℝ) = 150 := by norm_num
@[flt] theorem lit_355 : (355.0 : ℝ) = 355 := by norm_num
@[flt] theorem lit_3300 : (3300.0 : ℝ) = 3300 := by norm_num
@[flt] theorem lit_32 : (32.0 : ℝ) = 32 := by norm_num
@[flt] theorem lit_300 : (300.0 : ℝ) = 300 := by norm_num
@[flt] theorem lit_230 : (230.0 : ℝ) = 230 := by norm_num
@[flt] theorem lit_2000 : (2000.0 : ℝ) = 2000 := by norm_num
@[flt] theorem lit_180 : (180.0 : ℝ) = 180 := by norm_num
@[flt] theorem lit_15 : (15.0 : ℝ) = 15 := by norm_num
@[flt] theorem lit_900 : (900.0 : ℝ) = 900 := by norm_num
@[flt] theorem lit_80 : (80.0 : ℝ) = 80 := by norm_num
@[flt] theorem lit_700 : (700.0 : ℝ) = 700 := by norm_num
@[flt] theorem lit_7 : (7.0 : ℝ) = 7 := by norm_num
@[flt] theorem lit_6 : (6.0 : ℝ) = 6 := by norm_num
@[flt] theorem lit_40 : (40.0 : ℝ) = 40 := by norm_num
@[flt] theorem lit_4 : (4.0 : ℝ) = 4 := by norm_num
@[flt] theorem lit_2840 : (2840.0 : ℝ) = 2840 := by norm_num
@[flt] theorem lit_2569 : (2569.0 : ℝ) = 2569 := by norm_num
@[flt] theorem lit_2355 : (2355.0 : ℝ) = 2355 := by norm_num
@[flt] theorem lit_2300 : (2300.0 : ℝ) = 2300 := by norm_num
@[flt] theorem lit_2060 : (2060.0 : ℝ) = 2060 := by norm_num
@[flt] theorem lit_200 : (200.0 : ℝ) = 200 := by norm_num
@[flt] theorem lit_18 : (18.0 : ℝ) = 18 := by norm_num
@[flt] theorem lit_14 : (14.0 : ℝ) = 14 := by norm_num
@[flt] theorem lit_11 : (11.0 : ℝ) = 11 := by norm_num
@[flt] theorem lit_half : (0.5 : ℝ) = 1 / 2 := by norm_num
@[flt] theorem lit_three_quarters : (0.75 : ℝ) = 3 / 4 := by norm_num

end Flt
