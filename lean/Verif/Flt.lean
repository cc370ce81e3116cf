/-
The arithmetic interface of the model.

Every numeric value of the crate is an `f64`.  The model is written once, over an
abstract carrier `F` with the operations that the crate uses (`Flt F`), and is then
read in three ways:

* for an arbitrary `F` (no law assumed at all): a theorem about all `F` holds in
  particular for IEEE-754 doubles, bit for bit;
* for `F = ℝ` (`Verif/FltReal.lean`): the mathematical content of the algorithms;
* for the floating-point model of `Verif/FP.lean` (signed zeros, infinities, NaN, an
  arbitrary monotone rounding and an arbitrary libm): special-value behaviour.

`Verif/FloatCheck.lean` also instantiates it with Lean's `Float`, to run the model on
the values of the crate's own unit tests.
-/

/-- The `f64` operations used by the crate. -/
class Flt (F : Type) extends Add F, Sub F, Mul F, Div F, Neg F, OfScientific F where
  /-- `a.mul_add(b, c)` is `a * b + c` (one rounding). -/
  mulAdd : F → F → F → F
  /-- `a.recip()` -/
  recip : F → F
  /-- `a.powi(n)` -/
  powi : F → Int → F
  /-- `a.powf(b)` -/
  powf : F → F → F
  /-- `a.exp()` -/
  exp : F → F
  /-- `a.exp_m1()` -/
  expM1 : F → F
  /-- `a.ln()` -/
  ln : F → F
  /-- `a.ln_1p()` -/
  ln1p : F → F
  /-- `a.sqrt()` -/
  sqrt : F → F
  /-- `a.hypot(b)` -/
  hypot : F → F → F
  /-- `a.abs()` -/
  abs : F → F
  /-- `a.max(b)`: NaN is ignored when the other argument is a number. -/
  fmax : F → F → F
  /-- `a.min(b)`: NaN is ignored when the other argument is a number. -/
  fmin : F → F → F
  /-- `a < b` (false as soon as one side is NaN). -/
  lt : F → F → Bool
  /-- `a <= b` (false as soon as one side is NaN). -/
  le : F → F → Bool
  /-- `a == b` (false as soon as one side is NaN; `-0.0 == 0.0`). -/
  feq : F → F → Bool
  /-- `a.is_sign_negative()` -/
  isSignNegative : F → Bool
  /-- `a.is_infinite()` -/
  isInfinite : F → Bool
  /-- `f64::INFINITY` -/
  infinity : F
  /-- `f64::EPSILON` -/
  epsilon : F
  /-- `std::f64::consts::PI` -/
  pi : F
  /-- `std::f64::consts::SQRT_2` -/
  sqrt2 : F
  /-- `std::f64::consts::FRAC_1_SQRT_2` -/
  frac1Sqrt2 : F
  /-- `std::f64::consts::FRAC_2_SQRT_PI` -/
  frac2SqrtPi : F
  /-- `n as f64` for an unsigned integer `n`. -/
  ofNat : Nat → F
  /-- `n as f64` for a signed integer `n`. -/
  ofInt : Int → F
  /-- `a.round() as i64` -/
  roundToInt : F → Int
  /-- The neutral element that `Iterator::sum` starts from
  (`0.0` or `-0.0`, depending on the version of the standard library). -/
  sumZero : F

-- The parent instances get a low priority, so that they are not used on `ℝ`.
attribute [instance 10] Flt.toAdd Flt.toSub Flt.toMul Flt.toDiv Flt.toNeg Flt.toOfScientific

/-- `a < b` on floats, as Rust evaluates it. -/
infix:50 " <? " => Flt.lt
/-- `a <= b` on floats, as Rust evaluates it. -/
infix:50 " <=? " => Flt.le
/-- `a == b` on floats, as Rust evaluates it. -/
infix:50 " ==? " => Flt.feq

namespace Flt
variable {F : Type} [Flt F]

/-- `iter.sum::<f64>()`: left fold of `+`. -/
def sum (l : List F) : F := l.foldl (· + ·) Flt.sumZero

end Flt
