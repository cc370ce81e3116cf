import Mathlib.Data.EReal.Operations
import Mathlib.Analysis.SpecialFunctions.Sqrt
import Mathlib.Analysis.SpecialFunctions.Trigonometric.Basic
import Mathlib.Algebra.Order.Round
import Verif.Flt
/-
Reading 3 of the arithmetic: floating point.

The values are those of binary64: NaN (one, without payload), the infinities and the finite
values `± n * 2 ^ k`, zero having a sign.  `+ - * / mul_add sqrt` compute the exact result and
round it; the rounding is any monotone function to the representable numbers and infinity that
leaves the representable ones alone (`FloatEnv.mag`), so all claims hold for "round to nearest,
ties to even" in particular.  The library functions, whose precision Rust does not specify,
are arbitrary functions with a few sign, range and special-value properties (the other fields
of `FloatEnv`).  `Verif/FPInstance.lean` shows that these requirements can be met.
-/

namespace Skillratings

/-- The magnitudes of the finite values of binary64. -/
def Rep (m : ℝ) : Prop :=
  ∃ n : ℕ, ∃ k : ℤ, n < 2 ^ 53 ∧ -1074 ≤ k ∧ k ≤ 971 ∧ m = n * 2 ^ k

/-- A finite magnitude. -/
def Mag : Type := { m : ℝ // Rep m }

noncomputable instance : LinearOrder Mag := inferInstanceAs (LinearOrder { m : ℝ // Rep m })

theorem Rep.nonneg {m : ℝ} (h : Rep m) : 0 ≤ m := by
  obtain ⟨n, k, -, -, -, rfl⟩ := h
  positivity

theorem Rep.zero : Rep 0 := ⟨0, 0, by norm_num, by norm_num, by norm_num, by simp⟩

/-- Zero. -/
def Mag.zero : Mag := ⟨0, Rep.zero⟩

/-- A value of binary64. The flag is the sign bit (`true`: negative). -/
inductive FPVal
  | nan
  | inf (neg : Bool)
  | fin (neg : Bool) (m : Mag)

namespace FPVal

/-- The value of a finite number. -/
def signed (s : Bool) (m : ℝ) : ℝ := if s then -m else m

/-- The value as an extended real (`0` for NaN). -/
noncomputable def toE : FPVal → EReal
  | nan => 0
  | inf s => if s then ⊥ else ⊤
  | fin s m => (signed s m.1 : ℝ)

/-- The sign bit (NaN counts as positive). -/
def sign : FPVal → Bool
  | nan => false
  | inf s => s
  | fin s _ => s

/-- The value as a real number (`0` for NaN and infinities). -/
def toR : FPVal → ℝ
  | fin s m => signed s m.1
  | _ => 0

/-- `is_nan` -/
def isNaN : FPVal → Prop
  | nan => True
  | _ => False

/-- `is_finite` -/
def isFinite : FPVal → Prop
  | fin _ _ => True
  | _ => False

/-- `-x` -/
def neg : FPVal → FPVal
  | nan => nan
  | inf s => inf !s
  | fin s m => fin (!s) m

/-- `x.abs()` -/
def abs : FPVal → FPVal
  | nan => nan
  | inf _ => inf false
  | fin _ m => fin false m

open Classical in
/-- `a < b` -/
noncomputable def lt (a b : FPVal) : Bool := decide (¬ a.isNaN ∧ ¬ b.isNaN ∧ a.toE < b.toE)

open Classical in
/-- `a <= b` -/
noncomputable def le (a b : FPVal) : Bool := decide (¬ a.isNaN ∧ ¬ b.isNaN ∧ a.toE ≤ b.toE)

open Classical in
/-- `a == b` -/
noncomputable def feq (a b : FPVal) : Bool := decide (¬ a.isNaN ∧ ¬ b.isNaN ∧ a.toE = b.toE)

/-- `a.max(b)` -/
noncomputable def max (a b : FPVal) : FPVal :=
  match a, b with
  | nan, b => b
  | a, nan => a
  | a, b => if a.lt b then b else a

/-- `a.min(b)` -/
noncomputable def min (a b : FPVal) : FPVal :=
  match a, b with
  | nan, b => b
  | a, nan => a
  | a, b => if b.lt a then b else a

/-- `a.round() as i64`: half away from zero, saturating, `0` for NaN. -/
noncomputable def roundToInt : FPVal → ℤ
  | nan => 0
  | inf s => if s then -2 ^ 63 else 2 ^ 63 - 1
  | fin s m =>
    let r : ℤ := if s then -⌊m.1 + 1 / 2⌋ else ⌊m.1 + 1 / 2⌋
    Max.max (-2 ^ 63) (Min.min r (2 ^ 63 - 1))

end FPVal

open FPVal

/-- A rounding and a library of functions. -/
structure FloatEnv where
  /-- The rounding of a magnitude; `⊤` is an overflow. -/
  mag : ℝ → WithTop Mag
  mag_mono : Monotone mag
  mag_rep : ∀ m : Mag, mag m.1 = m
  /-- The sign of the zero that `Iterator::sum` starts from. -/
  sumNeg : Bool
  powi : FPVal → ℤ → FPVal
  powf : FPVal → FPVal → FPVal
  exp : FPVal → FPVal
  expM1 : FPVal → FPVal
  ln : FPVal → FPVal
  ln1p : FPVal → FPVal
  hypot : FPVal → FPVal → FPVal

namespace FloatEnv
variable (E : FloatEnv)

/-- A rounded magnitude with a sign. -/
noncomputable def ofMag (s : Bool) : WithTop Mag → FPVal
  | none => inf s
  | some m => fin s m

open Classical in
/-- The rounding of a real number; an exact zero has the sign `s`. -/
noncomputable def round (s : Bool) (x : ℝ) : FPVal :=
  if x = 0 then fin s Mag.zero else ofMag (decide (x < 0)) (E.mag |x|)

/-- `a + b` -/
noncomputable def add : FPVal → FPVal → FPVal
  | nan, _ => nan
  | _, nan => nan
  | inf s, inf t => if s = t then inf s else nan
  | inf s, fin _ _ => inf s
  | fin _ _, inf t => inf t
  | fin s m, fin t n => E.round (s && t) (signed s m.1 + signed t n.1)

/-- `a - b` -/
noncomputable def sub (a b : FPVal) : FPVal := E.add a b.neg

open Classical in
/-- `a * b` -/
noncomputable def mul : FPVal → FPVal → FPVal
  | nan, _ => nan
  | _, nan => nan
  | inf s, inf t => inf (s ^^ t)
  | inf s, fin t n => if n.1 = 0 then nan else inf (s ^^ t)
  | fin s m, inf t => if m.1 = 0 then nan else inf (s ^^ t)
  | fin s m, fin t n => E.round (s ^^ t) (signed s m.1 * signed t n.1)

open Classical in
/-- `a / b` -/
noncomputable def div : FPVal → FPVal → FPVal
  | nan, _ => nan
  | _, nan => nan
  | inf _, inf _ => nan
  | inf s, fin t _ => inf (s ^^ t)
  | fin s _, inf t => fin (s ^^ t) Mag.zero
  | fin s m, fin t n =>
    if n.1 = 0 then if m.1 = 0 then nan else inf (s ^^ t)
    else E.round (s ^^ t) (signed s m.1 / signed t n.1)

open Classical in
/-- `a.mul_add(b, c)`: one rounding. -/
noncomputable def mulAdd (a b c : FPVal) : FPVal :=
  match a, b with
  | fin s m, fin t n =>
    match c with
    | nan => nan
    | inf u => inf u
    | fin u o => E.round ((s ^^ t) && u) (signed s m.1 * signed t n.1 + signed u o.1)
  | a, b => E.add (E.mul a b) c

open Classical in
/-- `a.sqrt()` -/
noncomputable def sqrt : FPVal → FPVal
  | nan => nan
  | inf s => if s then nan else inf false
  | fin s m => if s ∧ m.1 ≠ 0 then nan else E.round s √m.1

/-- The requirements on the library functions. -/
structure Lib : Prop where
  /-- Small powers are products (`LLVM` expands them). -/
  powi_two : ∀ x, E.powi x 2 = E.mul x x
  powi_three : ∀ x, E.powi x 3 = E.mul x (E.mul x x)
  powi_four : ∀ x, E.powi x 4 = E.mul (E.mul x x) (E.mul x x)
  powi_neg_one : ∀ x, E.powi x (-1) = E.div (E.round false 1) x
  powi_neg_two : ∀ x, E.powi x (-2) = E.div (E.round false 1) (E.mul x x)
  /-- A power of a positive number is a non-negative number. -/
  powf_pos : ∀ x y, ¬ x.isNaN → ¬ y.isNaN → 0 < x.toE → ¬ (E.powf x y).isNaN ∧ 0 ≤ (E.powf x y).toE
  /-- A non-integral power of a negative finite number is NaN. -/
  powf_neg : ∀ x y, x.isFinite → y.isFinite → x.toE < 0 → (∀ n : ℤ, y.toE ≠ ((n : ℝ) : EReal)) →
    (E.powf x y).isNaN
  powf_nan : ∀ y, y.toE ≠ 0 → (E.powf nan y).isNaN
  powf_nan' : ∀ x, x.toE ≠ 1 → (E.powf x nan).isNaN
  /-- Powers of numbers at least one. -/
  powf_ge_one : ∀ x y, ¬ x.isNaN → ¬ y.isNaN → 1 ≤ x.toE → 0 ≤ y.toE → 1 ≤ (E.powf x y).toE
  powf_le_one : ∀ x y, ¬ x.isNaN → ¬ y.isNaN → 1 ≤ x.toE → y.toE ≤ 0 → (E.powf x y).toE ≤ 1
  /-- The exponential is a non-negative number. -/
  exp_pos : ∀ x, ¬ x.isNaN → ¬ (E.exp x).isNaN ∧ 0 ≤ (E.exp x).toE
  exp_nan : (E.exp nan).isNaN
  exp_ge_one : ∀ x, ¬ x.isNaN → 0 ≤ x.toE → 1 ≤ (E.exp x).toE
  exp_le_one : ∀ x, ¬ x.isNaN → x.toE ≤ 0 → (E.exp x).toE ≤ 1
  /-- It overflows from 710 on (the largest finite number is below `e ^ 709.79`). -/
  exp_overflow : ∀ x, ¬ x.isNaN → ((710 : ℝ) : EReal) ≤ x.toE → E.exp x = inf false
  /-- The logarithm. -/
  ln_nan : (E.ln nan).isNaN
  ln_neg : ∀ x, ¬ x.isNaN → x.toE < 0 → (E.ln x).isNaN
  ln_pos : ∀ x, ¬ x.isNaN → 0 ≤ x.toE → ¬ (E.ln x).isNaN
  ln_ge : ∀ x, ¬ x.isNaN → 1 ≤ x.toE → 0 ≤ (E.ln x).toE
  ln_le : ∀ x, ¬ x.isNaN → x.toE ≤ 1 → (E.ln x).toE ≤ 0
  /-- `ln 10` is about 2.3. -/
  ln_ten : ∀ x, ¬ x.isNaN → x.toE = ((10 : ℝ) : EReal) →
    ((2 : ℝ) : EReal) ≤ (E.ln x).toE ∧ (E.ln x).toE ≤ ((3 : ℝ) : EReal)
  ln_finite : ∀ x, x.isFinite → 0 < x.toE → (E.ln x).isFinite
  /-- The hypotenuse. -/
  hypot_nan : ∀ x y, ¬ x.isNaN → ¬ y.isNaN → ¬ (E.hypot x y).isNaN
  hypot_left : ∀ x y, ¬ x.isNaN → ¬ y.isNaN → x.abs.toE ≤ (E.hypot x y).toE
  hypot_right : ∀ x y, ¬ x.isNaN → ¬ y.isNaN → y.abs.toE ≤ (E.hypot x y).toE
  hypot_le : ∀ x y (b : ℝ), x.isFinite → y.isFinite → Rep b → |x.toR| + |y.toR| ≤ b →
    (E.hypot x y).toE ≤ (b : EReal)
  /-- `exp_m1` and `ln_1p`. -/
  expM1_pos : ∀ x, ¬ x.isNaN → 0 ≤ x.toE → ¬ (E.expM1 x).isNaN ∧ 0 ≤ (E.expM1 x).toE
  expM1_nan : (E.expM1 nan).isNaN
  ln1p_pos : ∀ x, ¬ x.isNaN → 0 ≤ x.toE → ¬ (E.ln1p x).isNaN ∧ 0 ≤ (E.ln1p x).toE
  ln1p_nan : (E.ln1p nan).isNaN

end FloatEnv

/-- Floating-point numbers in an environment. -/
def FP (_ : FloatEnv) : Type := FPVal

namespace FP
variable {E : FloatEnv}

/-- The value as an extended real. -/
noncomputable abbrev toE (x : FP E) : EReal := FPVal.toE x
/-- The value as a real. -/
abbrev toR (x : FP E) : ℝ := FPVal.toR x
/-- `is_nan` -/
abbrev isNaN (x : FP E) : Prop := FPVal.isNaN x
/-- `is_finite` -/
abbrev isFinite (x : FP E) : Prop := FPVal.isFinite x
/-- A number (not NaN) between two bounds. -/
def In (lo hi : EReal) (x : FP E) : Prop := ¬ x.isNaN ∧ lo ≤ x.toE ∧ x.toE ≤ hi

end FP

/-- Floating-point arithmetic. -/
noncomputable instance instFltFP (E : FloatEnv) : Flt (FP E) where
  add := E.add
  sub := E.sub
  mul := E.mul
  div := E.div
  neg := FPVal.neg
  ofScientific m s e := E.round false (OfScientific.ofScientific m s e : ℝ)
  mulAdd := E.mulAdd
  recip := E.div (E.round false 1)
  powi := E.powi
  powf := E.powf
  exp := E.exp
  expM1 := E.expM1
  ln := E.ln
  ln1p := E.ln1p
  sqrt := E.sqrt
  hypot := E.hypot
  abs := FPVal.abs
  fmax := FPVal.max
  fmin := FPVal.min
  lt := FPVal.lt
  le := FPVal.le
  feq := FPVal.feq
  isSignNegative := FPVal.sign
  isInfinite x := match x with | inf _ => true | _ => false
  infinity := inf false
  epsilon := E.round false (2 ^ (-52 : ℤ))
  pi := E.round false Real.pi
  sqrt2 := E.round false √2
  frac1Sqrt2 := E.round false (1 / √2)
  frac2SqrtPi := E.round false (2 / √Real.pi)
  ofNat n := E.round false n
  ofInt n := E.round false n
  roundToInt := FPVal.roundToInt
  sumZero := fin E.sumNeg Mag.zero

end Skillratings
