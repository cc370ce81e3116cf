import Mathlib.Analysis.Calculus.Deriv.Add
import Mathlib.Analysis.Calculus.Deriv.Mul
import Mathlib.Analysis.Calculus.Deriv.Pow
import Mathlib.Data.Rat.Cast.Order
import Mathlib.Data.Real.Basic
import Mathlib.Tactic.Linarith
import Mathlib.Tactic.Ring
/-
Bounds of polynomials with rational coefficients on an interval, by expansion around the left ends
of a subdivision.  The tables are checked by the kernel; the theorems hold for all real points.
-/
namespace Skillratings.Poly

/-- A polynomial, lowest coefficient first. -/
abbrev Coeffs := List ℚ

/-- The value at a real point. -/
noncomputable def ev (x : ℝ) : Coeffs → ℝ
  | [] => 0
  | c :: l => c + x * ev x l

/-- The derivative times the variable, plus `n` times the polynomial. -/
def derAux (n : ℚ) : Coeffs → Coeffs
  | [] => []
  | c :: l => n * c :: derAux (n + 1) l

/-- The derivative. -/
def der : Coeffs → Coeffs
  | [] => []
  | _ :: l => derAux 1 l

def add : Coeffs → Coeffs → Coeffs
  | [], m => m
  | l, [] => l
  | c :: l, d :: m => (c + d) :: add l m

def scale (a : ℚ) : Coeffs → Coeffs
  | [] => []
  | c :: l => a * c :: scale a l

def mul : Coeffs → Coeffs → Coeffs
  | [], _ => []
  | c :: l, m => add (scale c m) (0 :: mul l m)

/-- The polynomial around `a`. -/
def shift (a : ℚ) : Coeffs → Coeffs
  | [] => []
  | c :: l => let q := shift a l; add [c] (add (scale a q) (0 :: q))

/-- A bound on `[-h, h]`. -/
def size (h : ℚ) : Coeffs → ℚ
  | [] => 0
  | c :: l => |c| + h * size h l

theorem ev_add (x : ℝ) (l m : Coeffs) : ev x (add l m) = ev x l + ev x m := by
  induction l generalizing m with
  | nil => simp [add, ev]
  | cons c l ih =>
    cases m with
    | nil => simp [add, ev]
    | cons d m => simp only [add, ev, ih]; push_cast; ring

theorem ev_scale (x : ℝ) (a : ℚ) (l : Coeffs) : ev x (scale a l) = a * ev x l := by
  induction l with
  | nil => simp [scale, ev]
  | cons c l ih => simp only [scale, ev, ih]; push_cast; ring

theorem ev_mul (x : ℝ) (l m : Coeffs) : ev x (mul l m) = ev x l * ev x m := by
  induction l with
  | nil => simp [mul, ev]
  | cons c l ih => simp only [mul, ev_add, ev_scale, ev, ih]; push_cast; ring

theorem ev_shift (a : ℚ) (s : ℝ) (l : Coeffs) : ev s (shift a l) = ev (a + s) l := by
  induction l with
  | nil => simp [shift, ev]
  | cons c l ih => simp only [shift, ev_add, ev_scale, ev, ih]; push_cast; ring

theorem ev_size {h : ℚ} {s : ℝ} (hs : |s| ≤ h) (l : Coeffs) : |ev s l| ≤ size h l := by
  induction l with
  | nil => simp [ev, size]
  | cons c l ih =>
    simp only [ev, size]
    push_cast
    refine (abs_add_le _ _).trans (add_le_add le_rfl ?_)
    rw [abs_mul]
    exact mul_le_mul hs ih (abs_nonneg _) ((abs_nonneg s).trans hs)

theorem hasDerivAt_aux (x : ℝ) (n : ℕ) (l : Coeffs) :
    HasDerivAt (fun y => y ^ (n + 1) * ev y l) (x ^ n * ev x (derAux (n + 1) l)) x := by
  induction l generalizing n with
  | nil => simpa [ev, derAux] using hasDerivAt_const x (0 : ℝ)
  | cons c l ih =>
    have h1 : HasDerivAt (fun y : ℝ => y ^ (n + 1) * (c : ℝ)) ((n + 1 : ℕ) * x ^ n * c) x :=
      (hasDerivAt_pow (n + 1) x).mul_const _
    have h2 := h1.add (ih (n + 1))
    have e : (fun y : ℝ => y ^ (n + 1) * ev y (c :: l))
        = (fun y : ℝ => y ^ (n + 1) * (c : ℝ)) + fun y => y ^ (n + 1 + 1) * ev y l := by
      funext y; simp only [Pi.add_apply, ev]; ring
    rw [e]
    refine h2.congr_deriv ?_
    simp only [derAux, ev]
    push_cast
    ring

theorem hasDerivAt_ev (l : Coeffs) (x : ℝ) : HasDerivAt (fun y => ev y l) (ev x (der l)) x := by
  cases l with
  | nil => simpa [ev, der] using hasDerivAt_const x (0 : ℝ)
  | cons c l =>
    have h := (hasDerivAt_aux x 0 l).const_add (c : ℝ)
    simpa [ev, der] using h

/-! ### Tables -/

/-- `|p| ≤ B` on the `n` intervals of length `2 h` to the right of `a`. -/
def checkAbs (p : Coeffs) (B h : ℚ) : ℕ → ℚ → Bool
  | 0, _ => true
  | n + 1, a => decide (size h (shift (a + h) p) ≤ B) && checkAbs p B h n (a + 2 * h)

theorem checkAbs_sound {p : Coeffs} {B h : ℚ} (n : ℕ) (a : ℚ) (hc : checkAbs p B h n a = true)
    {x : ℝ} (h0 : (a : ℝ) ≤ x) (h1 : x ≤ a + n * (2 * h)) (hn : n ≠ 0 ) :
    |ev x p| ≤ B := by
  induction n generalizing a with
  | zero => exact absurd rfl hn
  | succ n ih =>
    simp only [checkAbs, Bool.and_eq_true, decide_eq_true_eq] at hc
    by_cases hx : x ≤ a + 2 * h
    · have hs : |x - (a + h : ℚ)| ≤ (h : ℝ) := by
        rw [abs_le]; push_cast; constructor <;> linarith
      have := ev_size hs (shift (a + h) p)
      rw [ev_shift] at this
      rw [show ((a + h : ℚ) : ℝ) + (x - (a + h : ℚ)) = x by ring] at this
      exact this.trans (by exact_mod_cast hc.1)
    · rcases Nat.eq_zero_or_pos n with rfl | hn'
      · push_cast at h1; exact absurd (by linarith) hx
      refine ih (a + 2 * h) hc.2 ?_ ?_ hn'.ne'
      · push_cast; push Not at hx; linarith
      · push_cast at h1 ⊢; linarith

end Skillratings.Poly
