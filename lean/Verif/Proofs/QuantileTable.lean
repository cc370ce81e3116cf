import Mathlib.Algebra.Order.Floor.Ring
import Mathlib.Data.Rat.Floor
import Verif.Proofs.Margin
import Verif.Proofs.ErfcAccuracy
/-
The table behind the inverse of the complementary error function, checked by the kernel; its
soundness is in Proofs/QuantileAccuracy.lean.
-/
namespace Skillratings.TrueSkill
open Real Spec Poly

/-! ### The table -/

/-- The value of a polynomial at a rational point. -/
def evq (x : ℚ) : Coeffs → ℚ
  | [] => 0
  | c :: l => c + x * evq x l

theorem ev_cast (x : ℚ) (l : Coeffs) : ev (x : ℝ) l = evq x l := by
  induction l with
  | nil => simp [ev, evq]
  | cons c l ih => simp only [ev, evq, ih]; push_cast; ring

/-- `√2` times the starting guess. -/
def wq (s : ℚ) : ℚ := s - (2.30753 + 0.27061 * s) / (1 + 0.99229 * s + 0.04481 * s ^ 2)

/-- The same for real arguments. -/
noncomputable def wr (s : ℝ) : ℝ := s - (2.30753 + 0.27061 * s) / (1 + 0.99229 * s + 0.04481 * s ^ 2)

theorem wr_cast (s : ℚ) : wr (s : ℝ) = wq s := by
  rw [wr, wq]; push_cast; norm_num

/-- A lower bound of the exponential function. -/
def expLow (E : ℚ) : ℚ := max 0 (1 + E / 16 + (E / 16) ^ 2 / 2 + (E / 16) ^ 3 / 6) ^ 16

theorem expLow_le (E : ℚ) : (expLow E : ℝ) ≤ exp E := by
  have h := exp_ge_cubic' ((E : ℝ) / 16)
  have e : exp (E : ℝ) = exp ((E : ℝ) / 16) ^ 16 := by
    rw [← Real.exp_nat_mul]; congr 1; push_cast; ring
  rw [expLow, e]
  push_cast
  exact pow_le_pow_left₀ (le_max_left _ _) (max_le (Real.exp_pos _).le h) 16

def down (x : ℚ) : ℚ := (⌊x * 1000000⌋ : ℤ) / 1000000

def up (x : ℚ) : ℚ := (⌈x * 1000000⌉ : ℤ) / 1000000

theorem down_le (x : ℚ) : down x ≤ x := by
  rw [down, div_le_iff₀ (by norm_num)]; exact Int.floor_le _

theorem le_up (x : ℚ) : x ≤ up x := by
  rw [up, le_div_iff₀ (by norm_num)]; exact Int.le_ceil _

/-- On `[a, b]` the exact value is at most the guess plus `0.01`. -/
def cellHi (a b : ℚ) : Bool :=
  let z := down (wq a * 0.7071067 + 0.01)
  let t := 1 / (1 + z / 2)
  decide (0 ≤ wq a) && decide (0 ≤ z) &&
    decide ((1 + 7e-7) * t / 2 ≤ expLow (down (z ^ 2 - b ^ 2 / 2 - evq t tP)))

/-- On `[a, b]` the exact value is at least the guess minus `0.01`. -/
def cellLo (a b : ℚ) : Bool :=
  let z := up (wq b * 0.7071068 - 0.01)
  let t := 1 / (1 + z / 2)
  decide (0 ≤ wq b) && (decide (z ≤ 0) ||
    decide (2 / ((1 - 7e-7) * t) ≤ expLow (down (evq t tP + a ^ 2 / 2 - z ^ 2))))

def cells : ℕ → ℚ → Bool
  | 0, _ => true
  | n + 1, a => cellHi a (a + 1 / 125) && cellLo a (a + 1 / 125) && cells n (a + 1 / 125)

theorem cells_ok : cells 980 1.17741 = true := by decide +kernel

end Skillratings.TrueSkill
