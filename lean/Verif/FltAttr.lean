import Mathlib.Tactic.Attr.Register
/-
The simp set that translates the operations of `Flt ℝ` to Mathlib's.
-/

/-- Unfolds the operations of `Flt ℝ`. -/
register_simp_attr flt
