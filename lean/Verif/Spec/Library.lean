import Mathlib.Analysis.SpecialFunctions.Pow.Real
import Verif.FP
/-
A further assumption about the mathematical library, used for EGF only.
-/

namespace Skillratings

/-- A library whose `powf`, `ln` and `ln_1p` do not exceed the exact values of moderate arguments by more
than a small error.  Rust does not promise this, but all common implementations satisfy it. -/
structure FloatEnv.Moderate (E : FloatEnv) : Prop where
  powf_le : ∀ x y : FP E, x.isFinite → y.isFinite → 0 ≤ x.toR → x.toR ≤ 2 ^ 20 → 0 < y.toR →
    y.toR ≤ 2 → FP.isFinite (E := E) (E.powf x y) ∧ 0 ≤ FP.toR (E := E) (E.powf x y) ∧
      FP.toR (E := E) (E.powf x y) ≤ x.toR ^ y.toR * (1 + 1 / 2 ^ 50) + 1 / 2 ^ 50
  ln_le : ∀ x : FP E, x.isFinite → 1 ≤ x.toR → FP.isFinite (E := E) (E.ln x) ∧
    0 ≤ FP.toR (E := E) (E.ln x) ∧
      FP.toR (E := E) (E.ln x) ≤ Real.log x.toR * (1 + 1 / 2 ^ 50) + 1 / 2 ^ 50
  ln1p_le : ∀ x : FP E, x.isFinite → 0 ≤ x.toR → FP.isFinite (E := E) (E.ln1p x) ∧
    0 ≤ FP.toR (E := E) (E.ln1p x) ∧
      FP.toR (E := E) (E.ln1p x) ≤ Real.log (1 + x.toR) * (1 + 1 / 2 ^ 50) + 1 / 2 ^ 50

end Skillratings
