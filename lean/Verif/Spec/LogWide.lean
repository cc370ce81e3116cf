import Mathlib.Analysis.SpecialFunctions.Log.Basic
import Verif.Spec.Accuracy
/-
The accuracy of the logarithm of the library over a wide range.
-/

namespace Skillratings

/-- A library whose logarithm has an absolute error of at most `2 ^ -40` between `2 ^ -100` and
`2 ^ 100`, and gives minus infinity at zero. -/
structure FloatEnv.LogWide (E : FloatEnv) : Prop where
  zero : ∀ x : FP E, x.isFinite → x.toR = 0 → E.ln x = .inf true
  ln : ∀ x : FP E, x.isFinite → 1 / 2 ^ 100 ≤ x.toR → x.toR ≤ 2 ^ 100 →
    Spec.Near (E := E) (1 / 2 ^ 40) (E.ln x) (Real.log x.toR)

end Skillratings
