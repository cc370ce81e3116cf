import Mathlib.Analysis.SpecialFunctions.Log.Basic
import Verif.Spec.Accuracy
/-
More about the accuracy of the library.
-/

namespace Skillratings

/-- A library whose logarithm of ten and whose hypotenuse have a relative error of at most
`2 ^ -50` (four units in the last place). -/
structure FloatEnv.Precise (E : FloatEnv) : Prop where
  ln_ten : ∀ x : FP E, x.isFinite → x.toR = 10 →
    Spec.Near (E := E) (Real.log 10 / 2 ^ 50) (E.ln x) (Real.log 10)
  hypot : ∀ x y : FP E, x.isFinite → y.isFinite → 1 / 2 ^ 500 ≤ √(x.toR ^ 2 + y.toR ^ 2) →
    √(x.toR ^ 2 + y.toR ^ 2) ≤ 2 ^ 500 →
    Spec.Near (E := E) (√(x.toR ^ 2 + y.toR ^ 2) / 2 ^ 50) (E.hypot x y) √(x.toR ^ 2 + y.toR ^ 2)

/-- A finite number between two bounds. -/
def Spec.Between {E : FloatEnv} (lo hi : ℝ) (x : FP E) : Prop := x.isFinite ∧ lo ≤ x.toR ∧ x.toR ≤ hi

end Skillratings
