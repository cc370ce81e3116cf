import Mathlib.Analysis.SpecialFunctions.Log.Basic
import Verif.Spec.Accuracy
/-
The accuracy of the logarithm of the library.
-/

namespace Skillratings

/-- A library whose logarithm has a relative error of at most `2 ^ -50` (four units in the last
place) below 3/4, that is, away from its zero. -/
structure FloatEnv.LogAccurate (E : FloatEnv) : Prop where
  ln : ∀ x : FP E, x.isFinite → 1 / 2 ^ 500 ≤ x.toR → x.toR ≤ 3 / 4 →
    Spec.Near (E := E) (|Real.log x.toR| / 2 ^ 50) (E.ln x) (Real.log x.toR)

end Skillratings
