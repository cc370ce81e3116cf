import Mathlib.Analysis.SpecialFunctions.Pow.Real
import Verif.Spec.Accuracy
/-
The accuracy of the remaining functions of the library.
-/

namespace Skillratings

/-- A library whose `powf`, `exp_m1` and `ln_1p` have a relative error of at most `2 ^ -50` (four units
in the last place) for positive arguments of moderate size. -/
structure FloatEnv.Faithful (E : FloatEnv) : Prop where
  powf : ∀ x y : FP E, x.isFinite → y.isFinite → 1 / 2 ^ 100 ≤ x.toR → x.toR ≤ 2 ^ 100 → |y.toR| ≤ 4 →
    Spec.Near (E := E) (x.toR ^ y.toR / 2 ^ 50) (E.powf x y) (x.toR ^ y.toR)
  expM1 : ∀ x : FP E, x.isFinite → 1 / 2 ^ 100 ≤ x.toR → x.toR ≤ 500 →
    Spec.Near (E := E) ((Real.exp x.toR - 1) / 2 ^ 50) (E.expM1 x) (Real.exp x.toR - 1)
  ln1p : ∀ x : FP E, x.isFinite → 1 / 2 ^ 100 ≤ x.toR → x.toR ≤ 2 ^ 900 →
    Spec.Near (E := E) (Real.log (1 + x.toR) / 2 ^ 50) (E.ln1p x) (Real.log (1 + x.toR))

end Skillratings
