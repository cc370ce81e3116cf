import Verif.FP
/-
What the results far out need from the exponential of the mathematical library.
-/

namespace Skillratings

/-- The exponential of a number of at most -390 is between zero and `2 ^ -550`. -/
structure FloatEnv.Fading (E : FloatEnv) : Prop where
  exp : ∀ x : FP E, x.isFinite → x.toR ≤ -390 → FP.isFinite (E := E) (E.exp x) ∧
    0 ≤ FP.toR (E := E) (E.exp x) ∧ FP.toR (E := E) (E.exp x) ≤ 1 / 2 ^ 550

end Skillratings
