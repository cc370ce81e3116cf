import Verif.FP
/-
Vocabulary for floating-point statements.
-/

namespace Skillratings
namespace Spec

/-- A floating-point number that is finite and of absolute value at most `B`. -/
def Within {E : FloatEnv} (B : ℝ) (x : FP E) : Prop := x.isFinite ∧ |x.toR| ≤ B

/-- A floating-point number that is neither NaN nor greater than the real number `B`. -/
def AtMost {E : FloatEnv} (B : ℝ) (x : FP E) : Prop := ¬ x.isNaN ∧ x.toE ≤ (B : EReal)

/-- A floating-point number that is neither NaN nor less than the real number `B`. -/
def AtLeast {E : FloatEnv} (B : ℝ) (x : FP E) : Prop := ¬ x.isNaN ∧ (B : EReal) ≤ x.toE

/-- The uncertainty `√(σ² + τ²)` of a player who is entered into a game but learns nothing from it,
as the arithmetic computes it: the precision of `σ`, back to a deviation, the hypotenuse with `τ`,
and once more to a precision and back. -/
noncomputable def carried {E : FloatEnv} (σ τ : FP E) : FP E :=
  Flt.sqrt (Flt.recip (Flt.powi (Flt.hypot (Flt.sqrt (Flt.recip (Flt.powi σ (-2)))) τ) (-2)))

end Spec
end Skillratings
