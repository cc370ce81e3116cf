import Mathlib.Analysis.SpecialFunctions.Pow.Real
import Verif.FP
import Verif.Spec.Basic
/-
Vocabulary for statements about rounding errors.
-/

namespace Skillratings
namespace Spec

/-- A floating-point number that is finite and at most `ε` away from the real number `v`. -/
def Near {E : FloatEnv} (ε : ℝ) (x : FP E) (v : ℝ) : Prop := x.isFinite ∧ |x.toR - v| ≤ ε

/-- The same game with its configuration read as exact numbers. -/
def Game.mapConfig {ι γ γ' : Type} (f : γ → γ') (g : Game ι γ) : Game ι γ' :=
  { first := g.first, second := g.second, ne := g.ne, outcome := g.outcome, config := f g.config }

end Spec

/-- A library whose functions have a relative error of at most `2 ^ -50` (four units in the last
place).  Rust does not promise this, but all common implementations satisfy it. -/
structure FloatEnv.Accurate (E : FloatEnv) : Prop where
  powf_ten : ∀ x y : FP E, x.toE = ((10 : ℝ) : EReal) → y.isFinite → |y.toR| ≤ 250 →
    Spec.Near (E := E) (10 ^ y.toR / 2 ^ 50) (E.powf x y) (10 ^ y.toR)
  exp : ∀ x : FP E, x.isFinite → |x.toR| ≤ 500 →
    Spec.Near (E := E) (Real.exp x.toR / 2 ^ 50) (E.exp x) (Real.exp x.toR)

end Skillratings
