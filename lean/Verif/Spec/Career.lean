import Mathlib.Probability.Process.Filtration
import Mathlib.MeasureTheory.Function.ConditionalExpectation.Basic
import Verif.Spec.Basic
/-
The career of one player with a true strength: endless rating periods against opponents that may be
chosen in the light of everything that happened before.
-/
namespace Skillratings.Spec
open MeasureTheory

variable {Ω R : Type} [m0 : MeasurableSpace Ω]

/-- In period `n` the player meets the opponents `b n i`. What is known before period `n` is
`past n`: it includes the opponents of period `n`, but not its results. The mean result of each game
is the score that `forecast` gives to the player's true strength. All opponents stay within `D` of
`centre`, and their uncertainty stays below `S`. -/
structure Career (P : Measure Ω) (past : Filtration ℕ m0) (rating deviation : R → ℝ)
    (forecast : R → ℝ) (centre D S : ℝ) (k : ℕ → ℕ) (b : ∀ n, Fin (k n) → Ω → R)
    (o : ∀ n, Fin (k n) → Ω → Outcomes) : Prop where
  opponent : ∀ n i, Measurable[past n] fun ω => rating (b n i ω)
  uncertainty : ∀ n i, Measurable[past n] fun ω => deviation (b n i ω)
  result : ∀ n i, Measurable[past (n + 1)] fun ω => points (o n i ω)
  near : ∀ n i ω, |rating (b n i ω) - centre| ≤ D
  known : ∀ n i ω, |deviation (b n i ω)| ≤ S
  truthful : ∀ n i, P[fun ω => points (o n i ω) | past n] =ᵐ[P] fun ω => forecast (b n i ω)

end Skillratings.Spec
