import Mathlib.Probability.Notation
import Mathlib.Probability.Process.Filtration
import Mathlib.MeasureTheory.Function.ConditionalExpectation.Basic
import Verif.Spec.Fairness
/-
An endless season of players with true strengths.
-/
namespace Skillratings.Spec
open MeasureTheory
open scoped ProbabilityTheory

variable {Ω ι γ R : Type} [m0 : MeasurableSpace Ω]

/-- What is known before game `n` is `past n`: it includes who plays game `n`, but not its result.
The mean score of the first player of each game is the expected score of the true strengths. -/
structure Season (P : Measure Ω) (past : Filtration ℕ m0) (expected : R → R → ℝ × ℝ)
    (strengths : ι → R) (games : ℕ → Ω → Game ι γ) : Prop where
  pairing : ∀ n i j, MeasurableSet[past n] {ω | (games n ω).first = i ∧ (games n ω).second = j}
  result : ∀ n, Measurable[past (n + 1)] fun ω => points (games n ω).outcome
  truthful : ∀ n, P[fun ω => points (games n ω).outcome | past n] =ᵐ[P]
    fun ω => (expected (strengths (games n ω).first) (strengths (games n ω).second)).1

/-- In any `L` consecutive games, all pairs of players that are adjacent in `G` meet. -/
def Regular (G : ι → ι → Prop) (L : ℕ) (games : ℕ → Game ι γ) : Prop :=
  ∀ n i j, G i j → ∃ m, n ≤ m ∧ m < n + L ∧
    ((games m).first = i ∧ (games m).second = j ∨ (games m).first = j ∧ (games m).second = i)

/-- Random pairings: `before n` is what is known before game `n` is paired. Given that, any two players
that are adjacent in `G` meet in game `n` with probability at least `δ`. -/
structure Matchmaking (P : Measure Ω) (past before : Filtration ℕ m0) (G : ι → ι → Prop) (δ : ℝ)
    (games : ℕ → Ω → Game ι γ) : Prop where
  unpaired : ∀ n, before n ≤ past n
  paired : ∀ n, past n ≤ before (n + 1)
  played : ∀ n, Measurable[before (n + 1)] fun ω => points (games n ω).outcome
  chance : ∀ n i j, G i j → ∀ᵐ ω ∂P, δ ≤
    (P⟦{ω | (games n ω).first = i ∧ (games n ω).second = j ∨
      (games n ω).first = j ∧ (games n ω).second = i} | before n⟧) ω

end Skillratings.Spec
