import Verif.Spec.Fairness
import Verif.Spec.Forecast
/-
Random games: pairings and chances may depend on everything that has happened before.
-/
namespace Skillratings
namespace Spec

variable {ι γ R : Type}

/-- A game to be played: the two players, the configuration and the chances of the results. -/
structure Fixture (ι γ : Type) where
  first : ι
  second : ι
  ne : first ≠ second
  config : γ
  chances : Forecast

/-- The game with its result. -/
def Fixture.game (f : Fixture ι γ) (o : Outcomes) : Game ι γ := ⟨f.first, f.second, f.ne, o, f.config⟩

/-- The mean of a quantity that depends on the first `n` games, if `plan` says which game is to be
played after the games that have been played so far. -/
noncomputable def mean : (List (Game ι γ) → Fixture ι γ) → ℕ → (List (Game ι γ) → ℝ) → ℝ
  | _, 0, f => f []
  | plan, n + 1, f => (plan []).chances.average fun o =>
      mean (fun past => plan ((plan []).game o :: past)) n fun later => f ((plan []).game o :: later)

/-- The chances are those of players with the given strengths: the mean score of the first player is
the expected score computed from the strengths. -/
def Truthful (expected : R → R → ℝ × ℝ) (strengths : ι → R) (plan : List (Game ι γ) → Fixture ι γ) :
    Prop :=
  ∀ past, (plan past).chances.Expects
    (expected (strengths (plan past).first) (strengths (plan past).second)).1

variable [DecidableEq ι]

/-- The squared differences between the expected scores computed from the ratings immediately before
each game and those computed from the true strengths, added up with weights. -/
noncomputable def forecastError (rate : R → R → Outcomes → γ → R × R) (expected : R → R → ℝ × ℝ)
    (strengths : ι → R) (weight : γ → ℝ) : (ι → R) → List (Game ι γ) → ℝ
  | _, [] => 0
  | pool, g :: gs =>
    weight g.config * ((expected (pool g.first) (pool g.second)).1
      - (expected (strengths g.first) (strengths g.second)).1) ^ 2
      + forecastError rate expected strengths weight (playGame rate pool g) gs

end Spec
end Skillratings
