import Mathlib.Analysis.SpecialFunctions.Log.Basic
import Verif.Spec.Basic
/-
Rating systems as forecasters: before every game of a pool the system publishes expected scores, then
the game is played and rated.
-/
namespace Skillratings
namespace Spec

variable {ι γ R : Type} [DecidableEq ι]

/-- The points of player `i` in a game. -/
noncomputable def pointsIn (g : Game ι γ) (i : ι) : ℝ :=
  if i = g.first then points g.outcome else if i = g.second then 1 - points g.outcome else 0

/-- The points of player `i` in a sequence of games. -/
noncomputable def earned (games : List (Game ι γ)) (i : ι) : ℝ :=
  (games.map fun g => pointsIn g i).sum

/-- The expected score of player `i` in a game. -/
def expectedIn (expected : R → R → ℝ × ℝ) (pool : ι → R) (g : Game ι γ) (i : ι) : ℝ :=
  if i = g.first then (expected (pool g.first) (pool g.second)).1
  else if i = g.second then (expected (pool g.first) (pool g.second)).2 else 0

/-- The sum of the expected scores of player `i`, each computed with the ratings immediately before
the game. -/
def predicted (rate : R → R → Outcomes → γ → R × R) (expected : R → R → ℝ × ℝ) :
    (ι → R) → List (Game ι γ) → ι → ℝ
  | _, [], _ => 0
  | pool, g :: gs, i =>
    expectedIn expected pool g i + predicted rate expected (playGame rate pool g) gs i

/-- The logarithmic loss of forecasting a score of `p` in a game that brings `s` points. -/
noncomputable def logLoss (s p : ℝ) : ℝ := -(s * Real.log p + (1 - s) * Real.log (1 - p))

/-- The loss of the forecast for a game. -/
noncomputable def lossIn (expected : R → R → ℝ × ℝ) (pool : ι → R) (g : Game ι γ) : ℝ :=
  logLoss (points g.outcome) (expected (pool g.first) (pool g.second)).1

/-- The total loss of the forecasts made with the ratings immediately before each game. -/
noncomputable def totalLoss (rate : R → R → Outcomes → γ → R × R) (expected : R → R → ℝ × ℝ) :
    (ι → R) → List (Game ι γ) → ℝ
  | _, [] => 0
  | pool, g :: gs => lossIn expected pool g + totalLoss rate expected (playGame rate pool g) gs

/-- The total loss of forecasts made with ratings that never change. -/
noncomputable def fixedLoss (expected : R → R → ℝ × ℝ) (strengths : ι → R)
    (games : List (Game ι γ)) : ℝ :=
  (games.map fun g => lossIn expected strengths g).sum

end Spec
end Skillratings
