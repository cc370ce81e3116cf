import Mathlib.Data.Real.Basic
import Mathlib.Logic.Function.Basic
import Mathlib.Algebra.BigOperators.Group.Finset.Basic
import Verif.Model.Common
/-
Specification vocabulary shared by the property theorems.  Nothing here refers to the
functions of the model, only to its data types.
-/
namespace Skillratings
namespace Spec

/-- The result of a game seen from the other side. -/
def mirror : Outcomes → Outcomes
  | .WIN => .LOSS
  | .LOSS => .WIN
  | .DRAW => .DRAW

/-- The points of a game: 1 for a win, 1/2 for a draw, 0 for a loss. -/
noncomputable def points : Outcomes → ℝ
  | .WIN => 1
  | .DRAW => 1 / 2
  | .LOSS => 0

/-- The points of a list of results. -/
noncomputable def score {R : Type} (rs : List (R × Outcomes)) : ℝ :=
  (rs.map fun r => points r.2).sum

/-- Two complementary probabilities, neither of them 0 or 1. -/
structure ProbabilityPair (p : ℝ × ℝ) : Prop where
  fst_pos : 0 < p.1
  fst_lt_one : p.1 < 1
  snd_pos : 0 < p.2
  snd_lt_one : p.2 < 1
  sum_eq_one : p.1 + p.2 = 1

/-- The odds of an event of probability `p`. -/
noncomputable def odds (p : ℝ) : ℝ := p / (1 - p)

/-- A game between two different members of a pool of players `ι`, with any further data
(a configuration) `γ`. -/
structure Game (ι γ : Type) where
  first : ι
  second : ι
  ne : first ≠ second
  outcome : Outcomes
  config : γ

/-- The pool after one game that is rated by `rate`. -/
def playGame {ι γ R : Type} [DecidableEq ι] (rate : R → R → Outcomes → γ → R × R)
    (pool : ι → R) (g : Game ι γ) : ι → R :=
  let r := rate (pool g.first) (pool g.second) g.outcome g.config
  Function.update (Function.update pool g.first r.1) g.second r.2

/-- The pool after a sequence of games. -/
def tournament {ι γ R : Type} [DecidableEq ι] (rate : R → R → Outcomes → γ → R × R)
    (pool : ι → R) (games : List (Game ι γ)) : ι → R :=
  games.foldl (playGame rate) pool

/-- The first player plays against a list of opponents, one after the other. -/
def gauntlet {γ R : Type} (rate : R → R → Outcomes → γ → R × R) (player : R)
    (results : List (R × Outcomes × γ)) : R :=
  results.foldl (fun p r => (rate p r.1 r.2.1 r.2.2).1) player

end Spec
end Skillratings
