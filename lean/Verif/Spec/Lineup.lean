import Verif.Spec.Chain
import Verif.Spec.Quality
/-
A match of several teams in which every player comes with a weight, and lineups.
-/
namespace Skillratings
namespace Spec

/-- A match of several teams: the players with their weights, and the rank. -/
abbrev WMatch := List (WTeam × MultiTeamOutcome)

/-- The teams and ranks of a match, as the function takes them. -/
def WMatch.teams (M : WMatch) : List (List (TrueSkill.TrueSkillRating ℝ) × MultiTeamOutcome) :=
  M.map fun t => (t.1.map Prod.fst, t.2)

/-- The weights of a match, as the function takes them. -/
def WMatch.weights (M : WMatch) : List (List ℝ) := M.map fun t => t.1.map Prod.snd

/-- A match of two or more teams, none empty, with positive weights and uncertainties. -/
structure WMatch.Proper (M : WMatch) : Prop where
  two : 2 ≤ M.length
  players : ∀ t ∈ M, t.1 ≠ []
  weights : ∀ t ∈ M, ∀ p ∈ t.1, 0 < p.2
  uncertainty : ∀ t ∈ M, ∀ p ∈ t.1, p.1.uncertainty ≠ 0

/-- The team at position `i` of a match, after the dynamics. -/
noncomputable def WMatch.at (M : WMatch) (τ : ℝ) (i : ℕ) : RankedTeam :=
  ((M.getD i ([], .new 0)).1.map fun p => fgPlayer τ p.1 p.2, (M.getD i ([], .new 0)).2.rank)

end Spec
end Skillratings
