import Mathlib.Analysis.SpecialFunctions.Pow.Real
import Verif.Spec.Basic
/-
The EGF rules, as real formulas.
-/
namespace Skillratings
namespace Spec

/-- Rating points for `h` handicap stones. -/
noncomputable def egfStones (h : ℝ) : ℝ := if h = 0 then 0 else 100 * (h - 1 / 2)

/-- The strength of the first player in a game: a negative handicap is given to the first player. -/
noncomputable def egfFirst (r h : ℝ) : ℝ := if h < 0 then r + egfStones (-h) else r

/-- The strength of the second player in a game: a positive handicap is given to the second
player. -/
noncomputable def egfSecond (r h : ℝ) : ℝ := if h < 0 then r else r + egfStones h

/-- `β` of the EGF rules. -/
noncomputable def egfBeta (s : ℝ) : ℝ := -7 * Real.log (3300 - s)

/-- The winning expectancy of a player of strength `s` against one of strength `t`. -/
noncomputable def egfExpected (s t : ℝ) : ℝ := 1 / (1 + Real.exp (egfBeta t - egfBeta s))

/-- `con` of the EGF rules. -/
noncomputable def egfCon (r : ℝ) : ℝ := ((3300 - r) / 200) ^ (8 / 5 : ℝ)

/-- `bonus` of the EGF rules. -/
noncomputable def egfBonus (r : ℝ) : ℝ := Real.log (1 + Real.exp ((2300 - r) / 80)) / 5

/-- The rating after a game with result `score`. -/
noncomputable def egfRating (r score expected : ℝ) : ℝ :=
  max (r + egfCon r * (score - expected) + egfBonus r) (-900)

end Spec
end Skillratings
