import Mathlib.Analysis.SpecialFunctions.Pow.Real
import Verif.Spec.Basic
/-
The USCF rules, as real formulas.
-/
namespace Skillratings
namespace Spec

/-- The expected score on the 400 point logistic curve. -/
noncomputable def logisticExpected (own opponent : ℝ) : ℝ :=
  1 / (1 + (10 : ℝ) ^ ((opponent - own) / 400))

/-- The average of the old rating and of the performances `opponent ± 400` of the new games. -/
noncomputable def uscfProvisional (r : ℝ) (games played : ℕ) (average : ℝ) (wins losses : ℝ) : ℝ :=
  (games * r + played * average + 400 * (wins - losses)) / (games + played)

/-- The effective number of games. -/
noncomputable def uscfEffective (r : ℝ) (games : ℕ) : ℝ :=
  min (if r < 2355 then 50 / √(0.662 + 0.00000739 * (2569 - r) ^ 2) else 50) (min (games : ℝ) 50)

/-- The K factor. -/
noncomputable def uscfK (r : ℝ) (games played : ℕ) : ℝ := 800 / (uscfEffective r games + played)

/-- The bonus for the excess `x = K (S - E)` over a threshold, from three games on. -/
noncomputable def uscfBonus (played : ℕ) (x threshold : ℝ) : ℝ :=
  if played < 3 then 0 else max 0 (x - threshold)

/-- The number of wins in a list of results. -/
def wins {R : Type} (rs : List (R × Outcomes)) : ℕ := rs.countP fun r => r.2 = .WIN

/-- The number of losses in a list of results. -/
def losses {R : Type} (rs : List (R × Outcomes)) : ℕ := rs.countP fun r => r.2 = .LOSS

end Spec
end Skillratings
