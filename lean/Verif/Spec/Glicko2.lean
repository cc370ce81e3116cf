import Mathlib.Analysis.SpecialFunctions.Pow.Real
import Mathlib.Analysis.SpecialFunctions.Trigonometric.Basic
import Verif.Spec.Basic
/-
The formulas of Glickman, "Example of the Glicko-2 system" (steps 2 - 8).
-/
namespace Skillratings
namespace Spec

/-- The constant that converts between the two scales. -/
noncomputable def glicko2Scale : ℝ := 173.7178

/-- Step 2: the rating on the internal scale. -/
noncomputable def glicko2Mu (r : ℝ) : ℝ := (r - 1500) / glicko2Scale

/-- Step 2: the deviation on the internal scale. -/
noncomputable def glicko2Phi (rd : ℝ) : ℝ := rd / glicko2Scale

/-- `g(φ) = 1/√(1 + 3φ²/π²)`. -/
noncomputable def glicko2G (φ : ℝ) : ℝ := 1 / √(1 + 3 * φ ^ 2 / Real.pi ^ 2)

/-- `E(μ, μⱼ, φⱼ) = 1/(1 + exp(-g(φⱼ)(μ - μⱼ)))`. -/
noncomputable def glicko2E (μ μj φj : ℝ) : ℝ :=
  1 / (1 + Real.exp (-(glicko2G φj * (μ - μj))))

/-- A game on the internal scale: the opponent and the points. -/
structure Glicko2Game where
  μ : ℝ
  φ : ℝ
  points : ℝ

/-- Step 3: the estimated variance from the games. -/
noncomputable def glicko2V (μ : ℝ) (xs : List Glicko2Game) : ℝ :=
  1 / (xs.map fun x =>
    glicko2G x.φ ^ 2 * glicko2E μ x.μ x.φ * (1 - glicko2E μ x.μ x.φ)).sum

/-- The sum `Σ g(φⱼ) (sⱼ - E)`. -/
noncomputable def glicko2Gain (μ : ℝ) (xs : List Glicko2Game) : ℝ :=
  (xs.map fun x => glicko2G x.φ * (x.points - glicko2E μ x.μ x.φ)).sum

/-- Step 4: the estimated improvement. -/
noncomputable def glicko2Delta (μ : ℝ) (xs : List Glicko2Game) : ℝ :=
  glicko2V μ xs * glicko2Gain μ xs

/-- Step 5.1: the function whose zero is the logarithm of the new squared volatility. -/
noncomputable def glicko2F (Δ φ v σ τ x : ℝ) : ℝ :=
  Real.exp x * (Δ ^ 2 - φ ^ 2 - v - Real.exp x) / (2 * (φ ^ 2 + v + Real.exp x) ^ 2)
    - (x - Real.log (σ ^ 2)) / τ ^ 2

/-- Steps 6 and 7: the new deviation, given the new volatility. -/
noncomputable def glicko2NewPhi (φ σ' v : ℝ) : ℝ :=
  1 / √(1 / (φ ^ 2 + σ' ^ 2) + 1 / v)

/-- Step 7: the new rating. -/
noncomputable def glicko2NewMu (μ φ' gain : ℝ) : ℝ := μ + φ' ^ 2 * gain

end Spec
end Skillratings
