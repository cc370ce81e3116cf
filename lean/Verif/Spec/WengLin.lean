import Mathlib.Analysis.SpecialFunctions.Pow.Real
import Mathlib.Algebra.BigOperators.Group.Finset.Basic
import Mathlib.Data.Fintype.BigOperators
import Verif.Spec.Basic
/-
Algorithm 1 of Weng and Lin, "A Bayesian Approximation Method for Online Ranking" (2011):
Bradley-Terry, full pair.
-/
namespace Skillratings
namespace Spec

/-- The score of the first of two ranks: a smaller rank is better. -/
noncomputable def rankPoints (one two : MultiTeamOutcome) : ℝ :=
  if one.val < two.val then 1 else if one.val = two.val then 1 / 2 else 0

/-- `cᵢq = √(σᵢ² + σq² + 2β²)`. -/
noncomputable def wlC (β s t : ℝ) : ℝ := √(s + t + 2 * β ^ 2)

/-- `pᵢq`: the probability that a side with rating `μ` beats a side with rating `ν`. -/
noncomputable def wlP (c μ ν : ℝ) : ℝ :=
  Real.exp (μ / c) / (Real.exp (μ / c) + Real.exp (ν / c))

/-- A side: its rating and its squared uncertainty. -/
structure WlSide where
  μ : ℝ
  v : ℝ

/-- `δᵢq = σᵢ²/cᵢq (s - pᵢq)`. -/
noncomputable def wlDelta (β : ℝ) (i q : WlSide) (s : ℝ) : ℝ :=
  i.v / wlC β i.v q.v * (s - wlP (wlC β i.v q.v) i.μ q.μ)

/-- `ηᵢq = γ (σᵢ/cᵢq)² pᵢq pqᵢ` with `γ = σᵢ/cᵢq`. -/
noncomputable def wlEta (β : ℝ) (i q : WlSide) : ℝ :=
  (√i.v / wlC β i.v q.v) ^ 3 * wlP (wlC β i.v q.v) i.μ q.μ * wlP (wlC β i.v q.v) q.μ i.μ

/-- The new rating of a player with squared uncertainty `s`, of a team with `v` and `Ω`. -/
noncomputable def wlRating (r s v Ω : ℝ) : ℝ := r + s / v * Ω

/-- The new uncertainty, `κ` is the tolerance. -/
noncomputable def wlUncertainty (s v Δ κ : ℝ) : ℝ := √(s * max (1 - s / v * Δ) κ)

end Spec
end Skillratings
