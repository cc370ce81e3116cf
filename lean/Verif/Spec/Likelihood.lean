import Mathlib.Analysis.Calculus.Deriv.Basic
import Mathlib.Analysis.SpecialFunctions.Log.Basic
import Verif.Spec.Basic
/-
Statistical estimation of a rating: the likelihood of results under a logistic model of games, the
posterior density for a normal prior, and one step of Newton's method.
-/
namespace Skillratings
namespace Spec

/-- The probability of a win whose log odds are `x`. -/
noncomputable def winProbability (x : ℝ) : ℝ := 1 / (1 + Real.exp (-x))

/-- The log-likelihood of a result worth `s` points.  A draw counts as half a win and half a
loss. -/
noncomputable def logLik (s x : ℝ) : ℝ :=
  s * Real.log (winProbability x) + (1 - s) * Real.log (1 - winProbability x)

/-- A game of a player of rating `r`: a win has log odds `slope * (r - opponent)`. -/
structure LikGame where
  slope : ℝ
  opponent : ℝ
  points : ℝ

/-- The log-likelihood of the results of a player of rating `r`. -/
noncomputable def logLikelihood (gs : List LikGame) (r : ℝ) : ℝ :=
  (gs.map fun g => logLik g.points (g.slope * (r - g.opponent))).sum

/-- The logarithm of the posterior density of the rating, up to a constant, for a normal prior with
mean `m` and variance `v`. -/
noncomputable def logPosterior (m v : ℝ) (gs : List LikGame) (r : ℝ) : ℝ :=
  logLikelihood gs r - (r - m) ^ 2 / (2 * v)

/-- One step of Newton's method for the maximum of `f` leads from `x` to `x'`; the variance
belonging to the curvature of `f` at `x` is `v`. -/
def IsNewtonStep (f : ℝ → ℝ) (x x' v : ℝ) : Prop :=
  ∃ d₁ d₂, HasDerivAt f d₁ x ∧ HasDerivAt (deriv f) d₂ x ∧ d₂ < 0 ∧ x' = x - d₁ / d₂ ∧ v = -1 / d₂

/-- `x'` lies on the side of `x` on which the maximum of `f` is, and `f` has exactly one. -/
def MovesTowardsMode (f : ℝ → ℝ) (x x' : ℝ) : Prop :=
  ∃ m, (∀ r, r ≠ m → f r < f m) ∧ (x < x' ↔ x < m) ∧ (x' < x ↔ m < x)

end Spec
end Skillratings
