import Mathlib.Probability.Distributions.Gaussian.Real
import Mathlib.Probability.HasLaw
import Mathlib.Probability.Independence.Basic
import Verif.Model.Common
/-
The normal distribution of probability theory (Mathlib's `gaussianReal`), to which the numerical
functions of the crate are compared, and the generative model of a game that TrueSkill assumes.
-/
namespace Skillratings
namespace Spec
open MeasureTheory ProbabilityTheory

/-- The probability that a standard normal variable is at most `x`. -/
noncomputable def Phi (x : ℝ) : ℝ := (gaussianReal 0 1).real (Set.Iic x)

variable {Ω ι : Type*} [MeasurableSpace Ω] [Fintype ι]

/-- The generative model of a game: player `i` has an unknown skill `X i`, normal with mean `μ i`
and variance `v i`, and a form of the day `N i`, normal with mean `0` and variance `β²`.  All these
variables are independent. -/
structure IsContest (P : Measure Ω) (X N : ι → Ω → ℝ) (μ v : ι → ℝ) (β : ℝ) : Prop where
  measurable_skill : ∀ i, Measurable (X i)
  measurable_form : ∀ i, Measurable (N i)
  skill : ∀ i, HasLaw (X i) (gaussianReal (μ i) (v i).toNNReal) P
  form : ∀ i, HasLaw (N i) (gaussianReal 0 (β ^ 2).toNNReal) P
  indep : iIndepFun (Sum.elim X N) P

/-- The lead of the first side: the sum of the performances (skill plus form) of the players, with
the weight `k i`, positive for the players of the first side and negative for those of the
second. -/
def lead (k : ι → ℝ) (X N : ι → Ω → ℝ) (ω : Ω) : ℝ := ∑ i, k i * (X i ω + N i ω)

/-- The event that the game ends with the outcome `o`: a lead of more than the draw margin `ε` wins,
a lead of less than `-ε` loses, and anything in between is a draw. -/
def happened (o : Outcomes) (ε : ℝ) (L : Ω → ℝ) : Set Ω :=
  match o with
  | .WIN => {ω | ε < L ω}
  | .LOSS => {ω | L ω < -ε}
  | .DRAW => {ω | |L ω| ≤ ε}

end Spec
end Skillratings
