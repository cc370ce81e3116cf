import Mathlib.Analysis.SpecialFunctions.Pow.Real
import Mathlib.Analysis.SpecialFunctions.Trigonometric.Basic
import Verif.Spec.Basic
/-
The formulas of Glickman, "The Glicko system".
-/
namespace Skillratings
namespace Spec

/-- `q = ln 10 / 400`. -/
noncomputable def glickoQ : ℝ := Real.log 10 / 400

/-- `g(RD) = 1 / √(1 + 3 q² RD² / π²)`. -/
noncomputable def glickoG (rd : ℝ) : ℝ := 1 / √(1 + 3 * glickoQ ^ 2 * rd ^ 2 / Real.pi ^ 2)

/-- `E(r, rⱼ, RDⱼ) = 1 / (1 + 10^(-g(RDⱼ) (r - rⱼ) / 400))`. -/
noncomputable def glickoE (r rj rdj : ℝ) : ℝ :=
  1 / (1 + (10 : ℝ) ^ (-(glickoG rdj * (r - rj) / 400)))

/-- The summand of `1/d²` for one opponent: `q² g² E (1 - E)`. -/
noncomputable def glickoInfo (r rj rdj : ℝ) : ℝ :=
  glickoQ ^ 2 * glickoG rdj ^ 2 * glickoE r rj rdj * (1 - glickoE r rj rdj)

/-- The deviation at the beginning of a rating period. -/
noncomputable def glickoOnset (rd c : ℝ) : ℝ := min √(rd ^ 2 + c ^ 2) 350

/-- The variance after observing information `1/d²`. -/
noncomputable def posterior (variance information : ℝ) : ℝ := 1 / (1 / variance + information)

end Spec
end Skillratings
