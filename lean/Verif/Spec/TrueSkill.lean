import Mathlib.Analysis.SpecialFunctions.Pow.Real
import Mathlib.Analysis.SpecialFunctions.Trigonometric.Basic
import Verif.Spec.Basic
/-
The TrueSkill update of Herbrich, Minka and Graepel (2006) for two sides, with the functions
`v` and `w` of Moser's "Computing Your Skill", over the normal distribution given by the
complementary error function fit of "Numerical Recipes" (`erfcc`).
-/
namespace Skillratings
namespace Spec
open Real

/-- The published coefficients of `erfcc`, in ascending order. -/
def erfcCoefficients : List ℝ :=
  [-1.26551223, 1.00002368, 0.37409196, 0.09678418, -0.18628806, 0.27886807, -1.13520398,
    1.48851587, -0.82215223, 0.17087277]

/-- `erfcc` on `z ≥ 0`: `t exp(-z² + a₀ + a₁ t + … + a₉ t⁹)` with `t = 2/(2 + z)`. -/
noncomputable def erfcTail (z : ℝ) : ℝ :=
  2 / (2 + z) * exp (-z ^ 2 + (erfcCoefficients.mapIdx fun k a => a * (2 / (2 + z)) ^ k).sum)

/-- The complementary error function, reflected for negative arguments. -/
noncomputable def erfcFit (x : ℝ) : ℝ := if x < 0 then 2 - erfcTail (-x) else erfcTail x

/-- The distribution function of the standard normal distribution. -/
noncomputable def normalCdf (x : ℝ) : ℝ := erfcFit (-x / √2) / 2

/-- The density of the standard normal distribution. -/
noncomputable def normalPdf (x : ℝ) : ℝ := exp (-x ^ 2 / 2) / √(2 * π)

/-- A probability below this is treated as zero. -/
noncomputable def tsTiny : ℝ := 2.222758749e-162

/-- The mean correction of a win with normalised difference `t` and draw margin `ε`. -/
noncomputable def tsVWin (t ε : ℝ) : ℝ :=
  if normalCdf (t - ε) < tsTiny then ε - t else normalPdf (t - ε) / normalCdf (t - ε)

/-- The variance correction of a win. -/
noncomputable def tsWWin (t ε : ℝ) : ℝ :=
  if normalCdf (t - ε) < tsTiny then (if t < 0 then 1 else 0)
  else tsVWin t ε * (tsVWin t ε + t - ε)

/-- The probability of a draw at normalised difference `t`. -/
noncomputable def tsDrawNorm (t ε : ℝ) : ℝ := normalCdf (ε - |t|) - normalCdf (-ε - |t|)

/-- The mean correction of a draw. -/
noncomputable def tsVDraw (t ε : ℝ) : ℝ :=
  if tsDrawNorm t ε < tsTiny then (if t < 0 then -t - ε else -t + ε)
  else (if t < 0 then -1 else 1) * (normalPdf (-ε - |t|) - normalPdf (ε - |t|)) / tsDrawNorm t ε

/-- The variance correction of a draw. -/
noncomputable def tsWDraw (t ε : ℝ) : ℝ :=
  if tsDrawNorm t ε < tsTiny then 1
  else tsVDraw t ε ^ 2
    + ((ε - |t|) * normalPdf (ε - |t|) - (-ε - |t|) * normalPdf (-ε - |t|)) / tsDrawNorm t ε

/-- The starting guess for the inverse of `erfc` on `(0, 1]`
(Abramowitz and Stegun 26.2.22). -/
noncomputable def erfcInvGuess (y : ℝ) : ℝ :=
  -((2.30753 + 0.27061 * √(-2 * log (y / 2)))
      / (1 + 0.99229 * √(-2 * log (y / 2)) + 0.04481 * √(-2 * log (y / 2)) ^ 2)
    - √(-2 * log (y / 2))) / √2

/-- A step of Halley's method for `erfc x = y`. -/
noncomputable def erfcInvStep (y x : ℝ) : ℝ :=
  x + (erfcFit x - y) / (2 / √π * exp (-x ^ 2) - x * (erfcFit x - y))

/-- The inverse of `erfc`: two steps of Halley's method, reflected for `y ≥ 1`. -/
noncomputable def erfcInv (y : ℝ) : ℝ :=
  if 2 ≤ y then -100 else if y ≤ 0 then 100
  else if y < 1 then erfcInvStep y (erfcInvStep y (erfcInvGuess y))
  else -erfcInvStep (2 - y) (erfcInvStep (2 - y) (erfcInvGuess (2 - y)))

/-- The draw margin of a game of `n` players: `Φ⁻¹((p + 1)/2) √n β`. -/
noncomputable def tsMargin (p β : ℝ) (n : ℕ) : ℝ := -(√2 * erfcInv (p + 1)) * √n * β

/-- A side: number of players, sum of the ratings, sum of the squared uncertainties. -/
structure TsSide where
  n : ℕ
  μ : ℝ
  v : ℝ

/-- `c = √(n β² + Σ σ²)`. -/
noncomputable def tsC (β : ℝ) (a b : TsSide) : ℝ := √((a.n + b.n : ℕ) * β ^ 2 + a.v + b.v)

/-- The new rating of a player of the favoured side: `μ + (σ² + τ²)/c · v`. -/
noncomputable def tsRating (μ s τ c V : ℝ) : ℝ := μ + (s + τ ^ 2) / c * V

/-- The new uncertainty: `√((σ² + τ²)(1 - w (σ² + τ²)/c²))`. -/
noncomputable def tsUncertainty (s τ c W : ℝ) : ℝ :=
  √((s + τ ^ 2) * (1 - W * ((s + τ ^ 2) / c ^ 2)))

/-- The published corrections for an outcome seen from the first side, `V` being counted for
the first side. -/
noncomputable def corrV (o : Outcomes) (t ε : ℝ) : ℝ :=
  match o with
  | .WIN => tsVWin t ε
  | .LOSS => -tsVWin (-t) ε
  | .DRAW => tsVDraw t ε

/-- The variance correction for an outcome. -/
noncomputable def corrW (o : Outcomes) (t ε : ℝ) : ℝ :=
  match o with
  | .WIN => tsWWin t ε
  | .LOSS => tsWWin (-t) ε
  | .DRAW => tsWDraw t ε

end Spec
end Skillratings
