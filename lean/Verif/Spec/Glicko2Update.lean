import Verif.Spec.Glicko2
import Verif.Spec.Precise
import Verif.Spec.Float
import Verif.Model.Glicko2
/-
The exact result of a Glicko-2 update, and what it means for a computed player to be close to it.
-/
namespace Skillratings
namespace Spec

/-- `r'`, `rd'` and `σ'` are the rating, deviation and volatility after steps 2 to 8, carried out
without any error, for a player with rating `r`, deviation `rd` and volatility `σ` and the games
`xs`; the volatility solves the equation of step 5 exactly. -/
structure Glicko2Exact (r rd σ τ : ℝ) (xs : List Glicko2Game) (r' rd' σ' : ℝ) : Prop where
  pos : 0 < σ'
  volatility : glicko2F (glicko2Delta (glicko2Mu r) xs) (glicko2Phi rd) (glicko2V (glicko2Mu r) xs) σ τ
    (Real.log (σ' ^ 2)) = 0
  deviation : rd' = glicko2Scale * glicko2NewPhi (glicko2Phi rd) σ' (glicko2V (glicko2Mu r) xs)
  rating : r' = glicko2Scale * glicko2NewMu (glicko2Mu r)
    (glicko2NewPhi (glicko2Phi rd) σ' (glicko2V (glicko2Mu r) xs)) (glicko2Gain (glicko2Mu r) xs) + 1500

variable {E : FloatEnv}

/-- The computed player is finite and close to the given rating, deviation and volatility: the
volatility up to the relative error `η`, the deviation up to `55 η` and the rating up to `6 η`. -/
structure Glicko2Close (η : ℝ) (p : Glicko2.Glicko2Rating (FP E)) (r' rd' σ' : ℝ) : Prop where
  rating : Near (6 * η) p.rating r'
  deviation : Near (55 * η) p.deviation rd'
  volatility : Near (η * σ') p.volatility σ'

/-- The same for a rating period of `n` games, in which the error of the rating may be `6 n η`. -/
structure Glicko2PeriodClose (n : ℕ) (η : ℝ) (p : Glicko2.Glicko2Rating (FP E)) (r' rd' σ' : ℝ) : Prop where
  rating : Near (6 * n * η) p.rating r'
  deviation : Near (55 * η) p.deviation rd'
  volatility : Near (η * σ') p.volatility σ'

/-- A player with a rating of magnitude at most `2 ^ 13`, a deviation between 1/1000 and 1000 and a
volatility between 1/10000 and 99/1000. -/
structure Glicko2Usual (p : Glicko2.Glicko2Rating (FP E)) : Prop where
  rating : Within (2 ^ 13) p.rating
  deviation : Between (1 / 1000) 1000 p.deviation
  volatility : Between (1 / 10000) (99 / 1000) p.volatility

/-- A system constant between 1/10 and 6/5 and a tolerance between `2 ^ -21` and 1. -/
structure Glicko2Tuned (c : Glicko2.Glicko2Config (FP E)) : Prop where
  tau : Between (1 / 10) (6 / 5) c.tau
  tolerance : Between (1 / 2 ^ 21) 1 c.convergenceTolerance

/-- The games of a rating period, on the internal scale. -/
noncomputable def glicko2Games (rs : List (Glicko2.Glicko2Rating (FP E) × Outcomes)) : List Glicko2Game :=
  rs.map fun r => ⟨glicko2Mu r.1.rating.toR, glicko2Phi r.1.deviation.toR, points r.2⟩

/-- A period of 1 to 128 games against opponents no more than 1200 points away. -/
structure Glicko2Period (a : Glicko2.Glicko2Rating (FP E))
    (rs : List (Glicko2.Glicko2Rating (FP E) × Outcomes)) : Prop where
  nonempty : rs ≠ []
  length : rs.length ≤ 128
  usual : ∀ r ∈ rs, Glicko2Usual r.1
  near : ∀ r ∈ rs, |a.rating.toR - r.1.rating.toR| ≤ 1200

/-- The results are not too surprising: the squared volatility is at most a 51st of `φ² + v`, and the
improvement `Δ` is not too large, compared with `φ² + v`. -/
structure Glicko2Calm (a : Glicko2.Glicko2Rating (FP E)) (τ Δ v : ℝ) : Prop where
  volatility : 51 * a.volatility.toR ^ 2 ≤ glicko2Phi a.deviation.toR ^ 2 + v
  delta : τ ^ 2 * Δ ^ 2 ≤ 13 * (glicko2Phi a.deviation.toR ^ 2 + v)
  both : 401 * (τ ^ 2 * Δ ^ 2 * a.volatility.toR ^ 2) ≤ 13 * (glicko2Phi a.deviation.toR ^ 2 + v) ^ 2

end Spec
end Skillratings
