import Verif.Model.Common
/-
Model of /repo/src/glicko2.rs.

The two `while` loops of `new_volatility` are modelled as unbounded loops
(`partial_fixpoint` in `Option`): the value `none` means that the Rust function never
returns.  Consequently `glicko2` and `glicko2_rating_period` return an `Option`.
The conversions from the other Glicko-like ratings live in `Verif/Model/Convert.lean`.
-/
namespace Skillratings
namespace Glicko2
variable {F : Type} [Flt F]

/-- `pub struct Glicko2Rating` — src/glicko2.rs:74-81. -/
structure Glicko2Rating (F : Type) where
  rating : F
  deviation : F
  volatility : F

/-- `Glicko2Rating::new` / `Default` — src/glicko2.rs:86-92, 95-99. -/
def Glicko2Rating.new : Glicko2Rating F :=
  { rating := 1500.0, deviation := 350.0, volatility := 0.06 }

/-- `impl Rating for Glicko2Rating` — src/glicko2.rs:101-115. -/
instance : Rating F (Glicko2Rating F) where
  rating r := r.rating
  uncertainty r := some r.deviation
  new rating uncertainty :=
    { rating := rating.getD 1500.0, deviation := uncertainty.getD 350.0, volatility := 0.06 }

/-- `impl From<(f64, f64, f64)> for Glicko2Rating` — src/glicko2.rs:117-125. -/
def Glicko2Rating.ofTriple (t : F × F × F) : Glicko2Rating F :=
  { rating := t.1, deviation := t.2.1, volatility := t.2.2 }

/-- `pub struct Glicko2Config` — src/glicko2.rs:160-170. -/
structure Glicko2Config (F : Type) where
  tau : F
  convergenceTolerance : F

/-- `Glicko2Config::new` / `Default` — src/glicko2.rs:175-180, 183-187. -/
def Glicko2Config.new : Glicko2Config F := { tau := 0.5, convergenceTolerance := 0.000001 }

/-- `g_value` — src/glicko2.rs:623-627. -/
def gValue (deviation : F) : F :=
  Flt.recip (Flt.sqrt (1.0 + ((3.0 * Flt.powi deviation 2) / (Flt.powi Flt.pi 2))))

/-- `e_value` — src/glicko2.rs:629-631. -/
def eValue (rating opponentRating g : F) : F :=
  Flt.recip (1.0 + Flt.exp (-g * (rating - opponentRating)))

/-- `v_value` — src/glicko2.rs:633-635. -/
def vValue (g e : F) : F := Flt.recip (Flt.powi g 2 * e * (1.0 - e))

/-- `delta_value` — src/glicko2.rs:637-639. -/
def deltaValue (outcome v g e : F) : F := v * (g * (outcome - e))

/-- `f_value` — src/glicko2.rs:641-655. -/
def fValue (x deltaSquare deviationSquare v volatility tau : F) : F :=
  let i := (Flt.exp x * (deltaSquare - deviationSquare - v - Flt.exp x))
    / (2.0 * Flt.powi (deviationSquare + v + Flt.exp x) 2)
  let j := (x - Flt.ln (Flt.powi volatility 2)) / Flt.powi tau 2
  i - j

/-- The loop `while f_value(k.mul_add(-tau, a), ..) < 0.0 { k += 1.0 }` of `new_volatility`
— src/glicko2.rs:671-681.  Returns the final `k`. -/
def kLoop (f : F → F) (a tau : F) (k : F) : Option F :=
  if f (Flt.mulAdd k (-tau) a) <? 0.0 then kLoop f a tau (k + 1.0) else some k
partial_fixpoint

/-- The mutable variables of the second loop of `new_volatility`. -/
structure VolState (F : Type) where
  a : F
  b : F
  fa : F
  fb : F

/-- The body of the second loop of `new_volatility` — src/glicko2.rs:691-702. -/
def volStep (f : F → F) (s : VolState F) : VolState F :=
  let c := s.a + ((s.a - s.b) * s.fa / (s.fb - s.fa))
  let fc := f c
  if fc * s.fb <=? 0.0 then { a := s.b, fa := s.fb, b := c, fb := fc }
  else { a := s.a, fa := s.fa / 2.0, b := c, fb := fc }

/-- The loop `while (b - a).abs() > convergence_tolerance { .. }` of `new_volatility`
— src/glicko2.rs:690-703. -/
def volLoop (f : F → F) (convergenceTolerance : F) (s : VolState F) : Option (VolState F) :=
  if convergenceTolerance <? Flt.abs (s.b - s.a) then
    volLoop f convergenceTolerance (volStep f s)
  else some s
partial_fixpoint

/-- `new_volatility` — src/glicko2.rs:657-706. -/
def newVolatility (oldVolatility deltaSquared deviationSquared v tau convergenceTolerance : F) :
    Option F := do
  let f := fun x => fValue x deltaSquared deviationSquared v oldVolatility tau
  let a := Flt.ln (Flt.powi oldVolatility 2)
  let b ←
    if deviationSquared + v <? deltaSquared then
      some (Flt.ln (deltaSquared - deviationSquared - v))
    else do
      let k ← kLoop f a tau 1.0
      some (Flt.mulAdd k (-tau) a)
  let fa := f a
  let fb := f b
  let s ← volLoop f convergenceTolerance { a, b, fa, fb }
  some (Flt.exp (s.a / 2.0))

/-- `new_deviation` — src/glicko2.rs:708-714. -/
def newDeviation (deviation newVolatility v : F) : F :=
  let preDeviation := Flt.hypot deviation newVolatility
  Flt.recip (Flt.sqrt (Flt.recip (Flt.powi preDeviation 2) + Flt.recip v))

/-- `new_rating` — src/glicko2.rs:716-718. -/
def newRating (rating newDeviation outcome gValue eValue : F) : F :=
  Flt.mulAdd (Flt.powi newDeviation 2 * gValue) (outcome - eValue) rating

/-- `glicko2` — src/glicko2.rs:281-344. -/
def glicko2 (playerOne playerTwo : Glicko2Rating F) (outcome : Outcomes)
    (config : Glicko2Config F) : Option (Glicko2Rating F × Glicko2Rating F) := do
  let playerOneRating := (playerOne.rating - 1500.0) / 173.7178
  let playerTwoRating := (playerTwo.rating - 1500.0) / 173.7178
  let playerOneDeviation := playerOne.deviation / 173.7178
  let playerTwoDeviation := playerTwo.deviation / 173.7178
  let outcome1 : F := outcome.toChessPoints
  let outcome2 := 1.0 - outcome1
  let g1 := gValue playerTwoDeviation
  let g2 := gValue playerOneDeviation
  let e1 := eValue playerOneRating playerTwoRating g1
  let e2 := eValue playerTwoRating playerOneRating g2
  let v1 := vValue g1 e1
  let v2 := vValue g2 e2
  let playerOneNewVolatility ← newVolatility playerOne.volatility
    (Flt.powi (deltaValue outcome1 v1 g1 e1) 2) (Flt.powi playerOneDeviation 2) v1
    config.tau config.convergenceTolerance
  let playerTwoNewVolatility ← newVolatility playerTwo.volatility
    (Flt.powi (deltaValue outcome2 v2 g2 e2) 2) (Flt.powi playerTwoDeviation 2) v2
    config.tau config.convergenceTolerance
  let newDeviation1 := newDeviation playerOneDeviation playerOneNewVolatility v1
  let newDeviation2 := newDeviation playerTwoDeviation playerTwoNewVolatility v2
  let newRating1 := newRating playerOneRating newDeviation1 outcome1 g1 e1
  let newRating2 := newRating playerTwoRating newDeviation2 outcome2 g2 e2
  some
    ({ rating := Flt.mulAdd newRating1 173.7178 1500.0,
       deviation := newDeviation1 * 173.7178,
       volatility := playerOneNewVolatility },
     { rating := Flt.mulAdd newRating2 173.7178 1500.0,
       deviation := newDeviation2 * 173.7178,
       volatility := playerTwoNewVolatility })

/-- `decay_deviation` — src/glicko2.rs:583-592. -/
def decayDeviation (player : Glicko2Rating F) : Glicko2Rating F :=
  let playerDeviation := player.deviation / 173.7178
  let newPlayerDeviation := Flt.hypot playerDeviation player.volatility
  { rating := player.rating,
    deviation := Flt.fmin (newPlayerDeviation * 173.7178) 350.0,
    volatility := player.volatility }

/-- `glicko2_rating_period` — src/glicko2.rs:404-459. -/
def glicko2RatingPeriod (player : Glicko2Rating F) (results : List (Glicko2Rating F × Outcomes))
    (config : Glicko2Config F) : Option (Glicko2Rating F) :=
  if results.isEmpty then some (decayDeviation player)
  else do
    let playerRating := (player.rating - 1500.0) / 173.7178
    let playerDeviation := player.deviation / 173.7178
    let v := Flt.recip (Flt.sum (results.map fun r =>
      let g := gValue (r.1.deviation / 173.7178)
      let e := eValue playerRating ((r.1.rating - 1500.0) / 173.7178) g
      Flt.powi g 2 * e * (1.0 - e)))
    let scores := Flt.sum (results.map fun r =>
      let g := gValue (r.1.deviation / 173.7178)
      let e := eValue playerRating ((r.1.rating - 1500.0) / 173.7178) g
      let s : F := r.2.toChessPoints
      g * (s - e))
    let delta := v * scores
    let newVolatility ← newVolatility player.volatility (Flt.powi delta 2)
      (Flt.powi playerDeviation 2) v config.tau config.convergenceTolerance
    let newDeviation := newDeviation playerDeviation newVolatility v
    let newRating := Flt.mulAdd (Flt.powi newDeviation 2) scores playerRating
    some { rating := Flt.mulAdd newRating 173.7178 1500.0,
           deviation := newDeviation * 173.7178,
           volatility := newVolatility }

/-- `expected_score` — src/glicko2.rs:486-504. -/
def expectedScore (playerOne playerTwo : Glicko2Rating F) : F × F :=
  let playerOneRating := (playerOne.rating - 1500.0) / 173.7178
  let playerTwoRating := (playerTwo.rating - 1500.0) / 173.7178
  let playerOneDeviation := playerOne.deviation / 173.7178
  let playerTwoDeviation := playerTwo.deviation / 173.7178
  let expOne := eValue playerOneRating playerTwoRating
    (gValue (Flt.hypot playerTwoDeviation playerOneDeviation))
  let expTwo := 1.0 - expOne
  (expOne, expTwo)

/-- `expected_score_rating_period` — src/glicko2.rs:541-560. -/
def expectedScoreRatingPeriod (player : Glicko2Rating F) (opponents : List (Glicko2Rating F)) :
    List F :=
  opponents.map fun o =>
    let playerOneRating := (player.rating - 1500.0) / 173.7178
    let playerTwoRating := (o.rating - 1500.0) / 173.7178
    let playerOneDeviation := player.deviation / 173.7178
    let playerTwoDeviation := o.deviation / 173.7178
    let a1 := gValue (Flt.hypot playerTwoDeviation playerOneDeviation)
      * (playerOneRating - playerTwoRating)
    Flt.recip (1.0 + Flt.exp (-a1))

/-- `confidence_interval` — src/glicko2.rs:616-621. -/
def confidenceInterval (player : Glicko2Rating F) : F × F :=
  (Flt.mulAdd 1.96 (-player.deviation) player.rating,
   Flt.mulAdd 1.96 player.deviation player.rating)

/-- `pub struct Glicko2` — src/glicko2.rs:190-192. -/
structure Glicko2 (F : Type) where
  config : Glicko2Config F

/-- `impl RatingSystem for Glicko2` — src/glicko2.rs:194-214. -/
instance : RatingSystem F (Glicko2 F) (Glicko2Rating F) (Glicko2Config F) Option where
  new config := { config }
  rate self playerOne playerTwo outcome := glicko2 playerOne playerTwo outcome self.config
  expectedScore _ playerOne playerTwo := expectedScore playerOne playerTwo

/-- `impl RatingPeriodSystem for Glicko2` — src/glicko2.rs:216-231. -/
instance : RatingPeriodSystem F (Glicko2 F) (Glicko2Rating F) (Glicko2Config F) Option where
  new config := { config }
  rate self player results := glicko2RatingPeriod player results self.config
  expectedScore _ player opponents := expectedScoreRatingPeriod player opponents

end Glicko2
end Skillratings
