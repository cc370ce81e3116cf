import Verif.Model.Common
/-
Model of /repo/src/glicko.rs.

The conversions from the other Glicko-like ratings live in `Verif/Model/Convert.lean`.
-/
namespace Skillratings
namespace Glicko
variable {F : Type} [Flt F]

/-- `pub struct GlickoRating` — src/glicko.rs:68-73. -/
structure GlickoRating (F : Type) where
  rating : F
  deviation : F

/-- `GlickoRating::new` / `Default` — src/glicko.rs:78-83, 86-90. -/
def GlickoRating.new : GlickoRating F := { rating := 1500.0, deviation := 350.0 }

/-- `impl Rating for GlickoRating` — src/glicko.rs:92-105. -/
instance : Rating F (GlickoRating F) where
  rating r := r.rating
  uncertainty r := some r.deviation
  new rating uncertainty :=
    { rating := rating.getD 1500.0, deviation := uncertainty.getD 350.0 }

/-- `impl From<(f64, f64)> for GlickoRating` — src/glicko.rs:107-114. -/
def GlickoRating.ofPair (t : F × F) : GlickoRating F := { rating := t.1, deviation := t.2 }

/-- `pub struct GlickoConfig` — src/glicko.rs:146-152. -/
structure GlickoConfig (F : Type) where
  c : F

/-- `GlickoConfig::new` / `Default` — src/glicko.rs:157-159, 162-166. -/
def GlickoConfig.new : GlickoConfig F := { c := 63.2 }

/-- `new_deviation` — src/glicko.rs:553-555. -/
def newDeviation (preDeviation d : F) : F :=
  Flt.sqrt (Flt.recip (Flt.recip (Flt.powi preDeviation 2) + Flt.recip d))

/-- `new_rating` — src/glicko.rs:557-567. -/
def newRating (oldRating preDeviation score q g e d : F) : F :=
  Flt.mulAdd ((q / (Flt.recip (Flt.powi preDeviation 2) + Flt.recip d)) * g) (score - e) oldRating

/-- `g_value` — src/glicko.rs:569-573. -/
def gValue (q opponentDeviation : F) : F :=
  Flt.recip (Flt.sqrt
    (1.0 + ((3.0 * Flt.powi q 2 * Flt.powi opponentDeviation 2) / (Flt.powi Flt.pi 2))))

/-- `e_value` — src/glicko.rs:575-577. -/
def eValue (g rating opponentRating : F) : F :=
  Flt.recip (1.0 + (Flt.powf 10.0 (-g * (rating - opponentRating) / 400.0)))

/-- `d_value` — src/glicko.rs:579-581. -/
def dValue (q g e : F) : F :=
  Flt.powi (Flt.powi q 2 * Flt.powi g 2 * e * (1.0 - e)) (-1)

/-- `glicko` — src/glicko.rs:256-311. -/
def glicko (playerOne playerTwo : GlickoRating F) (outcome : Outcomes)
    (config : GlickoConfig F) : GlickoRating F × GlickoRating F :=
  let q : F := Flt.ln 10.0 / 400.0
  let outcome1 : F := outcome.toChessPoints
  let outcome2 := 1.0 - outcome1
  let g1 := gValue q playerTwo.deviation
  let g2 := gValue q playerOne.deviation
  let e1 := eValue g1 playerOne.rating playerTwo.rating
  let e2 := eValue g2 playerTwo.rating playerOne.rating
  let d1 := dValue q g1 e1
  let d2 := dValue q g2 e2
  let playerOnePreDeviation := Flt.fmin (Flt.hypot playerOne.deviation config.c) 350.0
  let playerTwoPreDeviation := Flt.fmin (Flt.hypot playerTwo.deviation config.c) 350.0
  let playerOneNewRating :=
    newRating playerOne.rating playerOnePreDeviation outcome1 q g1 e1 d1
  let playerTwoNewRating :=
    newRating playerTwo.rating playerTwoPreDeviation outcome2 q g2 e2 d2
  let playerOneNewDeviation := newDeviation playerOnePreDeviation d1
  let playerTwoNewDeviation := newDeviation playerTwoPreDeviation d2
  ({ rating := playerOneNewRating, deviation := playerOneNewDeviation },
   { rating := playerTwoNewRating, deviation := playerTwoNewDeviation })

/-- `decay_deviation` — src/glicko.rs:516-523. -/
def decayDeviation (player : GlickoRating F) (config : GlickoConfig F) : GlickoRating F :=
  let newPlayerDeviation := Flt.fmin (Flt.hypot player.deviation config.c) 350.0
  { rating := player.rating, deviation := newPlayerDeviation }

/-- `glicko_rating_period` — src/glicko.rs:368-415. -/
def glickoRatingPeriod (player : GlickoRating F) (results : List (GlickoRating F × Outcomes))
    (config : GlickoConfig F) : GlickoRating F :=
  let q : F := Flt.ln 10.0 / 400.0
  if results.isEmpty then decayDeviation player config
  else
    let dSq := Flt.recip (Flt.powi q 2 * Flt.sum (results.map fun r =>
      let g := gValue q r.1.deviation
      let e := eValue g player.rating r.1.rating
      Flt.powi g 2 * e * (1.0 - e)))
    let m := Flt.sum (results.map fun r =>
      let g := gValue q r.1.deviation
      let e := eValue g player.rating r.1.rating
      let s : F := r.2.toChessPoints
      g * (s - e))
    let preDeviation := Flt.fmin (Flt.hypot player.deviation config.c) 350.0
    let newRating := Flt.mulAdd
      (q / (Flt.recip (Flt.powi preDeviation 2) + Flt.recip dSq)) m player.rating
    let newDeviation :=
      Flt.sqrt (Flt.recip (Flt.recip (Flt.powi preDeviation 2) + Flt.recip dSq))
    { rating := newRating, deviation := newDeviation }

/-- `expected_score` — src/glicko.rs:440-448. -/
def expectedScore (playerOne playerTwo : GlickoRating F) : F × F :=
  let q : F := Flt.ln 10.0 / 400.0
  let g := gValue q (Flt.hypot playerOne.deviation playerTwo.deviation)
  let expOne :=
    Flt.recip (1.0 + Flt.powf 10.0 (-g * (playerOne.rating - playerTwo.rating) / 400.0))
  let expTwo := 1.0 - expOne
  (expOne, expTwo)

/-- `expected_score_rating_period` — src/glicko.rs:482-492. -/
def expectedScoreRatingPeriod (player : GlickoRating F) (opponents : List (GlickoRating F)) :
    List F :=
  opponents.map fun o =>
    let q : F := Flt.ln 10.0 / 400.0
    let g := gValue q (Flt.hypot player.deviation o.deviation)
    Flt.recip (1.0 + Flt.powf 10.0 (-g * (player.rating - o.rating) / 400.0))

/-- `confidence_interval` — src/glicko.rs:546-551. -/
def confidenceInterval (player : GlickoRating F) : F × F :=
  (Flt.mulAdd 1.96 (-player.deviation) player.rating,
   Flt.mulAdd 1.96 player.deviation player.rating)

/-- `pub struct Glicko` — src/glicko.rs:169-171. -/
structure Glicko (F : Type) where
  config : GlickoConfig F

/-- `impl RatingSystem for Glicko` — src/glicko.rs:173-193. -/
instance : RatingSystem F (Glicko F) (GlickoRating F) (GlickoConfig F) Id where
  new config := { config }
  rate self playerOne playerTwo outcome := glicko playerOne playerTwo outcome self.config
  expectedScore _ playerOne playerTwo := expectedScore playerOne playerTwo

/-- `impl RatingPeriodSystem for Glicko` — src/glicko.rs:195-210. -/
instance : RatingPeriodSystem F (Glicko F) (GlickoRating F) (GlickoConfig F) Id where
  new config := { config }
  rate self player results := glickoRatingPeriod player results self.config
  expectedScore _ player opponents := expectedScoreRatingPeriod player opponents

end Glicko
end Skillratings
