import Verif.Model.Common
/-
Model of /repo/src/sticko.rs.

The conversions from the other Glicko-like ratings live in `Verif/Model/Convert.lean`.
-/
namespace Skillratings
namespace Sticko
variable {F : Type} [Flt F]

/-- `pub struct StickoRating` — src/sticko.rs:87-92. -/
structure StickoRating (F : Type) where
  rating : F
  deviation : F

/-- `StickoRating::new` / `Default` — src/sticko.rs:97-102, 105-109. -/
def StickoRating.new : StickoRating F := { rating := 1500.0, deviation := 350.0 }

/-- `impl Rating for StickoRating` — src/sticko.rs:111-124. -/
instance : Rating F (StickoRating F) where
  rating r := r.rating
  uncertainty r := some r.deviation
  new rating uncertainty :=
    { rating := rating.getD 1500.0, deviation := uncertainty.getD 350.0 }

/-- `impl From<(f64, f64)> for StickoRating` — src/sticko.rs:126-133. -/
def StickoRating.ofPair (t : F × F) : StickoRating F := { rating := t.1, deviation := t.2 }

/-- `pub struct StickoConfig` — src/sticko.rs:168-203. -/
structure StickoConfig (F : Type) where
  h : F
  beta : F
  lambda : F
  gamma : F
  c : F

/-- `StickoConfig::new` / `Default` — src/sticko.rs:209-217, 220-224. -/
def StickoConfig.new : StickoConfig F :=
  { h := 10.0, beta := 0.0, lambda := 2.0, gamma := 0.0, c := 10.0 }

/-- `new_deviation` — src/sticko.rs:724-729. -/
def newDeviation (oldDeviation d h : F) : F :=
  Flt.fmin
    (Flt.sqrt (Flt.recip (Flt.recip (Flt.mulAdd oldDeviation oldDeviation h) + Flt.recip d)))
    350.0

/-- `new_rating` — src/sticko.rs:732-745. -/
def newRating (oldRating deviation q d g score e beta lambda : F) : F :=
  Flt.mulAdd ((q / (Flt.recip (Flt.powi deviation 2) + Flt.recip d)) * g)
    (score - e + beta) oldRating + lambda

/-- `g_value` — src/sticko.rs:750-754. -/
def gValue (q opponentDeviation : F) : F :=
  Flt.recip (Flt.sqrt
    (1.0 + ((3.0 * Flt.powi q 2 * Flt.powi opponentDeviation 2) / (Flt.powi Flt.pi 2))))

/-- `e_value` — src/sticko.rs:756-758. -/
def eValue (g rating opponentRating advantage colour : F) : F :=
  Flt.recip (1.0 + (Flt.powf 10.0
    (-g * Flt.mulAdd advantage colour (rating - opponentRating) / 400.0)))

/-- `d_value` — src/sticko.rs:760-762. -/
def dValue (q g e : F) : F :=
  Flt.powi (Flt.powi q 2 * Flt.powi g 2 * e * (1.0 - e)) (-1)

/-- `sticko` — src/sticko.rs:325-404. -/
def sticko (playerOne playerTwo : StickoRating F) (outcome : Outcomes)
    (config : StickoConfig F) : StickoRating F × StickoRating F :=
  let q : F := Flt.ln 10.0 / 400.0
  let outcome1 : F := outcome.toChessPoints
  let outcome2 := 1.0 - outcome1
  let colour1 : F := 1.0
  let colour2 : F := -1.0
  let lambda1 := (config.lambda / 100.0) * (playerTwo.rating - playerOne.rating)
  let lambda2 := (config.lambda / 100.0) * (playerOne.rating - playerTwo.rating)
  let g1 := gValue q playerTwo.deviation
  let g2 := gValue q playerOne.deviation
  let e1 := eValue g1 playerOne.rating playerTwo.rating config.gamma colour1
  let e2 := eValue g2 playerTwo.rating playerOne.rating config.gamma colour2
  let d1 := dValue q g1 e1
  let d2 := dValue q g2 e2
  let playerOnePreDeviation := Flt.fmin (Flt.hypot playerOne.deviation config.c) 350.0
  let playerTwoPreDeviation := Flt.fmin (Flt.hypot playerTwo.deviation config.c) 350.0
  let playerOneNewRating := newRating playerOne.rating playerOnePreDeviation q d1 g1 outcome1 e1
    config.beta lambda1
  let playerTwoNewRating := newRating playerTwo.rating playerTwoPreDeviation q d2 g2 outcome2 e2
    config.beta lambda2
  let playerOneNewDeviation := newDeviation playerOnePreDeviation d1 config.h
  let playerTwoNewDeviation := newDeviation playerTwoPreDeviation d2 config.h
  ({ rating := playerOneNewRating, deviation := playerOneNewDeviation },
   { rating := playerTwoNewRating, deviation := playerTwoNewDeviation })

/-- `decay_deviation` — src/sticko.rs:687-694. -/
def decayDeviation (player : StickoRating F) (config : StickoConfig F) : StickoRating F :=
  let newPlayerDeviation := Flt.fmin (Flt.hypot player.deviation config.c) 350.0
  { rating := player.rating, deviation := newPlayerDeviation }

/-- `sticko_rating_period` — src/sticko.rs:472-542. -/
def stickoRatingPeriod (player : StickoRating F)
    (results : List (StickoRating F × Outcomes × Bool)) (config : StickoConfig F) :
    StickoRating F :=
  let q : F := Flt.ln 10.0 / 400.0
  if results.isEmpty then decayDeviation player config
  else
    let matches_ : F := Flt.ofNat results.length
    let dSq := Flt.recip (Flt.powi q 2 * Flt.sum (results.map fun r =>
      let g := gValue q r.1.deviation
      let e := eValue g player.rating r.1.rating config.gamma (if r.2.2 then 1.0 else -1.0)
      Flt.powi g 2 * e * (1.0 - e)))
    let lambda := (config.lambda / 100.0)
      * ((Flt.sum (results.map fun r => r.1.rating) / matches_) - player.rating)
    let m := Flt.sum (results.map fun r =>
      let g := gValue q r.1.deviation
      let e := eValue g player.rating r.1.rating config.gamma (if r.2.2 then 1.0 else -1.0)
      let s : F := r.2.1.toChessPoints
      g * (s - e + config.beta))
    let preDeviation := Flt.fmin (Flt.hypot player.deviation config.c) 350.0
    let newDeviation := Flt.fmin
      (Flt.sqrt (Flt.recip
        (Flt.recip (Flt.mulAdd preDeviation preDeviation (config.h * matches_))
          + Flt.recip dSq))) 350.0
    let newRating := Flt.mulAdd
      (q / (Flt.recip (Flt.powi preDeviation 2) + Flt.recip dSq)) m player.rating + lambda
    { rating := newRating, deviation := newDeviation }

/-- `expected_score` — src/sticko.rs:576-590. -/
def expectedScore (playerOne playerTwo : StickoRating F) (config : StickoConfig F) : F × F :=
  let q : F := Flt.ln 10.0 / 400.0
  let g := gValue q (Flt.hypot playerOne.deviation playerTwo.deviation)
  let expOne := Flt.recip (1.0 + Flt.powf 10.0
    (-g * (playerOne.rating + config.gamma - playerTwo.rating) / 400.0))
  let expTwo := 1.0 - expOne
  (expOne, expTwo)

/-- `expected_score_rating_period` — src/sticko.rs:647-663. -/
def expectedScoreRatingPeriod (player : StickoRating F)
    (opponents : List (StickoRating F × Bool)) (config : StickoConfig F) : List F :=
  opponents.map fun o =>
    let q : F := Flt.ln 10.0 / 400.0
    let g := gValue q (Flt.hypot player.deviation o.1.deviation)
    let gamma := if o.2 then config.gamma else -config.gamma
    Flt.recip (1.0 + Flt.powf 10.0 (-g * (player.rating + gamma - o.1.rating) / 400.0))

/-- `confidence_interval` — src/sticko.rs:717-722. -/
def confidenceInterval (player : StickoRating F) : F × F :=
  (Flt.mulAdd 1.96 (-player.deviation) player.rating,
   Flt.mulAdd 1.96 player.deviation player.rating)

/-- `pub struct Sticko` — src/sticko.rs:227-229. -/
structure Sticko (F : Type) where
  config : StickoConfig F

/-- `impl RatingSystem for Sticko` — src/sticko.rs:231-251. -/
instance : RatingSystem F (Sticko F) (StickoRating F) (StickoConfig F) Id where
  new config := { config }
  rate self playerOne playerTwo outcome := sticko playerOne playerTwo outcome self.config
  expectedScore self playerOne playerTwo := expectedScore playerOne playerTwo self.config

/-- `impl RatingPeriodSystem for Sticko` — src/sticko.rs:253-276. -/
instance : RatingPeriodSystem F (Sticko F) (StickoRating F) (StickoConfig F) Id where
  new config := { config }
  rate self player results :=
    stickoRatingPeriod player (results.map fun r => (r.1, r.2, true)) self.config
  expectedScore self player opponents :=
    expectedScoreRatingPeriod player (opponents.map fun o => (o, true)) self.config

end Sticko
end Skillratings
