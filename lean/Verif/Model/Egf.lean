import Verif.Model.Common
/-
Model of /repo/src/egf.rs.
-/
namespace Skillratings
namespace Egf
variable {F : Type} [Flt F]

/-- `pub struct EGFRating` — src/egf.rs:70-73. -/
structure EGFRating (F : Type) where
  rating : F

/-- `EGFRating::new` / `Default` — src/egf.rs:78-80, 83-87. -/
def EGFRating.new : EGFRating F := { rating := 0.0 }

/-- `impl Rating for EGFRating` — src/egf.rs:89-101. -/
instance : Rating F (EGFRating F) where
  rating r := r.rating
  uncertainty _ := none
  new rating _ := { rating := rating.getD 0.0 }

/-- `impl From<f64> for EGFRating` — src/egf.rs:103-107. -/
def EGFRating.ofF64 (r : F) : EGFRating F := { rating := r }

/-- `pub struct EGFConfig` — src/egf.rs:112-125. -/
structure EGFConfig (F : Type) where
  handicap : F

/-- `EGFConfig::new` / `Default` — src/egf.rs:130-132, 135-139. -/
def EGFConfig.new : EGFConfig F := { handicap := 0.0 }

/-- `con` — src/egf.rs:421-423. -/
def con (rating : F) : F := Flt.powf ((3300.0 - rating) / 200.0) 1.6

/-- `bonus` — src/egf.rs:426-428. -/
def bonus (rating : F) : F := Flt.ln1p (Flt.exp ((2300.0 - rating) / 80.0)) / 5.0

/-- `beta` — src/egf.rs:430-441. -/
def beta (rating handicap : F) : F :=
  let h := if handicap ==? 0.0 then 0.0 else 100.0 * (handicap - 0.5)
  (-7.0) * Flt.ln (3300.0 - h - rating)

/-- `new_rating` — src/egf.rs:414-417. -/
def newRating (rating con score expScore bonus : F) : F :=
  Flt.fmax (Flt.mulAdd con (score - expScore) rating + bonus) (-900.0)

/-- `expected_score` — src/egf.rs:350-364. -/
def expectedScore (playerOne playerTwo : EGFRating F) (config : EGFConfig F) : F × F :=
  let (h1, h2) : F × F :=
    if Flt.isSignNegative config.handicap then (Flt.abs config.handicap, 0.0)
    else (0.0, Flt.abs config.handicap)
  let expOne := Flt.recip
    (1.0 + Flt.exp (beta playerTwo.rating h2 - beta playerOne.rating h1))
  (expOne, 1.0 - expOne)

/-- `egf` — src/egf.rs:220-248. -/
def egf (playerOne playerTwo : EGFRating F) (outcome : Outcomes) (config : EGFConfig F) :
    EGFRating F × EGFRating F :=
  let con1 := con playerOne.rating
  let con2 := con playerTwo.rating
  let bonus1 := bonus playerOne.rating
  let bonus2 := bonus playerTwo.rating
  let (exp1, exp2) := expectedScore playerOne playerTwo config
  let outcome1 : F := outcome.toChessPoints
  let outcome2 := 1.0 - outcome1
  let newRating1 := newRating playerOne.rating con1 outcome1 exp1 bonus1
  let newRating2 := newRating playerTwo.rating con2 outcome2 exp2 bonus2
  ({ rating := newRating1 }, { rating := newRating2 })

/-- `egf_rating_period` — src/egf.rs:301-324. -/
def egfRatingPeriod (player : EGFRating F)
    (results : List (EGFRating F × Outcomes × EGFConfig F)) : EGFRating F :=
  let con := con player.rating
  let bonus := bonus player.rating
  let ratingChange := results.foldl (init := (0.0 : F)) fun ratingChange r =>
    let exp1 := (expectedScore player r.1 r.2.2).1
    let outcome : F := r.2.1.toChessPoints
    ratingChange + (newRating player.rating con outcome exp1 bonus - player.rating)
  { rating := player.rating + ratingChange }

/-- `expected_score_rating_period` — src/egf.rs:396-412. -/
def expectedScoreRatingPeriod (player : EGFRating F)
    (opponents : List (EGFRating F × EGFConfig F)) : List F :=
  opponents.map fun o =>
    let (h1, h2) : F × F :=
      if Flt.isSignNegative o.2.handicap then (Flt.abs o.2.handicap, 0.0)
      else (0.0, Flt.abs o.2.handicap)
    Flt.recip (1.0 + Flt.exp (beta o.1.rating h2 - beta player.rating h1))

/-- `pub struct EGF` — src/egf.rs:142-144. -/
structure EGF (F : Type) where
  config : EGFConfig F

/-- `impl RatingSystem for EGF` — src/egf.rs:146-166. -/
instance : RatingSystem F (EGF F) (EGFRating F) (EGFConfig F) Id where
  new config := { config }
  rate self playerOne playerTwo outcome := egf playerOne playerTwo outcome self.config
  expectedScore self playerOne playerTwo := expectedScore playerOne playerTwo self.config

/-- `impl RatingPeriodSystem for EGF` — src/egf.rs:168-190. -/
instance : RatingPeriodSystem F (EGF F) (EGFRating F) (EGFConfig F) Id where
  new config := { config }
  rate self player results :=
    egfRatingPeriod player (results.map fun r => (r.1, r.2, self.config))
  expectedScore self player opponents :=
    expectedScoreRatingPeriod player (opponents.map fun o => (o, self.config))

end Egf
end Skillratings
