import Verif.Model.Common
/-
Model of /repo/src/elo.rs.

The conversions into `EloRating` from the other systems live in `Verif/Model/Convert.lean`,
because they mention the other rating types.
-/
namespace Skillratings
namespace Elo
variable {F : Type} [Flt F]

/-- `pub struct EloRating` — src/elo.rs:60-63. -/
structure EloRating (F : Type) where
  rating : F

/-- `EloRating::new` / `Default` — src/elo.rs:68-70, 73-77. -/
def EloRating.new : EloRating F := { rating := 1000.0 }

/-- `impl Rating for EloRating` — src/elo.rs:79-91. -/
instance : Rating F (EloRating F) where
  rating r := r.rating
  uncertainty _ := none
  new rating _ := { rating := rating.getD 1000.0 }

/-- `impl From<f64> for EloRating` — src/elo.rs:93-97. -/
def EloRating.ofF64 (r : F) : EloRating F := { rating := r }

/-- `pub struct EloConfig` — src/elo.rs:136-142. -/
structure EloConfig (F : Type) where
  k : F

/-- `EloConfig::new` / `Default` — src/elo.rs:147-149, 152-156. -/
def EloConfig.new : EloConfig F := { k := 32.0 }

/-- `expected_score` — src/elo.rs:331-336. -/
def expectedScore (playerOne playerTwo : EloRating F) : F × F :=
  let expOne := Flt.recip (1.0 + Flt.powf 10.0 ((playerTwo.rating - playerOne.rating) / 400.0))
  let expTwo := 1.0 - expOne
  (expOne, expTwo)

/-- `elo` — src/elo.rs:229-251. -/
def elo (playerOne playerTwo : EloRating F) (outcome : Outcomes) (config : EloConfig F) :
    EloRating F × EloRating F :=
  let (oneExpected, twoExpected) := expectedScore playerOne playerTwo
  let outcome1 : F := outcome.toChessPoints
  let outcome2 := 1.0 - outcome1
  let oneNewElo := Flt.mulAdd config.k (outcome1 - oneExpected) playerOne.rating
  let twoNewElo := Flt.mulAdd config.k (outcome2 - twoExpected) playerTwo.rating
  ({ rating := oneNewElo }, { rating := twoNewElo })

/-- The body of the loop of `elo_rating_period` — src/elo.rs:296-305. -/
def periodStep (config : EloConfig F) (playerRating : F) (r : EloRating F × Outcomes) : F :=
  let exp := Flt.recip (1.0 + Flt.powf 10.0 ((r.1.rating - playerRating) / 400.0))
  let outcome : F := r.2.toChessPoints
  Flt.mulAdd config.k (outcome - exp) playerRating

/-- `elo_rating_period` — src/elo.rs:289-310. -/
def eloRatingPeriod (player : EloRating F) (results : List (EloRating F × Outcomes))
    (config : EloConfig F) : EloRating F :=
  { rating := results.foldl (periodStep config) player.rating }

/-- `expected_score_rating_period` — src/elo.rs:361-366. -/
def expectedScoreRatingPeriod (player : EloRating F) (opponents : List (EloRating F)) : List F :=
  opponents.map fun o =>
    Flt.recip (1.0 + Flt.powf 10.0 ((o.rating - player.rating) / 400.0))

/-- `pub struct Elo` — src/elo.rs:159-161. -/
structure Elo (F : Type) where
  config : EloConfig F

/-- `impl RatingSystem for Elo` — src/elo.rs:163-183. -/
instance : RatingSystem F (Elo F) (EloRating F) (EloConfig F) Id where
  new config := { config }
  rate self playerOne playerTwo outcome := elo playerOne playerTwo outcome self.config
  expectedScore _ playerOne playerTwo := expectedScore playerOne playerTwo

/-- `impl RatingPeriodSystem for Elo` — src/elo.rs:185-200. -/
instance : RatingPeriodSystem F (Elo F) (EloRating F) (EloConfig F) Id where
  new config := { config }
  rate self player results := eloRatingPeriod player results self.config
  expectedScore _ player opponents := expectedScoreRatingPeriod player opponents

end Elo
end Skillratings
