import Verif.Model.Elo
/-
Model of /repo/src/fifa.rs.
-/
namespace Skillratings
namespace Fifa
variable {F : Type} [Flt F]

/-- `pub struct FifaRating` — src/fifa.rs:64-67. -/
structure FifaRating (F : Type) where
  rating : F

/-- `FifaRating::new` / `Default` — src/fifa.rs:72-74, 77-81. -/
def FifaRating.new : FifaRating F := { rating := 1000.0 }

/-- `impl Rating for FifaRating` — src/fifa.rs:83-95. -/
instance : Rating F (FifaRating F) where
  rating r := r.rating
  uncertainty _ := none
  new rating _ := { rating := rating.getD 1000.0 }

/-- `impl From<f64> for FifaRating` — src/fifa.rs:97-101. -/
def FifaRating.ofF64 (r : F) : FifaRating F := { rating := r }

/-- `impl From<EloRating> for FifaRating` — src/fifa.rs:103-107. -/
def FifaRating.ofElo (e : Elo.EloRating F) : FifaRating F := { rating := e.rating }

/-- `pub struct FifaConfig` — src/fifa.rs:112-152. -/
structure FifaConfig (F : Type) where
  importance : F
  knockout : Bool
  penalties : Bool

/-- `FifaConfig::new` / `Default` — src/fifa.rs:158-164, 167-171. -/
def FifaConfig.new : FifaConfig F := { importance := 10.0, knockout := false, penalties := false }

/-- `expected_score` — src/fifa.rs:414-419. -/
def expectedScore (playerOne playerTwo : FifaRating F) : F × F :=
  let expOne :=
    Flt.recip (1.0 + Flt.powf 10.0 (-(playerOne.rating - playerTwo.rating) / 600.0))
  let expTwo := 1.0 - expOne
  (expOne, expTwo)

/-- `fifa` — src/fifa.rs:248-302. -/
def fifa (playerOne playerTwo : FifaRating F) (outcome : Outcomes) (config : FifaConfig F) :
    FifaRating F × FifaRating F :=
  let (oneExpected, twoExpected) := expectedScore playerOne playerTwo
  let outcome1 : F :=
    if config.penalties then (if outcome = .WIN then 0.75 else 0.5)
    else outcome.toChessPoints
  let outcome2 : F :=
    if config.penalties then (if outcome = .WIN then 0.75 else 0.5)
    else 1.0 - outcome1
  let newRating1 := Flt.mulAdd config.importance (outcome1 - oneExpected) playerOne.rating
  let newRating2 := Flt.mulAdd config.importance (outcome2 - twoExpected) playerTwo.rating
  let newRating1 :=
    if config.knockout && (newRating1 <? playerOne.rating) then playerOne.rating else newRating1
  let newRating2 :=
    if config.knockout && (newRating2 <? playerTwo.rating) then playerTwo.rating else newRating2
  ({ rating := newRating1 }, { rating := newRating2 })

/-- The body of the loop of `fifa_rating_period` — src/fifa.rs:367-388. -/
def periodStep (playerRating : F) (r : FifaRating F × Outcomes × FifaConfig F) : F :=
  let (opponent, result, config) := r
  let exp := Flt.recip (1.0 + Flt.powf 10.0 (-(playerRating - opponent.rating) / 600.0))
  let outcome : F :=
    if config.penalties then (if result = .WIN then 0.75 else 0.5)
    else result.toChessPoints
  let newRating := Flt.mulAdd config.importance (outcome - exp) playerRating
  if !(config.knockout && (newRating <? playerRating)) then newRating else playerRating

/-- `fifa_rating_period` — src/fifa.rs:361-393. -/
def fifaRatingPeriod (player : FifaRating F)
    (results : List (FifaRating F × Outcomes × FifaConfig F)) : FifaRating F :=
  { rating := results.foldl periodStep player.rating }

/-- `expected_score_rating_period` — src/fifa.rs:444-449. -/
def expectedScoreRatingPeriod (player : FifaRating F) (opponents : List (FifaRating F)) :
    List F :=
  opponents.map fun o =>
    Flt.recip (1.0 + Flt.powf 10.0 (-(player.rating - o.rating) / 600.0))

/-- `pub struct Fifa` — src/fifa.rs:174-176. -/
structure Fifa (F : Type) where
  config : FifaConfig F

/-- `impl RatingSystem for Fifa` — src/fifa.rs:178-198. -/
instance : RatingSystem F (Fifa F) (FifaRating F) (FifaConfig F) Id where
  new config := { config }
  rate self playerOne playerTwo outcome := fifa playerOne playerTwo outcome self.config
  expectedScore _ playerOne playerTwo := expectedScore playerOne playerTwo

/-- `impl RatingPeriodSystem for Fifa` — src/fifa.rs:200-219. -/
instance : RatingPeriodSystem F (Fifa F) (FifaRating F) (FifaConfig F) Id where
  new config := { config }
  rate self player results :=
    fifaRatingPeriod player (results.map fun r => (r.1, r.2, self.config))
  expectedScore _ player opponents := expectedScoreRatingPeriod player opponents

end Fifa
end Skillratings
