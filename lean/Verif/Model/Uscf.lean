import Verif.Model.Elo
/-
Model of /repo/src/uscf.rs.

`usize` and `i32` counters are `Nat`/`Int` (no overflow).
-/
namespace Skillratings
namespace Uscf
variable {F : Type} [Flt F]

/-- `pub struct USCFRating` — src/uscf.rs:82-87. -/
structure USCFRating (F : Type) where
  rating : F
  games : Nat

/-- `USCFRating::new` — src/uscf.rs:94-105. -/
def USCFRating.new (age : Nat) : USCFRating F :=
  { rating := if age < 2 then 100.0 else if age ≥ 26 then 1300.0 else Flt.ofNat age * 50.0
    games := 0 }

/-- `impl Default for USCFRating` — src/uscf.rs:108-112. -/
def USCFRating.default : USCFRating F := USCFRating.new 26

/-- `impl Rating for USCFRating` — src/uscf.rs:114-127. -/
instance : Rating F (USCFRating F) where
  rating r := r.rating
  uncertainty _ := none
  new rating _ := { rating := rating.getD 1300.0, games := 0 }

/-- `impl From<(f64, usize)> for USCFRating` — src/uscf.rs:129-136. -/
def USCFRating.ofPair (t : F × Nat) : USCFRating F := { rating := t.1, games := t.2 }

/-- `impl From<EloRating> for USCFRating` — src/uscf.rs:138-152. -/
def USCFRating.ofElo (e : Elo.EloRating F) : USCFRating F :=
  if (2000.0 : F) <? e.rating then
    { rating := Flt.mulAdd 0.94 e.rating 180.0, games := 10 }
  else
    { rating := Flt.mulAdd 1.02 e.rating 20.0, games := 5 }

/-- `pub struct USCFConfig` — src/uscf.rs:157-166. -/
structure USCFConfig (F : Type) where
  t : F

/-- `USCFConfig::new` / `Default` — src/uscf.rs:171-173, 176-180. -/
def USCFConfig.new : USCFConfig F := { t := 14.0 }

/-- `new_rating_provisional` — src/uscf.rs:518-530. -/
def newRatingProvisional (rating : F) (pastGames playedGames : Nat) (opponentRating : F)
    (wins losses : Int) : F :=
  Flt.mulAdd (Flt.ofInt (wins - losses)) 400.0
    (Flt.mulAdd (Flt.ofNat pastGames) rating (Flt.ofNat playedGames * opponentRating))
    / Flt.ofNat (pastGames + playedGames)

/-- `e_value` — src/uscf.rs:548-550. -/
def eValue (rating opponentRating : F) : F :=
  Flt.recip (Flt.powf 10.0 (-(rating - opponentRating) / 400.0) + 1.0)

/-- `effective_game_number` — src/uscf.rs:552-561. -/
def effectiveGameNumber (rating : F) (pastGames : Nat) : F :=
  Flt.fmin
    (if rating <? 2355.0 then
      50.0 / Flt.sqrt (Flt.mulAdd 0.00000739 (Flt.powi (2569.0 - rating) 2) 0.662)
     else 50.0)
    (Flt.fmin (Flt.ofNat pastGames) 50.0)

/-- `get_boost_value` — src/uscf.rs:563-576. -/
def getBoostValue (playedGames : Nat) (k e score t : F) : F :=
  if playedGames < 3 then 0.0
  else
    let kse := k * (score - e)
    let tm := t * Flt.sqrt (Flt.ofNat (min playedGames 4))
    if kse <=? tm then 0.0 else kse - tm

/-- `new_rating` — src/uscf.rs:533-546. -/
def newRating (rating : F) (pastGames playedGames : Nat) (score e : F) (config : USCFConfig F) :
    F :=
  let ne := effectiveGameNumber rating pastGames
  let k := 800.0 / (ne + Flt.ofNat playedGames)
  let boost := getBoostValue playedGames k e score config.t
  Flt.mulAdd k (score - e) rating + boost

/-- `i32::from(b)` for a comparison of outcomes — src/uscf.rs:286-287, 306-307, 401, 406. -/
def fromBool (b : Bool) : Int := if b then 1 else 0

/-- `uscf` — src/uscf.rs:268-331. -/
def uscf (playerOne playerTwo : USCFRating F) (outcome : Outcomes) (config : USCFConfig F) :
    USCFRating F × USCFRating F :=
  let outcome1 : F := outcome.toChessPoints
  let outcome2 := 1.0 - outcome1
  let e1 := eValue playerOne.rating playerTwo.rating
  let e2 := eValue playerTwo.rating playerOne.rating
  let newRating1 := Flt.fmax
    (if playerOne.games ≤ 8 then
      newRatingProvisional playerOne.rating playerOne.games 1 playerTwo.rating
        (fromBool (outcome = .WIN)) (fromBool (outcome = .LOSS))
     else newRating playerOne.rating playerOne.games 1 outcome1 e1 config) 100.0
  let newRating2 := Flt.fmax
    (if playerTwo.games ≤ 8 then
      newRatingProvisional playerTwo.rating playerTwo.games 1 playerOne.rating
        (fromBool (outcome = .LOSS)) (fromBool (outcome = .WIN))
     else newRating playerTwo.rating playerTwo.games 1 outcome2 e2 config) 100.0
  ({ rating := newRating1, games := playerOne.games + 1 },
   { rating := newRating2, games := playerTwo.games + 1 })

/-- `uscf_rating_period` — src/uscf.rs:386-444. -/
def uscfRatingPeriod (player : USCFRating F) (results : List (USCFRating F × Outcomes))
    (config : USCFConfig F) : USCFRating F :=
  if results.isEmpty then player
  else if player.games ≤ 8 then
    let avgOpponentRating :=
      Flt.sum (results.map fun r => r.1.rating) / Flt.ofNat results.length
    let wins := (results.map fun r => fromBool (r.2 = .WIN)).sum
    let losses := (results.map fun r => fromBool (r.2 = .LOSS)).sum
    let newRating := newRatingProvisional player.rating player.games results.length
      avgOpponentRating wins losses
    { rating := newRating, games := player.games + results.length }
  else
    let score : F := Flt.sum (results.map fun r => r.2.toChessPoints)
    let expSum := Flt.sum (results.map fun r => eValue player.rating r.1.rating)
    let newRating := newRating player.rating player.games results.length score expSum config
    { rating := newRating, games := player.games + results.length }

/-- `expected_score` — src/uscf.rs:471-476. -/
def expectedScore (playerOne playerTwo : USCFRating F) : F × F :=
  let expOne := eValue playerOne.rating playerTwo.rating
  let expTwo := 1.0 - expOne
  (expOne, expTwo)

/-- `expected_score_rating_period` — src/uscf.rs:510-515. -/
def expectedScoreRatingPeriod (player : USCFRating F) (opponents : List (USCFRating F)) :
    List F :=
  opponents.map fun o => eValue player.rating o.rating

/-- `pub struct USCF` — src/uscf.rs:183-185. -/
structure USCF (F : Type) where
  config : USCFConfig F

/-- `impl RatingSystem for USCF` — src/uscf.rs:187-207. -/
instance : RatingSystem F (USCF F) (USCFRating F) (USCFConfig F) Id where
  new config := { config }
  rate self playerOne playerTwo outcome := uscf playerOne playerTwo outcome self.config
  expectedScore _ playerOne playerTwo := expectedScore playerOne playerTwo

/-- `impl RatingPeriodSystem for USCF` — src/uscf.rs:209-224. -/
instance : RatingPeriodSystem F (USCF F) (USCFRating F) (USCFConfig F) Id where
  new config := { config }
  rate self player results := uscfRatingPeriod player results self.config
  expectedScore _ player opponents := expectedScoreRatingPeriod player opponents

end Uscf
end Skillratings
