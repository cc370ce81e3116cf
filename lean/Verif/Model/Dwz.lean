import Verif.Model.Elo
/-
Model of /repo/src/dwz.rs.

`usize` is `Nat` (an index of `usize::MAX` is not reached by counting games);
the `HashMap` literal of `get_first_dwz` is an association list, whose keys are distinct;
`Display` and `Error` of the error type are not modelled.
-/
namespace Skillratings
namespace Dwz
variable {F : Type} [Flt F]

/-- `pub struct DWZRating` — src/dwz.rs:65-72. -/
structure DWZRating (F : Type) where
  rating : F
  index : Nat
  age : Nat

/-- `DWZRating::new` — src/dwz.rs:78-84. -/
def DWZRating.new (age : Nat) : DWZRating F := { rating := 1000.0, index := 1, age }

/-- `impl Default for DWZRating` — src/dwz.rs:87-91. -/
def DWZRating.default : DWZRating F := DWZRating.new 26

/-- `impl Rating for DWZRating` — src/dwz.rs:93-107. -/
instance : Rating F (DWZRating F) where
  rating r := r.rating
  uncertainty _ := none
  new rating _ := { rating := rating.getD 1000.0, index := 1, age := 26 }

/-- `impl From<(f64, usize, usize)> for DWZRating` — src/dwz.rs:109-117. -/
def DWZRating.ofTriple (t : F × Nat × Nat) : DWZRating F :=
  { rating := t.1, index := t.2.1, age := t.2.2 }

/-- `impl From<(f64, usize)> for DWZRating` — src/dwz.rs:120-128. -/
def DWZRating.ofPair (t : F × Nat) : DWZRating F := { rating := t.1, index := t.2, age := 26 }

/-- `impl From<EloRating> for DWZRating` — src/dwz.rs:130-139. -/
def DWZRating.ofElo (e : Elo.EloRating F) : DWZRating F :=
  { (DWZRating.default : DWZRating F) with rating := e.rating, index := 6 }

/-- `pub enum GetFirstDWZError` — src/dwz.rs:144-149. -/
inductive GetFirstDWZError
  | NotEnoughGames
  | InvalidWinRate
deriving DecidableEq, Repr

/-- `impl Display for GetFirstDWZError` — src/dwz.rs:151-160. -/
def GetFirstDWZError.display : GetFirstDWZError → String
  | .NotEnoughGames => "You need at least 5 games to calculate a DWZ Rating."
  | .InvalidWinRate => "Your winrate cannot be 0% or 100%."

/-- `expected_score` — src/dwz.rs:392-399. -/
def expectedScore (playerOne playerTwo : DWZRating F) : F × F :=
  let expOne := Flt.recip
    (1.0 + Flt.powf 10.0 (-(Flt.recip 400.0) * (playerOne.rating - playerTwo.rating)))
  let expTwo := 1.0 - expOne
  (expOne, expTwo)

/-- `expected_score_rating_period` — src/dwz.rs:436-441. -/
def expectedScoreRatingPeriod (player : DWZRating F) (opponents : List (DWZRating F)) : List F :=
  opponents.map fun o =>
    Flt.recip (1.0 + Flt.powf 10.0 (-(Flt.recip 400.0) * (player.rating - o.rating)))

/-- `e_value` — src/dwz.rs:608-649. -/
def eValue (rating : F) (age : Nat) (score expectedScore : F) (index : Nat) : F :=
  let j : F := if age ≤ 20 then 5.0 else if age ≤ 25 then 10.0 else 15.0
  let e0 := Flt.powi (rating / 1000.0) 4 + j
  let a := if decide (age < 20) && (expectedScore <=? score) then rating / 2000.0 else 1.0
  let b := if (rating <? 1300.0) && (score <=? expectedScore)
    then Flt.expM1 ((1300.0 - rating) / 150.0) else 0.0
  let e := Flt.mulAdd a e0 b
  if e <=? 5.0 then 5.0
  else if b ==? 0.0 then
    if Flt.fmin 30.0 (5.0 * Flt.ofNat index) <=? e
      then Flt.fmin 30.0 (5.0 * Flt.ofNat index) else e
  else if (150.0 : F) <=? e then 150.0
  else e

/-- `new_rating` — src/dwz.rs:651-659. -/
def newRating (oldRating e score expectedScore matchesPlayed : F) : F :=
  Flt.mulAdd (800.0 / (e + matchesPlayed)) (score - expectedScore) oldRating

/-- `dwz` — src/dwz.rs:249-300. -/
def dwz (playerOne playerTwo : DWZRating F) (outcome : Outcomes) : DWZRating F × DWZRating F :=
  let outcome1 : F := outcome.toChessPoints
  let outcome2 := 1.0 - outcome1
  let (exp1, exp2) := expectedScore playerOne playerTwo
  let r1 := newRating playerOne.rating
    (eValue playerOne.rating playerOne.age outcome1 exp1 playerOne.index) outcome1 exp1 1.0
  let r2 := newRating playerTwo.rating
    (eValue playerTwo.rating playerTwo.age outcome2 exp2 playerTwo.index) outcome2 exp2 1.0
  ({ rating := r1, index := playerOne.index + 1, age := playerOne.age },
   { rating := r2, index := playerTwo.index + 1, age := playerTwo.age })

/-- `dwz_rating_period` — src/dwz.rs:343-363. -/
def dwzRatingPeriod (player : DWZRating F) (results : List (DWZRating F × Outcomes)) :
    DWZRating F :=
  let points : F := Flt.sum (results.map fun r => r.2.toChessPoints)
  let expectedPoints := Flt.sum (results.map fun r => (expectedScore player r.1).1)
  let newRating := Flt.mulAdd
    (800.0 / (eValue player.rating player.age points expectedPoints player.index
      + Flt.ofNat results.length))
    (points - expectedPoints) player.rating
  { rating := newRating, index := player.index + 1, age := player.age }

/-- The performance table of `get_first_dwz` — src/dwz.rs:531-583. -/
def probabilityTable : List (Int × F) :=
  [(0, -728.0), (1, -614.0), (2, -555.0), (3, -513.0), (4, -480.0), (5, -453.0), (6, -429.0),
   (7, -408.0), (8, -389.0), (9, -371.0), (10, -355.0), (11, -340.0), (12, -326.0),
   (13, -312.0), (14, -300.0), (15, -288.0), (16, -276.0), (17, -265.0), (18, -254.0),
   (19, -244.0), (20, -234.0), (21, -224.0), (22, -214.0), (23, -205.0), (24, -196.0),
   (25, -187.0), (26, -178.0), (27, -170.0), (28, -161.0), (29, -153.0), (30, -145.0),
   (31, -137.0), (32, -129.0), (33, -121.0), (34, -113.0), (35, -106.0), (36, -98.0),
   (37, -91.0), (38, -83.0), (39, -76.0), (40, -69.0), (41, -61.0), (42, -54.0), (43, -47.0),
   (44, -40.0), (45, -32.0), (46, -25.0), (47, -18.0), (48, -11.0), (49, -4.0), (50, -0.0)]

/-- `get_first_dwz` — src/dwz.rs:506-606. -/
def getFirstDwz (playerAge : Nat) (results : List (DWZRating F × Outcomes)) :
    Except GetFirstDWZError (DWZRating F) :=
  if results.length < 5 then .error .NotEnoughGames
  else
    let points : F := Flt.sum (results.map fun r => r.2.toChessPoints)
    if (Flt.abs (points - Flt.ofNat results.length) <? Flt.epsilon) || (points ==? 0.0) then
      .error .InvalidWinRate
    else
      let averageRating :=
        Flt.sum (results.map fun r => r.1.rating) / Flt.ofNat results.length
      let p := Flt.roundToInt ((points / Flt.ofNat results.length) * 100.0)
      let newRating :=
        if p > 50 then
          Flt.abs (((probabilityTable (F := F)).lookup ((p - 100).natAbs : Int)).getD 0.0) + averageRating
        else
          ((probabilityTable (F := F)).lookup p).getD 0.0 + averageRating
      let newRating := if newRating <=? 800.0 then 700.0 + newRating / 8.0 else newRating
      .ok { rating := newRating, index := 1, age := playerAge }

/-- `pub struct DWZ {}` — src/dwz.rs:165. -/
structure DWZ (F : Type) where

/-- `impl RatingSystem for DWZ` — src/dwz.rs:167-187. -/
instance : RatingSystem F (DWZ F) (DWZRating F) Unit Id where
  new _ := {}
  rate _ playerOne playerTwo outcome := dwz playerOne playerTwo outcome
  expectedScore _ playerOne playerTwo := expectedScore playerOne playerTwo

/-- `impl RatingPeriodSystem for DWZ` — src/dwz.rs:189-204. -/
instance : RatingPeriodSystem F (DWZ F) (DWZRating F) Unit Id where
  new _ := {}
  rate _ player results := dwzRatingPeriod player results
  expectedScore _ player opponents := expectedScoreRatingPeriod player opponents

end Dwz
end Skillratings
