import Verif.Model.Elo
/-
Model of /repo/src/ingo.rs.
-/
namespace Skillratings
namespace Ingo
variable {F : Type} [Flt F]

/-- `pub struct IngoRating` — src/ingo.rs:62-68. -/
structure IngoRating (F : Type) where
  rating : F
  age : Nat

/-- `IngoRating::new` — src/ingo.rs:74-76. -/
def IngoRating.new (age : Nat) : IngoRating F := { rating := 230.0, age }

/-- `impl Default for IngoRating` — src/ingo.rs:79-83. -/
def IngoRating.default : IngoRating F := IngoRating.new 26

/-- `impl Rating for IngoRating` — src/ingo.rs:85-98. -/
instance : Rating F (IngoRating F) where
  rating r := r.rating
  uncertainty _ := none
  new rating _ := { rating := rating.getD 230.0, age := 26 }

/-- `impl From<(f64, usize)> for IngoRating` — src/ingo.rs:100-104. -/
def IngoRating.ofPair (t : F × Nat) : IngoRating F := { rating := t.1, age := t.2 }

/-- `impl From<f64> for IngoRating` — src/ingo.rs:107-111. -/
def IngoRating.ofF64 (r : F) : IngoRating F := { rating := r, age := 26 }

/-- `impl From<EloRating> for IngoRating` — src/ingo.rs:113-120. -/
def IngoRating.ofElo (e : Elo.EloRating F) : IngoRating F :=
  { (IngoRating.default : IngoRating F) with rating := 355.0 - (e.rating / 8.0) }

/-- `performance` — src/ingo.rs:379-381. -/
def performance (averageRating score : F) : F :=
  averageRating - Flt.mulAdd 100.0 score (-50.0)

/-- `age_to_devcoefficent` — src/ingo.rs:384-390. -/
def ageToDevcoefficient (age : Nat) : F :=
  if age ≤ 20 then 10.0 else if age ≤ 25 then 15.0 else 20.0

/-- `ingo` — src/ingo.rs:201-228. -/
def ingo (playerOne playerTwo : IngoRating F) (outcome : Outcomes) :
    IngoRating F × IngoRating F :=
  let outcome1 : F := outcome.toChessPoints
  let outcome2 := 1.0 - outcome1
  let perf1 := performance playerTwo.rating outcome1
  let perf2 := performance playerOne.rating outcome2
  let development1 : F := ageToDevcoefficient playerOne.age
  let development2 : F := ageToDevcoefficient playerTwo.age
  let newRating1 :=
    Flt.mulAdd perf1 1.0 (playerOne.rating * development1) / (1.0 + development1)
  let newRating2 :=
    Flt.mulAdd perf2 1.0 (playerTwo.rating * development2) / (1.0 + development2)
  ({ rating := newRating1, age := playerOne.age }, { rating := newRating2, age := playerTwo.age })

/-- `ingo_rating_period` — src/ingo.rs:282-301. -/
def ingoRatingPeriod (player : IngoRating F) (results : List (IngoRating F × Outcomes)) :
    IngoRating F :=
  let development : F := ageToDevcoefficient player.age
  let averagePoints : F :=
    Flt.sum (results.map fun r => r.2.toChessPoints) / Flt.ofNat results.length
  let averageOpponentRating :=
    Flt.sum (results.map fun r => r.1.rating) / Flt.ofNat results.length
  let performance := performance averageOpponentRating averagePoints
  let newRating :=
    Flt.mulAdd performance (Flt.ofNat results.length) (player.rating * development)
      / (Flt.ofNat results.length + development)
  { rating := newRating, age := player.age }

/-- `expected_score` — src/ingo.rs:333-338. -/
def expectedScore (playerOne playerTwo : IngoRating F) : F × F :=
  let expOne := 0.5 + (playerTwo.rating - playerOne.rating) / 100.0
  let expTwo := 1.0 - expOne
  (expOne, expTwo)

/-- `expected_score_rating_period` — src/ingo.rs:372-377. -/
def expectedScoreRatingPeriod (player : IngoRating F) (opponents : List (IngoRating F)) :
    List F :=
  opponents.map fun o => 0.5 + (o.rating - player.rating) / 100.0

/-- `pub struct Ingo {}` — src/ingo.rs:123. -/
structure Ingo (F : Type) where

/-- `impl RatingSystem for Ingo` — src/ingo.rs:125-146. -/
instance : RatingSystem F (Ingo F) (IngoRating F) Unit Id where
  new _ := {}
  rate _ playerOne playerTwo outcome := ingo playerOne playerTwo outcome
  expectedScore _ playerOne playerTwo := expectedScore playerOne playerTwo

/-- `impl RatingPeriodSystem for Ingo` — src/ingo.rs:148-163. -/
instance : RatingPeriodSystem F (Ingo F) (IngoRating F) Unit Id where
  new _ := {}
  rate _ player results := ingoRatingPeriod player results
  expectedScore _ player opponents := expectedScoreRatingPeriod player opponents

end Ingo
end Skillratings
