import Verif.Model.Common
/-
Model of the data types of /repo/src/trueskill/mod.rs and of /repo/src/trueskill/weights.rs.
-/
namespace Skillratings
namespace TrueSkill
variable {F : Type} [Flt F]

/-- A panic of the crate (`assert!`, `panic!`, an index out of range). -/
inductive Panic
  /-- `assert_ne!(sigma, 0.0)` — src/trueskill/gaussian.rs:13 -/
  | sigmaZero
  /-- `team_diff_len - 1` underflows / `team_diff_layer[0]` is out of range
  — src/trueskill/schedule.rs:67, 83 -/
  | noTeamDifference
  /-- `assert!(min_delta > 0.0)` — src/trueskill/schedule.rs:26 -/
  | minDelta
  /-- `assert_eq!(self.rows, self.cols)` — src/trueskill/matrix.rs:104 -/
  | notSquare
  /-- `assert!(det != 0.0)` — src/trueskill/matrix.rs:158 -/
  | notInvertible
  /-- `panic!` in `Matrix::mul` — src/trueskill/matrix.rs:201 -/
  | mulDimensions
  /-- `assert_eq!` in `Matrix::add` — src/trueskill/matrix.rs:226-233 -/
  | addDimensions
  /-- an index out of range, e.g. `self.data[row * self.cols + col]`
  — src/trueskill/matrix.rs:15, 19 -/
  | index
deriving DecidableEq, Repr

/-- `pub struct TrueSkillRating` — src/trueskill/mod.rs:113-118. -/
structure TrueSkillRating (F : Type) where
  rating : F
  uncertainty : F

/-- `TrueSkillRating::new` / `Default` — src/trueskill/mod.rs:123-128, 131-135. -/
def TrueSkillRating.new : TrueSkillRating F := { rating := 25.0, uncertainty := 25.0 / 3.0 }

/-- `impl Rating for TrueSkillRating` — src/trueskill/mod.rs:137-150. -/
instance : Rating F (TrueSkillRating F) where
  rating r := r.rating
  uncertainty r := some r.uncertainty
  new rating uncertainty :=
    { rating := rating.getD 25.0, uncertainty := uncertainty.getD (25.0 / 3.0) }

/-- `impl From<(f64, f64)> for TrueSkillRating` — src/trueskill/mod.rs:152-159. -/
def TrueSkillRating.ofPair (t : F × F) : TrueSkillRating F :=
  { rating := t.1, uncertainty := t.2 }

/-- `pub struct TrueSkillConfig` — src/trueskill/mod.rs:173-190. -/
structure TrueSkillConfig (F : Type) where
  drawProbability : F
  beta : F
  dynamicsFactor : F

/-- `TrueSkillConfig::new` / `Default` — src/trueskill/mod.rs:196-202, 205-209. -/
def TrueSkillConfig.new : TrueSkillConfig F :=
  { drawProbability := 0.1, beta := (25.0 / 3.0) * 0.5, dynamicsFactor := 25.0 / 300.0 }

/-- `pub enum WeightError` — src/trueskill/weights.rs:7-22. -/
inductive WeightError
  | teamAmount
  | playerAmount (team : Nat)
  | weight (team player : Nat)
deriving DecidableEq, Repr

/-- `impl Display for WeightError` — src/trueskill/weights.rs:24-41. -/
def WeightError.display : WeightError → String
  | .teamAmount => "The amount of teams is invalid."
  | .playerAmount team => s!"The amount of players in team {team} is invalid."
  | .weight team player => s!"The weight for player {player} in team {team} is invalid"

/-- The inner loop over the weights of team `i`, from player `j` on
— src/trueskill/weights.rs:59-63. -/
def checkPlayers (i : Nat) : Nat → List F → Except WeightError Unit
  | _, [] => .ok ()
  | j, w :: ws => if w <? 0.0 then .error (.weight i j) else checkPlayers i (j + 1) ws

/-- The loop over the weights, from team `i` on.  `sizes` are the lengths of the teams
`i`, `i+1`, ..; the lists have equal length when it is called
— src/trueskill/weights.rs:54-64. -/
def checkTeams : Nat → List Nat → List (List F) → Except WeightError Unit
  | i, size :: sizes, ws :: rest =>
    if ws.length ≠ size then .error (.playerAmount i)
    else
      match checkPlayers i 0 ws with
      | .error e => .error e
      | .ok () => checkTeams (i + 1) sizes rest
  | _, _, _ => .ok ()

/-- `get_weights` — src/trueskill/weights.rs:45-70. -/
def getWeights (teams : List (List (TrueSkillRating F))) (rawWeights : Option (List (List F))) :
    Except WeightError (List (List F)) :=
  match rawWeights with
  | some weights =>
    if weights.length ≠ teams.length then .error .teamAmount
    else
      match checkTeams 0 (teams.map List.length) weights with
      | .error e => .error e
      | .ok () => .ok weights
  | none => .ok (teams.map fun team => List.replicate team.length 1.0)

end TrueSkill
end Skillratings
