import Verif.Model.TrueSkill.Matrix
import Verif.Model.TrueSkill.Schedule
/-
Model of /repo/src/trueskill/mod.rs.

The conversion from `WengLinRating` lives in `Verif/Model/Convert.lean`.  A function that can
panic returns `Except Panic`, and the `Result<_, WeightError>` of the source is a nested
`Except WeightError`.
-/
namespace Skillratings
namespace TrueSkill
variable {F : Type} [Flt F]

/-- `rating_delta` — src/trueskill/mod.rs:366-369, 490-493, 610-613. -/
def ratingDelta (one two : F) : Outcomes → F
  | .WIN => one - two
  | .DRAW => one - two
  | .LOSS => two - one

/-- `(v, w)` — src/trueskill/mod.rs:371-381, 495-505, 615-625. -/
def vw (outcome : Outcomes) (delta margin c : F) : F × F :=
  if outcome = .DRAW then (vDraw delta margin c, wDraw delta margin c)
  else (vNonDraw delta margin c, wNonDraw delta margin c)

/-- `(rank_multiplier1, rank_multiplier2)` — src/trueskill/mod.rs:385-388, 507-510, 627-630. -/
def rankMultipliers : Outcomes → F × F
  | .WIN => (1.0, -1.0)
  | .DRAW => (1.0, -1.0)
  | .LOSS => (-1.0, 1.0)

/-- `trueskill` — src/trueskill/mod.rs:348-420. -/
def trueskill (playerOne playerTwo : TrueSkillRating F) (outcome : Outcomes)
    (config : TrueSkillConfig F) : TrueSkillRating F × TrueSkillRating F :=
  let margin := drawMargin config.drawProbability config.beta 2.0
  let c := Flt.sqrt (Flt.mulAdd 2.0 (Flt.powi config.beta 2)
    (Flt.mulAdd playerOne.uncertainty playerOne.uncertainty (Flt.powi playerTwo.uncertainty 2)))
  let delta := ratingDelta playerOne.rating playerTwo.rating outcome
  let (v, w) := vw outcome delta margin c
  let (m1, m2) := rankMultipliers outcome
  ({ rating := newRating playerOne.rating playerOne.uncertainty v c config.dynamicsFactor m1
     uncertainty := newUncertainty playerOne.uncertainty c w config.dynamicsFactor },
   { rating := newRating playerTwo.rating playerTwo.uncertainty v c config.dynamicsFactor m2
     uncertainty := newUncertainty playerTwo.uncertainty c w config.dynamicsFactor })

/-- The body of the loop of `trueskill_rating_period` — src/trueskill/mod.rs:482-521. -/
def periodStep (config : TrueSkillConfig F) (margin : F) (player : TrueSkillRating F)
    (r : TrueSkillRating F × Outcomes) : TrueSkillRating F :=
  let c := Flt.sqrt (Flt.mulAdd 2.0 (Flt.powi config.beta 2)
    (Flt.mulAdd player.uncertainty player.uncertainty (Flt.powi r.1.uncertainty 2)))
  let delta := ratingDelta player.rating r.1.rating r.2
  let (v, w) := vw r.2 delta margin c
  let m := (rankMultipliers r.2).1
  { rating := newRating player.rating player.uncertainty v c config.dynamicsFactor m
    uncertainty := newUncertainty player.uncertainty c w config.dynamicsFactor }

/-- `trueskill_rating_period` — src/trueskill/mod.rs:472-527. -/
def trueskillRatingPeriod (player : TrueSkillRating F)
    (results : List (TrueSkillRating F × Outcomes)) (config : TrueSkillConfig F) :
    TrueSkillRating F :=
  let margin := drawMargin config.drawProbability config.beta 2.0
  results.foldl (periodStep config margin) player

/-- `team.iter().map(|p| p.rating).sum()` — e.g. src/trueskill/mod.rs:597. -/
def teamRating (team : List (TrueSkillRating F)) : F := Flt.sum (team.map fun p => p.rating)

/-- `team.iter().map(|p| p.uncertainty.powi(2)).sum()` — e.g. src/trueskill/mod.rs:600. -/
def teamUncertaintySq (team : List (TrueSkillRating F)) : F :=
  Flt.sum (team.map fun p => Flt.powi p.uncertainty 2)

/-- The update of all the players of a team — src/trueskill/mod.rs:635-650, 652-667. -/
def updateTeam (team : List (TrueSkillRating F)) (v w c dynamicsFactor m : F) :
    List (TrueSkillRating F) :=
  team.map fun player =>
    { rating := newRating player.rating player.uncertainty v c dynamicsFactor m
      uncertainty := newUncertainty player.uncertainty c w dynamicsFactor }

/-- `trueskill_two_teams` — src/trueskill/mod.rs:583-670. -/
def trueskillTwoTeams (teamOne teamTwo : List (TrueSkillRating F)) (outcome : Outcomes)
    (config : TrueSkillConfig F) : List (TrueSkillRating F) × List (TrueSkillRating F) :=
  if teamOne.isEmpty || teamTwo.isEmpty then (teamOne, teamTwo)
  else
    let totalPlayers : F := Flt.ofNat (teamOne.length + teamTwo.length)
    let margin := drawMargin config.drawProbability config.beta totalPlayers
    let ratingOneSum := teamRating teamOne
    let ratingTwoSum := teamRating teamTwo
    let uncertaintyOneSum := teamUncertaintySq teamOne
    let uncertaintyTwoSum := teamUncertaintySq teamTwo
    let c := Flt.sqrt (Flt.mulAdd totalPlayers (Flt.powi config.beta 2)
      (uncertaintyOneSum + uncertaintyTwoSum))
    let delta := ratingDelta ratingOneSum ratingTwoSum outcome
    let (v, w) := vw outcome delta margin c
    let (m1, m2) := rankMultipliers outcome
    (updateTeam teamOne v w c config.dynamicsFactor m1,
     updateTeam teamTwo v w c config.dynamicsFactor m2)

/-- `team_sizes` — src/trueskill/mod.rs:1492-1503. -/
def teamSizes (teamsAndRanks : List (List (TrueSkillRating F) × MultiTeamOutcome)) : List Nat :=
  teamsAndRanks.foldl (init := []) fun sizes t =>
    match sizes.getLast? with
    | none => sizes ++ [t.1.length]
    | some last => sizes ++ [t.1.length + last]

/-- An entry of `sorted_teams_and_ranks_with_pos` — src/trueskill/mod.rs:793-796. -/
structure PosTeam (F : Type) where
  pos : Nat
  team : List (TrueSkillRating F)
  rank : MultiTeamOutcome
  weights : List F

/-- src/trueskill/mod.rs:793-796. -/
def withPos (teamsAndRanks : List (List (TrueSkillRating F) × MultiTeamOutcome))
    (weights : List (List F)) : List (PosTeam F) :=
  (teamsAndRanks.zip weights).zipIdx.map fun e =>
    { pos := e.2, team := e.1.1.1, rank := e.1.1.2, weights := e.1.2 }

/-- The read-out of a rating variable — src/trueskill/mod.rs:880-887. -/
def readRating (s : Store F) (i : Nat) : TrueSkillRating F :=
  { rating := (s (.rating i)).gaussian.mu, uncertainty := (s (.rating i)).gaussian.sigma }

/-- `trueskill_multi_team` — src/trueskill/mod.rs:766-901, with `MIN_DELTA` — line 105.
`sort_by_key` is a stable sort, `List.mergeSort`. -/
def trueskillMultiTeam (teamsAndRanks : List (List (TrueSkillRating F) × MultiTeamOutcome))
    (config : TrueSkillConfig F) (weights : Option (List (List F))) :
    Except Panic (Except WeightError (List (List (TrueSkillRating F)))) :=
  if teamsAndRanks.isEmpty then .ok (.ok [])
  else if teamsAndRanks.any (fun t => t.1.isEmpty) then .ok (.ok (teamsAndRanks.map (·.1)))
  else
    match getWeights (teamsAndRanks.map (·.1)) weights with
    | .error e => .ok (.error e)
    | .ok weights =>
      let sorted := (withPos teamsAndRanks weights).mergeSort
        fun a b => decide (a.rank.val ≤ b.rank.val)
      let sortedTeamsAndRanks := sorted.map fun v => (v.team, v.rank)
      let flattenedRatings := (sorted.map (·.team)).flatten
      let flattenedWeights := (sorted.map (·.weights)).flatten
      let sizes := teamSizes sortedTeamsAndRanks
      match runSchedule sizes sortedTeamsAndRanks flattenedRatings flattenedWeights
          config.dynamicsFactor config.beta config.drawProbability 0.0001 with
      | .error e => .error e
      | .ok s =>
        let players := (List.range flattenedRatings.length).map (readRating s)
        let transformedGroups := ((0 :: sizes.dropLast).zip sizes).map fun se =>
          slice players se.1 se.2
        let unsorted := ((sorted.map (·.pos)).zip transformedGroups).mergeSort
          fun a b => decide (a.1 ≤ b.1)
        .ok (.ok (unsorted.map (·.2)))

/-- `match_quality` — src/trueskill/mod.rs:925-948. -/
def matchQuality (playerOne playerTwo : TrueSkillRating F) (config : TrueSkillConfig F) : F :=
  let delta := playerOne.rating - playerTwo.rating
  let a := Flt.sqrt ((2.0 * Flt.powi config.beta 2)
    / Flt.mulAdd playerTwo.uncertainty playerTwo.uncertainty
        (Flt.mulAdd 2.0 (Flt.powi config.beta 2) (Flt.powi playerOne.uncertainty 2)))
  let b := Flt.exp ((-Flt.powi delta 2)
    / (2.0 * Flt.mulAdd playerTwo.uncertainty playerTwo.uncertainty
        (Flt.mulAdd 2.0 (Flt.powi config.beta 2) (Flt.powi playerOne.uncertainty 2))))
  a * b

/-- `match_quality_rating_period` — src/trueskill/mod.rs:978-989. -/
def matchQualityRatingPeriod (player : TrueSkillRating F) (results : List (TrueSkillRating F))
    (config : TrueSkillConfig F) : List F :=
  results.map fun r => matchQuality player r config

/-- `match_quality_two_teams` — src/trueskill/mod.rs:1030-1054. -/
def matchQualityTwoTeams (teamOne teamTwo : List (TrueSkillRating F))
    (config : TrueSkillConfig F) : F :=
  let totalPlayers : F := Flt.ofNat (teamOne.length + teamTwo.length)
  let ratingOneSum := teamRating teamOne
  let ratingTwoSum := teamRating teamTwo
  let uncertaintyOneSum := teamUncertaintySq teamOne
  let uncertaintyTwoSum := teamUncertaintySq teamTwo
  let a := Flt.sqrt ((totalPlayers * Flt.powi config.beta 2)
    / (Flt.mulAdd totalPlayers (Flt.powi config.beta 2) uncertaintyOneSum + uncertaintyTwoSum))
  let b := Flt.exp ((-Flt.powi (ratingOneSum - ratingTwoSum) 2)
    / (2.0 * (Flt.mulAdd totalPlayers (Flt.powi config.beta 2) uncertaintyOneSum
        + uncertaintyTwoSum)))
  a * b

/-- The arithmetic of `match_quality_multi_team` — src/trueskill/mod.rs:1149-1161. -/
def matchQualityMatrix (meanMatrix varianceMatrix rotatedA : Matrix F) (betaSq : F) :
    Except Panic F := do
  let a ← rotatedA.transpose
  let aTa ← (← rotatedA.mul a).scale betaSq
  let atsa ← (← rotatedA.mul varianceMatrix).mul a
  let start ← a.mul (← meanMatrix.transpose)
  let middle ← aTa.add atsa
  let end_ ← rotatedA.mul meanMatrix
  let eArg ← (← (← (← start.mul (← middle.inverse)).mul end_).scale (-0.5)).determinant
  let sArg := (← aTa.determinant) / (← middle.determinant)
  return Flt.exp eArg * Flt.sqrt sArg

/-- `match_quality_multi_team` — src/trueskill/mod.rs:1115-1162. -/
def matchQualityMultiTeam (teams : List (List (TrueSkillRating F))) (config : TrueSkillConfig F)
    (weights : Option (List (List F))) : Except Panic (Except WeightError F) :=
  if teams.isEmpty then .ok (.ok 0.0)
  else if teams.any (fun t => t.isEmpty) then .ok (.ok 0.0)
  else
    let totalPlayers := (teams.map List.length).sum
    let meanMatrix := Matrix.newFromData (teams.flatMap fun t => t.map (·.rating)) totalPlayers 1
    match Matrix.newDiagonal (teams.flatMap fun t => t.map fun p => Flt.powi p.uncertainty 2) with
    | .error p => .error p
    | .ok varianceMatrix =>
      match Matrix.createRotatedAMatrix teams weights with
      | .error p => .error p
      | .ok (.error e) => .ok (.error e)
      | .ok (.ok rotatedA) =>
        match matchQualityMatrix meanMatrix varianceMatrix rotatedA (Flt.powi config.beta 2) with
        | .error p => .error p
        | .ok q => .ok (.ok q)

/-- `expected_score` — src/trueskill/mod.rs:1199-1218. -/
def expectedScore (playerOne playerTwo : TrueSkillRating F) (config : TrueSkillConfig F) : F × F :=
  let delta := playerOne.rating - playerTwo.rating
  let denom := Flt.sqrt (Flt.mulAdd playerTwo.uncertainty playerTwo.uncertainty
    (Flt.mulAdd 2.0 (Flt.powi config.beta 2) (Flt.powi playerOne.uncertainty 2)))
  let expOne := cdf (delta / denom) 0.0 1.0
  let expTwo := 1.0 - expOne
  (expOne, expTwo)

/-- `expected_score_two_teams` — src/trueskill/mod.rs:1266-1289. -/
def expectedScoreTwoTeams (teamOne teamTwo : List (TrueSkillRating F))
    (config : TrueSkillConfig F) : F × F :=
  let playerCount : F := Flt.ofNat (teamOne.length + teamTwo.length)
  let delta := teamRating teamOne - teamRating teamTwo
  let denom := Flt.sqrt (teamUncertaintySq teamTwo
    + Flt.mulAdd playerCount (Flt.powi config.beta 2) (teamUncertaintySq teamOne))
  let expOne := cdf (delta / denom) 0.0 1.0
  let expTwo := 1.0 - expOne
  (expOne, expTwo)

/-- The win probability of team `one` against team `two` in a match of `playerCount` players
— src/trueskill/mod.rs:1374-1383. -/
def pairProbability (one two : List (TrueSkillRating F)) (playerCount : F)
    (config : TrueSkillConfig F) : F :=
  let delta := teamRating one - teamRating two
  let denom := Flt.sqrt (teamUncertaintySq two
    + Flt.mulAdd playerCount (Flt.powi config.beta 2) (teamUncertaintySq one))
  cdf (delta / denom) 0.0 1.0

/-- The inner loop: the win probabilities of team `i` against all the others
— src/trueskill/mod.rs:1369-1387. -/
def winProbabilities (teams : List (List (TrueSkillRating F))) (one : List (TrueSkillRating F))
    (i : Nat) (playerCount : F) (config : TrueSkillConfig F) : List F :=
  (teams.zipIdx.filter fun tj => decide (i ≠ tj.2)).map fun tj =>
    pairProbability one tj.1 playerCount config

/-- `expected_score_multi_team` — src/trueskill/mod.rs:1352-1399. -/
def expectedScoreMultiTeam (teams : List (List (TrueSkillRating F)))
    (config : TrueSkillConfig F) : List F :=
  let playerCount : F := Flt.ofNat (teams.map List.length).sum
  let wins := teams.zipIdx.map fun ti => winProbabilities teams ti.1 ti.2 playerCount config
  let total := wins.flatten.foldl (· + ·) (0.0 : F)
  wins.map fun probability => Flt.sum probability / total

/-- `expected_score_rating_period` — src/trueskill/mod.rs:1435-1456. -/
def expectedScoreRatingPeriod (player : TrueSkillRating F) (opponents : List (TrueSkillRating F))
    (config : TrueSkillConfig F) : List F :=
  opponents.map fun o =>
    let delta := player.rating - o.rating
    let denom := Flt.sqrt (Flt.mulAdd o.uncertainty o.uncertainty
      (Flt.mulAdd 2.0 (Flt.powi config.beta 2) (Flt.powi player.uncertainty 2)))
    cdf (delta / denom) 0.0 1.0

/-- `get_rank` — src/trueskill/mod.rs:1484-1486. -/
def getRank (player : TrueSkillRating F) : F :=
  Flt.mulAdd player.uncertainty (-3.0) player.rating

/-- `pub struct TrueSkill` — src/trueskill/mod.rs:212-214. -/
structure TrueSkill (F : Type) where
  config : TrueSkillConfig F

/-- `impl RatingSystem for TrueSkill` — src/trueskill/mod.rs:216-240. -/
instance : RatingSystem F (TrueSkill F) (TrueSkillRating F) (TrueSkillConfig F) Id where
  new config := { config }
  rate self playerOne playerTwo outcome := trueskill playerOne playerTwo outcome self.config
  expectedScore self playerOne playerTwo := expectedScore playerOne playerTwo self.config

/-- `impl RatingPeriodSystem for TrueSkill` — src/trueskill/mod.rs:242-261. -/
instance : RatingPeriodSystem F (TrueSkill F) (TrueSkillRating F) (TrueSkillConfig F) Id where
  new config := { config }
  rate self player results := trueskillRatingPeriod player results self.config
  expectedScore self player opponents := expectedScoreRatingPeriod player opponents self.config

/-- `impl TeamRatingSystem for TrueSkill` — src/trueskill/mod.rs:263-283. -/
instance : TeamRatingSystem F (TrueSkill F) (TrueSkillRating F) (TrueSkillConfig F) where
  new config := { config }
  rate self teamOne teamTwo outcome := trueskillTwoTeams teamOne teamTwo outcome self.config
  expectedScore self teamOne teamTwo := expectedScoreTwoTeams teamOne teamTwo self.config

/-- `impl MultiTeamRatingSystem for TrueSkill` — src/trueskill/mod.rs:285-304. -/
instance : MultiTeamRatingSystem F (TrueSkill F) (TrueSkillRating F) (TrueSkillConfig F)
    (Except Panic) where
  new config := { config }
  rate self teamsAndRanks :=
    match trueskillMultiTeam teamsAndRanks self.config none with
    | .error p => .error p
    | .ok (.ok teams) => .ok teams
    | .ok (.error _) => .ok (teamsAndRanks.map (·.1))
  expectedScore self teams := .ok (expectedScoreMultiTeam teams self.config)

end TrueSkill
end Skillratings
