import Verif.Model.Common
/-
Model of /repo/src/weng_lin.rs.

A slice of slices with ranks is a list of pairs.  The two parallel vectors
`teams_ratings` and `teams_uncertainties_sq` of `weng_lin_multi_team` are zipped with the
teams instead of being indexed.  The conversion from `TrueSkillRating` lives in
`Verif/Model/Convert.lean`.
-/
namespace Skillratings
namespace WengLin
variable {F : Type} [Flt F]

/-- `pub struct WengLinRating` — src/weng_lin.rs:82-87. -/
structure WengLinRating (F : Type) where
  rating : F
  uncertainty : F

/-- `WengLinRating::new` / `Default` — src/weng_lin.rs:92-97, 100-104. -/
def WengLinRating.new : WengLinRating F := { rating := 25.0, uncertainty := 25.0 / 3.0 }

/-- `impl Rating for WengLinRating` — src/weng_lin.rs:106-119. -/
instance : Rating F (WengLinRating F) where
  rating r := r.rating
  uncertainty r := some r.uncertainty
  new rating uncertainty :=
    { rating := rating.getD 25.0, uncertainty := uncertainty.getD (25.0 / 3.0) }

/-- `impl From<(f64, f64)> for WengLinRating` — src/weng_lin.rs:121-128. -/
def WengLinRating.ofPair (t : F × F) : WengLinRating F := { rating := t.1, uncertainty := t.2 }

/-- `pub struct WengLinConfig` — src/weng_lin.rs:142-154. -/
structure WengLinConfig (F : Type) where
  beta : F
  uncertaintyTolerance : F

/-- `WengLinConfig::new` / `Default` — src/weng_lin.rs:160-165, 168-172. -/
def WengLinConfig.new : WengLinConfig F :=
  { beta := 25.0 / 6.0, uncertaintyTolerance := 0.000001 }

/-- `p_value` — src/weng_lin.rs:973-981. -/
def pValue (ratingOne ratingTwo cValue : F) : F × F :=
  let e1 := Flt.exp (ratingOne / cValue)
  let e2 := Flt.exp (ratingTwo / cValue)
  let expOne := e1 / (e1 + e2)
  let expTwo := 1.0 - expOne
  (expOne, expTwo)

/-- `small_delta` — src/weng_lin.rs:983-985. -/
def smallDelta (teamUncertaintySq cValue pValue score : F) : F :=
  (teamUncertaintySq / cValue) * (score - pValue)

/-- `gamma` — src/weng_lin.rs:989-991. -/
def gamma (teamUncertaintySq cValue : F) : F := Flt.sqrt teamUncertaintySq / cValue

/-- `eta` — src/weng_lin.rs:993-995. -/
def eta (teamUncertaintySq cValue pValue gamma : F) : F :=
  gamma * teamUncertaintySq / Flt.powi cValue 2 * pValue * (1.0 - pValue)

/-- `new_rating` — src/weng_lin.rs:998-1006. -/
def newRating (playerRating playerUncertainty cValue pValue score : F) : F :=
  Flt.mulAdd (Flt.powi playerUncertainty 2 / cValue) (score - pValue) playerRating

/-- `new_uncertainty` — src/weng_lin.rs:1008-1016. -/
def newUncertainty (playerUncertainty cValue pValue uncertaintyTolerance : F) : F :=
  let eta := Flt.powi (playerUncertainty / cValue) 3 * pValue * (1.0 - pValue)
  Flt.sqrt (Flt.powi playerUncertainty 2 * Flt.fmax (1.0 - eta) uncertaintyTolerance)

/-- `new_rating_teams` — src/weng_lin.rs:1018-1025. -/
def newRatingTeams (playerRating playerUncertaintySq teamUncertaintySq omega : F) : F :=
  Flt.mulAdd (playerUncertaintySq / teamUncertaintySq) omega playerRating

/-- `new_uncertainty_teams` — src/weng_lin.rs:1027-1037. -/
def newUncertaintyTeams
    (playerUncertaintySq teamUncertaintySq uncertaintyTolerance largeDelta : F) : F :=
  let newPlayerUncertaintySq := Flt.fmax
    (Flt.mulAdd (playerUncertaintySq / teamUncertaintySq) (-largeDelta) 1.0) uncertaintyTolerance
  Flt.sqrt (playerUncertaintySq * newPlayerUncertaintySq)

/-- `weng_lin` — src/weng_lin.rs:295-333. -/
def wengLin (playerOne playerTwo : WengLinRating F) (outcome : Outcomes)
    (config : WengLinConfig F) : WengLinRating F × WengLinRating F :=
  let c := Flt.sqrt (Flt.mulAdd 2.0 (Flt.powi config.beta 2)
    (Flt.mulAdd playerOne.uncertainty playerOne.uncertainty (Flt.powi playerTwo.uncertainty 2)))
  let (p1, p2) := pValue playerOne.rating playerTwo.rating c
  let outcome1 : F := outcome.toChessPoints
  let outcome2 := 1.0 - outcome1
  let newRating1 := newRating playerOne.rating playerOne.uncertainty c p1 outcome1
  let newRating2 := newRating playerTwo.rating playerTwo.uncertainty c p2 outcome2
  let newUncertainty1 := newUncertainty playerOne.uncertainty c p1 config.uncertaintyTolerance
  let newUncertainty2 := newUncertainty playerTwo.uncertainty c p2 config.uncertaintyTolerance
  ({ rating := newRating1, uncertainty := newUncertainty1 },
   { rating := newRating2, uncertainty := newUncertainty2 })

/-- The body of the loop of `weng_lin_rating_period` — src/weng_lin.rs:382-396. -/
def periodStep (config : WengLinConfig F) (player : WengLinRating F)
    (r : WengLinRating F × Outcomes) : WengLinRating F :=
  let c := Flt.sqrt (Flt.mulAdd 2.0 (Flt.powi config.beta 2)
    (Flt.mulAdd player.uncertainty player.uncertainty (Flt.powi r.1.uncertainty 2)))
  let p := (pValue player.rating r.1.rating c).1
  let outcome : F := r.2.toChessPoints
  { rating := newRating player.rating player.uncertainty c p outcome
    uncertainty := newUncertainty player.uncertainty c p config.uncertaintyTolerance }

/-- `weng_lin_rating_period` — src/weng_lin.rs:374-402. -/
def wengLinRatingPeriod (player : WengLinRating F) (results : List (WengLinRating F × Outcomes))
    (config : WengLinConfig F) : WengLinRating F :=
  results.foldl (periodStep config) player

/-- The update of every player of a team — src/weng_lin.rs:505-524, 526-545, 696-716. -/
def updateTeam (team : List (WengLinRating F)) (teamUncertaintySq uncertaintyTolerance : F)
    (omega largeDelta : F) : List (WengLinRating F) :=
  team.map fun player =>
    let playerUncertaintySq := Flt.powi player.uncertainty 2
    { rating := newRatingTeams player.rating playerUncertaintySq teamUncertaintySq omega
      uncertainty := newUncertaintyTeams playerUncertaintySq teamUncertaintySq
        uncertaintyTolerance largeDelta }

/-- `team.iter().map(|p| p.rating).sum()` — e.g. src/weng_lin.rs:466. -/
def teamRating (team : List (WengLinRating F)) : F := Flt.sum (team.map fun p => p.rating)

/-- `team.iter().map(|p| p.uncertainty.powi(2)).sum()` — e.g. src/weng_lin.rs:469. -/
def teamUncertaintySq (team : List (WengLinRating F)) : F :=
  Flt.sum (team.map fun p => Flt.powi p.uncertainty 2)

/-- `weng_lin_two_teams` — src/weng_lin.rs:456-548. -/
def wengLinTwoTeams (teamOne teamTwo : List (WengLinRating F)) (outcome : Outcomes)
    (config : WengLinConfig F) : List (WengLinRating F) × List (WengLinRating F) :=
  if teamOne.isEmpty || teamTwo.isEmpty then (teamOne, teamTwo)
  else
    let teamOneRating := teamRating teamOne
    let teamTwoRating := teamRating teamTwo
    let teamOneUncertaintySq := teamUncertaintySq teamOne
    let teamTwoUncertaintySq := teamUncertaintySq teamTwo
    let c := Flt.sqrt (Flt.mulAdd 2.0 (Flt.powi config.beta 2)
      (teamOneUncertaintySq + teamTwoUncertaintySq))
    let (p1, p2) := pValue teamOneRating teamTwoRating c
    let outcome1 : F := outcome.toChessPoints
    let outcome2 := 1.0 - outcome1
    let teamOneSmallDelta := smallDelta teamOneUncertaintySq c p1 outcome1
    let teamTwoSmallDelta := smallDelta teamTwoUncertaintySq c p2 outcome2
    let teamOneEta := eta teamOneUncertaintySq c p1 (gamma teamOneUncertaintySq c)
    let teamTwoEta := eta teamTwoUncertaintySq c p2 (gamma teamTwoUncertaintySq c)
    (updateTeam teamOne teamOneUncertaintySq config.uncertaintyTolerance
       teamOneSmallDelta teamOneEta,
     updateTeam teamTwo teamTwoUncertaintySq config.uncertaintyTolerance
       teamTwoSmallDelta teamTwoEta)

/-- The score of a comparison of ranks — src/weng_lin.rs:678-682. -/
def rankScore (rankOne rankTwo : MultiTeamOutcome) : F :=
  match rankTwo.cmp rankOne with
  | .gt => 1.0
  | .eq => 0.5
  | .lt => 0.0

/-- A team with its rank and the entries of `teams_ratings` and `teams_uncertainties_sq`
that belong to it — src/weng_lin.rs:649-658. -/
structure TeamInfo (F : Type) where
  team : List (WengLinRating F)
  rank : MultiTeamOutcome
  rating : F
  uncertaintySq : F

/-- src/weng_lin.rs:652-658. -/
def teamInfo (t : List (WengLinRating F) × MultiTeamOutcome) : TeamInfo F :=
  { team := t.1, rank := t.2, rating := teamRating t.1, uncertaintySq := teamUncertaintySq t.1 }

/-- The inner loop of `weng_lin_multi_team`: `(omega, large_delta)` of team `i`
— src/weng_lin.rs:662-694. -/
def omegaDelta (infos : List (TeamInfo F)) (one : TeamInfo F) (i : Nat)
    (config : WengLinConfig F) : F × F :=
  infos.zipIdx.foldl (init := ((0.0 : F), (0.0 : F))) fun acc tq =>
    let (two, q) := tq
    if i = q then acc
    else
      let c := Flt.sqrt (Flt.mulAdd 2.0 (Flt.powi config.beta 2)
        (one.uncertaintySq + two.uncertaintySq))
      let p := (pValue one.rating two.rating c).1
      let score : F := rankScore one.rank two.rank
      let smallDelta := smallDelta one.uncertaintySq c p score
      let eta := eta one.uncertaintySq c p (gamma one.uncertaintySq c)
      (acc.1 + smallDelta, acc.2 + eta)

/-- `weng_lin_multi_team` — src/weng_lin.rs:631-721. -/
def wengLinMultiTeam (teamsAndRanks : List (List (WengLinRating F) × MultiTeamOutcome))
    (config : WengLinConfig F) : List (List (WengLinRating F)) :=
  if teamsAndRanks.isEmpty then []
  else if teamsAndRanks.any (fun t => t.1.isEmpty) then teamsAndRanks.map (fun t => t.1)
  else
    let infos := teamsAndRanks.map teamInfo
    infos.zipIdx.map fun ti =>
      let (one, i) := ti
      let (omega, largeDelta) := omegaDelta infos one i config
      updateTeam one.team one.uncertaintySq config.uncertaintyTolerance omega largeDelta

/-- `expected_score` — src/weng_lin.rs:753-768. -/
def expectedScore (playerOne playerTwo : WengLinRating F) (config : WengLinConfig F) : F × F :=
  let c := Flt.sqrt (Flt.mulAdd 2.0 (Flt.powi config.beta 2)
    (Flt.mulAdd playerOne.uncertainty playerOne.uncertainty (Flt.powi playerTwo.uncertainty 2)))
  pValue playerOne.rating playerTwo.rating c

/-- `expected_score_two_teams` — src/weng_lin.rs:814-833. -/
def expectedScoreTwoTeams (teamOne teamTwo : List (WengLinRating F)) (config : WengLinConfig F) :
    F × F :=
  let teamOneRating := teamRating teamOne
  let teamTwoRating := teamRating teamTwo
  let teamOneUncertaintySq := teamUncertaintySq teamOne
  let teamTwoUncertaintySq := teamUncertaintySq teamTwo
  let c := Flt.sqrt (Flt.mulAdd 2.0 (Flt.powi config.beta 2)
    (teamOneUncertaintySq + teamTwoUncertaintySq))
  pValue teamOneRating teamTwoRating c

/-- `expected_score_multi_team` — src/weng_lin.rs:892-926. -/
def expectedScoreMultiTeam (teams : List (List (WengLinRating F))) (config : WengLinConfig F) :
    List F :=
  let ratings := teams.map teamRating
  let uncertaintiesSq := teams.map teamUncertaintySq
  let c := Flt.sqrt (Flt.mulAdd 2.0 (Flt.powi config.beta 2) (Flt.sum uncertaintiesSq))
  let exps := ratings.map fun rating => Flt.exp (rating / c)
  let sum := exps.foldl (· + ·) (0.0 : F)
  exps.map fun exp => exp / sum

/-- `expected_score_rating_period` — src/weng_lin.rs:962-971. -/
def expectedScoreRatingPeriod (player : WengLinRating F) (opponents : List (WengLinRating F))
    (config : WengLinConfig F) : List F :=
  opponents.map fun o => (expectedScore player o config).1

/-- `pub struct WengLin` — src/weng_lin.rs:175-177. -/
structure WengLin (F : Type) where
  config : WengLinConfig F

/-- `impl RatingSystem for WengLin` — src/weng_lin.rs:179-199. -/
instance : RatingSystem F (WengLin F) (WengLinRating F) (WengLinConfig F) Id where
  new config := { config }
  rate self playerOne playerTwo outcome := wengLin playerOne playerTwo outcome self.config
  expectedScore self playerOne playerTwo := expectedScore playerOne playerTwo self.config

/-- `impl RatingPeriodSystem for WengLin` — src/weng_lin.rs:201-216. -/
instance : RatingPeriodSystem F (WengLin F) (WengLinRating F) (WengLinConfig F) Id where
  new config := { config }
  rate self player results := wengLinRatingPeriod player results self.config
  expectedScore self player opponents := expectedScoreRatingPeriod player opponents self.config

/-- `impl TeamRatingSystem for WengLin` — src/weng_lin.rs:218-238. -/
instance : TeamRatingSystem F (WengLin F) (WengLinRating F) (WengLinConfig F) where
  new config := { config }
  rate self teamOne teamTwo outcome := wengLinTwoTeams teamOne teamTwo outcome self.config
  expectedScore self teamOne teamTwo := expectedScoreTwoTeams teamOne teamTwo self.config

/-- `impl MultiTeamRatingSystem for WengLin` — src/weng_lin.rs:240-258. -/
instance : MultiTeamRatingSystem F (WengLin F) (WengLinRating F) (WengLinConfig F) Id where
  new config := { config }
  rate self teamsAndRanks := wengLinMultiTeam teamsAndRanks self.config
  expectedScore self teams := expectedScoreMultiTeam teams self.config

end WengLin
end Skillratings
