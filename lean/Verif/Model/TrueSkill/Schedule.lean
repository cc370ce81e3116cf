import Verif.Model.TrueSkill.FactorGraph
/-
Model of /repo/src/trueskill/schedule.rs.
-/
namespace Skillratings
namespace TrueSkill
variable {F : Type} [Flt F]

/-- `draw_margin` — src/trueskill/mod.rs:1488-1490.  `f64::midpoint(a, b)` is `(a + b) / 2`
as long as `a + b` does not overflow. -/
def drawMargin (drawProbability beta totalPlayers : F) : F :=
  inverseCdf ((drawProbability + 1.0) / 2.0) 0.0 1.0 * Flt.sqrt totalPlayers * beta

/-- `build_rating_layer` — src/trueskill/schedule.rs:97-116 (from variable number `i` on). -/
def buildRatingLayer (tau : F) (startingId : Nat) :
    Nat → List (TrueSkillRating F) → Except Panic (List (PriorFactor F))
  | _, [] => .ok []
  | i, r :: rs =>
    match Gaussian.withMuSigma r.rating r.uncertainty with
    | .error e => .error e
    | .ok val =>
      match buildRatingLayer tau startingId (i + 1) rs with
      | .error e => .error e
      | .ok fs => .ok ({ id := startingId + i, var := .rating i, val, dynamic := tau } :: fs)

/-- `build_perf_layer` — src/trueskill/schedule.rs:118-138. -/
def buildPerfLayer (players : Nat) (beta : F) (startingId : Nat) : List (LikelihoodFactor F) :=
  (List.range players).map fun i =>
    { id := startingId + i, mean := .rating i, value := .perf i, variance := Flt.powi beta 2 }

/-- `xs[start..end].to_vec()`. -/
def slice {α : Type} (xs : List α) (start stop : Nat) : List α := (xs.take stop).drop start

/-- `build_team_perf_layer` — src/trueskill/schedule.rs:140-166. -/
def buildTeamPerfLayer (players : Nat) (flattenedWeights : List F) (teamSizes : List Nat)
    (startingId : Nat) : List (SumFactor F) :=
  (List.range teamSizes.length).map fun team =>
    let start := if team > 0 then teamSizes.getD (team - 1) 0 else 0
    let stop := teamSizes.getD team 0
    { id := startingId + team
      sum := .teamPerf team
      terms := slice ((List.range players).map VarRef.perf) start stop
      coeffs := slice flattenedWeights start stop }

/-- `build_team_diff_layer` — src/trueskill/schedule.rs:168-186. -/
def buildTeamDiffLayer (diffs : Nat) (startingId : Nat) : List (SumFactor F) :=
  (List.range diffs).map fun team =>
    { id := startingId + team
      sum := .teamDiff team
      terms := [.teamPerf team, .teamPerf (team + 1)]
      coeffs := [1.0, -1.0] }

/-- One factor of `build_trunc_layer` — src/trueskill/schedule.rs:198-222. -/
def truncFactor (drawProbability beta : F) (id x : Nat)
    (one two : List (TrueSkillRating F) × MultiTeamOutcome) : TruncateFactor F :=
  let size := Flt.sum [(Flt.ofNat one.1.length : F), Flt.ofNat two.1.length]
  { id
    var := .teamDiff x
    vFunc := if one.2 = two.2 then vDraw else vNonDraw
    wFunc := if one.2 = two.2 then wDraw else wNonDraw
    drawMargin := drawMargin drawProbability beta size }

/-- `build_trunc_layer` — src/trueskill/schedule.rs:188-227 (from difference number `x` on). -/
def buildTruncLayer (drawProbability beta : F) (startingId : Nat) :
    Nat → List (List (TrueSkillRating F) × MultiTeamOutcome) → List (TruncateFactor F)
  | x, one :: two :: rest =>
    truncFactor drawProbability beta (startingId + x) x one two
      :: buildTruncLayer drawProbability beta startingId (x + 1) (two :: rest)
  | _, _ => []

/-- A pair of the team difference factor and the truncation factor at the same position. -/
abbrev DiffPair (F : Type) := SumFactor F × TruncateFactor F

/-- The body of the two inner loops: `down`, `up` with the delta kept, then `up(index)`
— src/trueskill/schedule.rs:68-70 and 73-75. -/
def sweepStep (index : Nat) (acc : Store F × F) (d : DiffPair F) : Store F × F :=
  let s := (d.1.down acc.1).1
  let (s, dl) := d.2.up s
  let s := (d.1.up index s).1
  (s, Flt.fmax acc.2 dl)

/-- The body of the iteration — src/trueskill/schedule.rs:62-77. -/
def iterate (pairs : List (DiffPair F)) (s : Store F) : Store F × F :=
  match pairs with
  | [d] => d.2.up (d.1.down s).1
  | ds =>
    let acc := ds.dropLast.foldl (sweepStep 1) (s, 0.0)
    ds.tail.reverse.foldl (sweepStep 0) acc

/-- `for _ in 0..n { .. if delta <= min_delta { break; } }` — src/trueskill/schedule.rs:60-81. -/
def iterLoop (minDelta : F) (pairs : List (DiffPair F)) : Nat → Store F → Store F
  | 0, s => s
  | n + 1, s =>
    let (s, delta) := iterate pairs s
    if delta <=? minDelta then s else iterLoop minDelta pairs n s

/-- All rating factors go down — src/trueskill/schedule.rs:38-40. -/
def priorsDown : List (PriorFactor F) → Store F → Except Panic (Store F)
  | [], s => .ok s
  | f :: fs, s =>
    match f.down s with
    | .error e => .error e
    | .ok (s, _) => priorsDown fs s

/-- `run_schedule` — src/trueskill/schedule.rs:12-95.  Returns the final store; the factors of
the returned rating layer refer to the variables `rating 0`, `rating 1`, .. of it. -/
def runSchedule (teamSizes : List Nat)
    (sortedTeamsAndRanks : List (List (TrueSkillRating F) × MultiTeamOutcome))
    (flattenedRatings : List (TrueSkillRating F)) (flattenedWeights : List F)
    (tau beta drawProbability minDelta : F) : Except Panic (Store F) :=
  if !((0.0 : F) <? minDelta) then .error .minDelta
  else
    let players := flattenedRatings.length
    let teams := sortedTeamsAndRanks.length
    match buildRatingLayer tau 0 0 flattenedRatings with
    | .error e => .error e
    | .ok ratingLayer =>
      let perfLayer := buildPerfLayer players beta players
      let teamPerfLayer := buildTeamPerfLayer players flattenedWeights teamSizes (players + players)
      match priorsDown ratingLayer ⟨fun _ => Variable.new⟩ with
      | .error e => .error e
      | .ok s =>
        let s := perfLayer.foldl (fun s f => (f.down s).1) s
        let s := teamPerfLayer.foldl (fun s f => (f.down s).1) s
        let id := players + players + teams
        let teamDiffLayer := buildTeamDiffLayer (teams - 1) id
        let truncLayer := buildTruncLayer drawProbability beta (id + (teams - 1)) 0
          sortedTeamsAndRanks
        let pairs := teamDiffLayer.zip truncLayer
        match teamDiffLayer.head?, teamDiffLayer.getLast? with
        | some first, some last =>
          let s := iterLoop minDelta pairs 10 s
          let s := (first.up 0 s).1
          let s := (last.up 1 s).1
          let s := teamPerfLayer.foldl
            (fun s f => (List.range f.terms.length).foldl (fun s x => (f.up x s).1) s) s
          let s := perfLayer.foldl (fun s f => (f.up s).1) s
          .ok s
        | _, _ => .error .noTeamDifference

end TrueSkill
end Skillratings
