import Verif.Spec.FactorGraph
/-
The TrueSkill update of any number of teams: expectation propagation along the chain of teams,
ordered by rank (Herbrich, Minka and Graepel 2006, section 3).  Neighbouring teams are compared;
what a comparison says is passed on to the better and to the worse placed teams.
Written at the level of teams: no variables, factors or message tables.
-/
namespace Skillratings
namespace Spec
open Real (sqrt)

/-- Normal knowledge of a quantity: precision and precision times mean.  Independent pieces of
knowledge add up. -/
structure Info where
  prec : ℝ
  pm : ℝ

namespace Info

/-- Knowing nothing. -/
def none : Info := ⟨0, 0⟩

/-- Two independent pieces of knowledge. -/
instance : Add Info := ⟨fun a b => ⟨a.prec + b.prec, a.pm + b.pm⟩⟩

noncomputable def mean (a : Info) : ℝ := a.pm / a.prec
noncomputable def variance (a : Info) : ℝ := 1 / a.prec

/-- The normal distribution of mean `μ` and variance `V`. -/
noncomputable def of (μ V : ℝ) : Info := ⟨1 / V, μ / V⟩

/-- How far two pieces of knowledge are apart. -/
noncomputable def change (a b : Info) : ℝ := max |a.pm - b.pm| √|a.prec - b.prec|

end Info

/-- The teams in the order of their ranks: their performances a priori, and for each pair of
neighbours the corrections and the draw margin that belong to their result. -/
structure League where
  n : ℕ
  team : ℕ → Info
  v : ℕ → ℝ → ℝ → ℝ
  w : ℕ → ℝ → ℝ → ℝ
  margin : ℕ → ℝ

/-- What the teams know of each other. -/
structure Talk where
  /-- What is known of team `k` by its results against better placed teams. -/
  down : ℕ → Info
  /-- What is known of team `k` by its results against worse placed teams. -/
  up : ℕ → Info
  /-- What the result between the teams `k` and `k + 1` says about their difference. -/
  result : ℕ → Info

namespace League
variable (L : League) (m : Talk)

/-- Team `k`, without the worse placed teams. -/
noncomputable def above (k : ℕ) : Info := L.team k + m.down k

/-- Team `k`, without the better placed teams. -/
noncomputable def below (k : ℕ) : Info := L.team k + m.up k

/-- Mean and variance of the difference between the teams `k` and `k + 1`, without their result. -/
noncomputable def δ (k : ℕ) : ℝ := (L.above m k).mean - (L.below m (k + 1)).mean

@[inherit_doc δ] noncomputable def C (k : ℕ) : ℝ :=
  (L.above m k).variance + (L.below m (k + 1)).variance

/-- The corrections for the result between the teams `k` and `k + 1`. -/
noncomputable def V (k : ℕ) : ℝ := L.v k (L.δ m k / √(L.C m k)) (L.margin k / √(L.C m k))

@[inherit_doc V] noncomputable def W (k : ℕ) : ℝ :=
  L.w k (L.δ m k / √(L.C m k)) (L.margin k / √(L.C m k))

open Classical in
/-- What the result between the teams `k` and `k + 1` says about the difference; `none` if the
result is numerically impossible (or says nothing). -/
noncomputable def compare (k : ℕ) : Option Info :=
  if 0 < L.W m k ∧ L.W m k < 1 then
    some (.of (L.δ m k + √(L.C m k) * L.V m k / L.W m k) (L.C m k * (1 - L.W m k) / L.W m k))
  else none

/-- Note the result between the teams `k` and `k + 1`. -/
def _root_.Skillratings.Spec.Talk.hear (m : Talk) (k : ℕ) (x : Info) : Talk :=
  { m with result := Function.update m.result k x }

/-- Team `k + 1` is team `k` minus the difference. -/
noncomputable def tellDown (k : ℕ) : Talk :=
  let x := Info.of ((L.above m k).mean - (m.result k).mean)
    ((L.above m k).variance + (m.result k).variance)
  { m with down := Function.update m.down (k + 1) x }

/-- Team `k` is team `k + 1` plus the difference. -/
noncomputable def tellUp (k : ℕ) : Talk :=
  let x := Info.of ((L.below m (k + 1)).mean + (m.result k).mean)
    ((L.below m (k + 1)).variance + (m.result k).variance)
  { m with up := Function.update m.up k x }

/-- Compare the teams `k` and `k + 1` and tell the worse one; remember the largest change. -/
noncomputable def forward (acc : Talk × ℝ) (k : ℕ) : Option (Talk × ℝ) :=
  (L.compare acc.1 k).map fun x =>
    (L.tellDown (acc.1.hear k x) k, max acc.2 ((acc.1.result k).change x))

/-- Compare the teams `k` and `k + 1` and tell the better one; remember the largest change. -/
noncomputable def backward (acc : Talk × ℝ) (k : ℕ) : Option (Talk × ℝ) :=
  (L.compare acc.1 k).map fun x =>
    (L.tellUp (acc.1.hear k x) k, max acc.2 ((acc.1.result k).change x))

/-- Down the table and up again. -/
noncomputable def round : Option (Talk × ℝ) :=
  if L.n = 2 then
    (L.compare m 0).map fun x => (m.hear 0 x, (m.result 0).change x)
  else
    ((List.range (L.n - 2)).foldlM L.forward (m, 0)).bind fun acc =>
      ((List.range (L.n - 2)).map (· + 1)).reverse.foldlM L.backward acc

/-- At most the given number of rounds, until the largest change is at most 0.0001. -/
noncomputable def rounds : ℕ → Talk → Option Talk
  | 0, m => some m
  | r + 1, m => (L.round m).bind fun acc => if acc.2 ≤ 0.0001 then some acc.1 else rounds r acc.1

/-- What is known of team `k` by the results, without its own players: ten rounds, then the first
and the last team are told. -/
noncomputable def heard : Option (ℕ → Info) :=
  (L.rounds 10 ⟨fun _ => .none, fun _ => .none, fun _ => .none⟩).map fun m =>
    let m := L.tellDown (L.tellUp m 0) (L.n - 2)
    fun k => m.down k + m.up k

end League

/-- A team in the chain: its players and its rank. -/
abbrev RankedTeam := List FgPlayer × ℕ

/-- The chain of teams of a match. -/
noncomputable def leagueOf (p β : ℝ) (ts : List RankedTeam) : League where
  n := ts.length
  team k := .of (fgMean (ts.getD k ([], 0)).1) (fgVariance β (ts.getD k ([], 0)).1)
  v k := if (ts.getD k ([], 0)).2 = (ts.getD (k + 1) ([], 0)).2 then tsVDraw else tsVWin
  w k := if (ts.getD k ([], 0)).2 = (ts.getD (k + 1) ([], 0)).2 then tsWDraw else tsWWin
  margin k := tsMargin p β ((ts.getD k ([], 0)).1.length + (ts.getD (k + 1) ([], 0)).1.length)

/-- The posterior of a player whose team has performance mean `M` and variance `Q` a priori, and
of whose team `h` is known by the results: conditioning a normal distribution. -/
noncomputable def chainUpdate (M Q : ℝ) (h : Info) (p : FgPlayer) : TrueSkill.TrueSkillRating ℝ :=
  ⟨p.μ + p.w * p.s / (h.variance + Q) * (h.mean - M), √(p.s * (1 - p.w ^ 2 * p.s / (h.variance + Q)))⟩

/-- The new ratings of the teams, which are given in the order of their ranks. -/
noncomputable def chainUpdates (p β : ℝ) (ts : List RankedTeam) :
    Option (List (List (TrueSkill.TrueSkillRating ℝ))) :=
  (leagueOf p β ts).heard.map fun h =>
    ts.mapIdx fun k t => t.1.map (chainUpdate (fgMean t.1) (fgVariance β t.1) (h k))

/-- `idx` lists the positions of the teams by rank, equal ranks in the order of the input. -/
def Standing (ranks : List ℕ) (idx : List ℕ) : Prop :=
  idx.Perm (List.range ranks.length) ∧
    idx.Pairwise fun i j => ranks.getD i 0 < ranks.getD j 0 ∨ ranks.getD i 0 = ranks.getD j 0 ∧ i < j

/-- A match with weights: at least two teams, none without players, one positive weight for each
player, and no uncertainty zero. -/
structure ProperMatch (ts : List (List (TrueSkill.TrueSkillRating ℝ) × MultiTeamOutcome))
    (ws : List (List ℝ)) : Prop where
  two : 2 ≤ ts.length
  players : ∀ t ∈ ts, t.1 ≠ []
  shape : ws.map List.length = ts.map (·.1.length)
  weights : ∀ l ∈ ws, ∀ w ∈ l, 0 < w
  uncertainty : ∀ t ∈ ts, ∀ p ∈ t.1, p.uncertainty ≠ 0

/-- The team at position `i`, after the dynamics. -/
noncomputable def teamAt (τ : ℝ) (ts : List (List (TrueSkill.TrueSkillRating ℝ) × MultiTeamOutcome))
    (ws : List (List ℝ)) (i : ℕ) : RankedTeam :=
  (fgTeam τ (ts.getD i ([], .new 0)).1 (ws.getD i []), (ts.getD i ([], .new 0)).2.rank)

end Spec
end Skillratings
