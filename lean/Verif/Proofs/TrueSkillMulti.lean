import Verif.Model.TrueSkill
import Verif.Proofs.Weights
import Mathlib.Data.List.Sort
import Mathlib.Data.List.Range
import Mathlib.Data.List.Basic
/-
Helper lemmas for `trueskill_multi_team` that hold in any arithmetic (C69, C71).
-/
namespace Skillratings
namespace TrueSkill
variable {F : Type} [Flt F]

/-! ### Cumulated team sizes -/

theorem teamSizes_append (ts : List (List (TrueSkillRating F) × MultiTeamOutcome))
    (t : List (TrueSkillRating F) × MultiTeamOutcome) :
    teamSizes (ts ++ [t]) = teamSizes ts ++ [t.1.length + ((teamSizes ts).getLast?.getD 0)] := by
  rw [teamSizes, List.foldl_append]
  simp only [List.foldl_cons, List.foldl_nil]
  rw [← teamSizes]
  cases (teamSizes ts).getLast? <;> simp

theorem teamSizes_eq (ts : List (List (TrueSkillRating F) × MultiTeamOutcome)) :
    teamSizes ts = (List.range ts.length).map
      fun k => ((ts.take (k + 1)).map fun t => t.1.length).sum := by
  induction ts using List.reverseRecOn with
  | nil => rfl
  | append_singleton ts t ih =>
    rw [teamSizes_append, ih, List.length_append, List.length_singleton, List.range_succ,
      List.map_append]
    congr 1
    · apply List.map_congr_left
      intro k hk
      rw [List.mem_range] at hk
      rw [List.take_append_of_le_length (by omega)]
    · simp only [List.map_cons, List.map_nil]
      rw [List.take_of_length_le (by simp)]
      cases hts : ts.length with
      | zero =>
        have : ts = [] := List.length_eq_zero_iff.1 hts
        subst this; simp
      | succ n =>
        rw [List.range_succ, List.map_append]
        simp only [List.map_cons, List.map_nil, List.getLast?_append, List.getLast?_singleton,
          Option.some_or, Option.getD_some]
        rw [List.take_of_length_le (by omega), List.map_append, List.sum_append]
        simp [Nat.add_comm]

theorem teamSizes_length (ts : List (List (TrueSkillRating F) × MultiTeamOutcome)) :
    (teamSizes ts).length = ts.length := by rw [teamSizes_eq]; simp

/-! ### Regrouping -/

/-- The groups that are cut out of the flat list of players. -/
def regroup {α : Type} (sizes : List Nat) (players : List α) : List (List α) :=
  ((0 :: sizes.dropLast).zip sizes).map fun se => slice players se.1 se.2

theorem regroup_eq {α : Type} (lens : List Nat) (players : List α) :
    regroup ((List.range lens.length).map fun k => (lens.take (k + 1)).sum) players =
      (List.range lens.length).map fun k =>
        slice players (lens.take k).sum (lens.take (k + 1)).sum := by
  have hd : (0 :: ((List.range lens.length).map fun k => (lens.take (k + 1)).sum).dropLast).zip
      ((List.range lens.length).map fun k => (lens.take (k + 1)).sum) =
      (List.range lens.length).map fun k => ((lens.take k).sum, (lens.take (k + 1)).sum) := by
    apply List.ext_getElem
    · simp; omega
    · intro i h1 h2
      rw [List.getElem_zip]
      cases i with
      | zero => simp
      | succ i => simp
  rw [regroup, hd, List.map_map]
  rfl

/-! ### Restoring the input order -/

/-- The last step of `trueskill_multi_team`: order the groups by position. -/
def unsort {α : Type} (pos : List Nat) (groups : List α) : List α :=
  ((pos.zip groups).mergeSort fun a b => decide (a.1 ≤ b.1)).map (·.2)

theorem unsort_length {α : Type} (pos : List Nat) (groups : List α) :
    (unsort pos groups).length = min pos.length groups.length := by
  simp [unsort]

theorem unsort_getElem? {α : Type} (pos : List Nat) (groups : List α) (n : Nat)
    (hp : pos.Perm (List.range n)) (hg : groups.length = n) (k i : Nat) (hk : pos[k]? = some i) :
    (unsort pos groups)[i]? = groups[k]? := by
  set U := (pos.zip groups).mergeSort fun a b => decide (a.1 ≤ b.1) with hU
  have hlen : pos.length = n := by rw [hp.length_eq, List.length_range]
  have hsorted : (U.map (·.1)).Pairwise (· ≤ ·) := by
    rw [List.pairwise_map]
    have := List.pairwise_mergeSort (le := fun a b : Nat × α => decide (a.1 ≤ b.1))
      (fun a b c => by simp only [decide_eq_true_eq]; exact Nat.le_trans)
      (fun a b => by simp only [Bool.or_eq_true, decide_eq_true_eq]; exact Nat.le_total a.1 b.1)
      (pos.zip groups)
    exact this.imp (by simp)
  have hperm : (U.map (·.1)).Perm (List.range n) := by
    refine ((List.mergeSort_perm _ _).map _).trans ?_
    rw [List.map_fst_zip (by omega)]
    exact hp
  have hrange : U.map (·.1) = List.range n :=
    hperm.eq_of_pairwise (le := (· ≤ ·)) (fun a b _ _ => Nat.le_antisymm) hsorted
      (List.pairwise_le_range)
  have hkn : k < n := by
    have := (List.getElem?_eq_some_iff.1 hk).1; omega
  have hmem : (i, groups[k]'(by omega)) ∈ U := by
    rw [hU, List.mem_mergeSort]
    rw [List.mem_iff_getElem?]
    refine ⟨k, ?_⟩
    rw [List.getElem?_zip_eq_some]
    exact ⟨hk, by simp [hg, hkn]⟩
  obtain ⟨m, hm⟩ := List.mem_iff_getElem?.1 hmem
  have hmi : m = i := by
    have h1 : (U.map (·.1))[m]? = some i := by rw [List.getElem?_map, hm]; rfl
    rw [hrange] at h1
    have := List.getElem?_eq_some_iff.1 h1
    obtain ⟨h2, h3⟩ := this
    rw [List.getElem_range] at h3
    exact h3
  rw [unsort, ← hU, List.getElem?_map, ← hmi, hm]
  simp [hg, hkn]

/-! ### The core of the function, on sorted teams -/

/-- Everything between the sort and its inversion — src/trueskill/mod.rs:798-890. -/
def core (sorted : List (PosTeam F)) (config : TrueSkillConfig F) :
    Except Panic (List (List (TrueSkillRating F))) :=
  let sortedTeamsAndRanks := sorted.map fun v => (v.team, v.rank)
  let flattenedRatings := (sorted.map (·.team)).flatten
  let flattenedWeights := (sorted.map (·.weights)).flatten
  let sizes := teamSizes sortedTeamsAndRanks
  match runSchedule sizes sortedTeamsAndRanks flattenedRatings flattenedWeights
      config.dynamicsFactor config.beta config.drawProbability 0.0001 with
  | .error e => .error e
  | .ok s => .ok (regroup sizes ((List.range flattenedRatings.length).map (readRating s)))

/-- The sorted teams. -/
def sortTeams (l : List (PosTeam F)) : List (PosTeam F) :=
  l.mergeSort fun a b => decide (a.rank.val ≤ b.rank.val)

theorem multiTeam_eq (ts : List (List (TrueSkillRating F) × MultiTeamOutcome))
    (cfg : TrueSkillConfig F) (w : Option (List (List F))) (ws : List (List F))
    (h0 : ts ≠ []) (h : ∀ t ∈ ts, t.1 ≠ []) (hw : getWeights (ts.map (·.1)) w = .ok ws) :
    trueskillMultiTeam ts cfg w =
      match core (sortTeams (withPos ts ws)) cfg with
      | .error e => .error e
      | .ok g => .ok (.ok (unsort ((sortTeams (withPos ts ws)).map (·.pos)) g)) := by
  have hne : ts.isEmpty = false := by cases ts <;> simp_all
  have hany : ts.any (fun t => t.1.isEmpty) = false := by
    rw [List.any_eq_false]
    intro t ht
    simpa using h t ht
  rw [trueskillMultiTeam, hne, hany]
  simp only [Bool.false_eq_true, if_false, hw]
  simp only [core, sortTeams]
  split
  · rename_i e he; rw [he]
  · rename_i s hs; rw [hs]; rfl

theorem getWeights_length (teams : List (List (TrueSkillRating F))) (w : Option (List (List F)))
    (ws : List (List F)) (hw : getWeights teams w = .ok ws) : ws.length = teams.length := by
  cases w with
  | none =>
    rw [getWeights] at hw
    injection hw with hw
    rw [← hw]; simp
  | some w =>
    have := (getWeights_ok teams w ws).1 hw
    rw [this.1]; exact this.2.1

theorem withPos_pos (ts : List (List (TrueSkillRating F) × MultiTeamOutcome))
    (ws : List (List F)) (h : ws.length = ts.length) :
    (withPos ts ws).map (·.pos) = List.range ts.length := by
  rw [withPos, List.map_map]
  have : ((fun x : PosTeam F => x.pos) ∘ fun e : ((List (TrueSkillRating F) × MultiTeamOutcome) × List F) × Nat =>
      ({ pos := e.2, team := e.1.1.1, rank := e.1.1.2, weights := e.1.2 } : PosTeam F)) = Prod.snd := rfl
  rw [this, List.zipIdx_map_snd]
  simp [h, List.range_eq_range']

theorem withPos_team (ts : List (List (TrueSkillRating F) × MultiTeamOutcome))
    (ws : List (List F)) (h : ws.length = ts.length) (p : PosTeam F) (hp : p ∈ withPos ts ws) :
    ts[p.pos]? = some (p.team, p.rank) ∧ ws[p.pos]? = some p.weights := by
  rw [withPos, List.mem_map] at hp
  obtain ⟨e, he, rfl⟩ := hp
  rw [List.mem_zipIdx_iff_getElem?] at he
  rw [List.getElem?_zip_eq_some] at he
  exact he

theorem sortTeams_perm (l : List (PosTeam F)) : (sortTeams l).Perm l := List.mergeSort_perm _ _

theorem core_length (sorted : List (PosTeam F)) (cfg : TrueSkillConfig F)
    (g : List (List (TrueSkillRating F))) (h : core sorted cfg = .ok g) :
    g.length = sorted.length ∧ ∀ k : Nat, ∀ p, sorted[k]? = some p →
      ∃ l, g[k]? = some l ∧ l.length = p.team.length := by
  rw [core] at h
  split at h
  · simp at h
  · rename_i s hs
    injection h with h
    have hlens : teamSizes (sorted.map fun v => (v.team, v.rank)) =
        (List.range (sorted.map fun p => p.team.length).length).map
          fun k => ((sorted.map fun p => p.team.length).take (k + 1)).sum := by
      rw [teamSizes_eq]
      simp only [List.length_map, ← List.map_take, List.map_map]
      rfl
    rw [hlens, regroup_eq] at h
    subst h
    constructor
    · simp
    · intro k p hp
      obtain ⟨hk, hkp⟩ := List.getElem?_eq_some_iff.1 hp
      have htot : (List.map (fun x : PosTeam F => x.team) sorted).flatten.length =
          (sorted.map fun p => p.team.length).sum := by
        rw [List.length_flatten, List.map_map]; rfl
      refine ⟨_, by rw [List.getElem?_map, List.getElem?_range (by simpa using hk)]; rfl, ?_⟩
      simp only [slice, List.length_drop, List.length_take, List.length_map, List.length_range]
      have h1 : ((sorted.map fun p => p.team.length).take (k + 1)).sum =
          ((sorted.map fun p => p.team.length).take k).sum + p.team.length := by
        rw [List.take_add_one, List.sum_append]
        simp [hk, hkp]
      have h2 : ((sorted.map fun p => p.team.length).take (k + 1)).sum ≤
          (sorted.map fun p => p.team.length).sum := by
        conv_rhs => rw [← List.take_append_drop (k + 1) (sorted.map fun p => p.team.length),
          List.sum_append]
        omega
      rw [htot, min_eq_left h2, h1]; omega

/-! ### What the core depends on -/

theorem teamSizes_congr (l l' : List (List (TrueSkillRating F) × MultiTeamOutcome))
    (h : l.map (·.1) = l'.map (·.1)) : teamSizes l = teamSizes l' := by
  have hlen : l.length = l'.length := by simpa using congrArg List.length h
  rw [teamSizes_eq, teamSizes_eq, hlen]
  apply List.map_congr_left
  intro k _
  have : ∀ m : List (List (TrueSkillRating F) × MultiTeamOutcome),
      ((m.take (k + 1)).map fun t => t.1.length) = ((m.map (·.1)).take (k + 1)).map List.length := by
    intro m; rw [← List.map_take, List.map_map]; rfl
  rw [this, this, h]

theorem truncFactor_congr (p b : F) (id x : Nat)
    (one two one' two' : List (TrueSkillRating F) × MultiTeamOutcome)
    (h1 : one.1 = one'.1) (h2 : two.1 = two'.1) (hr : one.2 = two.2 ↔ one'.2 = two'.2) :
    truncFactor p b id x one two = truncFactor p b id x one' two' := by
  simp only [truncFactor, h1, h2, hr]

theorem buildTruncLayer_congr {α : Type} (p b : F) (id : Nat)
    (g g' : α → List (TrueSkillRating F) × MultiTeamOutcome) (l : List α) :
    ∀ x, (∀ a ∈ l, (g a).1 = (g' a).1) →
    (∀ a ∈ l, ∀ c ∈ l, (g a).2 = (g c).2 ↔ (g' a).2 = (g' c).2) →
    buildTruncLayer p b id x (l.map g) = buildTruncLayer p b id x (l.map g') := by
  induction l with
  | nil => intros; rfl
  | cons a l ih =>
    intro x h1 h2
    cases l with
    | nil => rfl
    | cons c l =>
      have := ih (x + 1) (fun y hy => h1 y (List.mem_cons_of_mem _ hy))
        (fun y hy z hz => h2 y (List.mem_cons_of_mem _ hy) z (List.mem_cons_of_mem _ hz))
      simp only [List.map_cons, buildTruncLayer] at this ⊢
      rw [this, truncFactor_congr p b (id + x) x (g a) (g c) (g' a) (g' c) (h1 a (by simp))
        (h1 c (by simp)) (h2 a (by simp) c (by simp))]

/-- The core reads the teams, their weights and the equality of ranks only. -/
theorem core_congr (f : PosTeam F → PosTeam F) (l : List (PosTeam F)) (cfg : TrueSkillConfig F)
    (ht : ∀ p ∈ l, (f p).team = p.team) (hw : ∀ p ∈ l, (f p).weights = p.weights)
    (hr : ∀ p ∈ l, ∀ q ∈ l, (f p).rank = (f q).rank ↔ p.rank = q.rank) :
    core (l.map f) cfg = core l cfg := by
  have e1 : (l.map f).map (·.team) = l.map (·.team) := by
    rw [List.map_map]; exact List.map_congr_left ht
  have e2 : (l.map f).map (·.weights) = l.map (·.weights) := by
    rw [List.map_map]; exact List.map_congr_left hw
  have e3 : teamSizes ((l.map f).map fun v => (v.team, v.rank)) =
      teamSizes (l.map fun v => (v.team, v.rank)) := by
    apply teamSizes_congr
    simp only [List.map_map]
    exact List.map_congr_left ht
  have e4 : ∀ (p b : F) (id x : Nat),
      buildTruncLayer p b id x ((l.map f).map fun v => (v.team, v.rank)) =
        buildTruncLayer p b id x (l.map fun v => (v.team, v.rank)) := by
    intro p b id x
    rw [List.map_map]
    exact buildTruncLayer_congr p b id _ _ l x ht hr
  simp only [core, runSchedule, e1, e2, e3, e4]
  simp only [List.length_map]

end TrueSkill
end Skillratings
