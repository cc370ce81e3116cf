import Verif.Proofs.ChainCore
import Verif.Proofs.ChainBounds
import Verif.Proofs.Margin
import Verif.Props.TrueSkill
import Verif.Props.TrueSkillFactorGraph
/-
Properties C97, C98 and C99 of `trueskill_multi_team` for any number of teams, in exact
arithmetic.
-/
namespace Skillratings
namespace TrueSkill
open Spec

/-! ### C97: the factor graph is expectation propagation along the chain of teams -/

theorem standing_unique {ranks i₁ i₂ : List ℕ} (h₁ : Standing ranks i₁) (h₂ : Standing ranks i₂) :
    i₁ = i₂ := by
  refine (h₁.1.trans h₂.1.symm).eq_of_pairwise ?_ h₁.2 h₂.2
  intro a b _ _ hab hba
  omega

theorem withPos_index (ts : List (List (TrueSkillRating ℝ) × MultiTeamOutcome))
    (ws : List (List ℝ)) (p : PosTeam ℝ) (i : ℕ)
    (h : (p, i) ∈ (withPos ts ws).zipIdx) : p.pos = i := by
  rw [List.mem_zipIdx_iff_getElem?] at h
  simp only [withPos, List.getElem?_map, List.getElem?_zipIdx, Option.map_eq_some_iff] at h
  obtain ⟨e, ⟨z, -, rfl⟩, rfl⟩ := h
  simp

/-- The sort puts the teams in the standing order. -/
theorem sort_standing (ts : List (List (TrueSkillRating ℝ) × MultiTeamOutcome))
    (ws : List (List ℝ)) (hl : ws.length = ts.length) :
    Standing (ts.map (·.2.rank)) ((sortTeams (withPos ts ws)).map (·.pos)) := by
  constructor
  · have := (sortTeams_perm (withPos ts ws)).map (·.pos)
    rw [withPos_pos ts ws hl] at this
    simpa using this
  · rw [List.pairwise_map]
    set le := fun a b : PosTeam ℝ => decide (a.rank.val ≤ b.rank.val) with hle
    have hz := List.mergeSort_zipIdx (l := withPos ts ws) (le := le)
    have hp := List.pairwise_mergeSort (le := List.zipIdxLE le)
      (List.zipIdxLE_trans (fun a b c => by
        simp only [hle, decide_eq_true_eq]; exact Nat.le_trans))
      (List.zipIdxLE_total (fun a b => by
        simp only [hle, Bool.or_eq_true, decide_eq_true_eq]; exact Nat.le_total _ _))
      (withPos ts ws).zipIdx
    have hmem : ∀ e ∈ (withPos ts ws).zipIdx.mergeSort (List.zipIdxLE le), e.1.pos = e.2 ∧
        (ts.map (·.2.rank)).getD e.1.pos 0 = e.1.rank.val := by
      intro e he
      rw [List.mem_mergeSort] at he
      refine ⟨withPos_index ts ws e.1 e.2 he, ?_⟩
      have hin : e.1 ∈ withPos ts ws := by
        rw [List.mem_zipIdx_iff_getElem?] at he
        exact List.mem_of_getElem? he
      have := (withPos_team ts ws hl e.1 hin).1
      rw [List.getD_eq_getElem?_getD, List.getElem?_map, this]
      rfl
    have hnd : ((withPos ts ws).zipIdx.mergeSort (List.zipIdxLE le)).Pairwise
        fun a b => a.2 ≠ b.2 := by
      have h1 : ((withPos ts ws).zipIdx.map (·.2)).Nodup := by
        rw [List.zipIdx_map_snd]; exact List.nodup_range' ..
      have h2 := ((List.mergeSort_perm (withPos ts ws).zipIdx (List.zipIdxLE le)).map (·.2)).nodup_iff.2 h1
      exact List.pairwise_map.1 h2
    change (List.mergeSort (withPos ts ws) le).Pairwise _
    rw [← hz, List.pairwise_map]
    refine ((hp.and hnd).imp_of_mem ?_)
    rintro a b ha hb ⟨hab, hne⟩
    obtain ⟨p1, r1⟩ := hmem a ha
    obtain ⟨p2, r2⟩ := hmem b hb
    rw [r1, r2, p1, p2]
    simp only [List.zipIdxLE, hle, decide_eq_true_eq] at hab
    split_ifs at hab with c1 c2
    · simp only [decide_eq_true_eq] at hab
      exact .inr ⟨Nat.le_antisymm c1 c2, lt_of_le_of_ne hab hne⟩
    · exact .inl (by omega)

theorem proper_length {ts : List (List (TrueSkillRating ℝ) × MultiTeamOutcome)}
    {ws : List (List ℝ)} (h : ProperMatch ts ws) : ws.length = ts.length := by
  simpa using congrArg List.length h.shape

theorem proper_weights {ts : List (List (TrueSkillRating ℝ) × MultiTeamOutcome)}
    {ws : List (List ℝ)} (h : ProperMatch ts ws) :
    getWeights (ts.map (·.1)) (some ws) = .ok ws := by
  have hl := proper_length h
  rw [getWeights_ok]
  refine ⟨rfl, by simpa using hl, fun k hk => ?_⟩
  have hk' : k < ts.length := by simpa using hk
  have hkw : k < ws.length := by omega
  refine ⟨ts[k].1.length, ws[k], by simp [hk'], by simp [hkw], ?_, ?_⟩
  · have := congrArg (fun l => l[k]?) h.shape
    simpa [hk', hkw] using this
  · intro w hw
    have := h.weights _ (List.getElem_mem hkw) w hw
    rw [Flt.lt_real, Flt.lit_0]
    simpa using this.le

theorem chain_core {ts : List (List (TrueSkillRating ℝ) × MultiTeamOutcome)} {ws : List (List ℝ)}
    (cfg : TrueSkillConfig ℝ) (h : ProperMatch ts ws) {idx : List ℕ}
    (hidx : Standing (ts.map (·.2.rank)) idx) (g : List (List (TrueSkillRating ℝ)))
    (hg : chainUpdates cfg.drawProbability cfg.beta
      (idx.map (teamAt cfg.dynamicsFactor ts ws)) = some g) :
    core (sortTeams (withPos ts ws)) cfg = .ok g ∧
      (sortTeams (withPos ts ws)).map (·.pos) = idx := by
  have hl := proper_length h
  have hpos := standing_unique (sort_standing ts ws hl) hidx
  refine ⟨?_, hpos⟩
  have hmem : ∀ p ∈ sortTeams (withPos ts ws), ts[p.pos]? = some (p.team, p.rank) ∧
      ws[p.pos]? = some p.weights := fun p hp =>
    withPos_team ts ws hl p ((sortTeams_perm _).mem_iff.1 hp)
  have hlen : (sortTeams (withPos ts ws)).length = ts.length := by
    have := congrArg List.length hpos
    rw [List.length_map, hidx.1.length_eq] at this
    simpa using this
  apply core_chain
  · intro p hp
    obtain ⟨h1, h2⟩ := hmem p hp
    have := congrArg (fun l => l[p.pos]?) h.shape
    simpa [h1, h2] using this
  · rw [hlen]; exact h.two
  · intro p hp
    exact h.players _ (List.mem_of_getElem? (hmem p hp).1)
  · intro p hp r hr
    exact h.uncertainty _ (List.mem_of_getElem? (hmem p hp).1) r hr
  · intro p hp w hw
    exact (h.weights _ (List.mem_of_getElem? (hmem p hp).2) w hw).ne'
  · rw [← hg, ← hpos, List.map_map]
    congr 1
    apply List.map_congr_left
    intro p hp
    obtain ⟨h1, h2⟩ := hmem p hp
    simp only [Function.comp, teamAt, List.getD_eq_getElem?_getD, h1, h2, Option.getD_some]

/-- Any number of teams in any order, with weights: the function computes the team-level
expectation propagation of the specification on the teams ordered by rank, and returns the
ratings in the order of the input. -/
theorem C97_trueskill_multi_chain_weighted
    (ts : List (List (TrueSkillRating ℝ) × MultiTeamOutcome)) (ws : List (List ℝ))
    (cfg : TrueSkillConfig ℝ) (h : ProperMatch ts ws) (idx : List ℕ)
    (hidx : Standing (ts.map (·.2.rank)) idx) (g : List (List (TrueSkillRating ℝ)))
    (hg : chainUpdates cfg.drawProbability cfg.beta
      (idx.map (teamAt cfg.dynamicsFactor ts ws)) = some g) :
    ∃ r, trueskillMultiTeam ts cfg (some ws) = .ok (.ok r) ∧ r.length = ts.length ∧
      ∀ k i : ℕ, idx[k]? = some i → r[i]? = g[k]? := by
  obtain ⟨hc, hpos⟩ := chain_core cfg h hidx g hg
  have h0 : ts ≠ [] := by
    have := h.two
    intro h; rw [h] at this; simp at this
  have hglen : g.length = ts.length := by
    have h1 := (core_length _ _ _ hc).1
    have h2 := congrArg List.length hpos
    rw [List.length_map, hidx.1.length_eq, List.length_range, List.length_map] at h2
    omega
  have hil : idx.length = ts.length := by simpa using hidx.1.length_eq
  refine ⟨unsort idx g, ?_, ?_, ?_⟩
  · rw [multiTeam_eq ts cfg (some ws) ws h0 h.players (proper_weights h), hc, hpos]
  · rw [unsort_length, hglen, hil, min_self]
  · intro k i hk
    exact unsort_getElem? idx g ts.length (by simpa using hidx.1) hglen k i hk

/-- Weights one. -/
theorem proper_ones {ts : List (List (TrueSkillRating ℝ) × MultiTeamOutcome)}
    (h2 : 2 ≤ ts.length) (hne : ∀ t ∈ ts, t.1 ≠ []) (hu : ∀ t ∈ ts, ∀ p ∈ t.1, p.uncertainty ≠ 0) :
    ProperMatch ts (ts.map fun t => List.replicate t.1.length 1) := by
  refine ⟨h2, hne, by simp, ?_, hu⟩
  intro l hl w hw
  obtain ⟨t, -, rfl⟩ := List.mem_map.1 hl
  rw [List.eq_of_mem_replicate hw]
  exact one_pos

theorem multi_ones (ts : List (List (TrueSkillRating ℝ) × MultiTeamOutcome))
    (cfg : TrueSkillConfig ℝ) (h2 : 2 ≤ ts.length) (hne : ∀ t ∈ ts, t.1 ≠ [])
    (hu : ∀ t ∈ ts, ∀ p ∈ t.1, p.uncertainty ≠ 0) :
    trueskillMultiTeam ts cfg none =
      trueskillMultiTeam ts cfg (some (ts.map fun t => List.replicate t.1.length 1)) := by
  have h0 : ts ≠ [] := by
    intro h; rw [h] at h2; simp at h2
  have hw : getWeights (ts.map (·.1)) none = .ok (ts.map fun t => List.replicate t.1.length (1 : ℝ)) := by
    rw [getWeights, List.map_map]
    simp only [Flt.lit_1]
    rfl
  rw [multiTeam_eq ts cfg none _ h0 hne hw,
    multiTeam_eq ts cfg _ _ h0 hne (proper_weights (proper_ones h2 hne hu))]

/-- Without weights, every weight is one. -/
theorem C97_trueskill_multi_chain (ts : List (List (TrueSkillRating ℝ) × MultiTeamOutcome))
    (cfg : TrueSkillConfig ℝ) (h2 : 2 ≤ ts.length) (hne : ∀ t ∈ ts, t.1 ≠ [])
    (hu : ∀ t ∈ ts, ∀ p ∈ t.1, p.uncertainty ≠ 0) (idx : List ℕ)
    (hidx : Standing (ts.map (·.2.rank)) idx) (g : List (List (TrueSkillRating ℝ)))
    (hg : chainUpdates cfg.drawProbability cfg.beta (idx.map
      (teamAt cfg.dynamicsFactor ts (ts.map fun t => List.replicate t.1.length 1))) = some g) :
    ∃ r, trueskillMultiTeam ts cfg none = .ok (.ok r) ∧ r.length = ts.length ∧
      ∀ k i : ℕ, idx[k]? = some i → r[i]? = g[k]? := by
  rw [multi_ones ts cfg h2 hne hu]
  exact C97_trueskill_multi_chain_weighted ts _ cfg (proper_ones h2 hne hu) idx hidx g hg

section
variable {ts : List (List (TrueSkillRating ℝ) × MultiTeamOutcome)} {ws : List (List ℝ)}

theorem standing_lt {idx : List ℕ} (h : Standing (ts.map (·.2.rank)) idx) {k : ℕ}
    (hk : k < idx.length) : idx[k] < ts.length := by
  have := h.1.mem_iff.1 (List.getElem_mem hk)
  simpa using this

/-- The players of a proper match. -/
theorem teamAt_player (τ : ℝ) {i j : ℕ} {p : TrueSkillRating ℝ} {w : ℝ}
    (hp : (ts.getD i ([], .new 0)).1[j]? = some p) (hw : (ws.getD i [])[j]? = some w) :
    (teamAt τ ts ws i).1[j]? = some (fgPlayer τ p w) := by
  simp only [teamAt, fgTeam]
  rw [List.getElem?_zipWith_eq_some]
  exact ⟨p, w, hp, hw, rfl⟩

theorem teamAt_mem (h : ProperMatch ts ws) (τ : ℝ) {i : ℕ} :
    ∀ p ∈ (teamAt τ ts ws i).1, 0 < p.s ∧ 0 < p.w := by
  intro q hq
  obtain ⟨j, hj⟩ := List.mem_iff_getElem?.1 hq
  simp only [teamAt, fgTeam] at hj
  rw [List.getElem?_zipWith_eq_some] at hj
  obtain ⟨p, w, hp, hw, rfl⟩ := hj
  have hpm := List.mem_of_getElem? hp
  have hwm := List.mem_of_getElem? hw
  rw [List.getD_eq_getElem?_getD] at hpm hwm
  constructor
  · have hu : p.uncertainty ≠ 0 := by
      cases ht : ts[i]? with
      | none => rw [ht] at hpm; simp at hpm
      | some t => rw [ht] at hpm; exact h.uncertainty t (List.mem_of_getElem? ht) p hpm
    change 0 < p.uncertainty ^ 2 + τ ^ 2
    positivity
  · cases ht : ws[i]? with
    | none => rw [ht] at hwm; simp at hwm
    | some t => rw [ht] at hwm; exact h.weights t (List.mem_of_getElem? ht) w hwm

theorem term_le_variance (β : ℝ) (t : List FgPlayer) (ht : ∀ p ∈ t, 0 < p.s ∧ 0 < p.w)
    {p : FgPlayer} (hp : p ∈ t) : p.w ^ 2 * p.s ≤ fgVariance β t := by
  have h1 : p.w ^ 2 * (p.s + β ^ 2) ≤ fgVariance β t := by
    unfold fgVariance
    refine List.single_le_sum ?_ _ (List.mem_map.2 ⟨p, hp, rfl⟩)
    intro x hx
    obtain ⟨q, hq, rfl⟩ := List.mem_map.1 hx
    have := ht q hq
    have := this.1
    positivity
  have : 0 ≤ p.w ^ 2 * β ^ 2 := by positivity
  linarith

theorem teamAt_length (h : ProperMatch ts ws) (τ : ℝ) {i : ℕ} (hi : i < ts.length) :
    (teamAt τ ts ws i).1.length = ts[i].1.length := by
  have hl := proper_length h
  have hiw : i < ws.length := by omega
  have hs := congrArg (fun l => l[i]?) h.shape
  simp only [List.getElem?_map, List.getElem?_eq_getElem hi, List.getElem?_eq_getElem hiw,
    Option.map_some, Option.some.injEq] at hs
  simp only [teamAt, fgTeam, List.length_zipWith, List.getD_eq_getElem?_getD,
    List.getElem?_eq_getElem hi, List.getElem?_eq_getElem hiw, Option.getD_some, hs, min_self]

theorem teamAt_variance (h : ProperMatch ts ws) (τ β : ℝ) {i : ℕ} (hi : i < ts.length) :
    0 < fgVariance β (teamAt τ ts ws i).1 := by
  have hlen := teamAt_length h τ hi
  have hne := List.length_pos_iff.2 (h.players _ (List.getElem_mem hi))
  obtain ⟨p, hp⟩ := List.exists_mem_of_length_pos (by rw [hlen]; exact hne)
  have hm := teamAt_mem h τ (i := i)
  have h1 := hm p hp
  have := h1.1
  have := h1.2
  have h2 := term_le_variance β _ hm hp
  have : 0 < p.w ^ 2 * p.s := by positivity
  linarith

theorem ranked_at (τ : ℝ) {idx : List ℕ} {k : ℕ} (hk : k < idx.length) :
    (idx.map (teamAt τ ts ws)).getD k ([], 0) = teamAt τ ts ws idx[k] := by
  rw [List.getD_eq_getElem?_getD, List.getElem?_map, List.getElem?_eq_getElem hk]
  rfl

theorem league_team (τ p β : ℝ) {idx : List ℕ} {k : ℕ} (hk : k < idx.length) :
    (leagueOf p β (idx.map (teamAt τ ts ws))).team k =
      .of (fgMean (teamAt τ ts ws idx[k]).1) (fgVariance β (teamAt τ ts ws idx[k]).1) := by
  simp only [leagueOf, ranked_at τ hk]

theorem league_pos (h : ProperMatch ts ws) (τ p β : ℝ) {idx : List ℕ}
    (hidx : Standing (ts.map (·.2.rank)) idx) :
    ∀ k < (leagueOf p β (idx.map (teamAt τ ts ws))).n,
      0 < ((leagueOf p β (idx.map (teamAt τ ts ws))).team k).prec := by
  intro k hk
  have hk' : k < idx.length := by simpa [leagueOf] using hk
  rw [league_team τ p β hk']
  exact of_prec_pos _ (teamAt_variance h τ β (standing_lt hidx hk'))

/-- The result of the function, read through what is heard of the teams. -/
theorem chain_read (cfg : TrueSkillConfig ℝ) (h : ProperMatch ts ws) {idx : List ℕ}
    (hidx : Standing (ts.map (·.2.rank)) idx) {g : List (List (TrueSkillRating ℝ))}
    (hg : chainUpdates cfg.drawProbability cfg.beta
      (idx.map (teamAt cfg.dynamicsFactor ts ws)) = some g) :
    ∃ x, (leagueOf cfg.drawProbability cfg.beta
        (idx.map (teamAt cfg.dynamicsFactor ts ws))).heard = some x ∧
      (∀ k < idx.length, 0 < (x k).prec) ∧
      ∃ r, trueskillMultiTeam ts cfg (some ws) = .ok (.ok r) ∧
        ∀ k i : ℕ, idx[k]? = some i → ∀ (j : ℕ) (p : TrueSkillRating ℝ) (w : ℝ),
          (ts.getD i ([], .new 0)).1[j]? = some p → (ws.getD i [])[j]? = some w →
          ((r.getD i [])[j]? = some (chainUpdate (fgMean (teamAt cfg.dynamicsFactor ts ws i).1)
            (fgVariance cfg.beta (teamAt cfg.dynamicsFactor ts ws i).1) (x k)
            (fgPlayer cfg.dynamicsFactor p w))) := by
  obtain ⟨r, hr, hrl, hread⟩ := C97_trueskill_multi_chain_weighted ts ws cfg h idx hidx g hg
  rw [chainUpdates, Option.map_eq_some_iff] at hg
  obtain ⟨x, hx, rfl⟩ := hg
  have hlen : idx.length = ts.length := by simpa using hidx.1.length_eq
  refine ⟨x, hx, ?_, r, hr, ?_⟩
  · have := heard_pos (by simpa [leagueOf, hlen] using h.two) (league_pos h _ _ _ hidx) hx
    simpa [leagueOf] using this
  · intro k i hk j p w hp hw
    have := hread k i hk
    rw [List.getD_eq_getElem?_getD, this]
    simp only [List.getElem?_mapIdx, List.getElem?_map, hk, Option.map_some, Option.getD_some]
    rw [teamAt_player _ hp hw]
    rfl

/-! ### C98: uncertainties, and the members of a team -/

/-- Whatever the number of teams and the result: every uncertainty stays positive and ends below
`√(σ² + τ²)`, its value after the dynamics. -/
theorem C98_trueskill_multi_uncertainty (cfg : TrueSkillConfig ℝ) (h : ProperMatch ts ws)
    (idx : List ℕ) (hidx : Standing (ts.map (·.2.rank)) idx) (g : List (List (TrueSkillRating ℝ)))
    (hg : chainUpdates cfg.drawProbability cfg.beta
      (idx.map (teamAt cfg.dynamicsFactor ts ws)) = some g) :
    ∃ r, trueskillMultiTeam ts cfg (some ws) = .ok (.ok r) ∧
      ∀ (i j : ℕ) (p : TrueSkillRating ℝ), (ts.getD i ([], .new 0)).1[j]? = some p →
        ∃ p', (r.getD i [])[j]? = some p' ∧ 0 < p'.uncertainty ∧
          p'.uncertainty < √(p.uncertainty ^ 2 + cfg.dynamicsFactor ^ 2) := by
  obtain ⟨x, -, hx, r, hr, hread⟩ := chain_read cfg h hidx hg
  refine ⟨r, hr, fun i j p hp => ?_⟩
  have hlen : idx.length = ts.length := by simpa using hidx.1.length_eq
  have hi : i < ts.length := by
    by_contra hi
    rw [List.getD_eq_getElem?_getD, List.getElem?_eq_none (not_lt.1 hi)] at hp
    simp at hp
  have hj : j < (teamAt cfg.dynamicsFactor ts ws i).1.length := by
    rw [teamAt_length h _ hi]
    rw [List.getD_eq_getElem?_getD, List.getElem?_eq_getElem hi] at hp
    exact (List.getElem?_eq_some_iff.1 hp).1
  obtain ⟨q, w, hq, hw, -⟩ : ∃ q w, (ts.getD i ([], .new 0)).1[j]? = some q ∧
      (ws.getD i [])[j]? = some w ∧ True := by
    have := List.getElem?_eq_getElem hj
    simp only [teamAt, fgTeam] at this
    rw [List.getElem?_zipWith_eq_some] at this
    obtain ⟨q, w, h1, h2, -⟩ := this
    exact ⟨q, w, h1, h2, trivial⟩
  obtain rfl : q = p := by rw [hp] at hq; exact (Option.some.inj hq).symm
  have hmem : i ∈ idx := hidx.1.mem_iff.2 (by simpa using hi)
  obtain ⟨k, hk⟩ := List.mem_iff_getElem?.1 hmem
  have hkl := (List.getElem?_eq_some_iff.1 hk).1
  refine ⟨_, hread k i hk j q w hp hw, ?_⟩
  have hpl := List.mem_of_getElem? (teamAt_player cfg.dynamicsFactor hp hw)
  have hpos := teamAt_mem h cfg.dynamicsFactor (i := i) _ hpl
  have hle := term_le_variance cfg.beta _ (teamAt_mem h cfg.dynamicsFactor (i := i)) hpl
  have hU := variance_pos (hx k hkl)
  simp only [fgPlayer] at hpos hle
  simp only [chainUpdate, fgPlayer]
  set S := q.uncertainty ^ 2 + cfg.dynamicsFactor ^ 2
  set D := (x k).variance + fgVariance cfg.beta (teamAt cfg.dynamicsFactor ts ws i).1
  have hnum : 0 < w ^ 2 * S := by have := hpos.1; have := hpos.2; positivity
  have hD : w ^ 2 * S < D := by simp only [D]; linarith
  have hD0 : 0 < D := by linarith
  have h1 : 0 < w ^ 2 * S / D := div_pos hnum hD0
  have h2 : w ^ 2 * S / D < 1 := (div_lt_one hD0).2 hD
  have hS := hpos.1
  constructor
  · exact Real.sqrt_pos.2 (mul_pos hS (by linarith))
  · exact Real.sqrt_lt_sqrt (mul_nonneg hS.le (by linarith)) (by nlinarith)

/-- The members of a team move together: their changes are in the proportion of
`w (σ² + τ²)`. -/
theorem C98_trueskill_multi_proportional (cfg : TrueSkillConfig ℝ) (h : ProperMatch ts ws)
    (idx : List ℕ) (hidx : Standing (ts.map (·.2.rank)) idx) (g : List (List (TrueSkillRating ℝ)))
    (hg : chainUpdates cfg.drawProbability cfg.beta
      (idx.map (teamAt cfg.dynamicsFactor ts ws)) = some g) :
    ∃ r, trueskillMultiTeam ts cfg (some ws) = .ok (.ok r) ∧
      ∀ (i j₁ j₂ : ℕ) (p₁ p₂ : TrueSkillRating ℝ) (w₁ w₂ : ℝ), i < ts.length →
        (ts.getD i ([], .new 0)).1[j₁]? = some p₁ → (ws.getD i [])[j₁]? = some w₁ →
        (ts.getD i ([], .new 0)).1[j₂]? = some p₂ → (ws.getD i [])[j₂]? = some w₂ →
        ∃ q₁ q₂, (r.getD i [])[j₁]? = some q₁ ∧ (r.getD i [])[j₂]? = some q₂ ∧
          (q₁.rating - p₁.rating) * (w₂ * (p₂.uncertainty ^ 2 + cfg.dynamicsFactor ^ 2)) =
            (q₂.rating - p₂.rating) * (w₁ * (p₁.uncertainty ^ 2 + cfg.dynamicsFactor ^ 2)) := by
  obtain ⟨x, -, hx, r, hr, hread⟩ := chain_read cfg h hidx hg
  refine ⟨r, hr, fun i j₁ j₂ p₁ p₂ w₁ w₂ hi h1 h1w h2 h2w => ?_⟩
  have hmem : i ∈ idx := hidx.1.mem_iff.2 (by simpa using hi)
  obtain ⟨k, hk⟩ := List.mem_iff_getElem?.1 hmem
  refine ⟨_, _, hread k i hk j₁ p₁ w₁ h1 h1w, hread k i hk j₂ p₂ w₂ h2 h2w, ?_⟩
  simp only [chainUpdate, fgPlayer]
  ring

/-! ### C99: the first and the last team of a decided match -/

theorem standing_sorted (hnd : (ts.map (·.2.rank)).Nodup) {idx : List ℕ}
    (hidx : Standing (ts.map (·.2.rank)) idx) {k l : ℕ} (hkl : k < l) (hl : l < idx.length) :
    (ts.map (·.2.rank)).getD (idx[k]'(by omega)) 0 < (ts.map (·.2.rank)).getD idx[l] 0 := by
  have h1 := List.pairwise_iff_getElem.1 hidx.2 k l (by omega) hl hkl
  rcases h1 with h1 | ⟨h1, h2⟩
  · exact h1
  · have a := standing_lt hidx (k := k) (by omega)
    have b := standing_lt hidx hl
    rw [getD_lt _ _ (by simpa using a), getD_lt _ _ (by simpa using b)] at h1
    have := (List.Nodup.getElem_inj_iff hnd).1 h1
    omega

theorem teamAt_rank (τ : ℝ) {i : ℕ} (hi : i < ts.length) :
    (teamAt τ ts ws i).2 = (ts.map (·.2.rank)).getD i 0 := by
  rw [getD_lt _ _ (by simpa using hi)]
  simp [teamAt, List.getD_eq_getElem?_getD, hi]

theorem league_decided (hnd : (ts.map (·.2.rank)).Nodup) (τ p β : ℝ) {idx : List ℕ}
    (hidx : Standing (ts.map (·.2.rank)) idx) (hp : 0 ≤ p) (hβ : 0 ≤ β) :
    Decided (leagueOf p β (idx.map (teamAt τ ts ws))) := by
  have hne : ∀ k, k + 1 < idx.length → ((idx.map (teamAt τ ts ws)).getD k ([], 0)).2 ≠
      ((idx.map (teamAt τ ts ws)).getD (k + 1) ([], 0)).2 := by
    intro k hk
    rw [ranked_at τ (by omega : k < idx.length), ranked_at τ hk,
      teamAt_rank τ (standing_lt hidx _), teamAt_rank τ (standing_lt hidx _)]
    exact (standing_sorted hnd hidx (Nat.lt_succ_self k) hk).ne
  refine ⟨fun k hk => ?_, fun k hk => ?_, fun k hk => tsMargin_nonneg hp hβ _⟩
  · exact if_neg (hne k (by simpa [leagueOf] using hk))
  · exact if_neg (hne k (by simpa [leagueOf] using hk))

/-- A team that comes first although no other team was expected to be weaker: all its players
gain. -/
theorem C99_trueskill_multi_underdog_first (cfg : TrueSkillConfig ℝ) (h : ProperMatch ts ws)
    (hnd : (ts.map (·.2.rank)).Nodup)
    (hp0 : 0 ≤ cfg.drawProbability) (hβ : 0 ≤ cfg.beta) (idx : List ℕ)
    (hidx : Standing (ts.map (·.2.rank)) idx) (g : List (List (TrueSkillRating ℝ)))
    (hg : chainUpdates cfg.drawProbability cfg.beta
      (idx.map (teamAt cfg.dynamicsFactor ts ws)) = some g)
    (i : ℕ) (hi : i < ts.length)
    (hfirst : ∀ l < ts.length, (ts.map (·.2.rank)).getD i 0 ≤ (ts.map (·.2.rank)).getD l 0)
    (hweak : ∀ l < ts.length, fgMean (teamAt cfg.dynamicsFactor ts ws i).1 ≤
      fgMean (teamAt cfg.dynamicsFactor ts ws l).1) :
    ∃ r, trueskillMultiTeam ts cfg (some ws) = .ok (.ok r) ∧
      ∀ (j : ℕ) (p : TrueSkillRating ℝ) (w : ℝ), (ts.getD i ([], .new 0)).1[j]? = some p →
        (ws.getD i [])[j]? = some w → ∃ q, (r.getD i [])[j]? = some q ∧ p.rating < q.rating := by
  obtain ⟨x, hheard, hx, r, hr, hread⟩ := chain_read cfg h hidx hg
  refine ⟨r, hr, fun j p w hp hw => ?_⟩
  have hlen : idx.length = ts.length := by simpa using hidx.1.length_eq
  have h2 := h.two
  have hmem : i ∈ idx := hidx.1.mem_iff.2 (by simpa using hi)
  obtain ⟨k, hk⟩ := List.mem_iff_getElem?.1 hmem
  obtain ⟨hkl, hki⟩ := List.getElem?_eq_some_iff.1 hk
  have hk0 : k = 0 := by
    by_contra hne
    have h3 := standing_sorted hnd hidx (k := 0) (l := k) (by omega) hkl
    have h4 := hfirst _ (standing_lt hidx (k := 0) (by omega))
    rw [hki] at h3
    omega
  subst hk0
  refine ⟨_, hread 0 i hk j p w hp hw, ?_⟩
  have hn : (leagueOf cfg.drawProbability cfg.beta
      (idx.map (teamAt cfg.dynamicsFactor ts ws))).n = idx.length := by simp [leagueOf]
  have hgt := heard_first (lo := fgMean (teamAt cfg.dynamicsFactor ts ws i).1) (by omega)
    (league_decided hnd cfg.dynamicsFactor _ _ hidx hp0 hβ) (league_pos h _ _ _ hidx) (by
      intro l _ hl
      rw [hn] at hl
      rw [league_team _ _ _ hl]
      exact le_of (teamAt_variance h _ _ (standing_lt hidx hl)) (hweak _ (standing_lt hidx hl)))
    hheard
  have hmar : 0 ≤ (leagueOf cfg.drawProbability cfg.beta
      (idx.map (teamAt cfg.dynamicsFactor ts ws))).margin 0 :=
    tsMargin_nonneg hp0 hβ _
  have hpl := List.mem_of_getElem? (teamAt_player cfg.dynamicsFactor hp hw)
  have hpos := teamAt_mem h cfg.dynamicsFactor (i := i) _ hpl
  have hU := variance_pos (hx 0 hkl)
  have hQ := teamAt_variance h cfg.dynamicsFactor cfg.beta hi
  simp only [chainUpdate]
  have : 0 < (fgPlayer cfg.dynamicsFactor p w).w * (fgPlayer cfg.dynamicsFactor p w).s /
      ((x 0).variance + fgVariance cfg.beta (teamAt cfg.dynamicsFactor ts ws i).1) *
      ((x 0).mean - fgMean (teamAt cfg.dynamicsFactor ts ws i).1) :=
    mul_pos (div_pos (mul_pos hpos.2 hpos.1) (by linarith)) (by linarith)
  change p.rating < p.rating + _
  linarith

/-- A team that comes last although no other team was expected to be stronger: all its players
lose. -/
theorem C99_trueskill_multi_favourite_last (cfg : TrueSkillConfig ℝ) (h : ProperMatch ts ws)
    (hnd : (ts.map (·.2.rank)).Nodup)
    (hp0 : 0 ≤ cfg.drawProbability) (hβ : 0 ≤ cfg.beta) (idx : List ℕ)
    (hidx : Standing (ts.map (·.2.rank)) idx) (g : List (List (TrueSkillRating ℝ)))
    (hg : chainUpdates cfg.drawProbability cfg.beta
      (idx.map (teamAt cfg.dynamicsFactor ts ws)) = some g)
    (i : ℕ) (hi : i < ts.length)
    (hlast : ∀ l < ts.length, (ts.map (·.2.rank)).getD l 0 ≤ (ts.map (·.2.rank)).getD i 0)
    (hstrong : ∀ l < ts.length, fgMean (teamAt cfg.dynamicsFactor ts ws l).1 ≤
      fgMean (teamAt cfg.dynamicsFactor ts ws i).1) :
    ∃ r, trueskillMultiTeam ts cfg (some ws) = .ok (.ok r) ∧
      ∀ (j : ℕ) (p : TrueSkillRating ℝ) (w : ℝ), (ts.getD i ([], .new 0)).1[j]? = some p →
        (ws.getD i [])[j]? = some w → ∃ q, (r.getD i [])[j]? = some q ∧ q.rating < p.rating := by
  obtain ⟨x, hheard, hx, r, hr, hread⟩ := chain_read cfg h hidx hg
  refine ⟨r, hr, fun j p w hp hw => ?_⟩
  have hlen : idx.length = ts.length := by simpa using hidx.1.length_eq
  have h2 := h.two
  have hmem : i ∈ idx := hidx.1.mem_iff.2 (by simpa using hi)
  obtain ⟨k, hk⟩ := List.mem_iff_getElem?.1 hmem
  obtain ⟨hkl, hki⟩ := List.getElem?_eq_some_iff.1 hk
  have hk0 : k = idx.length - 1 := by
    by_contra hne
    have h3 := standing_sorted hnd hidx (k := k) (l := idx.length - 1) (by omega) (by omega)
    have h4 := hlast _ (standing_lt hidx (k := idx.length - 1) (by omega))
    rw [hki] at h3
    omega
  subst hk0
  refine ⟨_, hread _ i hk j p w hp hw, ?_⟩
  have hn : (leagueOf cfg.drawProbability cfg.beta
      (idx.map (teamAt cfg.dynamicsFactor ts ws))).n = idx.length := by simp [leagueOf]
  have hgt := heard_last (hi := fgMean (teamAt cfg.dynamicsFactor ts ws i).1) (by omega)
    (league_decided hnd cfg.dynamicsFactor _ _ hidx hp0 hβ) (league_pos h _ _ _ hidx) (by
      intro l hl
      have hl' : l < idx.length := by omega
      rw [league_team _ _ _ hl']
      exact of_le (teamAt_variance h _ _ (standing_lt hidx hl')) (hstrong _ (standing_lt hidx hl')))
    hheard
  rw [hn] at hgt
  have hmar : 0 ≤ (leagueOf cfg.drawProbability cfg.beta
      (idx.map (teamAt cfg.dynamicsFactor ts ws))).margin (idx.length - 2) :=
    tsMargin_nonneg hp0 hβ _
  have hpl := List.mem_of_getElem? (teamAt_player cfg.dynamicsFactor hp hw)
  have hpos := teamAt_mem h cfg.dynamicsFactor (i := i) _ hpl
  have hU := variance_pos (hx _ hkl)
  have hQ := teamAt_variance h cfg.dynamicsFactor cfg.beta hi
  simp only [chainUpdate]
  have : (fgPlayer cfg.dynamicsFactor p w).w * (fgPlayer cfg.dynamicsFactor p w).s /
      ((x (idx.length - 1)).variance + fgVariance cfg.beta (teamAt cfg.dynamicsFactor ts ws i).1) *
      ((x (idx.length - 1)).mean - fgMean (teamAt cfg.dynamicsFactor ts ws i).1) < 0 :=
    mul_neg_of_pos_of_neg (div_pos (mul_pos hpos.2 hpos.1) (by linarith)) (by linarith)
  change p.rating + _ < p.rating
  linarith

/-- A decided match of teams that are not too far apart never meets a numerically impossible
result, so the theorems above apply: it suffices that the spread of the expected performances
plus `(n - 1) (ε + 4 √Qmax)` is at most `52 √(Qmin/n)`. -/
theorem C97_trueskill_multi_applies (cfg : TrueSkillConfig ℝ) (h : ProperMatch ts ws)
    (hnd : (ts.map (·.2.rank)).Nodup)
    (hp0 : 0 ≤ cfg.drawProbability) (hβ : 0 ≤ cfg.beta) (idx : List ℕ)
    (hidx : Standing (ts.map (·.2.rank)) idx) (lo hi Qmin Qmax ε : ℝ) (hQ0 : 0 < Qmin)
    (hM : ∀ i < ts.length, lo ≤ fgMean (teamAt cfg.dynamicsFactor ts ws i).1 ∧
      fgMean (teamAt cfg.dynamicsFactor ts ws i).1 ≤ hi)
    (hQ : ∀ i < ts.length, Qmin ≤ fgVariance cfg.beta (teamAt cfg.dynamicsFactor ts ws i).1 ∧
      fgVariance cfg.beta (teamAt cfg.dynamicsFactor ts ws i).1 ≤ Qmax)
    (hε : ∀ (i l : ℕ) (_ : i < ts.length) (_ : l < ts.length),
      tsMargin cfg.drawProbability cfg.beta (ts[i].1.length + ts[l].1.length) ≤ ε)
    (hcond : hi - lo + (ts.length - 1) * (ε + 4 * √Qmax) ≤ 52 * √(Qmin / ts.length)) :
    ∃ g, chainUpdates cfg.drawProbability cfg.beta
      (idx.map (teamAt cfg.dynamicsFactor ts ws)) = some g := by
  have hlen : idx.length = ts.length := by simpa using hidx.1.length_eq
  have h2 := h.two
  have hn : (leagueOf cfg.drawProbability cfg.beta
      (idx.map (teamAt cfg.dynamicsFactor ts ws))).n = idx.length := by simp [leagueOf]
  have hQp := fun k (hk : k < idx.length) =>
    teamAt_variance h cfg.dynamicsFactor cfg.beta (standing_lt hidx hk)
  have hW : Within (leagueOf cfg.drawProbability cfg.beta
      (idx.map (teamAt cfg.dynamicsFactor ts ws))) lo hi (1 / Qmin) Qmax ε := by
    refine ⟨by omega, league_decided hnd cfg.dynamicsFactor _ _ hidx hp0 hβ, league_pos h _ _ _ hidx,
      fun k hk => ?_, fun k hk => ?_, fun k hk => ?_, fun k hk => ?_, fun k hk => ?_⟩
    · rw [hn] at hk
      rw [league_team _ _ _ hk, of_mean (hQp k hk)]
      exact (hM _ (standing_lt hidx hk)).1
    · rw [hn] at hk
      rw [league_team _ _ _ hk, of_mean (hQp k hk)]
      exact (hM _ (standing_lt hidx hk)).2
    · rw [hn] at hk
      rw [league_team _ _ _ hk]
      exact one_div_le_one_div_of_le hQ0 (hQ _ (standing_lt hidx hk)).1
    · rw [hn] at hk
      rw [league_team _ _ _ hk, of_variance]
      exact (hQ _ (standing_lt hidx hk)).2
    · rw [hn] at hk
      simp only [leagueOf, ranked_at cfg.dynamicsFactor (by omega : k < idx.length),
        ranked_at cfg.dynamicsFactor hk]
      rw [teamAt_length h _ (standing_lt hidx _), teamAt_length h _ (standing_lt hidx _)]
      exact hε _ _ _ _
  have hdrift : drift Qmax ε = ε + 4 * √Qmax := by
    rw [drift, Real.sqrt_mul (by norm_num)]
    have : √2 * √2 = (2 : ℝ) := Real.mul_self_sqrt (by norm_num)
    linear_combination (2 * √Qmax) * this
  obtain ⟨x, hx⟩ := heard_some hW (by
    rw [hn, hlen, hdrift]
    refine hcond.trans (le_of_eq ?_)
    congr 2
    field_simp)
  exact ⟨_, by rw [chainUpdates, hx]; rfl⟩

/-- The margin in the condition, in terms of the draw probability, `β` and the size of the
teams. -/
theorem C97_trueskill_multi_margin (cfg : TrueSkillConfig ℝ) (hp0 : 0 ≤ cfg.drawProbability)
    (hp1 : cfg.drawProbability < 1) (hβ : 0 ≤ cfg.beta) (n : ℕ) :
    0 ≤ tsMargin cfg.drawProbability cfg.beta n ∧
      tsMargin cfg.drawProbability cfg.beta n ≤
        (√(-2 * Real.log ((1 - cfg.drawProbability) / 2)) + 7.25) * √n * cfg.beta :=
  ⟨tsMargin_nonneg hp0 hβ n, tsMargin_le hp0 hp1 hβ n⟩

end

/-- Three players with the default configuration; the weakest comes first, the strongest last. -/
noncomputable def threesome : List (List (TrueSkillRating ℝ) × MultiTeamOutcome) :=
  [([⟨20, 25 / 3⟩], .new 1), ([⟨30, 25 / 3⟩], .new 3), ([⟨25, 25 / 3⟩], .new 2)]

theorem threesome_proper : ProperMatch threesome [[1], [1], [1]] := by
  refine ⟨by simp [threesome], by simp [threesome], by simp [threesome], by simp, ?_⟩
  simp [threesome]

theorem threesome_standing : Standing (threesome.map (·.2.rank)) [0, 2, 1] := by
  constructor
  · exact (List.Perm.swap _ _ _).cons _
  · simp [threesome, MultiTeamOutcome.new, MultiTeamOutcome.rank]

theorem threesome_heard : ∃ g, chainUpdates cfg0.drawProbability cfg0.beta
    ([0, 2, 1].map (teamAt cfg0.dynamicsFactor threesome [[1], [1], [1]])) = some g := by
  have hlog : √(-2 * Real.log ((1 - cfg0.drawProbability) / 2)) ≤ 2 := by
    rw [Real.sqrt_le_left (by norm_num)]
    have h : -2 ≤ Real.log ((1 - cfg0.drawProbability) / 2) := by
      rw [Real.le_log_iff_exp_le (by norm_num [cfg0])]
      have : Real.exp (-2) = Real.exp (-1) * Real.exp (-1) := by rw [← Real.exp_add]; norm_num
      rw [this]
      have h1 := Real.exp_neg_one_lt_d9
      have h2 := Real.exp_pos (-1)
      norm_num [cfg0] at h1 ⊢
      nlinarith
    linarith
  have hs2 : √(2 : ℝ) ≤ 1.415 := by
    rw [Real.sqrt_le_left (by norm_num)]; norm_num
  refine C97_trueskill_multi_applies cfg0 threesome_proper ?_ (by norm_num [cfg0])
    (by norm_num [cfg0]) _ threesome_standing 20 30 86 87 55 (by norm_num) ?_ ?_ ?_ ?_
  · simp [threesome, MultiTeamOutcome.new, MultiTeamOutcome.rank]
  · intro i hi
    have : i = 0 ∨ i = 1 ∨ i = 2 := by simp [threesome] at hi; omega
    rcases this with rfl | rfl | rfl <;>
      norm_num [teamAt, fgTeam, fgPlayer, fgMean, threesome]
  · intro i hi
    have : i = 0 ∨ i = 1 ∨ i = 2 := by simp [threesome] at hi; omega
    rcases this with rfl | rfl | rfl <;>
      norm_num [teamAt, fgTeam, fgPlayer, fgVariance, threesome, cfg0]
  · intro i l hi hl
    have h1 : ∀ (k : ℕ) (hk : k < threesome.length), threesome[k].1.length = 1 := by
      intro k hk
      have : k = 0 ∨ k = 1 ∨ k = 2 := by simp [threesome] at hk; omega
      rcases this with rfl | rfl | rfl <;> rfl
    rw [h1 i hi, h1 l hl]
    refine (C97_trueskill_multi_margin cfg0 (by norm_num [cfg0]) (by norm_num [cfg0])
      (by norm_num [cfg0]) 2).2.trans ?_
    have hβ : cfg0.beta = 25 / 6 := rfl
    rw [hβ]
    push_cast
    have := Real.sqrt_nonneg (2 : ℝ)
    nlinarith
  · have h1 : √(87 : ℝ) ≤ 9.4 := by
      rw [Real.sqrt_le_left (by norm_num)]; norm_num
    have h2 : (5 : ℝ) ≤ √(86 / 3) := Real.le_sqrt_of_sq_le (by norm_num)
    have h3 : (threesome.length : ℝ) = 3 := by norm_num [threesome]
    rw [h3]
    linarith

example : ∃ r, trueskillMultiTeam threesome cfg0 (some [[1], [1], [1]]) = .ok (.ok r) ∧
    ∀ (j : ℕ) (p : TrueSkillRating ℝ) (w : ℝ), (threesome.getD 0 ([], .new 0)).1[j]? = some p →
      ([[1], [1], [1]].getD 0 [])[j]? = some w →
        ∃ q, (r.getD 0 [])[j]? = some q ∧ p.rating < q.rating := by
  obtain ⟨g, hg⟩ := threesome_heard
  refine C99_trueskill_multi_underdog_first cfg0 threesome_proper ?_ (by norm_num [cfg0])
    (by norm_num [cfg0]) _ threesome_standing g hg 0 (by simp [threesome]) ?_ ?_
  · simp [threesome, MultiTeamOutcome.new, MultiTeamOutcome.rank]
  · intro l hl
    have : l = 0 ∨ l = 1 ∨ l = 2 := by simp [threesome] at hl; omega
    rcases this with rfl | rfl | rfl <;> simp [threesome, MultiTeamOutcome.new, MultiTeamOutcome.rank]
  · intro l hl
    have : l = 0 ∨ l = 1 ∨ l = 2 := by simp [threesome] at hl; omega
    rcases this with rfl | rfl | rfl <;>
      norm_num [teamAt, fgTeam, fgPlayer, fgMean, threesome]

example : ∃ r, trueskillMultiTeam threesome cfg0 (some [[1], [1], [1]]) = .ok (.ok r) ∧
    ∀ (j : ℕ) (p : TrueSkillRating ℝ) (w : ℝ), (threesome.getD 1 ([], .new 0)).1[j]? = some p →
      ([[1], [1], [1]].getD 1 [])[j]? = some w →
        ∃ q, (r.getD 1 [])[j]? = some q ∧ q.rating < p.rating := by
  obtain ⟨g, hg⟩ := threesome_heard
  refine C99_trueskill_multi_favourite_last cfg0 threesome_proper ?_ (by norm_num [cfg0])
    (by norm_num [cfg0]) _ threesome_standing g hg 1 (by simp [threesome]) ?_ ?_
  · simp [threesome, MultiTeamOutcome.new, MultiTeamOutcome.rank]
  · intro l hl
    have : l = 0 ∨ l = 1 ∨ l = 2 := by simp [threesome] at hl; omega
    rcases this with rfl | rfl | rfl <;> simp [threesome, MultiTeamOutcome.new, MultiTeamOutcome.rank]
  · intro l hl
    have : l = 0 ∨ l = 1 ∨ l = 2 := by simp [threesome] at hl; omega
    rcases this with rfl | rfl | rfl <;>
      norm_num [teamAt, fgTeam, fgPlayer, fgMean, threesome]

end TrueSkill
end Skillratings
