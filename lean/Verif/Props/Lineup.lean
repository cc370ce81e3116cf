import Verif.Props.WengLin
import Verif.Props.TrueSkillChain
import Verif.Spec.Lineup
/-
C110: the order in which the players of a team are listed does not matter: everybody gets the same
new rating wherever they stand in the list.
-/
namespace Skillratings
open Spec

/-! ### Weng-Lin -/

namespace WengLin

theorem side_perm {S S' : List (WengLinRating ℝ)} (h : S.Perm S') : side S = side S' := by
  simp only [side, (h.map _).sum_eq]

private theorem nil_of_perm {α : Type} {S S' : List α} (h : S.Perm S') : S = [] ↔ S' = [] := by
  constructor <;> rintro rfl
  · exact h.nil_eq.symm
  · exact h.eq_nil

/-- Two teams: there is one new rating for each player of a team, whatever the order. -/
theorem C110_wengLin_teams_lineup (S S' T T' : List (WengLinRating ℝ)) (o : Outcomes)
    (cfg : WengLinConfig ℝ) (hS : S.Perm S') (hT : T.Perm T') :
    ∃ f g, wengLinTwoTeams S T o cfg = (S.map f, T.map g) ∧
      wengLinTwoTeams S' T' o cfg = (S'.map f, T'.map g) := by
  by_cases h0 : S = [] ∨ T = []
  · have h0' : S' = [] ∨ T' = [] := h0.imp (nil_of_perm hS).1 (nil_of_perm hT).1
    refine ⟨id, id, ?_, ?_⟩
    · rcases h0 with rfl | rfl <;> simp [wengLinTwoTeams]
    · rcases h0' with rfl | rfl <;> simp [wengLinTwoTeams]
  · push Not at h0
    rw [twoTeams_real _ _ _ _ h0.1 h0.2, twoTeams_real _ _ _ _ (mt (nil_of_perm hS).2 h0.1)
      (mt (nil_of_perm hT).2 h0.2), ← side_perm hS, ← side_perm hT]
    simp only [update, ← side_perm hS, ← side_perm hT]
    exact ⟨_, _, rfl, rfl⟩

theorem C110_wengLin_expected_teams_lineup (S S' T T' : List (WengLinRating ℝ))
    (cfg : WengLinConfig ℝ) (hS : S.Perm S') (hT : T.Perm T') :
    expectedScoreTwoTeams S T cfg = expectedScoreTwoTeams S' T' cfg := by
  simp only [expectedScoreTwoTeams, teamRating_real, teamUncertaintySq_real, side_perm hS,
    side_perm hT]

private theorem forall₂_ofFn {α : Type} {R : α → α → Prop} {L L' : List α}
    (h : List.Forall₂ R L L') : ∃ n, ∃ T T' : Fin n → α, L = List.ofFn T ∧ L' = List.ofFn T' ∧
      ∀ i, R (T i) (T' i) := by
  have hl := h.length_eq
  refine ⟨L.length, L.get, fun i => L'.get (i.cast hl), (List.ofFn_get L).symm, ?_, ?_⟩
  · apply List.ext_getElem
    · simp [hl]
    · intro i h1 h2; simp
  · intro i
    exact h.get i.2 (by rw [← hl]; exact i.2)

private theorem mapIdx_ofFn {α β : Type} {n : ℕ} (T : Fin n → α) (f : ℕ → α → β) :
    (List.ofFn T).mapIdx f = List.ofFn fun i => f i (T i) := by
  apply List.ext_getElem
  · simp
  · intro i h1 h2; simp

/-- Any number of teams. -/
theorem C110_wengLin_multi_lineup (L L' : List (List (WengLinRating ℝ) × MultiTeamOutcome))
    (cfg : WengLinConfig ℝ) (h : List.Forall₂ (fun a b => a.1.Perm b.1 ∧ a.2 = b.2) L L') :
    ∃ f : ℕ → WengLinRating ℝ → WengLinRating ℝ,
      wengLinMultiTeam L cfg = L.mapIdx (fun i t => t.1.map (f i)) ∧
      wengLinMultiTeam L' cfg = L'.mapIdx (fun i t => t.1.map (f i)) := by
  obtain ⟨n, T, T', rfl, rfl, hp⟩ := forall₂_ofFn h
  by_cases h0 : ∀ i, (T i).1 ≠ []
  · have h0' : ∀ i, (T' i).1 ≠ [] := fun i => mt (nil_of_perm (hp i).1).2 (h0 i)
    have hs : ∀ i, side (T' i).1 = side (T i).1 := fun i => (side_perm (hp i).1).symm
    have hO : ∀ i, Omega cfg.beta T' i = Omega cfg.beta T i := fun i => by
      simp only [Omega, hs, ← (hp _).2]
    have hD : ∀ i, Delta cfg.beta T' i = Delta cfg.beta T i := fun i => by
      simp only [Delta, hs]
    rw [multi_real _ _ h0, multi_real _ _ h0']
    simp only [mapIdx_ofFn, update, hO, hD, hs]
    refine ⟨fun j p => if hj : j < n then
      ⟨wlRating p.rating (p.uncertainty ^ 2) (side (T ⟨j, hj⟩).1).v (Omega cfg.beta T ⟨j, hj⟩),
        wlUncertainty (p.uncertainty ^ 2) (side (T ⟨j, hj⟩).1).v (Delta cfg.beta T ⟨j, hj⟩)
          cfg.uncertaintyTolerance⟩ else p, ?_, ?_⟩ <;> simp
  · push Not at h0
    obtain ⟨i, hi⟩ := h0
    refine ⟨fun _ => id, ?_, ?_⟩
    · rw [C59_wengLin_multi_empty_team _ _ ⟨_, List.mem_ofFn.2 ⟨i, rfl⟩, hi⟩, mapIdx_ofFn]
      simp [List.map_ofFn, Function.comp_def]
    · rw [C59_wengLin_multi_empty_team _ _ ⟨_, List.mem_ofFn.2 ⟨i, rfl⟩,
        (nil_of_perm (hp i).1).1 hi⟩, mapIdx_ofFn]
      simp [List.map_ofFn, Function.comp_def]

private theorem map_eq_of_forall₂ {α β : Type} {R : α → α → Prop} {f : α → β} {L L' : List α}
    (h : List.Forall₂ R L L') (hf : ∀ a b, R a b → f a = f b) : L.map f = L'.map f := by
  induction h with
  | nil => rfl
  | cons h _ ih => rw [List.map_cons, List.map_cons, hf _ _ h, ih]

theorem C110_wengLin_expected_multi_lineup (L L' : List (List (WengLinRating ℝ)))
    (cfg : WengLinConfig ℝ) (h : List.Forall₂ List.Perm L L') :
    expectedScoreMultiTeam L cfg = expectedScoreMultiTeam L' cfg := by
  have h1 : L.map teamRating = L'.map teamRating := map_eq_of_forall₂ h fun a b h => by
    rw [teamRating_real, teamRating_real, side_perm h]
  have h2 : L.map teamUncertaintySq = L'.map teamUncertaintySq := map_eq_of_forall₂ h fun a b h => by
    rw [teamUncertaintySq_real, teamUncertaintySq_real, side_perm h]
  simp only [expectedScoreMultiTeam, h1, h2]

end WengLin

/-! ### TrueSkill -/

namespace TrueSkill

theorem side_perm {S S' : List (TrueSkillRating ℝ)} (h : S.Perm S') : side S = side S' := by
  simp only [side, (h.map _).sum_eq, h.length_eq]

private theorem nil_of_perm {α : Type} {S S' : List α} (h : S.Perm S') : S = [] ↔ S' = [] := by
  constructor <;> rintro rfl
  · exact h.nil_eq.symm
  · exact h.eq_nil

theorem C110_trueskill_teams_lineup (S S' T T' : List (TrueSkillRating ℝ)) (o : Outcomes)
    (cfg : TrueSkillConfig ℝ) (hS : S.Perm S') (hT : T.Perm T') :
    ∃ f g, trueskillTwoTeams S T o cfg = (S.map f, T.map g) ∧
      trueskillTwoTeams S' T' o cfg = (S'.map f, T'.map g) := by
  by_cases h0 : S = [] ∨ T = []
  · have h0' : S' = [] ∨ T' = [] := h0.imp (nil_of_perm hS).1 (nil_of_perm hT).1
    refine ⟨id, id, ?_, ?_⟩
    · rcases h0 with rfl | rfl <;> simp [trueskillTwoTeams]
    · rcases h0' with rfl | rfl <;> simp [trueskillTwoTeams]
  · push Not at h0
    rw [twoTeams_real _ _ _ _ h0.1 h0.2, twoTeams_real _ _ _ _ (mt (nil_of_perm hS).2 h0.1)
      (mt (nil_of_perm hT).2 h0.2), ← side_perm hS, ← side_perm hT]
    exact ⟨_, _, rfl, rfl⟩

private theorem rating_perm {S S' : List (TrueSkillRating ℝ)} (h : S.Perm S') :
    teamRating S = teamRating S' ∧ teamUncertaintySq S = teamUncertaintySq S' := by
  simp only [teamRating, teamUncertaintySq, Flt.sum_real, (h.map _).sum_eq, and_self]

theorem C110_trueskill_expected_teams_lineup (S S' T T' : List (TrueSkillRating ℝ))
    (cfg : TrueSkillConfig ℝ) (hS : S.Perm S') (hT : T.Perm T') :
    expectedScoreTwoTeams S T cfg = expectedScoreTwoTeams S' T' cfg := by
  simp only [expectedScoreTwoTeams, rating_perm hS, rating_perm hT, hS.length_eq, hT.length_eq]

theorem C110_trueskill_quality_teams_lineup (S S' T T' : List (TrueSkillRating ℝ))
    (cfg : TrueSkillConfig ℝ) (hS : S.Perm S') (hT : T.Perm T') :
    matchQualityTwoTeams S T cfg = matchQualityTwoTeams S' T' cfg := by
  simp only [matchQualityTwoTeams, rating_perm hS, rating_perm hT, hS.length_eq, hT.length_eq]

theorem C110_trueskill_expected_multi_lineup (L L' : List (List (TrueSkillRating ℝ)))
    (cfg : TrueSkillConfig ℝ) (h : List.Forall₂ List.Perm L L') :
    expectedScoreMultiTeam L cfg = expectedScoreMultiTeam L' cfg := by
  have hp : ∀ {a a' b b' : List (TrueSkillRating ℝ)} (n : ℝ), a.Perm a' → b.Perm b' →
      pairProbability a b n cfg = pairProbability a' b' n cfg := by
    intro a a' b b' n ha hb
    simp only [pairProbability, rating_perm ha, rating_perm hb]
  have hw : ∀ {a a' : List (TrueSkillRating ℝ)} (i k : ℕ) (n : ℝ)
      (M M' : List (List (TrueSkillRating ℝ))), a.Perm a' → List.Forall₂ List.Perm M M' →
      ((M.zipIdx k).filter fun tj => decide (i ≠ tj.2)).map (fun tj => pairProbability a tj.1 n cfg)
      = ((M'.zipIdx k).filter fun tj => decide (i ≠ tj.2)).map
        (fun tj => pairProbability a' tj.1 n cfg) := by
    intro a a' i k n M M' ha hM
    induction hM generalizing k with
    | nil => rfl
    | cons hb _ ih =>
      simp only [List.zipIdx_cons, List.filter_cons]
      split_ifs
      · simp only [List.map_cons, hp n ha hb, ih]
      · exact ih _
  have hW : ∀ (k : ℕ) (n : ℝ) (M M' : List (List (TrueSkillRating ℝ))),
      List.Forall₂ List.Perm M M' →
      ((M.zipIdx k).map fun ti => winProbabilities L ti.1 ti.2 n cfg)
      = (M'.zipIdx k).map fun ti => winProbabilities L' ti.1 ti.2 n cfg := by
    intro k n M M' hM
    induction hM generalizing k with
    | nil => rfl
    | cons hb _ ih =>
      simp only [List.zipIdx_cons, List.map_cons, ih]
      congr 1
      exact hw _ _ _ _ _ hb h
  have hn : L.map List.length = L'.map List.length := by
    clear hW
    induction h with
    | nil => rfl
    | cons h _ ih => simp only [List.map_cons, h.length_eq, ih]
  simp only [expectedScoreMultiTeam, hn, hW 0 _ _ _ h]

/-! ### Several teams -/

theorem _root_.Skillratings.Spec.WMatch.Proper.proper {M : WMatch} (h : M.Proper) : ProperMatch M.teams M.weights := by
  refine ⟨by simpa [WMatch.teams] using h.two, ?_, by simp [WMatch.teams, WMatch.weights], ?_, ?_⟩
  · intro t ht
    obtain ⟨s, hs, rfl⟩ := List.mem_map.1 ht
    simpa using h.players s hs
  · intro l hl w hw
    obtain ⟨s, hs, rfl⟩ := List.mem_map.1 hl
    obtain ⟨p, hp, rfl⟩ := List.mem_map.1 hw
    exact h.weights s hs p hp
  · intro t ht p hp
    obtain ⟨s, hs, rfl⟩ := List.mem_map.1 ht
    obtain ⟨q, hq, rfl⟩ := List.mem_map.1 hp
    exact h.uncertainty s hs q hq

theorem teamAt_wmatch (M : WMatch) (τ : ℝ) (i : ℕ) :
    teamAt τ M.teams M.weights i = M.at τ i := by
  simp only [teamAt, WMatch.at, WMatch.teams, WMatch.weights, List.getD_eq_getElem?_getD,
    List.getElem?_map, fgTeam]
  cases M[i]? with
  | none => rfl
  | some t => simp [List.zipWith_map, List.zipWith_self]

/-- The result of a match, by what is heard of the teams. -/
theorem wmatch_read {M : WMatch} (cfg : TrueSkillConfig ℝ) (h : M.Proper) {idx : List ℕ}
    (hidx : Standing (M.map (·.2.rank)) idx) {x : ℕ → Info}
    (hx : (leagueOf cfg.drawProbability cfg.beta (idx.map (M.at cfg.dynamicsFactor))).heard
      = some x) :
    trueskillMultiTeam M.teams cfg (some M.weights) = .ok (.ok (M.mapIdx fun i t => t.1.map fun p =>
      chainUpdate (fgMean (M.at cfg.dynamicsFactor i).1)
        (fgVariance cfg.beta (M.at cfg.dynamicsFactor i).1) (x (idx.idxOf i))
        (fgPlayer cfg.dynamicsFactor p.1 p.2))) := by
  have hidx' : Standing (M.teams.map (·.2.rank)) idx := by
    simpa [WMatch.teams, Function.comp_def] using hidx
  have e : teamAt cfg.dynamicsFactor M.teams M.weights = M.at cfg.dynamicsFactor :=
    funext (teamAt_wmatch M _)
  obtain ⟨r, hr, hrl, hread⟩ := C97_trueskill_multi_chain_weighted M.teams M.weights cfg h.proper
    idx hidx' _ (by rw [e, chainUpdates, hx]; rfl)
  rw [hr]
  congr 2
  have hlen : M.teams.length = M.length := by simp [WMatch.teams]
  apply List.ext_getElem?
  intro i
  by_cases hi : i < M.length
  · have hmem : i ∈ idx := hidx.1.mem_iff.2 (by simpa using hi)
    have hk : idx[idx.idxOf i]? = some i := by
      rw [List.getElem?_eq_getElem (List.idxOf_lt_length_iff.2 hmem), List.getElem_idxOf]
    rw [hread _ _ hk]
    simp only [List.getElem?_mapIdx, List.getElem?_map, hk, Option.map_some,
      List.getElem?_eq_getElem hi]
    congr 1
    simp only [WMatch.at, List.getD_eq_getElem?_getD, List.getElem?_eq_getElem hi,
      Option.getD_some, List.map_map, Function.comp_def]
  · rw [List.getElem?_eq_none (by omega), List.getElem?_eq_none (by simpa using hi)]

private theorem at_lineup {M M' : WMatch}
    (h : List.Forall₂ (fun a b => a.1.Perm b.1 ∧ a.2 = b.2) M M') (τ : ℝ) (i : ℕ) :
    (M.at τ i).1.Perm (M'.at τ i).1 ∧ (M.at τ i).2 = (M'.at τ i).2 := by
  simp only [WMatch.at]
  by_cases hi : i < M.length
  · have hi' : i < M'.length := by rw [← h.length_eq]; exact hi
    have := h.get hi hi'
    simp only [List.get_eq_getElem] at this
    simp only [List.getD_eq_getElem?_getD, List.getElem?_eq_getElem hi,
      List.getElem?_eq_getElem hi', Option.getD_some]
    exact ⟨this.1.map _, by rw [this.2]⟩
  · have hi' : ¬i < M'.length := by rw [← h.length_eq]; exact hi
    simp only [List.getD_eq_getElem?_getD, List.getElem?_eq_none (not_lt.1 hi),
      List.getElem?_eq_none (not_lt.1 hi')]
    simp

private theorem fg_perm {t t' : List FgPlayer} (β : ℝ) (h : t.Perm t') :
    fgMean t = fgMean t' ∧ fgVariance β t = fgVariance β t' :=
  ⟨(h.map _).sum_eq, (h.map _).sum_eq⟩

theorem league_lineup {M M' : WMatch}
    (h : List.Forall₂ (fun a b => a.1.Perm b.1 ∧ a.2 = b.2) M M') (p β τ : ℝ) (idx : List ℕ) :
    leagueOf p β (idx.map (M.at τ)) = leagueOf p β (idx.map (M'.at τ)) := by
  have e : ∀ k, ((idx.map (M.at τ)).getD k ([], 0)).1.Perm ((idx.map (M'.at τ)).getD k ([], 0)).1 ∧
      ((idx.map (M.at τ)).getD k ([], 0)).2 = ((idx.map (M'.at τ)).getD k ([], 0)).2 := by
    intro k
    simp only [List.getD_eq_getElem?_getD, List.getElem?_map]
    cases idx[k]? with
    | none => simp
    | some i => exact at_lineup h τ i
  simp only [leagueOf, List.length_map, (fg_perm β (e _).1).1, (fg_perm β (e _).1).2, (e _).2,
    (e _).1.length_eq]

/-- Any number of teams, with weights: there is one new rating for each player with their weight,
wherever they stand in the list of their team. -/
theorem C110_trueskill_multi_lineup (M M' : WMatch) (cfg : TrueSkillConfig ℝ) (hM : M.Proper)
    (h : List.Forall₂ (fun a b => a.1.Perm b.1 ∧ a.2 = b.2) M M') (idx : List ℕ)
    (hidx : Standing (M.map (·.2.rank)) idx) (g : List (List (TrueSkillRating ℝ)))
    (hg : chainUpdates cfg.drawProbability cfg.beta (idx.map (M.at cfg.dynamicsFactor)) = some g) :
    ∃ f : ℕ → TrueSkillRating ℝ × ℝ → TrueSkillRating ℝ,
      trueskillMultiTeam M.teams cfg (some M.weights)
        = .ok (.ok (M.mapIdx fun i t => t.1.map (f i))) ∧
      trueskillMultiTeam M'.teams cfg (some M'.weights)
        = .ok (.ok (M'.mapIdx fun i t => t.1.map (f i))) := by
  have hr : M.map (·.2.rank) = M'.map (·.2.rank) := by
    clear hidx hg hM
    induction h with
    | nil => rfl
    | cons h _ ih => simp only [List.map_cons, h.2, ih]
  have hmem : ∀ t' ∈ M', ∃ t ∈ M, t.1.Perm t'.1 := by
    clear hidx hg hM hr
    induction h with
    | nil => simp
    | cons h _ ih =>
      intro t' ht'
      rcases List.mem_cons.1 ht' with rfl | ht'
      · exact ⟨_, by simp, h.1⟩
      · obtain ⟨t, ht, hp⟩ := ih t' ht'
        exact ⟨t, by simp [ht], hp⟩
  have hM' : M'.Proper := by
    refine ⟨by rw [← h.length_eq]; exact hM.two, ?_, ?_, ?_⟩
    · intro t' ht'
      obtain ⟨t, ht, hp⟩ := hmem t' ht'
      exact mt (nil_of_perm hp).2 (hM.players t ht)
    · intro t' ht' p hp
      obtain ⟨t, ht, hperm⟩ := hmem t' ht'
      exact hM.weights t ht p (hperm.mem_iff.2 hp)
    · intro t' ht' p hp
      obtain ⟨t, ht, hperm⟩ := hmem t' ht'
      exact hM.uncertainty t ht p (hperm.mem_iff.2 hp)
  rw [chainUpdates, Option.map_eq_some_iff] at hg
  obtain ⟨x, hx, -⟩ := hg
  refine ⟨_, wmatch_read cfg hM hidx hx, ?_⟩
  rw [wmatch_read cfg hM' (hr ▸ hidx) (by rw [← league_lineup h]; exact hx)]
  simp only [(fg_perm cfg.beta (at_lineup h cfg.dynamicsFactor _).1).1,
    (fg_perm cfg.beta (at_lineup h cfg.dynamicsFactor _).1).2]

/-- Two pairs; the second lineup lists the players of the first team in the other order. -/
noncomputable def pairs : WMatch :=
  [([(⟨20, 25 / 3⟩, 1), (⟨30, 25 / 3⟩, 1)], .new 1), ([(⟨25, 25 / 3⟩, 1), (⟨26, 25 / 3⟩, 1)], .new 2)]

@[inherit_doc pairs] noncomputable def pairs' : WMatch :=
  [([(⟨30, 25 / 3⟩, 1), (⟨20, 25 / 3⟩, 1)], .new 1), ([(⟨25, 25 / 3⟩, 1), (⟨26, 25 / 3⟩, 1)], .new 2)]

theorem pairs_proper : pairs.Proper := by
  refine ⟨by simp [pairs], by simp [pairs], ?_, ?_⟩ <;>
    simp only [pairs, List.forall_mem_cons, List.not_mem_nil, false_imp_iff, implies_true] <;>
    norm_num

theorem pairs_standing : Standing (pairs.map (·.2.rank)) [0, 1] := by
  constructor
  · exact List.Perm.refl _
  · simp [pairs, MultiTeamOutcome.new, MultiTeamOutcome.rank]

theorem pairs_heard : ∃ g, chainUpdates cfg0.drawProbability cfg0.beta
    ([0, 1].map (pairs.at cfg0.dynamicsFactor)) = some g := by
  have hlog : √(-2 * Real.log ((1 - cfg0.drawProbability) / 2)) ≤ 2 := by
    rw [Real.sqrt_le_left (by norm_num)]
    have h : -2 ≤ Real.log ((1 - cfg0.drawProbability) / 2) := by
      rw [Real.le_log_iff_exp_le (by norm_num [cfg0])]
      have : Real.exp (-2) = Real.exp (-1) * Real.exp (-1) := by rw [← Real.exp_add]; norm_num
      rw [this]
      have h1 := Real.exp_neg_one_lt_d9
      have h2 := Real.exp_pos (-1)
      norm_num [cfg0] at h1 ⊢
      nlinarith
    linarith
  have hs2 : √(4 : ℝ) ≤ 2 := by
    rw [Real.sqrt_le_left (by norm_num)]; norm_num
  rw [← funext (teamAt_wmatch pairs cfg0.dynamicsFactor)]
  refine C97_trueskill_multi_applies cfg0 pairs_proper.proper ?_ (by norm_num [cfg0])
    (by norm_num [cfg0]) _ ?_ 50 51 172 175 80 (by norm_num) ?_ ?_ ?_ ?_
  · simp [pairs, WMatch.teams, MultiTeamOutcome.new, MultiTeamOutcome.rank]
  · simpa [WMatch.teams, Function.comp_def] using pairs_standing
  · intro i hi
    have : i = 0 ∨ i = 1 := by simp [pairs, WMatch.teams] at hi; omega
    rcases this with rfl | rfl <;>
      norm_num [teamAt_wmatch, WMatch.at, fgPlayer, fgMean, pairs]
  · intro i hi
    have : i = 0 ∨ i = 1 := by simp [pairs, WMatch.teams] at hi; omega
    rcases this with rfl | rfl <;>
      norm_num [teamAt_wmatch, WMatch.at, fgPlayer, fgVariance, pairs, cfg0]
  · intro i l hi hl
    have h1 : ∀ (k : ℕ) (hk : k < pairs.teams.length), pairs.teams[k].1.length = 2 := by
      intro k hk
      have : k = 0 ∨ k = 1 := by simp [pairs, WMatch.teams] at hk; omega
      rcases this with rfl | rfl <;> rfl
    rw [h1 i hi, h1 l hl]
    refine (C97_trueskill_multi_margin cfg0 (by norm_num [cfg0]) (by norm_num [cfg0])
      (by norm_num [cfg0]) 4).2.trans ?_
    have hβ : cfg0.beta = 25 / 6 := rfl
    rw [hβ]
    push_cast
    have := Real.sqrt_nonneg (4 : ℝ)
    nlinarith
  · have h1 : √(175 : ℝ) ≤ 14 := by
      rw [Real.sqrt_le_left (by norm_num)]; norm_num
    have h2 : (9 : ℝ) ≤ √(172 / 2) := Real.le_sqrt_of_sq_le (by norm_num)
    have h3 : (pairs.teams.length : ℝ) = 2 := by norm_num [pairs, WMatch.teams]
    rw [h3]
    linarith

example : ∃ f : ℕ → TrueSkillRating ℝ × ℝ → TrueSkillRating ℝ,
    trueskillMultiTeam pairs.teams cfg0 (some pairs.weights)
      = .ok (.ok (pairs.mapIdx fun i t => t.1.map (f i))) ∧
    trueskillMultiTeam pairs'.teams cfg0 (some pairs'.weights)
      = .ok (.ok (pairs'.mapIdx fun i t => t.1.map (f i))) := by
  obtain ⟨g, hg⟩ := pairs_heard
  exact C110_trueskill_multi_lineup pairs pairs' cfg0 pairs_proper
    (.cons ⟨List.Perm.swap _ _ _, rfl⟩ (.cons ⟨.refl _, rfl⟩ .nil)) _ pairs_standing g hg

end TrueSkill
end Skillratings
