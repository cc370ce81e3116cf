import Verif.Props.Lineup
import Verif.Proofs.ChainShift
/-
C109 for matches of several teams: the zero point of the TrueSkill scale is a convention.  (Its
unit is not: the messages between the teams stop when they change by less than 0.0001.)
-/
namespace Skillratings
namespace TrueSkill
open Spec

/-- The match with all ratings moved by `t`. -/
def shiftMatch (t : ℝ) (M : WMatch) : WMatch :=
  M.map fun x => (x.1.map fun p => (⟨p.1.rating + t, p.1.uncertainty⟩, p.2), x.2)

private theorem shift_proper {M : WMatch} (h : M.Proper) (t : ℝ) : (shiftMatch t M).Proper := by
  refine ⟨by simpa [shiftMatch] using h.two, ?_, ?_, ?_⟩
  · intro x hx
    obtain ⟨y, hy, rfl⟩ := List.mem_map.1 hx
    simpa using h.players y hy
  · intro x hx p hp
    obtain ⟨y, hy, rfl⟩ := List.mem_map.1 hx
    obtain ⟨q, hq, rfl⟩ := List.mem_map.1 hp
    exact h.weights y hy q hq
  · intro x hx p hp
    obtain ⟨y, hy, rfl⟩ := List.mem_map.1 hx
    obtain ⟨q, hq, rfl⟩ := List.mem_map.1 hp
    exact h.uncertainty y hy q hq

private theorem at_shift (M : WMatch) (t τ : ℝ) (i : ℕ) :
    (shiftMatch t M).at τ i = ((M.at τ i).1.map fun p => ⟨p.μ + t, p.s, p.w⟩, (M.at τ i).2) := by
  simp only [WMatch.at, shiftMatch, List.getD_eq_getElem?_getD, List.getElem?_map]
  cases M[i]? with
  | none => simp
  | some x => simp [Function.comp_def, fgPlayer]

private theorem mean_shift (T : List FgPlayer) (t : ℝ) :
    fgMean (T.map fun p => ⟨p.μ + t, p.s, p.w⟩) = fgMean T + (T.map (·.w)).sum * t := by
  induction T with
  | nil => simp [fgMean]
  | cons p T ih =>
    simp only [fgMean, List.map_cons, List.sum_cons, List.map_map] at ih ⊢
    rw [ih]; ring

private theorem variance_shift (β : ℝ) (T : List FgPlayer) (t : ℝ) :
    fgVariance β (T.map fun p => ⟨p.μ + t, p.s, p.w⟩) = fgVariance β T := by
  simp only [fgVariance, List.map_map, Function.comp_def]

private theorem weight_sum {M : WMatch} {W : ℝ} (hW : ∀ x ∈ M, (x.1.map Prod.snd).sum = W)
    (τ : ℝ) {i : ℕ} (hi : i < M.length) : ((M.at τ i).1.map (·.w)).sum = W := by
  rw [← hW _ (List.getElem_mem hi)]
  simp [WMatch.at, List.getD_eq_getElem?_getD, List.getElem?_eq_getElem hi, Function.comp_def,
    fgPlayer]

private theorem at_pos {M : WMatch} (h : M.Proper) (τ β : ℝ) {i : ℕ} (hi : i < M.length) :
    0 < fgVariance β (M.at τ i).1 := by
  rw [← teamAt_wmatch]
  exact teamAt_variance h.proper τ β (by simpa [WMatch.teams] using hi)

private theorem league_shift {M : WMatch} (p β τ t : ℝ) {W : ℝ}
    (hW : ∀ x ∈ M, (x.1.map Prod.snd).sum = W) {idx : List ℕ}
    (hidx : ∀ i ∈ idx, i < M.length) :
    leagueOf p β (idx.map ((shiftMatch t M).at τ)) = shiftL (W * t) (leagueOf p β (idx.map (M.at τ))) := by
  have e : ∀ k, (idx.map ((shiftMatch t M).at τ)).getD k ([], 0) =
      ((((idx.map (M.at τ)).getD k ([], 0)).1.map fun p => ⟨p.μ + t, p.s, p.w⟩),
        ((idx.map (M.at τ)).getD k ([], 0)).2) := by
    intro k
    simp only [List.getD_eq_getElem?_getD, List.getElem?_map]
    cases idx[k]? with
    | none => simp
    | some i => exact at_shift M t τ i
  simp only [leagueOf, shiftL, e, List.length_map, variance_shift, mean_shift, shiftI_of]
  congr 1
  funext k
  by_cases hk : k < idx.length
  · have : (idx.map (M.at τ)).getD k ([], 0) = M.at τ idx[k] := by
      simp [List.getD_eq_getElem?_getD, List.getElem?_eq_getElem hk]
    rw [this, weight_sum hW τ (hidx _ (List.getElem_mem hk))]
  · have : (idx.map (M.at τ)).getD k ([], 0) = ([], 0) := by
      simp [List.getD_eq_getElem?_getD, List.getElem?_eq_none (not_lt.1 hk)]
    rw [this]
    simp [fgVariance, Info.of]

/-- Several teams, the weights of every team with the same sum (without weights: teams of the same
size): moving all ratings moves the new ratings and leaves the uncertainties. -/
theorem C109_trueskill_multi_zero_point (M : WMatch) (cfg : TrueSkillConfig ℝ) (hM : M.Proper)
    (W : ℝ) (hW : ∀ x ∈ M, (x.1.map Prod.snd).sum = W) (t : ℝ) (idx : List ℕ)
    (hidx : Standing (M.map (·.2.rank)) idx) (g : List (List (TrueSkillRating ℝ)))
    (hg : chainUpdates cfg.drawProbability cfg.beta (idx.map (M.at cfg.dynamicsFactor)) = some g) :
    ∃ r, trueskillMultiTeam M.teams cfg (some M.weights) = .ok (.ok r) ∧
      trueskillMultiTeam (shiftMatch t M).teams cfg (some (shiftMatch t M).weights) =
        .ok (.ok (r.map (List.map fun q => ⟨q.rating + t, q.uncertainty⟩))) := by
  rw [chainUpdates, Option.map_eq_some_iff] at hg
  obtain ⟨x, hx, -⟩ := hg
  have hr : (shiftMatch t M).map (·.2.rank) = M.map (·.2.rank) := by
    simp [shiftMatch, Function.comp_def]
  have hlt : ∀ i ∈ idx, i < M.length := fun i hi => by
    simpa using hidx.1.mem_iff.1 hi
  have hlen : idx.length = M.length := by simpa using hidx.1.length_eq
  have hn : 2 ≤ (leagueOf cfg.drawProbability cfg.beta (idx.map (M.at cfg.dynamicsFactor))).n := by
    simpa [leagueOf, hlen] using hM.two
  have hpos : ∀ k < (leagueOf cfg.drawProbability cfg.beta (idx.map (M.at cfg.dynamicsFactor))).n,
      0 < ((leagueOf cfg.drawProbability cfg.beta (idx.map (M.at cfg.dynamicsFactor))).team k).prec := by
    intro k hk
    have hk' : k < idx.length := by simpa [leagueOf] using hk
    have : (idx.map (M.at cfg.dynamicsFactor)).getD k ([], 0) = M.at cfg.dynamicsFactor idx[k] := by
      simp [List.getD_eq_getElem?_getD, List.getElem?_eq_getElem hk']
    simp only [leagueOf, this]
    exact of_prec_pos _ (at_pos hM _ _ (hlt _ (List.getElem_mem hk')))
  refine ⟨_, wmatch_read cfg hM hidx hx, ?_⟩
  rw [wmatch_read cfg (shift_proper hM t) (by rw [hr]; exact hidx)
    (x := fun k => shiftI (W * t) (x k))
    (by rw [league_shift _ _ _ _ hW hlt, heard_shift _ hn hpos, hx]; rfl)]
  congr 2
  apply List.ext_getElem?
  intro i
  simp only [List.getElem?_mapIdx, List.getElem?_map, shiftMatch]
  by_cases hi : i < M.length
  · have hxp : 0 < (x (idx.idxOf i)).prec := by
      have hmem : i ∈ idx := hidx.1.mem_iff.2 (by simpa using hi)
      exact heard_pos hn hpos hx _ (by simpa [leagueOf] using List.idxOf_lt_length_iff.2 hmem)
    simp only [List.getElem?_eq_getElem hi, Option.map_some, List.map_map, Function.comp_def]
    congr 1
    apply List.map_congr_left
    intro p _
    have e := at_shift M t cfg.dynamicsFactor i
    rw [shiftMatch] at e
    rw [e]
    simp only [mean_shift, variance_shift, weight_sum hW _ hi, chainUpdate, fgPlayer,
      shiftI_mean _ hxp, shiftI_variance]
    congr 1
    ring
  · simp only [List.getElem?_eq_none (not_lt.1 hi)]
    rfl

example (t : ℝ) : ∃ r, trueskillMultiTeam pairs.teams cfg0 (some pairs.weights) = .ok (.ok r) ∧
    trueskillMultiTeam (shiftMatch t pairs).teams cfg0 (some (shiftMatch t pairs).weights) =
      .ok (.ok (r.map (List.map fun q => ⟨q.rating + t, q.uncertainty⟩))) := by
  obtain ⟨g, hg⟩ := pairs_heard
  exact C109_trueskill_multi_zero_point pairs cfg0 pairs_proper 2
    (by simp only [pairs, List.forall_mem_cons, List.not_mem_nil, false_imp_iff, implies_true]
        norm_num) t _ pairs_standing g hg

end TrueSkill
end Skillratings
