import Verif.Proofs.ChainTies
import Verif.Props.TrueSkillTies
/-
C97 for matches with ties: `trueskill_multi_team` meets no numerically impossible result, also if
some teams tie (/repo/src/trueskill/mod.rs `trueskill_multi_team`).
-/
namespace Skillratings
namespace TrueSkill
open Spec

/-- Places where a sorted sequence changes: fewer than it has values. -/
theorem changes_lt (f : ℕ → ℕ) (n : ℕ) (hf : ∀ k ≤ n, ∀ l ≤ n, k ≤ l → f k ≤ f l) :
    ((Finset.range n).filter fun k => f k ≠ f (k + 1)).card + 1 ≤ ((Finset.range (n + 1)).image f).card := by
  induction n with
  | zero => simp
  | succ n ih =>
    have ih := ih fun k hk l hl => hf k (by omega) l (by omega)
    rw [Finset.range_add_one (n := n), Finset.filter_insert,
      Finset.range_add_one (n := n + 1), Finset.image_insert]
    split_ifs with h
    · rw [Finset.card_insert_of_notMem (by simp), Finset.card_insert_of_notMem]
      · omega
      · intro hm
        obtain ⟨k, hk, e⟩ := Finset.mem_image.1 hm
        have h1 := hf k (by have := Finset.mem_range.1 hk; omega) n (by omega)
          (by have := Finset.mem_range.1 hk; omega)
        have h2 := hf n (by omega) (n + 1) le_rfl (by omega)
        omega
    · exact ih.trans (Finset.card_le_card (Finset.subset_insert _ _))

section
variable {ts : List (List (TrueSkillRating ℝ) × MultiTeamOutcome)} {ws : List (List ℝ)}

/-- The ranks along the table. -/
def rankAt (ts : List (List (TrueSkillRating ℝ) × MultiTeamOutcome)) (idx : List ℕ) (k : ℕ) : ℕ :=
  (ts.map (·.2.rank)).getD (idx.getD k 0) 0

theorem rankAt_mono {idx : List ℕ} (hidx : Standing (ts.map (·.2.rank)) idx) {k l : ℕ} (hkl : k ≤ l)
    (hl : l < idx.length) : rankAt ts idx k ≤ rankAt ts idx l := by
  rcases Nat.eq_or_lt_of_le hkl with rfl | h
  · exact le_rfl
  have := List.pairwise_iff_getElem.1 hidx.2 k l (by omega) hl h
  simp only [rankAt, List.getD_eq_getElem?_getD (l := idx), List.getElem?_eq_getElem hl,
    List.getElem?_eq_getElem (show k < idx.length by omega), Option.getD_some]
  omega

theorem rankAt_league {idx : List ℕ} (hidx : Standing (ts.map (·.2.rank)) idx) (τ : ℝ) {k : ℕ}
    (hk : k < idx.length) :
    ((idx.map (teamAt τ ts ws)).getD k ([], 0)).2 = rankAt ts idx k := by
  rw [ranked_at τ hk, teamAt_rank τ (standing_lt hidx _), rankAt, List.getD_eq_getElem?_getD (l := idx),
    List.getElem?_eq_getElem hk, Option.getD_some]

/-- A match of teams that are not too far apart never meets a numerically impossible result, ties or
not, so the theorems of C97, C98 and C104 apply.  With the reach
`R = spread + 3.01 (n - 1) ε + 4 (d - 1) √Qmax`, where `d` is the number of different ranks, it
suffices that `R ≤ 50 √(Qmin/n)` and that the draw margin of any two teams with the same rank is at
least one percent of `R + √(2 Qmax)`. -/
theorem C97_trueskill_multi_applies_ties (cfg : TrueSkillConfig ℝ) (h : ProperMatch ts ws)
    (hp0 : 0 ≤ cfg.drawProbability) (hβ : 0 ≤ cfg.beta) (idx : List ℕ)
    (hidx : Standing (ts.map (·.2.rank)) idx) (lo hi Qmin Qmax ε R : ℝ) (hQ0 : 0 < Qmin)
    (hM : ∀ i < ts.length, lo ≤ fgMean (teamAt cfg.dynamicsFactor ts ws i).1 ∧
      fgMean (teamAt cfg.dynamicsFactor ts ws i).1 ≤ hi)
    (hQ : ∀ i < ts.length, Qmin ≤ fgVariance cfg.beta (teamAt cfg.dynamicsFactor ts ws i).1 ∧
      fgVariance cfg.beta (teamAt cfg.dynamicsFactor ts ws i).1 ≤ Qmax)
    (hε : ∀ (i l : ℕ) (_ : i < ts.length) (_ : l < ts.length),
      tsMargin cfg.drawProbability cfg.beta (ts[i].1.length + ts[l].1.length) ≤ ε)
    (hR : R = hi - lo + 3.01 * (ts.length - 1) * ε
      + ((ts.map (·.2.rank)).toFinset.card - 1) * (4 * √Qmax))
    (htie : ∀ (i l : ℕ) (_ : i < ts.length) (_ : l < ts.length), i ≠ l → ts[i].2.rank = ts[l].2.rank →
      √(2 * Qmax) + R ≤ 100 * tsMargin cfg.drawProbability cfg.beta (ts[i].1.length + ts[l].1.length))
    (hcond : R ≤ 50 * √(Qmin / ts.length)) :
    ∃ g, chainUpdates cfg.drawProbability cfg.beta
      (idx.map (teamAt cfg.dynamicsFactor ts ws)) = some g := by
  classical
  have hlen : idx.length = ts.length := by simpa using hidx.1.length_eq
  have h2 := h.two
  have hn : (leagueOf cfg.drawProbability cfg.beta
      (idx.map (teamAt cfg.dynamicsFactor ts ws))).n = idx.length := by simp [leagueOf]
  have hQp := fun k (hk : k < idx.length) =>
    teamAt_variance h cfg.dynamicsFactor cfg.beta (standing_lt hidx hk)
  have hε0 : 0 ≤ ε := (tsMargin_nonneg hp0 hβ _).trans (hε 0 0 (by omega) (by omega))
  have hmargin : ∀ k (hk : k + 1 < idx.length), (leagueOf cfg.drawProbability cfg.beta
      (idx.map (teamAt cfg.dynamicsFactor ts ws))).margin k
      = tsMargin cfg.drawProbability cfg.beta (ts[idx[k]]'(standing_lt hidx (by omega)) |>.1.length
        |> (· + (ts[idx[k + 1]]'(standing_lt hidx hk)).1.length)) := by
    intro k hk
    simp only [leagueOf, ranked_at cfg.dynamicsFactor (by omega : k < idx.length),
      ranked_at cfg.dynamicsFactor hk]
    rw [teamAt_length h _ (standing_lt hidx _), teamAt_length h _ (standing_lt hidx _)]
  obtain ⟨s, hs⟩ : ∃ s : ℕ → ℝ, s = fun k =>
    if rankAt ts idx k = rankAt ts idx (k + 1) then 0 else 2 * √2 * √(2 * Qmax) := ⟨_, rfl⟩
  have h4 : 2 * √2 * √(2 * Qmax) = 4 * √Qmax := by
    rw [Real.sqrt_mul (by norm_num)]
    have : √2 * √2 = (2 : ℝ) := Real.mul_self_sqrt (by norm_num)
    linear_combination (2 * √Qmax) * this
  have hsum : ∑ j ∈ Finset.range (idx.length - 1), s j
      ≤ ((ts.map (·.2.rank)).toFinset.card - 1) * (4 * √Qmax) := by
    rw [hs, ← h4]
    simp only [← ite_not (rankAt _ _ _ = _)]
    rw [← Finset.sum_filter, Finset.sum_const, nsmul_eq_mul]
    refine mul_le_mul_of_nonneg_right ?_ (by positivity)
    have k1 := changes_lt (rankAt ts idx) (idx.length - 1) fun k hk l hl hkl =>
      rankAt_mono hidx hkl (by omega)
    have k2 : ((Finset.range (idx.length - 1 + 1)).image (rankAt ts idx)).card
        ≤ (ts.map (·.2.rank)).toFinset.card := by
      refine Finset.card_le_card fun r hr => ?_
      obtain ⟨k, hk, rfl⟩ := Finset.mem_image.1 hr
      have hk' : k < idx.length := by have := Finset.mem_range.1 hk; omega
      have hlt := standing_lt hidx hk'
      rw [List.mem_toFinset, rankAt, List.getD_eq_getElem?_getD (l := idx), List.getElem?_eq_getElem hk',
        Option.getD_some, List.getD_eq_getElem?_getD, List.getElem?_eq_getElem (by simpa using hlt),
        Option.getD_some]
      exact List.getElem_mem _
    have k3 : ((((Finset.range (idx.length - 1)).filter fun k =>
      rankAt ts idx k ≠ rankAt ts idx (k + 1)).card + 1 : ℕ) : ℝ) ≤ (ts.map (·.2.rank)).toFinset.card :=
      Nat.cast_le.2 (k1.trans k2)
    push_cast at k3
    linarith
  have hnr : ((leagueOf cfg.drawProbability cfg.beta
      (idx.map (teamAt cfg.dynamicsFactor ts ws))).n : ℝ) = ts.length := by rw [hn, hlen]
  have hreach : hi - lo + 3 * (ts.length - 1) * (1.002 * ε)
      + ∑ j ∈ Finset.range (idx.length - 1), s j ≤ R := by
    rw [hR]
    have : (0 : ℝ) ≤ (ts.length - 1) * ε := by
      have : ((2 : ℕ) : ℝ) ≤ ts.length := Nat.cast_le.2 h2
      push_cast at this
      exact mul_nonneg (by linarith) hε0
    norm_num
    linarith
  have hmix : Mixed (leagueOf cfg.drawProbability cfg.beta
      (idx.map (teamAt cfg.dynamicsFactor ts ws))) lo hi (1 / Qmin) Qmax (1.002 * ε) s := by
    refine ⟨by omega, fun k hk => ?_, fun k => ?_, fun k hk => ?_, league_pos h _ _ _ hidx,
      fun k hk => ?_, fun k hk => ?_, fun k hk => ?_, fun k hk => ?_⟩
    · rw [hn] at hk
      have e1 := rankAt_league (ws := ws) hidx cfg.dynamicsFactor (k := k) (by omega)
      have e2 := rankAt_league (ws := ws) hidx cfg.dynamicsFactor hk
      by_cases hr : rankAt ts idx k = rankAt ts idx (k + 1)
      · right
        have hr' : ((idx.map (teamAt cfg.dynamicsFactor ts ws)).getD k ([], 0)).2
          = ((idx.map (teamAt cfg.dynamicsFactor ts ws)).getD (k + 1) ([], 0)).2 := by rw [e1, e2, hr]
        refine ⟨if_pos hr', if_pos hr', by rw [hs]; exact if_pos hr, ?_⟩
        rw [hnr, hn, hmargin k hk]
        refine le_trans ?_ (htie _ _ (standing_lt hidx _) (standing_lt hidx _) ?_ ?_)
        · linarith
        · intro e
          have := (hidx.1.nodup_iff.2 List.nodup_range).getElem_inj_iff.1 e
          omega
        · simpa [rankAt, List.getD_eq_getElem?_getD, hk, (show k < idx.length by omega),
            standing_lt hidx hk, standing_lt hidx (show k < idx.length by omega)] using hr
      · left
        have hr' : ((idx.map (teamAt cfg.dynamicsFactor ts ws)).getD k ([], 0)).2
          ≠ ((idx.map (teamAt cfg.dynamicsFactor ts ws)).getD (k + 1) ([], 0)).2 := by rwa [e1, e2]
        exact ⟨if_neg hr', if_neg hr', by rw [hs]; exact if_neg hr⟩
    · rw [hs]
      dsimp only
      split_ifs
      · exact le_rfl
      · positivity
    · rw [hn] at hk
      rw [hmargin k hk]
      refine ⟨tsMargin_nonneg hp0 hβ _, mul_le_mul_of_nonneg_left (hε _ _ _ _) (by norm_num)⟩
    · rw [hn] at hk
      rw [league_team _ _ _ hk, of_mean (hQp k hk)]
      exact (hM _ (standing_lt hidx hk)).1
    · rw [hn] at hk
      rw [league_team _ _ _ hk, of_mean (hQp k hk)]
      exact (hM _ (standing_lt hidx hk)).2
    · rw [hn] at hk
      rw [league_team _ _ _ hk]
      exact one_div_le_one_div_of_le hQ0 (hQ _ (standing_lt hidx hk)).1
    · rw [hn] at hk
      rw [league_team _ _ _ hk, of_variance]
      exact (hQ _ (standing_lt hidx hk)).2
  obtain ⟨x, hx⟩ := heard_mixed hmix (by
    rw [reach, hnr, hn]
    refine hreach.trans (hcond.trans (le_of_eq ?_))
    congr 2
    field_simp)
  exact ⟨_, by rw [chainUpdates, hx]; rfl⟩

/-- In terms of the call: such a match is rated, without panic and without error, and the result is
that of the chain of messages. -/
theorem C97_trueskill_multi_ties_rated (cfg : TrueSkillConfig ℝ) (h : ProperMatch ts ws)
    (hp0 : 0 ≤ cfg.drawProbability) (hβ : 0 ≤ cfg.beta) (lo hi Qmin Qmax ε R : ℝ) (hQ0 : 0 < Qmin)
    (hM : ∀ i < ts.length, lo ≤ fgMean (teamAt cfg.dynamicsFactor ts ws i).1 ∧
      fgMean (teamAt cfg.dynamicsFactor ts ws i).1 ≤ hi)
    (hQ : ∀ i < ts.length, Qmin ≤ fgVariance cfg.beta (teamAt cfg.dynamicsFactor ts ws i).1 ∧
      fgVariance cfg.beta (teamAt cfg.dynamicsFactor ts ws i).1 ≤ Qmax)
    (hε : ∀ (i l : ℕ) (_ : i < ts.length) (_ : l < ts.length),
      tsMargin cfg.drawProbability cfg.beta (ts[i].1.length + ts[l].1.length) ≤ ε)
    (hR : R = hi - lo + 3.01 * (ts.length - 1) * ε
      + ((ts.map (·.2.rank)).toFinset.card - 1) * (4 * √Qmax))
    (htie : ∀ (i l : ℕ) (_ : i < ts.length) (_ : l < ts.length), i ≠ l → ts[i].2.rank = ts[l].2.rank →
      √(2 * Qmax) + R ≤ 100 * tsMargin cfg.drawProbability cfg.beta (ts[i].1.length + ts[l].1.length))
    (hcond : R ≤ 50 * √(Qmin / ts.length)) :
    ∃ idx g r, Standing (ts.map (·.2.rank)) idx ∧
      chainUpdates cfg.drawProbability cfg.beta (idx.map (teamAt cfg.dynamicsFactor ts ws)) = some g ∧
      trueskillMultiTeam ts cfg (some ws) = .ok (.ok r) ∧ r.length = ts.length ∧
      ∀ k i : ℕ, idx[k]? = some i → r[i]? = g[k]? := by
  obtain ⟨idx, hidx⟩ : ∃ idx, Standing (ts.map (·.2.rank)) idx := 
    ⟨_, sort_standing ts ws (by simpa using congrArg List.length h.shape)⟩
  obtain ⟨g, hg⟩ := C97_trueskill_multi_applies_ties cfg h hp0 hβ idx hidx lo hi Qmin Qmax ε R hQ0 hM hQ hε hR
    htie hcond
  obtain ⟨r, hr⟩ := C97_trueskill_multi_chain_weighted ts ws cfg h idx hidx g hg
  exact ⟨idx, g, r, hidx, hg, hr⟩

/-- Without weights. -/
theorem C97_trueskill_multi_ties_rated_unweighted (cfg : TrueSkillConfig ℝ) (h2 : 2 ≤ ts.length)
    (hne : ∀ t ∈ ts, t.1 ≠ []) (hu : ∀ t ∈ ts, ∀ p ∈ t.1, p.uncertainty ≠ 0)
    (hw : ws = ts.map fun t => List.replicate t.1.length 1)
    (hp0 : 0 ≤ cfg.drawProbability) (hβ : 0 ≤ cfg.beta) (lo hi Qmin Qmax ε R : ℝ) (hQ0 : 0 < Qmin)
    (hM : ∀ i < ts.length, lo ≤ fgMean (teamAt cfg.dynamicsFactor ts ws i).1 ∧
      fgMean (teamAt cfg.dynamicsFactor ts ws i).1 ≤ hi)
    (hQ : ∀ i < ts.length, Qmin ≤ fgVariance cfg.beta (teamAt cfg.dynamicsFactor ts ws i).1 ∧
      fgVariance cfg.beta (teamAt cfg.dynamicsFactor ts ws i).1 ≤ Qmax)
    (hε : ∀ (i l : ℕ) (_ : i < ts.length) (_ : l < ts.length),
      tsMargin cfg.drawProbability cfg.beta (ts[i].1.length + ts[l].1.length) ≤ ε)
    (hR : R = hi - lo + 3.01 * (ts.length - 1) * ε
      + ((ts.map (·.2.rank)).toFinset.card - 1) * (4 * √Qmax))
    (htie : ∀ (i l : ℕ) (_ : i < ts.length) (_ : l < ts.length), i ≠ l → ts[i].2.rank = ts[l].2.rank →
      √(2 * Qmax) + R ≤ 100 * tsMargin cfg.drawProbability cfg.beta (ts[i].1.length + ts[l].1.length))
    (hcond : R ≤ 50 * √(Qmin / ts.length)) :
    ∃ idx g r, Standing (ts.map (·.2.rank)) idx ∧
      chainUpdates cfg.drawProbability cfg.beta (idx.map (teamAt cfg.dynamicsFactor ts ws)) = some g ∧
      trueskillMultiTeam ts cfg none = .ok (.ok r) ∧ r.length = ts.length ∧
      ∀ k i : ℕ, idx[k]? = some i → r[i]? = g[k]? := by
  rw [multi_ones ts cfg h2 hne hu, ← hw]
  exact C97_trueskill_multi_ties_rated cfg (hw ▸ proper_ones h2 hne hu) hp0 hβ lo hi Qmin Qmax ε R hQ0 hM hQ
    hε hR htie hcond

end

/-- Three experienced players with the default configuration: two share the first place. -/
noncomputable def podium : List (List (TrueSkillRating ℝ) × MultiTeamOutcome) :=
  [([⟨25, 1⟩], .new 1), ([⟨24, 1⟩], .new 2), ([⟨26, 1⟩], .new 1)]

theorem podium_proper : ProperMatch podium [[1], [1], [1]] := by
  refine ⟨by simp [podium], by simp [podium], by simp [podium], by simp, ?_⟩
  simp [podium]

theorem podium_standing : Standing (podium.map (·.2.rank)) [0, 2, 1] := by
  constructor
  · exact (List.Perm.swap _ _ _).cons _
  · simp [podium, MultiTeamOutcome.new, MultiTeamOutcome.rank]

theorem podium_heard : ∃ g, chainUpdates cfg0.drawProbability cfg0.beta
    ([0, 2, 1].map (teamAt cfg0.dynamicsFactor podium [[1], [1], [1]])) = some g := by
  have hl : ∀ (k : ℕ) (hk : k < podium.length), podium[k].1.length = 1 := by
    intro k hk
    have : k = 0 ∨ k = 1 ∨ k = 2 := by simp [podium] at hk; omega
    rcases this with rfl | rfl | rfl <;> rfl
  have h3 : (podium.length : ℝ) = 3 := by norm_num [podium]
  have hd : (podium.map (·.2.rank)).toFinset.card = 2 := by
    simp only [podium, MultiTeamOutcome.new, MultiTeamOutcome.rank, List.map_cons, List.map_nil]
    decide
  have h1 : √(18.4 : ℝ) ≤ 4.29 := by
    rw [Real.sqrt_le_left (by norm_num)]; norm_num
  have h1' : √(2 * 18.4 : ℝ) ≤ 6.07 := by
    rw [Real.sqrt_le_left (by norm_num)]; norm_num
  have hR : (26 - 24 + 3.01 * ((podium.length : ℝ) - 1) * 2.5
      + ((podium.map (·.2.rank)).toFinset.card - 1) * (4 * √18.4)) ≤ 34.3 := by
    rw [h3, hd]
    norm_num at h1 ⊢
    linarith
  refine C97_trueskill_multi_applies_ties cfg0 podium_proper (by norm_num [cfg0])
    (by norm_num [cfg0]) _ podium_standing 24 26 18.3 18.4 2.5 _ (by norm_num) ?_ ?_ ?_ rfl ?_ ?_
  · intro i hi
    have : i = 0 ∨ i = 1 ∨ i = 2 := by simp [podium] at hi; omega
    rcases this with rfl | rfl | rfl <;>
      norm_num [teamAt, fgTeam, fgPlayer, fgMean, podium]
  · intro i hi
    have : i = 0 ∨ i = 1 ∨ i = 2 := by simp [podium] at hi; omega
    rcases this with rfl | rfl | rfl <;>
      norm_num [teamAt, fgTeam, fgPlayer, fgVariance, podium, cfg0]
  · intro i l hi hl'
    rw [hl i hi, hl l hl']
    exact (margin_tenth (β := 25 / 6) (by norm_num)).2.trans (by norm_num)
  · intro i l hi hl' _ _
    rw [hl i hi, hl l hl']
    have := (margin_tenth (β := 25 / 6) (by norm_num)).1
    have e : tsMargin cfg0.drawProbability cfg0.beta (1 + 1) = tsMargin (1 / 10) (25 / 6) 2 := rfl
    rw [e]
    linarith
  · refine hR.trans ?_
    have h2 : (2 : ℝ) ≤ √(18.3 / 3) := Real.le_sqrt_of_sq_le (by norm_num)
    rw [h3]
    linarith

/-- The match is rated. -/
example : ∃ r, trueskillMultiTeam podium cfg0 (some [[1], [1], [1]]) = .ok (.ok r) ∧ r.length = 3 := by
  obtain ⟨g, hg⟩ := podium_heard
  obtain ⟨r, hr, hl, -⟩ := C97_trueskill_multi_chain_weighted podium _ cfg0 podium_proper _ podium_standing g hg
  exact ⟨r, hr, hl⟩

end TrueSkill
end Skillratings
