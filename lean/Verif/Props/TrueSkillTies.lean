import Verif.Proofs.ChainEnds
import Verif.Props.TrueSkillChain
/-
C104: equal teams with equal results get different new ratings from `trueskill_multi_team`
(/repo/src/trueskill/mod.rs `trueskill_multi_team`, /repo/src/trueskill/factor_graph.rs).
-/
namespace Skillratings
namespace TrueSkill
open Spec

section
variable {ts : List (List (TrueSkillRating ℝ) × MultiTeamOutcome)} {ws : List (List ℝ)}

/-- More knowledge of the team leaves its players less uncertain. -/
theorem chainUpdate_lt {M Q a : ℝ} {h₁ h₂ : Info} {p : FgPlayer} (hs : 0 < p.s) (hw : 0 < p.w)
    (ha : p.w ^ 2 * p.s ≤ a) (hQ : a ≤ Q) (h1 : 0 < h₁.prec) (h12 : h₁.prec < h₂.prec) :
    (chainUpdate M Q h₂ p).uncertainty < (chainUpdate M Q h₁ p).uncertainty := by
  have hws : 0 < p.w ^ 2 * p.s := by positivity
  have hv1 : 0 < h₁.variance := variance_pos h1
  have hv2 : 0 < h₂.variance := variance_pos (h1.trans h12)
  have hv : h₂.variance < h₁.variance := by
    rw [Info.variance, Info.variance]
    exact one_div_lt_one_div_of_lt h1 h12
  simp only [chainUpdate]
  have hlt : p.w ^ 2 * p.s / (h₁.variance + Q) < p.w ^ 2 * p.s / (h₂.variance + Q) := by
    apply div_lt_div_of_pos_left hws (by linarith) (by linarith)
  have hle : p.w ^ 2 * p.s / (h₂.variance + Q) ≤ 1 := by
    rw [div_le_one (by linarith)]; linarith
  apply Real.sqrt_lt_sqrt
  · exact mul_nonneg hs.le (by linarith)
  · exact mul_lt_mul_of_pos_left (by linarith) hs

theorem mem_of_getD {i j : ℕ} {p : TrueSkillRating ℝ}
    (hp : (ts.getD i ([], .new 0)).1[j]? = some p) : i < ts.length := by
  by_contra hi
  rw [List.getD_eq_getElem?_getD, List.getElem?_eq_none (not_lt.1 hi)] at hp
  simp at hp

/-- In a match of three or more teams: if the teams in the first two places have the same players
with the same weights, then each player of the team in first place ends more uncertain than the
same player in second place.  Tied teams are placed in the order of the input. -/
theorem C104_trueskill_multi_first_two (cfg : TrueSkillConfig ℝ) (h : ProperMatch ts ws)
    (h3 : 3 ≤ ts.length) (idx : List ℕ) (hidx : Standing (ts.map (·.2.rank)) idx)
    (g : List (List (TrueSkillRating ℝ)))
    (hg : chainUpdates cfg.drawProbability cfg.beta
      (idx.map (teamAt cfg.dynamicsFactor ts ws)) = some g) (a b : ℕ)
    (ha : idx[0]? = some a) (hb : idx[1]? = some b)
    (hp : (ts.getD a ([], .new 0)).1 = (ts.getD b ([], .new 0)).1)
    (hw : ws.getD a [] = ws.getD b []) :
    ∃ r, trueskillMultiTeam ts cfg (some ws) = .ok (.ok r) ∧
      ∀ (j : ℕ) (p : TrueSkillRating ℝ) (w : ℝ), (ts.getD a ([], .new 0)).1[j]? = some p →
        (ws.getD a [])[j]? = some w →
        ∃ p₁ p₂, (r.getD a [])[j]? = some p₁ ∧ (r.getD b [])[j]? = some p₂ ∧
          p₂.uncertainty < p₁.uncertainty := by
  obtain ⟨x, hheard, hx, r, hr, hread⟩ := chain_read cfg h hidx hg
  refine ⟨r, hr, fun j p w hpj hwj => ?_⟩
  have hlen : idx.length = ts.length := by simpa using hidx.1.length_eq
  refine ⟨_, _, hread 0 a ha j p w hpj hwj, hread 1 b hb j p w (hp ▸ hpj) (hw ▸ hwj), ?_⟩
  have ht : (teamAt cfg.dynamicsFactor ts ws a).1 = (teamAt cfg.dynamicsFactor ts ws b).1 := by
    simp only [teamAt]; rw [hp, hw]
  have hq := (heard_ends (by simpa [leagueOf, hlen] using h3) (league_pos h _ _ _ hidx) hheard).1 ?_
  · have hi := mem_of_getD hpj
    have hmem := List.mem_of_getElem? (teamAt_player cfg.dynamicsFactor hpj hwj)
    have hpos := teamAt_mem h cfg.dynamicsFactor _ hmem
    rw [← ht]
    exact chainUpdate_lt hpos.1 hpos.2 le_rfl
      (term_le_variance cfg.beta _ (teamAt_mem h cfg.dynamicsFactor) hmem) (hx 0 (by omega)) hq
  · obtain ⟨h0, e0⟩ := List.getElem?_eq_some_iff.1 ha
    obtain ⟨h1, e1⟩ := List.getElem?_eq_some_iff.1 hb
    rw [league_team _ _ _ h0, league_team _ _ _ h1, e0, e1, ht]

/-- The same at the other end: in last place a team ends more uncertain than an equal team in the
place before. -/
theorem C104_trueskill_multi_last_two (cfg : TrueSkillConfig ℝ) (h : ProperMatch ts ws)
    (h3 : 3 ≤ ts.length) (idx : List ℕ) (hidx : Standing (ts.map (·.2.rank)) idx)
    (g : List (List (TrueSkillRating ℝ)))
    (hg : chainUpdates cfg.drawProbability cfg.beta
      (idx.map (teamAt cfg.dynamicsFactor ts ws)) = some g) (a b : ℕ)
    (ha : idx[ts.length - 1]? = some a) (hb : idx[ts.length - 2]? = some b)
    (hp : (ts.getD a ([], .new 0)).1 = (ts.getD b ([], .new 0)).1)
    (hw : ws.getD a [] = ws.getD b []) :
    ∃ r, trueskillMultiTeam ts cfg (some ws) = .ok (.ok r) ∧
      ∀ (j : ℕ) (p : TrueSkillRating ℝ) (w : ℝ), (ts.getD a ([], .new 0)).1[j]? = some p →
        (ws.getD a [])[j]? = some w →
        ∃ p₁ p₂, (r.getD a [])[j]? = some p₁ ∧ (r.getD b [])[j]? = some p₂ ∧
          p₂.uncertainty < p₁.uncertainty := by
  obtain ⟨x, hheard, hx, r, hr, hread⟩ := chain_read cfg h hidx hg
  refine ⟨r, hr, fun j p w hpj hwj => ?_⟩
  have hlen : idx.length = ts.length := by simpa using hidx.1.length_eq
  refine ⟨_, _, hread _ a ha j p w hpj hwj, hread _ b hb j p w (hp ▸ hpj) (hw ▸ hwj), ?_⟩
  have ht : (teamAt cfg.dynamicsFactor ts ws a).1 = (teamAt cfg.dynamicsFactor ts ws b).1 := by
    simp only [teamAt]; rw [hp, hw]
  have hn : (leagueOf cfg.drawProbability cfg.beta
      (idx.map (teamAt cfg.dynamicsFactor ts ws))).n = ts.length := by simp [leagueOf, hlen]
  have hq := (heard_ends (by omega) (league_pos h _ _ _ hidx) hheard).2 ?_
  · rw [hn] at hq
    have hi := mem_of_getD hpj
    have hmem := List.mem_of_getElem? (teamAt_player cfg.dynamicsFactor hpj hwj)
    have hpos := teamAt_mem h cfg.dynamicsFactor _ hmem
    rw [← ht]
    exact chainUpdate_lt hpos.1 hpos.2 le_rfl
      (term_le_variance cfg.beta _ (teamAt_mem h cfg.dynamicsFactor) hmem)
      (hx _ (by omega)) hq
  · rw [hn]
    obtain ⟨h0, e0⟩ := List.getElem?_eq_some_iff.1 ha
    obtain ⟨h1, e1⟩ := List.getElem?_eq_some_iff.1 hb
    rw [league_team _ _ _ h0, league_team _ _ _ h1, e0, e1, ht]

end

/-! A complete tie of equal teams. -/

theorem standing_replicate (n r : ℕ) : Standing (List.replicate n r) (List.range n) := by
  refine ⟨by simp, ?_⟩
  rw [List.pairwise_iff_getElem]
  intro i j hi hj hij
  simp only [List.length_range] at hi hj
  simp [List.getD_eq_getElem?_getD, hi, hj, hij]

theorem map_const_replicate {α β : Type} (f : α → β) (n : ℕ) (a : α) :
    (List.replicate n a).map f = List.replicate n (f a) := List.map_replicate

/-- The state of affairs in a complete tie of `n` equal teams. -/
theorem all_tie (t : List (TrueSkillRating ℝ)) (o : MultiTeamOutcome) (n : ℕ)
    (cfg : TrueSkillConfig ℝ) (hn : 3 ≤ n) (ht : t ≠ []) (hu : ∀ p ∈ t, p.uncertainty ≠ 0)
    (hm : 0.006 * √(2 * (t.map fun p =>
      p.uncertainty ^ 2 + cfg.dynamicsFactor ^ 2 + cfg.beta ^ 2).sum)
        ≤ tsMargin cfg.drawProbability cfg.beta (t.length + t.length)) :
    ProperMatch (List.replicate n (t, o)) (List.replicate n (List.replicate t.length 1)) ∧
    ∃ x, (leagueOf cfg.drawProbability cfg.beta ((List.range n).map
        (teamAt cfg.dynamicsFactor (List.replicate n (t, o))
          (List.replicate n (List.replicate t.length 1))))).heard = some x ∧
      ∀ k < n, (x k).mean = fgMean (teamAt cfg.dynamicsFactor (List.replicate n (t, o))
          (List.replicate n (List.replicate t.length 1)) 0).1 := by
  have hP : ProperMatch (List.replicate n (t, o))
      (List.replicate n (List.replicate t.length 1)) := by
    refine ⟨by simp; omega, ?_, by simp, ?_, ?_⟩
    · intro u hu'; rw [(List.mem_replicate.1 hu').2]; exact ht
    · intro l hl w hw
      rw [(List.mem_replicate.1 hl).2] at hw
      rw [(List.mem_replicate.1 hw).2]; norm_num
    · intro u hu' p hp; rw [(List.mem_replicate.1 hu').2] at hp; exact hu p hp
  have hidx : Standing ((List.replicate n (t, o)).map (·.2.rank)) (List.range n) := by
    rw [List.map_replicate]; exact standing_replicate n _
  refine ⟨hP, ?_⟩
  set τ := cfg.dynamicsFactor
  set T := teamAt τ (List.replicate n (t, o)) (List.replicate n (List.replicate t.length 1)) with hT
  have hTeq : ∀ i < n, T i = T 0 := by
    intro i hi
    have h0 : 0 < n := by omega
    simp [hT, teamAt, List.getD_eq_getElem?_getD, hi, h0]
  have hT0 : (T 0).1 = List.zipWith (fgPlayer τ) t (List.replicate t.length 1) := by
    have h0 : 0 < n := by omega
    simp [hT, teamAt, fgTeam, List.getD_eq_getElem?_getD, h0]
  have hlen0 : (T 0).1.length = t.length := by rw [hT0]; simp
  have hvar : fgVariance cfg.beta (T 0).1
      = (t.map fun p => p.uncertainty ^ 2 + τ ^ 2 + cfg.beta ^ 2).sum := by
    rw [hT0, fgVariance]
    congr 1
    apply List.ext_getElem
    · simp
    · intro i h1 h2
      simp [fgPlayer]
  set L := leagueOf cfg.drawProbability cfg.beta ((List.range n).map T) with hL
  have hLn : L.n = n := by simp [hL, leagueOf]
  have hteam : ∀ k < n, L.team k = .of (fgMean (T 0).1) (fgVariance cfg.beta (T 0).1) := by
    intro k hk
    have := league_team (ts := List.replicate n (t, o))
      (ws := List.replicate n (List.replicate t.length 1)) τ cfg.drawProbability cfg.beta
      (idx := List.range n) (k := k) (by simpa using hk)
    rw [List.getElem_range, ← hT, ← hL, hTeq k hk] at this
    exact this
  have hQ : 0 < fgVariance cfg.beta (T 0).1 :=
    teamAt_variance hP τ cfg.beta (i := 0) (by simp; omega)
  have hget : ∀ k < n, ((List.range n).map T).getD k ([], 0) = T 0 := by
    intro k hk
    rw [List.getD_eq_getElem?_getD, List.getElem?_map, List.getElem?_range hk]
    exact hTeq k hk
  have hLev : Level L (fgMean (T 0).1) (fgVariance cfg.beta (T 0).1) := by
    refine ⟨fun k hk => ?_, fun k hk => ?_, fun k hk => ?_, fun k hk => ?_, fun k hk => ?_,
      fun k hk => ?_⟩
    · simp only [hL, leagueOf]
      rw [hget k (by omega), hget (k + 1) (by omega), if_pos rfl]
    · simp only [hL, leagueOf]
      rw [hget k (by omega), hget (k + 1) (by omega), if_pos rfl]
    · rw [hteam k (by omega)]; exact of_prec_pos _ hQ
    · rw [hteam k (by omega)]; simp only [Info.of]; ring
    · rw [hteam k (by omega)]; simp [Info.of, Info.variance]
    · simp only [hL, leagueOf]
      rw [hget k (by omega), hget (k + 1) (by omega), hlen0, hvar]
      exact hm
  obtain ⟨x, hx, hmean⟩ := heard_level (by omega) hLev
  exact ⟨x, hx, fun k hk => hmean k (by omega)⟩

/-- A complete tie of three or more equal teams, with a draw margin that is not small: no rating
moves, and each player of the first and of the last team in the input ends more uncertain than the
same player of the neighbouring team. -/
theorem C104_trueskill_multi_all_tie (t : List (TrueSkillRating ℝ)) (o : MultiTeamOutcome) (n : ℕ)
    (cfg : TrueSkillConfig ℝ) (hn : 3 ≤ n) (ht : t ≠ []) (hu : ∀ p ∈ t, p.uncertainty ≠ 0)
    (hm : 0.006 * √(2 * (t.map fun p =>
      p.uncertainty ^ 2 + cfg.dynamicsFactor ^ 2 + cfg.beta ^ 2).sum)
        ≤ tsMargin cfg.drawProbability cfg.beta (t.length + t.length)) :
    ∃ r, trueskillMultiTeam (List.replicate n (t, o)) cfg none = .ok (.ok r) ∧
      (∀ i < n, ∀ (j : ℕ) (p : TrueSkillRating ℝ), t[j]? = some p →
        ∃ q, (r.getD i [])[j]? = some q ∧ q.rating = p.rating) ∧
      (∀ (j : ℕ) (p : TrueSkillRating ℝ), t[j]? = some p →
        ∃ p₁ p₂, (r.getD 0 [])[j]? = some p₁ ∧ (r.getD 1 [])[j]? = some p₂ ∧
          p₂.uncertainty < p₁.uncertainty) ∧
      (∀ (j : ℕ) (p : TrueSkillRating ℝ), t[j]? = some p →
        ∃ p₁ p₂, (r.getD (n - 1) [])[j]? = some p₁ ∧ (r.getD (n - 2) [])[j]? = some p₂ ∧
          p₂.uncertainty < p₁.uncertainty) := by
  obtain ⟨hP, x, hx, hmean⟩ := all_tie t o n cfg hn ht hu hm
  have hidx : Standing ((List.replicate n (t, o)).map (·.2.rank)) (List.range n) := by
    rw [List.map_replicate]; exact standing_replicate n _
  have hnone : trueskillMultiTeam (List.replicate n (t, o)) cfg none
      = trueskillMultiTeam (List.replicate n (t, o)) cfg
        (some (List.replicate n (List.replicate t.length 1))) := by
    have := multi_ones (List.replicate n (t, o)) cfg hP.two hP.players hP.uncertainty
    rw [List.map_replicate] at this
    exact this
  have hg : ∃ g, chainUpdates cfg.drawProbability cfg.beta ((List.range n).map
      (teamAt cfg.dynamicsFactor (List.replicate n (t, o))
        (List.replicate n (List.replicate t.length 1)))) = some g := by
    rw [chainUpdates, hx]; exact ⟨_, rfl⟩
  obtain ⟨g, hg⟩ := hg
  have hat : ∀ i < n, ((List.replicate n (t, o)).getD i ([], .new 0)).1 = t := by
    intro i hi; simp [List.getD_eq_getElem?_getD, hi]
  have haw : ∀ i < n, (List.replicate n (List.replicate t.length (1 : ℝ))).getD i []
      = List.replicate t.length 1 := by
    intro i hi; simp [List.getD_eq_getElem?_getD, hi]
  have hone : ∀ (j : ℕ) (p : TrueSkillRating ℝ), t[j]? = some p →
      (List.replicate t.length (1 : ℝ))[j]? = some 1 := by
    intro j p hp
    have := (List.getElem?_eq_some_iff.1 hp).1
    simp [this]
  have hr0 : ∀ i < n, (List.range n)[i]? = some i := fun i hi => List.getElem?_range hi
  obtain ⟨r, hr, h1⟩ := C104_trueskill_multi_first_two cfg hP (by simpa using hn) _ hidx g hg 0 1
    (hr0 0 (by omega)) (hr0 1 (by omega)) (by rw [hat 0 (by omega), hat 1 (by omega)])
    (by rw [haw 0 (by omega), haw 1 (by omega)])
  obtain ⟨r', hr', h2⟩ := C104_trueskill_multi_last_two cfg hP (by simpa using hn) _ hidx g hg
    (n - 1) (n - 2) (by rw [List.length_replicate]; exact hr0 _ (by omega))
    (by rw [List.length_replicate]; exact hr0 _ (by omega))
    (by rw [hat _ (by omega), hat _ (by omega)]) (by rw [haw _ (by omega), haw _ (by omega)])
  obtain ⟨y, hy, -, r'', hr'', h3⟩ := chain_read cfg hP hidx hg
  obtain rfl : r' = r := by rw [hr'] at hr; simpa using hr
  obtain rfl : r'' = r' := by rw [hr''] at hr'; simpa using hr'
  obtain rfl : y = x := Option.some.inj (hy.symm.trans hx)
  refine ⟨r'', by rw [hnone, hr''], fun i hi j p hp => ?_, fun j p hp => ?_, fun j p hp => ?_⟩
  · refine ⟨_, h3 i i (hr0 i hi) j p 1 (by rw [hat i hi]; exact hp)
      (by rw [haw i hi]; exact hone j p hp), ?_⟩
    have e : teamAt cfg.dynamicsFactor (List.replicate n (t, o))
        (List.replicate n (List.replicate t.length 1)) i
        = teamAt cfg.dynamicsFactor (List.replicate n (t, o))
        (List.replicate n (List.replicate t.length 1)) 0 := by
      have h0 : 0 < n := by omega
      simp [teamAt, List.getD_eq_getElem?_getD, hi, h0]
    simp only [chainUpdate]
    rw [hmean i hi, e, sub_self, mul_zero, add_zero]
    rfl
  · exact h1 j p 1 (by rw [hat 0 (by omega)]; exact hp) (by rw [haw 0 (by omega)]; exact hone j p hp)
  · exact h2 j p 1 (by rw [hat _ (by omega)]; exact hp) (by rw [haw _ (by omega)]; exact hone j p hp)

/-- Three players with the default rating who all tie, with the default configuration. -/
theorem default_tie : 0.006 * √(2 * ([(⟨25, 25 / 3⟩ : TrueSkillRating ℝ)].map fun p =>
      p.uncertainty ^ 2 + cfg0.dynamicsFactor ^ 2 + cfg0.beta ^ 2).sum)
        ≤ tsMargin cfg0.drawProbability cfg0.beta 2 := by
  have h1 := (margin_tenth (β := 25 / 6) (by norm_num)).1
  have h2 : √(2 * ((25 / 3) ^ 2 + (25 / 300 : ℝ) ^ 2 + (25 / 6) ^ 2)) ≤ 20 :=
    Real.sqrt_le_iff.2 ⟨by norm_num, by norm_num⟩
  simp only [cfg0, List.map_cons, List.map_nil, List.sum_cons, List.sum_nil, add_zero]
  norm_num at h1 h2 ⊢
  linarith

/-- So equal inputs with equal ranks do not get equal results. -/
theorem C104_trueskill_multi_equal_treatment_fails :
    ¬ ∀ (ts : List (List (TrueSkillRating ℝ) × MultiTeamOutcome)) (cfg : TrueSkillConfig ℝ)
      (r : List (List (TrueSkillRating ℝ))), trueskillMultiTeam ts cfg none = .ok (.ok r) →
      ∀ i j : ℕ, i < ts.length → j < ts.length → ts[i]? = ts[j]? → r[i]? = r[j]? := by
  intro h
  obtain ⟨r, hr, -, h1, -⟩ := C104_trueskill_multi_all_tie [⟨25, 25 / 3⟩] (.new 1) 3 cfg0 le_rfl
    (by simp) (by simp) default_tie
  obtain ⟨p₁, p₂, e1, e2, hlt⟩ := h1 0 _ rfl
  have := h _ _ _ hr 0 1 (by simp) (by simp) (by simp)
  rw [List.getD_eq_getElem?_getD, this, ← List.getD_eq_getElem?_getD, e2] at e1
  rw [Option.some.inj e1] at hlt
  exact lt_irrefl _ hlt

/-- Decided: three equal players in the places one, two and three. -/
noncomputable def trio : List (List (TrueSkillRating ℝ) × MultiTeamOutcome) :=
  [([⟨25, 25 / 3⟩], .new 1), ([⟨25, 25 / 3⟩], .new 2), ([⟨25, 25 / 3⟩], .new 3)]

theorem trio_proper : ProperMatch trio [[1], [1], [1]] := by
  refine ⟨by simp [trio], by simp [trio], by simp [trio], by simp, ?_⟩
  simp [trio]

theorem trio_standing : Standing (trio.map (·.2.rank)) [0, 1, 2] := by
  constructor
  · exact List.Perm.refl _
  · simp [trio, MultiTeamOutcome.new, MultiTeamOutcome.rank]

theorem trio_heard : ∃ g, chainUpdates cfg0.drawProbability cfg0.beta
    ([0, 1, 2].map (teamAt cfg0.dynamicsFactor trio [[1], [1], [1]])) = some g := by
  refine C97_trueskill_multi_applies cfg0 trio_proper ?_ (by norm_num [cfg0])
    (by norm_num [cfg0]) _ trio_standing 25 25 86 87 3 (by norm_num) ?_ ?_ ?_ ?_
  · simp [trio, MultiTeamOutcome.new, MultiTeamOutcome.rank]
  · intro i hi
    have : i = 0 ∨ i = 1 ∨ i = 2 := by simp [trio] at hi; omega
    rcases this with rfl | rfl | rfl <;>
      norm_num [teamAt, fgTeam, fgPlayer, fgMean, trio]
  · intro i hi
    have : i = 0 ∨ i = 1 ∨ i = 2 := by simp [trio] at hi; omega
    rcases this with rfl | rfl | rfl <;>
      norm_num [teamAt, fgTeam, fgPlayer, fgVariance, trio, cfg0]
  · intro i l hi hl
    have h1 : ∀ (k : ℕ) (hk : k < trio.length), trio[k].1.length = 1 := by
      intro k hk
      have : k = 0 ∨ k = 1 ∨ k = 2 := by simp [trio] at hk; omega
      rcases this with rfl | rfl | rfl <;> rfl
    rw [h1 i hi, h1 l hl]
    refine (margin_tenth (β := 25 / 6) (by norm_num)).2.trans (by norm_num)
  · have h1 : √(87 : ℝ) ≤ 9.4 := by
      rw [Real.sqrt_le_left (by norm_num)]; norm_num
    have h2 : (5 : ℝ) ≤ √(86 / 3) := Real.le_sqrt_of_sq_le (by norm_num)
    have h3 : (trio.length : ℝ) = 3 := by norm_num [trio]
    rw [h3]
    linarith

/-- The player in second place knows best where they stand. -/
example : ∃ r, trueskillMultiTeam trio cfg0 (some [[1], [1], [1]]) = .ok (.ok r) ∧
    ∃ p₁ p₂ p₃, (r.getD 0 [])[0]? = some p₁ ∧ (r.getD 1 [])[0]? = some p₂ ∧
      (r.getD 2 [])[0]? = some p₃ ∧ p₂.uncertainty < p₁.uncertainty ∧
      p₂.uncertainty < p₃.uncertainty := by
  obtain ⟨g, hg⟩ := trio_heard
  obtain ⟨r, hr, h1⟩ := C104_trueskill_multi_first_two cfg0 trio_proper (by simp [trio]) _
    trio_standing g hg 0 1 rfl rfl rfl rfl
  obtain ⟨r', hr', h2⟩ := C104_trueskill_multi_last_two cfg0 trio_proper (by simp [trio]) _
    trio_standing g hg 2 1 rfl rfl rfl rfl
  obtain rfl : r' = r := by rw [hr'] at hr; simpa using hr
  obtain ⟨p₁, p₂, e1, e2, hlt⟩ := h1 0 _ 1 rfl rfl
  obtain ⟨p₃, q₂, e3, e4, hlt'⟩ := h2 0 _ 1 rfl rfl
  obtain rfl : q₂ = p₂ := Option.some.inj (e4.symm.trans e2)
  exact ⟨r', hr', p₁, q₂, p₃, e1, e2, e3, hlt, hlt'⟩

example : ∃ r, trueskillMultiTeam (List.replicate 3 ([⟨25, 25 / 3⟩], .new 1)) cfg0 none
    = .ok (.ok r) ∧ ∃ p₁ p₂, (r.getD 0 [])[0]? = some p₁ ∧ (r.getD 1 [])[0]? = some p₂ ∧
          p₂.uncertainty < p₁.uncertainty := by
  obtain ⟨r, hr, -, h1, -⟩ := C104_trueskill_multi_all_tie [⟨25, 25 / 3⟩] (.new 1) 3 cfg0 le_rfl
    (by simp) (by simp) default_tie
  exact ⟨r, hr, h1 0 _ rfl⟩

end TrueSkill
end Skillratings
