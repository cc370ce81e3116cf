import Verif.Proofs.TwoTeams
import Verif.Proofs.TrueSkillW
import Verif.Props.TrueSkillWeights
/-
Properties C70 and C72 of `trueskill_multi_team`, in exact arithmetic.
-/
namespace Skillratings
namespace TrueSkill
open Spec

/-! ### C70: panics -/

theorem flatten_mem_uncertainty (ts : List (List (TrueSkillRating ℝ) × MultiTeamOutcome))
    (ws : List (List ℝ)) (hlen : ws.length = ts.length) :
    (∃ r ∈ ((sortTeams (withPos ts ws)).map (·.team)).flatten, r.uncertainty = 0) ↔
      ∃ t ∈ ts, ∃ p ∈ t.1, p.uncertainty = 0 := by
  have hmap : (withPos ts ws).map (·.team) = ts.map (·.1) := by
    apply List.ext_getElem?
    intro i
    simp only [withPos, List.getElem?_map, List.getElem?_zipIdx, List.getElem?_zip_eq_some,
      Option.map_map]
    by_cases hi : i < ts.length
    · have hz : (ts.zip ws)[i]? = some (ts[i], ws[i]'(by omega)) := by
        rw [List.getElem?_zip_eq_some]
        simp [hi, hlen]
      simp [hz, hi]
    · have hz : (ts.zip ws)[i]? = none := by
        rw [List.getElem?_eq_none]; simp; omega
      simp only [hz, List.getElem?_eq_none (by omega : ts.length ≤ i), Option.map_none]
  have hmem : ∀ r, r ∈ ((sortTeams (withPos ts ws)).map (·.team)).flatten ↔
      ∃ t ∈ ts, r ∈ t.1 := by
    intro r
    rw [List.mem_flatten]
    have hp := (sortTeams_perm (withPos ts ws)).map (fun p : PosTeam ℝ => p.team)
    rw [hmap] at hp
    constructor
    · rintro ⟨l, hl, hr⟩
      rw [hp.mem_iff, List.mem_map] at hl
      obtain ⟨t, ht, rfl⟩ := hl
      exact ⟨t, ht, hr⟩
    · rintro ⟨t, ht, hr⟩
      exact ⟨t.1, by rw [hp.mem_iff, List.mem_map]; exact ⟨t, ht, rfl⟩, hr⟩
  constructor
  · rintro ⟨r, hr, h⟩
    obtain ⟨t, ht, hrt⟩ := (hmem r).1 hr
    exact ⟨t, ht, r, hrt, h⟩
  · rintro ⟨t, ht, p, hp, h⟩
    exact ⟨p, (hmem p).2 ⟨t, ht, hp⟩, h⟩

/-- The function panics exactly if no team is empty, the weights are not rejected, and there
is only one team or a player with uncertainty zero. -/
theorem C70_trueskill_multi_panics (ts : List (List (TrueSkillRating ℝ) × MultiTeamOutcome))
    (cfg : TrueSkillConfig ℝ) (w : Option (List (List ℝ))) :
    (∃ e, trueskillMultiTeam ts cfg w = .error e) ↔
      (∀ t ∈ ts, t.1 ≠ []) ∧ (∀ e, trueskillMultiTeam ts cfg w ≠ .ok (.error e)) ∧
        (ts.length = 1 ∨ ∃ t ∈ ts, ∃ p ∈ t.1, p.uncertainty = 0) := by
  by_cases h0 : ts = []
  · subst h0
    simp [trueskillMultiTeam]
  by_cases h1 : ∀ t ∈ ts, t.1 ≠ []
  · cases hw : getWeights (ts.map (·.1)) w with
    | error e =>
      have hne : ts.isEmpty = false := by cases ts <;> simp_all
      have hany : ts.any (fun t => t.1.isEmpty) = false := by
        rw [List.any_eq_false]
        intro t ht
        simpa using h1 t ht
      have : trueskillMultiTeam ts cfg w = .ok (.error e) := by
        rw [trueskillMultiTeam]
        simp [hne, hany, hw]
      simp [this]
    | ok ws =>
      have hlen : ws.length = ts.length := by
        simpa using getWeights_length _ w ws hw
      have hsl : ((sortTeams (withPos ts ws)).map fun v => (v.team, v.rank)).length
          = ts.length := by
        rw [List.length_map, (sortTeams_perm _).length_eq,
          ← List.length_map (f := fun p : PosTeam ℝ => p.pos), withPos_pos ts ws hlen,
          List.length_range]
      have hpos : 0 < ts.length := List.length_pos_iff.2 h0
      have hp := runSchedule_panics
        (teamSizes ((sortTeams (withPos ts ws)).map fun v => (v.team, v.rank)))
        ((sortTeams (withPos ts ws)).map fun v => (v.team, v.rank))
        ((sortTeams (withPos ts ws)).map (·.team)).flatten
        ((sortTeams (withPos ts ws)).map (·.weights)).flatten
        cfg.dynamicsFactor cfg.beta cfg.drawProbability
      rw [flatten_mem_uncertainty ts ws hlen, hsl] at hp
      have hle : ts.length ≤ 1 ↔ ts.length = 1 := by omega
      rw [hle] at hp
      rw [← hp, multiTeam_eq ts cfg w ws h0 h1 hw, core]
      cases hr : runSchedule (teamSizes ((sortTeams (withPos ts ws)).map fun v => (v.team, v.rank)))
        ((sortTeams (withPos ts ws)).map fun v => (v.team, v.rank))
        ((sortTeams (withPos ts ws)).map (·.team)).flatten
        ((sortTeams (withPos ts ws)).map (·.weights)).flatten
        cfg.dynamicsFactor cfg.beta cfg.drawProbability 0.0001 with
      | error e => simpa using h1
      | ok s => simp
  · have hne : ts.isEmpty = false := by cases ts <;> simp_all
    have hany : ts.any (fun t => t.1.isEmpty) = true := by
      rw [List.any_eq_true]
      push Not at h1
      obtain ⟨t, ht, hte⟩ := h1
      exact ⟨t, ht, by simp [hte]⟩
    have : trueskillMultiTeam ts cfg w = .ok (.ok (ts.map (·.1))) := by
      rw [trueskillMultiTeam]
      simp [hne, hany]
    rw [this]
    simp only [reduceCtorEq, exists_false, false_iff]
    exact fun h => h1 h.1

/-- A lone player panics. -/
example : ∃ e, trueskillMultiTeam [([(⟨25, 8⟩ : TrueSkillRating ℝ)], .new 1)] ⟨0.1, 4, 0.1⟩ none
    = .error e :=
  (C70_trueskill_multi_panics _ _ _).2
    ⟨by simp, fun e => (C68_no_weights_no_error _ [] _ e).1, .inl rfl⟩

/-- Without weights, at least two non-empty teams of players with non-zero uncertainties
always get ratings. -/
theorem C70_trueskill_multi_returns (ts : List (List (TrueSkillRating ℝ) × MultiTeamOutcome))
    (cfg : TrueSkillConfig ℝ) (h : 2 ≤ ts.length) (hu : ∀ t ∈ ts, ∀ p ∈ t.1, p.uncertainty ≠ 0) :
    ∃ r, trueskillMultiTeam ts cfg none = .ok (.ok r) := by
  cases hr : trueskillMultiTeam ts cfg none with
  | error e =>
    have := (C70_trueskill_multi_panics ts cfg none).1 ⟨e, hr⟩
    rcases this.2.2 with h1 | ⟨t, ht, p, hp, h0⟩
    · omega
    · exact absurd h0 (hu t ht p hp)
  | ok r =>
    cases r with
    | error e => exact absurd hr (C68_no_weights_no_error ts [] cfg e).1
    | ok r => exact ⟨r, rfl⟩

example : 2 ≤ [([(⟨25, 8⟩ : TrueSkillRating ℝ)], MultiTeamOutcome.new 2),
    ([⟨20, 1⟩, ⟨30, 2⟩], .new 1), ([⟨0, 5⟩], .new 2)].length := by decide

/-! ### C72: two teams -/

theorem fgTeam_eq (τ : ℝ) (t : List (TrueSkillRating ℝ)) (w : List ℝ) :
    fgTeam τ t w = fgOf τ (t.zip w) := by
  rw [fgTeam, fgOf, List.zip, List.map_zipWith]

theorem fgC_comm (β : ℝ) (a b : List FgPlayer) : fgC β a b = fgC β b a := by
  rw [fgC, fgC, add_comm]

theorem fgT_swap (β : ℝ) (a b : List FgPlayer) : fgT β b a = -fgT β a b := by
  rw [fgT, fgT, fgC_comm, ← neg_div, neg_sub]

theorem fgMargin_comm (p β : ℝ) (a b : List FgPlayer) : fgMargin p β b a = fgMargin p β a b := by
  rw [fgMargin, fgMargin, fgC_comm, Nat.add_comm]

theorem getWeights_two (s t : List (TrueSkillRating ℝ)) (ws wt : List ℝ)
    (hls : ws.length = s.length) (hlt : wt.length = t.length) (hw : ∀ w ∈ ws ++ wt, 0 < w) :
    getWeights [s, t] (some [ws, wt]) = .ok [ws, wt] := by
  have hp : ∀ (l : List ℝ) (i j : ℕ), (∀ w ∈ l, 0 < w) → checkPlayers i j l = .ok () := by
    intro l
    induction l with
    | nil => intros; rfl
    | cons a l ih =>
      intro i j h
      have ha := h a (by simp)
      rw [checkPlayers]
      simp only [Flt.lt_real, Flt.lit_0]
      rw [if_neg (by simpa using ha.le)]
      exact ih i (j + 1) fun w hw => h w (List.mem_cons_of_mem _ hw)
  simp only [getWeights, checkTeams, hls, hlt, List.length_cons, List.length_nil, List.map_cons,
    List.map_nil, ne_eq, not_true_eq_false, if_false,
    hp ws 0 0 (fun w h => hw w (List.mem_append_left _ h)),
    hp wt (0 + 1) 0 (fun w h => hw w (List.mem_append_right _ h))]

/-- Two teams with positive weights get the closed-form posterior: with
`c² = Σ w² (σ² + τ² + β²)` the mean moves by `± w (σ² + τ²)/c · V` and the variance becomes
`(σ² + τ²)(1 - W w² (σ² + τ²)/c²)`. -/
theorem C72_trueskill_multi_two_teams_weighted (s t : List (TrueSkillRating ℝ)) (ws wt : List ℝ)
    (r₁ r₂ : MultiTeamOutcome) (cfg : TrueSkillConfig ℝ) (hs : s ≠ []) (ht : t ≠ [])
    (hls : ws.length = s.length) (hlt : wt.length = t.length)
    (hu : ∀ p ∈ s ++ t, p.uncertainty ≠ 0) (hw : ∀ w ∈ ws ++ wt, 0 < w) :
    let a := fgTeam cfg.dynamicsFactor s ws
    let b := fgTeam cfg.dynamicsFactor t wt
    let c := fgC cfg.beta a b
    let o := outcomeOf r₁.rank r₂.rank
    let V := corrV o (fgT cfg.beta a b) (fgMargin cfg.drawProbability cfg.beta a b)
    let W := corrW o (fgT cfg.beta a b) (fgMargin cfg.drawProbability cfg.beta a b)
    0 < W → W < 1 →
    trueskillMultiTeam [(s, r₁), (t, r₂)] cfg (some [ws, wt]) =
      .ok (.ok [a.map (fgUpdate c V W), b.map (fgUpdate c (-V) W)]) := by
  intro a b c o V W h0 h1
  have hmapA : (s.zip ws).map (·.1) = s ∧ (s.zip ws).map (·.2) = ws :=
    ⟨List.map_fst_zip (by omega), List.map_snd_zip (by omega)⟩
  have hmapB : (t.zip wt).map (·.1) = t ∧ (t.zip wt).map (·.2) = wt :=
    ⟨List.map_fst_zip (by omega), List.map_snd_zip (by omega)⟩
  have hA : s.zip ws ≠ [] := by
    intro h; rw [h] at hmapA; exact hs hmapA.1.symm
  have hB : t.zip wt ≠ [] := by
    intro h; rw [h] at hmapB; exact ht hmapB.1.symm
  have hua : ∀ x ∈ s.zip ws, x.1.uncertainty ≠ 0 ∧ x.2 ≠ 0 := fun x hx =>
    ⟨hu _ (List.mem_append_left _ (List.of_mem_zip hx).1),
      (hw _ (List.mem_append_left _ (List.of_mem_zip hx).2)).ne'⟩
  have hub : ∀ x ∈ t.zip wt, x.1.uncertainty ≠ 0 ∧ x.2 ≠ 0 := fun x hx =>
    ⟨hu _ (List.mem_append_right _ (List.of_mem_zip hx).1),
      (hw _ (List.mem_append_right _ (List.of_mem_zip hx).2)).ne'⟩
  have ea : fgOf cfg.dynamicsFactor (s.zip ws) = a := (fgTeam_eq _ _ _).symm
  have eb : fgOf cfg.dynamicsFactor (t.zip wt) = b := (fgTeam_eq _ _ _).symm
  rw [multiTeam_eq [(s, r₁), (t, r₂)] cfg (some [ws, wt]) [ws, wt] (by simp) (by simp [hs, ht])
    (getWeights_two s t ws wt hls hlt hw)]
  have hpos : withPos [(s, r₁), (t, r₂)] [ws, wt] = [⟨0, s, r₁, ws⟩, ⟨1, t, r₂, wt⟩] := rfl
  rw [hpos]
  by_cases hle : r₁.val ≤ r₂.val
  · have hsort : sortTeams [⟨0, s, r₁, ws⟩, ⟨1, t, r₂, wt⟩] =
        ([⟨0, s, r₁, ws⟩, ⟨1, t, r₂, wt⟩] : List (PosTeam ℝ)) := by
      apply List.mergeSort_of_pairwise
      simpa using hle
    have hV : V = sortedV r₁ r₂ (fgT cfg.beta a b) (fgMargin cfg.drawProbability cfg.beta a b) := by
      by_cases heq : r₁ = r₂
      · have ho : o = .DRAW := by simp [o, outcomeOf, heq]
        simp only [V, ho, sortedV, if_pos heq, corrV]
      · have : r₁.val ≠ r₂.val := fun h => heq (by cases r₁; cases r₂; simp_all)
        have ho : o = .WIN := if_pos (lt_of_le_of_ne hle this)
        simp only [V, ho, sortedV, if_neg heq, corrV]
    have hW : W = sortedW r₁ r₂ (fgT cfg.beta a b) (fgMargin cfg.drawProbability cfg.beta a b) := by
      by_cases heq : r₁ = r₂
      · have ho : o = .DRAW := by simp [o, outcomeOf, heq]
        simp only [W, ho, sortedW, if_pos heq, corrW]
      · have : r₁.val ≠ r₂.val := fun h => heq (by cases r₁; cases r₂; simp_all)
        have ho : o = .WIN := if_pos (lt_of_le_of_ne hle this)
        simp only [W, ho, sortedW, if_neg heq, corrW]
    have hc := core_two (A := s.zip ws) (B := t.zip wt) 0 1 r₁ r₂ cfg hA hB
      (fun x hx => (List.mem_append.1 hx).elim (fun h => (hua x h).1) fun h => (hub x h).1)
      (fun x hx => (List.mem_append.1 hx).elim (fun h => (hua x h).2) fun h => (hub x h).2)
      W V (by rw [ea, eb]; exact hW) (by rw [ea, eb]; exact hV) h0 h1
    rw [hmapA.1, hmapA.2, hmapB.1, hmapB.2, ea, eb] at hc
    rw [hsort, hc]
    simp only [List.map_cons, List.map_nil]
    congr 2
    simp [unsort, List.mergeSort, List.merge, List.MergeSort.Internal.splitInTwo, c]
  · have hsort : sortTeams [⟨0, s, r₁, ws⟩, ⟨1, t, r₂, wt⟩] =
        ([⟨1, t, r₂, wt⟩, ⟨0, s, r₁, ws⟩] : List (PosTeam ℝ)) := by
      simp [sortTeams, List.mergeSort, List.merge, List.MergeSort.Internal.splitInTwo, hle]
    have hne : r₂ ≠ r₁ := fun h => hle (by rw [h])
    have ho : o = .LOSS := by
      have h1 : ¬ r₁.rank < r₂.rank := fun h => hle (Nat.le_of_lt h)
      have h2 : ¬ r₁.rank = r₂.rank := fun h => hle (Nat.le_of_eq h)
      simp only [o, outcomeOf, if_neg h1, if_neg h2]
    have hV : -V = sortedV r₂ r₁ (fgT cfg.beta b a) (fgMargin cfg.drawProbability cfg.beta b a) := by
      simp only [V, ho, sortedV, if_neg hne, corrV, neg_neg, fgT_swap cfg.beta a b,
        fgMargin_comm _ _ a b]
    have hW : W = sortedW r₂ r₁ (fgT cfg.beta b a) (fgMargin cfg.drawProbability cfg.beta b a) := by
      simp only [W, ho, sortedW, if_neg hne, corrW, fgT_swap cfg.beta a b, fgMargin_comm _ _ a b]
    have hc := core_two (A := t.zip wt) (B := s.zip ws) 1 0 r₂ r₁ cfg hB hA
      (fun x hx => (List.mem_append.1 hx).elim (fun h => (hub x h).1) fun h => (hua x h).1)
      (fun x hx => (List.mem_append.1 hx).elim (fun h => (hub x h).2) fun h => (hua x h).2)
      W (-V) (by rw [ea, eb]; exact hW) (by rw [ea, eb]; exact hV) h0 h1
    rw [hmapA.1, hmapA.2, hmapB.1, hmapB.2, ea, eb, neg_neg, fgC_comm] at hc
    rw [hsort, hc]
    simp only [List.map_cons, List.map_nil]
    congr 2
    simp [unsort, List.mergeSort, List.merge, List.MergeSort.Internal.splitInTwo, c]

/-- For a decided match the conditions on `W` hold as soon as the result was not
(numerically) impossible. -/
theorem C72_trueskill_multi_two_teams_decided (s t : List (TrueSkillRating ℝ)) (ws wt : List ℝ)
    (r₁ r₂ : MultiTeamOutcome) (cfg : TrueSkillConfig ℝ) (hs : s ≠ []) (ht : t ≠ [])
    (hls : ws.length = s.length) (hlt : wt.length = t.length)
    (hu : ∀ p ∈ s ++ t, p.uncertainty ≠ 0) (hw : ∀ w ∈ ws ++ wt, 0 < w) (hr : r₁.rank ≠ r₂.rank) :
    let a := fgTeam cfg.dynamicsFactor s ws
    let b := fgTeam cfg.dynamicsFactor t wt
    let c := fgC cfg.beta a b
    let o := outcomeOf r₁.rank r₂.rank
    let V := corrV o (fgT cfg.beta a b) (fgMargin cfg.drawProbability cfg.beta a b)
    let W := corrW o (fgT cfg.beta a b) (fgMargin cfg.drawProbability cfg.beta a b)
    tsTiny ≤ normalCdf ((if r₁.rank < r₂.rank then 1 else -1) * fgT cfg.beta a b
      - fgMargin cfg.drawProbability cfg.beta a b) →
    trueskillMultiTeam [(s, r₁), (t, r₂)] cfg (some [ws, wt]) =
      .ok (.ok [a.map (fgUpdate c V W), b.map (fgUpdate c (-V) W)]) := by
  intro a b c o V W hp
  have hW : 0 < W ∧ W < 1 := by
    by_cases h : r₁.rank < r₂.rank
    · have ho : o = .WIN := if_pos h
      rw [if_pos h, one_mul] at hp
      simp only [W, ho, corrW]
      exact ⟨tsWWin_pos hp, tsWWin_lt_one hp⟩
    · have ho : o = .LOSS := by simp only [o, outcomeOf, if_neg h, if_neg hr]
      rw [if_neg h, neg_one_mul] at hp
      simp only [W, ho, corrW]
      exact ⟨tsWWin_pos hp, tsWWin_lt_one hp⟩
  exact C72_trueskill_multi_two_teams_weighted s t ws wt r₁ r₂ cfg hs ht hls hlt hu hw hW.1 hW.2

/-- The uncertainty with the dynamics added. -/
noncomputable def inflate (τ : ℝ) (p : TrueSkillRating ℝ) : TrueSkillRating ℝ :=
  ⟨p.rating, √(p.uncertainty ^ 2 + τ ^ 2)⟩

theorem inflate_sq (τ : ℝ) (p : TrueSkillRating ℝ) :
    (inflate τ p).uncertainty ^ 2 = p.uncertainty ^ 2 + τ ^ 2 :=
  Real.sq_sqrt (by positivity)

/-- A team with weights one. -/
theorem fgTeam_ones (τ : ℝ) (t : List (TrueSkillRating ℝ)) :
    fgTeam τ t (List.replicate t.length 1) = t.map fun p => fgPlayer τ p 1 := by
  rw [fgTeam]
  induction t with
  | nil => rfl
  | cons p t ih => simp [List.replicate_succ, ih]

theorem fgMean_ones (τ : ℝ) (t : List (TrueSkillRating ℝ)) :
    fgMean (fgTeam τ t (List.replicate t.length 1)) = (side (t.map (inflate τ))).μ := by
  rw [fgTeam_ones, fgMean, List.map_map, side, List.map_map]
  congr 1
  exact List.map_congr_left fun p _ => one_mul _

theorem fgVariance_ones (τ β : ℝ) (t : List (TrueSkillRating ℝ)) :
    fgVariance β (fgTeam τ t (List.replicate t.length 1)) =
      (side (t.map (inflate τ))).n * β ^ 2 + (side (t.map (inflate τ))).v := by
  rw [fgTeam_ones, fgVariance, List.map_map, side, List.map_map]
  induction t with
  | nil => simp
  | cons p t ih =>
    simp only [List.map_cons, List.sum_cons, ih, List.length_cons, Function.comp, inflate_sq]
    simp only [fgPlayer]
    push_cast
    ring

theorem fgC_ones (τ β : ℝ) (s t : List (TrueSkillRating ℝ)) :
    fgC β (fgTeam τ s (List.replicate s.length 1)) (fgTeam τ t (List.replicate t.length 1)) =
      tsC β (side (s.map (inflate τ))) (side (t.map (inflate τ))) := by
  rw [fgC, fgVariance_ones, fgVariance_ones, tsC]
  congr 1; push_cast; ring

theorem fgUpdate_ones (τ c V W : ℝ) (t : List (TrueSkillRating ℝ)) :
    (fgTeam τ t (List.replicate t.length 1)).map (fgUpdate c V W) =
      (t.map (inflate τ)).map fun p => upd p 0 c V W := by
  rw [fgTeam_ones, List.map_map, List.map_map]
  apply List.map_congr_left
  intro p _
  have h := inflate_sq τ p
  simp only [Function.comp, fgUpdate, upd, h, tsRating, tsUncertainty, fgPlayer]
  simp [inflate]

/-- Without weights, `trueskill_multi_team` on two teams is `trueskill_two_teams` on the
players whose uncertainties already contain the dynamics. -/
theorem C72_trueskill_multi_two_teams (s t : List (TrueSkillRating ℝ))
    (r₁ r₂ : MultiTeamOutcome) (cfg : TrueSkillConfig ℝ) (hs : s ≠ []) (ht : t ≠ [])
    (hu : ∀ p ∈ s ++ t, p.uncertainty ≠ 0) :
    let s' := s.map (inflate cfg.dynamicsFactor)
    let t' := t.map (inflate cfg.dynamicsFactor)
    let n := s.length + t.length
    let c := √((n : ℕ) * cfg.beta ^ 2 + (s'.map (·.uncertainty ^ 2)).sum
      + (t'.map (·.uncertainty ^ 2)).sum)
    let o := outcomeOf r₁.rank r₂.rank
    let W := corrW o (((s.map (·.rating)).sum - (t.map (·.rating)).sum) / c)
      (tsMargin cfg.drawProbability cfg.beta n / c)
    0 < W → W < 1 →
    trueskillMultiTeam [(s, r₁), (t, r₂)] cfg none =
      .ok (.ok [(trueskillTwoTeams s' t' o { cfg with dynamicsFactor := 0 }).1,
        (trueskillTwoTeams s' t' o { cfg with dynamicsFactor := 0 }).2]) := by
  intro s' t' n c o W h0 h1
  have hone : ¬ ((1.0 : ℝ) <? (0.0 : ℝ)) = true := by
    simp only [flt]; norm_num
  rw [(C68_no_weights_are_ones [(s, r₁), (t, r₂)] [] cfg hone).1]
  simp only [List.map_cons, List.map_nil, Flt.lit_1]
  have hc : c = tsC cfg.beta (side s') (side t') := by
    simp only [c, tsC, side, n, s', t', List.length_map]
  have hμ : ∀ l : List (TrueSkillRating ℝ),
      (side (l.map (inflate cfg.dynamicsFactor))).μ = (l.map (·.rating)).sum := by
    intro l; rw [side, List.map_map]; rfl
  have hn : ∀ l : List (TrueSkillRating ℝ),
      (fgTeam cfg.dynamicsFactor l (List.replicate l.length 1)).length = l.length := by
    intro l; rw [fgTeam_ones, List.length_map]
  have key := C72_trueskill_multi_two_teams_weighted s t (List.replicate s.length 1)
    (List.replicate t.length 1) r₁ r₂ cfg hs ht (by simp) (by simp) hu (by
      intro w hw
      rcases List.mem_append.1 hw with hw | hw <;>
      · rw [(List.mem_replicate.1 hw).2]; exact one_pos)
  simp only [fgT, fgMargin, fgC_ones, fgMean_ones, hn, fgUpdate_ones, hμ] at key
  have hw' : W = corrW (outcomeOf r₁.rank r₂.rank) (((s.map (·.rating)).sum
      - (t.map (·.rating)).sum) / tsC cfg.beta (side s') (side t'))
      (tsMargin cfg.drawProbability cfg.beta (s.length + t.length)
        / tsC cfg.beta (side s') (side t')) := by
    simp only [W, hc, o, n]
  rw [hw'] at h0 h1
  rw [key h0 h1, twoTeams_real s' t' o _ (by simpa [s'] using hs) (by simpa [t'] using ht)]
  have l1 : (side s').n = s.length := by simp [side, s']
  have l2 : (side t').n = t.length := by simp [side, t']
  simp only [matchV, matchW, l1, l2]
  rw [show (side s').μ = (s.map (·.rating)).sum from hμ s,
    show (side t').μ = (t.map (·.rating)).sum from hμ t]

/-- Without dynamics and weights, the two functions agree. -/
theorem C72_trueskill_multi_agrees (s t : List (TrueSkillRating ℝ))
    (r₁ r₂ : MultiTeamOutcome) (cfg : TrueSkillConfig ℝ) (hs : s ≠ []) (ht : t ≠ [])
    (hu : ∀ p ∈ s ++ t, 0 < p.uncertainty) (hτ : cfg.dynamicsFactor = 0) :
    let n := s.length + t.length
    let c := √((n : ℕ) * cfg.beta ^ 2 + (s.map (·.uncertainty ^ 2)).sum
      + (t.map (·.uncertainty ^ 2)).sum)
    let o := outcomeOf r₁.rank r₂.rank
    let W := corrW o (((s.map (·.rating)).sum - (t.map (·.rating)).sum) / c)
      (tsMargin cfg.drawProbability cfg.beta n / c)
    0 < W → W < 1 →
    trueskillMultiTeam [(s, r₁), (t, r₂)] cfg none =
      .ok (.ok [(trueskillTwoTeams s t o cfg).1, (trueskillTwoTeams s t o cfg).2]) := by
  have hi : ∀ l : List (TrueSkillRating ℝ), (∀ p ∈ l, 0 < p.uncertainty) →
      l.map (inflate cfg.dynamicsFactor) = l := by
    intro l hl
    conv_rhs => rw [← List.map_id l]
    apply List.map_congr_left
    intro p hp
    simp [inflate, hτ, Real.sqrt_sq (hl p hp).le]
  have hs' := hi s fun p hp => hu p (List.mem_append_left _ hp)
  have ht' := hi t fun p hp => hu p (List.mem_append_right _ hp)
  have key := C72_trueskill_multi_two_teams s t r₁ r₂ cfg hs ht fun p hp => (hu p hp).ne'
  rw [hs', ht'] at key
  have hcfg : ({ cfg with dynamicsFactor := 0 } : TrueSkillConfig ℝ) = cfg := by
    cases cfg; simp_all
  rw [hcfg] at key
  exact key

/-- With dynamics the two functions disagree on some players: `trueskill_two_teams` leaves the
dynamics out of `c`. -/
theorem C72_trueskill_multi_disagrees (cfg : TrueSkillConfig ℝ) (hτ : cfg.dynamicsFactor ≠ 0) :
    ∃ a b : TrueSkillRating ℝ, 0 < a.uncertainty ∧ 0 < b.uncertainty ∧
      trueskillMultiTeam [([a], .new 1), ([b], .new 2)] cfg none ≠
        .ok (.ok [(trueskillTwoTeams [a] [b] .WIN cfg).1, (trueskillTwoTeams [a] [b] .WIN cfg).2]) := by
  set m := tsMargin cfg.drawProbability cfg.beta 2 with hm
  set τ := cfg.dynamicsFactor with hτe
  refine ⟨⟨m, 1⟩, ⟨0, 1⟩, one_pos, one_pos, ?_⟩
  have hcdf : tsTiny ≤ normalCdf 0 := by
    have h1 := normalCdf_zero_bounds.1
    have h2 : tsTiny < 1 / 2 := by unfold tsTiny; norm_num
    linarith
  have hV : ∀ x : ℝ, tsVWin x x = normalPdf 0 / normalCdf 0 := by
    intro x
    rw [tsVWin, sub_self, if_neg (not_lt.2 hcdf)]
  have hk : 0 < normalPdf 0 / normalCdf 0 := div_pos (normalPdf_pos 0) (normalCdf_pos 0)
  have hsq : √(1 + τ ^ 2) ^ 2 = 1 + τ ^ 2 := Real.sq_sqrt (by positivity)
  have key := C72_trueskill_multi_two_teams [⟨m, 1⟩] [⟨0, 1⟩] (.new 1) (.new 2) cfg (by simp)
    (by simp) (by simp)
  have ho : outcomeOf (MultiTeamOutcome.new 1).rank (MultiTeamOutcome.new 2).rank = .WIN := rfl
  simp only [ho, corrW, List.length_cons, List.length_nil, Nat.zero_add, Nat.reduceAdd,
    List.map_cons, List.map_nil, List.sum_cons, List.sum_nil, inflate, add_zero, one_pow, sub_zero,
    ← hm, ← hτe] at key
  rw [key (tsWWin_pos (by rw [sub_self]; exact hcdf)) (tsWWin_lt_one (by rw [sub_self]; exact hcdf))]
  rw [twoTeams_real _ _ _ _ (by simp) (by simp), twoTeams_real _ _ _ _ (by simp) (by simp)]
  intro h
  simp only [Except.ok.injEq, List.cons.injEq, List.map_cons, List.map_nil] at h
  have h1 := congrArg TrueSkillRating.rating h.1.1
  simp only [upd, matchV, corrV, side, tsRating, List.length_cons, List.length_nil, Nat.zero_add,
    Nat.reduceAdd, List.map_cons, List.map_nil, List.sum_cons, List.sum_nil, add_zero, one_pow,
    sub_zero, ← hm, ← hτe, hV, hsq, tsC] at h1
  have hpos : (0 : ℝ) < ((2 : ℕ) : ℝ) * cfg.beta ^ 2 + 1 + 1 := by positivity
  have hlt : √(((2 : ℕ) : ℝ) * cfg.beta ^ 2 + 1 + 1)
      < √(((2 : ℕ) : ℝ) * cfg.beta ^ 2 + (1 + τ ^ 2) + (1 + τ ^ 2)) := by
    apply Real.sqrt_lt_sqrt hpos.le
    have : 0 < τ ^ 2 := by positivity
    linarith
  have hx : 0 < √(((2 : ℕ) : ℝ) * cfg.beta ^ 2 + 1 + 1) := Real.sqrt_pos.2 hpos
  have h2 : (1 + τ ^ 2) / √(((2 : ℕ) : ℝ) * cfg.beta ^ 2 + (1 + τ ^ 2) + (1 + τ ^ 2))
      < (1 + τ ^ 2) / √(((2 : ℕ) : ℝ) * cfg.beta ^ 2 + 1 + 1) :=
    div_lt_div_of_pos_left (by positivity) hx hlt
  have h3 := mul_lt_mul_of_pos_right h2 hk
  simp only [ne_eq, OfNat.ofNat_ne_zero, not_false_eq_true, zero_pow, add_zero] at h1
  linarith

/-- The hypotheses of the two-team theorems are met: a favourite ahead by the draw margin, with
weights, and dynamics. -/
example : ∃ a b : TrueSkillRating ℝ, ∃ cfg : TrueSkillConfig ℝ, cfg.dynamicsFactor ≠ 0 ∧
    a.uncertainty ≠ b.uncertainty ∧ a.uncertainty ≠ 0 ∧ b.uncertainty ≠ 0 ∧
    tsTiny ≤ normalCdf ((if (MultiTeamOutcome.new 1).rank < (MultiTeamOutcome.new 2).rank
        then 1 else -1)
      * fgT cfg.beta (fgTeam cfg.dynamicsFactor [a] [1]) (fgTeam cfg.dynamicsFactor [b] [1 / 2])
      - fgMargin cfg.drawProbability cfg.beta (fgTeam cfg.dynamicsFactor [a] [1])
        (fgTeam cfg.dynamicsFactor [b] [1 / 2])) := by
  refine ⟨⟨tsMargin (1 / 10) 4 2, 2⟩, ⟨0, 3⟩, ⟨1 / 10, 4, 1⟩, by norm_num, by norm_num, by norm_num,
    by norm_num, ?_⟩
  have h : ((1 : ℝ) * fgT 4 (fgTeam 1 [⟨tsMargin (1 / 10) 4 2, 2⟩] [1]) (fgTeam 1 [⟨0, 3⟩] [1 / 2])
      - fgMargin (1 / 10) 4 (fgTeam 1 [⟨tsMargin (1 / 10) 4 2, 2⟩] [1])
        (fgTeam 1 [⟨0, 3⟩] [1 / 2])) = 0 := by
    simp [fgT, fgMargin, fgMean, fgTeam, fgPlayer]
  rw [if_pos (by decide), h]
  have h1 := normalCdf_zero_bounds.1
  have h2 : tsTiny < 1 / 2 := by unfold tsTiny; norm_num
  linarith

/-- Without weights, for a decided match. -/
example : ∃ a b : TrueSkillRating ℝ, ∃ cfg : TrueSkillConfig ℝ, cfg.dynamicsFactor = 0 ∧
    0 < a.uncertainty ∧ 0 < b.uncertainty ∧
    trueskillMultiTeam [([a], .new 1), ([b], .new 2)] cfg none =
      .ok (.ok [(trueskillTwoTeams [a] [b] .WIN cfg).1, (trueskillTwoTeams [a] [b] .WIN cfg).2]) := by
  refine ⟨⟨tsMargin (1 / 10) 4 2, 2⟩, ⟨0, 3⟩, ⟨1 / 10, 4, 0⟩, rfl, by norm_num, by norm_num, ?_⟩
  have hcdf : tsTiny ≤ normalCdf 0 := by
    have h1 := normalCdf_zero_bounds.1
    have h2 : tsTiny < 1 / 2 := by unfold tsTiny; norm_num
    linarith
  refine C72_trueskill_multi_agrees _ _ (.new 1) (.new 2) _ (by simp) (by simp)
    (by simp) rfl ?_ ?_ <;>
  · simp only [outcomeOf, MultiTeamOutcome.new, corrW, List.map_cons, List.map_nil, List.sum_cons,
      List.sum_nil, add_zero, sub_zero, List.length_cons, List.length_nil, Nat.zero_add,
      Nat.reduceAdd, Nat.one_lt_ofNat, if_true]
    first
      | exact tsWWin_pos (by rw [sub_self]; exact hcdf)
      | exact tsWWin_lt_one (by rw [sub_self]; exact hcdf)

end TrueSkill
end Skillratings
