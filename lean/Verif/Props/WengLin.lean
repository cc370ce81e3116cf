import Verif.Proofs.WengLin
/-
Properties of /repo/src/weng_lin.rs: C58 - C63, C88.
-/
namespace Skillratings.WengLin
open Real Spec

/-! ### C58: expected scores -/

theorem C58_wengLin_expected_formula (a b : WengLinRating ℝ) (cfg : WengLinConfig ℝ) :
    (expectedScore a b cfg).1 =
      exp (a.rating / √(a.uncertainty ^ 2 + b.uncertainty ^ 2 + 2 * cfg.beta ^ 2)) /
        (exp (a.rating / √(a.uncertainty ^ 2 + b.uncertainty ^ 2 + 2 * cfg.beta ^ 2)) +
          exp (b.rating / √(a.uncertainty ^ 2 + b.uncertainty ^ 2 + 2 * cfg.beta ^ 2))) := by
  simp only [expectedScore, c_real', pValue_real]; rfl

theorem expected_real (a b : WengLinRating ℝ) (cfg : WengLinConfig ℝ) :
    expectedScore a b cfg =
      (wlP (wlC cfg.beta (a.uncertainty ^ 2) (b.uncertainty ^ 2)) a.rating b.rating,
       1 - wlP (wlC cfg.beta (a.uncertainty ^ 2) (b.uncertainty ^ 2)) a.rating b.rating) := by
  simp only [expectedScore, c_real', pValue_real]

theorem expectedTwo_real (s t : List (WengLinRating ℝ)) (cfg : WengLinConfig ℝ) :
    expectedScoreTwoTeams s t cfg =
      (wlP (wlC cfg.beta (side s).v (side t).v) (side s).μ (side t).μ,
       1 - wlP (wlC cfg.beta (side s).v (side t).v) (side s).μ (side t).μ) := by
  simp only [expectedScoreTwoTeams, teamRating_real, teamUncertaintySq_real, c_real, pValue_real]

theorem C58_wengLin_expected_probability (a b : WengLinRating ℝ) (cfg : WengLinConfig ℝ) :
    ProbabilityPair (expectedScore a b cfg) := by
  rw [expected_real, wlP_eq]; exact probabilityPair_sigmoid _

theorem C58_wengLin_expected_swap (a b : WengLinRating ℝ) (cfg : WengLinConfig ℝ) :
    expectedScore b a cfg = ((expectedScore a b cfg).2, (expectedScore a b cfg).1) := by
  simp only [expected_real]
  rw [wlC_comm, wlP_symm _ a.rating b.rating, sub_sub_cancel]

theorem C58_wengLin_expected_strictMono (a b : WengLinRating ℝ) (cfg : WengLinConfig ℝ) (r' : ℝ)
    (hβ : cfg.beta ≠ 0) (h : a.rating < r') :
    (expectedScore a b cfg).1 < (expectedScore { a with rating := r' } b cfg).1 := by
  have hc : 0 < wlC cfg.beta (a.uncertainty ^ 2) (b.uncertainty ^ 2) :=
    wlC_pos (sq_nonneg _) (sq_nonneg _) (.inr (.inr hβ))
  simp only [expected_real, wlP_eq, sigmoid_lt_iff]
  gcongr

theorem C58_wengLin_expected_two_teams_probability (s t : List (WengLinRating ℝ))
    (cfg : WengLinConfig ℝ) : ProbabilityPair (expectedScoreTwoTeams s t cfg) := by
  rw [expectedTwo_real, wlP_eq]; exact probabilityPair_sigmoid _

theorem C58_wengLin_expected_two_teams_swap (s t : List (WengLinRating ℝ))
    (cfg : WengLinConfig ℝ) :
    expectedScoreTwoTeams t s cfg
      = ((expectedScoreTwoTeams s t cfg).2, (expectedScoreTwoTeams s t cfg).1) := by
  simp only [expectedTwo_real]
  rw [wlC_comm, wlP_symm _ (side s).μ (side t).μ, sub_sub_cancel]

theorem C58_wengLin_expected_two_teams_single (a b : WengLinRating ℝ) (cfg : WengLinConfig ℝ) :
    expectedScoreTwoTeams [a] [b] cfg = expectedScore a b cfg := by
  rw [expectedTwo_real, expected_real]
  simp only [side, List.map_cons, List.map_nil, List.sum_cons, List.sum_nil, add_zero]

/-- The list variant is the pairwise function, in any arithmetic. -/
theorem C58_wengLin_expected_list {F : Type} [Flt F] (a : WengLinRating F)
    (os : List (WengLinRating F)) (cfg : WengLinConfig F) :
    expectedScoreRatingPeriod a os cfg = os.map fun o => (expectedScore a o cfg).1 := rfl

/-- The common scale of all teams. -/
noncomputable def multiC (ts : List (List (WengLinRating ℝ))) (β : ℝ) : ℝ :=
  √(2 * β ^ 2 + (ts.map fun t => (side t).v).sum)

theorem expectedMulti_real (ts : List (List (WengLinRating ℝ))) (cfg : WengLinConfig ℝ) :
    expectedScoreMultiTeam ts cfg = ts.map fun t => exp ((side t).μ / multiC ts cfg.beta) /
      (ts.map fun t => exp ((side t).μ / multiC ts cfg.beta)).sum := by
  have e : Flt.sqrt (Flt.mulAdd 2.0 (Flt.powi cfg.beta 2) (Flt.sum (ts.map teamUncertaintySq)))
      = multiC ts cfg.beta := by
    simp only [flt, multiC]
    rw [List.map_congr_left fun t _ => teamUncertaintySq_real t]
  simp only [expectedScoreMultiTeam, e, List.map_map]
  rw [Flt.lit_0, ← List.sum_eq_foldl]
  simp only [Function.comp_def, teamRating_real, flt]

theorem C58_wengLin_expected_multi_length {F : Type} [Flt F] (ts : List (List (WengLinRating F)))
    (cfg : WengLinConfig F) : (expectedScoreMultiTeam ts cfg).length = ts.length := by
  simp [expectedScoreMultiTeam]

theorem multi_sum_pos (ts : List (List (WengLinRating ℝ))) (c : ℝ) (h : ts ≠ []) :
    0 < (ts.map fun t => exp ((side t).μ / c)).sum := by
  apply List.sum_pos
  · intro x hx
    obtain ⟨a, -, rfl⟩ := List.mem_map.1 hx
    exact Real.exp_pos _
  · simpa using h

theorem C58_wengLin_expected_multi_probability (ts : List (List (WengLinRating ℝ)))
    (cfg : WengLinConfig ℝ) (h : ts ≠ []) :
    (∀ x ∈ expectedScoreMultiTeam ts cfg, 0 < x ∧ x ≤ 1) ∧
      (expectedScoreMultiTeam ts cfg).sum = 1 := by
  rw [expectedMulti_real]
  have hs := multi_sum_pos ts (multiC ts cfg.beta) h
  constructor
  · intro x hx
    obtain ⟨t, ht, rfl⟩ := List.mem_map.1 hx
    refine ⟨div_pos (Real.exp_pos _) hs, (div_le_one hs).2 ?_⟩
    apply List.single_le_sum
    · intro y hy
      obtain ⟨u, -, rfl⟩ := List.mem_map.1 hy
      exact (Real.exp_pos _).le
    · exact List.mem_map.2 ⟨t, ht, rfl⟩
  · set S := (ts.map fun t => exp ((side t).μ / multiC ts cfg.beta)).sum with hS
    have e : (ts.map fun t => exp ((side t).μ / multiC ts cfg.beta) / S).sum
        = (ts.map fun t => exp ((side t).μ / multiC ts cfg.beta) * S⁻¹).sum := by
      simp only [← div_eq_mul_inv]
    rw [e, List.sum_map_mul_right, ← hS, mul_inv_cancel₀ hs.ne']

/-- The team with the higher total rating is expected to score more. -/
theorem C58_wengLin_expected_multi_order (ts : List (List (WengLinRating ℝ)))
    (cfg : WengLinConfig ℝ) (hβ : cfg.beta ≠ 0) (i j : ℕ) (hi : i < ts.length)
    (hj : j < ts.length) (hij : (ts[i].map fun p => p.rating).sum < (ts[j].map fun p => p.rating).sum) :
    (expectedScoreMultiTeam ts cfg)[i]? < (expectedScoreMultiTeam ts cfg)[j]? := by
  have hc : 0 < multiC ts cfg.beta := by
    apply Real.sqrt_pos.2
    have h1 : 0 < 2 * cfg.beta ^ 2 := by positivity
    have h2 : 0 ≤ (ts.map fun t => (side t).v).sum := by
      apply List.sum_nonneg
      intro y hy
      obtain ⟨u, -, rfl⟩ := List.mem_map.1 hy
      exact side_v_nonneg u
    linarith
  have hs := multi_sum_pos ts (multiC ts cfg.beta) (by rintro rfl; simp at hi)
  have hij' : (side ts[i]).μ < (side ts[j]).μ := hij
  rw [expectedMulti_real]
  simp only [List.getElem?_map, List.getElem?_eq_getElem hi, List.getElem?_eq_getElem hj,
    Option.map_some, Option.some_lt_some]
  apply div_lt_div_of_pos_right _ hs
  apply Real.exp_lt_exp.2
  gcongr

theorem C58_wengLin_expected_multi_two (s t : List (WengLinRating ℝ)) (cfg : WengLinConfig ℝ) :
    expectedScoreMultiTeam [s, t] cfg =
      [(expectedScoreTwoTeams s t cfg).1, (expectedScoreTwoTeams s t cfg).2] := by
  have e : multiC [s, t] cfg.beta = wlC cfg.beta (side s).v (side t).v := by
    simp only [multiC, wlC, List.map_cons, List.map_nil, List.sum_cons, List.sum_nil, add_zero]
    rw [add_comm]
  rw [expectedMulti_real, expectedTwo_real, ← wlP_symm, e]
  simp only [List.map_cons, List.map_nil, List.sum_cons, List.sum_nil, add_zero, wlP]
  rw [add_comm (exp ((side s).μ / _)) (exp ((side t).μ / _))]

example : (WengLinConfig.new : WengLinConfig ℝ).beta ≠ 0 ∧
    [[(⟨25, 8⟩ : WengLinRating ℝ)], [⟨30, 8⟩], [⟨20, 3⟩, ⟨10, 2⟩]] ≠ [] := by
  constructor
  · norm_num [WengLinConfig.new]
  · simp

/-! ### C59: shapes -/

section Shape
variable {F : Type} [Flt F]

theorem C59_wengLin_two_teams_length (s t : List (WengLinRating F)) (o : Outcomes)
    (cfg : WengLinConfig F) : (wengLinTwoTeams s t o cfg).1.length = s.length ∧
      (wengLinTwoTeams s t o cfg).2.length = t.length := by
  rw [wengLinTwoTeams]
  split
  · exact ⟨rfl, rfl⟩
  · simp [updateTeam]

theorem C59_wengLin_two_teams_empty (s t : List (WengLinRating F)) (o : Outcomes)
    (cfg : WengLinConfig F) (h : s = [] ∨ t = []) : wengLinTwoTeams s t o cfg = (s, t) := by
  rw [wengLinTwoTeams, if_pos]
  rcases h with rfl | rfl <;> simp

theorem C59_wengLin_multi_lengths (ts : List (List (WengLinRating F) × MultiTeamOutcome))
    (cfg : WengLinConfig F) :
    (wengLinMultiTeam ts cfg).map List.length = ts.map fun t => t.1.length := by
  rw [wengLinMultiTeam]
  split_ifs with h1 h2
  · rw [List.isEmpty_iff.1 h1]; rfl
  · rw [List.map_map]; rfl
  · apply List.ext_getElem
    · simp
    · intro i h3 h4
      simp [updateTeam, teamInfo]

theorem C59_wengLin_multi_empty_team (ts : List (List (WengLinRating F) × MultiTeamOutcome))
    (cfg : WengLinConfig F) (h : ∃ t ∈ ts, t.1 = []) :
    wengLinMultiTeam ts cfg = ts.map fun t => t.1 := by
  obtain ⟨t, ht, h0⟩ := h
  rw [wengLinMultiTeam, if_neg, if_pos]
  · rw [List.any_eq_true]; exact ⟨t, ht, by simp [h0]⟩
  · rw [List.isEmpty_iff]; rintro rfl; simp at ht

theorem C59_wengLin_multi_nil (cfg : WengLinConfig F) : wengLinMultiTeam [] cfg = [] := rfl

end Shape

example : ∃ t ∈ [([], MultiTeamOutcome.new 1), ([(⟨25, 8⟩ : WengLinRating ℝ)], .new 2)],
    t.1 = [] := by simp

/-! ### C88: the published algorithm -/

/-- Two players. -/
theorem C88_wengLin_formula (a b : WengLinRating ℝ) (o : Outcomes) (cfg : WengLinConfig ℝ)
    (ha : 0 < a.uncertainty) (hb : 0 < b.uncertainty) :
    let i : WlSide := ⟨a.rating, a.uncertainty ^ 2⟩
    let q : WlSide := ⟨b.rating, b.uncertainty ^ 2⟩
    wengLin a b o cfg =
      (⟨a.rating + wlDelta cfg.beta i q (points o),
        √(a.uncertainty ^ 2 * max (1 - wlEta cfg.beta i q) cfg.uncertaintyTolerance)⟩,
       ⟨b.rating + wlDelta cfg.beta q i (points (mirror o)),
        √(b.uncertainty ^ 2 * max (1 - wlEta cfg.beta q i) cfg.uncertaintyTolerance)⟩) := by
  intro i q
  rw [wengLin_real, points_mirror]
  simp only [i, q, wlDelta, wlEta, Real.sqrt_sq ha.le, Real.sqrt_sq hb.le]
  rw [wlC_comm _ (b.uncertainty ^ 2) (a.uncertainty ^ 2)]
  simp only [wlP_symm _ a.rating b.rating, sub_sub_cancel]

/-- Two teams. -/
theorem C88_wengLin_two_teams_formula (s t : List (WengLinRating ℝ)) (o : Outcomes)
    (cfg : WengLinConfig ℝ) (hs : s ≠ []) (ht : t ≠ []) :
    let i : WlSide := ⟨(s.map fun p => p.rating).sum, (s.map fun p => p.uncertainty ^ 2).sum⟩
    let q : WlSide := ⟨(t.map fun p => p.rating).sum, (t.map fun p => p.uncertainty ^ 2).sum⟩
    wengLinTwoTeams s t o cfg =
      (s.map fun p =>
        ⟨wlRating p.rating (p.uncertainty ^ 2) i.v (wlDelta cfg.beta i q (points o)),
          wlUncertainty (p.uncertainty ^ 2) i.v (wlEta cfg.beta i q) cfg.uncertaintyTolerance⟩,
       t.map fun p =>
        ⟨wlRating p.rating (p.uncertainty ^ 2) q.v (wlDelta cfg.beta q i (points (mirror o))),
          wlUncertainty (p.uncertainty ^ 2) q.v (wlEta cfg.beta q i) cfg.uncertaintyTolerance⟩) := by
  rw [twoTeams_real s t o cfg hs ht, points_mirror]
  rfl

/-- Any number of teams: `Ωᵢ` and `Δᵢ` are the sums over the other teams. -/
theorem C88_wengLin_multi_formula {n : ℕ}
    (t : Fin n → List (WengLinRating ℝ) × MultiTeamOutcome) (cfg : WengLinConfig ℝ)
    (h : ∀ i, (t i).1 ≠ []) :
    let S : Fin n → WlSide := fun i =>
      ⟨((t i).1.map fun p => p.rating).sum, ((t i).1.map fun p => p.uncertainty ^ 2).sum⟩
    wengLinMultiTeam (List.ofFn t) cfg = List.ofFn fun i => (t i).1.map fun p =>
      ⟨wlRating p.rating (p.uncertainty ^ 2) (S i).v
          (∑ q ∈ Finset.univ.erase i,
            wlDelta cfg.beta (S i) (S q) (rankPoints (t i).2 (t q).2)),
        wlUncertainty (p.uncertainty ^ 2) (S i).v
          (∑ q ∈ Finset.univ.erase i, wlEta cfg.beta (S i) (S q)) cfg.uncertaintyTolerance⟩ :=
  multi_real t cfg h

/-- Two players of the same strength: the winner's gain is `σ²/(2c)`. -/
example : (wengLin (⟨25, 3⟩ : WengLinRating ℝ) ⟨25, 4⟩ .WIN ⟨0, 0.001⟩).1.rating = 25.9 := by
  rw [wengLin_real]
  have e : wlC 0 ((3 : ℝ) ^ 2) (4 ^ 2) = 5 := by
    rw [wlC, show (3 : ℝ) ^ 2 + 4 ^ 2 + 2 * 0 ^ 2 = 5 ^ 2 by norm_num, Real.sqrt_sq (by norm_num)]
  simp only [e, wlP_eq, points, sub_self, zero_div, sigmoid_zero]
  norm_num

/-! ### C60: agreement -/

theorem C60_wengLin_two_teams_single (a b : WengLinRating ℝ) (o : Outcomes)
    (cfg : WengLinConfig ℝ) (ha : 0 < a.uncertainty) (hb : 0 < b.uncertainty) :
    wengLinTwoTeams [a] [b] o cfg = ([(wengLin a b o cfg).1], [(wengLin a b o cfg).2]) := by
  rw [C88_wengLin_two_teams_formula _ _ _ _ (by simp) (by simp),
    C88_wengLin_formula a b o cfg ha hb]
  have h1 : a.uncertainty ^ 2 / a.uncertainty ^ 2 = 1 := div_self (by positivity)
  have h2 : b.uncertainty ^ 2 / b.uncertainty ^ 2 = 1 := div_self (by positivity)
  simp only [List.map_cons, List.map_nil, List.sum_cons, List.sum_nil, add_zero, wlRating,
    wlUncertainty, h1, h2, one_mul]

/-- The result that two ranks describe. -/
def rankOutcome (one two : MultiTeamOutcome) : Outcomes :=
  if one.val < two.val then .WIN else if one.val = two.val then .DRAW else .LOSS

theorem points_rankOutcome (a b : MultiTeamOutcome) : points (rankOutcome a b) = rankPoints a b := by
  unfold rankOutcome rankPoints
  split_ifs <;> rfl

theorem C60_wengLin_multi_two (s t : List (WengLinRating ℝ)) (r₁ r₂ : MultiTeamOutcome)
    (cfg : WengLinConfig ℝ) :
    wengLinMultiTeam [(s, r₁), (t, r₂)] cfg =
      [(wengLinTwoTeams s t (rankOutcome r₁ r₂) cfg).1,
       (wengLinTwoTeams s t (rankOutcome r₁ r₂) cfg).2] := by
  by_cases hs : s = []
  · rw [C59_wengLin_multi_empty_team _ _ ⟨(s, r₁), by simp, hs⟩,
      C59_wengLin_two_teams_empty _ _ _ _ (.inl hs)]
    rfl
  by_cases ht : t = []
  · rw [C59_wengLin_multi_empty_team _ _ ⟨(t, r₂), by simp, ht⟩,
      C59_wengLin_two_teams_empty _ _ _ _ (.inr ht)]
    rfl
  rw [twoTeams_real s t _ cfg hs ht]
  have key := multi_real (n := 2) ![(s, r₁), (t, r₂)] cfg (by
    intro i; fin_cases i
    · exact hs
    · exact ht)
  have e0 : Finset.univ.erase (0 : Fin 2) = {1} := rfl
  have e1 : Finset.univ.erase (1 : Fin 2) = {0} := rfl
  simp only [List.ofFn_succ, List.ofFn_zero, Omega, Delta, e0, e1, Finset.sum_singleton,
    Matrix.cons_val_zero, Matrix.cons_val_succ, Fin.succ_zero_eq_one, Matrix.cons_val_one] at key
  rw [key, points_rankOutcome, ← rankPoints_swap]

/-- A rating period is the fold of its games, in any arithmetic. -/
theorem C60_wengLin_period_fold {F : Type} [Flt F] (p : WengLinRating F)
    (rs : List (WengLinRating F × Outcomes)) (cfg : WengLinConfig F) :
    wengLinRatingPeriod p rs cfg =
      gauntlet wengLin p (rs.map fun r => (r.1, r.2, cfg)) := by
  rw [gauntlet, List.foldl_map]
  rfl

example : 0 < (WengLinRating.new : WengLinRating ℝ).uncertainty := by
  norm_num [WengLinRating.new]

/-! ### C61: uncertainties -/

theorem C61_wengLin_game (a b : WengLinRating ℝ) (o : Outcomes) (cfg : WengLinConfig ℝ)
    (ha : 0 < a.uncertainty) (h0 : 0 < cfg.uncertaintyTolerance)
    (h1 : cfg.uncertaintyTolerance ≤ 1) :
    0 < (wengLin a b o cfg).1.uncertainty ∧
      √cfg.uncertaintyTolerance * a.uncertainty ≤ (wengLin a b o cfg).1.uncertainty ∧
      (wengLin a b o cfg).1.uncertainty ≤ a.uncertainty := by
  rw [wengLin_real]
  set c := wlC cfg.beta (a.uncertainty ^ 2) (b.uncertainty ^ 2)
  have hc : 0 < c := wlC_pos (sq_nonneg _) (sq_nonneg _) (.inl (by positivity))
  set p := wlP c a.rating b.rating
  have hp : 0 < p := wlP_pos _ _ _
  have hp1 : 0 < 1 - p := sub_pos.2 (wlP_lt_one _ _ _)
  have hη : 0 ≤ (a.uncertainty / c) ^ 3 * p * (1 - p) := by positivity
  simp only
  set m := max (1 - (a.uncertainty / c) ^ 3 * p * (1 - p)) cfg.uncertaintyTolerance
  have hm0 : cfg.uncertaintyTolerance ≤ m := le_max_right _ _
  have hm1 : m ≤ 1 := max_le (by linarith) h1
  have e : √(a.uncertainty ^ 2 * m) = √m * a.uncertainty := by
    rw [mul_comm, Real.sqrt_mul (by linarith), Real.sqrt_sq ha.le]
  rw [e]
  refine ⟨mul_pos (Real.sqrt_pos.2 (by linarith)) ha, ?_, ?_⟩
  · gcongr
  · have : √m ≤ 1 := Real.sqrt_le_one.2 hm1
    nlinarith

theorem C61_wengLin_game_second (a b : WengLinRating ℝ) (o : Outcomes) (cfg : WengLinConfig ℝ)
    (hb : 0 < b.uncertainty) (h0 : 0 < cfg.uncertaintyTolerance)
    (h1 : cfg.uncertaintyTolerance ≤ 1) :
    0 < (wengLin a b o cfg).2.uncertainty ∧
      √cfg.uncertaintyTolerance * b.uncertainty ≤ (wengLin a b o cfg).2.uncertainty ∧
      (wengLin a b o cfg).2.uncertainty ≤ b.uncertainty := by
  have e : (wengLin a b o cfg).2.uncertainty = (wengLin b a o cfg).1.uncertainty := by
    simp only [wengLin_real]
    rw [wlP_symm _ a.rating b.rating, wlC_comm _ (b.uncertainty ^ 2)]
  rw [e]
  exact C61_wengLin_game b a o cfg hb h0 h1

theorem C61_wengLin_period (p : WengLinRating ℝ) (rs : List (WengLinRating ℝ × Outcomes))
    (cfg : WengLinConfig ℝ) (hp : 0 < p.uncertainty) (h0 : 0 < cfg.uncertaintyTolerance)
    (h1 : cfg.uncertaintyTolerance ≤ 1) :
    0 < (wengLinRatingPeriod p rs cfg).uncertainty ∧
      (wengLinRatingPeriod p rs cfg).uncertainty ≤ p.uncertainty := by
  rw [C60_wengLin_period_fold, gauntlet, List.foldl_map]
  induction rs generalizing p with
  | nil => exact ⟨hp, le_rfl⟩
  | cons r rs ih =>
    rw [List.foldl_cons]
    have h2 := C61_wengLin_game p r.1 r.2 cfg hp h0 h1
    have h3 := ih _ h2.1
    exact ⟨h3.1, h3.2.trans h2.2.2⟩

/-- Over a period the uncertainty shrinks by at most the factor `√tolerance` per game. -/
theorem C61_wengLin_period_lower (p : WengLinRating ℝ) (rs : List (WengLinRating ℝ × Outcomes))
    (cfg : WengLinConfig ℝ) (hp : 0 < p.uncertainty) (h0 : 0 < cfg.uncertaintyTolerance)
    (h1 : cfg.uncertaintyTolerance ≤ 1) :
    √cfg.uncertaintyTolerance ^ rs.length * p.uncertainty
      ≤ (wengLinRatingPeriod p rs cfg).uncertainty := by
  rw [C60_wengLin_period_fold, gauntlet, List.foldl_map]
  induction rs generalizing p with
  | nil => simp
  | cons r rs ih =>
    rw [List.foldl_cons, List.length_cons, pow_succ, mul_assoc]
    have h2 := C61_wengLin_game p r.1 r.2 cfg hp h0 h1
    exact (mul_le_mul_of_nonneg_left h2.2.1 (by positivity)).trans (ih _ h2.1)

/-- A new rating is a legal successor of the old one. -/
def Shrinks (κ : ℝ) (p p' : WengLinRating ℝ) : Prop :=
  0 < p'.uncertainty ∧ √κ * p.uncertainty ≤ p'.uncertainty ∧ p'.uncertainty ≤ p.uncertainty

theorem update_shrinks (team : List (WengLinRating ℝ)) {κ Δ : ℝ} (Ω : ℝ) (hΔ : 0 ≤ Δ)
    (h0 : 0 < κ) (h1 : κ ≤ 1) (i : ℕ) (p p' : WengLinRating ℝ) (hp : team[i]? = some p)
    (hp' : (update team κ Ω Δ)[i]? = some p') (hpos : 0 < p.uncertainty) : Shrinks κ p p' := by
  rw [update, List.getElem?_map, hp, Option.map_some] at hp'
  cases hp'
  have hs : 0 ≤ p.uncertainty ^ 2 := sq_nonneg _
  have hlow := wlUncertainty_ge (side team).v Δ κ hs
  have hup := wlUncertainty_le hs (side_v_nonneg team) hΔ h1
  rw [Real.sqrt_sq hpos.le] at hlow hup
  refine ⟨lt_of_lt_of_le (mul_pos (Real.sqrt_pos.2 h0) hpos) hlow, hlow, hup⟩

theorem C61_wengLin_two_teams (s t : List (WengLinRating ℝ)) (o : Outcomes)
    (cfg : WengLinConfig ℝ) (hs : s ≠ []) (ht : t ≠ []) (h0 : 0 < cfg.uncertaintyTolerance)
    (h1 : cfg.uncertaintyTolerance ≤ 1) (i : ℕ) (p p' : WengLinRating ℝ)
    (hp : 0 < p.uncertainty) :
    (s[i]? = some p → (wengLinTwoTeams s t o cfg).1[i]? = some p' →
        Shrinks cfg.uncertaintyTolerance p p') ∧
      (t[i]? = some p → (wengLinTwoTeams s t o cfg).2[i]? = some p' →
        Shrinks cfg.uncertaintyTolerance p p') := by
  rw [twoTeams_real s t o cfg hs ht]
  exact ⟨fun h h' => update_shrinks s _ (wlEta_nonneg _ _ _) h0 h1 i p p' h h' hp,
    fun h h' => update_shrinks t _ (wlEta_nonneg _ _ _) h0 h1 i p p' h h' hp⟩

theorem C61_wengLin_multi {n : ℕ} (t : Fin n → List (WengLinRating ℝ) × MultiTeamOutcome)
    (cfg : WengLinConfig ℝ) (h : ∀ i, (t i).1 ≠ []) (h0 : 0 < cfg.uncertaintyTolerance)
    (h1 : cfg.uncertaintyTolerance ≤ 1) (i : Fin n) (team' : List (WengLinRating ℝ))
    (ht : (wengLinMultiTeam (List.ofFn t) cfg)[(i : ℕ)]? = some team') (j : ℕ)
    (p p' : WengLinRating ℝ) (hp : 0 < p.uncertainty) (hj : (t i).1[j]? = some p)
    (hj' : team'[j]? = some p') : Shrinks cfg.uncertaintyTolerance p p' := by
  rw [multi_real t cfg h] at ht
  simp only [List.getElem?_ofFn, i.isLt, dif_pos, Option.some.injEq, Fin.eta] at ht
  subst ht
  exact update_shrinks _ _ (Finset.sum_nonneg fun q _ => wlEta_nonneg _ _ _) h0 h1 j p p' hj hj' hp

/-- What can happen to a player; the tolerance is the same all the time. -/
inductive Step (κ : ℝ) : WengLinRating ℝ → WengLinRating ℝ → Prop
  | first (p b : WengLinRating ℝ) (o : Outcomes) (β : ℝ) : Step κ p (wengLin p b o ⟨β, κ⟩).1
  | second (a p : WengLinRating ℝ) (o : Outcomes) (β : ℝ) : Step κ p (wengLin a p o ⟨β, κ⟩).2
  | period (p : WengLinRating ℝ) (rs : List (WengLinRating ℝ × Outcomes)) (β : ℝ) :
      Step κ p (wengLinRatingPeriod p rs ⟨β, κ⟩)
  | teamOne (s t : List (WengLinRating ℝ)) (o : Outcomes) (β : ℝ) (i : ℕ) (p p' : WengLinRating ℝ) :
      s[i]? = some p → (wengLinTwoTeams s t o ⟨β, κ⟩).1[i]? = some p' → Step κ p p'
  | teamTwo (s t : List (WengLinRating ℝ)) (o : Outcomes) (β : ℝ) (i : ℕ) (p p' : WengLinRating ℝ) :
      t[i]? = some p → (wengLinTwoTeams s t o ⟨β, κ⟩).2[i]? = some p' → Step κ p p'
  | multi (ts : List (List (WengLinRating ℝ) × MultiTeamOutcome)) (β : ℝ) (i j : ℕ)
      (team : List (WengLinRating ℝ) × MultiTeamOutcome) (team' : List (WengLinRating ℝ))
      (p p' : WengLinRating ℝ) :
      ts[i]? = some team → (wengLinMultiTeam ts ⟨β, κ⟩)[i]? = some team' →
      team.1[j]? = some p → team'[j]? = some p' → Step κ p p'

theorem Step.shrinks {κ : ℝ} (h0 : 0 < κ) (h1 : κ ≤ 1) {p p' : WengLinRating ℝ}
    (h : Step κ p p') (hp : 0 < p.uncertainty) :
    0 < p'.uncertainty ∧ p'.uncertainty ≤ p.uncertainty := by
  cases h with
  | first p b o β =>
    have := C61_wengLin_game p b o ⟨β, κ⟩ hp h0 h1
    exact ⟨this.1, this.2.2⟩
  | second a p o β =>
    have := C61_wengLin_game_second a p o ⟨β, κ⟩ hp h0 h1
    exact ⟨this.1, this.2.2⟩
  | period p rs β => exact C61_wengLin_period p rs ⟨β, κ⟩ hp h0 h1
  | teamOne s t o β i p p' hi hi' =>
    by_cases hs : s = []
    · subst hs; simp at hi
    by_cases ht : t = []
    · rw [C59_wengLin_two_teams_empty _ _ _ _ (.inr ht), hi] at hi'
      cases hi'; exact ⟨hp, le_rfl⟩
    have := (C61_wengLin_two_teams s t o ⟨β, κ⟩ hs ht h0 h1 i p p' hp).1 hi hi'
    exact ⟨this.1, this.2.2⟩
  | teamTwo s t o β i p p' hi hi' =>
    by_cases ht : t = []
    · subst ht; simp at hi
    by_cases hs : s = []
    · rw [C59_wengLin_two_teams_empty _ _ _ _ (.inl hs), hi] at hi'
      cases hi'; exact ⟨hp, le_rfl⟩
    have := (C61_wengLin_two_teams s t o ⟨β, κ⟩ hs ht h0 h1 i p p' hp).2 hi hi'
    exact ⟨this.1, this.2.2⟩
  | multi ts β i j team team' p p' hi hi' hj hj' =>
    by_cases he : ∃ t ∈ ts, t.1 = []
    · rw [C59_wengLin_multi_empty_team _ _ he, List.getElem?_map, hi] at hi'
      cases hi'
      rw [hj] at hj'
      cases hj'
      exact ⟨hp, le_rfl⟩
    · push Not at he
      obtain ⟨hlt, hget⟩ := List.getElem?_eq_some_iff.1 hi
      have e : List.ofFn (fun i : Fin ts.length => ts[i]) = ts := List.ofFn_getElem
      have := C61_wengLin_multi (fun i : Fin ts.length => ts[i]) ⟨β, κ⟩
        (fun i => he _ (List.getElem_mem _)) h0 h1 ⟨i, hlt⟩ team'
        (by rw [e]; exact hi') j p p' hp (by simpa [hget] using hj) hj'
      exact ⟨this.1, this.2.2⟩

/-- Over any history of games, periods and team matches with arbitrary opponents and team mates
the uncertainty stays positive and never grows. -/
theorem C61_wengLin_history (κ : ℝ) (h0 : 0 < κ) (h1 : κ ≤ 1) (p p' : WengLinRating ℝ)
    (h : Relation.ReflTransGen (Step κ) p p') (hp : 0 < p.uncertainty) :
    0 < p'.uncertainty ∧ p'.uncertainty ≤ p.uncertainty := by
  induction h with
  | refl => exact ⟨hp, le_rfl⟩
  | tail _ hs ih =>
    have := hs.shrinks h0 h1 ih.1
    exact ⟨this.1, this.2.trans ih.2⟩

example : 0 < (WengLinConfig.new : WengLinConfig ℝ).uncertaintyTolerance ∧
    (WengLinConfig.new : WengLinConfig ℝ).uncertaintyTolerance ≤ 1 := by
  norm_num [WengLinConfig.new]

/-! ### C62: direction -/

theorem C62_wengLin_win (a b : WengLinRating ℝ) (cfg : WengLinConfig ℝ)
    (ha : 0 < a.uncertainty) (hb : 0 < b.uncertainty) :
    a.rating < (wengLin a b .WIN cfg).1.rating ∧ (wengLin a b .WIN cfg).2.rating < b.rating := by
  rw [wengLin_real]
  set c := wlC cfg.beta (a.uncertainty ^ 2) (b.uncertainty ^ 2)
  have hc : 0 < c := wlC_pos (sq_nonneg _) (sq_nonneg _) (.inl (by positivity))
  set p := wlP c a.rating b.rating
  have hp1 : 0 < 1 - p := sub_pos.2 (wlP_lt_one _ _ _)
  simp only [points]
  constructor
  · have : 0 < a.uncertainty ^ 2 / c * (1 - p) := by positivity
    linarith
  · have : 0 < b.uncertainty ^ 2 / c * (1 - p) := by positivity
    linarith

theorem C62_wengLin_loss (a b : WengLinRating ℝ) (cfg : WengLinConfig ℝ)
    (ha : 0 < a.uncertainty) (hb : 0 < b.uncertainty) :
    (wengLin a b .LOSS cfg).1.rating < a.rating ∧ b.rating < (wengLin a b .LOSS cfg).2.rating := by
  rw [wengLin_real]
  set c := wlC cfg.beta (a.uncertainty ^ 2) (b.uncertainty ^ 2)
  have hc : 0 < c := wlC_pos (sq_nonneg _) (sq_nonneg _) (.inl (by positivity))
  set p := wlP c a.rating b.rating
  have hp : 0 < p := wlP_pos _ _ _
  simp only [points]
  constructor
  · have : 0 < a.uncertainty ^ 2 / c * p := by positivity
    linarith
  · have : 0 < b.uncertainty ^ 2 / c * p := by positivity
    linarith

/-- Both seats are treated alike. -/
theorem C62_wengLin_swap (a b : WengLinRating ℝ) (o : Outcomes) (cfg : WengLinConfig ℝ) :
    wengLin b a (mirror o) cfg = ((wengLin a b o cfg).2, (wengLin a b o cfg).1) := by
  simp only [wengLin_real, points_mirror]
  rw [wlC_comm _ (b.uncertainty ^ 2), wlP_symm _ a.rating b.rating]
  simp

/-- Every change is the variance of the player times a factor of the team. -/
def Pays (k : ℝ) (team team' : List (WengLinRating ℝ)) : Prop :=
  ∀ (i : ℕ) (p p' : WengLinRating ℝ), team[i]? = some p → team'[i]? = some p' →
    p'.rating - p.rating = k * p.uncertainty ^ 2

theorem update_pays {team : List (WengLinRating ℝ)} (κ k Δ : ℝ) (hv : 0 < (side team).v) :
    Pays k team (update team κ ((side team).v * k) Δ) := by
  intro i p p' h h'
  rw [update, List.getElem?_map, h, Option.map_some] at h'
  cases h'
  simp only [wlRating]
  field_simp
  ring

/-- What one team gains per variance the other one loses. -/
theorem C62_wengLin_two_teams_proportional (s t : List (WengLinRating ℝ)) (o : Outcomes)
    (cfg : WengLinConfig ℝ) (hs : ∃ p ∈ s, p.uncertainty ≠ 0) (ht : ∃ p ∈ t, p.uncertainty ≠ 0) :
    ∃ k, (o = .WIN → 0 < k) ∧ (o = .LOSS → k < 0) ∧
      Pays k s (wengLinTwoTeams s t o cfg).1 ∧ Pays (-k) t (wengLinTwoTeams s t o cfg).2 := by
  obtain ⟨p, hp, hpu⟩ := hs
  obtain ⟨q, hq, hqu⟩ := ht
  have hvs := side_v_pos hp hpu
  have hvt := side_v_pos hq hqu
  have hc := wlC_pos (β := cfg.beta) (side_v_nonneg s) (side_v_nonneg t) (.inl hvs)
  have h0 := wlP_pos (wlC cfg.beta (side s).v (side t).v) (side s).μ (side t).μ
  have h1 := wlP_lt_one (wlC cfg.beta (side s).v (side t).v) (side s).μ (side t).μ
  refine ⟨(points o - wlP (wlC cfg.beta (side s).v (side t).v) (side s).μ (side t).μ)
    / wlC cfg.beta (side s).v (side t).v, ?_, ?_, ?_, ?_⟩
  · rintro rfl
    simp only [points]
    apply div_pos _ hc
    linarith
  · rintro rfl
    simp only [points]
    apply div_neg_of_neg_of_pos _ hc
    linarith
  · rw [twoTeams_real s t o cfg (by rintro rfl; simp at hp) (by rintro rfl; simp at hq)]
    have e : wlDelta cfg.beta (side s) (side t) (points o) = (side s).v *
        ((points o - wlP (wlC cfg.beta (side s).v (side t).v) (side s).μ (side t).μ)
          / wlC cfg.beta (side s).v (side t).v) := by
      rw [wlDelta]; ring
    rw [e]
    exact update_pays _ _ _ hvs
  · rw [twoTeams_real s t o cfg (by rintro rfl; simp at hp) (by rintro rfl; simp at hq)]
    have e : wlDelta cfg.beta (side t) (side s) (1 - points o) = (side t).v *
        -((points o - wlP (wlC cfg.beta (side s).v (side t).v) (side s).μ (side t).μ)
          / wlC cfg.beta (side s).v (side t).v) := by
      rw [wlDelta, wlC_comm _ (side t).v, wlP_symm _ (side s).μ]; ring
    rw [e]
    exact update_pays _ _ _ hvt

/-- In a match of any number of teams the factors of the teams sum to zero, a team ranked
strictly above all others gains and a team ranked strictly below all others loses. -/
theorem C62_wengLin_multi_proportional {n : ℕ}
    (t : Fin n → List (WengLinRating ℝ) × MultiTeamOutcome) (cfg : WengLinConfig ℝ)
    (h : ∀ i, ∃ p ∈ (t i).1, p.uncertainty ≠ 0) (hn : 2 ≤ n) :
    ∃ k : Fin n → ℝ, (∑ i, k i = 0) ∧
      (∀ i : Fin n, ∃ team', (wengLinMultiTeam (List.ofFn t) cfg)[(i : ℕ)]? = some team' ∧
        Pays (k i) (t i).1 team') ∧
      (∀ i, (∀ q, q ≠ i → (t i).2.val < (t q).2.val) → 0 < k i) ∧
      (∀ i, (∀ q, q ≠ i → (t q).2.val < (t i).2.val) → k i < 0) := by
  have hv : ∀ i, 0 < (side (t i).1).v := fun i => by
    obtain ⟨p, hp, hpu⟩ := h i; exact side_v_pos hp hpu
  have hne : ∀ i, (t i).1 ≠ [] := fun i => by
    obtain ⟨p, hp, -⟩ := h i; rintro h0; simp [h0] at hp
  set C : Fin n → Fin n → ℝ := fun i q => wlC cfg.beta (side (t i).1).v (side (t q).1).v with hC
  have hCpos : ∀ i q, 0 < C i q := fun i q =>
    wlC_pos (side_v_nonneg _) (side_v_nonneg _) (.inl (hv i))
  set P : Fin n → Fin n → ℝ := fun i q => wlP (C i q) (side (t i).1).μ (side (t q).1).μ with hP
  set f : Fin n → Fin n → ℝ := fun i q =>
    if i = q then 0 else (rankPoints (t i).2 (t q).2 - P i q) / C i q with hf
  have hanti : ∀ i q, f q i = -f i q := by
    intro i q
    by_cases hiq : i = q
    · subst hiq; simp [hf]
    · simp only [hf, if_neg hiq, if_neg (Ne.symm hiq)]
      have e1 : C q i = C i q := wlC_comm _ _ _
      have e2 : P q i = 1 - P i q := by
        simp only [hP, e1]; exact wlP_symm _ _ _
      rw [e1, e2, rankPoints_swap (t i).2 (t q).2]
      ring
  have hother : ∀ i : Fin n, ∃ q, q ≠ i := by
    intro i
    by_contra hcon
    push Not at hcon
    have h0 := hcon ⟨0, by omega⟩
    have h1 := hcon ⟨1, by omega⟩
    rw [← h1] at h0
    simp at h0
  refine ⟨fun i => ∑ q, f i q, ?_, ?_, ?_, ?_⟩
  · have h1 : ∑ i, ∑ q, f i q = ∑ i, ∑ q, f q i := Finset.sum_comm
    have h2 : ∑ i, ∑ q, f q i = -∑ i, ∑ q, f i q := by
      rw [← Finset.sum_neg_distrib]
      refine Finset.sum_congr rfl fun i _ => ?_
      rw [← Finset.sum_neg_distrib]
      exact Finset.sum_congr rfl fun q _ => hanti i q
    linarith
  · intro i
    refine ⟨update (t i).1 cfg.uncertaintyTolerance (Omega cfg.beta t i) (Delta cfg.beta t i),
      by rw [multi_real t cfg hne]; simp, ?_⟩
    have e : Omega cfg.beta t i = (side (t i).1).v * ∑ q, f i q := by
      rw [Omega, sum_erase_eq, Finset.mul_sum]
      refine Finset.sum_congr rfl fun q _ => ?_
      simp only [hf]
      split_ifs
      · ring
      · simp only [wlDelta, hP, hC]; ring
    rw [e]
    exact update_pays _ _ _ (hv i)
  · intro i hbest
    apply Finset.sum_pos' (fun q _ => ?_)
    · obtain ⟨q, hq⟩ := hother i
      refine ⟨q, Finset.mem_univ _, ?_⟩
      simp only [hf, if_neg hq.symm, rankPoints, if_pos (hbest q hq)]
      exact div_pos (sub_pos.2 (wlP_lt_one _ _ _)) (hCpos i q)
    · simp only [hf]
      split_ifs with hiq
      · exact le_rfl
      · rw [rankPoints, if_pos (hbest q (Ne.symm hiq))]
        exact div_nonneg (sub_nonneg.2 (wlP_lt_one _ _ _).le) (hCpos i q).le
  · intro i hworst
    have : 0 < ∑ q, f q i := by
      apply Finset.sum_pos' (fun q _ => ?_)
      · obtain ⟨q, hq⟩ := hother i
        refine ⟨q, Finset.mem_univ _, ?_⟩
        simp only [hf, if_neg hq, rankPoints, if_pos (hworst q hq)]
        exact div_pos (sub_pos.2 (wlP_lt_one _ _ _)) (hCpos q i)
      · simp only [hf]
        split_ifs with hiq
        · exact le_rfl
        · rw [rankPoints, if_pos (hworst q hiq)]
          exact div_nonneg (sub_nonneg.2 (wlP_lt_one _ _ _).le) (hCpos q i).le
    have e : ∑ q, f q i = -∑ q, f i q := by
      rw [← Finset.sum_neg_distrib]
      exact Finset.sum_congr rfl fun q _ => hanti i q
    linarith

example : ∃ p ∈ [(⟨25, 0⟩ : WengLinRating ℝ), ⟨30, 8⟩], p.uncertainty ≠ 0 := by simp

/-! ### C63: ranks -/

/-- Only the order of the ranks matters, in any arithmetic. -/
theorem C63_wengLin_multi_relabel {F : Type} [Flt F]
    (ts : List (List (WengLinRating F) × MultiTeamOutcome)) (cfg : WengLinConfig F)
    (f : MultiTeamOutcome → MultiTeamOutcome)
    (hf : ∀ s ∈ ts, ∀ t ∈ ts, (s.2.val < t.2.val ↔ (f s.2).val < (f t.2).val)) :
    wengLinMultiTeam (ts.map fun t => (t.1, f t.2)) cfg = wengLinMultiTeam ts cfg := by
  have hscore : ∀ s ∈ ts, ∀ t ∈ ts, (rankScore (f s.2) (f t.2) : F) = rankScore s.2 t.2 := by
    intro s hs t ht
    have h1 := hf s hs t ht
    have h2 := hf t ht s hs
    have : (f t.2).cmp (f s.2) = t.2.cmp s.2 := by
      simp only [MultiTeamOutcome.cmp]
      rcases lt_trichotomy s.2.val t.2.val with h | h | h
      · rw [Nat.compare_eq_gt.2 h, Nat.compare_eq_gt.2 (h1.1 h)]
      · rw [Nat.compare_eq_eq.2 h.symm, Nat.compare_eq_eq.2 (by omega)]
      · rw [Nat.compare_eq_lt.2 h, Nat.compare_eq_lt.2 (h2.1 h)]
    rw [rankScore, this, rankScore]
  rw [wengLinMultiTeam, wengLinMultiTeam]
  have e1 : (ts.map fun t => (t.1, f t.2)).isEmpty = ts.isEmpty := by cases ts <;> rfl
  have e2 : ((ts.map fun t => (t.1, f t.2)).any fun t => t.1.isEmpty)
      = ts.any fun t => t.1.isEmpty := by simp [Function.comp_def]
  rw [e1, e2]
  split_ifs
  · rfl
  · rw [List.map_map]; rfl
  · apply List.ext_getElem
    · simp
    intro i h3 h4
    have hi : i < ts.length := by simpa using h4
    simp only [List.getElem_map, List.getElem_zipIdx, List.map_map]
    have key : omegaDelta (ts.map (teamInfo ∘ fun t => (t.1, f t.2)))
        (teamInfo (ts[i].1, f ts[i].2)) (0 + i) cfg
        = omegaDelta (ts.map teamInfo) (teamInfo ts[i]) (0 + i) cfg := by
      rw [omegaDelta, omegaDelta, List.zipIdx_map, List.zipIdx_map, List.foldl_map, List.foldl_map]
      apply List.foldl_ext
      intro acc x hx
      have hx' : x.1 ∈ ts := by
        obtain ⟨hx1, hx2, hx3⟩ := List.mem_zipIdx hx
        rw [hx3]; exact List.getElem_mem _
      simp only [teamInfo, Prod.map, Function.comp, id, hscore _ (List.getElem_mem hi) _ hx']
    simp only [Function.comp_apply]
    rw [key]
    rfl

/-- Permuting the teams permutes the results. -/
theorem C63_wengLin_multi_perm {n : ℕ}
    (t : Fin n → List (WengLinRating ℝ) × MultiTeamOutcome) (cfg : WengLinConfig ℝ)
    (σ : Equiv.Perm (Fin n)) (i : Fin n) :
    (wengLinMultiTeam (List.ofFn (t ∘ σ)) cfg)[(i : ℕ)]? =
      (wengLinMultiTeam (List.ofFn t) cfg)[(σ i : ℕ)]? := by
  by_cases he : ∃ i, (t i).1 = []
  · obtain ⟨j, hj⟩ := he
    rw [C59_wengLin_multi_empty_team (List.ofFn (t ∘ σ)) cfg
        ⟨t j, List.mem_ofFn.2 ⟨σ.symm j, by simp⟩, hj⟩,
      C59_wengLin_multi_empty_team (List.ofFn t) cfg ⟨t j, List.mem_ofFn.2 ⟨j, rfl⟩, hj⟩]
    simp
  · push Not at he
    rw [multi_real t cfg he, multi_real (t ∘ σ) cfg fun i => he (σ i)]
    have e : ∀ f : Fin n → ℝ, ∑ q ∈ Finset.univ.erase i, f (σ q)
        = ∑ q ∈ Finset.univ.erase (σ i), f q := by
      intro f
      rw [sum_erase_eq, sum_erase_eq, ← Equiv.sum_comp σ fun q => if σ i = q then 0 else f q]
      simp only [EmbeddingLike.apply_eq_iff_eq]
    have e1 : Omega cfg.beta (t ∘ σ) i = Omega cfg.beta t (σ i) := e fun q =>
      wlDelta cfg.beta (side (t (σ i)).1) (side (t q).1) (rankPoints (t (σ i)).2 (t q).2)
    have e2 : Delta cfg.beta (t ∘ σ) i = Delta cfg.beta t (σ i) := e fun q =>
      wlEta cfg.beta (side (t (σ i)).1) (side (t q).1)
    simp [e1, e2]

/-- Doubling the ranks is a relabelling. -/
example (s t : MultiTeamOutcome) : s.val < t.val ↔
    (MultiTeamOutcome.new (2 * s.val)).val < (MultiTeamOutcome.new (2 * t.val)).val := by
  simp [MultiTeamOutcome.new]

end Skillratings.WengLin
