import Verif.Proofs.Egf
/-
Properties of /repo/src/egf.rs: C18 - C22, C83.
-/
namespace Skillratings.Egf
open Real Spec

/-- Both players of a game are below the ceiling, after the handicap. -/
def BelowCeiling (a b : EGFRating ℝ) (c : EGFConfig ℝ) : Prop :=
  egfFirst a.rating c.handicap < 3300 ∧ egfSecond b.rating c.handicap < 3300

/-! ### C18: expected scores -/

theorem C18_egf_expected_formula (a b : EGFRating ℝ) (c : EGFConfig ℝ)
    (_h : BelowCeiling a b c) :
    (expectedScore a b c).1 =
      egfExpected (egfFirst a.rating c.handicap) (egfSecond b.rating c.handicap) := by
  rw [expectedScore_real, egfExpected_eq]

theorem C18_egf_expected_probability (a b : EGFRating ℝ) (c : EGFConfig ℝ)
    (_h : BelowCeiling a b c) : ProbabilityPair (expectedScore a b c) := by
  rw [expectedScore_real]; exact probabilityPair_sigmoid _

/-- The odds are the seventh power of the ratio of the distances to the ceiling. -/
theorem C18_egf_expected_odds (a b : EGFRating ℝ) (c : EGFConfig ℝ) (h : BelowCeiling a b c) :
    odds (expectedScore a b c).1 =
      ((3300 - egfSecond b.rating c.handicap) / (3300 - egfFirst a.rating c.handicap)) ^ 7 := by
  have h1 : 0 < 3300 - egfFirst a.rating c.handicap := by linarith [h.1]
  have h2 : 0 < 3300 - egfSecond b.rating c.handicap := by linarith [h.2]
  rw [expectedScore_real, odds_sigmoid, egfBeta, egfBeta,
    show -7 * log (3300 - egfFirst a.rating c.handicap)
      - -7 * log (3300 - egfSecond b.rating c.handicap)
      = (7 : ℕ) * (log (3300 - egfSecond b.rating c.handicap)
        - log (3300 - egfFirst a.rating c.handicap)) by push_cast; ring,
    ← Real.log_div h2.ne' h1.ne', Real.exp_nat_mul, Real.exp_log (div_pos h2 h1)]

theorem C18_egf_expected_swap (a b : EGFRating ℝ) (c : EGFConfig ℝ) (_h : BelowCeiling a b c) :
    expectedScore b a ⟨-c.handicap⟩ = ((expectedScore a b c).2, (expectedScore a b c).1) := by
  have h1 : egfFirst b.rating (-c.handicap) = egfSecond b.rating c.handicap := by
    unfold egfFirst egfSecond
    rcases lt_trichotomy c.handicap 0 with h | h | h
    · rw [if_neg (by linarith), if_pos h]
    · simp [h, egfStones]
    · rw [if_pos (by linarith), if_neg (by linarith), neg_neg]
  have h2 : egfSecond a.rating (-c.handicap) = egfFirst a.rating c.handicap := by
    unfold egfFirst egfSecond
    rcases lt_trichotomy c.handicap 0 with h | h | h
    · rw [if_neg (by linarith), if_pos h]
    · simp [h, egfStones]
    · rw [if_pos (by linarith), if_neg (by linarith)]
  rw [expectedScore_real, expectedScore_real]
  simp only [h1, h2]
  rw [← sigmoid_neg, neg_sub, ← neg_sub (egfBeta (egfSecond b.rating c.handicap)), sigmoid_neg]
  simp

theorem C18_egf_expected_strictMono_own (a a' b : EGFRating ℝ) (c : EGFConfig ℝ)
    (h : a.rating < a'.rating) (h' : BelowCeiling a' b c) :
    (expectedScore a b c).1 < (expectedScore a' b c).1 := by
  have hf : egfFirst a.rating c.handicap < egfFirst a'.rating c.handicap := by
    unfold egfFirst; split_ifs <;> linarith
  simp only [expectedScore_real, sigmoid_lt_iff]
  linarith [egfBeta_lt hf h'.1]

theorem C18_egf_expected_strictAnti_opponent (a b b' : EGFRating ℝ) (c : EGFConfig ℝ)
    (h : b.rating < b'.rating) (h' : BelowCeiling a b' c) :
    (expectedScore a b' c).1 < (expectedScore a b c).1 := by
  have hf : egfSecond b.rating c.handicap < egfSecond b'.rating c.handicap := by
    unfold egfSecond; split_ifs <;> linarith
  simp only [expectedScore_real, sigmoid_lt_iff]
  linarith [egfBeta_lt hf h'.2]

/-- More stones for the opponent lower the expectation (among positive handicaps). -/
theorem C18_egf_more_stones (a b : EGFRating ℝ) (h h' : ℝ) (h0 : 0 < h) (hh : h < h')
    (hc : BelowCeiling a b ⟨h'⟩) :
    (expectedScore a b ⟨h'⟩).1 < (expectedScore a b ⟨h⟩).1 := by
  have hf : egfSecond b.rating h < egfSecond b.rating h' := by
    unfold egfSecond egfStones
    rw [if_neg (by linarith), if_neg (by linarith), if_neg (by linarith), if_neg (by linarith)]
    linarith
  have hg : egfFirst a.rating h = egfFirst a.rating h' := by
    unfold egfFirst; rw [if_neg (by linarith), if_neg (by linarith)]
  simp only [expectedScore_real, sigmoid_lt_iff, hg]
  linarith [egfBeta_lt hf hc.2]

/-- More than half a stone for the opponent is worse than an even game. -/
theorem C18_egf_stones_vs_even (a b : EGFRating ℝ) (h : ℝ) (h0 : 1 / 2 < h)
    (hc : BelowCeiling a b ⟨h⟩) :
    (expectedScore a b ⟨h⟩).1 < (expectedScore a b ⟨0⟩).1 := by
  have hf : egfSecond b.rating 0 < egfSecond b.rating h := by
    unfold egfSecond egfStones
    rw [if_neg (lt_irrefl _), if_neg (show ¬ h < 0 by linarith), if_pos rfl,
      if_neg (show ¬ h = 0 by linarith)]
    linarith
  have hg : egfFirst a.rating h = egfFirst a.rating 0 := by
    unfold egfFirst; rw [if_neg (by linarith), if_neg (by linarith)]
  simp only [expectedScore_real, sigmoid_lt_iff, hg]
  linarith [egfBeta_lt hf hc.2]

/-- Less than half a stone for the opponent is better than an even game. -/
theorem C18_egf_small_handicap_backwards (a b : EGFRating ℝ) (h : ℝ) (h0 : 0 < h) (h1 : h < 1 / 2)
    (hc : BelowCeiling a b ⟨0⟩) :
    (expectedScore a b ⟨0⟩).1 < (expectedScore a b ⟨h⟩).1 := by
  have hf : egfSecond b.rating h < egfSecond b.rating 0 := by
    unfold egfSecond egfStones
    rw [if_neg (by linarith), if_neg (by linarith), if_neg (by linarith), if_pos rfl]
    linarith
  have hg : egfFirst a.rating h = egfFirst a.rating 0 := by
    unfold egfFirst; rw [if_neg (by linarith), if_neg (by linarith)]
  simp only [expectedScore_real, sigmoid_lt_iff, hg]
  linarith [egfBeta_lt hf hc.2]

/-- The list variant is the pairwise function, in any arithmetic. -/
theorem C18_egf_expected_list {F : Type} [Flt F] (a : EGFRating F)
    (os : List (EGFRating F × EGFConfig F)) :
    expectedScoreRatingPeriod a os = os.map fun o => (expectedScore a o.1 o.2).1 := by
  simp only [expectedScoreRatingPeriod, expectedScore]

/-- A 4 dan against a 1 dan with three stones. -/
example : BelowCeiling ⟨2400⟩ ⟨2100⟩ ⟨3⟩ := by
  unfold BelowCeiling egfFirst egfSecond egfStones; norm_num

/-- The stones nearly make up for the difference: the odds are (950/900)^7. -/
example : odds (expectedScore (⟨2400⟩ : EGFRating ℝ) ⟨2100⟩ ⟨3⟩).1 = (950 / 900) ^ 7 := by
  rw [C18_egf_expected_odds _ _ _ (by unfold BelowCeiling egfFirst egfSecond egfStones; norm_num)]
  unfold egfFirst egfSecond egfStones; norm_num

/-! ### C83: the published update -/

theorem C83_egf_formula (a b : EGFRating ℝ) (o : Outcomes) (c : EGFConfig ℝ)
    (_h : BelowCeiling a b c) :
    (egf a b o c).1.rating = egfRating a.rating (points o)
        (egfExpected (egfFirst a.rating c.handicap) (egfSecond b.rating c.handicap)) ∧
      (egf a b o c).2.rating = egfRating b.rating (points (mirror o))
        (egfExpected (egfSecond b.rating c.handicap) (egfFirst a.rating c.handicap)) := by
  rw [egf_real, expectedScore_real, egfExpected_eq, egfExpected_eq, points_mirror, ← sigmoid_neg,
    neg_sub]
  exact ⟨rfl, rfl⟩

theorem C83_egf_period_formula (p : EGFRating ℝ)
    (rs : List (EGFRating ℝ × Outcomes × EGFConfig ℝ))
    (_h : ∀ r ∈ rs, BelowCeiling p r.1 r.2.2) :
    (egfRatingPeriod p rs).rating = p.rating +
      (rs.map fun r => egfRating p.rating (points r.2.1)
        (egfExpected (egfFirst p.rating r.2.2.handicap) (egfSecond r.1.rating r.2.2.handicap))
          - p.rating).sum := by
  rw [egfRatingPeriod_real]
  simp only [expectedScore_real, egfExpected_eq]

/-! ### C19: the floor of a game -/

theorem C19_egf_floor (a b : EGFRating ℝ) (o : Outcomes) (c : EGFConfig ℝ) :
    -900 ≤ (egf a b o c).1.rating ∧ -900 ≤ (egf a b o c).2.rating := by
  rw [egf_real]
  exact ⟨le_max_right _ _, le_max_right _ _⟩

/-! ### C20: the floor in periods -/

theorem C21_egf_period_nil (p : EGFRating ℝ) : egfRatingPeriod p [] = p := by
  simp [egfRatingPeriod, flt]

theorem C21_egf_period_single (p b : EGFRating ℝ) (o : Outcomes) (c : EGFConfig ℝ) :
    egfRatingPeriod p [(b, o, c)] = (egf p b o c).1 := by
  have h := egfRatingPeriod_real p [(b, o, c)]
  rw [egf_real]
  cases hx : egfRatingPeriod p [(b, o, c)]
  rw [hx] at h
  simp only at h
  rw [h]
  simp

theorem C20_egf_period_floor_partial (p : EGFRating ℝ)
    (rs : List (EGFRating ℝ × Outcomes × EGFConfig ℝ)) (hlen : rs.length ≤ 1)
    (hp : -900 ≤ p.rating) : -900 ≤ (egfRatingPeriod p rs).rating := by
  match rs, hlen with
  | [], _ => rw [C21_egf_period_nil]; exact hp
  | [(b, o, c)], _ => rw [C21_egf_period_single]; exact (C19_egf_floor p b o c).1

/-- With several games there is no floor at all: a player rated -800 can end a single period below
any given number, by losing often enough to equal opponents. -/
theorem C20_egf_period_no_floor (L : ℝ) :
    ∃ rs : List (EGFRating ℝ × Outcomes × EGFConfig ℝ),
      (egfRatingPeriod ⟨-800⟩ rs).rating < L := by
  have hcon : 92 ≤ egfCon (-800) := by
    have h2 : egfCon (-800) = ((41 / 2 : ℝ)) ^ (8 / 5 : ℝ) := by
      unfold egfCon; norm_num
    have h1 : ((41 / 2 : ℝ)) ^ (3 / 2 : ℝ) ≤ ((41 / 2 : ℝ)) ^ (8 / 5 : ℝ) := by
      apply Real.rpow_le_rpow_of_exponent_le <;> norm_num
    have h3 : ((41 / 2 : ℝ)) ^ (3 / 2 : ℝ) = 41 / 2 * √(41 / 2) := by
      rw [Real.sqrt_eq_rpow, ← Real.rpow_one_add' (by norm_num) (by norm_num)]
      norm_num
    have h4 : (4.5 : ℝ) ≤ √(41 / 2) := by
      apply Real.le_sqrt_of_sq_le; norm_num
    rw [h2]
    linarith
  have hbonus : egfBonus (-800) ≤ 8 := by
    unfold egfBonus
    have h1 : log (1 + exp ((2300 - -800) / 80)) ≤ log (exp 1 * exp ((2300 - -800) / 80)) := by
      apply Real.log_le_log
      · positivity
      · have h2 := Real.add_one_le_exp (1 : ℝ)
        have h3 : 1 ≤ exp ((2300 - -800) / 80 : ℝ) := by
          apply Real.one_le_exp; norm_num
        nlinarith
    rw [← Real.exp_add, Real.log_exp] at h1
    linarith
  have hloss : egfRating (-800) 0 (1 / 2) - -800 ≤ -38 := by
    unfold egfRating
    have : max (-800 + egfCon (-800) * (0 - 1 / 2) + egfBonus (-800)) (-900) ≤ -838 := by
      apply max_le <;> linarith
    linarith
  obtain ⟨n, hn⟩ := exists_nat_gt ((-800 - L) / 38)
  refine ⟨List.replicate n (⟨-800⟩, .LOSS, ⟨0⟩), ?_⟩
  rw [egfRatingPeriod_real, List.map_replicate, List.sum_replicate]
  have he : (expectedScore (⟨-800⟩ : EGFRating ℝ) ⟨-800⟩ ⟨0⟩).1 = 1 / 2 := by
    rw [expectedScore_real]
    simp [egfFirst, egfSecond, egfStones]
  simp only [he, points, nsmul_eq_mul]
  rw [div_lt_iff₀ (by norm_num)] at hn
  have : (n : ℝ) * (egfRating (-800) 0 (1 / 2) - -800) ≤ n * (-38) :=
    mul_le_mul_of_nonneg_left hloss (Nat.cast_nonneg n)
  linarith

example : ([((⟨1000⟩ : EGFRating ℝ), Outcomes.LOSS, (⟨0⟩ : EGFConfig ℝ))]).length ≤ 1 ∧
    (-900 : ℝ) ≤ (⟨-899⟩ : EGFRating ℝ).rating := by norm_num

/-! ### C21: periods -/

theorem C21_egf_period_perm (p : EGFRating ℝ)
    (rs ss : List (EGFRating ℝ × Outcomes × EGFConfig ℝ)) (h : rs.Perm ss) :
    egfRatingPeriod p rs = egfRatingPeriod p ss := by
  have h1 := egfRatingPeriod_real p rs
  rw [(h.map _).sum_eq, ← egfRatingPeriod_real p ss] at h1
  cases hx : egfRatingPeriod p rs
  cases hy : egfRatingPeriod p ss
  rw [hx, hy] at h1
  simpa using h1

example (x y : EGFRating ℝ) (c d : EGFConfig ℝ) :
    [(x, Outcomes.WIN, c), (y, .LOSS, d)].Perm [(y, .LOSS, d), (x, .WIN, c)] :=
  List.Perm.swap _ _ _

/-! ### C22: wins never cost points -/

theorem C22_egf_win (a b : EGFRating ℝ) (c : EGFConfig ℝ) (h : BelowCeiling a b c)
    (ha : a.rating < 3300) : a.rating < (egf a b .WIN c).1.rating := by
  have hp := C18_egf_expected_probability a b c h
  rw [egf_real]
  refine lt_of_lt_of_le ?_ (le_max_left _ _)
  have := mul_pos (egfCon_pos ha) (show 0 < points .WIN - (expectedScore a b c).1 by
    simp only [points]; linarith [hp.fst_lt_one])
  linarith [egfBonus_pos a.rating]

theorem C22_egf_win_second (a b : EGFRating ℝ) (c : EGFConfig ℝ) (h : BelowCeiling a b c)
    (hb : b.rating < 3300) : b.rating < (egf a b .LOSS c).2.rating := by
  have hp := C18_egf_expected_probability a b c h
  rw [egf_real]
  refine lt_of_lt_of_le ?_ (le_max_left _ _)
  have := mul_pos (egfCon_pos hb) (show 0 < 1 - points .LOSS - (expectedScore a b c).2 by
    simp only [points]; linarith [hp.snd_lt_one])
  linarith [egfBonus_pos b.rating]

/-- No result costs as much as `con`, for either player. -/
theorem C22_egf_max_loss (a b : EGFRating ℝ) (o : Outcomes) (c : EGFConfig ℝ)
    (h : BelowCeiling a b c) (ha : a.rating < 3300) (hb : b.rating < 3300) :
    a.rating - ((3300 - a.rating) / 200) ^ (8 / 5 : ℝ) < (egf a b o c).1.rating ∧
      b.rating - ((3300 - b.rating) / 200) ^ (8 / 5 : ℝ) < (egf a b o c).2.rating := by
  have hp := C18_egf_expected_probability a b c h
  rw [egf_real]
  constructor
  · refine lt_of_lt_of_le ?_ (le_max_left _ _)
    have h1 : -egfCon a.rating ≤ egfCon a.rating * (points o - (expectedScore a b c).1) := by
      have := mul_pos (egfCon_pos ha) (show 0 < 1 - (expectedScore a b c).1 by
        linarith [hp.fst_lt_one])
      have h2 := mul_nonneg (egfCon_pos ha).le (points_nonneg o)
      linarith
    have := egfBonus_pos a.rating
    unfold egfCon at *
    linarith
  · refine lt_of_lt_of_le ?_ (le_max_left _ _)
    have h1 : -egfCon b.rating ≤ egfCon b.rating * (1 - points o - (expectedScore a b c).2) := by
      have := mul_pos (egfCon_pos hb) (show 0 < 1 - (expectedScore a b c).2 by
        linarith [hp.snd_lt_one])
      have h2 := mul_nonneg (egfCon_pos hb).le (show 0 ≤ 1 - points o by linarith [points_le_one o])
      linarith
    have := egfBonus_pos b.rating
    unfold egfCon at *
    linarith

/-- Drawing an even game raises both players. -/
theorem C22_egf_even_draw (a b : EGFRating ℝ) (h : a.rating = b.rating) (ha : a.rating < 3300) :
    a.rating < (egf a b .DRAW ⟨0⟩).1.rating ∧ b.rating < (egf a b .DRAW ⟨0⟩).2.rating := by
  have he : (expectedScore a b ⟨0⟩) = (1 / 2, 1 / 2) := by
    rw [expectedScore_real]
    simp [egfFirst, egfSecond, egfStones, h]
    norm_num
  rw [egf_real, he]
  constructor
  · refine lt_of_lt_of_le ?_ (le_max_left _ _)
    simp only [points]
    linarith [egfBonus_pos a.rating]
  · refine lt_of_lt_of_le ?_ (le_max_left _ _)
    simp only [points]
    linarith [egfBonus_pos b.rating]

/-- A win is worth exactly `con` more than a loss, when the floor is not reached. -/
theorem C22_egf_win_minus_loss (a b : EGFRating ℝ) (c : EGFConfig ℝ)
    (hfl : -900 < (egf a b .LOSS c).1.rating) (ha : a.rating < 3300) :
    (egf a b .WIN c).1.rating - (egf a b .LOSS c).1.rating
      = ((3300 - a.rating) / 200) ^ (8 / 5 : ℝ) := by
  rw [egf_real] at hfl ⊢
  rw [egf_real]
  simp only [egfRating, points] at *
  have h1 : -900 < a.rating + egfCon a.rating * (0 - (expectedScore a b c).1) + egfBonus a.rating := by
    rcases lt_max_iff.1 hfl with h | h
    · exact h
    · exact absurd h (lt_irrefl _)
  have := egfCon_pos ha
  rw [max_eq_left h1.le, max_eq_left (by linarith)]
  unfold egfCon
  ring

end Skillratings.Egf
