import Verif.Proofs.Uscf
/-
Properties of /repo/src/uscf.rs: C51 - C57, C84.
-/
namespace Skillratings.Uscf
open Real Spec

/-! ### C51: expected scores -/

theorem expectedScore_real (a b : USCFRating ℝ) :
    expectedScore a b = (sigmoid (log 10 / 400 * (a.rating - b.rating)),
      1 - sigmoid (log 10 / 400 * (a.rating - b.rating))) := by
  simp only [expectedScore, eValue_real, flt]

theorem C51_uscf_expected_probability (a b : USCFRating ℝ) :
    ProbabilityPair (expectedScore a b) := by
  rw [expectedScore_real]; exact probabilityPair_sigmoid _

theorem C51_uscf_expected_swap (a b : USCFRating ℝ) :
    expectedScore b a = ((expectedScore a b).2, (expectedScore a b).1) := by
  have h : log 10 / 400 * (b.rating - a.rating) = -(log 10 / 400 * (a.rating - b.rating)) := by
    ring
  simp [expectedScore_real, h, sigmoid_neg]

theorem C51_uscf_expected_odds (a b : USCFRating ℝ) :
    odds (expectedScore a b).1 = (10 : ℝ) ^ ((a.rating - b.rating) / 400) := by
  rw [expectedScore_real, odds_sigmoid, ← exp_log_ten_mul]
  congr 1; ring

theorem C51_uscf_expected_strictMono_own (a a' b : USCFRating ℝ) (h : a.rating < a'.rating) :
    (expectedScore a b).1 < (expectedScore a' b).1 := by
  simp only [expectedScore_real, sigmoid_lt_iff]
  have := log_ten_pos
  gcongr

theorem C51_uscf_expected_strictAnti_opponent (a b b' : USCFRating ℝ)
    (h : b.rating < b'.rating) : (expectedScore a b').1 < (expectedScore a b).1 := by
  simp only [expectedScore_real, sigmoid_lt_iff]
  have := log_ten_pos
  gcongr

/-- The list variant is the pairwise function, in any arithmetic. -/
theorem C51_uscf_expected_list {F : Type} [Flt F] (a : USCFRating F) (os : List (USCFRating F)) :
    expectedScoreRatingPeriod a os = os.map fun o => (expectedScore a o).1 := rfl

example : (expectedScore (⟨1800, 3⟩ : USCFRating ℝ) ⟨1400, 20⟩).1 = 10 / 11 := by
  have h := C51_uscf_expected_odds ⟨1800, 3⟩ ⟨1400, 20⟩
  have p := C51_uscf_expected_probability ⟨1800, 3⟩ ⟨1400, 20⟩
  have := p.fst_lt_one
  rw [odds, div_eq_iff (by linarith)] at h
  norm_num at h
  linarith

/-! ### C52: the floor of a game -/

theorem C52_uscf_floor (a b : USCFRating ℝ) (o : Outcomes) (c : USCFConfig ℝ) :
    100 ≤ (uscf a b o c).1.rating ∧ 100 ≤ (uscf a b o c).2.rating := by
  simp only [uscf, flt]
  exact ⟨le_max_right _ _, le_max_right _ _⟩

/-! ### C54: counters and regimes -/

theorem C54_uscf_games {F : Type} [Flt F] (a b : USCFRating F) (o : Outcomes) (c : USCFConfig F) :
    (uscf a b o c).1.games = a.games + 1 ∧ (uscf a b o c).2.games = b.games + 1 := ⟨rfl, rfl⟩

theorem C54_uscf_period_games {F : Type} [Flt F] (p : USCFRating F)
    (rs : List (USCFRating F × Outcomes)) (c : USCFConfig F) :
    (uscfRatingPeriod p rs c).games = p.games + rs.length := by
  unfold uscfRatingPeriod
  split
  · rename_i h; simp [List.isEmpty_iff.1 h]
  · split <;> rfl

/-- The balance of a result: +1 for a win, -1 for a loss. -/
def balance : Outcomes → ℝ
  | .WIN => 1
  | .DRAW => 0
  | .LOSS => -1

theorem C54_uscf_provisional (a b : USCFRating ℝ) (o : Outcomes) (c : USCFConfig ℝ)
    (h : a.games ≤ 8) :
    (uscf a b o c).1.rating =
      max ((a.games * a.rating + b.rating + 400 * balance o) / (a.games + 1)) 100 := by
  simp only [uscf, h, if_true, provisional_real, uscfProvisional, flt]
  congr 2
  · cases o <;> simp [fromBool, balance] <;> ring
  · simp

theorem C54_uscf_provisional_second (a b : USCFRating ℝ) (o : Outcomes) (c : USCFConfig ℝ)
    (h : b.games ≤ 8) :
    (uscf a b o c).2.rating =
      max ((b.games * b.rating + a.rating - 400 * balance o) / (b.games + 1)) 100 := by
  simp only [uscf, h, if_true, provisional_real, uscfProvisional, flt]
  congr 2
  · cases o <;> simp [fromBool, balance] <;> ring
  · simp

theorem C54_uscf_established (a b : USCFRating ℝ) (o : Outcomes) (c : USCFConfig ℝ)
    (h : 9 ≤ a.games) :
    (uscf a b o c).1.rating =
      max (a.rating + uscfK a.rating a.games 1 * (points o - logisticExpected a.rating b.rating))
        100 := by
  have h' : ¬ a.games ≤ 8 := by omega
  simp only [uscf, h', if_false, newRating_real, eValue_real, logisticExpected_eq, flt]
  simp [uscfBonus]

theorem C54_uscf_established_second (a b : USCFRating ℝ) (o : Outcomes) (c : USCFConfig ℝ)
    (h : 9 ≤ b.games) :
    (uscf a b o c).2.rating =
      max (b.rating + uscfK b.rating b.games 1
        * (points (mirror o) - logisticExpected b.rating a.rating)) 100 := by
  have h' : ¬ b.games ≤ 8 := by omega
  simp only [uscf, h', if_false, newRating_real, eValue_real, logisticExpected_eq, points_mirror, flt]
  simp [uscfBonus]

theorem C54_uscf_period_provisional (p : USCFRating ℝ) (rs : List (USCFRating ℝ × Outcomes))
    (c : USCFConfig ℝ) (h : p.games ≤ 8) (hr : rs ≠ []) :
    (uscfRatingPeriod p rs c).rating =
      (p.games * p.rating + (rs.map fun r => r.1.rating).sum
        + 400 * ((wins rs : ℝ) - losses rs)) / (p.games + rs.length) := by
  have hl : (rs.length : ℝ) ≠ 0 := by
    simpa using hr
  have he : rs.isEmpty = false := by simpa [List.isEmpty_iff] using hr
  simp only [uscfRatingPeriod, he, h, if_true, provisional_real, uscfProvisional, sum_fromBool, flt]
  simp only [Bool.false_eq_true, if_false, wins, losses]
  push_cast
  congr 2
  field_simp

theorem C54_uscf_period_established (p : USCFRating ℝ) (rs : List (USCFRating ℝ × Outcomes))
    (c : USCFConfig ℝ) (h : 9 ≤ p.games) (hr : rs ≠ []) :
    let x := uscfK p.rating p.games rs.length
      * (score rs - (rs.map fun r => logisticExpected p.rating r.1.rating).sum)
    (uscfRatingPeriod p rs c).rating = p.rating + x
      + uscfBonus rs.length x (c.t * √(min rs.length 4 : ℕ)) := by
  have h' : ¬ p.games ≤ 8 := by omega
  have he : rs.isEmpty = false := by simpa [List.isEmpty_iff] using hr
  simp only [uscfRatingPeriod, he, h', if_false, newRating_real, eValue_real, logisticExpected_eq,
    flt, score]
  simp

/-- The effective number of games is positive, at most the number of games and at most 50. -/
theorem C54_uscf_effective_range (r : ℝ) (g : ℕ) (hg : 0 < g) :
    0 < uscfEffective r g ∧ uscfEffective r g ≤ g ∧ uscfEffective r g ≤ 50 :=
  ⟨uscfEffective_pos r hg, (uscfEffective_le r g).trans (min_le_left _ _),
    (uscfEffective_le r g).trans (min_le_right _ _)⟩

theorem abs_points_sub_lt (o : Outcomes) (x : ℝ) : |points o - sigmoid x| < 1 := by
  have h0 := sigmoid_pos x
  have h1 := sigmoid_lt_one x
  rw [abs_lt]
  cases o <;> simp only [points] <;> constructor <;> linarith

/-- A single game of an established player (rated at least 100) is worth less than 800/(Ne+1)
points. -/
theorem C54_uscf_established_bound (a b : USCFRating ℝ) (o : Outcomes) (c : USCFConfig ℝ)
    (h : 9 ≤ a.games) (hr : 100 ≤ a.rating) :
    |(uscf a b o c).1.rating - a.rating| < 800 / (uscfEffective a.rating a.games + 1) := by
  rw [C54_uscf_established a b o c h, logisticExpected_eq]
  have hN := uscfEffective_pos a.rating (show 0 < a.games by omega)
  have hK : uscfK a.rating a.games 1 = 800 / (uscfEffective a.rating a.games + 1) := by
    simp [uscfK]
  have hKpos : 0 < 800 / (uscfEffective a.rating a.games + 1) := by positivity
  rw [hK]
  generalize 800 / (uscfEffective a.rating a.games + 1) = K at *
  have hx := abs_lt.1 (abs_points_sub_lt o (log 10 / 400 * (a.rating - b.rating)))
  generalize points o - sigmoid (log 10 / 400 * (a.rating - b.rating)) = x at *
  rw [abs_lt]
  constructor
  · have : a.rating + K * x ≤ max (a.rating + K * x) 100 := le_max_left _ _
    nlinarith
  · rcases max_choice (a.rating + K * x) 100 with h | h <;> rw [h]
    · nlinarith
    · linarith

example : 9 ≤ (⟨1500, 9⟩ : USCFRating ℝ).games ∧ (8 : ℕ) ≤ 8 := ⟨le_rfl, le_rfl⟩

/-- An unrated player who beats a 1500 gets 1900. -/
example (c : USCFConfig ℝ) : (uscf ⟨1300, 0⟩ ⟨1500, 30⟩ .WIN c).1.rating = 1900 := by
  rw [C54_uscf_provisional _ _ _ _ (by norm_num)]
  norm_num [balance]

/-- A master with 60 games has K = 800/51 in a single game. -/
example : uscfK 2400 60 1 = 800 / 51 := by
  unfold uscfK uscfEffective; norm_num

/-! ### C53: the floor in periods -/

theorem C53_uscf_period_single (p b : USCFRating ℝ) (o : Outcomes) (c : USCFConfig ℝ) :
    (uscf p b o c).1.rating = max (uscfRatingPeriod p [(b, o)] c).rating 100 ∧
      (uscf p b o c).1.games = (uscfRatingPeriod p [(b, o)] c).games := by
  constructor
  · by_cases h : p.games ≤ 8
    · rw [C54_uscf_provisional _ _ _ _ h, C54_uscf_period_provisional _ _ _ h (by simp)]
      congr 2
      · cases o <;> simp [balance, wins, losses]
      · simp
    · have h9 : 9 ≤ p.games := by omega
      rw [C54_uscf_established _ _ _ _ h9, C54_uscf_period_established _ _ _ h9 (by simp)]
      simp [score, uscfBonus]
  · rw [C54_uscf_period_games, (C54_uscf_games p b o c).1]; rfl

/-- Every provisional player can end a period below 100, playing opponents rated 100. -/
theorem C53_uscf_period_below_floor_provisional (p : USCFRating ℝ) (c : USCFConfig ℝ)
    (h : p.games ≤ 8) :
    ∃ rs : List (USCFRating ℝ × Outcomes), (∀ r ∈ rs, 100 ≤ r.1.rating) ∧
      (uscfRatingPeriod p rs c).rating < 100 := by
  obtain ⟨n, hn⟩ := exists_nat_gt (p.games * p.rating / 400)
  refine ⟨List.replicate (n + 1) (⟨100, 0⟩, .LOSS), ?_, ?_⟩
  · intro r hr; rw [(List.mem_replicate.1 hr).2]
  · rw [C54_uscf_period_provisional _ _ _ h (by simp)]
    have hw : wins (List.replicate (n + 1) ((⟨100, 0⟩ : USCFRating ℝ), Outcomes.LOSS)) = 0 := by
      simp [wins, List.countP_replicate]
    have hl : losses (List.replicate (n + 1) ((⟨100, 0⟩ : USCFRating ℝ), Outcomes.LOSS)) = n + 1 := by
      simp [losses, List.countP_replicate]
    rw [hw, hl, List.map_replicate, List.sum_replicate, List.length_replicate]
    have hg : (0 : ℝ) ≤ p.games := Nat.cast_nonneg _
    have hn0 : (0 : ℝ) ≤ n := Nat.cast_nonneg _
    push_cast
    rw [div_lt_iff₀ (by positivity)]
    rw [div_lt_iff₀ (by norm_num)] at hn
    simp only [nsmul_eq_mul]
    push_cast
    linarith

/-- Every established player rated between 100 and 500 can end a period below 100, playing
opponents of the same rating. -/
theorem C53_uscf_period_below_floor_established (p : USCFRating ℝ) (c : USCFConfig ℝ)
    (h : 9 ≤ p.games) (h100 : 100 ≤ p.rating) (hr : p.rating < 500) (ht : 0 ≤ c.t) :
    ∃ rs : List (USCFRating ℝ × Outcomes), (∀ r ∈ rs, 100 ≤ r.1.rating) ∧
      (uscfRatingPeriod p rs c).rating < 100 := by
  obtain ⟨n, hn⟩ := exists_nat_gt (50 * (p.rating - 100) / (500 - p.rating))
  refine ⟨List.replicate (n + 1) (⟨p.rating, 0⟩, .LOSS), ?_, ?_⟩
  · intro r hr; rw [(List.mem_replicate.1 hr).2]; exact h100
  · rw [C54_uscf_period_established _ _ _ h (by simp)]
    have hs : score (List.replicate (n + 1) ((⟨p.rating, 0⟩ : USCFRating ℝ), Outcomes.LOSS)) = 0 := by
      simp [score, points]
    have he : logisticExpected p.rating p.rating = 1 / 2 := by
      unfold logisticExpected; norm_num
    rw [hs, List.map_replicate, List.sum_replicate, List.length_replicate]
    simp only [he, nsmul_eq_mul, uscfK]
    have hN := uscfEffective_pos p.rating (show 0 < p.games by omega)
    have hN50 := (uscfEffective_le p.rating p.games).trans (min_le_right _ _)
    generalize uscfEffective p.rating p.games = N at *
    have hn0 : (0 : ℝ) ≤ n := Nat.cast_nonneg _
    have hx : 800 / (N + ((n + 1 : ℕ) : ℝ)) * (0 - ((n + 1 : ℕ) : ℝ) * (1 / 2)) < 100 - p.rating := by
      rw [div_lt_iff₀ (by linarith)] at hn
      push_cast
      rw [div_mul_eq_mul_div, div_lt_iff₀ (by positivity)]
      nlinarith
    have hb : uscfBonus (n + 1) (800 / (N + ((n + 1 : ℕ) : ℝ)) * (0 - ((n + 1 : ℕ) : ℝ) * (1 / 2)))
        (c.t * √((min (n + 1) 4 : ℕ) : ℝ)) = 0 := by
      unfold uscfBonus
      split_ifs
      · rfl
      · apply max_eq_left
        have : 0 ≤ c.t * √((min (n + 1) 4 : ℕ) : ℝ) := by positivity
        linarith
    rw [hb]
    linarith

example : 9 ≤ (⟨120, 12⟩ : USCFRating ℝ).games ∧ 100 ≤ (⟨120, 12⟩ : USCFRating ℝ).rating ∧
    (⟨120, 12⟩ : USCFRating ℝ).rating < 500 ∧ 0 ≤ (USCFConfig.new : USCFConfig ℝ).t := by
  norm_num [USCFConfig.new]

/-! ### C55, C84: the bonus -/

/-- What a period pays beyond `K (S - E)`. -/
noncomputable def bonusPaid (p : USCFRating ℝ) (rs : List (USCFRating ℝ × Outcomes))
    (c : USCFConfig ℝ) : ℝ :=
  (uscfRatingPeriod p rs c).rating - p.rating - uscfK p.rating p.games rs.length
      * (score rs - (rs.map fun r => logisticExpected p.rating r.1.rating).sum)

/-- The excess `K (S - E)` of a period. -/
noncomputable def excess (p : USCFRating ℝ) (rs : List (USCFRating ℝ × Outcomes)) : ℝ :=
  uscfK p.rating p.games rs.length
      * (score rs - (rs.map fun r => logisticExpected p.rating r.1.rating).sum)

theorem bonusPaid_eq (p : USCFRating ℝ) (rs : List (USCFRating ℝ × Outcomes))
    (c : USCFConfig ℝ) (h : 9 ≤ p.games) (hr : rs ≠ []) :
    bonusPaid p rs c = uscfBonus rs.length (excess p rs) (c.t * √(min rs.length 4 : ℕ)) := by
  rw [bonusPaid, C54_uscf_period_established p rs c h hr, excess]
  ring

theorem C55_uscf_bonus_nonneg (p : USCFRating ℝ) (rs : List (USCFRating ℝ × Outcomes))
    (c : USCFConfig ℝ) (h : 9 ≤ p.games) (hr : rs ≠ []) : 0 ≤ bonusPaid p rs c := by
  rw [bonusPaid_eq p rs c h hr, uscfBonus]
  split_ifs
  · exact le_rfl
  · exact le_max_left _ _

theorem C55_uscf_bonus_few_games (p : USCFRating ℝ) (rs : List (USCFRating ℝ × Outcomes))
    (c : USCFConfig ℝ) (h : 9 ≤ p.games) (hr : rs ≠ []) (hl : rs.length < 3) :
    bonusPaid p rs c = 0 := by
  rw [bonusPaid_eq p rs c h hr, uscfBonus, if_pos hl]

theorem C55_uscf_bonus_excess (p : USCFRating ℝ) (rs : List (USCFRating ℝ × Outcomes))
    (c : USCFConfig ℝ) (h : 9 ≤ p.games) (hl : 3 ≤ rs.length) :
    bonusPaid p rs c = max 0 (excess p rs - c.t * √(min rs.length 4 : ℕ)) := by
  have hr : rs ≠ [] := by rintro rfl; simp at hl
  rw [bonusPaid_eq p rs c h hr, uscfBonus, if_neg (by omega)]

/-- The published bonus. -/
noncomputable def publishedBonus (p : USCFRating ℝ) (rs : List (USCFRating ℝ × Outcomes))
    (c : USCFConfig ℝ) : ℝ :=
  uscfBonus rs.length (excess p rs) (c.t * √(max rs.length 4 : ℕ))

/-- Agreement with the published rule: at most two games, or exactly four. -/
theorem C84_uscf_bonus_published_partial (p : USCFRating ℝ) (rs : List (USCFRating ℝ × Outcomes))
    (c : USCFConfig ℝ) (h : 9 ≤ p.games) (hr : rs ≠ []) (hl : rs.length < 3 ∨ rs.length = 4) :
    bonusPaid p rs c = publishedBonus p rs c := by
  rw [bonusPaid_eq p rs c h hr, publishedBonus]
  rcases hl with hl | hl
  · simp [uscfBonus, hl]
  · rw [hl]; simp

/-- With three games, or with five and more, every bonus that the crate pays is larger than the
published one. -/
theorem C84_uscf_bonus_too_large (p : USCFRating ℝ) (rs : List (USCFRating ℝ × Outcomes))
    (c : USCFConfig ℝ) (h : 9 ≤ p.games) (hl : rs.length = 3 ∨ 5 ≤ rs.length) (ht : 0 < c.t)
    (hb : 0 < bonusPaid p rs c) : publishedBonus p rs c < bonusPaid p rs c := by
  have hr : rs ≠ [] := by rintro rfl; simp at hl
  have hlt : (min rs.length 4 : ℕ) < (max rs.length 4 : ℕ) := by omega
  have hs : c.t * √(min rs.length 4 : ℕ) < c.t * √(max rs.length 4 : ℕ) := by
    apply mul_lt_mul_of_pos_left _ ht
    apply Real.sqrt_lt_sqrt (Nat.cast_nonneg _)
    exact_mod_cast hlt
  have hn : ¬ rs.length < 3 := by omega
  rw [bonusPaid_eq p rs c h hr] at hb ⊢
  rw [publishedBonus]
  unfold uscfBonus at *
  rw [if_neg hn] at hb ⊢
  rw [if_neg hn]
  have hx : 0 < excess p rs - c.t * √(min rs.length 4 : ℕ) := by
    rcases lt_max_iff.1 hb with h | h
    · exact absurd h (lt_irrefl _)
    · exact h
  exact max_lt hb ((by linarith : _ < excess p rs - c.t * √(min rs.length 4 : ℕ)).trans_le
    (le_max_right _ _))

/-- Six wins of a 1500 with ten games against equal opponents: a bonus is paid. -/
example : 0 < bonusPaid ⟨1500, 10⟩ (List.replicate 6 (⟨1500, 10⟩, .WIN)) ⟨14⟩ := by
  rw [C55_uscf_bonus_excess _ _ _ (by norm_num) (by simp)]
  apply lt_max_of_lt_right
  have hN := uscfEffective_pos 1500 (show 0 < 10 by norm_num)
  have hN10 : uscfEffective 1500 10 ≤ 10 := by
    have := (uscfEffective_le 1500 10).trans (min_le_left _ _)
    exact_mod_cast this
  have he : logisticExpected 1500 1500 = 1 / 2 := by
    unfold logisticExpected; norm_num
  have hs : √(((min 6 4 : ℕ) : ℝ)) = 2 := by
    rw [show (((min 6 4 : ℕ) : ℝ)) = 2 ^ 2 by norm_num]
    exact Real.sqrt_sq (by norm_num)
  simp only [excess, uscfK, List.length_replicate, hs]
  simp [score, points, he]
  rw [div_mul_eq_mul_div, lt_div_iff₀ (by positivity)]
  linarith

/-! ### C56: order and empty periods -/

theorem C56_uscf_period_nil {F : Type} [Flt F] (p : USCFRating F) (c : USCFConfig F) :
    uscfRatingPeriod p [] c = p := rfl

theorem C56_uscf_period_perm (p : USCFRating ℝ) (rs ss : List (USCFRating ℝ × Outcomes))
    (c : USCFConfig ℝ) (h : rs.Perm ss) : uscfRatingPeriod p rs c = uscfRatingPeriod p ss c := by
  have he : rs.isEmpty = ss.isEmpty := by
    rw [Bool.eq_iff_iff, List.isEmpty_iff, List.isEmpty_iff]
    constructor
    · rintro rfl; exact h.symm.eq_nil
    · rintro rfl; exact h.eq_nil
  simp only [uscfRatingPeriod, flt, he, h.length_eq, (h.map fun r => r.1.rating).sum_eq,
    (h.map fun r => fromBool (r.2 = .WIN)).sum_eq, (h.map fun r => fromBool (r.2 = .LOSS)).sum_eq,
    (h.map fun r => points r.2).sum_eq, (h.map fun r => eValue p.rating r.1.rating).sum_eq]

example (x y : USCFRating ℝ) :
    [(x, Outcomes.WIN), (y, .LOSS)].Perm [(y, .LOSS), (x, .WIN)] := List.Perm.swap _ _ _

/-! ### C57: direction -/

theorem C57_uscf_established_win (a b : USCFRating ℝ) (c : USCFConfig ℝ) (h : 9 ≤ a.games) :
    a.rating < (uscf a b .WIN c).1.rating := by
  rw [C54_uscf_established a b _ c h, logisticExpected_eq]
  apply lt_max_of_lt_left
  have hN := uscfEffective_pos a.rating (show 0 < a.games by omega)
  have hK : 0 < uscfK a.rating a.games 1 := by unfold uscfK; positivity
  have h1 := sigmoid_lt_one (log 10 / 400 * (a.rating - b.rating))
  have := mul_pos hK (show 0 < points .WIN - sigmoid (log 10 / 400 * (a.rating - b.rating)) by
    simp only [points]; linarith)
  linarith

theorem C57_uscf_established_win_second (a b : USCFRating ℝ) (c : USCFConfig ℝ)
    (h : 9 ≤ b.games) : b.rating < (uscf a b .LOSS c).2.rating := by
  rw [C54_uscf_established_second a b _ c h, logisticExpected_eq]
  apply lt_max_of_lt_left
  have hN := uscfEffective_pos b.rating (show 0 < b.games by omega)
  have hK : 0 < uscfK b.rating b.games 1 := by unfold uscfK; positivity
  have h1 := sigmoid_lt_one (log 10 / 400 * (b.rating - a.rating))
  have := mul_pos hK (show 0 < points (mirror .LOSS) - sigmoid (log 10 / 400 * (b.rating - a.rating)) by
    simp only [points, mirror]; linarith)
  linarith

theorem C57_uscf_established_loss (a b : USCFRating ℝ) (c : USCFConfig ℝ) (h : 9 ≤ a.games)
    (hr : 100 < a.rating) : (uscf a b .LOSS c).1.rating < a.rating := by
  rw [C54_uscf_established a b _ c h, logisticExpected_eq]
  have hN := uscfEffective_pos a.rating (show 0 < a.games by omega)
  have hK : 0 < uscfK a.rating a.games 1 := by unfold uscfK; positivity
  have h1 := sigmoid_pos (log 10 / 400 * (a.rating - b.rating))
  have := mul_pos hK h1
  apply max_lt _ hr
  simp only [points]
  linarith

theorem C57_uscf_established_loss_second (a b : USCFRating ℝ) (c : USCFConfig ℝ)
    (h : 9 ≤ b.games) (hr : 100 < b.rating) : (uscf a b .WIN c).2.rating < b.rating := by
  rw [C54_uscf_established_second a b _ c h, logisticExpected_eq]
  have hN := uscfEffective_pos b.rating (show 0 < b.games by omega)
  have hK : 0 < uscfK b.rating b.games 1 := by unfold uscfK; positivity
  have h1 := sigmoid_pos (log 10 / 400 * (b.rating - a.rating))
  have := mul_pos hK h1
  apply max_lt _ hr
  simp only [points, mirror]
  linarith

/-- For players of either kind, a win gives at least as high a rating as a draw, and a draw as a
loss. -/
theorem C57_uscf_result_order (a b : USCFRating ℝ) (c : USCFConfig ℝ) :
    (uscf a b .LOSS c).1.rating ≤ (uscf a b .DRAW c).1.rating ∧
      (uscf a b .DRAW c).1.rating ≤ (uscf a b .WIN c).1.rating := by
  by_cases h : a.games ≤ 8
  · simp only [C54_uscf_provisional _ _ _ _ h, balance]
    have hg : (0 : ℝ) ≤ a.games := Nat.cast_nonneg _
    constructor <;>
    · apply max_le_max_right
      gcongr
      norm_num
  · have h9 : 9 ≤ a.games := by omega
    have hN := uscfEffective_pos a.rating (show 0 < a.games by omega)
    have hK : 0 < uscfK a.rating a.games 1 := by unfold uscfK; positivity
    simp only [C54_uscf_established _ _ _ _ h9, points]
    constructor <;>
    · apply max_le_max_right
      gcongr
      norm_num

/-- A win can cost a provisional player points: it does exactly if the opponent is more than 400
points weaker (and the player is above the floor). -/
theorem C57_uscf_provisional_win_lowers (a b : USCFRating ℝ) (c : USCFConfig ℝ) (h : a.games ≤ 8) :
    (uscf a b .WIN c).1.rating < a.rating ↔ b.rating < a.rating - 400 ∧ 100 < a.rating := by
  rw [C54_uscf_provisional _ _ _ _ h, max_lt_iff]
  have hg : (0 : ℝ) ≤ a.games := Nat.cast_nonneg _
  rw [div_lt_iff₀ (by positivity)]
  simp only [balance]
  refine and_congr_left fun _ => ?_
  constructor <;> intro h <;> linarith

/-- For instance a 1300 with one game who beats a 500. -/
example (c : USCFConfig ℝ) :
    (uscf ⟨1300, 1⟩ ⟨500, 1⟩ .WIN c).1.rating < (⟨1300, 1⟩ : USCFRating ℝ).rating :=
  (C57_uscf_provisional_win_lowers _ _ _ (by norm_num)).2 (by norm_num)

end Skillratings.Uscf
