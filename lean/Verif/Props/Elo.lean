import Verif.Proofs.Elo
import Verif.Proofs.Tournament
/-
Properties of /repo/src/elo.rs: C01 - C06.
-/
namespace Skillratings.Elo
open Real Spec

/-! ### C01: expected scores are probabilities -/

theorem C01_elo_expected_probability (a b : EloRating ℝ) :
    ProbabilityPair (expectedScore a b) := by
  rw [expectedScore_real]; exact probabilityPair_sigmoid _

theorem C01_elo_expected_swap (a b : EloRating ℝ) :
    expectedScore b a = ((expectedScore a b).2, (expectedScore a b).1) := by
  have h : log 10 / 400 * (b.rating - a.rating) = -(log 10 / 400 * (a.rating - b.rating)) := by
    ring
  simp [expectedScore_real, h, sigmoid_neg]

theorem C01_elo_expected_odds (a b : EloRating ℝ) :
    odds (expectedScore a b).1 = (10 : ℝ) ^ ((a.rating - b.rating) / 400) := by
  rw [expectedScore_real, odds_sigmoid, ← exp_log_ten_mul]
  congr 1; ring

theorem C01_elo_expected_strictMono_own (a a' b : EloRating ℝ) (h : a.rating < a'.rating) :
    (expectedScore a b).1 < (expectedScore a' b).1 := by
  simp only [expectedScore_real, sigmoid_lt_iff]
  have := log_ten_pos
  gcongr

theorem C01_elo_expected_strictAnti_opponent (a b b' : EloRating ℝ) (h : b.rating < b'.rating) :
    (expectedScore a b').1 < (expectedScore a b).1 := by
  simp only [expectedScore_real, sigmoid_lt_iff]
  have := log_ten_pos
  gcongr

theorem C01_elo_expected_half_iff (a b : EloRating ℝ) :
    (expectedScore a b).1 = 1 / 2 ↔ a.rating = b.rating := by
  simp only [expectedScore_real, sigmoid_eq_half_iff]
  have := log_ten_pos
  constructor
  · intro h
    have h' : a.rating - b.rating = 0 := by
      rcases mul_eq_zero.1 h with h | h
      · exfalso; have : 0 < log 10 / 400 := by positivity
        linarith
      · exact h
    linarith
  · intro h; rw [h]; ring

/-- The list variant is the pairwise function, in any arithmetic. -/
theorem C01_elo_expected_list {F : Type} [Flt F] (a : EloRating F) (os : List (EloRating F)) :
    expectedScoreRatingPeriod a os = os.map fun o => (expectedScore a o).1 := rfl

/-- A 400 point favourite is expected to score 10/11. -/
example : (expectedScore ⟨1800⟩ ⟨1400⟩ : ℝ × ℝ).1 = 10 / 11 := by
  have h := C01_elo_expected_odds ⟨1800⟩ ⟨1400⟩
  have p := C01_elo_expected_probability ⟨1800⟩ ⟨1400⟩
  have := p.fst_lt_one
  rw [odds, div_eq_iff (by linarith)] at h
  norm_num at h
  linarith

/-! ### C02: conservation -/

/-- Any tournament between any number of players conserves the total rating. -/
theorem C02_elo_tournament_total {ι : Type} [Fintype ι] [DecidableEq ι]
    (pool : ι → EloRating ℝ) (games : List (Game ι (EloConfig ℝ))) :
    ∑ i, (tournament elo pool games i).rating = ∑ i, (pool i).rating := by
  apply tournament_total_of elo (fun r => r.rating)
  intro a b o c
  simp only [elo_real]
  ring

/-- Two games of three players. -/
example (pool : Fin 3 → EloRating ℝ) :
    ∑ i, (tournament elo pool
      [⟨0, 1, by decide, .WIN, ⟨32⟩⟩, ⟨1, 2, by decide, .DRAW, ⟨16⟩⟩] i).rating
      = ∑ i, (pool i).rating :=
  C02_elo_tournament_total _ _

/-! ### C03: direction and size of the change -/

theorem C03_elo_win (a b : EloRating ℝ) (c : EloConfig ℝ) (hk : 0 < c.k) :
    a.rating < (elo a b .WIN c).1.rating ∧ (elo a b .WIN c).2.rating < b.rating := by
  have h := sigmoid_lt_one (log 10 / 400 * (a.rating - b.rating))
  simp only [elo_real, points]
  constructor <;> nlinarith

theorem C03_elo_loss (a b : EloRating ℝ) (c : EloConfig ℝ) (hk : 0 < c.k) :
    (elo a b .LOSS c).1.rating < a.rating ∧ b.rating < (elo a b .LOSS c).2.rating := by
  have h := sigmoid_pos (log 10 / 400 * (a.rating - b.rating))
  simp only [elo_real, points]
  constructor <;> nlinarith

theorem C03_elo_draw (a b : EloRating ℝ) (c : EloConfig ℝ) (hk : 0 < c.k)
    (h : a.rating < b.rating) :
    (a.rating < (elo a b .DRAW c).1.rating ∧ (elo a b .DRAW c).2.rating < b.rating) ∧
    (b.rating > (elo b a .DRAW c).1.rating ∧ (elo b a .DRAW c).2.rating > a.rating) := by
  have hl := log_ten_pos
  have h1 : sigmoid (log 10 / 400 * (a.rating - b.rating)) < 1 / 2 := by
    rw [one_div, ← sigmoid_zero, sigmoid_lt_iff]
    have : 0 < log 10 / 400 := by positivity
    nlinarith
  have h2 : sigmoid (log 10 / 400 * (b.rating - a.rating)) > 1 / 2 := by
    rw [one_div, ← sigmoid_zero, gt_iff_lt, sigmoid_lt_iff]
    have : 0 < log 10 / 400 := by positivity
    nlinarith
  simp only [elo_real, points]
  refine ⟨⟨?_, ?_⟩, ?_, ?_⟩ <;> nlinarith

theorem C03_elo_draw_equal (a b : EloRating ℝ) (c : EloConfig ℝ) (h : a.rating = b.rating) :
    elo a b .DRAW c = (a, b) := by
  simp only [elo_real, points, h, sub_self, mul_zero, sigmoid_zero]
  norm_num
  cases a; cases b; simp_all

theorem C03_elo_change_lt_k (a b : EloRating ℝ) (o : Outcomes) (c : EloConfig ℝ) (hk : 0 < c.k) :
    |(elo a b o c).1.rating - a.rating| < c.k ∧ |(elo a b o c).2.rating - b.rating| < c.k := by
  have h1 := sigmoid_lt_one (log 10 / 400 * (a.rating - b.rating))
  have h0 := sigmoid_pos (log 10 / 400 * (a.rating - b.rating))
  simp only [elo_real, abs_lt]
  cases o <;> simp only [points] <;> refine ⟨⟨?_, ?_⟩, ?_, ?_⟩ <;> nlinarith

/-- The default configuration meets the hypothesis. -/
example : (0 : ℝ) < (EloConfig.new : EloConfig ℝ).k := by simp [EloConfig.new]; norm_num

example : (1500 : ℝ) < (elo ⟨1500⟩ ⟨1700⟩ .DRAW (EloConfig.new : EloConfig ℝ)).1.rating :=
  (C03_elo_draw ⟨1500⟩ ⟨1700⟩ _ (by simp [EloConfig.new]; norm_num) (by norm_num)).1.1

/-- The published update: `r' = r + k (S - E)` with `E = 1 / (1 + 10^((r_opponent - r)/400))`. -/
theorem C82_elo_formula (a b : EloRating ℝ) (o : Outcomes) (c : EloConfig ℝ) :
    (elo a b o c).1.rating =
        a.rating + c.k * (points o - 1 / (1 + (10 : ℝ) ^ ((b.rating - a.rating) / 400))) ∧
      (elo a b o c).2.rating =
        b.rating + c.k * (points (mirror o) - 1 / (1 + (10 : ℝ) ^ ((a.rating - b.rating) / 400))) := by
  have e2 : log 10 / 400 * (b.rating - a.rating) = -(log 10 / 400 * (a.rating - b.rating)) := by
    ring
  constructor
  · rw [one_div, inv_one_add_pow,
      show -(log 10 * ((b.rating - a.rating) / 400)) = log 10 / 400 * (a.rating - b.rating) by ring,
      elo_real]
    ring
  · rw [one_div, inv_one_add_pow,
      show -(log 10 * ((a.rating - b.rating) / 400)) = log 10 / 400 * (b.rating - a.rating) by ring,
      elo_real, e2, sigmoid_neg, points_mirror]
    ring

/-- A 1500 beats an equal opponent with k = 32: 16 points. -/
example : (elo (⟨1500⟩ : EloRating ℝ) ⟨1500⟩ .WIN ⟨32⟩).1.rating = 1516 := by
  rw [(C82_elo_formula _ _ _ _).1]; norm_num [points]

/-! ### C04: symmetry -/

theorem C04_elo_swap (a b : EloRating ℝ) (o : Outcomes) (c : EloConfig ℝ) :
    elo b a (mirror o) c = ((elo a b o c).2, (elo a b o c).1) := by
  have h : log 10 / 400 * (b.rating - a.rating) = -(log 10 / 400 * (a.rating - b.rating)) := by
    ring
  simp only [elo_real, points_mirror, h, sigmoid_neg]
  congr 3; ring

theorem C04_elo_shift (a b : EloRating ℝ) (o : Outcomes) (c : EloConfig ℝ) (x : ℝ) :
    elo ⟨a.rating + x⟩ ⟨b.rating + x⟩ o c =
      (⟨(elo a b o c).1.rating + x⟩, ⟨(elo a b o c).2.rating + x⟩) := by
  simp only [elo_real, add_sub_add_right_eq_sub, add_assoc]

/-- The same game seen from both sides. -/
example : elo (⟨1400⟩ : EloRating ℝ) ⟨1500⟩ .LOSS ⟨20⟩ =
    ((elo ⟨1500⟩ ⟨1400⟩ .WIN ⟨20⟩).2, (elo ⟨1500⟩ ⟨1400⟩ .WIN ⟨20⟩).1) :=
  C04_elo_swap ⟨1500⟩ ⟨1400⟩ .WIN ⟨20⟩

/-! ### C05: a period is the sequence of its games -/

section
variable {F : Type} [Flt F]

theorem C05_elo_period_gauntlet (p : EloRating F) (rs : List (EloRating F × Outcomes))
    (c : EloConfig F) :
    eloRatingPeriod p rs c = gauntlet elo p (rs.map fun r => (r.1, r.2, c)) := by
  induction rs generalizing p with
  | nil => rfl
  | cons r rs ih =>
    have := ih (elo p r.1 r.2 c).1
    simpa [eloRatingPeriod, gauntlet, periodStep, elo, expectedScore] using this

theorem C05_elo_period_nil (p : EloRating F) (c : EloConfig F) : eloRatingPeriod p [] c = p := rfl

theorem C05_elo_period_append (p : EloRating F) (rs ss : List (EloRating F × Outcomes))
    (c : EloConfig F) :
    eloRatingPeriod p (rs ++ ss) c = eloRatingPeriod (eloRatingPeriod p rs c) ss c := by
  simp [eloRatingPeriod]

/-- Two games. -/
example (p x y : EloRating F) (c : EloConfig F) :
    eloRatingPeriod p [(x, .WIN), (y, .LOSS)] c = (elo (elo p x .WIN c).1 y .LOSS c).1 :=
  C05_elo_period_gauntlet p _ c

end

/-! ### C06: a draw never overtakes -/

theorem C06_elo_draw_keeps_order (a b : EloRating ℝ) (c : EloConfig ℝ) (h0 : 0 ≤ c.k)
    (hk : c.k ≤ 800 / log 10) (h : a.rating ≤ b.rating) :
    (elo a b .DRAW c).1.rating ≤ (elo a b .DRAW c).2.rating := by
  have hl := log_ten_pos
  have hx : 0 ≤ log 10 / 400 * (b.rating - a.rating) :=
    mul_nonneg (by positivity) (by linarith)
  have hs := sigmoid_sub_half_le hx
  have e : log 10 / 400 * (a.rating - b.rating) = -(log 10 / 400 * (b.rating - a.rating)) := by
    ring
  simp only [elo_real, points, e, sigmoid_neg]
  have hd : c.k * (sigmoid (log 10 / 400 * (b.rating - a.rating)) - 1 / 2)
      ≤ (b.rating - a.rating) / 2 := by
    have h1 : c.k * (sigmoid (log 10 / 400 * (b.rating - a.rating)) - 1 / 2)
        ≤ c.k * (log 10 / 400 * (b.rating - a.rating) / 4) := mul_le_mul_of_nonneg_left hs h0
    have h2 : c.k * log 10 ≤ 800 := (le_div_iff₀ hl).1 hk
    nlinarith
  nlinarith

/-- The bound is sharp: for every larger `k` there are two players whose order a draw swaps. -/
theorem C06_elo_draw_overtakes_large_k (c : EloConfig ℝ) (hk : 800 / log 10 < c.k) :
    ∃ a b : EloRating ℝ, a.rating < b.rating ∧
      (elo a b .DRAW c).2.rating < (elo a b .DRAW c).1.rating := by
  have hl := log_ten_pos
  have hk' : 800 < c.k * log 10 := (div_lt_iff₀ hl).1 hk
  have hkpos : 0 < c.k := lt_trans (by positivity) hk
  -- a difference whose logistic argument is `x`, where `exp x` is between 1 and `k ln 10/400 - 1`
  obtain ⟨x, hx0, hx1⟩ : ∃ x : ℝ, 0 < x ∧ exp x + 1 < c.k * log 10 / 400 := by
    have h1 : 1 < (c.k * log 10 / 400 - 1 + 1) / 2 := by linarith
    refine ⟨log ((c.k * log 10 / 400 - 1 + 1) / 2), Real.log_pos h1, ?_⟩
    rw [Real.exp_log (by linarith)]
    linarith
  have hs : x / (2 * (exp x + 1)) ≤ sigmoid x - 1 / 2 := by
    have he := Real.add_one_le_exp x
    have hp := Real.exp_pos x
    rw [sigmoid_def, Real.exp_neg]
    have e : (1 + (exp x)⁻¹)⁻¹ - 1 / 2 = (exp x - 1) / (2 * (exp x + 1)) := by
      field_simp; ring
    rw [e]
    gcongr
    linarith
  have hgt : 400 * x / log 10 < 2 * c.k * (sigmoid x - 1 / 2) := by
    have h2 : 400 * x / log 10 < 2 * c.k * (x / (2 * (exp x + 1))) := by
      have hp := Real.exp_pos x
      rw [show 2 * c.k * (x / (2 * (exp x + 1))) = c.k * x / (exp x + 1) by field_simp,
        div_lt_div_iff₀ hl (by positivity)]
      have : 400 * (exp x + 1) < c.k * log 10 := by linarith
      nlinarith
    have := mul_le_mul_of_nonneg_left hs (show 0 ≤ 2 * c.k by positivity)
    linarith
  refine ⟨⟨0⟩, ⟨400 * x / log 10⟩, by positivity, ?_⟩
  have e : log 10 / 400 * (0 - 400 * x / log 10) = -x := by field_simp; ring
  simp only [elo_real, points, e, sigmoid_neg]
  linarith

example : (elo ⟨1000⟩ ⟨1100⟩ .DRAW (EloConfig.new : EloConfig ℝ)).1.rating
    ≤ (elo ⟨1000⟩ ⟨1100⟩ .DRAW (EloConfig.new : EloConfig ℝ)).2.rating :=
  C06_elo_draw_keeps_order _ _ _ (by simp [EloConfig.new]; norm_num)
    (by
      have := log_ten_lt
      simp only [EloConfig.new, flt]
      rw [le_div_iff₀ log_ten_pos]
      linarith) (by norm_num)

/-- `k = 400` is too large. -/
example : 800 / log 10 < (⟨400⟩ : EloConfig ℝ).k := by
  have := log_ten_gt
  rw [div_lt_iff₀ log_ten_pos]
  linarith

end Skillratings.Elo
