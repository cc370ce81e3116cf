import Verif.Proofs.Fifa
import Verif.Proofs.Tournament
/-
Properties of /repo/src/fifa.rs: C07 - C11.
-/
namespace Skillratings.Fifa
open Real Spec

/-! ### C07: expected scores are probabilities -/

theorem C07_fifa_expected_probability (a b : FifaRating ℝ) :
    ProbabilityPair (expectedScore a b) := by
  rw [expectedScore_real]; exact probabilityPair_sigmoid _

theorem C07_fifa_expected_swap (a b : FifaRating ℝ) :
    expectedScore b a = ((expectedScore a b).2, (expectedScore a b).1) := by
  have h : log 10 / 600 * (b.rating - a.rating) = -(log 10 / 600 * (a.rating - b.rating)) := by
    ring
  simp [expectedScore_real, h, sigmoid_neg]

theorem C07_fifa_expected_odds (a b : FifaRating ℝ) :
    odds (expectedScore a b).1 = (10 : ℝ) ^ ((a.rating - b.rating) / 600) := by
  rw [expectedScore_real, odds_sigmoid, ← exp_log_ten_mul]
  congr 1; ring

theorem C07_fifa_expected_strictMono_own (a a' b : FifaRating ℝ) (h : a.rating < a'.rating) :
    (expectedScore a b).1 < (expectedScore a' b).1 := by
  simp only [expectedScore_real, sigmoid_lt_iff]
  have := log_ten_pos
  gcongr

theorem C07_fifa_expected_strictAnti_opponent (a b b' : FifaRating ℝ)
    (h : b.rating < b'.rating) : (expectedScore a b').1 < (expectedScore a b).1 := by
  simp only [expectedScore_real, sigmoid_lt_iff]
  have := log_ten_pos
  gcongr

/-- The list variant is the pairwise function, in any arithmetic. -/
theorem C07_fifa_expected_list {F : Type} [Flt F] (a : FifaRating F) (os : List (FifaRating F)) :
    expectedScoreRatingPeriod a os = os.map fun o => (expectedScore a o).1 := rfl

/-- A 600 point favourite is expected to score 10/11. -/
example : (expectedScore ⟨1800⟩ ⟨1200⟩ : ℝ × ℝ).1 = 10 / 11 := by
  have h := C07_fifa_expected_odds ⟨1800⟩ ⟨1200⟩
  have p := C07_fifa_expected_probability ⟨1800⟩ ⟨1200⟩
  have := p.fst_lt_one
  rw [odds, div_eq_iff (by linarith)] at h
  norm_num at h
  linarith

/-! ### C08: league matches conserve points -/

/-- A match that is neither a knockout match nor decided on penalties. -/
def League (c : FifaConfig ℝ) : Prop := c.knockout = false ∧ c.penalties = false

/-- A league match with its configuration bundled with the proof that it is one. -/
noncomputable def fifaLeague (a b : FifaRating ℝ) (o : Outcomes) (c : { c // League c }) :
    FifaRating ℝ × FifaRating ℝ := fifa a b o c.1

theorem C08_fifa_league_formula (a b : FifaRating ℝ) (o : Outcomes) (c : FifaConfig ℝ)
    (h : League c) :
    (fifa a b o c).1.rating =
        a.rating + c.importance * (points o - 1 / (1 + (10 : ℝ) ^ (-(a.rating - b.rating) / 600))) ∧
      (fifa a b o c).2.rating =
        b.rating + c.importance
          * (points (mirror o) - 1 / (1 + (10 : ℝ) ^ (-(b.rating - a.rating) / 600))) := by
  have e2 : log 10 / 600 * (b.rating - a.rating) = -(log 10 / 600 * (a.rating - b.rating)) := by
    ring
  constructor
  · rw [one_div, inv_one_add_pow,
      show -(log 10 * (-(a.rating - b.rating) / 600)) = log 10 / 600 * (a.rating - b.rating) by
        ring, fifa_real]
    simp only [guarded, credit, h.1, h.2]; simp; ring
  · rw [one_div, inv_one_add_pow,
      show -(log 10 * (-(b.rating - a.rating) / 600)) = log 10 / 600 * (b.rating - a.rating) by
        ring, fifa_real, e2, sigmoid_neg, points_mirror]
    simp only [guarded, credit2, h.1, h.2]; simp; ring

theorem C08_fifa_league_total {ι : Type} [Fintype ι] [DecidableEq ι]
    (pool : ι → FifaRating ℝ) (games : List (Game ι { c : FifaConfig ℝ // League c })) :
    ∑ i, (tournament fifaLeague pool games i).rating = ∑ i, (pool i).rating := by
  apply tournament_total_of fifaLeague (fun r => r.rating)
  intro a b o c
  have h := c.2
  simp only [fifaLeague, fifa_real, guarded, credit, credit2, h.1, h.2]
  simp
  ring

theorem C08_fifa_league_bound (a b : FifaRating ℝ) (o : Outcomes) (c : FifaConfig ℝ)
    (h : League c) (hi : 0 < c.importance) :
    |(fifa a b o c).1.rating - a.rating| < c.importance ∧
      |(fifa a b o c).2.rating - b.rating| < c.importance := by
  have h1 := sigmoid_lt_one (log 10 / 600 * (a.rating - b.rating))
  have h0 := sigmoid_pos (log 10 / 600 * (a.rating - b.rating))
  simp only [fifa_real, guarded, credit, credit2, h.1, h.2, abs_lt]
  cases o <;> simp only [points] <;> simp <;> refine ⟨⟨?_, ?_⟩, ?_, ?_⟩ <;> nlinarith

theorem C08_fifa_league_win (a b : FifaRating ℝ) (c : FifaConfig ℝ)
    (h : League c) (hi : 0 < c.importance) :
    a.rating < (fifa a b .WIN c).1.rating ∧ (fifa a b .WIN c).2.rating < b.rating := by
  have h1 := sigmoid_lt_one (log 10 / 600 * (a.rating - b.rating))
  simp only [fifa_real, guarded, credit, credit2, h.1, h.2]
  simp only [points]
  simp
  constructor <;> nlinarith

theorem C08_fifa_league_loss (a b : FifaRating ℝ) (c : FifaConfig ℝ)
    (h : League c) (hi : 0 < c.importance) :
    (fifa a b .LOSS c).1.rating < a.rating ∧ b.rating < (fifa a b .LOSS c).2.rating := by
  have h0 := sigmoid_pos (log 10 / 600 * (a.rating - b.rating))
  simp only [fifa_real, guarded, credit, credit2, h.1, h.2]
  simp only [points]
  simp
  positivity

/-- The default configuration is a league match of positive importance. -/
example : League (FifaConfig.new : FifaConfig ℝ) ∧ 0 < (FifaConfig.new : FifaConfig ℝ).importance := by
  constructor
  · exact ⟨rfl, rfl⟩
  · simp [FifaConfig.new]; norm_num

/-! ### C09: knockout protection -/

theorem C09_fifa_knockout (a b : FifaRating ℝ) (o : Outcomes) (c : FifaConfig ℝ)
    (h : c.knockout = true) :
    a.rating ≤ (fifa a b o c).1.rating ∧ b.rating ≤ (fifa a b o c).2.rating := by
  simp only [fifa_real, guarded, h]; simp

/-- In any arithmetic in which nothing is less than itself (NaN included): a knockout match
never produces a rating that compares less than the old one. -/
theorem C09_fifa_knockout_any {F : Type} [Flt F] (hirr : ∀ x : F, (x <? x) = false)
    (a b : FifaRating F) (o : Outcomes) (c : FifaConfig F) (h : c.knockout = true) :
    ((fifa a b o c).1.rating <? a.rating) = false ∧
      ((fifa a b o c).2.rating <? b.rating) = false := by
  have key : ∀ x y : F, ((if (x <? y) = true then y else x) <? y) = false := by
    intro x y
    by_cases hxy : (x <? y) = true
    · rw [if_pos hxy]; exact hirr y
    · rw [if_neg hxy]; simpa using hxy
  simp only [fifa, h, Bool.true_and]
  exact ⟨key _ _, key _ _⟩

theorem C09_fifa_knockout_period (p : FifaRating ℝ)
    (rs : List (FifaRating ℝ × Outcomes × FifaConfig ℝ))
    (h : ∀ r ∈ rs, r.2.2.knockout = true) : p.rating ≤ (fifaRatingPeriod p rs).rating := by
  simp only [fifaRatingPeriod]
  generalize p.rating = x
  induction rs generalizing x with
  | nil => exact le_rfl
  | cons r rs ih =>
    refine le_trans ?_ (ih (fun r hr => h r (List.mem_cons_of_mem _ hr)) (periodStep x r))
    have hr := h r List.mem_cons_self
    obtain ⟨b, o, c⟩ := r
    simp only at hr
    simp only [periodStep, hr, Bool.true_and]
    have key : ∀ y : ℝ, x ≤ if (!(y <? x)) = true then y else x := by
      intro y
      by_cases hy : y < x
      · simp [flt, not_le.2 hy]
      · simp [flt, not_lt.1 hy]
    exact key _

/-- Without the knockout flag the same match gives the unprotected rating, and the protected
rating is the larger of that and the old one. -/
theorem C09_fifa_knockout_only_guards (a b : FifaRating ℝ) (o : Outcomes) (i : ℝ) (pen : Bool) :
    (fifa a b o ⟨i, true, pen⟩).1.rating = max a.rating (fifa a b o ⟨i, false, pen⟩).1.rating ∧
    (fifa a b o ⟨i, true, pen⟩).2.rating = max b.rating (fifa a b o ⟨i, false, pen⟩).2.rating := by
  simp [fifa_real, guarded, credit, credit2]

example : (⟨60, true, false⟩ : FifaConfig ℝ).knockout = true := rfl

/-- The loser of a knockout final keeps exactly the old rating. -/
example : (fifa (⟨1500⟩ : FifaRating ℝ) ⟨1500⟩ .WIN ⟨60, true, false⟩).2.rating = 1500 := by
  simp only [fifa_real, guarded, credit2, points]
  norm_num

/-! ### C10: a period is the sequence of its matches -/

section
variable {F : Type} [Flt F]

theorem C10_fifa_period_gauntlet (p : FifaRating F)
    (rs : List (FifaRating F × Outcomes × FifaConfig F)) :
    fifaRatingPeriod p rs = gauntlet fifa p rs := by
  induction rs generalizing p with
  | nil => rfl
  | cons r rs ih =>
    have := ih (fifa p r.1 r.2.1 r.2.2).1
    have e : (⟨periodStep p.rating r⟩ : FifaRating F) = (fifa p r.1 r.2.1 r.2.2).1 := by
      obtain ⟨b, o, c⟩ := r
      simp only [periodStep, fifa, expectedScore]
      generalize (Flt.mulAdd c.importance _ p.rating : F) = y
      by_cases h : (c.knockout && (y <? p.rating)) = true
      · simp [h]
      · rw [Bool.not_eq_true] at h; simp [h]
    have : fifaRatingPeriod p (r :: rs) = fifaRatingPeriod ⟨periodStep p.rating r⟩ rs := rfl
    rw [this, e]
    assumption

theorem C10_fifa_period_nil (p : FifaRating F) : fifaRatingPeriod p [] = p := rfl

theorem C10_fifa_period_append (p : FifaRating F)
    (rs ss : List (FifaRating F × Outcomes × FifaConfig F)) :
    fifaRatingPeriod p (rs ++ ss) = fifaRatingPeriod (fifaRatingPeriod p rs) ss := by
  simp [fifaRatingPeriod]

/-- Two matches with different configurations. -/
example (p x y : FifaRating F) (c d : FifaConfig F) :
    fifaRatingPeriod p [(x, .WIN, c), (y, .LOSS, d)] = (fifa (fifa p x .WIN c).1 y .LOSS d).1 :=
  C10_fifa_period_gauntlet p _

end

/-! ### C11: penalty shootouts -/

/-- The documented credit of the two teams in a shootout: the winner is credited 3/4, the loser
as in a draw, and a draw is a draw. -/
noncomputable def shootoutCredit : Outcomes → ℝ × ℝ
  | .WIN => (3 / 4, 1 / 2)
  | .LOSS => (1 / 2, 3 / 4)
  | .DRAW => (1 / 2, 1 / 2)

/-- The documented rating after a shootout, with the given credit (no knockout match). -/
noncomputable def shootoutRating (old opponent importance credit : ℝ) : ℝ :=
  old + importance * (credit - 1 / (1 + (10 : ℝ) ^ (-(old - opponent) / 600)))

/-- What holds: the rating of the first team of a shootout.  (The claim for the second team fails,
see below.) -/
theorem C11_fifa_shootout_first_partial (a b : FifaRating ℝ) (o : Outcomes) (i : ℝ) :
    (fifa a b o ⟨i, false, true⟩).1.rating =
      shootoutRating a.rating b.rating i (shootoutCredit o).1 := by
  rw [shootoutRating, one_div, inv_one_add_pow,
    show -(log 10 * (-(a.rating - b.rating) / 600)) = log 10 / 600 * (a.rating - b.rating) by ring,
    fifa_real]
  cases o <;> simp [guarded, credit, shootoutCredit] <;> ring

theorem C11_fifa_shootout_draw (a b : FifaRating ℝ) (i : ℝ) :
    (fifa a b .DRAW ⟨i, false, true⟩).2.rating =
      shootoutRating b.rating a.rating i (shootoutCredit .DRAW).2 := by
  have e2 : log 10 / 600 * (b.rating - a.rating) = -(log 10 / 600 * (a.rating - b.rating)) := by
    ring
  rw [shootoutRating, one_div, inv_one_add_pow,
    show -(log 10 * (-(b.rating - a.rating) / 600)) = log 10 / 600 * (b.rating - a.rating) by ring,
    fifa_real, e2, sigmoid_neg]
  simp [guarded, credit2, shootoutCredit]; ring

theorem C11_fifa_shootout_period (p b : FifaRating ℝ) (o : Outcomes) (i : ℝ) :
    (fifaRatingPeriod p [(b, o, ⟨i, false, true⟩)]).rating =
      shootoutRating p.rating b.rating i (shootoutCredit o).1 := by
  rw [C10_fifa_period_gauntlet]
  exact C11_fifa_shootout_first_partial p b o i

/-- What fails, for all ratings: the second team is credited with the first team's result.
The second team of a decided shootout always gets the wrong rating. -/
theorem C11_fifa_shootout_second_wrong (a b : FifaRating ℝ) (o : Outcomes) (i : ℝ) (hi : i ≠ 0)
    (ho : o ≠ .DRAW) :
    (fifa a b o ⟨i, false, true⟩).2.rating ≠
      shootoutRating b.rating a.rating i (shootoutCredit o).2 := by
  have e2 : log 10 / 600 * (b.rating - a.rating) = -(log 10 / 600 * (a.rating - b.rating)) := by
    ring
  rw [shootoutRating, one_div, inv_one_add_pow,
    show -(log 10 * (-(b.rating - a.rating) / 600)) = log 10 / 600 * (b.rating - a.rating) by ring,
    fifa_real, e2, sigmoid_neg]
  cases o
  · simp [guarded, credit2, shootoutCredit]
    intro h; apply hi; nlinarith
  · simp [guarded, credit2, shootoutCredit]
    intro h; apply hi; nlinarith
  · exact absurd rfl ho

/-- The error in numbers: the loser of the shootout gets `i/4` too much when it is listed second,
the winner gets `i/4` too little when it is listed second. -/
theorem C11_fifa_shootout_second_error (a b : FifaRating ℝ) (i : ℝ) :
    (fifa a b .WIN ⟨i, false, true⟩).2.rating =
        shootoutRating b.rating a.rating i (shootoutCredit .WIN).2 + i / 4 ∧
      (fifa a b .LOSS ⟨i, false, true⟩).2.rating =
        shootoutRating b.rating a.rating i (shootoutCredit .LOSS).2 - i / 4 := by
  have e2 : log 10 / 600 * (b.rating - a.rating) = -(log 10 / 600 * (a.rating - b.rating)) := by
    ring
  simp only [shootoutRating, one_div, inv_one_add_pow]
  rw [show -(log 10 * (-(b.rating - a.rating) / 600)) = log 10 / 600 * (b.rating - a.rating) by
    ring, fifa_real, fifa_real, e2, sigmoid_neg]
  simp [guarded, credit2, shootoutCredit]
  constructor <;> ring

/-- The seats matter: the same shootout reported from the other side gives other ratings. -/
theorem C11_fifa_shootout_not_symmetric :
    ∃ (a b : FifaRating ℝ) (c : FifaConfig ℝ), c.penalties = true ∧
      fifa b a (mirror .WIN) c ≠ ((fifa a b .WIN c).2, (fifa a b .WIN c).1) := by
  refine ⟨⟨1000⟩, ⟨1000⟩, ⟨60, false, true⟩, rfl, ?_⟩
  intro h
  have h1 := congrArg (fun r => r.1.rating) h
  simp [fifa_real, guarded, credit, credit2, mirror] at h1
  norm_num at h1

example : (10 : ℝ) ≠ 0 ∧ Outcomes.LOSS ≠ Outcomes.DRAW := ⟨by norm_num, by decide⟩

end Skillratings.Fifa
