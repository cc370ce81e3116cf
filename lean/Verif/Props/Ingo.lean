import Verif.Proofs.Logistic
import Verif.Model.Ingo
/-
Properties of /repo/src/ingo.rs: C24 - C26.
-/
namespace Skillratings.Ingo
open Real Spec

/-! The Ingo rules, as real formulas. -/

/-- The development coefficient of an age. -/
noncomputable def development (age : ℕ) : ℝ := if age ≤ 20 then 10 else if age ≤ 25 then 15 else 20

/-- The performance of a score fraction against an average opponent (lower is better). -/
noncomputable def perf (average fraction : ℝ) : ℝ := average - (100 * fraction - 50)

theorem performance_real (r s : ℝ) : performance r s = perf r s := by
  simp only [performance, perf, flt]; ring

theorem development_real (age : ℕ) : (ageToDevcoefficient age : ℝ) = development age := by
  simp only [ageToDevcoefficient, development, flt]

theorem development_pos (age : ℕ) : 0 < development age := by
  unfold development; split_ifs <;> norm_num

/-! ### C24: towards the performance -/

/-- The new rating is the mean of the performance and the old rating, with the weights 1 and the
development coefficient. -/
theorem C24_ingo_formula (a b : IngoRating ℝ) (o : Outcomes) :
    (ingo a b o).1.rating =
        (perf b.rating (points o) + development a.age * a.rating) / (1 + development a.age) ∧
      (ingo a b o).2.rating =
        (perf a.rating (points (mirror o)) + development b.age * b.rating)
          / (1 + development b.age) := by
  simp only [ingo, performance_real, development_real, points_mirror, flt]
  constructor <;> ring

theorem C24_ingo_period_formula (p : IngoRating ℝ) (rs : List (IngoRating ℝ × Outcomes)) :
    (ingoRatingPeriod p rs).rating =
      (rs.length * perf ((rs.map fun r => r.1.rating).sum / rs.length) (score rs / rs.length)
        + development p.age * p.rating) / (rs.length + development p.age) := by
  simp only [ingoRatingPeriod, performance_real, development_real, flt, score]
  ring

theorem mean_mem {x y w d : ℝ} (hw : 0 ≤ w) (hd : 0 < d) :
    min x y ≤ (w * x + d * y) / (w + d) ∧ (w * x + d * y) / (w + d) ≤ max x y := by
  have hp : 0 < w + d := by linarith
  rw [le_div_iff₀ hp, div_le_iff₀ hp]
  have h1 := min_le_left x y
  have h2 := min_le_right x y
  have h3 := le_max_left x y
  have h4 := le_max_right x y
  constructor <;> nlinarith

theorem C24_ingo_between (a b : IngoRating ℝ) (o : Outcomes) :
    min (perf b.rating (points o)) a.rating ≤ (ingo a b o).1.rating ∧
      (ingo a b o).1.rating ≤ max (perf b.rating (points o)) a.rating := by
  rw [(C24_ingo_formula a b o).1]
  have := mean_mem (x := perf b.rating (points o)) (y := a.rating) zero_le_one (development_pos a.age)
  rwa [one_mul] at this

theorem C24_ingo_between_second (a b : IngoRating ℝ) (o : Outcomes) :
    min (perf a.rating (points (mirror o))) b.rating ≤ (ingo a b o).2.rating ∧
      (ingo a b o).2.rating ≤ max (perf a.rating (points (mirror o))) b.rating := by
  rw [(C24_ingo_formula a b o).2]
  have := mean_mem (x := perf a.rating (points (mirror o))) (y := b.rating) zero_le_one
    (development_pos b.age)
  rwa [one_mul] at this

theorem C24_ingo_period_between (p : IngoRating ℝ) (rs : List (IngoRating ℝ × Outcomes)) :
    min (perf ((rs.map fun r => r.1.rating).sum / rs.length) (score rs / rs.length)) p.rating
        ≤ (ingoRatingPeriod p rs).rating ∧
      (ingoRatingPeriod p rs).rating ≤
        max (perf ((rs.map fun r => r.1.rating).sum / rs.length) (score rs / rs.length)) p.rating := by
  rw [C24_ingo_period_formula]
  exact mean_mem (Nat.cast_nonneg _) (development_pos p.age)

/-- Lower is better: a win beats a draw and a draw beats a loss, for both players. -/
theorem C24_ingo_result_order (a b : IngoRating ℝ) :
    (ingo a b .WIN).1.rating < (ingo a b .DRAW).1.rating ∧
      (ingo a b .DRAW).1.rating < (ingo a b .LOSS).1.rating ∧
      (ingo a b .LOSS).2.rating < (ingo a b .DRAW).2.rating ∧
      (ingo a b .DRAW).2.rating < (ingo a b .WIN).2.rating := by
  have h1 := development_pos a.age
  have h2 := development_pos b.age
  simp only [C24_ingo_formula, perf, points, mirror]
  refine ⟨?_, ?_, ?_, ?_⟩ <;>
  · apply div_lt_div_of_pos_right _ (by positivity)
    linarith

/-- The change of a rating: the distance to the performance over one plus the coefficient. -/
theorem C24_ingo_change (a b : IngoRating ℝ) (o : Outcomes) :
    (ingo a b o).1.rating - a.rating =
      (perf b.rating (points o) - a.rating) / (1 + development a.age) := by
  have h1 := development_pos a.age
  rw [(C24_ingo_formula a b o).1]
  field_simp
  ring

/-- Younger players move at least as far, and strictly further across the age brackets. -/
theorem C24_ingo_young_move_further (r : ℝ) (age age' : ℕ) (b : IngoRating ℝ) (o : Outcomes)
    (h : age ≤ age') :
    |(ingo ⟨r, age'⟩ b o).1.rating - r| ≤ |(ingo ⟨r, age⟩ b o).1.rating - r| := by
  have h1 := development_pos age
  have h2 := development_pos age'
  have hd : development age ≤ development age' := by
    unfold development; split_ifs <;> first | omega | norm_num
  have e1 := C24_ingo_change ⟨r, age⟩ b o
  have e2 := C24_ingo_change ⟨r, age'⟩ b o
  simp only at e1 e2
  rw [e1, e2, abs_div, abs_div, abs_of_pos (show 0 < 1 + development age by linarith),
    abs_of_pos (show 0 < 1 + development age' by linarith)]
  apply div_le_div_of_nonneg_left (abs_nonneg _) (by linarith) (by linarith)

theorem C24_ingo_young_move_strictly_further (r : ℝ) (age age' : ℕ) (b : IngoRating ℝ)
    (o : Outcomes) (h : age ≤ 20 ∧ 21 ≤ age' ∨ age ≤ 25 ∧ 26 ≤ age')
    (hp : perf b.rating (points o) ≠ r) :
    |(ingo ⟨r, age'⟩ b o).1.rating - r| < |(ingo ⟨r, age⟩ b o).1.rating - r| := by
  have h1 := development_pos age
  have h2 := development_pos age'
  have hd : development age < development age' := by
    unfold development; split_ifs <;> first | omega | norm_num
  have e1 := C24_ingo_change ⟨r, age⟩ b o
  have e2 := C24_ingo_change ⟨r, age'⟩ b o
  simp only at e1 e2
  rw [e1, e2, abs_div, abs_div, abs_of_pos (show 0 < 1 + development age by linarith),
    abs_of_pos (show 0 < 1 + development age' by linarith)]
  apply div_lt_div_of_pos_left (abs_pos.2 (sub_ne_zero.2 hp)) (by linarith) (by linarith)

/-- A 40 year old with Ingo 130 who beats a 160 improves to 2710/21. -/
example : (ingo (⟨130, 40⟩ : IngoRating ℝ) ⟨160, 40⟩ .WIN).1.rating = 2710 / 21 := by
  rw [(C24_ingo_formula _ _ _).1]; norm_num [perf, points, development]

/-! ### C25: periods and ages -/

theorem C25_ingo_period_single (p b : IngoRating ℝ) (o : Outcomes) :
    ingoRatingPeriod p [(b, o)] = (ingo p b o).1 := by
  simp [ingoRatingPeriod, ingo, flt]

theorem C25_ingo_period_perm (p : IngoRating ℝ) (rs ss : List (IngoRating ℝ × Outcomes))
    (h : rs.Perm ss) : ingoRatingPeriod p rs = ingoRatingPeriod p ss := by
  simp only [ingoRatingPeriod, flt, h.length_eq, (h.map fun r => r.1.rating).sum_eq,
    (h.map fun r => points r.2).sum_eq]

theorem C25_ingo_age {F : Type} [Flt F] (a b : IngoRating F) (o : Outcomes) :
    (ingo a b o).1.age = a.age ∧ (ingo a b o).2.age = b.age := ⟨rfl, rfl⟩

theorem C25_ingo_period_age {F : Type} [Flt F] (p : IngoRating F)
    (rs : List (IngoRating F × Outcomes)) : (ingoRatingPeriod p rs).age = p.age := rfl

example (x y : IngoRating ℝ) :
    [(x, Outcomes.WIN), (y, .LOSS)].Perm [(y, .LOSS), (x, .WIN)] := List.Perm.swap _ _ _

/-! ### C26: expected scores -/

theorem C26_ingo_expected_formula (a b : IngoRating ℝ) :
    (expectedScore a b).1 = 1 / 2 + (b.rating - a.rating) / 100 ∧
      (expectedScore a b).1 + (expectedScore a b).2 = 1 := by
  simp only [expectedScore, flt]
  exact ⟨trivial, by ring⟩

theorem C26_ingo_expected_swap (a b : IngoRating ℝ) :
    expectedScore b a = ((expectedScore a b).2, (expectedScore a b).1) := by
  simp only [expectedScore, flt, Prod.mk.injEq]
  constructor
  · ring
  · ring

/-- The scores are in [0, 1] exactly if the ratings differ by at most 50 points. -/
theorem C26_ingo_expected_range (a b : IngoRating ℝ) :
    ((0 ≤ (expectedScore a b).1 ∧ (expectedScore a b).1 ≤ 1) ∧
      (0 ≤ (expectedScore a b).2 ∧ (expectedScore a b).2 ≤ 1)) ↔ |a.rating - b.rating| ≤ 50 := by
  simp only [expectedScore, flt, abs_le]
  constructor
  · rintro ⟨⟨h1, h2⟩, h3, h4⟩; constructor <;> linarith
  · rintro ⟨h1, h2⟩; refine ⟨⟨?_, ?_⟩, ?_, ?_⟩ <;> linarith

/-- The better (lower) rated player is the favourite. -/
theorem C26_ingo_expected_favourite (a b : IngoRating ℝ) :
    1 / 2 < (expectedScore a b).1 ↔ a.rating < b.rating := by
  rw [(C26_ingo_expected_formula a b).1]
  constructor <;> intro h <;> linarith

/-- The list variant is the pairwise function, in any arithmetic. -/
theorem C26_ingo_expected_list {F : Type} [Flt F] (a : IngoRating F) (os : List (IngoRating F)) :
    expectedScoreRatingPeriod a os = os.map fun o => (expectedScore a o).1 := rfl

/-- A strong player against a beginner: an expected score of 1.5. -/
example : (expectedScore (⟨80, 30⟩ : IngoRating ℝ) ⟨180, 30⟩).1 = 3 / 2 := by
  rw [(C26_ingo_expected_formula _ _).1]; norm_num

end Skillratings.Ingo
