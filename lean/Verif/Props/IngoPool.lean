import Verif.Proofs.IngoPool
/-
C146: a pool of Ingo players, whatever the results are.
-/
namespace Skillratings.Ingo
open Spec

variable {ι : Type} [DecidableEq ι]

/-- The development coefficient of the documentation (`src/ingo.rs`): 10 for players up to 20 years,
15 up to 25 years, 20 for the others. -/
noncomputable def coefficient (age : ℕ) : ℝ := if age ≤ 20 then 10 else if age ≤ 25 then 15 else 20

private theorem weight_eq (a : IngoRating ℝ) : weight a = 1 + coefficient a.age := rfl

/-- Games leave the sum of all ratings as it is, if each is weighted with 1 + the development
coefficient. -/
theorem C146_ingo_total [Fintype ι] (pool : ι → IngoRating ℝ) (games : List (Game ι Unit)) :
    ∑ i, (1 + coefficient (pool i).age)
        * (tournament (fun a b o _ => ingo a b o) pool games i).rating
      = ∑ i, (1 + coefficient (pool i).age) * (pool i).rating := by
  have h := total pool games 0
  simp only [sub_zero] at h
  exact h

/-- The change of a rating: expected scores minus points. -/
theorem C146_ingo_account (pool : ι → IngoRating ℝ) (games : List (Game ι Unit)) (i : ι) :
    (1 + coefficient (pool i).age) * ((tournament (fun a b o _ => ingo a b o) pool games i).rating
        - (pool i).rating)
      = 100 * (predicted (fun a b o _ => ingo a b o) expectedScore pool games i - earned games i) := by
  have h := account pool games i
  rw [weight_eq] at h
  change _ * (tournament rule pool games i).rating = _ at h
  change _ * ((tournament rule pool games i).rating - _) = 100 * (predicted rule _ _ _ _ - _)
  linarith

/-- A rating never moves further than a bound that does not depend on the number of games. -/
theorem C146_ingo_bounded [Fintype ι] (pool : ι → IngoRating ℝ) (games : List (Game ι Unit)) (D : ℝ)
    (hD : ∀ i j, |(pool i).rating - (pool j).rating| ≤ D) (i : ι) :
    |(tournament (fun a b o _ => ingo a b o) pool games i).rating - (pool i).rating|
      ≤ Fintype.card ι * (4 * D + 92) := by
  have h := pool_drift pool games hD i
  have hw := weight_ge (pool i)
  have hD0 : 0 ≤ D := (abs_nonneg _).trans (hD i i)
  have hN := mul_nonneg (Nat.cast_nonneg (α := ℝ) (Fintype.card ι)) hD0
  change |(tournament rule pool games i).rating - _| ≤ _
  have h0 := abs_nonneg ((tournament rule pool games i).rating - (pool i).rating)
  have hN0 := Nat.cast_nonneg (α := ℝ) (Fintype.card ι)
  nlinarith

/-- The difference between points and expected scores of a player never exceeds a bound that does not
depend on the number of games. -/
theorem C146_ingo_calibrated_bound [Fintype ι] (pool : ι → IngoRating ℝ)
    (games : List (Game ι Unit)) (D : ℝ) (hD : ∀ i j, |(pool i).rating - (pool j).rating| ≤ D) (i : ι) :
    |earned games i - predicted (fun a b o _ => ingo a b o) expectedScore pool games i|
      ≤ Fintype.card ι * (D / 2 + 11) := by
  have h := pool_drift pool games hD i
  have hD0 : 0 ≤ D := (abs_nonneg _).trans (hD i i)
  have hN := mul_nonneg (Nat.cast_nonneg (α := ℝ) (Fintype.card ι)) hD0
  have hN0 := Nat.cast_nonneg (α := ℝ) (Fintype.card ι)
  have hw := weight_ge (pool i)
  have e := account pool games i
  change |earned games i - predicted rule expectedScore pool games i| ≤ _
  have e' : weight (pool i) * ((tournament rule pool games i).rating - (pool i).rating)
      = -(100 * (earned games i - predicted rule expectedScore pool games i)) := by linarith
  have h' : |weight (pool i) * ((tournament rule pool games i).rating - (pool i).rating)|
      ≤ Fintype.card ι * (42 * D + 1003) := by
    rw [abs_mul, abs_of_nonneg (by linarith)]; exact h
  rw [e', abs_neg, abs_mul, abs_of_pos (by norm_num : (0 : ℝ) < 100)] at h'
  nlinarith

/-- So the average difference tends to 0. -/
theorem C146_ingo_calibrated [Fintype ι] (pool : ι → IngoRating ℝ) (games : ℕ → Game ι Unit) (i : ι) :
    Filter.Tendsto (fun n : ℕ => (earned ((List.range n).map games) i
      - predicted (fun a b o _ => ingo a b o) expectedScore pool ((List.range n).map games) i) / n)
      Filter.atTop (nhds 0) := by
  obtain ⟨D, hD⟩ : ∃ D, ∀ i j, |(pool i).rating - (pool j).rating| ≤ D := by
    obtain ⟨D, hD⟩ :=
      (Set.finite_range fun p : ι × ι => |(pool p.1).rating - (pool p.2).rating|).bddAbove
    exact ⟨D, fun i j => hD ⟨(i, j), rfl⟩⟩
  have bound : ∀ n : ℕ, ‖(earned ((List.range n).map games) i
      - predicted (fun a b o _ => ingo a b o) expectedScore pool ((List.range n).map games) i) / n‖
      ≤ Fintype.card ι * (D / 2 + 11) / n := fun n => by
    rw [Real.norm_eq_abs, abs_div, Nat.abs_cast]
    exact div_le_div_of_nonneg_right
      (C146_ingo_calibrated_bound pool ((List.range n).map games) D hD i) (Nat.cast_nonneg n)
  exact squeeze_zero_norm bound (tendsto_const_div_atTop_nhds_zero_nat _)

/-- Three players of different ages; the first wins every game. Their ratings differ by at most 60, so
the first rating never falls by more than 996 points. -/
example (n : ℕ) : |(tournament (fun a b o _ => ingo a b o)
      ![(⟨100, 18⟩ : IngoRating ℝ), ⟨130, 22⟩, ⟨160, 40⟩]
      ((List.range n).map fun k => if k % 2 = 0 then (⟨0, 1, by decide, .WIN, ()⟩ : Game (Fin 3) Unit)
        else ⟨2, 0, by decide, .LOSS, ()⟩) 0).rating - 100| ≤ 3 * (4 * 60 + 92) := by
  have h := C146_ingo_bounded ![(⟨100, 18⟩ : IngoRating ℝ), ⟨130, 22⟩, ⟨160, 40⟩]
    ((List.range n).map fun k => if k % 2 = 0 then (⟨0, 1, by decide, .WIN, ()⟩ : Game (Fin 3) Unit)
        else ⟨2, 0, by decide, .LOSS, ()⟩) 60 (by
      intro i j
      fin_cases i <;> fin_cases j <;> norm_num [abs_le]) 0
  simpa using h

end Skillratings.Ingo
