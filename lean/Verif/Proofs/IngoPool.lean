import Verif.Proofs.Forecast
import Verif.Props.Ingo
/-
Helper lemmas for C146: a pool of Ingo players.
-/
namespace Skillratings.Ingo
open Spec

variable {ι : Type} [DecidableEq ι]

/-- Ingo as a rule for a pool: no configuration. -/
noncomputable def rule (a b : IngoRating ℝ) (o : Outcomes) (_ : Unit) : IngoRating ℝ × IngoRating ℝ :=
  ingo a b o

/-- The weight of a player: 1 + the development coefficient. -/
noncomputable def weight (a : IngoRating ℝ) : ℝ := 1 + development a.age

theorem weight_ge (a : IngoRating ℝ) : 11 ≤ weight a := by
  rw [weight, development]; split_ifs <;> norm_num

theorem weight_le (a : IngoRating ℝ) : weight a ≤ 21 := by
  rw [weight, development]; split_ifs <;> norm_num

theorem rule_fst (a b : IngoRating ℝ) (o : Outcomes) (u : Unit) :
    weight a * (rule a b o u).1.rating
      = weight a * a.rating + (b.rating - a.rating + 50 - 100 * points o) := by
  have h := weight_ge a
  rw [rule, (C24_ingo_formula a b o).1, ← weight, perf, mul_div_cancel₀ _ (by linarith), weight]
  ring

theorem rule_snd (a b : IngoRating ℝ) (o : Outcomes) (u : Unit) :
    weight b * (rule a b o u).2.rating
      = weight b * b.rating - (b.rating - a.rating + 50 - 100 * points o) := by
  have h := weight_ge b
  rw [rule, (C24_ingo_formula a b o).2, ← weight, perf, mul_div_cancel₀ _ (by linarith), weight,
    points_mirror]
  ring

theorem weight_play (pool : ι → IngoRating ℝ) (g : Game ι Unit) (i : ι) :
    weight (playGame rule pool g i) = weight (pool i) := by
  by_cases h1 : i = g.first
  · subst h1; rw [playGame_first]; rfl
  · by_cases h2 : i = g.second
    · subst h2; rw [playGame_second]; rfl
    · rw [playGame_other pool g h1 h2]

theorem weight_tournament (pool : ι → IngoRating ℝ) (games : List (Game ι Unit)) (i : ι) :
    weight (tournament rule pool games i) = weight (pool i) := by
  induction games generalizing pool with
  | nil => rfl
  | cons g gs ih =>
    rw [show tournament rule pool (g :: gs) = tournament rule (playGame rule pool g) gs from rfl,
      ih, weight_play]

theorem play_account (pool : ι → IngoRating ℝ) (g : Game ι Unit) (i : ι) :
    weight (pool i) * (playGame rule pool g i).rating = weight (pool i) * (pool i).rating
      - 100 * (pointsIn g i - expectedIn expectedScore pool g i) := by
  by_cases h1 : i = g.first
  · subst h1
    rw [playGame_first, rule_fst]
    simp only [pointsIn, expectedIn, if_true, expectedScore, flt]
    ring
  · by_cases h2 : i = g.second
    · subst h2
      rw [playGame_second, rule_snd]
      simp only [pointsIn, expectedIn, h1, if_false, if_true, expectedScore, flt]
      ring
    · rw [playGame_other pool g h1 h2]
      simp [pointsIn, expectedIn, h1, h2]

theorem account (pool : ι → IngoRating ℝ) (games : List (Game ι Unit)) (i : ι) :
    weight (pool i) * (tournament rule pool games i).rating = weight (pool i) * (pool i).rating
      - 100 * (earned games i - predicted rule expectedScore pool games i) := by
  induction games generalizing pool with
  | nil => simp [tournament, earned, predicted]
  | cons g gs ih =>
    have e : tournament rule pool (g :: gs) = tournament rule (playGame rule pool g) gs := rfl
    have h := ih (playGame rule pool g)
    rw [weight_play, play_account] at h
    rw [e, h]
    simp only [earned, predicted, List.map_cons, List.sum_cons]
    ring

theorem play_total [Fintype ι] (pool : ι → IngoRating ℝ) (g : Game ι Unit) (S : Finset ι)
    (h : g.first ∈ S) (h' : g.second ∈ S) (m : ℝ) :
    ∑ i ∈ S, weight (pool i) * ((playGame rule pool g i).rating - m)
      = ∑ i ∈ S, weight (pool i) * ((pool i).rating - m) := by
  have q : ∀ f : ι → ℝ, ∑ i ∈ S, f i
      = f g.first + f g.second + ∑ i ∈ (S.erase g.first).erase g.second, f i := by
    intro f
    rw [← Finset.add_sum_erase _ f h,
      ← Finset.add_sum_erase _ f (Finset.mem_erase.2 ⟨g.ne.symm, h'⟩)]
    ring
  rw [q, q (fun i => weight (pool i) * ((pool i).rating - m))]
  rw [Finset.sum_congr rfl fun i hi => by
    rw [playGame_other pool g (Finset.mem_erase.1 (Finset.mem_erase.1 hi).2).1
      (Finset.mem_erase.1 hi).1]]
  have h1 := rule_fst (pool g.first) (pool g.second) g.outcome g.config
  have h2 := rule_snd (pool g.first) (pool g.second) g.outcome g.config
  rw [playGame_first, playGame_second]
  linarith

theorem total [Fintype ι] (pool : ι → IngoRating ℝ) (games : List (Game ι Unit)) (m : ℝ) :
    ∑ i, weight (pool i) * ((tournament rule pool games i).rating - m)
      = ∑ i, weight (pool i) * ((pool i).rating - m) := by
  induction games generalizing pool with
  | nil => rfl
  | cons g gs ih =>
    have e : tournament rule pool (g :: gs) = tournament rule (playGame rule pool g) gs := rfl
    have h := ih (playGame rule pool g)
    simp only [weight_play] at h
    rw [e, h, play_total pool g _ (Finset.mem_univ _) (Finset.mem_univ _)]

/-- No group of players is far above the rest. -/
def Close [Fintype ι] (m B : ℝ) (w r : ι → ℝ) : Prop :=
  ∀ S : Finset ι, ∑ i ∈ S, w i * (r i - m) ≤ B + 25 / 11 * ((∑ i ∈ S, w i) * ∑ i ∈ Sᶜ, w i)

/-- The group that is furthest above the bound does not gain. -/
theorem close_step [Fintype ι] {m B : ℝ} (pool : ι → IngoRating ℝ) (g : Game ι Unit)
    (h : Close m B (fun i => weight (pool i)) fun i => (pool i).rating) :
    Close m B (fun i => weight (pool i)) fun i => (playGame rule pool g i).rating := by
  set w : ι → ℝ := fun i => weight (pool i) with hw
  set r : ι → ℝ := fun i => (pool i).rating with hr
  set r' : ι → ℝ := fun i => (playGame rule pool g i).rating with hr'
  set q := r g.second - r g.first + 50 - 100 * points g.outcome with hq
  have e1 : w g.first * r' g.first = w g.first * r g.first + q := by
    simp only [hr', playGame_first]; exact rule_fst _ _ _ _
  have e2 : w g.second * r' g.second = w g.second * r g.second - q := by
    simp only [hr', playGame_second]; exact rule_snd _ _ _ _
  have e3 : ∀ i, i ≠ g.first → i ≠ g.second → r' i = r i := fun i h1 h2 => by
    simp only [hr', playGame_other pool g h1 h2, hr]
  have hwf := weight_ge (pool g.first)
  have hws := weight_ge (pool g.second)
  change 11 ≤ w g.first at hwf
  change 11 ≤ w g.second at hws
  have hp0 := points_nonneg' g.outcome
  have hp1 := points_le_one' g.outcome
  obtain ⟨S, -, hS⟩ := Finset.exists_max_image (Finset.univ : Finset (Finset ι))
    (fun S => ∑ i ∈ S, w i * (r' i - m) - 25 / 11 * ((∑ i ∈ S, w i) * ∑ i ∈ Sᶜ, w i))
    ⟨∅, Finset.mem_univ _⟩
  suffices hmain : ∑ i ∈ S, w i * (r' i - m) ≤ ∑ i ∈ S, w i * (r i - m) by
    intro T
    have h1 := hS T (Finset.mem_univ _)
    have h2 := h S
    linarith
  have cross : ∀ i j, i ∈ S → j ∉ S → 50 ≤ r' i - r' j := by
    intro i j hi hj
    have hj' : j ∈ Sᶜ := Finset.mem_compl.2 hj
    have h1 := hS (S.erase i) (Finset.mem_univ _)
    have h2 := hS (insert j S) (Finset.mem_univ _)
    rw [Finset.compl_erase, Finset.sum_insert (by simpa using hi)] at h1
    rw [Finset.compl_insert, Finset.sum_insert hj, Finset.sum_insert hj] at h2
    rw [← Finset.add_sum_erase S (fun x => w x * (r' x - m)) hi, ← Finset.add_sum_erase S w hi] at h1
    rw [← Finset.add_sum_erase Sᶜ w hj'] at h2
    have s1 := Finset.add_sum_erase S w hi
    have s2 := Finset.add_sum_erase Sᶜ w hj'
    rw [← s2] at h1
    rw [← s1] at h2
    generalize ∑ x ∈ S.erase i, w x = A at h1 h2
    generalize ∑ x ∈ Sᶜ.erase j, w x = C at h1 h2
    have wi : 11 ≤ w i := weight_ge (pool i)
    have wj : 11 ≤ w j := weight_ge (pool j)
    -- divide by the weights
    have d1 : 25 / 11 * (w j + C - A) ≤ r' i - m := by
      have : w i * (25 / 11 * (w j + C - A)) ≤ w i * (r' i - m) := by nlinarith
      exact le_of_mul_le_mul_left this (by linarith)
    have d2 : r' j - m ≤ 25 / 11 * (C - (w i + A)) := by
      have : w j * (r' j - m) ≤ w j * (25 / 11 * (C - (w i + A))) := by nlinarith
      exact le_of_mul_le_mul_left this (by linarith)
    linarith
  by_cases hf : g.first ∈ S <;> by_cases hl : g.second ∈ S
  · exact (play_total pool g S hf hl m).le
  · have hc := cross _ _ hf hl
    have e : ∑ i ∈ S, w i * (r' i - m) = ∑ i ∈ S, w i * (r i - m) + q := by
      rw [← Finset.add_sum_erase _ _ hf, ← Finset.add_sum_erase _ (fun i => w i * (r i - m)) hf]
      rw [Finset.sum_congr rfl fun i hi => by
        rw [e3 i (Finset.mem_erase.1 hi).1 (fun h => hl (h ▸ (Finset.mem_erase.1 hi).2))]]
      linarith
    rw [e]
    by_contra hneg
    have hq0 : 0 < q := by linarith
    have h1 : r' g.first ≤ r g.first + q / 11 := by
      have : w g.first * r' g.first ≤ w g.first * (r g.first + q / 11) := by rw [e1]; nlinarith
      exact le_of_mul_le_mul_left this (by linarith)
    have h2 : r g.second - q / 11 ≤ r' g.second := by
      have : w g.second * (r g.second - q / 11) ≤ w g.second * r' g.second := by rw [e2]; nlinarith
      exact le_of_mul_le_mul_left this (by linarith)
    linarith
  · have hc := cross _ _ hl hf
    have e : ∑ i ∈ S, w i * (r' i - m) = ∑ i ∈ S, w i * (r i - m) - q := by
      rw [← Finset.add_sum_erase _ _ hl, ← Finset.add_sum_erase _ (fun i => w i * (r i - m)) hl]
      rw [Finset.sum_congr rfl fun i hi => by
        rw [e3 i (fun h => hf (h ▸ (Finset.mem_erase.1 hi).2)) (Finset.mem_erase.1 hi).1]]
      linarith
    rw [e]
    by_contra hneg
    have hq0 : q < 0 := by linarith
    have h1 : r g.first + q / 11 ≤ r' g.first := by
      have : w g.first * (r g.first + q / 11) ≤ w g.first * r' g.first := by rw [e1]; nlinarith
      exact le_of_mul_le_mul_left this (by linarith)
    have h2 : r' g.second ≤ r g.second - q / 11 := by
      have : w g.second * r' g.second ≤ w g.second * (r g.second - q / 11) := by rw [e2]; nlinarith
      exact le_of_mul_le_mul_left this (by linarith)
    linarith
  · refine (Finset.sum_congr rfl fun i hi => ?_).le
    rw [e3 i (fun h => hf (h ▸ hi)) (fun h => hl (h ▸ hi))]

theorem close_tournament [Fintype ι] {m B : ℝ} (pool : ι → IngoRating ℝ)
    (games : List (Game ι Unit)) (h : Close m B (fun i => weight (pool i)) fun i => (pool i).rating) :
    Close m B (fun i => weight (pool i)) fun i => (tournament rule pool games i).rating := by
  induction games generalizing pool with
  | nil => exact h
  | cons g gs ih =>
    have h1 := close_step pool g h
    have h2 := ih (playGame rule pool g) (by simpa only [weight_play] using h1)
    simp only [weight_play] at h2
    exact h2

/-- How far a rating can move in a pool. -/
theorem pool_drift [Fintype ι] {D : ℝ} (pool : ι → IngoRating ℝ) (games : List (Game ι Unit))
    (hD : ∀ i j, |(pool i).rating - (pool j).rating| ≤ D) (i : ι) :
    weight (pool i) * |(tournament rule pool games i).rating - (pool i).rating|
      ≤ Fintype.card ι * (42 * D + 1003) := by
  set N : ℝ := (Fintype.card ι : ℝ) with hN
  set w : ι → ℝ := fun i => weight (pool i) with hw
  set m := (pool i).rating with hm
  have w0 : ∀ j, 0 ≤ w j := fun j => by have := weight_ge (pool j); simp only [hw]; linarith
  have hD0 : 0 ≤ D := (abs_nonneg _).trans (hD i i)
  have hWN : ∀ S : Finset ι, ∑ j ∈ S, w j ≤ 21 * N := fun S => by
    have h1 : ∑ j ∈ S, w j ≤ ∑ j, w j :=
      Finset.sum_le_sum_of_subset_of_nonneg (Finset.subset_univ S) fun j _ _ => w0 j
    have h2 : ∑ j, w j ≤ Finset.card (Finset.univ : Finset ι) • (21 : ℝ) :=
      Finset.sum_le_card_nsmul _ _ _ fun j _ => weight_le (pool j)
    rw [nsmul_eq_mul, Finset.card_univ] at h2
    linarith
  have hsum : ∀ S : Finset ι, |∑ j ∈ S, w j * ((pool j).rating - m)| ≤ 21 * N * D := by
    intro S
    refine (Finset.abs_sum_le_sum_abs _ _).trans ?_
    have : ∑ j ∈ S, |w j * ((pool j).rating - m)| ≤ ∑ j ∈ S, w j * D :=
      Finset.sum_le_sum fun j _ => by
        rw [abs_mul, abs_of_nonneg (w0 j)]
        exact mul_le_mul_of_nonneg_left (hD j i) (w0 j)
    rw [← Finset.sum_mul] at this
    exact this.trans (mul_le_mul_of_nonneg_right (hWN S) hD0)
  have hpos : ∀ S : Finset ι, 0 ≤ ∑ j ∈ S, w j := fun S => Finset.sum_nonneg fun j _ => w0 j
  have h0 : Close m (21 * N * D) w fun j => (pool j).rating := fun S => by
    have h1 := (abs_le.1 (hsum S)).2
    have := mul_nonneg (hpos S) (hpos Sᶜ)
    linarith
  have key := close_tournament pool games h0
  have hu := key {i}
  have hl := key (Finset.univ.erase i)
  have htot := total pool games m
  have hall := (abs_le.1 (hsum Finset.univ)).1
  rw [← Finset.add_sum_erase _ _ (Finset.mem_univ i)] at htot
  rw [Finset.compl_erase, Finset.compl_univ, insert_empty_eq, Finset.sum_singleton] at hl
  rw [Finset.sum_singleton, Finset.sum_singleton] at hu
  have wi1 : w i ≤ 21 := weight_le (pool i)
  have p1 : w i * ∑ j ∈ ({i} : Finset ι)ᶜ, w j ≤ 21 * (21 * N) :=
    mul_le_mul wi1 (hWN _) (hpos _) (by norm_num)
  have p2 : (∑ j ∈ Finset.univ.erase i, w j) * w i ≤ 21 * N * 21 :=
    mul_le_mul (hWN _) wi1 (w0 i) (by positivity)
  rw [show weight (pool i) = w i from rfl, ← abs_of_nonneg (w0 i), ← abs_mul, abs_le]
  simp only [hw] at *
  constructor <;> nlinarith [mul_nonneg (Nat.cast_nonneg (α := ℝ) (Fintype.card ι)) hD0]

end Skillratings.Ingo
