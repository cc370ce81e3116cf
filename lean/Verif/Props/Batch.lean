import Verif.Props.Egf
import Verif.Props.Ingo
import Mathlib.Analysis.Convex.SpecificFunctions.Basic
/-
C157: one period or game by game.  What the same results are worth when they are rated together and
when they are rated one after the other.
-/
namespace Skillratings
open Spec Real

/-! ### EGF -/

namespace Egf

/-- What a win is worth at rating `r`. -/
noncomputable def winGain (r : ℝ) (x : EGFRating ℝ × EGFConfig ℝ) : ℝ :=
  (egf ⟨r⟩ x.1 .WIN x.2).1.rating - r

theorem first_le {r s h : ℝ} (hrs : r ≤ s) : egfFirst r h ≤ egfFirst s h := by
  unfold egfFirst; split_ifs <;> linarith

theorem below_of_le {r s : ℝ} {x : EGFRating ℝ × EGFConfig ℝ} (hrs : r ≤ s)
    (h : BelowCeiling ⟨s⟩ x.1 x.2) : BelowCeiling ⟨r⟩ x.1 x.2 :=
  ⟨(first_le hrs).trans_lt h.1, h.2⟩

theorem winGain_pos {r : ℝ} {x : EGFRating ℝ × EGFConfig ℝ} (h : BelowCeiling ⟨r⟩ x.1 x.2)
    (hr : r < 3300) : 0 < winGain r x := by
  have := C22_egf_win ⟨r⟩ x.1 x.2 h hr
  simp only [winGain] at *; linarith

theorem egfBonus_strictAnti {r s : ℝ} (h : r < s) : egfBonus s < egfBonus r := by
  unfold egfBonus
  have : exp ((2300 - s) / 80) < exp ((2300 - r) / 80) := exp_lt_exp.2 (by linarith)
  have := Real.log_lt_log (by positivity)
    (show 1 + exp ((2300 - s) / 80) < 1 + exp ((2300 - r) / 80) by linarith)
  linarith

theorem winGain_strictAnti {r s : ℝ} {x : EGFRating ℝ × EGFConfig ℝ} (hrs : r < s) (hs : s < 3300)
    (h : BelowCeiling ⟨s⟩ x.1 x.2) : winGain s x < winGain r x := by
  have hc : egfCon s ≤ egfCon r := by
    unfold egfCon
    exact Real.rpow_le_rpow (by linarith) (by linarith) (by norm_num)
  have he := C18_egf_expected_strictMono_own ⟨r⟩ ⟨s⟩ x.1 x.2 hrs h
  have hp := C18_egf_expected_probability ⟨s⟩ x.1 x.2 h
  have hb := egfBonus_strictAnti hrs
  have hm : egfCon s * (1 - (expectedScore ⟨s⟩ x.1 x.2).1) ≤
      egfCon r * (1 - (expectedScore ⟨r⟩ x.1 x.2).1) :=
    mul_le_mul hc (by linarith) (by linarith [hp.fst_lt_one]) (egfCon_pos (hrs.trans hs)).le
  simp only [winGain, egf_real, egfRating, points]
  rw [← max_sub_sub_right, ← max_sub_sub_right]
  exact max_lt_max (by linarith) (by linarith)

theorem winGain_anti {r s : ℝ} {x : EGFRating ℝ × EGFConfig ℝ} (hrs : r ≤ s) (hs : s < 3300)
    (h : BelowCeiling ⟨s⟩ x.1 x.2) : winGain s x ≤ winGain r x := by
  rcases hrs.eq_or_lt with rfl | hrs
  · exact le_rfl
  · exact (winGain_strictAnti hrs hs h).le

/-- Wins rated one after the other. -/
noncomputable def winRun (p : EGFRating ℝ) (xs : List (EGFRating ℝ × EGFConfig ℝ)) : EGFRating ℝ :=
  xs.foldl (fun q x => (egf q x.1 .WIN x.2).1) p

theorem period_wins (p : EGFRating ℝ) (xs : List (EGFRating ℝ × EGFConfig ℝ)) :
    (egfRatingPeriod p (xs.map fun x => (x.1, .WIN, x.2))).rating =
      p.rating + (xs.map (winGain p.rating)).sum := by
  rw [egfRatingPeriod_real, List.map_map]
  congr 2
  refine List.map_congr_left fun x _ => ?_
  simp only [Function.comp_apply, winGain, egf_real]

theorem gains_nonneg {r R : ℝ} {xs : List (EGFRating ℝ × EGFConfig ℝ)} (hr : r ≤ R) (hR : R < 3300)
    (hx : ∀ x ∈ xs, BelowCeiling ⟨R⟩ x.1 x.2) : 0 ≤ (xs.map (winGain r)).sum := by
  apply List.sum_nonneg
  intro y hy
  obtain ⟨x, hx', rfl⟩ := List.mem_map.1 hy
  exact (winGain_pos (below_of_le hr (hx x hx')) (hr.trans_lt hR)).le

theorem winRun_le {r₀ R : ℝ} (hR : R < 3300) (xs : List (EGFRating ℝ × EGFConfig ℝ))
    (hx : ∀ x ∈ xs, BelowCeiling ⟨R⟩ x.1 x.2) (r : ℝ) (hr : r₀ ≤ r) (hrR : r ≤ R)
    (hs : r + (xs.map (winGain r₀)).sum ≤ R) :
    (winRun ⟨r⟩ xs).rating ≤ r + (xs.map (winGain r₀)).sum := by
  induction xs generalizing r with
  | nil => simp [winRun]
  | cons x xs ih =>
    have hx1 := hx x (List.mem_cons_self ..)
    have hx2 : ∀ y ∈ xs, BelowCeiling ⟨R⟩ y.1 y.2 := fun y hy => hx y (List.mem_cons_of_mem _ hy)
    have h1 := winGain_anti hr (hrR.trans_lt hR) (below_of_le hrR hx1)
    have h2 := winGain_pos (below_of_le hrR hx1) (hrR.trans_lt hR)
    have h3 := gains_nonneg (hr.trans hrR) hR hx2
    rw [List.map_cons, List.sum_cons] at hs ⊢
    have h4 := ih hx2 (r + winGain r x) (by linarith) (by linarith) (by linarith)
    have e : winRun ⟨r⟩ (x :: xs) = winRun ⟨r + winGain r x⟩ xs := by
      simp only [winRun, List.foldl_cons]
      congr 1
      simp only [winGain, add_sub_cancel]
    rw [e]
    linarith

/-- A streak of wins is worth more when it is rated in one period than game by game. -/
theorem C157_egf_wins_in_a_period (p : EGFRating ℝ) (x y : EGFRating ℝ × EGFConfig ℝ)
    (xs : List (EGFRating ℝ × EGFConfig ℝ)) (hp : p.rating < 3300)
    (hpx : ∀ z ∈ x :: y :: xs, BelowCeiling p z.1 z.2)
    (hR : (egfRatingPeriod p ((x :: y :: xs).map fun z => (z.1, .WIN, z.2))).rating < 3300)
    (hRx : ∀ z ∈ x :: y :: xs,
      BelowCeiling (egfRatingPeriod p ((x :: y :: xs).map fun z => (z.1, .WIN, z.2))) z.1 z.2) :
    ((x :: y :: xs).foldl (fun q z => (egf q z.1 .WIN z.2).1) p).rating <
      (egfRatingPeriod p ((x :: y :: xs).map fun z => (z.1, .WIN, z.2))).rating := by
  obtain ⟨r₀⟩ := p
  set R := (egfRatingPeriod ⟨r₀⟩ ((x :: y :: xs).map fun z => (z.1, .WIN, z.2))).rating with hRd
  have hRx' : ∀ z ∈ x :: y :: xs, BelowCeiling ⟨R⟩ z.1 z.2 := hRx
  have eR := period_wins ⟨r₀⟩ (x :: y :: xs)
  rw [← hRd] at eR
  simp only [List.map_cons, List.sum_cons] at eR
  change r₀ < 3300 at hp
  have g1 := winGain_pos (hpx x (by simp)) hp
  have g2 := winGain_pos (hpx y (by simp)) hp
  have g3 : 0 ≤ (xs.map (winGain r₀)).sum :=
    gains_nonneg (R := r₀) le_rfl hp fun z hz => hpx z (by simp [hz])
  have l1 : r₀ + winGain r₀ x < R := by linarith
  have g4 := winGain_strictAnti (x := y) (show r₀ < r₀ + winGain r₀ x by linarith) (l1.trans hR)
    (below_of_le l1.le (hRx' y (by simp)))
  have g5 := winGain_pos (below_of_le l1.le (hRx' y (by simp))) (l1.trans hR)
  have h := winRun_le (r₀ := r₀) hR xs (fun z hz => hRx' z (by simp [hz]))
    (r₀ + winGain r₀ x + winGain (r₀ + winGain r₀ x) y) (by linarith) (by linarith) (by linarith)
  have e : (x :: y :: xs).foldl (fun q z => (egf q z.1 .WIN z.2).1) ⟨r₀⟩ =
      winRun ⟨r₀ + winGain r₀ x + winGain (r₀ + winGain r₀ x) y⟩ xs := by
    simp only [winRun, List.foldl_cons]
    congr 1
    simp only [winGain, add_sub_cancel]
  rw [e]
  linarith

end Egf

/-! ### Ingo -/

namespace Ingo

/-- The same game `n` times, one after the other. -/
theorem C157_ingo_repeated (p b : IngoRating ℝ) (o : Outcomes) (n : ℕ) :
    ((fun q => (ingo q b o).1)^[n] p).rating - perf b.rating (points o) =
      (development p.age / (1 + development p.age)) ^ n * (p.rating - perf b.rating (points o)) := by
  induction n generalizing p with
  | zero => simp
  | succ n ih =>
    have h := development_pos p.age
    rw [Function.iterate_succ_apply, ih, (C25_ingo_age p b o).1, (C24_ingo_formula p b o).1,
      pow_succ]
    field_simp
    ring

/-- The same game `n` times in one period. -/
theorem C157_ingo_repeated_period (p b : IngoRating ℝ) (o : Outcomes) {n : ℕ} (hn : 1 ≤ n) :
    (ingoRatingPeriod p (List.replicate n (b, o))).rating - perf b.rating (points o) =
      development p.age / (n + development p.age) * (p.rating - perf b.rating (points o)) := by
  have h := development_pos p.age
  have hn' : (0 : ℝ) < n := by exact_mod_cast hn
  rw [C24_ingo_period_formula]
  simp only [score, List.map_replicate, List.sum_replicate, List.length_replicate, nsmul_eq_mul]
  rw [mul_div_cancel_left₀ _ hn'.ne', mul_div_cancel_left₀ _ hn'.ne']
  field_simp
  ring

theorem batch_factor {d : ℝ} (hd : 0 < d) {n : ℕ} (hn : 2 ≤ n) :
    (d / (1 + d)) ^ n < d / (n + d) := by
  have hb := one_add_mul_self_lt_rpow_one_add (s := 1 / d) (by
    have : 0 < 1 / d := by positivity
    linarith) (by positivity) (p := n) (by exact_mod_cast hn)
  rw [Real.rpow_natCast] at hb
  have e : d / (1 + d) = (1 + 1 / d)⁻¹ := by field_simp; ring
  have e2 : d / (n + d) = (1 + n * (1 / d))⁻¹ := by field_simp; ring
  rw [e, e2, inv_pow]
  apply inv_strictAnti₀ _ hb
  positivity

/-- Rated game by game, the same results bring a player strictly closer to the performance. -/
theorem C157_ingo_period_slower (p b : IngoRating ℝ) (o : Outcomes) {n : ℕ} (hn : 2 ≤ n)
    (h : p.rating ≠ perf b.rating (points o)) :
    |((fun q => (ingo q b o).1)^[n] p).rating - perf b.rating (points o)| <
      |(ingoRatingPeriod p (List.replicate n (b, o))).rating - perf b.rating (points o)| := by
  have hd := development_pos p.age
  rw [C157_ingo_repeated, C157_ingo_repeated_period _ _ _ (by omega), abs_mul, abs_mul,
    abs_of_pos (show 0 < (development p.age / (1 + development p.age)) ^ n by positivity),
    abs_of_pos (show 0 < development p.age / (n + development p.age) by positivity)]
  exact mul_lt_mul_of_pos_right (batch_factor hd hn) (abs_pos.2 (sub_ne_zero.2 h))

end Ingo

/-! ### Cases -/

/-- Two even wins of an EGF player of 2000 against 2000: at most 60 points each. -/
theorem Egf.two_even_wins :
    (Egf.egfRatingPeriod (⟨2000⟩ : Egf.EGFRating ℝ)
      [(⟨2000⟩, .WIN, ⟨0⟩), (⟨2000⟩, .WIN, ⟨0⟩)]).rating ≤ 2120 := by
  have h := Egf.period_wins ⟨2000⟩ [(⟨2000⟩, ⟨0⟩), (⟨2000⟩, ⟨0⟩)]
  simp only [List.map_cons, List.map_nil, List.sum_cons, List.sum_nil, add_zero] at h
  rw [h]
  have hp := Egf.C18_egf_expected_probability ⟨2000⟩ ⟨2000⟩ ⟨0⟩
    (by unfold Egf.BelowCeiling egfFirst egfSecond egfStones; norm_num)
  have hc : egfCon 2000 ≤ 42.25 := by
    unfold egfCon
    calc ((3300 - 2000) / 200 : ℝ) ^ (8 / 5 : ℝ) ≤ ((3300 - 2000) / 200 : ℝ) ^ (2 : ℝ) :=
          Real.rpow_le_rpow_of_exponent_le (by norm_num) (by norm_num)
      _ = 42.25 := by rw [Real.rpow_two]; norm_num
  have hc0 := Egf.egfCon_pos (r := 2000) (by norm_num)
  have hb : egfBonus 2000 ≤ 17 := by
    unfold egfBonus
    have h1 : exp ((2300 - 2000) / 80 : ℝ) ≤ 81 := by
      calc exp ((2300 - 2000) / 80 : ℝ) ≤ exp (4 * 1) := exp_le_exp.2 (by norm_num)
        _ = exp 1 ^ 4 := by rw [← Real.exp_nat_mul]; norm_num
        _ ≤ 3 ^ 4 := pow_le_pow_left₀ (exp_pos _).le (by linarith [Real.exp_one_lt_d9]) _
        _ = 81 := by norm_num
    have h2 := Real.log_le_sub_one_of_pos (show 0 < 1 + exp ((2300 - 2000) / 80 : ℝ) by positivity)
    linarith
  have hb0 := Egf.egfBonus_pos 2000
  have hm : egfCon 2000 * (1 - (Egf.expectedScore ⟨2000⟩ ⟨2000⟩ ⟨0⟩).1) ≤ egfCon 2000 * 1 :=
    mul_le_mul_of_nonneg_left (by linarith [hp.fst_pos]) hc0.le
  have hg : Egf.winGain 2000 (⟨2000⟩, ⟨0⟩) ≤ 60 := by
    simp only [Egf.winGain, Egf.egf_real, egfRating, points]
    rw [sub_le_iff_le_add]
    exact max_le (by linarith) (by norm_num)
  linarith

example :
    ([(⟨2000⟩, ⟨0⟩), (⟨2000⟩, ⟨0⟩)].foldl (fun q z => (Egf.egf q z.1 .WIN z.2).1)
      (⟨2000⟩ : Egf.EGFRating ℝ)).rating <
    (Egf.egfRatingPeriod (⟨2000⟩ : Egf.EGFRating ℝ)
      [(⟨2000⟩, .WIN, ⟨0⟩), (⟨2000⟩, .WIN, ⟨0⟩)]).rating := by
  have hR := Egf.two_even_wins
  refine Egf.C157_egf_wins_in_a_period ⟨2000⟩ (⟨2000⟩, ⟨0⟩) (⟨2000⟩, ⟨0⟩) [] (by norm_num)
    (fun z hz => ?_) (hR.trans_lt (by norm_num)) (fun z hz => ?_)
  · have : z = (⟨2000⟩, ⟨0⟩) := by simpa using hz
    subst this
    unfold Egf.BelowCeiling egfFirst egfSecond egfStones; norm_num
  · have : z = (⟨2000⟩, ⟨0⟩) := by simpa using hz
    subst this
    have := hR.trans_lt (show (2120 : ℝ) < 3300 by norm_num)
    refine ⟨?_, ?_⟩
    · simpa [egfFirst] using this
    · norm_num [egfSecond, egfStones]

/-- An Ingo player of 150 who beats a player of 120 three times. -/
example :
    |((fun q => (Ingo.ingo q ⟨120, 30⟩ .WIN).1)^[3] (⟨150, 22⟩ : Ingo.IngoRating ℝ)).rating
        - Ingo.perf 120 (points .WIN)| <
      |(Ingo.ingoRatingPeriod ⟨150, 22⟩ (List.replicate 3 ((⟨120, 30⟩ : Ingo.IngoRating ℝ),
        .WIN))).rating - Ingo.perf 120 (points .WIN)| :=
  Ingo.C157_ingo_period_slower ⟨150, 22⟩ ⟨120, 30⟩ .WIN (by norm_num)
    (by norm_num [Ingo.perf, points])

end Skillratings
