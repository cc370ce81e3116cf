import Mathlib.Analysis.PSeries
import Verif.Props.Forecast
import Verif.Proofs.Learning
/-
C138: Elo and FIFA ratings learn the true strengths of the players, as far as the forecasts are
concerned, if the results follow true strengths.
-/
namespace Skillratings
open Real Spec

variable {ι : Type} [DecidableEq ι] [Fintype ι]

theorem elo_rules (c : Elo.EloConfig ℝ) (_ : True) :
    LogisticRule Elo.elo (R := Elo.EloRating ℝ) Elo.expectedScore (·.rating) (· = c) c.k
      (log 10 / 400) where
  fst x y o c' h := (elo_rule c.k).fst x y o c' (by rw [h])
  snd x y o c' h := (elo_rule c.k).snd x y o c' (by rw [h])
  expected_eq := Elo.expectedScore_real

theorem fifa_rules (c : Fifa.FifaConfig ℝ) (hc : c.knockout = false ∧ c.penalties = false) :
    LogisticRule Fifa.fifa (R := Fifa.FifaRating ℝ) Fifa.expectedScore (·.rating) (· = c)
      c.importance (log 10 / 600) where
  fst x y o c' h := (fifa_rule c.importance).fst x y o c' (by rw [h]; exact ⟨rfl, hc⟩)
  snd x y o c' h := (fifa_rule c.importance).snd x y o c' (by rw [h]; exact ⟨rfl, hc⟩)
  expected_eq := Fifa.expectedScore_real

/-! ### Elo -/

/-- The mean squared error of the forecasts of `n` games. -/
theorem C138_elo_learns (pool strengths : ι → Elo.EloRating ℝ)
    (plan : List (Game ι (Elo.EloConfig ℝ)) → Fixture ι (Elo.EloConfig ℝ)) (n : ℕ) (k : ℝ)
    (hk0 : 0 < k) (hk : ∀ past, (plan past).config.k = k)
    (ht : Truthful Elo.expectedScore strengths plan) :
    (1 - k * log 10 / 1600)
        * mean plan n (forecastError Elo.elo Elo.expectedScore strengths (fun _ => 1) pool)
      ≤ log 10 / 3200
        * ((∑ i, ((pool i).rating - (strengths i).rating) ^ 2) / k + n * k / 2) := by
  have hl := log_ten_pos
  have h := learning_const (a := log 10 / 400) (by positivity) hk0 elo_rules strengths plan n pool
    (fun _ => trivial) hk ht
  have h2 := mul_nonneg (show 0 ≤ log 10 / 400 / (8 * k) by positivity)
    (mean_nonneg plan n fun l => gap_nonneg (·.rating) strengths (tournament Elo.elo pool l))
  have e1 : k * (log 10 / 400) / 4 = k * log 10 / 1600 := by ring
  have e2 : log 10 / 400 / (8 * k) * gap (·.rating) strengths pool + n * (k * (log 10 / 400)) / 16
      = log 10 / 3200
        * ((∑ i, ((pool i).rating - (strengths i).rating) ^ 2) / k + n * k / 2) := by
    rw [gap]; field_simp; ring
  rw [e1, e2] at h
  linarith

/-- The ratings do not move away from the strengths faster than the square root of the number of
games. -/
theorem C138_elo_distance (pool strengths : ι → Elo.EloRating ℝ)
    (plan : List (Game ι (Elo.EloConfig ℝ)) → Fixture ι (Elo.EloConfig ℝ)) (n : ℕ) (k : ℝ)
    (hk0 : 0 < k) (hk1 : k * log 10 ≤ 1600) (hk : ∀ past, (plan past).config.k = k)
    (ht : Truthful Elo.expectedScore strengths plan) :
    mean plan n (fun games =>
        ∑ i, ((tournament Elo.elo pool games i).rating - (strengths i).rating) ^ 2)
      ≤ ∑ i, ((pool i).rating - (strengths i).rating) ^ 2 + n * k ^ 2 / 2 := by
  have hl := log_ten_pos
  have h := learning_const (a := log 10 / 400) (by positivity) hk0 elo_rules strengths plan n pool
    (fun _ => trivial) hk ht
  have h2 := mul_nonneg (show 0 ≤ 1 - k * (log 10 / 400) / 4 by linarith) (mean_nonneg plan n
    fun l => forecastError_nonneg Elo.elo Elo.expectedScore strengths pool l)
  have h3 : log 10 / 400 / (8 * k)
      * mean plan n (fun l => gap (·.rating) strengths (tournament Elo.elo pool l))
      ≤ log 10 / 400 / (8 * k) * (gap (·.rating) strengths pool + n * k ^ 2 / 2) := by
    have e : log 10 / 400 / (8 * k) * (gap (·.rating) strengths pool + n * k ^ 2 / 2)
        = log 10 / 400 / (8 * k) * gap (·.rating) strengths pool + n * (k * (log 10 / 400)) / 16 := by
      field_simp; ring
    rw [e]
    linarith
  exact le_of_mul_le_mul_left h3 (by positivity)

/-- If the factors fade, so that their sum diverges and the sum of their squares converges, the
error of the forecasts vanishes in the long run. -/
theorem C138_elo_fading (pool strengths : ι → Elo.EloRating ℝ)
    (plan : List (Game ι (Elo.EloConfig ℝ)) → Fixture ι (Elo.EloConfig ℝ)) (k : ℕ → ℝ)
    (hk0 : ∀ t, 0 ≤ k t) (hk1 : ∀ t, k t ≤ 694)
    (hk : ∀ past, (plan past).config.k = k past.length)
    (ht : Truthful Elo.expectedScore strengths plan) (hs : Summable fun t => k t ^ 2)
    (hd : Filter.Tendsto (fun n => ∑ t ∈ Finset.range n, k t) Filter.atTop Filter.atTop) :
    Filter.Tendsto (fun n => mean plan n
        (forecastError Elo.elo Elo.expectedScore strengths (fun c => c.k) pool)
      / ∑ t ∈ Finset.range n, k t) Filter.atTop (nhds 0) :=
  learning_fading (a := log 10 / 400) (by have := log_ten_pos; positivity) (M := 694)
    (by linarith [log_ten_lt]) k hk0 hk1 elo_rules strengths plan pool (fun _ => trivial) hk ht hs hd

/-! ### FIFA -/

theorem C138_fifa_learns (pool strengths : ι → Fifa.FifaRating ℝ)
    (plan : List (Game ι (Fifa.FifaConfig ℝ)) → Fixture ι (Fifa.FifaConfig ℝ)) (n : ℕ) (k : ℝ)
    (hk0 : 0 < k) (hk : ∀ past, (plan past).config.importance = k)
    (hc : ∀ past, (plan past).config.knockout = false ∧ (plan past).config.penalties = false)
    (ht : Truthful Fifa.expectedScore strengths plan) :
    (1 - k * log 10 / 2400)
        * mean plan n (forecastError Fifa.fifa Fifa.expectedScore strengths (fun _ => 1) pool)
      ≤ log 10 / 4800
        * ((∑ i, ((pool i).rating - (strengths i).rating) ^ 2) / k + n * k / 2) := by
  have hl := log_ten_pos
  have h := learning_const (a := log 10 / 600) (by positivity) hk0 fifa_rules strengths plan n pool
    hc hk ht
  have h2 := mul_nonneg (show 0 ≤ log 10 / 600 / (8 * k) by positivity)
    (mean_nonneg plan n fun l => gap_nonneg (·.rating) strengths (tournament Fifa.fifa pool l))
  have e1 : k * (log 10 / 600) / 4 = k * log 10 / 2400 := by ring
  have e2 : log 10 / 600 / (8 * k) * gap (·.rating) strengths pool + n * (k * (log 10 / 600)) / 16
      = log 10 / 4800
        * ((∑ i, ((pool i).rating - (strengths i).rating) ^ 2) / k + n * k / 2) := by
    rw [gap]; field_simp; ring
  rw [e1, e2] at h
  linarith

theorem C138_fifa_distance (pool strengths : ι → Fifa.FifaRating ℝ)
    (plan : List (Game ι (Fifa.FifaConfig ℝ)) → Fixture ι (Fifa.FifaConfig ℝ)) (n : ℕ) (k : ℝ)
    (hk0 : 0 < k) (hk1 : k * log 10 ≤ 2400) (hk : ∀ past, (plan past).config.importance = k)
    (hc : ∀ past, (plan past).config.knockout = false ∧ (plan past).config.penalties = false)
    (ht : Truthful Fifa.expectedScore strengths plan) :
    mean plan n (fun games =>
        ∑ i, ((tournament Fifa.fifa pool games i).rating - (strengths i).rating) ^ 2)
      ≤ ∑ i, ((pool i).rating - (strengths i).rating) ^ 2 + n * k ^ 2 / 2 := by
  have hl := log_ten_pos
  have h := learning_const (a := log 10 / 600) (by positivity) hk0 fifa_rules strengths plan n pool
    hc hk ht
  have h2 := mul_nonneg (show 0 ≤ 1 - k * (log 10 / 600) / 4 by linarith) (mean_nonneg plan n
    fun l => forecastError_nonneg Fifa.fifa Fifa.expectedScore strengths pool l)
  have h3 : log 10 / 600 / (8 * k)
      * mean plan n (fun l => gap (·.rating) strengths (tournament Fifa.fifa pool l))
      ≤ log 10 / 600 / (8 * k) * (gap (·.rating) strengths pool + n * k ^ 2 / 2) := by
    have e : log 10 / 600 / (8 * k) * (gap (·.rating) strengths pool + n * k ^ 2 / 2)
        = log 10 / 600 / (8 * k) * gap (·.rating) strengths pool + n * (k * (log 10 / 600)) / 16 := by
      field_simp; ring
    rw [e]
    linarith
  exact le_of_mul_le_mul_left h3 (by positivity)

theorem C138_fifa_fading (pool strengths : ι → Fifa.FifaRating ℝ)
    (plan : List (Game ι (Fifa.FifaConfig ℝ)) → Fixture ι (Fifa.FifaConfig ℝ)) (k : ℕ → ℝ)
    (hk0 : ∀ t, 0 ≤ k t) (hk1 : ∀ t, k t ≤ 1042)
    (hk : ∀ past, (plan past).config.importance = k past.length)
    (hc : ∀ past, (plan past).config.knockout = false ∧ (plan past).config.penalties = false)
    (ht : Truthful Fifa.expectedScore strengths plan) (hs : Summable fun t => k t ^ 2)
    (hd : Filter.Tendsto (fun n => ∑ t ∈ Finset.range n, k t) Filter.atTop Filter.atTop) :
    Filter.Tendsto (fun n => mean plan n
        (forecastError Fifa.fifa Fifa.expectedScore strengths (fun c => c.importance) pool)
      / ∑ t ∈ Finset.range n, k t) Filter.atTop (nhds 0) :=
  learning_fading (a := log 10 / 600) (by have := log_ten_pos; positivity) (M := 1042)
    (by linarith [log_ten_lt]) k hk0 hk1 fifa_rules strengths plan pool hc hk ht hs hd

/-! ### A plan that depends on the results -/

/-- Chances without draws. -/
noncomputable def toss (p : ℝ) (h0 : 0 ≤ p) (h1 : p ≤ 1) : Forecast :=
  ⟨p, 0, 1 - p, h0, le_rfl, sub_nonneg.2 h1, by ring⟩

/-- Three players of true strengths 1800, 1600 and 1400; the winner of a game stays and meets the
player who has paused. -/
noncomputable def kings : Fin 3 → Elo.EloRating ℝ := ![⟨1800⟩, ⟨1600⟩, ⟨1400⟩]

noncomputable def meeting (i j : Fin 3) (h : i ≠ j) (k : ℝ) : Fixture (Fin 3) (Elo.EloConfig ℝ) :=
  ⟨i, j, h, ⟨k⟩, toss (Elo.expectedScore (kings i) (kings j)).1
    (by rw [Elo.expectedScore_real]; exact sigmoid_nonneg _)
    (by rw [Elo.expectedScore_real]; exact (sigmoid_lt_one _).le)⟩

noncomputable def kingOfTheHill (k : ℕ → ℝ) (past : List (Game (Fin 3) (Elo.EloConfig ℝ))) :
    Fixture (Fin 3) (Elo.EloConfig ℝ) :=
  match past.getLast? with
  | none => meeting 0 1 (by decide) (k past.length)
  | some g =>
    let winner := if g.outcome = .WIN then g.first else g.second
    if winner = 0 then meeting 0 (if g.first = 0 then (if g.second = 1 then 2 else 1)
        else if g.first = 1 then 2 else 1) (by grind) (k past.length)
    else if winner = 1 then meeting 1 (if g.first = 1 then (if g.second = 0 then 2 else 0)
        else if g.first = 0 then 2 else 0) (by grind) (k past.length)
    else meeting 2 (if g.first = 2 then (if g.second = 0 then 1 else 0)
        else if g.first = 0 then 1 else 0) (by grind) (k past.length)

theorem meeting_truthful (i j : Fin 3) (h : i ≠ j) (k : ℝ) : (meeting i j h k).chances.Expects
    (Elo.expectedScore (kings (meeting i j h k).first) (kings (meeting i j h k).second)).1 := by
  simp [meeting, toss, Forecast.Expects, Forecast.average, points]

theorem kingOfTheHill_truthful (k : ℕ → ℝ) :
    Truthful Elo.expectedScore kings (kingOfTheHill k) := by
  intro past
  unfold kingOfTheHill
  cases past.getLast? with
  | none => exact meeting_truthful _ _ _ _
  | some g =>
    dsimp only
    split_ifs <;> exact meeting_truthful _ _ _ _

theorem kingOfTheHill_factor (k : ℕ → ℝ) (past : List (Game (Fin 3) (Elo.EloConfig ℝ))) :
    (kingOfTheHill k past).config.k = k past.length := by
  unfold kingOfTheHill
  cases past.getLast? with
  | none => rfl
  | some g =>
    dsimp only
    split_ifs <;> rfl

/-- All players start with 1500 points and `k = 32`; after 10000 games the mean squared error of a
forecast is at most 0.0125. -/
example : mean (kingOfTheHill fun _ => 32) 10000
    (forecastError Elo.elo Elo.expectedScore kings (fun _ => 1) fun _ => ⟨1500⟩) / 10000 ≤ 0.0125 := by
  have h := C138_elo_learns (fun _ => ⟨1500⟩) kings (kingOfTheHill fun _ => 32) 10000 32
    (by norm_num) (kingOfTheHill_factor _) (kingOfTheHill_truthful _)
  have e : ∑ i : Fin 3, ((1500 : ℝ) - (kings i).rating) ^ 2 = 110000 := by
    simp [Fin.sum_univ_three, kings]; norm_num
  rw [e] at h
  generalize mean _ _ _ = m at h ⊢
  have h1 := log_ten_gt
  have h2 := log_ten_lt
  norm_num at h ⊢
  nlinarith

/-- Factors that fade like `1/n`. -/
example : Filter.Tendsto (fun n => mean (kingOfTheHill fun t => 32 / (t + 1)) n
      (forecastError Elo.elo Elo.expectedScore kings (fun c => c.k) fun _ => ⟨1500⟩)
    / ∑ t ∈ Finset.range n, 32 / ((t : ℝ) + 1)) Filter.atTop (nhds 0) := by
  refine C138_elo_fading _ kings _ _ (fun t => by positivity) (fun t => ?_) (kingOfTheHill_factor _)
    (kingOfTheHill_truthful _) ?_ ?_
  · have : (32 : ℝ) / (t + 1) ≤ 32 / 1 := div_le_div_of_nonneg_left (by norm_num) (by norm_num) (by simp)
    linarith
  · have h := (Real.summable_one_div_nat_pow (p := 2)).2 (by norm_num)
    have h' := ((summable_nat_add_iff 1).2 h).mul_left (32 ^ 2)
    refine h'.congr fun t => ?_
    push_cast
    field_simp
  · have h := Filter.Tendsto.const_mul_atTop (show (0 : ℝ) < 32 by norm_num)
      Real.tendsto_sum_range_one_div_nat_succ_atTop
    refine h.congr fun n => ?_
    rw [Finset.mul_sum]
    exact Finset.sum_congr rfl fun t _ => by ring

end Skillratings
