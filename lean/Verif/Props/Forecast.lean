import Verif.Proofs.Elo
import Verif.Proofs.Fifa
import Verif.Proofs.Forecast
/-
C119, C120: the forecasts of Elo and FIFA in the long run, whatever the results are.
C119: points and expected scores of every player agree on average.
C120: the forecasts are almost as good as those of the best fixed ratings.
-/
namespace Skillratings
open Real Spec

variable {ι : Type} [DecidableEq ι]

theorem elo_rule (k : ℝ) : LogisticRule Elo.elo (R := Elo.EloRating ℝ) Elo.expectedScore (·.rating)
    (fun c => c.k = k) k (log 10 / 400) where
  fst x y o c h := by simp only [Elo.elo_real, h]; ring
  snd x y o c h := by simp only [Elo.elo_real, h]; ring
  expected_eq := Elo.expectedScore_real

theorem fifa_rule (k : ℝ) : LogisticRule Fifa.fifa (R := Fifa.FifaRating ℝ) Fifa.expectedScore
    (·.rating) (fun c => c.importance = k ∧ c.knockout = false ∧ c.penalties = false) k
    (log 10 / 600) where
  fst x y o c h := by
    simp only [Fifa.fifa_real, Fifa.guarded, Fifa.credit, h.1, h.2.1, h.2.2, Bool.false_eq_true,
      if_false]
    ring
  snd x y o c h := by
    simp only [Fifa.fifa_real, Fifa.guarded, Fifa.credit2, h.1, h.2.1, h.2.2, Bool.false_eq_true,
      if_false]
    ring
  expected_eq := Fifa.expectedScore_real

/-! ### C119: calibration -/

/-- The change of a rating in any sequence of games is `k` times the difference between the points
and the sum of the expected scores. -/
theorem C119_elo_account (pool : ι → Elo.EloRating ℝ) (games : List (Game ι (Elo.EloConfig ℝ)))
    (k : ℝ) (hk : ∀ g ∈ games, g.config.k = k) (i : ι) :
    (tournament Elo.elo pool games i).rating = (pool i).rating
      + k * (earned games i - predicted Elo.elo Elo.expectedScore pool games i) :=
  (elo_rule k).account pool games hk i

/-- Points and expected scores differ by a quantity that grows at most with the logarithm of the
number of games of the pool. -/
theorem C119_elo_calibrated_bound [Fintype ι] (pool : ι → Elo.EloRating ℝ)
    (games : List (Game ι (Elo.EloConfig ℝ))) (k D : ℝ) (hk0 : 0 < k)
    (hk : ∀ g ∈ games, g.config.k = k) (hD : ∀ i j, |(pool i).rating - (pool j).rating| ≤ D) (i : ι) :
    |earned games i - predicted Elo.elo Elo.expectedScore pool games i|
      ≤ Fintype.card ι / k * (2 * D + 2 * k + 400 * logb 10 games.length) + 1 := by
  have h := (elo_rule k).drift_log hk0.le (by have := log_ten_pos; positivity) pool games hk hD i
  rw [(elo_rule k).account pool games hk i, add_sub_cancel_left, abs_mul, abs_of_pos hk0] at h
  have e : log games.length / (log 10 / 400) = 400 * logb 10 games.length := by
    rw [logb]; have := log_ten_pos; field_simp
  rw [e] at h
  refine le_of_mul_le_mul_left (h.trans_eq ?_) hk0
  field_simp

/-- In an endless sequence of games of a pool, the average difference between points and expected
scores of every player tends to 0, whatever the results are. -/
theorem C119_elo_calibrated [Fintype ι] (pool : ι → Elo.EloRating ℝ)
    (games : ℕ → Game ι (Elo.EloConfig ℝ)) (k : ℝ) (hk0 : 0 < k) (hk : ∀ n, (games n).config.k = k)
    (i : ι) :
    Filter.Tendsto (fun n : ℕ => (earned ((List.range n).map games) i
      - predicted Elo.elo Elo.expectedScore pool ((List.range n).map games) i) / n)
      Filter.atTop (nhds 0) :=
  (elo_rule k).calibrated hk0 (by have := log_ten_pos; positivity) pool games hk i

theorem C119_fifa_account (pool : ι → Fifa.FifaRating ℝ) (games : List (Game ι (Fifa.FifaConfig ℝ)))
    (k : ℝ) (hk : ∀ g ∈ games,
      g.config.importance = k ∧ g.config.knockout = false ∧ g.config.penalties = false) (i : ι) :
    (tournament Fifa.fifa pool games i).rating = (pool i).rating
      + k * (earned games i - predicted Fifa.fifa Fifa.expectedScore pool games i) :=
  (fifa_rule k).account pool games hk i

theorem C119_fifa_calibrated_bound [Fintype ι] (pool : ι → Fifa.FifaRating ℝ)
    (games : List (Game ι (Fifa.FifaConfig ℝ))) (k D : ℝ) (hk0 : 0 < k)
    (hk : ∀ g ∈ games,
      g.config.importance = k ∧ g.config.knockout = false ∧ g.config.penalties = false)
    (hD : ∀ i j, |(pool i).rating - (pool j).rating| ≤ D) (i : ι) :
    |earned games i - predicted Fifa.fifa Fifa.expectedScore pool games i|
      ≤ Fintype.card ι / k * (2 * D + 2 * k + 600 * logb 10 games.length) + 1 := by
  have h := (fifa_rule k).drift_log hk0.le (by have := log_ten_pos; positivity) pool games hk hD i
  rw [(fifa_rule k).account pool games hk i, add_sub_cancel_left, abs_mul, abs_of_pos hk0] at h
  have e : log games.length / (log 10 / 600) = 600 * logb 10 games.length := by
    rw [logb]; have := log_ten_pos; field_simp
  rw [e] at h
  refine le_of_mul_le_mul_left (h.trans_eq ?_) hk0
  field_simp

theorem C119_fifa_calibrated [Fintype ι] (pool : ι → Fifa.FifaRating ℝ)
    (games : ℕ → Game ι (Fifa.FifaConfig ℝ)) (k : ℝ) (hk0 : 0 < k)
    (hk : ∀ n, (games n).config.importance = k ∧ (games n).config.knockout = false ∧
      (games n).config.penalties = false) (i : ι) :
    Filter.Tendsto (fun n : ℕ => (earned ((List.range n).map games) i
      - predicted Fifa.fifa Fifa.expectedScore pool ((List.range n).map games) i) / n)
      Filter.atTop (nhds 0) :=
  (fifa_rule k).calibrated hk0 (by have := log_ten_pos; positivity) pool games hk i

/-- Three players of different ratings; the first wins every game, against changing opponents. -/
noncomputable def champion (n : ℕ) : Game (Fin 3) (Elo.EloConfig ℝ) :=
  if n % 2 = 0 then ⟨0, 1, by decide, .WIN, ⟨32⟩⟩ else ⟨2, 0, by decide, .LOSS, ⟨32⟩⟩

example : Filter.Tendsto (fun n : ℕ => (earned ((List.range n).map champion) 0
      - predicted Elo.elo Elo.expectedScore ![⟨1200⟩, ⟨1800⟩, ⟨2400⟩] ((List.range n).map champion) 0) / n)
      Filter.atTop (nhds 0) :=
  C119_elo_calibrated _ champion 32 (by norm_num) (fun n => by unfold champion; split <;> rfl) 0

/-! ### C120: the forecasts against those of fixed ratings -/

/-- The loss of the forecasts against the loss of the forecasts that fixed ratings `strengths` would
give: no choice of fixed ratings, even one made after all the games, is much better. -/
theorem C120_elo_regret [Fintype ι] (pool strengths : ι → Elo.EloRating ℝ)
    (games : List (Game ι (Elo.EloConfig ℝ))) (k : ℝ) (hk0 : 0 < k)
    (hk : ∀ g ∈ games, g.config.k = k) :
    (1 - k * log 10 / 800) * totalLoss Elo.elo Elo.expectedScore pool games
      ≤ fixedLoss Elo.expectedScore strengths games
        + log 10 / (800 * k) * ∑ i, ((pool i).rating - (strengths i).rating) ^ 2 := by
  have h := (elo_rule k).regret hk0 (by have := log_ten_pos; positivity) strengths pool games hk
  have e1 : k * (log 10 / 400) / 2 = k * log 10 / 800 := by ring
  have e2 : log 10 / 400 / (2 * k) = log 10 / (800 * k) := by field_simp; norm_num
  rwa [e1, e2] at h

theorem C120_fifa_regret [Fintype ι] (pool strengths : ι → Fifa.FifaRating ℝ)
    (games : List (Game ι (Fifa.FifaConfig ℝ))) (k : ℝ) (hk0 : 0 < k)
    (hk : ∀ g ∈ games,
      g.config.importance = k ∧ g.config.knockout = false ∧ g.config.penalties = false) :
    (1 - k * log 10 / 1200) * totalLoss Fifa.fifa Fifa.expectedScore pool games
      ≤ fixedLoss Fifa.expectedScore strengths games
        + log 10 / (1200 * k) * ∑ i, ((pool i).rating - (strengths i).rating) ^ 2 := by
  have h := (fifa_rule k).regret hk0 (by have := log_ten_pos; positivity) strengths pool games hk
  have e1 : k * (log 10 / 600) / 2 = k * log 10 / 1200 := by ring
  have e2 : log 10 / 600 / (2 * k) = log 10 / (1200 * k) := by field_simp; norm_num
  rwa [e1, e2] at h

/-- With `k = 32` the factor is more than 0.9. -/
example : (0.9 : ℝ) < 1 - 32 * log 10 / 800 := by linarith [log_ten_lt]

/-- Two games of three players, compared with ratings that fit the results. -/
example : ∀ g ∈ ([⟨0, 1, by decide, .WIN, ⟨32⟩⟩, ⟨1, 2, by decide, .DRAW, ⟨32⟩⟩] :
    List (Game (Fin 3) (Elo.EloConfig ℝ))), g.config.k = 32 := by
  simp

end Skillratings
