import Verif.Proofs.CoinSeason
import Verif.Proofs.SeasonConstant
import Verif.Props.EloLearning
/-
C142: in an endless season of players with true strengths, rated with a constant factor, the published
expected scores are right in the long run up to a small mean squared error.
-/
namespace Skillratings
open Spec MeasureTheory Filter
open Real (log)

variable {Ω ι : Type} [m0 : MeasurableSpace Ω] [DecidableEq ι] [Fintype ι] {P : Measure Ω}
  [IsProbabilityMeasure P] {past : Filtration ℕ m0}

/-! ### Elo -/

/-- Whoever plays whom: almost surely, the mean of the squared differences between the expected scores
published before each game and the true ones is in the end at most about
`k log 10 / (4 (1600 - k log 10))`. -/
theorem C142_elo_long_run (pool strengths : ι → Elo.EloRating ℝ)
    (games : ℕ → Ω → Game ι (Elo.EloConfig ℝ)) (k : ℝ) (hk0 : 0 < k) (hk1 : k * log 10 < 1600)
    (hk : ∀ n ω, (games n ω).config.k = k)
    (h : Season P past Elo.expectedScore strengths games) :
    ∀ᵐ ω ∂P, ∀ ε > 0, ∀ᶠ n : ℕ in atTop, (∑ m ∈ Finset.range n, ((Elo.expectedScore
          (tournament Elo.elo pool ((List.range m).map (games · ω)) (games m ω).first)
          (tournament Elo.elo pool ((List.range m).map (games · ω)) (games m ω).second)).1
        - (Elo.expectedScore (strengths (games m ω).first) (strengths (games m ω).second)).1) ^ 2) / n
      ≤ k * log 10 / (4 * (1600 - k * log 10)) + ε := by
  have e : k * (log 10 / 400) / (4 * (4 - k * (log 10 / 400)))
      = k * log 10 / (4 * (1600 - k * log 10)) := by
    rw [div_eq_div_iff (by linarith) (by linarith)]
    ring
  have := h.long_run (pool := pool) (elo_rule k) (by have := log_ten_pos; positivity) hk0
    (by linarith) hk
  rw [e] at this
  exact this

/-- The ratings do not move away from the strengths faster than the square root of the number of
games. -/
theorem C142_elo_distance (pool strengths : ι → Elo.EloRating ℝ)
    (games : ℕ → Ω → Game ι (Elo.EloConfig ℝ)) (k : ℝ) (hk0 : 0 < k) (hk1 : k * log 10 < 1600)
    (hk : ∀ n ω, (games n ω).config.k = k)
    (h : Season P past Elo.expectedScore strengths games) :
    ∀ᵐ ω ∂P, ∀ ε > 0, ∀ᶠ n : ℕ in atTop,
      ∑ i, ((tournament Elo.elo pool ((List.range n).map (games · ω)) i).rating
        - (strengths i).rating) ^ 2 ≤ (k ^ 2 / 2 + ε) * n :=
  h.distance (pool := pool) (elo_rule k) (by have := log_ten_pos; positivity) hk0 (by linarith) hk

/-! ### FIFA -/

theorem C142_fifa_long_run (pool strengths : ι → Fifa.FifaRating ℝ)
    (games : ℕ → Ω → Game ι (Fifa.FifaConfig ℝ)) (k : ℝ) (hk0 : 0 < k) (hk1 : k * log 10 < 2400)
    (hk : ∀ n ω, (games n ω).config.importance = k ∧
      (games n ω).config.knockout = false ∧ (games n ω).config.penalties = false)
    (h : Season P past Fifa.expectedScore strengths games) :
    ∀ᵐ ω ∂P, ∀ ε > 0, ∀ᶠ n : ℕ in atTop, (∑ m ∈ Finset.range n, ((Fifa.expectedScore
          (tournament Fifa.fifa pool ((List.range m).map (games · ω)) (games m ω).first)
          (tournament Fifa.fifa pool ((List.range m).map (games · ω)) (games m ω).second)).1
        - (Fifa.expectedScore (strengths (games m ω).first) (strengths (games m ω).second)).1) ^ 2) / n
      ≤ k * log 10 / (4 * (2400 - k * log 10)) + ε := by
  have e : k * (log 10 / 600) / (4 * (4 - k * (log 10 / 600)))
      = k * log 10 / (4 * (2400 - k * log 10)) := by
    rw [div_eq_div_iff (by linarith) (by linarith)]
    ring
  have := h.long_run (pool := pool) (fifa_rule k) (by have := log_ten_pos; positivity) hk0
    (by linarith) hk
  rw [e] at this
  exact this

theorem C142_fifa_distance (pool strengths : ι → Fifa.FifaRating ℝ)
    (games : ℕ → Ω → Game ι (Fifa.FifaConfig ℝ)) (k : ℝ) (hk0 : 0 < k) (hk1 : k * log 10 < 2400)
    (hk : ∀ n ω, (games n ω).config.importance = k ∧
      (games n ω).config.knockout = false ∧ (games n ω).config.penalties = false)
    (h : Season P past Fifa.expectedScore strengths games) :
    ∀ᵐ ω ∂P, ∀ ε > 0, ∀ᶠ n : ℕ in atTop,
      ∑ i, ((tournament Fifa.fifa pool ((List.range n).map (games · ω)) i).rating
        - (strengths i).rating) ^ 2 ≤ (k ^ 2 / 2 + ε) * n :=
  h.distance (pool := pool) (fifa_rule k) (by have := log_ten_pos; positivity) hk0 (by linarith) hk

/-! ### A season -/

/-- Three players of different strengths and the default factor 32: the mean squared error of the
forecasts is in the end at most 0.0122. -/
example : ∃ (P : Measure (ℕ → Bool)) (_ : IsProbabilityMeasure P)
    (past : Filtration ℕ MeasurableSpace.pi)
    (games : ℕ → (ℕ → Bool) → Game (Fin 3) (Elo.EloConfig ℝ)),
    Season P past Elo.expectedScore ![⟨1500⟩, ⟨1700⟩, ⟨1650⟩] games ∧
      (∀ n ω, (games n ω).config.k = 32) ∧ 32 * log 10 < 1600 ∧
      32 * log 10 / (4 * (1600 - 32 * log 10)) < 0.0122 := by
  obtain ⟨P, hP, past, h⟩ := season_exists Elo.expectedScore
    (![⟨1500⟩, ⟨1700⟩, ⟨1650⟩] : Fin 3 → Elo.EloRating ℝ)
    (fun i j => by rw [Elo.expectedScore_real]; exact (Real.sigmoid_pos _).le)
    (fun i j => by rw [Elo.expectedScore_real]; exact (Real.sigmoid_lt_one _).le)
    (fun n => if n % 2 = 0 then 0 else 1) (fun n => if n % 2 = 0 then 1 else 2)
    (fun n => by split_ifs <;> decide) (fun _ => (⟨32⟩ : Elo.EloConfig ℝ))
  have := log_ten_lt
  refine ⟨P, hP, past, _, h, fun _ _ => rfl, by linarith, ?_⟩
  rw [div_lt_iff₀ (by linarith)]
  linarith

end Skillratings
