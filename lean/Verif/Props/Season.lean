import Mathlib.Combinatorics.SimpleGraph.Hasse
import Verif.Proofs.CoinMatchmaking
import Verif.Proofs.CoinSeason
import Verif.Proofs.Matchmaking
import Verif.Props.EloLearning
/-
C140: in an endless season of players with true strengths, rated with factors that fade, the
published expected scores become right, and if all players are compared regularly all ratings become
right.
-/
namespace Skillratings
open Spec MeasureTheory Filter
open Real (sigmoid)
open scoped Topology

variable {Ω ι : Type} [m0 : MeasurableSpace Ω] [DecidableEq ι] [Fintype ι] {P : Measure Ω}
  [IsProbabilityMeasure P] {past : Filtration ℕ m0} {k : ℕ → ℝ}

section
variable {γ R : Type} {rate : R → R → Outcomes → γ → R × R}
  {expected : R → R → ℝ × ℝ} {val : R → ℝ} {good : ℕ → γ → Prop} {a : ℝ}
  {θ pool : ι → R} {games : ℕ → Ω → Game ι γ}

/-- The squared errors of the published expected scores have a finite weighted sum. -/
theorem season_forecasts (h : Season P past expected θ games)
    (L : ∀ n, LogisticRule rate expected val (good n) (k n) a) (ha : 0 < a)
    (hgood : ∀ n ω, good n (games n ω).config) (hk0 : ∀ n, 0 ≤ k n)
    (hk2 : Summable fun n => k n ^ 2) :
    ∀ᵐ ω ∂P, Summable fun n => k n
      * ((expected (standing rate pool (games · ω) n (games n ω).first)
          (standing rate pool (games · ω) n (games n ω).second)).1
        - (expected (θ (games n ω).first) (θ (games n ω).second)).1) ^ 2 := by
  filter_upwards [h.settles (pool := pool) L ha hgood hk0 hk2] with ω ⟨_, hs⟩
  refine Summable.of_nonneg_of_le (fun n => mul_nonneg (hk0 n) (sq_nonneg _)) (fun n => ?_)
    (hs.mul_left (a / 8))
  have h1 := mul_le_mul_of_nonneg_left (fall_ge (rate := rate) (val := val) (θ := θ) (pool := pool)
    (games := games) hk0 ha n ω) (show 0 ≤ a / 8 by positivity)
  rw [(L n).expected_eq, (L n).expected_eq]
  refine le_trans (le_of_eq ?_) h1
  simp only [ratedLead, trueLead]
  field_simp
  ring

/-- Ratings tend to the strengths up to a shift of all players. -/
theorem season_tendsto (h : Season P past expected θ games)
    (L : ∀ n, LogisticRule rate expected val (good n) (k n) a) (ha : 0 < a) (mk : ℝ → R)
    (hmk : ∀ x, val (mk x) = x)
    (hgood : ∀ n ω, good n (games n ω).config) (hk : Antitone k) (hk0 : ∀ n, 0 ≤ k n)
    (hk1 : ¬ Summable k) (hk2 : Summable fun n => k n ^ 2) {G : SimpleGraph ι} (hG : G.Connected)
    (hreg : ∀ᵐ ω ∂P, ∃ L, Regular G.Adj L (games · ω)) :
    ∀ᵐ ω ∂P, ∀ i, Tendsto (fun n => val (standing rate pool (games · ω) n i)) atTop
      (𝓝 (val (θ i) + (∑ j, val (pool j) - ∑ j, val (θ j)) / Fintype.card ι)) := by
  set s := (∑ j, val (pool j) - ∑ j, val (θ j)) / Fintype.card ι with hs
  have hN : (Fintype.card ι : ℝ) ≠ 0 := by
    have := Fintype.card_pos_iff.2 hG.nonempty
    exact_mod_cast this.ne'
  have h' : Season P past expected (fun i => mk (val (θ i) + s)) games := by
    refine ⟨h.pairing, h.result, fun n => (h.truthful n).trans (EventuallyEq.of_eq ?_)⟩
    funext ω
    simp only [(L n).expected_eq, hmk, add_sub_add_right_eq_sub]
  have := h'.tendsto (pool := pool) L ha hgood hk hk0 hk1 hk2 hG hreg (by
    simp only [hmk, Finset.sum_add_distrib, Finset.sum_const, Finset.card_univ, nsmul_eq_mul]
    rw [hs, mul_div_cancel₀ _ hN]; ring)
  simpa only [hmk] using this

/-- The same for random pairings. -/
theorem matchmaking_tendsto {before : Filtration ℕ m0} {δ : ℝ} (h : Season P past expected θ games)
    (L : ∀ n, LogisticRule rate expected val (good n) (k n) a) (ha : 0 < a) (mk : ℝ → R)
    (hmk : ∀ x, val (mk x) = x)
    (hgood : ∀ n ω, good n (games n ω).config) (hk0 : ∀ n, 0 ≤ k n)
    (hk1 : ¬ Summable k) (hk2 : Summable fun n => k n ^ 2) {G : SimpleGraph ι} (hG : G.Connected)
    (hδ : 0 < δ) (hm : Matchmaking P past before G.Adj δ games) :
    ∀ᵐ ω ∂P, ∀ i, Tendsto (fun n => val (standing rate pool (games · ω) n i)) atTop
      (𝓝 (val (θ i) + (∑ j, val (pool j) - ∑ j, val (θ j)) / Fintype.card ι)) := by
  set s := (∑ j, val (pool j) - ∑ j, val (θ j)) / Fintype.card ι with hs
  have hN : (Fintype.card ι : ℝ) ≠ 0 := by
    have := Fintype.card_pos_iff.2 hG.nonempty
    exact_mod_cast this.ne'
  have h' : Season P past expected (fun i => mk (val (θ i) + s)) games := by
    refine ⟨h.pairing, h.result, fun n => (h.truthful n).trans (EventuallyEq.of_eq ?_)⟩
    funext ω
    simp only [(L n).expected_eq, hmk, add_sub_add_right_eq_sub]
  have := Spec.Matchmaking.tendsto (pool := pool) hG h' hm hδ L ha hgood hk0 hk1 hk2 (by
    simp only [hmk, Finset.sum_add_distrib, Finset.sum_const, Finset.card_univ, nsmul_eq_mul]
    rw [hs, mul_div_cancel₀ _ hN]; ring)
  simpa only [hmk] using this
end

/-! ### Elo -/

/-- Whoever plays whom: the squared differences between the expected scores published before each
game and the true ones, weighted with `k`, have a finite sum. -/
theorem C140_elo_forecasts (pool strengths : ι → Elo.EloRating ℝ)
    (games : ℕ → Ω → Game ι (Elo.EloConfig ℝ)) (hk0 : ∀ n, 0 ≤ k n)
    (hk2 : Summable fun n => k n ^ 2) (hk : ∀ n ω, (games n ω).config.k = k n)
    (h : Season P past Elo.expectedScore strengths games) :
    ∀ᵐ ω ∂P, Summable fun n => k n * ((Elo.expectedScore
          (tournament Elo.elo pool ((List.range n).map (games · ω)) (games n ω).first)
          (tournament Elo.elo pool ((List.range n).map (games · ω)) (games n ω).second)).1
        - (Elo.expectedScore (strengths (games n ω).first) (strengths (games n ω).second)).1) ^ 2 :=
  season_forecasts h (fun n => elo_rule (k n)) (by have := log_ten_pos; positivity) hk hk0 hk2

/-- If, in addition, the pairs of a connected graph meet regularly, all ratings tend to the true
strengths, up to a shift of all players by the same amount. -/
theorem C140_elo_consistent (pool strengths : ι → Elo.EloRating ℝ)
    (games : ℕ → Ω → Game ι (Elo.EloConfig ℝ)) (hka : Antitone k) (hk0 : ∀ n, 0 ≤ k n)
    (hk1 : ¬ Summable k) (hk2 : Summable fun n => k n ^ 2)
    (hk : ∀ n ω, (games n ω).config.k = k n)
    (h : Season P past Elo.expectedScore strengths games) (G : SimpleGraph ι) (hG : G.Connected)
    (hreg : ∀ᵐ ω ∂P, ∃ L, Regular G.Adj L (games · ω)) :
    ∀ᵐ ω ∂P, ∀ i, Tendsto
      (fun n => (tournament Elo.elo pool ((List.range n).map (games · ω)) i).rating) atTop
      (𝓝 ((strengths i).rating
        + (∑ j, (pool j).rating - ∑ j, (strengths j).rating) / Fintype.card ι)) :=
  season_tendsto h (fun n => elo_rule (k n)) (by have := log_ten_pos; positivity) (fun x => ⟨x⟩)
    (fun _ => rfl) hk hka hk0 hk1 hk2 hG hreg

/-- The same if the pairs of a connected graph are drawn at random, each with at least a fixed
probability; the factors need not decrease steadily. -/
theorem C140_elo_matchmaking (pool strengths : ι → Elo.EloRating ℝ)
    (games : ℕ → Ω → Game ι (Elo.EloConfig ℝ)) (hk0 : ∀ n, 0 ≤ k n)
    (hk1 : ¬ Summable k) (hk2 : Summable fun n => k n ^ 2)
    (hk : ∀ n ω, (games n ω).config.k = k n)
    (h : Season P past Elo.expectedScore strengths games) (G : SimpleGraph ι) (hG : G.Connected)
    (before : Filtration ℕ m0) (δ : ℝ) (hδ : 0 < δ)
    (hm : Matchmaking P past before G.Adj δ games) :
    ∀ᵐ ω ∂P, ∀ i, Tendsto
      (fun n => (tournament Elo.elo pool ((List.range n).map (games · ω)) i).rating) atTop
      (𝓝 ((strengths i).rating
        + (∑ j, (pool j).rating - ∑ j, (strengths j).rating) / Fintype.card ι)) :=
  matchmaking_tendsto h (fun n => elo_rule (k n)) (by have := log_ten_pos; positivity)
    (fun x => ⟨x⟩) (fun _ => rfl) hk hk0 hk1 hk2 hG hδ hm

/-! ### FIFA -/

theorem C140_fifa_forecasts (pool strengths : ι → Fifa.FifaRating ℝ)
    (games : ℕ → Ω → Game ι (Fifa.FifaConfig ℝ)) (hk0 : ∀ n, 0 ≤ k n)
    (hk2 : Summable fun n => k n ^ 2) (hk : ∀ n ω, (games n ω).config.importance = k n ∧
      (games n ω).config.knockout = false ∧ (games n ω).config.penalties = false)
    (h : Season P past Fifa.expectedScore strengths games) :
    ∀ᵐ ω ∂P, Summable fun n => k n * ((Fifa.expectedScore
          (tournament Fifa.fifa pool ((List.range n).map (games · ω)) (games n ω).first)
          (tournament Fifa.fifa pool ((List.range n).map (games · ω)) (games n ω).second)).1
        - (Fifa.expectedScore (strengths (games n ω).first) (strengths (games n ω).second)).1) ^ 2 :=
  season_forecasts h (fun n => fifa_rule (k n)) (by have := log_ten_pos; positivity) hk hk0 hk2

theorem C140_fifa_consistent (pool strengths : ι → Fifa.FifaRating ℝ)
    (games : ℕ → Ω → Game ι (Fifa.FifaConfig ℝ)) (hka : Antitone k) (hk0 : ∀ n, 0 ≤ k n)
    (hk1 : ¬ Summable k) (hk2 : Summable fun n => k n ^ 2)
    (hk : ∀ n ω, (games n ω).config.importance = k n ∧
      (games n ω).config.knockout = false ∧ (games n ω).config.penalties = false)
    (h : Season P past Fifa.expectedScore strengths games) (G : SimpleGraph ι) (hG : G.Connected)
    (hreg : ∀ᵐ ω ∂P, ∃ L, Regular G.Adj L (games · ω)) :
    ∀ᵐ ω ∂P, ∀ i, Tendsto
      (fun n => (tournament Fifa.fifa pool ((List.range n).map (games · ω)) i).rating) atTop
      (𝓝 ((strengths i).rating
        + (∑ j, (pool j).rating - ∑ j, (strengths j).rating) / Fintype.card ι)) :=
  season_tendsto h (fun n => fifa_rule (k n)) (by have := log_ten_pos; positivity) (fun x => ⟨x⟩)
    (fun _ => rfl) hk hka hk0 hk1 hk2 hG hreg

theorem C140_fifa_matchmaking (pool strengths : ι → Fifa.FifaRating ℝ)
    (games : ℕ → Ω → Game ι (Fifa.FifaConfig ℝ)) (hk0 : ∀ n, 0 ≤ k n)
    (hk1 : ¬ Summable k) (hk2 : Summable fun n => k n ^ 2)
    (hk : ∀ n ω, (games n ω).config.importance = k n ∧
      (games n ω).config.knockout = false ∧ (games n ω).config.penalties = false)
    (h : Season P past Fifa.expectedScore strengths games) (G : SimpleGraph ι) (hG : G.Connected)
    (before : Filtration ℕ m0) (δ : ℝ) (hδ : 0 < δ)
    (hm : Matchmaking P past before G.Adj δ games) :
    ∀ᵐ ω ∂P, ∀ i, Tendsto
      (fun n => (tournament Fifa.fifa pool ((List.range n).map (games · ω)) i).rating) atTop
      (𝓝 ((strengths i).rating
        + (∑ j, (pool j).rating - ∑ j, (strengths j).rating) / Fintype.card ι)) :=
  matchmaking_tendsto h (fun n => fifa_rule (k n)) (by have := log_ten_pos; positivity)
    (fun x => ⟨x⟩) (fun _ => rfl) hk hk0 hk1 hk2 hG hδ hm

/-! ### A season -/

/-- Three players of different strengths; the first plays the second and the second the third, in
turn, for ever. The first and the third never meet. -/
example : ∃ (P : Measure (ℕ → Bool)) (_ : IsProbabilityMeasure P)
    (past : Filtration ℕ MeasurableSpace.pi) (games : ℕ → (ℕ → Bool) → Game (Fin 3) (Elo.EloConfig ℝ))
    (G : SimpleGraph (Fin 3)),
    Season P past Elo.expectedScore ![⟨1500⟩, ⟨1700⟩, ⟨1650⟩] games ∧ G.Connected ∧
      (∀ n ω, (games n ω).config.k = 40 / (n + 1)) ∧ (∀ ω, Regular G.Adj 2 (games · ω)) := by
  obtain ⟨P, hP, past, h⟩ := season_exists Elo.expectedScore
    (![⟨1500⟩, ⟨1700⟩, ⟨1650⟩] : Fin 3 → Elo.EloRating ℝ)
    (fun i j => by rw [Elo.expectedScore_real]; exact (Real.sigmoid_pos _).le)
    (fun i j => by rw [Elo.expectedScore_real]; exact (Real.sigmoid_lt_one _).le)
    (fun n => if n % 2 = 0 then 0 else 1) (fun n => if n % 2 = 0 then 1 else 2)
    (fun n => by split_ifs <;> decide) (fun n => (⟨40 / (n + 1)⟩ : Elo.EloConfig ℝ))
  refine ⟨P, hP, past, _, SimpleGraph.pathGraph 3, h, SimpleGraph.pathGraph_connected 2,
    fun n ω => rfl, fun ω n i j hij => ?_⟩
  rw [SimpleGraph.pathGraph_adj] at hij
  have hi : (i = 0 ∧ j = 1 ∨ i = 1 ∧ j = 0) ∨ (i = 1 ∧ j = 2 ∨ i = 2 ∧ j = 1) := by
    revert hij; fin_cases i <;> fin_cases j <;> simp
  rcases Nat.mod_two_eq_zero_or_one n with hn | hn
  · rcases hi with h1 | h1
    · refine ⟨n, le_rfl, by omega, ?_⟩
      simp only [hn, if_true]
      rcases h1 with ⟨rfl, rfl⟩ | ⟨rfl, rfl⟩ <;> simp
    · refine ⟨n + 1, by omega, by omega, ?_⟩
      have : (n + 1) % 2 ≠ 0 := by omega
      simp only [this, if_false]
      rcases h1 with ⟨rfl, rfl⟩ | ⟨rfl, rfl⟩ <;> simp
  · rcases hi with h1 | h1
    · refine ⟨n + 1, by omega, by omega, ?_⟩
      have : (n + 1) % 2 = 0 := by omega
      simp only [this, if_true]
      rcases h1 with ⟨rfl, rfl⟩ | ⟨rfl, rfl⟩ <;> simp
    · refine ⟨n, le_rfl, by omega, ?_⟩
      simp only [hn, one_ne_zero, if_false]
      rcases h1 with ⟨rfl, rfl⟩ | ⟨rfl, rfl⟩ <;> simp

/-- Random pairings: a coin decides which of the others the second player meets. -/
example : ∃ (P : Measure (ℕ → Bool)) (_ : IsProbabilityMeasure P)
    (past before : Filtration ℕ MeasurableSpace.pi)
    (games : ℕ → (ℕ → Bool) → Game (Fin 3) (Elo.EloConfig ℝ)) (G : SimpleGraph (Fin 3)),
    Season P past Elo.expectedScore ![⟨1500⟩, ⟨1700⟩, ⟨1650⟩] games ∧ G.Connected ∧
      Matchmaking P past before G.Adj (1 / 2) games ∧
      ∀ n ω, (games n ω).config.k = 40 / (n + 1) := by
  obtain ⟨P, hP, past, before, games, h, hm, hc⟩ := matchmaking_exists Elo.expectedScore
    (![⟨1500⟩, ⟨1700⟩, ⟨1650⟩] : Fin 3 → Elo.EloRating ℝ)
    (fun i j => by rw [Elo.expectedScore_real]; exact (Real.sigmoid_pos _).le)
    (fun i j => by rw [Elo.expectedScore_real]; exact (Real.sigmoid_lt_one _).le)
    (fun n => (⟨40 / (n + 1)⟩ : Elo.EloConfig ℝ))
  exact ⟨P, hP, past, before, games, _, h, SimpleGraph.pathGraph_connected 2, hm,
    fun n ω => by rw [hc]⟩

end Skillratings
