import Verif.Proofs.FadingWalk
import Verif.Props.Forecast
import Verif.Props.GlickoLearning
/-
C139: Elo and FIFA ratings tend to the true strength if the factor fades, and never settle if it does
not; Glicko ratings never settle if the constant `c` is not 0.
-/
namespace Skillratings
open Spec MeasureTheory Filter
open Real (sigmoid)
open scoped Topology

variable {Ω : Type} [m0 : MeasurableSpace Ω] {P : Measure Ω} [IsProbabilityMeasure P]
  {past : Filtration ℕ m0}

/-! ### Elo -/

/-- Endless games of a player with a true strength, rated by Elo with factors that fade, but not too
fast: the rating tends to the true strength. -/
theorem C139_elo_consistent (p : Elo.EloRating ℝ) (θ D : ℝ) (k : ℕ → ℝ) (hk0 : ∀ n, 0 ≤ k n)
    (hk1 : ¬ Summable k) (hk2 : Summable fun n => k n ^ 2) (a b : ℕ → Ω → Elo.EloRating ℝ)
    (o : ℕ → Ω → Outcomes) (h0 : ∀ ω, a 0 ω = p)
    (hstep : ∀ n ω, a (n + 1) ω = (Elo.elo (a n ω) (b n ω) (o n ω) ⟨k n⟩).1)
    (hc : Career P past (·.rating) (fun _ => 0) (fun b => (Elo.expectedScore ⟨θ⟩ b).1) θ D 0
      (fun _ => 1) (fun n _ => b n) (fun n _ => o n)) :
    ∀ᵐ ω ∂P, Tendsto (fun n => (a n ω).rating) atTop (𝓝 θ) := by
  refine fading_tendsto (r0 := p.rating) (α := Real.log 10 / 400)
    (by have := log_ten_pos; positivity) (fun ω => by rw [h0]) (fun n ω => ?_) (fun y => ?_) hk0 hk1
    hk2 hc
  · rw [hstep]; exact (elo_rule (k n)).fst _ _ _ _ rfl
  · rw [Elo.expectedScore_real]

/-- With a constant factor the rating never settles, whatever happens in endless decided games. -/
theorem C139_elo_restless (a b : ℕ → Elo.EloRating ℝ) (o : ℕ → Outcomes) (c : Elo.EloConfig ℝ)
    (hk : 0 < c.k) (D : ℝ) (hD : ∀ n, |(b n).rating| ≤ D) (ho : ∀ n, o n ≠ .DRAW)
    (hstep : ∀ n, a (n + 1) = (Elo.elo (a n) (b n) (o n) c).1) (r : ℝ) :
    ¬ Tendsto (fun n => (a n).rating) atTop (𝓝 r) := by
  have hl := log_ten_pos
  refine restless (α := Real.log 10 / 400) (κ := c.k) hk (by positivity) (fun _ => le_rfl)
    (fun _ => Real.log 10 / 400) (fun _ => ⟨by positivity, le_rfl⟩) (fun n => ?_) ho hD r
  rw [hstep]; exact (elo_rule c.k).fst _ _ _ _ rfl

/-! ### FIFA -/

/-- The same for FIFA with importances that fade. -/
theorem C139_fifa_consistent (p : Fifa.FifaRating ℝ) (θ D : ℝ) (k : ℕ → ℝ) (hk0 : ∀ n, 0 ≤ k n)
    (hk1 : ¬ Summable k) (hk2 : Summable fun n => k n ^ 2) (a b : ℕ → Ω → Fifa.FifaRating ℝ)
    (o : ℕ → Ω → Outcomes) (h0 : ∀ ω, a 0 ω = p)
    (hstep : ∀ n ω, a (n + 1) ω = (Fifa.fifa (a n ω) (b n ω) (o n ω) ⟨k n, false, false⟩).1)
    (hc : Career P past (·.rating) (fun _ => 0) (fun b => (Fifa.expectedScore ⟨θ⟩ b).1) θ D 0
      (fun _ => 1) (fun n _ => b n) (fun n _ => o n)) :
    ∀ᵐ ω ∂P, Tendsto (fun n => (a n ω).rating) atTop (𝓝 θ) := by
  refine fading_tendsto (r0 := p.rating) (α := Real.log 10 / 600)
    (by have := log_ten_pos; positivity) (fun ω => by rw [h0]) (fun n ω => ?_) (fun y => ?_) hk0 hk1
    hk2 hc
  · rw [hstep]; exact (fifa_rule (k n)).fst _ _ _ _ ⟨rfl, rfl, rfl⟩
  · rw [Fifa.expectedScore_real]

theorem C139_fifa_restless (a b : ℕ → Fifa.FifaRating ℝ) (o : ℕ → Outcomes) (c : Fifa.FifaConfig ℝ)
    (hk : 0 < c.importance) (h1 : c.knockout = false) (h2 : c.penalties = false) (D : ℝ)
    (hD : ∀ n, |(b n).rating| ≤ D) (ho : ∀ n, o n ≠ .DRAW)
    (hstep : ∀ n, a (n + 1) = (Fifa.fifa (a n) (b n) (o n) c).1) (r : ℝ) :
    ¬ Tendsto (fun n => (a n).rating) atTop (𝓝 r) := by
  have hl := log_ten_pos
  refine restless (α := Real.log 10 / 600) (κ := c.importance) hk (by positivity) (fun _ => le_rfl)
    (fun _ => Real.log 10 / 600) (fun _ => ⟨by positivity, le_rfl⟩) (fun n => ?_) ho hD r
  rw [hstep]; exact (fifa_rule c.importance).fst _ _ _ _ ⟨rfl, h1, h2⟩

/-! ### Glicko -/

/-- With a constant `c` other than 0 a Glicko rating never settles either. -/
theorem C139_glicko_restless (a b : ℕ → Glicko.GlickoRating ℝ) (o : ℕ → Outcomes)
    (c : Glicko.GlickoConfig ℝ) (hc : c.c ≠ 0) (D S : ℝ) (hD : ∀ n, |(b n).rating| ≤ D)
    (hS : ∀ n, |(b n).deviation| ≤ S) (ho : ∀ n, o n ≠ .DRAW)
    (hstep : ∀ n, a (n + 1) = (Glicko.glicko (a n) (b n) (o n) c).1) (r : ℝ) :
    ¬ Tendsto (fun n => (a n).rating) atTop (𝓝 r) := by
  have hq := glickoQ_pos
  have hg := glickoG_pos S
  set v := 1 / (1 / min (c.c ^ 2) (350 ^ 2) + (Real.log 10 / 400) ^ 2 / 4) with hv
  have he := entry_pos hc
  have hv0 : 0 < v := by positivity
  refine restless (α := glickoQ) (κ := glickoQ * v * glickoG S)
    (k := fun n => glickoQ * posterior (glickoOnset (a n).deviation c.c ^ 2)
      (glickoInfo (a n).rating (b n).rating (b n).deviation) * glickoG (b n).deviation)
    (by positivity) hq (fun n => ?_) (fun n => glickoQ * glickoG (b n).deviation)
    (fun n => ⟨by have := glickoG_pos (b n).deviation; positivity,
      mul_le_of_le_one_right hq.le (glickoG_le_one _)⟩) (fun n => ?_) ho hD r
  · have h1 : v ≤ posterior (glickoOnset (a n).deviation c.c ^ 2)
        (glickoInfo (a n).rating (b n).rating (b n).deviation) :=
      posterior_mono he (onset_sq _ _) (glickoInfo_pos _ _ _).le (info_le _ _ _)
    have h2 := Glicko.glickoG_antitone (hS n)
    have h3 : 0 < posterior (glickoOnset (a n).deviation c.c ^ 2)
        (glickoInfo (a n).rating (b n).rating (b n).deviation) := hv0.trans_le h1
    gcongr
  · rw [hstep, Glicko.glicko_real]
    simp only [Glicko.rated, glickoE_eq]
    rw [mul_assoc glickoQ (glickoG _) (_ - _)]
    ring

/-- A factor that fades like `1/n`. -/
example : (∀ n : ℕ, 0 ≤ (40 : ℝ) / (n + 1)) ∧ ¬ Summable (fun n : ℕ => (40 : ℝ) / (n + 1)) ∧
    Summable fun n : ℕ => ((40 : ℝ) / (n + 1)) ^ 2 := by
  refine ⟨fun n => by positivity, fun h => ?_, ?_⟩
  · refine Glicko.Walk.steps 1 1 one_pos zero_le_one ?_
    refine Summable.of_nonneg_of_le (fun n => by positivity) (fun n => ?_) h
    rw [div_le_div_iff₀ (by positivity) (by positivity)]
    have : (0 : ℝ) ≤ n := Nat.cast_nonneg n
    nlinarith
  · have h2 := (summable_nat_add_iff (f := fun n : ℕ => 1 / (n : ℝ) ^ 2) 1).2
      (Real.summable_one_div_nat_pow.2 one_lt_two)
    refine (h2.mul_left (40 ^ 2)).congr fun n => ?_
    push_cast
    rw [div_pow, mul_one_div]

/-- A player of true strength 1620 plays endless independent games against a player rated 1400. -/
example : ∃ (P : Measure (ℕ → Bool)) (_ : IsProbabilityMeasure P)
    (past : Filtration ℕ MeasurableSpace.pi),
    Career P past (·.rating) (fun _ => 0) (fun b => (Elo.expectedScore ⟨1620⟩ b).1) 1620 220 0
      (fun _ => 1) (fun _ _ _ => (⟨1400⟩ : Elo.EloRating ℝ)) (fun n _ ω => tossed (ω (n + 1))) := by
  obtain ⟨P, hP, past, -, h⟩ := career_exists (·.rating) (fun _ => 0)
    (fun b : Elo.EloRating ℝ => (Elo.expectedScore ⟨1620⟩ b).1) ⟨1400⟩ 1620
    (by rw [Elo.expectedScore_real]; exact (Real.sigmoid_pos _).le)
    (by rw [Elo.expectedScore_real]; exact (Real.sigmoid_lt_one _).le)
  refine ⟨P, hP, past, ?_⟩
  rw [show |(⟨1400⟩ : Elo.EloRating ℝ).rating - 1620| = 220 by norm_num [abs_of_neg], abs_zero] at h
  exact h

/-- Wins and losses in turn against a player rated 1400. -/
example : ∃ (a : ℕ → Elo.EloRating ℝ) (o : ℕ → Outcomes), (∀ n, o n ≠ .DRAW) ∧
    (∀ n, a (n + 1) = (Elo.elo (a n) ⟨1400⟩ (o n) ⟨32⟩).1) ∧
    ∀ r, ¬ Tendsto (fun n => (a n).rating) atTop (𝓝 r) := by
  let o : ℕ → Outcomes := fun n => if n % 2 = 0 then .WIN else .LOSS
  have ho : ∀ n, o n ≠ .DRAW := fun n => by dsimp only [o]; split_ifs <;> simp
  let a : ℕ → Elo.EloRating ℝ := fun n =>
    Nat.rec ⟨1500⟩ (fun n x => (Elo.elo x ⟨1400⟩ (o n) ⟨32⟩).1) n
  exact ⟨a, o, ho, fun n => rfl, fun r => C139_elo_restless a (fun _ => ⟨1400⟩) o ⟨32⟩ (by norm_num)
    1400 (fun n => by norm_num [abs_of_pos]) ho (fun n => rfl) r⟩

/-- The same for Glicko with `c = 63.2`. -/
example : ∃ (a : ℕ → Glicko.GlickoRating ℝ) (o : ℕ → Outcomes), (∀ n, o n ≠ .DRAW) ∧
    (∀ n, a (n + 1) = (Glicko.glicko (a n) ⟨1400, 30⟩ (o n) ⟨63.2⟩).1) ∧
    ∀ r, ¬ Tendsto (fun n => (a n).rating) atTop (𝓝 r) := by
  let o : ℕ → Outcomes := fun n => if n % 2 = 0 then .WIN else .LOSS
  have ho : ∀ n, o n ≠ .DRAW := fun n => by dsimp only [o]; split_ifs <;> simp
  let a : ℕ → Glicko.GlickoRating ℝ := fun n =>
    Nat.rec ⟨1500, 350⟩ (fun n x => (Glicko.glicko x ⟨1400, 30⟩ (o n) ⟨63.2⟩).1) n
  exact ⟨a, o, ho, fun n => rfl, fun r => C139_glicko_restless a (fun _ => ⟨1400, 30⟩) o ⟨63.2⟩
    (by norm_num) 1400 30 (fun n => by norm_num [abs_of_pos]) (fun n => by norm_num [abs_of_pos]) ho
    (fun n => rfl) r⟩

end Skillratings
