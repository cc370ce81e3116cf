import Verif.Proofs.IngoLearning
import Verif.Proofs.CoinTosses
import Verif.Props.Seats
import Verif.Props.Ingo
/-
C145: Ingo ratings of a player with a true strength.
-/
namespace Skillratings
open Spec MeasureTheory Filter
open scoped Topology

variable {Ω : Type} [m0 : MeasurableSpace Ω] {P : Measure Ω} [IsProbabilityMeasure P]
  {past : Filtration ℕ m0}

private theorem ingo_learns (a b : ℕ → Ω → Ingo.IngoRating ℝ) (o : ℕ → Ω → Outcomes)
    (a0 : Ingo.IngoRating ℝ) (θ d : ℝ)
    (hd : d = if a0.age ≤ 20 then 10 else if a0.age ≤ 25 then 15 else 20)
    (hstart : ∀ ω, a 0 ω = a0)
    (h : ∀ n ω, a (n + 1) ω = (Ingo.ingo (a n ω) (b n ω) (o n ω)).1 ∨
      a (n + 1) ω = (Ingo.ingo (b n ω) (a n ω) (mirror (o n ω))).2)
    (hc : Career P past (·.rating) (fun _ => 0) (fun b => (Ingo.expectedScore ⟨θ, a0.age⟩ b).1) θ 50 0
      (fun _ => 1) (fun n _ => b n) (fun n _ => o n)) :
    (∀ n, ∫ ω, (a n ω).rating ∂P = θ + (d / (1 + d)) ^ n * (a0.rating - θ)) ∧
    (∀ n, ∫ ω, ((a n ω).rating - θ) ^ 2 ∂P
      ≤ (d / (1 + d)) ^ (2 * n) * (a0.rating - θ) ^ 2 + 2500 / (2 * d + 1)) ∧
    ∀ᵐ ω ∂P, Tendsto (fun n : ℕ => (n : ℝ)⁻¹ * ∑ m ∈ Finset.range n, (a m ω).rating) atTop (𝓝 θ) := by
  have hd0 : 0 < d := by rw [hd]; split_ifs <;> norm_num
  have step : ∀ n ω, a (n + 1) ω = (Ingo.ingo (a n ω) (b n ω) (o n ω)).1 := by
    intro n ω
    rcases h n ω with h | h
    · exact h
    · rw [h, C108_ingo_seats]; rfl
  have ages : ∀ n ω, (a n ω).age = a0.age := by
    intro n ω
    induction n with
    | zero => rw [hstart]
    | succ n ih => rw [step]; exact ih
  refine mixing_learns (x := fun n ω => (a n ω).rating) hd0.le (fun ω => by rw [hstart])
    (fun n ω => ?_) (fun y => ?_) hc
  · rw [step, (Ingo.C24_ingo_formula _ _ _).1, ages, show Ingo.development a0.age = d from hd.symm,
      Ingo.perf, perfGap]
    field_simp
    ring
  · simp only [Ingo.expectedScore, flt]

/-- The mean of the rating after `n` games: every game takes the same part of the initial error away. -/
theorem C145_ingo_mean (a b : ℕ → Ω → Ingo.IngoRating ℝ) (o : ℕ → Ω → Outcomes)
    (a0 : Ingo.IngoRating ℝ) (θ d : ℝ)
    (hd : d = if a0.age ≤ 20 then 10 else if a0.age ≤ 25 then 15 else 20)
    (hstart : ∀ ω, a 0 ω = a0)
    (h : ∀ n ω, a (n + 1) ω = (Ingo.ingo (a n ω) (b n ω) (o n ω)).1 ∨
      a (n + 1) ω = (Ingo.ingo (b n ω) (a n ω) (mirror (o n ω))).2)
    (hc : Career P past (·.rating) (fun _ => 0) (fun b => (Ingo.expectedScore ⟨θ, a0.age⟩ b).1) θ 50 0
      (fun _ => 1) (fun n _ => b n) (fun n _ => o n)) (n : ℕ) :
    ∫ ω, (a n ω).rating ∂P = θ + (d / (1 + d)) ^ n * (a0.rating - θ) :=
  (ingo_learns a b o a0 θ d hd hstart h hc).1 n

/-- The mean square error after `n` games. -/
theorem C145_ingo_error (a b : ℕ → Ω → Ingo.IngoRating ℝ) (o : ℕ → Ω → Outcomes)
    (a0 : Ingo.IngoRating ℝ) (θ d : ℝ)
    (hd : d = if a0.age ≤ 20 then 10 else if a0.age ≤ 25 then 15 else 20)
    (hstart : ∀ ω, a 0 ω = a0)
    (h : ∀ n ω, a (n + 1) ω = (Ingo.ingo (a n ω) (b n ω) (o n ω)).1 ∨
      a (n + 1) ω = (Ingo.ingo (b n ω) (a n ω) (mirror (o n ω))).2)
    (hc : Career P past (·.rating) (fun _ => 0) (fun b => (Ingo.expectedScore ⟨θ, a0.age⟩ b).1) θ 50 0
      (fun _ => 1) (fun n _ => b n) (fun n _ => o n)) (n : ℕ) :
    ∫ ω, ((a n ω).rating - θ) ^ 2 ∂P
      ≤ (d / (1 + d)) ^ (2 * n) * (a0.rating - θ) ^ 2 + 2500 / (2 * d + 1) :=
  (ingo_learns a b o a0 θ d hd hstart h hc).2.1 n

/-- The average of the ratings tends to the true strength. -/
theorem C145_ingo_average (a b : ℕ → Ω → Ingo.IngoRating ℝ) (o : ℕ → Ω → Outcomes)
    (a0 : Ingo.IngoRating ℝ) (θ : ℝ) (hstart : ∀ ω, a 0 ω = a0)
    (h : ∀ n ω, a (n + 1) ω = (Ingo.ingo (a n ω) (b n ω) (o n ω)).1 ∨
      a (n + 1) ω = (Ingo.ingo (b n ω) (a n ω) (mirror (o n ω))).2)
    (hc : Career P past (·.rating) (fun _ => 0) (fun b => (Ingo.expectedScore ⟨θ, a0.age⟩ b).1) θ 50 0
      (fun _ => 1) (fun n _ => b n) (fun n _ => o n)) :
    ∀ᵐ ω ∂P, Tendsto (fun n : ℕ => (n : ℝ)⁻¹ * ∑ m ∈ Finset.range n, (a m ω).rating) atTop (𝓝 θ) :=
  (ingo_learns a b o a0 θ _ rfl hstart h hc).2.2

/-- A player of 19 years and true strength 120, rated 200 at first, plays endless independent games
against a player rated 100 (lower is better, so the player expects 0.3 of each game). -/
example : ∃ (P : Measure (ℕ → Bool)) (_ : IsProbabilityMeasure P)
    (past : Filtration ℕ MeasurableSpace.pi) (a : ℕ → (ℕ → Bool) → Ingo.IngoRating ℝ),
    Career P past (·.rating) (fun _ => 0)
      (fun b => (Ingo.expectedScore (⟨120, 19⟩ : Ingo.IngoRating ℝ) b).1) 120 50 0
      (fun _ => 1) (fun _ _ _ => (⟨100, 40⟩ : Ingo.IngoRating ℝ)) (fun n _ ω => tossed (ω (n + 1))) ∧
    (∀ ω, a 0 ω = ⟨200, 19⟩) ∧
    (∀ n ω, a (n + 1) ω = (Ingo.ingo (a n ω) ⟨100, 40⟩ (tossed (ω (n + 1)))).1) ∧
    ∀ᵐ ω ∂P, Tendsto (fun n : ℕ => (n : ℝ)⁻¹ * ∑ m ∈ Finset.range n, (a m ω).rating) atTop
      (𝓝 120) := by
  have e : (Ingo.expectedScore (⟨120, 19⟩ : Ingo.IngoRating ℝ) ⟨100, 40⟩).1 = 3 / 10 := by
    simp only [Ingo.expectedScore, flt]; norm_num
  obtain ⟨P, hP, past, -, h⟩ := career_exists (·.rating) (fun _ => 0)
    (fun b : Ingo.IngoRating ℝ => (Ingo.expectedScore ⟨120, 19⟩ b).1) ⟨100, 40⟩ 120
    (by rw [e]; norm_num) (by rw [e]; norm_num)
  rw [show |(⟨100, 40⟩ : Ingo.IngoRating ℝ).rating - 120| = 20 by norm_num [abs_of_neg],
    abs_zero] at h
  have h' : Career P past (·.rating) (fun _ => 0)
      (fun b => (Ingo.expectedScore (⟨120, 19⟩ : Ingo.IngoRating ℝ) b).1) 120 50 0
      (fun _ => 1) (fun _ _ _ => (⟨100, 40⟩ : Ingo.IngoRating ℝ)) (fun n _ ω => tossed (ω (n + 1))) :=
    { h with near := fun n i ω => (h.near n i ω).trans (by norm_num) }
  let a : ℕ → (ℕ → Bool) → Ingo.IngoRating ℝ := fun n ω =>
    Nat.rec ⟨200, 19⟩ (fun n x => (Ingo.ingo x ⟨100, 40⟩ (tossed (ω (n + 1)))).1) n
  exact ⟨P, hP, past, a, h', fun ω => rfl, fun n ω => rfl,
    C145_ingo_average a (fun _ _ => ⟨100, 40⟩) (fun n ω => tossed (ω (n + 1))) ⟨200, 19⟩ 120
      (fun ω => rfl) (fun n ω => Or.inl rfl) h'⟩

end Skillratings
