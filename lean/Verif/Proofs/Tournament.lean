import Mathlib.Algebra.BigOperators.Group.Finset.Piecewise
import Mathlib.Algebra.BigOperators.Ring.Finset
import Verif.Tac
import Verif.Spec.Basic
/-
Invariants of tournaments.
-/
namespace Skillratings
open Spec

/-- If every game conserves the sum of a value of its two players, then every tournament
conserves the total of the pool. -/
theorem tournament_total_of {ι γ R : Type} [Fintype ι] [DecidableEq ι]
    (rate : R → R → Outcomes → γ → R × R) (val : R → ℝ)
    (h : ∀ a b o c, val (rate a b o c).1 + val (rate a b o c).2 = val a + val b)
    (pool : ι → R) (games : List (Game ι γ)) :
    ∑ i, val (tournament rate pool games i) = ∑ i, val (pool i) := by
  induction games generalizing pool with
  | nil => rfl
  | cons g gs ih =>
    have e : tournament rate pool (g :: gs) = tournament rate (playGame rate pool g) gs := rfl
    rw [e, ih]
    have hg := h (pool g.first) (pool g.second) g.outcome g.config
    have split : ∀ f : ι → ℝ, ∑ i, f i
        = f g.first + f g.second + ∑ i ∈ (Finset.univ.erase g.first).erase g.second, f i := by
      intro f
      rw [← Finset.add_sum_erase _ f (Finset.mem_univ g.first),
        ← Finset.add_sum_erase _ f (Finset.mem_erase.2 ⟨g.ne.symm, Finset.mem_univ g.second⟩)]
      ring
    rw [split, split (fun i => val (pool i))]
    have r : ∑ i ∈ (Finset.univ.erase g.first).erase g.second, val (playGame rate pool g i)
        = ∑ i ∈ (Finset.univ.erase g.first).erase g.second, val (pool i) := by
      apply Finset.sum_congr rfl
      intro i hi
      have h2 : i ≠ g.second := (Finset.mem_erase.1 hi).1
      have h1 : i ≠ g.first := (Finset.mem_erase.1 (Finset.mem_erase.1 hi).2).1
      simp [playGame, Function.update_of_ne h2, Function.update_of_ne h1]
    rw [r]
    congr 1
    simp only [playGame, Function.update_self, Function.update_of_ne g.ne]
    exact hg

/-- If every game preserves a predicate on both players, every tournament preserves it on the
whole pool. -/
theorem tournament_invariant {ι γ R : Type} [DecidableEq ι]
    (rate : R → R → Outcomes → γ → R × R) (P : R → Prop) (Q : γ → Prop)
    (h : ∀ a b o c, Q c → P a → P b → P (rate a b o c).1 ∧ P (rate a b o c).2)
    (pool : ι → R) (games : List (Game ι γ)) (hQ : ∀ g ∈ games, Q g.config)
    (hp : ∀ i, P (pool i)) (i : ι) : P (tournament rate pool games i) := by
  induction games generalizing pool with
  | nil => exact hp i
  | cons g gs ih =>
    have e : tournament rate pool (g :: gs) = tournament rate (playGame rate pool g) gs := rfl
    rw [e]
    apply ih
    · exact fun g' hg' => hQ g' (List.mem_cons_of_mem _ hg')
    · intro j
      have hg := h (pool g.first) (pool g.second) g.outcome g.config
        (hQ g List.mem_cons_self) (hp _) (hp _)
      simp only [playGame]
      by_cases h2 : j = g.second
      · subst h2; simpa using hg.2
      · rw [Function.update_of_ne h2]
        by_cases h1 : j = g.first
        · subst h1; simpa using hg.1
        · rw [Function.update_of_ne h1]; exact hp j

end Skillratings
