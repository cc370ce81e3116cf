import Verif.Proofs.CoinTosses
import Verif.Spec.Season
/-
Endless seasons exist: independent decided games by a fixed schedule.
-/
namespace Skillratings
open MeasureTheory ProbabilityTheory Spec

theorem season_exists {ι γ R : Type} (expected : R → R → ℝ × ℝ) (θ : ι → R)
    (h0 : ∀ i j, 0 ≤ (expected (θ i) (θ j)).1) (h1 : ∀ i j, (expected (θ i) (θ j)).1 ≤ 1)
    (first second : ℕ → ι) (ne : ∀ n, first n ≠ second n) (c : ℕ → γ) :
    ∃ (P : Measure (ℕ → Bool)) (_ : IsProbabilityMeasure P) (past : Filtration ℕ MeasurableSpace.pi),
      Season P past expected θ
        (fun n ω => ⟨first n, second n, ne n, tossed (ω (n + 1)), c n⟩) := by
  let q : ℕ → ℝ := fun n => (expected (θ (first (n - 1))) (θ (second (n - 1)))).1
  have hp : ∀ n, IsProbabilityMeasure (coin (q n)) := fun n => coin_prob (h0 _ _) (h1 _ _)
  set P := Measure.infinitePi fun n : ℕ => coin (q n)
  let f : ℕ → (ℕ → Bool) → ℝ := fun n ω => points (tossed (ω n))
  have mt : Measurable fun w : Bool => points (tossed w) := Measurable.of_discrete
  have hf : ∀ n, StronglyMeasurable (f n) := fun n =>
    (mt.comp (measurable_pi_apply n)).stronglyMeasurable
  have hi : iIndepFun f P := iIndepFun_infinitePi fun _ => mt
  refine ⟨P, inferInstance, Filtration.natural f hf, fun n i j =>
      MeasurableSet.const (first n = i ∧ second n = j),
    fun n => ?_, fun n => ?_⟩
  · exact (Filtration.stronglyAdapted_natural hf (n + 1)).measurable
  · have h := hi.condExp_natural_ae_eq_of_lt hf (Nat.lt_succ_self n)
    refine h.trans (Filter.EventuallyEq.of_eq ?_)
    funext ω
    have e := Measure.infinitePi_map_eval (fun n : ℕ => coin (q n)) (n + 1)
    have h2 := integral_map (μ := P) (measurable_pi_apply (n + 1)).aemeasurable
      (mt.stronglyMeasurable.aestronglyMeasurable)
    rw [show P.map (fun ω => ω (n + 1)) = coin (q (n + 1)) from e, coin_mean (h0 _ _)] at h2
    exact h2.symm

end Skillratings
