import Mathlib.Probability.BorelCantelli
import Mathlib.Probability.Independence.InfinitePi
import Verif.Spec.Career
/-
Careers exist: independent games against one opponent.
-/
namespace Skillratings
open MeasureTheory ProbabilityTheory Spec

/-- The distribution of a decided game that is won with probability `q`. -/
noncomputable def coin (q : ℝ) : Measure Bool :=
  ENNReal.ofReal q • Measure.dirac true + ENNReal.ofReal (1 - q) • Measure.dirac false

theorem coin_prob {q : ℝ} (h0 : 0 ≤ q) (h1 : q ≤ 1) : IsProbabilityMeasure (coin q) := by
  constructor
  simp only [coin, Measure.add_apply, Measure.smul_apply, measure_univ, smul_eq_mul, mul_one]
  rw [← ENNReal.ofReal_add h0 (by linarith)]
  simp

/-- The result of a game. -/
def tossed (w : Bool) : Outcomes := if w then .WIN else .LOSS

theorem coin_mean {q : ℝ} (h0 : 0 ≤ q) : ∫ w, points (tossed w) ∂(coin q) = q := by
  have i1 : Integrable (fun w => points (tossed w)) (ENNReal.ofReal q • Measure.dirac true) :=
    Integrable.smul_measure (Integrable.of_finite ..) ENNReal.ofReal_ne_top
  have i2 : Integrable (fun w => points (tossed w)) (ENNReal.ofReal (1 - q) • Measure.dirac false) :=
    Integrable.smul_measure (Integrable.of_finite ..) ENNReal.ofReal_ne_top
  rw [coin, integral_add_measure i1 i2,
    integral_smul_measure, integral_smul_measure, integral_dirac, integral_dirac,
    ENNReal.toReal_ofReal h0]
  simp [tossed, points]

theorem career_exists {R : Type} (rating deviation forecast : R → ℝ) (x : R) (centre : ℝ)
    (h0 : 0 ≤ forecast x) (h1 : forecast x ≤ 1) :
    ∃ (P : Measure (ℕ → Bool)) (_ : IsProbabilityMeasure P) (past : Filtration ℕ MeasurableSpace.pi),
      (∀ n, P.map (fun ω => ω n) = coin (forecast x)) ∧
      Career P past rating deviation forecast centre |rating x - centre| |deviation x|
        (fun _ => 1) (fun _ _ _ => x) (fun n _ ω => tossed (ω (n + 1))) := by
  have := coin_prob h0 h1
  set P := Measure.infinitePi fun _ : ℕ => coin (forecast x)
  let f : ℕ → (ℕ → Bool) → ℝ := fun n ω => points (tossed (ω n))
  have mt : Measurable fun w : Bool => points (tossed w) := Measurable.of_discrete
  have hf : ∀ n, StronglyMeasurable (f n) := fun n =>
    (mt.comp (measurable_pi_apply n)).stronglyMeasurable
  have hi : iIndepFun f P := iIndepFun_infinitePi fun _ => mt
  refine ⟨P, inferInstance, Filtration.natural f hf, fun n => Measure.infinitePi_map_eval _ n,
    fun n i => measurable_const, fun n i => measurable_const, fun n i => ?_,
    fun n i ω => le_rfl, fun n i ω => le_rfl, fun n i => ?_⟩
  · exact (Filtration.stronglyAdapted_natural hf (n + 1)).measurable
  · have h := hi.condExp_natural_ae_eq_of_lt hf (Nat.lt_succ_self n)
    refine h.trans (Filter.EventuallyEq.of_eq ?_)
    funext ω
    have e := Measure.infinitePi_map_eval (fun _ : ℕ => coin (forecast x)) (n + 1)
    have h2 := integral_map (μ := P) (measurable_pi_apply (n + 1)).aemeasurable
      (mt.stronglyMeasurable.aestronglyMeasurable)
    rw [show P.map (fun ω => ω (n + 1)) = coin (forecast x) from e, coin_mean h0] at h2
    exact h2.symm

end Skillratings
