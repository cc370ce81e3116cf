import Verif.Proofs.RobbinsMonro
/-
Nonnegative processes that fall on average, up to summable errors, converge, and the sum of their
falls is finite.
-/
namespace Skillratings
open MeasureTheory Filter
open scoped Topology

variable {Ω : Type} {m0 : MeasurableSpace Ω} {μ : Measure Ω} [IsProbabilityMeasure μ]
  {ℱ : Filtration ℕ m0} {V d : ℕ → Ω → ℝ} {b : ℕ → ℝ}

theorem falling_converges (mV : ∀ n, StronglyMeasurable[ℱ n] (V n)) (iV : ∀ n, Integrable (V n) μ)
    (hV : ∀ n ω, 0 ≤ V n ω) (md : ∀ n, StronglyMeasurable[ℱ n] (d n))
    (id : ∀ n, Integrable (d n) μ) (hd : ∀ n ω, 0 ≤ d n ω) (hb : ∀ n, 0 ≤ b n) (sb : Summable b)
    (hstep : ∀ n, μ[V (n + 1) | ℱ n] ≤ᵐ[μ] fun ω => V n ω - d n ω + b n) :
    ∀ᵐ ω ∂μ, (∃ v, Tendsto (fun n => V n ω) atTop (𝓝 v)) ∧ Summable fun n => d n ω := by
  set E : ℕ → Ω → ℝ := fun n ω => V n ω + ∑ k ∈ Finset.range n, d k ω - ∑ k ∈ Finset.range n, b k
    with hE
  set B := ∑' n, b n with hB
  have hbB : ∀ n, ∑ k ∈ Finset.range n, b k ≤ B := fun n => sb.sum_le_tsum _ fun k _ => hb k
  have hB0 : 0 ≤ B := tsum_nonneg hb
  have mS : ∀ n N, n ≤ N + 1 → StronglyMeasurable[ℱ N] fun ω => ∑ k ∈ Finset.range n, d k ω :=
    fun n N hn => Finset.stronglyMeasurable_fun_sum _ fun k hk =>
      (md k).mono (ℱ.mono (by have := Finset.mem_range.1 hk; omega))
  have iS : ∀ n, Integrable (fun ω => ∑ k ∈ Finset.range n, d k ω) μ := fun n =>
    integrable_finsetSum _ fun k _ => id k
  have mE : ∀ n, StronglyMeasurable[ℱ n] (E n) := fun n =>
    ((mV n).add (mS n n (by omega))).sub stronglyMeasurable_const
  have iE : ∀ n, Integrable (E n) μ := fun n => ((iV n).add (iS n)).sub (integrable_const _)
  have hsup : Supermartingale E ℱ μ := by
    refine supermartingale_nat mE iE fun n => ?_
    have mu : StronglyMeasurable[ℱ n] fun ω =>
        ∑ k ∈ Finset.range (n + 1), d k ω - ∑ k ∈ Finset.range (n + 1), b k :=
      (mS (n + 1) n le_rfl).sub stronglyMeasurable_const
    have iu : Integrable (fun ω =>
        ∑ k ∈ Finset.range (n + 1), d k ω - ∑ k ∈ Finset.range (n + 1), b k) μ :=
      (iS (n + 1)).sub (integrable_const _)
    have e1 := condExp_add (iV (n + 1)) iu (ℱ n)
    have e2 := condExp_of_stronglyMeasurable (ℱ.le n) mu iu
    have e3 : E (n + 1) = V (n + 1) + fun ω =>
        ∑ k ∈ Finset.range (n + 1), d k ω - ∑ k ∈ Finset.range (n + 1), b k := by
      funext ω; simp only [hE, Pi.add_apply]; ring
    rw [e3]
    filter_upwards [e1, hstep n] with ω h1 h2
    rw [h1, Pi.add_apply, e2]
    simp only [hE, Finset.sum_range_succ]
    linarith
  have hge : ∀ n ω, -B ≤ E n ω := fun n ω => by
    have h1 : 0 ≤ ∑ k ∈ Finset.range n, d k ω := Finset.sum_nonneg fun k _ => hd k ω
    simp only [hE]
    linarith [hV n ω, hbB n]
  have hnorm : ∀ n, eLpNorm ((-E) n) 1 μ
      ≤ (Real.toNNReal (∫ ω, E 0 ω ∂μ + 2 * B) : ENNReal) := by
    intro n
    have hi := iE n
    have h1 : ∫ ω, E n ω ∂μ ≤ ∫ ω, E 0 ω ∂μ := by
      have := hsup.setIntegral_le (Nat.zero_le n) (@MeasurableSet.univ _ (ℱ 0))
      simpa using this
    rw [Pi.neg_apply, eLpNorm_neg, eLpNorm_one_eq_lintegral_enorm,
      ← ofReal_integral_norm_eq_lintegral_enorm hi]
    refine ENNReal.ofReal_le_ofReal ?_
    have h2 : ∫ ω, ‖E n ω‖ ∂μ ≤ ∫ ω, (E n ω + 2 * B) ∂μ := by
      refine integral_mono hi.norm (hi.add (integrable_const _)) fun ω => ?_
      have h3 := hge n ω
      change |E n ω| ≤ _
      rw [abs_le]
      constructor <;> linarith
    rw [integral_add hi (integrable_const _), integral_const] at h2
    simp only [probReal_univ, one_smul] at h2
    linarith
  filter_upwards [hsup.neg.exists_ae_tendsto_of_bdd hnorm] with ω ⟨c, hc⟩
  have hc' : Tendsto (fun n => E n ω) atTop (𝓝 (-c)) := by
    have := hc.neg
    simpa using this
  obtain ⟨M, hM⟩ := hc'.bddAbove_range
  have sd : Summable fun n => d n ω := by
    refine summable_of_sum_range_le (c := M + B) (fun n => hd n ω) fun n => ?_
    have h1 : E n ω ≤ M := hM ⟨n, rfl⟩
    simp only [hE] at h1
    linarith [hV n ω, hbB n]
  refine ⟨⟨-c - (∑' n, d n ω) + B, ?_⟩, sd⟩
  have := (hc'.sub sd.hasSum.tendsto_sum_nat).add sb.hasSum.tendsto_sum_nat
  refine this.congr fun n => ?_
  simp only [hE]; ring

end Skillratings
