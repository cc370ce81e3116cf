import Mathlib.Probability.Martingale.Convergence
import Mathlib.MeasureTheory.Function.ConditionalExpectation.PullOut
/-
Random walks with a drift towards a fixed point: the squared distance converges almost surely, and
the sum of the drifts is finite.
-/
namespace Skillratings
open MeasureTheory Filter
open scoped Topology

variable {Ω : Type} {m0 : MeasurableSpace Ω}

/-- A random walk `x` whose steps are bounded and, up to errors `b` with a bounded sum, point towards
`θ` on average (`d` measures how much, `m` is the mean step and `q` bounds the squared step). -/
structure Drifting (μ : Measure Ω) (ℱ : Filtration ℕ m0) (x m q d b : ℕ → Ω → ℝ)
    (θ K B : ℝ) : Prop where
  start : ∀ ω, |x 0 ω| ≤ K
  adapted : ∀ n, StronglyMeasurable[ℱ n] (x n)
  mean_adapted : ∀ n, StronglyMeasurable[ℱ n] (m n)
  drift_adapted : ∀ n, StronglyMeasurable[ℱ n] (d n)
  error_adapted : ∀ n, StronglyMeasurable[ℱ n] (b n)
  step : ∀ n ω, |x (n + 1) ω - x n ω| ≤ K
  mean_step : ∀ n ω, |m n ω| ≤ K
  mean : ∀ n, μ[fun ω => x (n + 1) ω - x n ω | ℱ n] =ᵐ[μ] m n
  drift_nonneg : ∀ n ω, 0 ≤ d n ω
  error_nonneg : ∀ n ω, 0 ≤ b n ω
  square : ∀ n ω, (x (n + 1) ω - x n ω) ^ 2 ≤ q n ω
  square_adapted : ∀ n, StronglyMeasurable[ℱ n] (q n)
  square_le : ∀ n ω, |q n ω| ≤ K ^ 2
  drift : ∀ n ω, d n ω + q n ω ≤ b n ω - 2 * ((x n ω - θ) * m n ω)
  errors : ∀ n ω, ∑ k ∈ Finset.range n, b k ω ≤ B

namespace Drifting

variable {μ : Measure Ω} {ℱ : Filtration ℕ m0} {x m q d b : ℕ → Ω → ℝ} {θ K B : ℝ}

/-- The process that is shown to be a supermartingale. -/
def energy (x d b : ℕ → Ω → ℝ) (θ : ℝ) (n : ℕ) (ω : Ω) : ℝ :=
  (x n ω - θ) ^ 2 + ∑ k ∈ Finset.range n, d k ω - ∑ k ∈ Finset.range n, b k ω

theorem bound (h : Drifting μ ℱ x m q d b θ K B) (n : ℕ) (ω : Ω) : |x n ω| ≤ (n + 1) * K := by
  induction n with
  | zero => simpa using h.start ω
  | succ n ih =>
    have h1 := h.step n ω
    have h2 : |x (n + 1) ω| ≤ |x (n + 1) ω - x n ω| + |x n ω| := by
      have := abs_add_le (x (n + 1) ω - x n ω) (x n ω)
      simpa using this
    push_cast; linarith

theorem offset (h : Drifting μ ℱ x m q d b θ K B) (n : ℕ) (ω : Ω) :
    |x n ω - θ| ≤ (n + 1) * K + |θ| := (abs_sub _ _).trans (by linarith [h.bound n ω])

theorem K_nonneg (h : Drifting μ ℱ x m q d b θ K B) (ω : Ω) : 0 ≤ K := (abs_nonneg _).trans (h.start ω)

theorem error_le (h : Drifting μ ℱ x m q d b θ K B) (n : ℕ) (ω : Ω) : |b n ω| ≤ B := by
  rw [abs_of_nonneg (h.error_nonneg n ω)]
  refine le_trans ?_ (h.errors (n + 1) ω)
  exact Finset.single_le_sum (f := fun k => b k ω) (fun k _ => h.error_nonneg k ω)
    (Finset.self_mem_range_succ n)

theorem drift_le (h : Drifting μ ℱ x m q d b θ K B) (n : ℕ) (ω : Ω) :
    |d n ω| ≤ B + 2 * (((n + 1) * K + |θ|) * K) := by
  rw [abs_of_nonneg (h.drift_nonneg n ω)]
  have h1 := h.drift n ω
  have h2 := (sq_nonneg _).trans (h.square n ω)
  have h3 := (le_abs_self _).trans (h.error_le n ω)
  have h4 : -((x n ω - θ) * m n ω) ≤ ((n + 1) * K + |θ|) * K := by
    refine (neg_le_abs _).trans ?_
    rw [abs_mul]
    exact mul_le_mul (h.offset n ω) (h.mean_step n ω) (abs_nonneg _)
      ((abs_nonneg _).trans (h.offset n ω))
  linarith

theorem integrable_of [IsFiniteMeasure μ] {f : Ω → ℝ} {n : ℕ} (hf : StronglyMeasurable[ℱ n] f)
    {C : ℝ} (hC : ∀ ω, |f ω| ≤ C) : Integrable f μ :=
  Integrable.of_bound (hf.mono (ℱ.le n)).aestronglyMeasurable C
    (ae_of_all _ fun ω => by simpa using hC ω)

theorem energy_adapted (h : Drifting μ ℱ x m q d b θ K B) (n : ℕ) :
    StronglyMeasurable[ℱ n] (energy x d b θ n) := by
  have h1 : StronglyMeasurable[ℱ n] fun ω => (x n ω - θ) ^ 2 :=
    ((h.adapted n).sub stronglyMeasurable_const).pow 2
  have h2 : StronglyMeasurable[ℱ n] fun ω => ∑ k ∈ Finset.range n, d k ω :=
    Finset.stronglyMeasurable_fun_sum _ fun k hk =>
      (h.drift_adapted k).mono (ℱ.mono (Finset.mem_range.1 hk).le)
  have h3 : StronglyMeasurable[ℱ n] fun ω => ∑ k ∈ Finset.range n, b k ω :=
    Finset.stronglyMeasurable_fun_sum _ fun k hk =>
      (h.error_adapted k).mono (ℱ.mono (Finset.mem_range.1 hk).le)
  exact (h1.add h2).sub h3

theorem energy_integrable [IsFiniteMeasure μ] (h : Drifting μ ℱ x m q d b θ K B) (n : ℕ) :
    Integrable (energy x d b θ n) μ := by
  refine Integrable.sub (Integrable.add ?_ ?_) ?_
  · refine integrable_of (((h.adapted n).sub stronglyMeasurable_const).pow 2)
      (C := ((n + 1) * K + |θ|) ^ 2) fun ω => ?_
    rw [abs_pow]
    exact pow_le_pow_left₀ (abs_nonneg _) (h.offset n ω) 2
  · exact integrable_finsetSum _ fun k _ => integrable_of (h.drift_adapted k) (h.drift_le k)
  · exact integrable_finsetSum _ fun k _ => integrable_of (h.error_adapted k) (h.error_le k)

theorem supermartingale [IsFiniteMeasure μ] (h : Drifting μ ℱ x m q d b θ K B) :
    Supermartingale (energy x d b θ) ℱ μ := by
  refine supermartingale_nat h.energy_adapted h.energy_integrable fun n => ?_
  have hs : StronglyMeasurable[ℱ n] (fun ω => 2 * (x n ω - θ)) :=
    ((h.adapted n).sub stronglyMeasurable_const).const_mul 2
  have hξ : StronglyMeasurable[ℱ (n + 1)] fun ω => x (n + 1) ω - x n ω :=
    (h.adapted (n + 1)).sub ((h.adapted n).mono (ℱ.mono n.le_succ))
  have iξ : Integrable (fun ω => x (n + 1) ω - x n ω) μ := integrable_of hξ (h.step n)
  have isξ : Integrable ((fun ω => 2 * (x n ω - θ)) * fun ω => x (n + 1) ω - x n ω) μ := by
    refine integrable_of ((hs.mono (ℱ.mono n.le_succ)).mul hξ)
      (C := 2 * ((n + 1) * K + |θ|) * K) fun ω => ?_
    change |2 * (x n ω - θ) * (x (n + 1) ω - x n ω)| ≤ _
    rw [abs_mul, abs_mul, abs_two]
    have h1 := h.offset n ω
    exact mul_le_mul (by linarith) (h.step n ω) (abs_nonneg _)
      (by linarith [abs_nonneg (x n ω - θ)])
  have hu : StronglyMeasurable[ℱ n] fun ω => energy x d b θ n ω + (q n ω + d n ω - b n ω) :=
    (h.energy_adapted n).add (((h.square_adapted n).add (h.drift_adapted n)).sub (h.error_adapted n))
  have iu : Integrable (fun ω => energy x d b θ n ω + (q n ω + d n ω - b n ω)) μ :=
    (h.energy_integrable n).add (((integrable_of (h.square_adapted n) (h.square_le n)).add
      (integrable_of (h.drift_adapted n) (h.drift_le n))).sub
      (integrable_of (h.error_adapted n) (h.error_le n)))
  have e1 := condExp_mul_of_stronglyMeasurable_left hs isξ iξ
  have e2 := condExp_of_stronglyMeasurable (ℱ.le n) hu iu
  have e3 := condExp_add iu isξ (ℱ n)
  have hle : energy x d b θ (n + 1) ≤ᵐ[μ]
      (fun ω => energy x d b θ n ω + (q n ω + d n ω - b n ω))
        + (fun ω => 2 * (x n ω - θ)) * fun ω => x (n + 1) ω - x n ω := by
    refine ae_of_all _ fun ω => ?_
    change energy x d b θ (n + 1) ω ≤ energy x d b θ n ω + (q n ω + d n ω - b n ω)
      + 2 * (x n ω - θ) * (x (n + 1) ω - x n ω)
    simp only [energy, Finset.sum_range_succ]
    have := h.square n ω
    nlinarith
  have hmono := condExp_mono (m := ℱ n) (h.energy_integrable (n + 1)) (iu.add isξ) hle
  filter_upwards [hmono, e1, e3, h.mean n] with ω h1 h2 h3 h4
  rw [h3, Pi.add_apply, h2, e2, Pi.mul_apply, h4] at h1
  have := h.drift n ω
  linarith

theorem energy_ge (h : Drifting μ ℱ x m q d b θ K B) (n : ℕ) (ω : Ω) : -B ≤ energy x d b θ n ω := by
  have h1 := h.errors n ω
  have h2 : 0 ≤ ∑ k ∈ Finset.range n, d k ω := Finset.sum_nonneg fun k _ => h.drift_nonneg k ω
  rw [energy]
  nlinarith [sq_nonneg (x n ω - θ)]

/-- The squared distance from `θ` converges, and the sum of the drifts is finite. -/
theorem converges [IsProbabilityMeasure μ] (h : Drifting μ ℱ x m q d b θ K B) :
    ∀ᵐ ω ∂μ, (∃ v, Tendsto (fun n => (x n ω - θ) ^ 2) atTop (𝓝 v)) ∧
      Summable (fun n => d n ω) ∧ Summable fun n => b n ω := by
  have hsup := h.supermartingale
  have hnorm : ∀ n, eLpNorm ((-energy x d b θ) n) 1 μ
      ≤ (Real.toNNReal (∫ ω, energy x d b θ 0 ω ∂μ + 2 * |B|) : ENNReal) := by
    intro n
    have hi := h.energy_integrable n
    have h1 : ∫ ω, energy x d b θ n ω ∂μ ≤ ∫ ω, energy x d b θ 0 ω ∂μ := by
      have := hsup.setIntegral_le (Nat.zero_le n) (@MeasurableSet.univ _ (ℱ 0))
      simpa using this
    rw [Pi.neg_apply, eLpNorm_neg, eLpNorm_one_eq_lintegral_enorm,
      ← ofReal_integral_norm_eq_lintegral_enorm hi]
    refine ENNReal.ofReal_le_ofReal ?_
    have h2 : ∫ ω, ‖energy x d b θ n ω‖ ∂μ ≤ ∫ ω, (energy x d b θ n ω + 2 * |B|) ∂μ := by
      refine integral_mono hi.norm (hi.add (integrable_const _)) fun ω => ?_
      have h3 := h.energy_ge n ω
      have h4 := le_abs_self B
      have h5 := abs_nonneg B
      change |energy x d b θ n ω| ≤ _
      rw [abs_le]
      constructor <;> linarith
    rw [integral_add hi (integrable_const _), integral_const] at h2
    simp only [probReal_univ, one_smul] at h2
    linarith
  filter_upwards [hsup.neg.exists_ae_tendsto_of_bdd hnorm] with ω ⟨c, hc⟩
  have hc' : Tendsto (fun n => energy x d b θ n ω) atTop (𝓝 (-c)) := by
    have := hc.neg
    simpa using this
  have sb : Summable fun n => b n ω :=
    summable_of_sum_range_le (fun n => h.error_nonneg n ω) fun n => h.errors n ω
  obtain ⟨M, hM⟩ := hc'.bddAbove_range
  have sd : Summable fun n => d n ω := by
    refine summable_of_sum_range_le (c := M + B) (fun n => h.drift_nonneg n ω) fun n => ?_
    have h1 : energy x d b θ n ω ≤ M := hM ⟨n, rfl⟩
    have h2 := h.errors n ω
    rw [energy] at h1
    nlinarith [sq_nonneg (x n ω - θ)]
  refine ⟨⟨-c - (∑' n, d n ω) + ∑' n, b n ω, ?_⟩, sd, sb⟩
  have := (hc'.sub sd.hasSum.tendsto_sum_nat).add sb.hasSum.tendsto_sum_nat
  refine this.congr fun n => ?_
  rw [energy]; ring

/-- If the drifts are, away from `θ` and up to the errors, at least a fixed share of step sizes with
an infinite sum, then the walk tends to `θ`. -/
theorem tendsto [IsProbabilityMeasure μ] (h : Drifting μ ℱ x m q d b θ K B) (g : ℕ → ℝ)
    (hg0 : ∀ n, 0 ≤ g n) (hg : ¬ Summable g)
    (hd : ∀ ε > 0, ∃ η > 0, ∃ C : ℝ, ∀ n ω, ε ≤ |x n ω - θ| → η * g n ≤ d n ω + C * b n ω) :
    ∀ᵐ ω ∂μ, Tendsto (fun n => x n ω) atTop (𝓝 θ) := by
  filter_upwards [h.converges] with ω ⟨⟨v, hv⟩, hs, hsb⟩
  have hv0 : 0 ≤ v := ge_of_tendsto' hv fun n => sq_nonneg _
  rcases hv0.eq_or_lt with rfl | hpos
  · rw [tendsto_iff_norm_sub_tendsto_zero]
    have h1 := (Real.continuous_sqrt.tendsto 0).comp hv
    rw [Real.sqrt_zero] at h1
    refine h1.congr fun n => ?_
    simp [Real.sqrt_sq_eq_abs]
  · exfalso
    obtain ⟨η, hη, C, hb⟩ := hd (√(v / 2)) (Real.sqrt_pos.2 (by linarith))
    have he : ∀ᶠ n in atTop, v / 2 < (x n ω - θ) ^ 2 := hv.eventually_const_lt (by linarith)
    obtain ⟨N, hN⟩ := eventually_atTop.1 he
    refine hg ?_
    rw [← summable_nat_add_iff N]
    have hs' := ((summable_nat_add_iff N).2 (hs.add (hsb.mul_left C))).mul_left (1 / η)
    refine Summable.of_nonneg_of_le (fun n => hg0 _) (fun n => ?_) hs'
    have h2 := hb (n + N) ω (by
      rw [← Real.sqrt_sq_eq_abs]
      exact Real.sqrt_le_sqrt (hN _ (Nat.le_add_left N n)).le)
    rw [one_div_mul_eq_div, le_div_iff₀ hη]
    linarith

end Drifting

/-- The mean of a weighted sum of surprises, given the past, if weights and expectations are
known. -/
theorem condExp_surprises {μ : Measure Ω} [IsFiniteMeasure μ] {m : MeasurableSpace Ω} (hm : m ≤ m0)
    {k : ℕ} {w e s t : Fin k → Ω → ℝ} {C : ℝ} (hw : ∀ i, StronglyMeasurable[m] (w i))
    (he : ∀ i, StronglyMeasurable[m] (e i)) (hs : ∀ i, StronglyMeasurable[m0] (s i))
    (hwC : ∀ i ω, |w i ω| ≤ C) (he1 : ∀ i ω, |e i ω| ≤ 1) (hs1 : ∀ i ω, |s i ω| ≤ 1)
    (hst : ∀ i, μ[s i | m] =ᵐ[μ] t i) :
    μ[fun ω => ∑ i, w i ω * (s i ω - e i ω) | m] =ᵐ[μ]
      fun ω => ∑ i, w i ω * (t i ω - e i ω) := by
  have is : ∀ i, Integrable (s i) μ := fun i =>
    Integrable.of_bound (hs i).aestronglyMeasurable 1 (ae_of_all _ fun ω => by simpa using hs1 i ω)
  have ie : ∀ i, Integrable (e i) μ := fun i =>
    Integrable.of_bound ((he i).mono hm).aestronglyMeasurable 1
      (ae_of_all _ fun ω => by simpa using he1 i ω)
  have iw : ∀ i, Integrable (w i * (s i - e i)) μ := fun i =>
    Integrable.of_bound ((((hw i).mono hm).mul ((hs i).sub ((he i).mono hm)))).aestronglyMeasurable
      (C * 2) (ae_of_all _ fun ω => by
        change |w i ω * (s i ω - e i ω)| ≤ C * 2
        rw [abs_mul]
        have h1 := abs_sub (s i ω) (e i ω)
        exact mul_le_mul (hwC i ω) (by linarith [hs1 i ω, he1 i ω]) (abs_nonneg _)
          ((abs_nonneg _).trans (hwC i ω)))
  have e1 := condExp_finsetSum (s := Finset.univ) (f := fun i => w i * (s i - e i))
    (fun i _ => iw i) m
  have e2 : ∀ᵐ ω ∂μ, ∀ i, (μ[w i * (s i - e i) | m]) ω = w i ω * (t i ω - e i ω) := by
    rw [ae_all_iff]
    intro i
    have h1 := condExp_mul_of_stronglyMeasurable_left (hw i) (iw i) ((is i).sub (ie i))
    have h2 := condExp_sub (is i) (ie i) m
    have h3 := condExp_of_stronglyMeasurable hm (he i) (ie i)
    filter_upwards [h1, h2, hst i] with ω a1 a2 a3
    rw [a1, Pi.mul_apply, a2, Pi.sub_apply, a3, h3]
  have e3 : (fun ω => ∑ i, w i ω * (s i ω - e i ω)) = ∑ i, w i * (s i - e i) := by
    ext ω; simp
  rw [e3]
  filter_upwards [e1, e2] with ω a1 a2
  rw [a1, Finset.sum_apply]
  exact Finset.sum_congr rfl fun i _ => a2 i

end Skillratings
