import Verif.Proofs.LongRunMean
import Verif.Spec.Career
/-
Helper lemmas for C145: a weighted mean of the old value and noise.
-/
namespace Skillratings
open Spec MeasureTheory Filter
open scoped Topology

variable {Ω : Type} [m0 : MeasurableSpace Ω] {P : Measure Ω} [IsProbabilityMeasure P]
  {past : Filtration ℕ m0}

/-- What a game says about a player of strength `θ`, in points: performance minus strength. -/
noncomputable def perfGap (θ : ℝ) (y : ℝ) (o : Outcomes) : ℝ := y - θ + 50 - 100 * points o

variable {R : Type} {val : R → ℝ} {forecast : R → ℝ} {θ : ℝ} {b : ℕ → Ω → R} {o : ℕ → Ω → Outcomes}

theorem perfGap_abs {y : ℝ} (h : |y - θ| ≤ 50) (o : Outcomes) : |perfGap θ y o| ≤ 100 := by
  rw [abs_le] at h ⊢
  cases o <;> simp only [perfGap, points] <;> constructor <;> linarith

theorem perfGap_measurable
    (h : Career P past val (fun _ => 0) forecast θ 50 0 (fun _ => 1) (fun n _ => b n) (fun n _ => o n))
    (n : ℕ) : Measurable[past (n + 1)] fun ω => perfGap θ (val (b n ω)) (o n ω) := by
  have hb : Measurable[past (n + 1)] (fun ω => val (b n ω)) :=
    (h.opponent n 0).mono (past.mono n.le_succ) le_rfl
  have ho : Measurable[past (n + 1)] (fun ω => points (o n ω)) := h.result n 0
  letI := past (n + 1)
  exact ((hb.sub_const θ).add_const 50).sub (ho.const_mul 100)

theorem points_integrable
    (h : Career P past val (fun _ => 0) forecast θ 50 0 (fun _ => 1) (fun n _ => b n) (fun n _ => o n))
    (n : ℕ) : Integrable (fun ω => points (o n ω)) P := by
  have ho : Measurable[past (n + 1)] (fun ω => points (o n ω)) := h.result n 0
  refine Drifting.integrable_of (n := n + 1) (ℱ := past) ho.stronglyMeasurable (C := 1) fun ω => ?_
  cases o n ω <;> norm_num [points]

theorem perfGap_noisy (hf : ∀ y, forecast y = 1 / 2 + (val y - θ) / 100)
    (h : Career P past val (fun _ => 0) forecast θ 50 0 (fun _ => 1) (fun n _ => b n) (fun n _ => o n)) :
    Noisy P past (fun _ _ => 0) (fun _ _ => 0) (fun n ω => perfGap θ (val (b n ω)) (o n ω))
      100 10000 where
  adapted _ := stronglyMeasurable_const
  nonneg _ _ := le_rfl
  bounded _ := ⟨0, fun _ => by simp⟩
  fall_adapted _ := stronglyMeasurable_const
  fall_nonneg _ _ := le_rfl
  noise_adapted n := (perfGap_measurable h n).stronglyMeasurable
  noise_mean n := by
    have hb : Measurable[past n] (fun ω => val (b n ω)) := h.opponent n 0
    have hm : StronglyMeasurable[past n] (fun ω => val (b n ω) - θ + 50) := by
      letI := past n
      exact ((hb.sub_const θ).add_const 50).stronglyMeasurable
    have i1 : Integrable (fun ω => val (b n ω) - θ + 50) P :=
      Drifting.integrable_of (n := n) (ℱ := past) hm (C := 100) fun ω => by
        have := abs_le.1 (h.near n 0 ω)
        rw [abs_le]; constructor <;> linarith
    have i2 : Integrable (fun ω => 100 * points (o n ω)) P := (points_integrable h n).const_mul 100
    have e1 : P[fun ω => perfGap θ (val (b n ω)) (o n ω) | past n]
        =ᵐ[P] P[fun ω => val (b n ω) - θ + 50 | past n] - P[fun ω => 100 * points (o n ω) | past n] :=
      condExp_sub i1 i2 (past n)
    have e2 : P[fun ω => val (b n ω) - θ + 50 | past n] = fun ω => val (b n ω) - θ + 50 :=
      condExp_of_stronglyMeasurable (past.le n) hm i1
    have e3 : P[fun ω => 100 * points (o n ω) | past n]
        =ᵐ[P] fun ω => 100 * (P[fun ω => points (o n ω) | past n]) ω :=
      condExp_smul (100 : ℝ) (fun ω => points (o n ω)) (past n)
    filter_upwards [e1, e3, h.truthful n 0] with ω h1 h3 h4
    rw [h1, Pi.sub_apply, e2, h3, h4, hf]
    simp only [Pi.zero_apply]
    ring
  error_nonneg := by norm_num
  step n ω := by
    have := neg_le_of_abs_le (perfGap_abs (h.near n 0 ω) (o n ω))
    linarith
  fall_sq _ _ := by norm_num
  noise_sq n ω := by
    have := abs_le.1 (perfGap_abs (h.near n 0 ω) (o n ω))
    nlinarith
  noise_fall n ω := by
    have := abs_le.1 (perfGap_abs (h.near n 0 ω) (o n ω))
    rw [mul_zero]
    nlinarith

/-- The mean square of the perfGap is at most 2500. -/
theorem perfGap_sq (hf : ∀ y, forecast y = 1 / 2 + (val y - θ) / 100)
    (h : Career P past val (fun _ => 0) forecast θ 50 0 (fun _ => 1) (fun n _ => b n) (fun n _ => o n))
    (n : ℕ) : ∫ ω, perfGap θ (val (b n ω)) (o n ω) ^ 2 ∂P ≤ 2500 := by
  have hN := perfGap_noisy hf h
  have hb : Measurable[past n] (fun ω => val (b n ω)) := h.opponent n 0
  have hm : StronglyMeasurable[past n] (fun ω => 2 * (val (b n ω) - θ)) := by
    letI := past n
    exact ((hb.sub_const θ).const_mul 2).stronglyMeasurable
  -- pointwise the square is at most 2500 plus a product with the perfGap
  obtain ⟨i1, e1⟩ := hN.uncorrelated n hm (B := 100) fun ω => by
    have := abs_le.1 (h.near n 0 ω)
    rw [abs_le]; constructor <;> linarith
  have hpt : ∀ ω, perfGap θ (val (b n ω)) (o n ω) ^ 2
      ≤ 2500 + 2 * (val (b n ω) - θ) * perfGap θ (val (b n ω)) (o n ω) := by
    intro ω
    cases o n ω <;> simp only [perfGap, points] <;> nlinarith [sq_nonneg (val (b n ω) - θ)]
  have i2 : Integrable (fun ω => perfGap θ (val (b n ω)) (o n ω) ^ 2) P :=
    Drifting.integrable_of (n := n + 1) (ℱ := past)
      (by
        have hs := perfGap_measurable h n
        letI := past (n + 1)
        exact (hs.pow_const 2).stronglyMeasurable) (C := 10000) fun ω => by
      have := abs_le.1 (perfGap_abs (h.near n 0 ω) (o n ω))
      rw [abs_of_nonneg (sq_nonneg _)]; nlinarith
  have h1 := integral_mono i2 ((integrable_const (2500 : ℝ)).add i1) hpt
  have h2 : ∫ ω, (2500 + 2 * (val (b n ω) - θ) * perfGap θ (val (b n ω)) (o n ω)) ∂P = 2500 := by
    rw [integral_add (integrable_const (2500 : ℝ)) i1, e1]
    simp
  exact h1.trans h2.le

section Walk
variable {x : ℕ → Ω → ℝ} {r0 d : ℝ}

theorem mixing_adapted (hstart : ∀ ω, x 0 ω = r0)
    (hstep : ∀ n ω, x (n + 1) ω - θ
      = (perfGap θ (val (b n ω)) (o n ω) + d * (x n ω - θ)) / (1 + d))
    (h : Career P past val (fun _ => 0) forecast θ 50 0 (fun _ => 1) (fun n _ => b n) (fun n _ => o n))
    (n : ℕ) : Measurable[past n] (x n) := by
  induction n with
  | zero => rw [show x 0 = fun _ => r0 from funext hstart]; exact measurable_const
  | succ n ih =>
    have hx : Measurable[past (n + 1)] (x n) := ih.mono (past.mono n.le_succ) le_rfl
    have hs := perfGap_measurable h n
    have e : x (n + 1) = fun ω =>
        (perfGap θ (val (b n ω)) (o n ω) + d * (x n ω - θ)) / (1 + d) + θ :=
      funext fun ω => by rw [← hstep]; ring
    rw [e]
    letI := past (n + 1)
    exact ((hs.add ((hx.sub_const θ).const_mul d)).div_const _).add_const θ

theorem mixing_bounded (hd : 0 ≤ d) (hstart : ∀ ω, x 0 ω = r0)
    (hstep : ∀ n ω, x (n + 1) ω - θ
      = (perfGap θ (val (b n ω)) (o n ω) + d * (x n ω - θ)) / (1 + d))
    (h : Career P past val (fun _ => 0) forecast θ 50 0 (fun _ => 1) (fun n _ => b n) (fun n _ => o n))
    (n : ℕ) (ω : Ω) : |x n ω - θ| ≤ |r0 - θ| + 100 := by
  induction n with
  | zero => rw [hstart]; linarith
  | succ n ih =>
    have h1 : 0 < 1 + d := by linarith
    rw [hstep, abs_div, abs_of_pos h1, div_le_iff₀ h1]
    refine (abs_add_le _ _).trans ?_
    rw [abs_mul, abs_of_nonneg hd]
    have h2 := perfGap_abs (h.near n 0 ω) (o n ω)
    have h3 := mul_le_mul_of_nonneg_left ih hd
    have h4 := abs_nonneg (r0 - θ)
    nlinarith

/-- The mean of the rating, its mean square error, and its long-run average. -/
theorem mixing_learns (hd : 0 ≤ d) (hstart : ∀ ω, x 0 ω = r0)
    (hstep : ∀ n ω, x (n + 1) ω - θ
      = (perfGap θ (val (b n ω)) (o n ω) + d * (x n ω - θ)) / (1 + d))
    (hf : ∀ y, forecast y = 1 / 2 + (val y - θ) / 100)
    (h : Career P past val (fun _ => 0) forecast θ 50 0 (fun _ => 1) (fun n _ => b n) (fun n _ => o n)) :
    (∀ n, ∫ ω, x n ω ∂P = θ + (d / (1 + d)) ^ n * (r0 - θ)) ∧
    (∀ n, ∫ ω, (x n ω - θ) ^ 2 ∂P ≤ (d / (1 + d)) ^ (2 * n) * (r0 - θ) ^ 2 + 2500 / (2 * d + 1)) ∧
    ∀ᵐ ω ∂P, Tendsto (fun n : ℕ => (n : ℝ)⁻¹ * ∑ m ∈ Finset.range n, x m ω) atTop (𝓝 θ) := by
  have h1 : 0 < 1 + d := by linarith
  have hN := perfGap_noisy hf h
  have mx := mixing_adapted hstart hstep h
  have bx := mixing_bounded hd hstart hstep h
  have me : ∀ n, StronglyMeasurable[past n] fun ω => x n ω - θ := fun n => by
    have := mx n
    exact (Measurable.sub_const (mx n) θ).stronglyMeasurable
  have ie : ∀ n, Integrable (fun ω => x n ω - θ) P := fun n =>
    Drifting.integrable_of (me n) (bx n)
  have ix : ∀ n, Integrable (x n) P := fun n => by
    have := (ie n).add (integrable_const θ)
    refine this.congr (ae_of_all _ fun ω => ?_)
    simp
  have iy : ∀ n, Integrable (fun ω => perfGap θ (val (b n ω)) (o n ω)) P := fun n =>
    Drifting.integrable_of (hN.noise_adapted n) fun ω => perfGap_abs (h.near n 0 ω) (o n ω)
  have zero : ∀ n, ∫ ω, perfGap θ (val (b n ω)) (o n ω) ∂P = 0 := fun n => by
    have := (hN.uncorrelated n (f := fun _ => 1) stronglyMeasurable_const (B := 1)
      fun _ => by simp).2
    simpa using this
  have mean : ∀ n, ∫ ω, (x n ω - θ) ∂P = (d / (1 + d)) ^ n * (r0 - θ) := by
    intro n
    induction n with
    | zero => simp [hstart]
    | succ n ih =>
      simp only [hstep]
      rw [integral_div, integral_add (iy n) ((ie n).const_mul d), zero, integral_const_mul, ih,
        pow_succ]
      ring
  refine ⟨fun n => ?_, fun n => ?_, ?_⟩
  · have := mean n
    rw [integral_sub (ix n) (integrable_const θ)] at this
    simp only [integral_const, probReal_univ, one_smul] at this
    linarith
  · have ie2 : ∀ n, Integrable (fun ω => (x n ω - θ) ^ 2) P := fun n => by
      simpa only [sq] using Noisy.integrable_prod (μ := P) (me n) (me n) ⟨_, bx n⟩ ⟨_, bx n⟩
    induction n with
    | zero =>
      have : (0 : ℝ) ≤ 2500 / (2 * d + 1) := by positivity
      simp only [hstart, mul_zero, pow_zero, one_mul, integral_const, probReal_univ, one_smul]
      linarith
    | succ n ih =>
      obtain ⟨i3, e3⟩ := hN.uncorrelated n (me n) (bx n)
      have iy2 := hN.integrable_noise_sq n
      have e : ∀ ω, (x (n + 1) ω - θ) ^ 2
          = (perfGap θ (val (b n ω)) (o n ω) ^ 2 + (2 * d * ((x n ω - θ)
            * perfGap θ (val (b n ω)) (o n ω)) + d ^ 2 * (x n ω - θ) ^ 2)) / (1 + d) ^ 2 := by
        intro ω
        rw [hstep, div_pow]
        congr 1
        ring
      have i4 : Integrable (fun ω => 2 * d * ((x n ω - θ) * perfGap θ (val (b n ω)) (o n ω))
          + d ^ 2 * (x n ω - θ) ^ 2) P := (i3.const_mul _).add ((ie2 n).const_mul _)
      simp only [e]
      rw [integral_div, integral_add iy2 i4, integral_add (i3.const_mul _) ((ie2 n).const_mul _),
        integral_const_mul, e3, integral_const_mul, mul_zero, zero_add, div_le_iff₀ (by positivity)]
      have h2 := perfGap_sq hf h n
      have h3 := mul_le_mul_of_nonneg_left ih (sq_nonneg d)
      have h4 : ((d / (1 + d)) ^ (2 * (n + 1)) * (r0 - θ) ^ 2 + 2500 / (2 * d + 1)) * (1 + d) ^ 2
          = 2500 + d ^ 2 * ((d / (1 + d)) ^ (2 * n) * (r0 - θ) ^ 2 + 2500 / (2 * d + 1)) := by
        have h5 : (2 * d + 1) ≠ 0 := by positivity
        rw [show 2 * (n + 1) = 2 * n + 2 by ring, pow_add]
        have h6 : (d / (1 + d)) ^ 2 * (1 + d) ^ 2 = d ^ 2 := by field_simp
        have h7 : 2500 / (2 * d + 1) * (1 + d) ^ 2 = 2500 + d ^ 2 * (2500 / (2 * d + 1)) := by
          field_simp; ring
        calc _ = (d / (1 + d)) ^ (2 * n) * ((d / (1 + d)) ^ 2 * (1 + d) ^ 2) * (r0 - θ) ^ 2
              + 2500 / (2 * d + 1) * (1 + d) ^ 2 := by ring
          _ = _ := by rw [h6, h7]; ring
      linarith
  · filter_upwards [hN.noise_average] with ω hω
    have key : ∀ n : ℕ, ∑ m ∈ Finset.range n, x m ω
        = n * θ + ∑ m ∈ Finset.range n, perfGap θ (val (b m ω)) (o m ω)
          + (1 + d) * ((r0 - θ) - (x n ω - θ)) := by
      intro n
      induction n with
      | zero => simp [hstart]
      | succ n ih =>
        have := hstep n ω
        rw [eq_div_iff h1.ne'] at this
        rw [Finset.sum_range_succ, Finset.sum_range_succ, ih]
        push_cast
        linarith
    have hinv : Tendsto (fun n : ℕ => (n : ℝ)⁻¹) atTop (𝓝 0) := tendsto_inv_atTop_nhds_zero_nat
    have hb : Tendsto (fun n : ℕ => (n : ℝ)⁻¹ * ((1 + d) * ((r0 - θ) - (x n ω - θ)))) atTop
        (𝓝 0) := by
      refine hinv.zero_mul_isBoundedUnder_le ?_
      refine isBoundedUnder_of ⟨(1 + d) * (|r0 - θ| + (|r0 - θ| + 100)), fun n => ?_⟩
      simp only [Function.comp, Real.norm_eq_abs]
      rw [abs_mul, abs_of_pos h1]
      exact mul_le_mul_of_nonneg_left ((abs_sub _ _).trans (by linarith [bx n ω])) h1.le
    have := ((tendsto_const_nhds (x := θ)).add hω).add hb
    rw [add_zero, add_zero] at this
    refine this.congr' ?_
    filter_upwards [eventually_gt_atTop 0] with n hn
    have hn' : (n : ℝ) ≠ 0 := by positivity
    rw [key n]
    field_simp
end Walk

end Skillratings
