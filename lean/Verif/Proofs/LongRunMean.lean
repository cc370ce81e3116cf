import Mathlib.Analysis.Asymptotics.Lemmas
import Mathlib.Analysis.PSeries
import Verif.Proofs.RobbinsMonro
/-
Nonnegative processes that fall on average by `d`, up to a constant error `b`: in the long run the
mean of the falls is almost surely at most `b`.
-/
namespace Skillratings
open MeasureTheory Filter
open scoped Topology

/-- A process with falls `d`, errors `b` and noise `y`. -/
structure Noisy {Ω : Type} {m0 : MeasurableSpace Ω} (μ : Measure Ω) (ℱ : Filtration ℕ m0)
    (V d y : ℕ → Ω → ℝ) (b C : ℝ) : Prop where
  adapted : ∀ n, StronglyMeasurable[ℱ n] (V n)
  nonneg : ∀ n ω, 0 ≤ V n ω
  bounded : ∀ n, ∃ B, ∀ ω, |V n ω| ≤ B
  fall_adapted : ∀ n, StronglyMeasurable[ℱ n] (d n)
  fall_nonneg : ∀ n ω, 0 ≤ d n ω
  noise_adapted : ∀ n, StronglyMeasurable[ℱ (n + 1)] (y n)
  noise_mean : ∀ n, μ[y n | ℱ n] =ᵐ[μ] 0
  error_nonneg : 0 ≤ b
  step : ∀ n ω, V (n + 1) ω ≤ V n ω - d n ω + b + y n ω
  fall_sq : ∀ n ω, d n ω ^ 2 ≤ C * (1 + V n ω)
  noise_sq : ∀ n ω, y n ω ^ 2 ≤ C * (1 + V n ω)
  noise_fall : ∀ n ω, y n ω ^ 2 ≤ C * (1 + √(V n ω) * d n ω)

/-- A weighted sum of falls is finite if the weighted sum of the errors is. -/
theorem weighted_falls {u κ r w : ℕ → ℝ} (hu : ∀ n, 0 ≤ u n) (hκ : ∀ n, 0 ≤ κ n)
    (hw : Antitone w) (hw0 : ∀ n, 0 ≤ w n) (h : ∀ n, u (n + 1) ≤ u n - κ n + r n)
    (hr0 : ∀ n, 0 ≤ r n) (hr : Summable fun n => w n * r n) : Summable fun n => w n * κ n := by
  have key : ∀ N, ∑ n ∈ Finset.range N, w n * κ n + w N * u N
      ≤ w 0 * u 0 + ∑ n ∈ Finset.range N, w n * r n := by
    intro N
    induction N with
    | zero => simp
    | succ N ih =>
      rw [Finset.sum_range_succ, Finset.sum_range_succ]
      have h1 := mul_le_mul_of_nonneg_right (hw N.le_succ) (hu (N + 1))
      have h2 := mul_le_mul_of_nonneg_left (h N) (hw0 N)
      have h3 : w (Order.succ N) = w (N + 1) := rfl
      nlinarith
  refine summable_of_sum_range_le (c := w 0 * u 0 + ∑' n, w n * r n)
    (fun n => mul_nonneg (hw0 n) (hκ n)) fun N => ?_
  have h1 := key N
  have h2 := hr.sum_le_tsum (Finset.range N) fun n _ => mul_nonneg (hw0 n) (hr0 n)
  have h3 := mul_nonneg (hw0 N) (hu N)
  linarith

/-- Kronecker's lemma for the weights `n + 1`. -/
theorem kronecker {y : ℕ → ℝ} {c : ℝ}
    (h : Tendsto (fun n => ∑ m ∈ Finset.range n, y m / (m + 1)) atTop (𝓝 c)) :
    Tendsto (fun n : ℕ => (n : ℝ)⁻¹ * ∑ m ∈ Finset.range n, y m) atTop (𝓝 0) := by
  set N : ℕ → ℝ := fun n => ∑ m ∈ Finset.range n, y m / (m + 1) with hN
  have e : ∀ n : ℕ, ∑ m ∈ Finset.range n, y m = n * N n - ∑ m ∈ Finset.range n, N m := by
    intro n
    induction n with
    | zero => simp
    | succ n ih =>
      have h1 : N (n + 1) = N n + y n / (n + 1) := by simp only [hN, Finset.sum_range_succ]
      have h2 : ((n : ℝ) + 1) ≠ 0 := by positivity
      rw [Finset.sum_range_succ, Finset.sum_range_succ, ih, h1]
      push_cast
      field_simp
      ring
  have h1 := h.sub h.cesaro
  rw [sub_self] at h1
  refine h1.congr' ?_
  filter_upwards [eventually_gt_atTop 0] with n hn
  have hn' : (n : ℝ) ≠ 0 := by positivity
  change N n - (n : ℝ)⁻¹ * ∑ i ∈ Finset.range n, N i = _
  rw [e]
  field_simp

/-- The weights of the proof. -/
theorem weight_antitone (p : ℝ) (hp : 0 ≤ p) : Antitone fun n : ℕ => ((n : ℝ) + 1) ^ (-p) := by
  intro m n h
  have : (m : ℝ) ≤ n := by exact_mod_cast h
  exact Real.rpow_le_rpow_of_nonpos (by positivity) (by linarith) (by linarith)

theorem weight_summable (p : ℝ) (hp : 1 < p) : Summable fun n : ℕ => ((n : ℝ) + 1) ^ (-p) := by
  have := (summable_nat_add_iff 1).2 (Real.summable_nat_rpow.2 (by linarith : -p < -1))
  simpa using this

namespace Noisy
variable {Ω : Type} {m0 : MeasurableSpace Ω} {μ : Measure Ω} [IsProbabilityMeasure μ]
  {ℱ : Filtration ℕ m0} {V d y : ℕ → Ω → ℝ} {b C : ℝ}

theorem abs_le_of_sq {x B : ℝ} (h : x ^ 2 ≤ B) : |x| ≤ 1 + B := by
  rw [← sq_abs] at h
  nlinarith [abs_nonneg x, sq_nonneg (|x| - 1)]

theorem bound_of {f : ℕ → Ω → ℝ} (h : Noisy μ ℱ V d y b C)
    (hf : ∀ n ω, f n ω ^ 2 ≤ C * (1 + V n ω)) (n : ℕ) : ∃ B, ∀ ω, |f n ω| ≤ B := by
  obtain ⟨B, hB⟩ := h.bounded n
  refine ⟨1 + |C| * (1 + |B|), fun ω => (abs_le_of_sq (hf n ω)).trans ?_⟩
  have h1 := (le_abs_self _).trans (hB ω)
  have h2 : 0 ≤ 1 + V n ω := by linarith [h.nonneg n ω]
  have h3 := mul_le_mul_of_nonneg_right (le_abs_self C) h2
  have h4 : |C| * (1 + V n ω) ≤ |C| * (1 + |B|) :=
    mul_le_mul_of_nonneg_left (by linarith [le_abs_self B]) (abs_nonneg _)
  linarith

/-- The noise is uncorrelated with what is known before. -/
theorem uncorrelated (h : Noisy μ ℱ V d y b C) (n : ℕ) {f : Ω → ℝ}
    (hf : StronglyMeasurable[ℱ n] f) {B : ℝ} (hB : ∀ ω, |f ω| ≤ B) :
    Integrable (fun ω => f ω * y n ω) μ ∧ ∫ ω, f ω * y n ω ∂μ = 0 := by
  obtain ⟨Y, hY⟩ := h.bound_of h.noise_sq n
  have iy : Integrable (y n) μ := Drifting.integrable_of (h.noise_adapted n) hY
  have ify : Integrable (f * y n) μ := by
    refine Drifting.integrable_of (n := n + 1) (ℱ := ℱ)
      ((hf.mono (ℱ.mono n.le_succ)).mul (h.noise_adapted n)) (C := B * Y) fun ω => ?_
    rw [Pi.mul_apply, abs_mul]
    exact mul_le_mul (hB ω) (hY ω) (abs_nonneg _) ((abs_nonneg _).trans (hB ω))
  refine ⟨ify, ?_⟩
  have e1 := condExp_mul_of_stronglyMeasurable_left hf ify iy
  have e2 : μ[f * y n | ℱ n] =ᵐ[μ] 0 := by
    filter_upwards [e1, h.noise_mean n] with ω h1 h2
    rw [h1, Pi.mul_apply, h2]; simp
  have e3 := integral_condExp (ℱ.le n) (f := f * y n) (μ := μ)
  rw [integral_congr_ae e2] at e3
  simpa using e3.symm

theorem integrable_value (h : Noisy μ ℱ V d y b C) (n : ℕ) : Integrable (V n) μ := by
  obtain ⟨B, hB⟩ := h.bounded n
  exact Drifting.integrable_of (h.adapted n) hB

theorem integrable_fall (h : Noisy μ ℱ V d y b C) (n : ℕ) : Integrable (d n) μ := by
  obtain ⟨B, hB⟩ := h.bound_of h.fall_sq n
  exact Drifting.integrable_of (h.fall_adapted n) hB

theorem integrable_prod {f g : Ω → ℝ} {n : ℕ} (hf : StronglyMeasurable[ℱ n] f)
    (hg : StronglyMeasurable[ℱ n] g) (hfB : ∃ B, ∀ ω, |f ω| ≤ B) (hgB : ∃ B, ∀ ω, |g ω| ≤ B) :
    Integrable (fun ω => f ω * g ω) μ := by
  obtain ⟨A, hA⟩ := hfB
  obtain ⟨B, hB⟩ := hgB
  refine Drifting.integrable_of (hf.mul hg) (C := A * B) fun ω => ?_
  rw [abs_mul]
  exact mul_le_mul (hA ω) (hB ω) (abs_nonneg _) ((abs_nonneg _).trans (hA ω))

theorem integrable_noise_sq (h : Noisy μ ℱ V d y b C) (n : ℕ) :
    Integrable (fun ω => y n ω ^ 2) μ := by
  have := integrable_prod (μ := μ) (h.noise_adapted n) (h.noise_adapted n)
    (h.bound_of h.noise_sq n) (h.bound_of h.noise_sq n)
  simpa only [sq] using this

theorem const_nonneg (h : Noisy μ ℱ V d y b C) : 0 ≤ C := by
  obtain ⟨ω⟩ := (inferInstance : (ae μ).NeBot).nonempty
  have h1 := (sq_nonneg _).trans (h.noise_sq 0 ω)
  have h2 := h.nonneg 0 ω
  nlinarith

theorem mean_step (h : Noisy μ ℱ V d y b C) (n : ℕ) :
    ∫ ω, V (n + 1) ω ∂μ ≤ ∫ ω, V n ω ∂μ - ∫ ω, d n ω ∂μ + b := by
  obtain ⟨i1, e1⟩ := h.uncorrelated n (f := fun _ => 1) stronglyMeasurable_const (B := 1) (by simp)
  simp only [one_mul] at i1 e1
  have i2 : Integrable (fun ω => V n ω - d n ω) μ :=
    (h.integrable_value n).sub (h.integrable_fall n)
  have i3 : Integrable (fun ω => V n ω - d n ω + b) μ := i2.add (integrable_const b)
  have i4 : Integrable (fun ω => V n ω - d n ω + b + y n ω) μ := i3.add i1
  have h1 := integral_mono (h.integrable_value (n + 1)) i4 fun ω => h.step n ω
  rw [integral_add i3 i1, integral_add i2 (integrable_const b),
    integral_sub (h.integrable_value n) (h.integrable_fall n), e1] at h1
  simpa using h1

theorem mean_le (h : Noisy μ ℱ V d y b C) (n : ℕ) :
    ∫ ω, V n ω ∂μ ≤ (∫ ω, V 0 ω ∂μ + b) * (n + 1) := by
  have h0 : ∀ n, 0 ≤ ∫ ω, V n ω ∂μ := fun n => integral_nonneg (h.nonneg n)
  have hb := h.error_nonneg
  have key : ∀ n : ℕ, ∫ ω, V n ω ∂μ ≤ ∫ ω, V 0 ω ∂μ + b * n := by
    intro n
    induction n with
    | zero => simp
    | succ n ih =>
      have h1 := h.mean_step n
      have h2 : 0 ≤ ∫ ω, d n ω ∂μ := integral_nonneg (h.fall_nonneg n)
      push_cast
      linarith
  have h1 := key n
  have h2 := mul_nonneg (h0 0) (Nat.cast_nonneg (α := ℝ) n)
  nlinarith

theorem square_step (h : Noisy μ ℱ V d y b C) (n : ℕ) :
    ∫ ω, V (n + 1) ω ^ 2 ∂μ ≤ ∫ ω, V n ω ^ 2 ∂μ - ∫ ω, 2 * (V n ω * d n ω) ∂μ
      + (2 * b + 2 * b ^ 2 + 3 * C) * (1 + ∫ ω, V n ω ∂μ) := by
  obtain ⟨A, hA⟩ := h.bounded n
  obtain ⟨D, hD⟩ := h.bound_of h.fall_sq n
  have hb := h.error_nonneg
  have hC := h.const_nonneg
  obtain ⟨i1, e1⟩ := h.uncorrelated n (f := fun ω => 2 * (V n ω - d n ω + b))
    ((((h.adapted n).sub (h.fall_adapted n)).add stronglyMeasurable_const).const_mul 2)
    (B := 2 * (A + D + |b|)) (fun ω => by
      rw [abs_mul, abs_two]
      have h1 := abs_add_le (V n ω - d n ω) b
      have h2 := abs_sub (V n ω) (d n ω)
      linarith [hA ω, hD ω])
  have i2 : Integrable (fun ω => V n ω ^ 2) μ := by
    simpa only [sq] using integrable_prod (μ := μ) (h.adapted n) (h.adapted n) ⟨A, hA⟩ ⟨A, hA⟩
  have i3 : Integrable (fun ω => 2 * (V n ω * d n ω)) μ :=
    (integrable_prod (μ := μ) (h.adapted n) (h.fall_adapted n) ⟨A, hA⟩ ⟨D, hD⟩).const_mul 2
  have i4 : Integrable (fun ω => (2 * b + 2 * b ^ 2 + 3 * C) * (1 + V n ω)) μ :=
    ((integrable_const 1).add (h.integrable_value n)).const_mul _
  have i23 : Integrable (fun ω => V n ω ^ 2 - 2 * (V n ω * d n ω)) μ := i2.sub i3
  have i234 : Integrable (fun ω => V n ω ^ 2 - 2 * (V n ω * d n ω)
      + (2 * b + 2 * b ^ 2 + 3 * C) * (1 + V n ω)) μ := i23.add i4
  have i5 : Integrable (fun ω => V (n + 1) ω ^ 2) μ := by
    simpa only [sq] using integrable_prod (μ := μ) (h.adapted (n + 1)) (h.adapted (n + 1))
      (h.bounded _) (h.bounded _)
  have h1 : ∫ ω, V (n + 1) ω ^ 2 ∂μ ≤ ∫ ω, (((V n ω ^ 2 - 2 * (V n ω * d n ω))
      + (2 * b + 2 * b ^ 2 + 3 * C) * (1 + V n ω)) + 2 * (V n ω - d n ω + b) * y n ω) ∂μ := by
    refine integral_mono i5 (i234.add i1) fun ω => ?_
    have h2 := pow_le_pow_left₀ (h.nonneg (n + 1) ω) (h.step n ω) 2
    have h3 := h.noise_sq n ω
    have h4 := h.fall_sq n ω
    have h5 := h.nonneg n ω
    have h6 := mul_nonneg (sq_nonneg b) h5
    change V (n + 1) ω ^ 2 ≤ (((V n ω ^ 2 - 2 * (V n ω * d n ω))
      + (2 * b + 2 * b ^ 2 + 3 * C) * (1 + V n ω)) + 2 * (V n ω - d n ω + b) * y n ω)
    nlinarith [sq_nonneg (b + d n ω), mul_nonneg hb h5, mul_nonneg hC h5]
  rw [integral_add i234 i1, e1, add_zero, integral_add i23 i4,
    integral_sub i2 i3, integral_const_mul (2 * b + 2 * b ^ 2 + 3 * C),
    integral_add (integrable_const 1) (h.integrable_value n)] at h1
  simp only [integral_const, probReal_univ, one_smul] at h1
  exact h1

/-- The noise, weighted with `1 / (n + 1)`, has a finite variance. -/
theorem noise_summable (h : Noisy μ ℱ V d y b C) :
    Summable fun n : ℕ => ((n : ℝ) + 1) ^ (-2 : ℝ) * ∫ ω, y n ω ^ 2 ∂μ := by
  have hb := h.error_nonneg
  have hC := h.const_nonneg
  have hV0 : ∀ n, 0 ≤ ∫ ω, V n ω ∂μ := fun n => integral_nonneg (h.nonneg n)
  have s1 : Summable fun n : ℕ => ((n : ℝ) + 1) ^ (-(3 / 2) : ℝ) * ∫ ω, d n ω ∂μ :=
    weighted_falls (r := fun _ => b) (u := fun n => ∫ ω, V n ω ∂μ) hV0
      (fun n => integral_nonneg (h.fall_nonneg n)) (weight_antitone _ (by norm_num))
      (fun n => by positivity) h.mean_step (fun _ => hb)
      ((weight_summable _ (by norm_num)).mul_right b)
  have s2 : Summable fun n : ℕ => ((n : ℝ) + 1) ^ (-(5 / 2) : ℝ)
      * ∫ ω, 2 * (V n ω * d n ω) ∂μ := by
    refine weighted_falls (u := fun n => ∫ ω, V n ω ^ 2 ∂μ)
      (fun n => integral_nonneg fun ω => sq_nonneg _)
      (fun n => integral_nonneg fun ω => mul_nonneg two_pos.le
        (mul_nonneg (h.nonneg n ω) (h.fall_nonneg n ω)))
      (weight_antitone _ (by norm_num)) (fun n => by positivity) h.square_step
      (fun n => mul_nonneg (by positivity) (by linarith [hV0 n])) ?_
    refine Summable.of_nonneg_of_le (fun n => mul_nonneg (by positivity)
      (mul_nonneg (by positivity) (by linarith [hV0 n]))) (fun n => ?_)
      ((weight_summable (3 / 2) (by norm_num)).mul_right
        ((2 * b + 2 * b ^ 2 + 3 * C) * (1 + (∫ ω, V 0 ω ∂μ + b))))
    have e : ((n : ℝ) + 1) ^ (-(3 / 2) : ℝ) = ((n : ℝ) + 1) ^ (-(5 / 2) : ℝ) * (n + 1) := by
      rw [show (-(3 / 2) : ℝ) = -(5 / 2) + 1 by norm_num,
        Real.rpow_add_one (by positivity)]
    rw [e, mul_assoc]
    refine mul_le_mul_of_nonneg_left ?_ (by positivity)
    have h1 := h.mean_le n
    have h2 : 1 + ∫ ω, V n ω ∂μ ≤ ((n : ℝ) + 1) * (1 + (∫ ω, V 0 ω ∂μ + b)) := by
      have := Nat.cast_nonneg (α := ℝ) n
      nlinarith
    calc _ ≤ (2 * b + 2 * b ^ 2 + 3 * C) * (((n : ℝ) + 1) * (1 + (∫ ω, V 0 ω ∂μ + b))) :=
          mul_le_mul_of_nonneg_left h2 (by positivity)
      _ = _ := by ring
  have s3 := (((weight_summable 2 (by norm_num)).add
    ((s1.add (s2.mul_left (1 / 2))).mul_left (1 / 2))).mul_left C)
  refine Summable.of_nonneg_of_le (fun n => mul_nonneg (by positivity)
    (integral_nonneg fun ω => sq_nonneg _)) (fun n => ?_) s3
  set t := ((n : ℝ) + 1) ^ (1 / 2 : ℝ) with ht
  have ht0 : 0 < t := by positivity
  have i1 := integrable_prod (μ := μ) (h.adapted n) (h.fall_adapted n) (h.bounded n)
    (h.bound_of h.fall_sq n)
  have i3 : Integrable (fun ω => 1 / 2 * (t * d n ω + t⁻¹ * (V n ω * d n ω))) μ :=
    (((h.integrable_fall n).const_mul t).add (i1.const_mul t⁻¹)).const_mul (1 / 2)
  have i2 : Integrable (fun ω => C * (1 + 1 / 2 * (t * d n ω + t⁻¹ * (V n ω * d n ω)))) μ :=
    ((integrable_const 1).add i3).const_mul C
  have h1 : ∫ ω, y n ω ^ 2 ∂μ
      ≤ ∫ ω, C * (1 + 1 / 2 * (t * d n ω + t⁻¹ * (V n ω * d n ω))) ∂μ := by
    refine integral_mono (h.integrable_noise_sq n) i2 fun ω => (h.noise_fall n ω).trans ?_
    refine mul_le_mul_of_nonneg_left ?_ hC
    have h2 : √(V n ω) ≤ 1 / 2 * (t + t⁻¹ * V n ω) := by
      have h3 := Real.sq_sqrt (h.nonneg n ω)
      have h4 := mul_nonneg (sq_nonneg (√(V n ω) - t)) (inv_nonneg.2 ht0.le)
      have h5 : t * t⁻¹ = 1 := mul_inv_cancel₀ ht0.ne'
      have e : (√(V n ω) - t) ^ 2 * t⁻¹
          = √(V n ω) ^ 2 * t⁻¹ - 2 * √(V n ω) * (t * t⁻¹) + t * (t * t⁻¹) := by ring
      rw [e, h3, h5] at h4
      linarith
    have h6 := mul_le_mul_of_nonneg_right h2 (h.fall_nonneg n ω)
    linarith
  rw [integral_const_mul, integral_add (integrable_const 1) i3,
    integral_const_mul, integral_add ((h.integrable_fall n).const_mul t) (i1.const_mul t⁻¹),
    integral_const_mul, integral_const_mul] at h1
  simp only [integral_const, probReal_univ, one_smul] at h1
  have e1 : ((n : ℝ) + 1) ^ (-(3 / 2) : ℝ) = ((n : ℝ) + 1) ^ (-2 : ℝ) * t := by
    rw [ht, ← Real.rpow_add (by positivity)]; norm_num
  have e2 : ((n : ℝ) + 1) ^ (-(5 / 2) : ℝ) = ((n : ℝ) + 1) ^ (-2 : ℝ) * t⁻¹ := by
    rw [ht, ← Real.rpow_neg (by positivity), ← Real.rpow_add (by positivity)]; norm_num
  rw [e1, e2, integral_const_mul]
  refine (mul_le_mul_of_nonneg_left h1 (by positivity)).trans (le_of_eq ?_)
  ring

/-- In the long run the mean of the noise is 0. -/
theorem noise_average (h : Noisy μ ℱ V d y b C) :
    ∀ᵐ ω ∂μ, Tendsto (fun n : ℕ => (n : ℝ)⁻¹ * ∑ m ∈ Finset.range n, y m ω) atTop (𝓝 0) := by
  set N : ℕ → Ω → ℝ := fun n ω => ∑ m ∈ Finset.range n, y m ω / (m + 1) with hN
  have succ : ∀ n ω, N (n + 1) ω = N n ω + y n ω / (n + 1) := fun n ω => by
    simp only [hN, Finset.sum_range_succ]
  have mN : ∀ n, StronglyMeasurable[ℱ n] (N n) := fun n =>
    Finset.stronglyMeasurable_fun_sum _ fun m hm =>
      (((h.noise_adapted m).mono (ℱ.mono (Finset.mem_range.1 hm))).measurable.div_const
        _).stronglyMeasurable
  have bN : ∀ n, ∃ B, ∀ ω, |N n ω| ≤ B := by
    intro n
    induction n with
    | zero => exact ⟨0, fun ω => by simp [hN]⟩
    | succ n ih =>
      obtain ⟨B, hB⟩ := ih
      obtain ⟨Y, hY⟩ := h.bound_of h.noise_sq n
      refine ⟨B + Y, fun ω => ?_⟩
      rw [succ]
      refine (abs_add_le _ _).trans (add_le_add (hB ω) ?_)
      rw [abs_div, abs_of_pos (by positivity : (0 : ℝ) < n + 1), div_le_iff₀ (by positivity)]
      have h1 := hY ω
      have h2 := (abs_nonneg _).trans h1
      have := mul_nonneg h2 (Nat.cast_nonneg (α := ℝ) n)
      linarith
  have iN : ∀ n, Integrable (N n) μ := fun n => by
    obtain ⟨B, hB⟩ := bN n
    exact Drifting.integrable_of (mN n) hB
  have hM : Martingale N ℱ μ := by
    refine martingale_of_condExp_sub_eq_zero_nat mN iN fun n => ?_
    have e : N (n + 1) - N n = ((n : ℝ) + 1)⁻¹ • y n := by
      funext ω
      simp only [Pi.sub_apply, Pi.smul_apply, smul_eq_mul, succ]
      ring
    rw [e]
    filter_upwards [condExp_smul ((n : ℝ) + 1)⁻¹ (y n) (ℱ n) (μ := μ), h.noise_mean n] with ω h1 h2
    rw [h1, Pi.smul_apply, h2]
    simp
  have i2 : ∀ n, Integrable (fun ω => N n ω ^ 2) μ := fun n => by
    simpa only [sq] using integrable_prod (μ := μ) (mN n) (mN n) (bN n) (bN n)
  have step2 : ∀ n, ∫ ω, N (n + 1) ω ^ 2 ∂μ
      = ∫ ω, N n ω ^ 2 ∂μ + ((n : ℝ) + 1) ^ (-2 : ℝ) * ∫ ω, y n ω ^ 2 ∂μ := by
    intro n
    obtain ⟨B, hB⟩ := bN n
    obtain ⟨i3, e3⟩ := h.uncorrelated n (mN n) hB
    have e : ∀ ω, N (n + 1) ω ^ 2 = (N n ω ^ 2 + 2 / ((n : ℝ) + 1) * (N n ω * y n ω))
        + ((n : ℝ) + 1) ^ (-2 : ℝ) * y n ω ^ 2 := by
      intro ω
      rw [succ, Real.rpow_neg (by positivity), Real.rpow_two]
      field_simp
      ring
    have i4 : Integrable (fun ω => N n ω ^ 2 + 2 / ((n : ℝ) + 1) * (N n ω * y n ω)) μ :=
      (i2 n).add (i3.const_mul _)
    simp only [e]
    rw [integral_add i4 ((h.integrable_noise_sq n).const_mul _),
      integral_add (i2 n) (i3.const_mul _), integral_const_mul, e3, integral_const_mul]
    ring
  have sum2 : ∀ n, ∫ ω, N n ω ^ 2 ∂μ
      ≤ ∑' n : ℕ, ((n : ℝ) + 1) ^ (-2 : ℝ) * ∫ ω, y n ω ^ 2 ∂μ := by
    intro n
    have e : ∫ ω, N n ω ^ 2 ∂μ
        = ∑ m ∈ Finset.range n, ((m : ℝ) + 1) ^ (-2 : ℝ) * ∫ ω, y m ω ^ 2 ∂μ := by
      induction n with
      | zero => simp [hN]
      | succ n ih => rw [step2, ih, Finset.sum_range_succ]
    rw [e]
    exact h.noise_summable.sum_le_tsum _ fun m _ => mul_nonneg (by positivity)
      (integral_nonneg fun ω => sq_nonneg _)
  set A := ∑' n : ℕ, ((n : ℝ) + 1) ^ (-2 : ℝ) * ∫ ω, y n ω ^ 2 ∂μ with hA
  have hnorm : ∀ n, eLpNorm (N n) 1 μ ≤ (Real.toNNReal (1 + A) : ENNReal) := by
    intro n
    rw [eLpNorm_one_eq_lintegral_enorm, ← ofReal_integral_norm_eq_lintegral_enorm (iN n)]
    refine ENNReal.ofReal_le_ofReal ?_
    have h1 : ∫ ω, ‖N n ω‖ ∂μ ≤ ∫ ω, (1 + N n ω ^ 2) ∂μ :=
      integral_mono (iN n).norm ((integrable_const 1).add (i2 n)) fun ω => abs_le_of_sq le_rfl
    rw [integral_add (integrable_const 1) (i2 n)] at h1
    simp only [integral_const, probReal_univ, one_smul] at h1
    linarith [sum2 n]
  filter_upwards [hM.submartingale.exists_ae_tendsto_of_bdd hnorm] with ω ⟨c, hc⟩
  exact kronecker hc

/-- In the long run the mean of the falls is at most the error, and the process grows no faster. -/
theorem average (h : Noisy μ ℱ V d y b C) :
    ∀ᵐ ω ∂μ, ∀ ε > 0, ∀ᶠ n : ℕ in atTop,
      V n ω + ∑ m ∈ Finset.range n, d m ω ≤ (b + ε) * n := by
  filter_upwards [h.noise_average] with ω hk ε hε
  filter_upwards [hk.eventually_lt_const (half_pos hε), eventually_gt_atTop 0,
    (tendsto_natCast_atTop_atTop (R := ℝ)).eventually_ge_atTop (V 0 ω / (ε / 2))] with n h1 h2 h3
  have hn : (0 : ℝ) < n := by exact_mod_cast h2
  rw [inv_mul_lt_iff₀ hn] at h1
  rw [div_le_iff₀ (half_pos hε)] at h3
  have key : ∀ n : ℕ, V n ω + ∑ m ∈ Finset.range n, d m ω
      ≤ V 0 ω + b * n + ∑ m ∈ Finset.range n, y m ω := by
    intro n
    induction n with
    | zero => simp
    | succ n ih =>
      rw [Finset.sum_range_succ, Finset.sum_range_succ]
      have := h.step n ω
      push_cast
      linarith
  have h4 := key n
  have h5 := h.nonneg n ω
  linarith

end Noisy
end Skillratings
