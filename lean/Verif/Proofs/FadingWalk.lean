import Verif.Proofs.GlickoWalk
/-
Ratings by a logistic rule whose factor fades tend to the true strength; with a constant factor they
never settle.
-/
namespace Skillratings
open Spec MeasureTheory Filter
open Real (sigmoid sigmoid_pos sigmoid_lt_one)
open scoped Topology

theorem measurable_sigmoid {Ω : Type} {_ : MeasurableSpace Ω} {f : Ω → ℝ} (hf : Measurable f) :
    Measurable fun ω => sigmoid (f ω) := by
  simp only [Real.sigmoid_def]; fun_prop

/-- The pull towards the true strength in a logistic rule of slope `α`. -/
theorem logistic_pull {α x y θ D ε : ℝ} (hα : 0 < α) (hD : |y - θ| ≤ D) (hε : 0 ≤ ε)
    (h : ε ≤ |x - θ|) :
    sigmoid (-(α * D)) ^ 2 * (1 - Real.exp (-(α * ε))) * |x - θ|
      ≤ (sigmoid (α * (x - y)) - sigmoid (α * (θ - y))) * (x - θ) := by
  have hy : |α * (θ - y)| ≤ α * D := by
    rw [abs_mul, abs_of_pos hα, abs_sub_comm]; gcongr
  have hu : 0 ≤ α * ε := by positivity
  rcases le_total 0 (x - θ) with hs | hs
  · rw [abs_of_nonneg hs] at h ⊢
    refine mul_le_mul_of_nonneg_right (sigmoid_gap hy hu ?_) hs
    nlinarith
  · rw [abs_of_nonpos hs] at h ⊢
    have h1 := sigmoid_gap' (x := α * (x - y)) hy hu (by nlinarith)
    have h2 := mul_le_mul_of_nonneg_right h1 (show 0 ≤ -(x - θ) by linarith)
    linarith

variable {Ω R : Type} [m0 : MeasurableSpace Ω] {P : Measure Ω} [IsProbabilityMeasure P]
  {past : Filtration ℕ m0} {θ D S α r0 : ℝ} {val dev forecast : R → ℝ} {x : ℕ → Ω → ℝ}
  {b : ℕ → Ω → R} {o : ℕ → Ω → Outcomes} {k : ℕ → ℝ}

theorem fading_adapted (hstart : ∀ ω, x 0 ω = r0)
    (hstep : ∀ n ω, x (n + 1) ω
      = x n ω + k n * (points (o n ω) - sigmoid (α * (x n ω - val (b n ω)))))
    (h : Career P past val dev forecast θ D S (fun _ => 1) (fun n _ => b n) (fun n _ => o n))
    (n : ℕ) : Measurable[past n] (x n) := by
  induction n with
  | zero =>
    rw [show x 0 = fun _ => r0 from funext hstart]; exact measurable_const
  | succ n ih =>
    have hle : past n ≤ past (n + 1) := past.mono n.le_succ
    have hx : Measurable[past (n + 1)] (x n) := ih.mono hle le_rfl
    have hb : Measurable[past (n + 1)] (fun ω => val (b n ω)) := (h.opponent n 0).mono hle le_rfl
    have ho : Measurable[past (n + 1)] (fun ω => points (o n ω)) := h.result n 0
    rw [show x (n + 1) = fun ω => _ from funext (hstep n)]
    letI := past (n + 1)
    have hs : Measurable fun ω => sigmoid (α * (x n ω - val (b n ω))) :=
      measurable_sigmoid ((hx.sub hb).const_mul α)
    exact hx.add ((ho.sub hs).const_mul (k n))

/-- A factor that fades, but not too fast. -/
theorem fading_tendsto (hα : 0 < α) (hstart : ∀ ω, x 0 ω = r0)
    (hstep : ∀ n ω, x (n + 1) ω
      = x n ω + k n * (points (o n ω) - sigmoid (α * (x n ω - val (b n ω)))))
    (hf : ∀ y, forecast y = sigmoid (α * (θ - val y)))
    (hk0 : ∀ n, 0 ≤ k n) (hk1 : ¬ Summable k) (hk2 : Summable fun n => k n ^ 2)
    (h : Career P past val dev forecast θ D S (fun _ => 1) (fun n _ => b n) (fun n _ => o n)) :
    ∀ᵐ ω ∂P, Tendsto (fun n => x n ω) atTop (𝓝 θ) := by
  have mx := fun n => fading_adapted hstart hstep h n
  have mb : ∀ n, Measurable[past n] (fun ω => val (b n ω)) := fun n => h.opponent n 0
  have me : ∀ n, Measurable[past n] fun ω => sigmoid (α * (x n ω - val (b n ω))) := fun n =>
    measurable_sigmoid (((mx n).sub (mb n)).const_mul α)
  have mt : ∀ n, Measurable[past n] fun ω => sigmoid (α * (θ - val (b n ω))) := fun n =>
    measurable_sigmoid (((mb n).const_sub θ).const_mul α)
  have hle : ∀ n, k n ^ 2 ≤ ∑' j, k j ^ 2 := fun n => hk2.le_tsum n fun j _ => sq_nonneg _
  set K := √(∑' j, k j ^ 2) with hKdef
  have hkK : ∀ n, k n ≤ K := fun n => Real.le_sqrt_of_sq_le (hle n)
  have hK0 : 0 ≤ K := Real.sqrt_nonneg _
  have habs : ∀ n (z : ℝ), |z| ≤ 1 → |k n * z| ≤ k n := fun n z hz => by
    rw [abs_mul, abs_of_nonneg (hk0 n)]
    exact mul_le_of_le_one_right (hk0 n) hz
  have hmove : ∀ n ω, |x (n + 1) ω - x n ω| ≤ k n := fun n ω => by
    rw [hstep, add_sub_cancel_left]
    refine habs n _ ?_
    have h1 := sigmoid_pos (α * (x n ω - val (b n ω)))
    have h2 := sigmoid_lt_one (α * (x n ω - val (b n ω)))
    rw [abs_le]
    cases o n ω <;> simp only [points] <;> constructor <;> linarith
  have hpull : ∀ n ω, 0 ≤ (sigmoid (α * (x n ω - val (b n ω))) - sigmoid (α * (θ - val (b n ω))))
      * (x n ω - θ) := fun n ω => by
    have := logistic_pull (x := x n ω) hα (h.near n 0 ω) le_rfl (abs_nonneg _)
    simpa using this
  have hd : Drifting P past x
      (fun n ω => k n * (sigmoid (α * (θ - val (b n ω))) - sigmoid (α * (x n ω - val (b n ω)))))
      (fun n _ => k n ^ 2)
      (fun n ω => k n * ((sigmoid (α * (x n ω - val (b n ω))) - sigmoid (α * (θ - val (b n ω))))
        * (x n ω - θ)))
      (fun n _ => k n ^ 2) θ (|r0| + K) (∑' j, k j ^ 2) := by
    refine ⟨?_, fun n => (mx n).stronglyMeasurable,
      fun n => (((mt n).sub (me n)).const_mul _).stronglyMeasurable,
      fun n => ((((me n).sub (mt n)).mul ((mx n).sub_const θ)).const_mul _).stronglyMeasurable,
      fun n => stronglyMeasurable_const, ?_, ?_, ?_, fun n ω => mul_nonneg (hk0 n) (hpull n ω),
      fun n ω => sq_nonneg _, ?_, fun n => stronglyMeasurable_const, ?_, ?_, ?_⟩
    · intro ω; rw [hstart]; linarith
    · intro n ω; linarith [hmove n ω, hkK n, abs_nonneg r0]
    · intro n ω
      refine (habs n _ ?_).trans (by linarith [hkK n, abs_nonneg r0])
      have h1 := sigmoid_pos (α * (x n ω - val (b n ω)))
      have h2 := sigmoid_lt_one (α * (x n ω - val (b n ω)))
      have h3 := sigmoid_pos (α * (θ - val (b n ω)))
      have h4 := sigmoid_lt_one (α * (θ - val (b n ω)))
      rw [abs_le]; constructor <;> linarith
    · intro n
      have e1 : (fun ω => x (n + 1) ω - x n ω) = fun ω =>
          ∑ _i : Fin 1, k n * (points (o n ω) - sigmoid (α * (x n ω - val (b n ω)))) := by
        funext ω
        rw [hstep, add_sub_cancel_left]
        simp
      have e2 : (fun ω => k n * (sigmoid (α * (θ - val (b n ω)))
            - sigmoid (α * (x n ω - val (b n ω))))) = fun ω =>
          ∑ _i : Fin 1, k n * (sigmoid (α * (θ - val (b n ω)))
            - sigmoid (α * (x n ω - val (b n ω)))) := by
        funext ω; simp
      rw [e1, e2]
      refine condExp_surprises (past.le n) (C := k n) (w := fun _ _ => k n)
        (e := fun _ ω => sigmoid (α * (x n ω - val (b n ω))))
        (s := fun _ ω => points (o n ω)) (t := fun _ ω => sigmoid (α * (θ - val (b n ω))))
        (fun i => stronglyMeasurable_const) (fun i => (me n).stronglyMeasurable)
        (fun i => ((h.result n 0).mono (past.le _) le_rfl).stronglyMeasurable)
        (fun i ω => (abs_of_nonneg (hk0 n)).le)
        (fun i ω => by rw [abs_of_pos (sigmoid_pos _)]; exact (sigmoid_lt_one _).le)
        (fun i ω => Glicko.points_abs _) fun i => ?_
      have := h.truthful n 0
      simpa only [hf] using this
    · intro n ω
      rw [← sq_abs]
      exact pow_le_pow_left₀ (abs_nonneg _) (hmove n ω) 2
    · intro n ω
      rw [abs_of_nonneg (sq_nonneg _)]
      exact pow_le_pow_left₀ (hk0 n) (by linarith [hkK n, abs_nonneg r0]) 2
    · intro n ω
      have := mul_nonneg (hk0 n) (hpull n ω)
      linarith
    · exact fun n ω => hk2.sum_le_tsum _ fun j _ => sq_nonneg _
  refine hd.tendsto k hk0 hk1 fun ε hε => ?_
  have hs := sigmoid_pos (-(α * D))
  have he : Real.exp (-(α * ε)) < 1 := Real.exp_lt_one_iff.2 (neg_lt_zero.2 (by positivity))
  have he' : 0 < 1 - Real.exp (-(α * ε)) := by linarith
  refine ⟨sigmoid (-(α * D)) ^ 2 * (1 - Real.exp (-(α * ε))) * ε, by positivity, 0,
    fun n ω hx => ?_⟩
  rw [zero_mul, add_zero, mul_comm _ (k n)]
  refine mul_le_mul_of_nonneg_left ?_ (hk0 n)
  exact (mul_le_mul_of_nonneg_left hx (by positivity)).trans
    (logistic_pull hα (h.near n 0 ω) hε.le hx)

/-- If every game moves a number by a fixed share of the difference between a decided result and its
expectation, the number does not settle. -/
theorem restless {x y k : ℕ → ℝ} {o : ℕ → Outcomes} {α κ D : ℝ} (hκ : 0 < κ) (hα : 0 < α)
    (hk : ∀ n, κ ≤ k n) (g : ℕ → ℝ) (hg : ∀ n, 0 ≤ g n ∧ g n ≤ α)
    (hstep : ∀ n, x (n + 1) = x n + k n * (points (o n) - sigmoid (g n * (x n - y n))))
    (hdec : ∀ n, o n ≠ .DRAW) (hD : ∀ n, |y n| ≤ D) (r : ℝ) : ¬ Tendsto x atTop (𝓝 r) := by
  intro h
  obtain ⟨L, hL⟩ := h.abs.bddAbove_range
  have h0 : Tendsto (fun n => |x (n + 1) - x n|) atTop (𝓝 0) := by
    have := ((h.comp (tendsto_add_atTop_nat 1)).sub h).abs
    simpa using this
  have hs := sigmoid_pos (-(α * (L + D)))
  have hge : ∀ n, κ * sigmoid (-(α * (L + D))) ≤ |x (n + 1) - x n| := by
    intro n
    have h1 : |x n| ≤ L := hL ⟨n, rfl⟩
    have h2 : |g n * (x n - y n)| ≤ α * (L + D) := by
      rw [abs_mul, abs_of_nonneg (hg n).1]
      have := abs_sub (x n) (y n)
      exact mul_le_mul (hg n).2 (by linarith [hD n]) (abs_nonneg _) hα.le
    obtain ⟨h3, h4⟩ := abs_le.1 h2
    rw [hstep, add_sub_cancel_left, abs_mul, abs_of_pos (hκ.trans_le (hk n))]
    refine mul_le_mul (hk n) ?_ hs.le (hκ.trans_le (hk n)).le
    have h5 : sigmoid (-(α * (L + D))) ≤ sigmoid (g n * (x n - y n)) := Real.sigmoid_monotone h3
    have h6 : sigmoid (-(α * (L + D))) ≤ 1 - sigmoid (g n * (x n - y n)) := by
      rw [← Real.sigmoid_neg]; exact Real.sigmoid_monotone (by linarith)
    cases ho : o n
    · simp only [points]
      exact h6.trans (le_abs_self _)
    · simp only [points]
      rw [zero_sub, abs_neg]
      exact h5.trans (le_abs_self _)
    · exact absurd ho (hdec n)
  have := ge_of_tendsto' h0 hge
  have h7 : 0 < κ * sigmoid (-(α * (L + D))) := by positivity
  linarith

end Skillratings
