import Mathlib.Topology.Order.MonotoneConvergence
import Mathlib.Topology.Order.IntermediateValue
import Mathlib.Analysis.SpecificLimits.Basic
import Mathlib.Analysis.PSeries
import Verif.Proofs.Logistic
/-
Sequences of ratings in the long run.
-/
namespace Skillratings
open Filter Topology Real

/-- A sequence whose steps are at least a positive antitone function of its value leaves every
bound. -/
theorem climbs {x : ℕ → ℝ} {h : ℝ → ℝ} (hh : Antitone h) (hp : ∀ y, 0 < h y)
    (hx : ∀ n, x n + h (x n) ≤ x (n + 1)) : Tendsto x atTop atTop := by
  have hm : Monotone x := monotone_nat_of_le_succ fun n => by
    have := hp (x n); have := hx n; linarith
  apply tendsto_atTop_atTop_of_monotone hm
  intro b
  by_contra hb
  push Not at hb
  have hlin : ∀ n : ℕ, x 0 + n * h b ≤ x n := by
    intro n
    induction n with
    | zero => simp
    | succ n ih =>
      have h1 := hx n
      have h2 := hh (hb n).le
      push_cast
      linarith
  obtain ⟨n, hn⟩ := exists_nat_gt ((b - x 0) / h b)
  have h1 := hlin n
  have h2 := hb n
  rw [div_lt_iff₀ (hp b)] at hn
  linarith

/-- Steps that get smaller with time like `1/n` are still enough. -/
theorem climbs_slow {x : ℕ → ℝ} {h : ℝ → ℝ} {α β : ℝ} (hα : 0 < α) (hβ : 0 ≤ β)
    (hh : Antitone h) (hp : ∀ y, 0 < h y)
    (hx : ∀ n : ℕ, x n + h (x n) / (α + n * β) ≤ x (n + 1)) : Tendsto x atTop atTop := by
  have hd : ∀ n : ℕ, 0 < α + n * β := fun n => by positivity
  have hm : Monotone x := monotone_nat_of_le_succ fun n => by
    have := div_pos (hp (x n)) (hd n); have := hx n; linarith
  apply tendsto_atTop_atTop_of_monotone hm
  intro b
  by_contra hb
  push Not at hb
  have hlin : ∀ n : ℕ, x 0 + h b / (α + β) * ∑ i ∈ Finset.range n, 1 / ((i : ℝ) + 1) ≤ x n := by
    intro n
    induction n with
    | zero => simp
    | succ n ih =>
      have h1 := hx n
      have h2 : h b / (α + β) * (1 / ((n : ℝ) + 1)) ≤ h (x n) / (α + n * β) := by
        rw [div_mul_div_comm, mul_one]
        refine div_le_div₀ (hp _).le (hh (hb n).le) (hd n) ?_
        have : 0 ≤ α * n := by positivity
        linarith
      rw [Finset.sum_range_succ, mul_add]
      linarith
  have ht := (tendsto_sum_range_one_div_nat_succ_atTop).const_mul_atTop
    (div_pos (hp b) (by linarith : 0 < α + β))
  obtain ⟨n, hn⟩ := (ht.eventually_gt_atTop (b - x 0)).exists
  have h1 := hlin n
  have h2 := hb n
  linarith

theorem falls {x : ℕ → ℝ} {h : ℝ → ℝ} (hh : Monotone h) (hp : ∀ y, 0 < h y)
    (hx : ∀ n, x (n + 1) ≤ x n - h (x n)) : Tendsto x atTop atBot := by
  have := climbs (x := fun n => -x n) (h := fun y => h (-y)) (fun a b hab => hh (neg_le_neg hab))
    (fun y => hp _) (fun n => by have := hx n; simp only [neg_neg]; linarith)
  exact tendsto_neg_atTop_iff.1 this

/-- Falling towards a floor by steps that do not become small reaches the floor. -/
theorem reaches_floor {x : ℕ → ℝ} {f : ℝ} {h : ℝ} (hp : 0 < h)
    (hx : ∀ n, x (n + 1) ≤ max (x n - h) f) (hf : ∀ n, f ≤ x n) : ∃ N, ∀ n ≥ N, x n = f := by
  have hlin : ∀ n : ℕ, x n ≤ max (x 0 - n * h) f := by
    intro n
    induction n with
    | zero => simp
    | succ n ih =>
      refine (hx n).trans (max_le ?_ (le_max_right _ _))
      rcases le_total (x 0 - n * h) f with h1 | h1
      · rw [max_eq_right h1] at ih
        exact le_max_of_le_right (by linarith)
      · rw [max_eq_left h1] at ih
        refine le_max_of_le_left ?_
        push_cast; linarith
  obtain ⟨N, hN⟩ := exists_nat_gt ((x 0 - f) / h)
  refine ⟨N, fun n hn => le_antisymm ((hlin n).trans (max_le ?_ le_rfl)) (hf n)⟩
  rw [div_lt_iff₀ hp] at hN
  have : (N : ℝ) * h ≤ n * h := by
    have : (N : ℝ) ≤ n := by exact_mod_cast hn
    exact mul_le_mul_of_nonneg_right this hp.le
  linarith

/-- A continuous odd step that brings every number closer to zero ends at zero. -/
theorem contracts {f : ℝ → ℝ} (hc : Continuous f) (hodd : ∀ x, f (-x) = -f x)
    (hlt : ∀ x, 0 < x → |f x| < x) {x : ℕ → ℝ} (hx : ∀ n, x (n + 1) = f (x n)) :
    Tendsto x atTop (𝓝 0) := by
  have h0 : f 0 = 0 := by have := hodd 0; rw [neg_zero] at this; linarith
  have habs : ∀ y, |f y| = |f (|y|)| := by
    intro y
    rcases abs_cases y with ⟨h, -⟩ | ⟨h, -⟩
    · rw [h]
    · rw [h, hodd, abs_neg]
  have hle : ∀ y, |f y| ≤ |y| := by
    intro y
    rw [habs]
    rcases (abs_nonneg y).eq_or_lt with h | h
    · rw [← h, h0, abs_zero]
    · exact (hlt _ h).le
  have hanti : Antitone fun n => |x n| := antitone_nat_of_succ_le fun n => by
    rw [hx]; exact hle _
  have hlim := tendsto_atTop_ciInf hanti ⟨0, by rintro _ ⟨n, rfl⟩; exact abs_nonneg _⟩
  set l := ⨅ n, |x n|
  have h1 : Tendsto (fun n => |f (|x n|)|) atTop (𝓝 |f l|) :=
    ((hc.abs).tendsto l).comp hlim
  have h2 : Tendsto (fun n => |f (|x n|)|) atTop (𝓝 l) := by
    have : (fun n => |f (|x n|)|) = fun n => |x (n + 1)| := by
      funext n; rw [hx, ← habs]
    rw [this]
    exact hlim.comp (tendsto_add_atTop_nat 1)
  have hfix := tendsto_nhds_unique h1 h2
  have hl : l = 0 := by
    have hl0 : 0 ≤ l := ge_of_tendsto' hlim fun n => abs_nonneg _
    rcases hl0.eq_or_lt with h | h
    · exact h.symm
    · exact absurd hfix (hlt l h).ne
  rw [hl] at hlim
  exact (tendsto_zero_iff_abs_tendsto_zero _).2 hlim

/-- The step of the difference of two ratings after a draw. -/
theorem drawn_step {k a : ℝ} (hk : 0 < k) (ha : 0 < a) (hka : k * a < 4) {x : ℝ} (hx : 0 < x) :
    |x + 2 * k * (1 / 2 - sigmoid (a * x))| < x := by
  have h1 := sigmoid_sub_half_le (mul_pos ha hx).le
  have h2 : 1 / 2 < sigmoid (a * x) := by
    have := sigmoid_strictMono (mul_pos ha hx)
    rwa [sigmoid_zero, ← one_div] at this
  rw [abs_lt]
  constructor
  · have : k * (sigmoid (a * x) - 1 / 2) < x := by
      calc k * (sigmoid (a * x) - 1 / 2) ≤ k * (a * x / 4) := mul_le_mul_of_nonneg_left h1 hk.le
        _ = k * a * (x / 4) := by ring
        _ < 4 * (x / 4) := mul_lt_mul_of_pos_right hka (by linarith)
        _ = x := by ring
    linarith
  · have := mul_pos hk (sub_pos.2 h2)
    linarith

theorem drawn_tendsto {k a : ℝ} (hk : 0 < k) (ha : 0 < a) (hka : k * a < 4) {x : ℕ → ℝ}
    (hx : ∀ n, x (n + 1) = x n + 2 * k * (1 / 2 - sigmoid (a * x n))) :
    Tendsto x atTop (𝓝 0) := by
  refine contracts (f := fun x => x + 2 * k * (1 / 2 - sigmoid (a * x))) ?_ ?_ ?_ hx
  · have := continuous_sigmoid
    fun_prop
  · intro x
    rw [mul_neg, sigmoid_neg]; ring
  · intro x hx
    exact drawn_step hk ha hka hx

/-- With larger steps there is a difference that a draw turns around. -/
theorem drawn_turn {k a : ℝ} (ha : 0 < a) (hka : 4 < k * a) :
    ∃ x, 0 < x ∧ x + 2 * k * (1 / 2 - sigmoid (a * x)) = -x := by
  set g : ℝ → ℝ := fun x => k * (sigmoid (a * x) - 1 / 2) - x with hg
  have hc : Continuous g := by
    have := continuous_sigmoid
    fun_prop
  have hk : 0 < k := by
    by_contra h
    have : k * a ≤ 0 := mul_nonpos_of_nonpos_of_nonneg (not_lt.1 h) ha.le
    linarith
  have hd : HasDerivAt g (k * (a / 4) - 1) 0 := by
    have h1 : HasDerivAt sigmoid (sigmoid (a * 0) * (1 - sigmoid (a * 0))) (a * 0) :=
      hasDerivAt_sigmoid _
    have h2 : HasDerivAt (fun x : ℝ => a * x) a 0 := by
      simpa using (hasDerivAt_id (0 : ℝ)).const_mul a
    have h3 := ((h1.comp (0 : ℝ) h2).sub_const (1 / 2)).const_mul k |>.sub (hasDerivAt_id (0 : ℝ))
    rw [mul_zero, sigmoid_zero] at h3
    refine h3.congr_deriv ?_
    ring
  have hev : ∀ᶠ x in 𝓝[>] (0 : ℝ), 0 < slope g 0 x :=
    (hd.tendsto_slope.mono_left (nhdsWithin_mono _ fun x hx => ne_of_gt hx)).eventually
      (lt_mem_nhds (by linarith))
  obtain ⟨x₀, hs, hx₀⟩ := (hev.and self_mem_nhdsWithin).exists
  have hx₀ : 0 < x₀ := hx₀
  have hg0 : g 0 = 0 := by simp [hg]
  have hpos : 0 < g x₀ := by
    rw [slope_def_field, hg0, sub_zero, sub_zero] at hs
    exact (div_pos_iff_of_pos_right hx₀).1 hs
  have hneg : g (x₀ + k) < 0 := by
    have := sigmoid_lt_one (a * (x₀ + k))
    have : k * (sigmoid (a * (x₀ + k)) - 1 / 2) < k * 1 := mul_lt_mul_of_pos_left (by linarith) hk
    simp only [hg]
    linarith
  obtain ⟨x, hx, hx0⟩ := intermediate_value_Icc' (show x₀ ≤ x₀ + k by linarith) hc.continuousOn
    (show (0 : ℝ) ∈ Set.Icc (g (x₀ + k)) (g x₀) from ⟨hneg.le, hpos.le⟩)
  refine ⟨x, lt_of_lt_of_le hx₀ hx.1, ?_⟩
  simp only [hg] at hx0
  linarith

end Skillratings
