import Verif.Proofs.FadingWalk
import Verif.Proofs.WlStable
/-
Helper lemmas for C144: a walk that is pulled back by the logistic function forgets where it began.
-/
namespace Skillratings
open Filter
open Real (sigmoid sigmoid_pos sigmoid_lt_one sigmoid_neg)
open scoped Topology

/-- The slope of the logistic function away from 0. -/
theorem slope_ge {w W : ℝ} (h : |w| ≤ W) :
    sigmoid W * (1 - sigmoid W) ≤ sigmoid w * (1 - sigmoid w) := by
  have h1 : sigmoid w ≤ sigmoid W := Real.sigmoid_monotone (le_of_abs_le h)
  have h2 : 1 - sigmoid W ≤ sigmoid w := by
    rw [← sigmoid_neg]; exact Real.sigmoid_monotone (neg_le_of_abs_le h)
  nlinarith

variable {x x' y s : ℕ → ℝ} {k α D : ℝ}

/-- Two players with the same games: the order stays and the gap does not grow. -/
theorem gap_step {a a' b t : ℝ} (hα : 0 ≤ α) (hk : 0 ≤ k) (hkα : k * α ≤ 4) (h : a' ≤ a) :
    0 ≤ (a + k * (t - sigmoid (α * (a - b)))) - (a' + k * (t - sigmoid (α * (a' - b)))) ∧
    (a + k * (t - sigmoid (α * (a - b)))) - (a' + k * (t - sigmoid (α * (a' - b)))) ≤ a - a' := by
  have h1 := WengLin.sigmoid_lip (α * (a - b)) (α * (a' - b))
  have h2 : sigmoid (α * (a' - b)) ≤ sigmoid (α * (a - b)) :=
    Real.sigmoid_monotone (mul_le_mul_of_nonneg_left (by linarith) hα)
  have e : α * (a - b) - α * (a' - b) = α * (a - a') := by ring
  rw [e, abs_of_nonneg (sub_nonneg.2 h2), abs_of_nonneg (mul_nonneg hα (sub_nonneg.2 h))] at h1
  have h3 := mul_le_mul_of_nonneg_left h1 hk
  have h4 := mul_nonneg hk (sub_nonneg.2 h2)
  have h5 := mul_le_mul_of_nonneg_right hkα (sub_nonneg.2 h)
  constructor <;> nlinarith

theorem ordered (hα : 0 ≤ α) (hk : 0 ≤ k) (hkα : k * α ≤ 4)
    (hx : ∀ n, x (n + 1) = x n + k * (s n - sigmoid (α * (x n - y n))))
    (hx' : ∀ n, x' (n + 1) = x' n + k * (s n - sigmoid (α * (x' n - y n)))) (h0 : x' 0 ≤ x 0)
    (n : ℕ) : x' n ≤ x n ∧ x (n + 1) - x' (n + 1) ≤ x n - x' n := by
  have key : ∀ n, x' n ≤ x n := by
    intro n
    induction n with
    | zero => exact h0
    | succ n ih =>
      have := (gap_step (b := y n) (t := s n) hα hk hkα ih).1
      rw [hx, hx']; linarith
  refine ⟨key n, ?_⟩
  rw [hx, hx']
  exact (gap_step hα hk hkα (key n)).2

theorem forget_ordered (hα : 0 < α) (hk : 0 < k) (hkα : k * α ≤ 4) (hD : ∀ n, |y n| ≤ D)
    (hs : ∀ n, 0 ≤ s n ∧ s n ≤ 1)
    (hx : ∀ n, x (n + 1) = x n + k * (s n - sigmoid (α * (x n - y n))))
    (hx' : ∀ n, x' (n + 1) = x' n + k * (s n - sigmoid (α * (x' n - y n)))) (h0 : x' 0 ≤ x 0) :
    Tendsto (fun n => x n - x' n) atTop (𝓝 0) := by
  have hord := ordered hα.le hk.le hkα hx hx' h0
  set g : ℕ → ℝ := fun n => x n - x' n with hg
  have hg0 : ∀ n, 0 ≤ g n := fun n => sub_nonneg.2 (hord n).1
  have hanti : Antitone g := antitone_nat_of_succ_le fun n => (hord n).2
  have hlim := tendsto_atTop_ciInf hanti ⟨0, by rintro _ ⟨n, rfl⟩; exact hg0 n⟩
  set G := ⨅ n, g n with hG
  have hGle : ∀ n, G ≤ g n := fun n => hanti.le_of_tendsto hlim n
  have hG0 : 0 ≤ G := ge_of_tendsto' hlim hg0
  rcases hG0.eq_or_lt with h | hGpos
  · rwa [← h] at hlim
  exfalso
  have hD0 : 0 ≤ D := (abs_nonneg _).trans (hD 0)
  set p : ℕ → ℝ := fun n => sigmoid (α * (x n - y n)) with hp
  set c := 1 - Real.exp (-(α * G)) with hc
  have hc0 : 0 < c := by
    have : Real.exp (-(α * G)) < 1 := by
      rw [← Real.exp_zero]; exact Real.exp_lt_exp.2 (by have := mul_pos hα hGpos; linarith)
    linarith
  -- the decrease of the gap
  have hdec : ∀ n, k * c * (p n * (1 - p n)) ≤ g n - g (n + 1) := by
    intro n
    have e : g n - g (n + 1)
        = k * (sigmoid (α * (x n - y n)) - sigmoid (α * (x' n - y n))) := by
      simp only [hg]; rw [hx, hx']; ring
    rw [e, sigmoid_sub, mul_assoc]
    refine mul_le_mul_of_nonneg_left ?_ hk.le
    have h1 : sigmoid (α * (x' n - y n)) ≤ p n :=
      Real.sigmoid_monotone (mul_le_mul_of_nonneg_left (by linarith [(hord n).1]) hα.le)
    have h2 : 0 < p n := sigmoid_pos _
    have h3 : p n < 1 := sigmoid_lt_one _
    have h4 : c ≤ 1 - Real.exp (α * (x' n - y n) - α * (x n - y n)) := by
      have : α * G ≤ α * (x n - y n) - α * (x' n - y n) := by
        have := mul_le_mul_of_nonneg_left (hGle n) hα.le
        simp only [hg] at this
        linarith
      have := Real.exp_le_exp.2
        (by linarith : α * (x' n - y n) - α * (x n - y n) ≤ -(α * G))
      linarith
    calc c * (p n * (1 - p n)) = p n * (1 - p n) * c := by ring
      _ ≤ p n * (1 - sigmoid (α * (x' n - y n))) * c := by gcongr
      _ ≤ _ := by
        refine mul_le_mul_of_nonneg_left h4 (mul_nonneg h2.le ?_)
        linarith
  have hkc : 0 < k * c := mul_pos hk hc0
  have hdec0 : Tendsto (fun n => g n - g (n + 1)) atTop (𝓝 0) := by
    have := hlim.sub (hlim.comp (tendsto_add_atTop_nat 1))
    simpa using this
  -- so the rating leaves every bounded region
  have hleave : ∀ M : ℝ, ∃ N, ∀ n, N ≤ n → M < |x n| := by
    intro M
    set W := α * (M + D) with hW
    have hw : 0 < k * c * (sigmoid W * (1 - sigmoid W)) :=
      mul_pos hkc (mul_pos (sigmoid_pos _) (sub_pos.2 (sigmoid_lt_one _)))
    obtain ⟨N, hN⟩ := eventually_atTop.1 (hdec0.eventually_lt_const hw)
    refine ⟨N, fun n hn => ?_⟩
    by_contra h
    have h1 : |α * (x n - y n)| ≤ W := by
      rw [abs_mul, abs_of_pos hα]
      exact mul_le_mul_of_nonneg_left ((abs_sub _ _).trans (add_le_add (not_lt.1 h) (hD n))) hα.le
    have h2 := mul_le_mul_of_nonneg_left (slope_ge h1) hkc.le
    have h3 := hN n hn
    have h4 := hdec n
    simp only [hp] at h4
    linarith
  have hstep : ∀ n, |x (n + 1) - x n| ≤ k := by
    intro n
    have h1 := sigmoid_pos (α * (x n - y n))
    have h2 := sigmoid_lt_one (α * (x n - y n))
    rw [hx, add_sub_cancel_left, abs_mul, abs_of_pos hk]
    refine mul_le_of_le_one_right hk.le (abs_le.2 ⟨?_, ?_⟩) <;> linarith [(hs n).1, (hs n).2]
  obtain ⟨N, hN⟩ := hleave (D + k)
  -- but it cannot go far on one side
  rcases le_or_gt 0 (x N) with hpos | hneg
  · have hside : ∀ n, D + k < x (N + n) := by
      intro n
      induction n with
      | zero => have := hN N le_rfl; rwa [abs_of_nonneg hpos] at this
      | succ n ih =>
        have h1 := neg_le_of_abs_le (hstep (N + n))
        have h2 := hN (N + n + 1) (by omega)
        rwa [abs_of_nonneg (by linarith)] at h2
    have hmono : ∀ n, x (N + n) + 2 / c * g (N + n) ≤ x N + 2 / c * g N := by
      intro n
      induction n with
      | zero => exact le_rfl
      | succ n ih =>
        refine le_trans ?_ ih
        have h1 : 1 / 2 ≤ p (N + n) := by
          rw [one_div, ← Real.sigmoid_zero]
          refine Real.sigmoid_monotone (mul_nonneg hα.le ?_)
          linarith [hside n, le_of_abs_le (hD (N + n))]
        have h2 : p (N + n) < 1 := sigmoid_lt_one _
        have h3 : x (N + n + 1) - x (N + n) ≤ k * (1 - p (N + n)) := by
          rw [hx, add_sub_cancel_left]
          exact mul_le_mul_of_nonneg_left (by linarith [(hs (N + n)).2]) hk.le
        have h4 : k * (1 - p (N + n)) ≤ 2 / c * (g (N + n) - g (N + n + 1)) := by
          rw [div_mul_eq_mul_div, le_div_iff₀ hc0]
          have h5 := hdec (N + n)
          have h6 : 0 ≤ k * c * (1 - p (N + n)) := mul_nonneg hkc.le (by linarith)
          nlinarith
        rw [← add_assoc]
        linarith
    obtain ⟨K, hK⟩ := hleave (x N + 2 / c * g N)
    have h1 := hK (N + K) (by omega)
    have h2 := hmono K
    have h3 := mul_nonneg (by positivity : 0 ≤ 2 / c) (hg0 (N + K))
    rw [abs_of_pos (by linarith [hside K])] at h1
    linarith
  · have hside : ∀ n, x (N + n) < -(D + k) := by
      intro n
      induction n with
      | zero => have := hN N le_rfl; rw [abs_of_neg hneg] at this; rw [add_zero]; linarith
      | succ n ih =>
        have h1 := le_of_abs_le (hstep (N + n))
        have h2 := hN (N + n + 1) (by omega)
        rw [abs_of_nonpos (by linarith)] at h2
        rw [← add_assoc]
        linarith
    have hmono : ∀ n, -x (N + n) + 2 / c * g (N + n) ≤ -x N + 2 / c * g N := by
      intro n
      induction n with
      | zero => exact le_rfl
      | succ n ih =>
        refine le_trans ?_ ih
        have h1 : p (N + n) ≤ 1 / 2 := by
          rw [one_div, ← Real.sigmoid_zero]
          refine Real.sigmoid_monotone (mul_nonpos_of_nonneg_of_nonpos hα.le ?_)
          linarith [hside n, neg_le_of_abs_le (hD (N + n))]
        have h2 : 0 < p (N + n) := sigmoid_pos _
        have h3 : x (N + n) - x (N + n + 1) ≤ k * p (N + n) := by
          rw [hx, sub_add_cancel_left, ← mul_neg]
          exact mul_le_mul_of_nonneg_left (by linarith [(hs (N + n)).1]) hk.le
        have h4 : k * p (N + n) ≤ 2 / c * (g (N + n) - g (N + n + 1)) := by
          rw [div_mul_eq_mul_div, le_div_iff₀ hc0]
          have h5 := hdec (N + n)
          have h6 : 0 ≤ k * c * p (N + n) := mul_nonneg hkc.le h2.le
          nlinarith
        rw [← add_assoc]
        linarith
    obtain ⟨K, hK⟩ := hleave (-x N + 2 / c * g N)
    have h1 := hK (N + K) (by omega)
    have h2 := hmono K
    have h3 := mul_nonneg (by positivity : 0 ≤ 2 / c) (hg0 (N + K))
    rw [abs_of_neg (by linarith [hside K])] at h1
    linarith

/-- Two players with the same games: the gap never grows. -/
theorem gap_antitone (hα : 0 ≤ α) (hk : 0 ≤ k) (hkα : k * α ≤ 4)
    (hx : ∀ n, x (n + 1) = x n + k * (s n - sigmoid (α * (x n - y n))))
    (hx' : ∀ n, x' (n + 1) = x' n + k * (s n - sigmoid (α * (x' n - y n)))) (n : ℕ) :
    |x (n + 1) - x' (n + 1)| ≤ |x n - x' n| := by
  rcases le_total (x' n) (x n) with h | h
  · have := gap_step (b := y n) (t := s n) hα hk hkα h
    rw [← hx, ← hx'] at this
    rw [abs_of_nonneg this.1, abs_of_nonneg (sub_nonneg.2 h)]
    exact this.2
  · have := gap_step (b := y n) (t := s n) hα hk hkα h
    rw [← hx, ← hx'] at this
    rw [abs_sub_comm, abs_sub_comm (x n), abs_of_nonneg this.1, abs_of_nonneg (sub_nonneg.2 h)]
    exact this.2

/-- Two players with the same games: the gap tends to 0. -/
theorem forget (hα : 0 < α) (hk : 0 < k) (hkα : k * α ≤ 4) (hD : ∀ n, |y n| ≤ D)
    (hs : ∀ n, 0 ≤ s n ∧ s n ≤ 1)
    (hx : ∀ n, x (n + 1) = x n + k * (s n - sigmoid (α * (x n - y n))))
    (hx' : ∀ n, x' (n + 1) = x' n + k * (s n - sigmoid (α * (x' n - y n)))) :
    Tendsto (fun n => x n - x' n) atTop (𝓝 0) := by
  rcases le_total (x' 0) (x 0) with h | h
  · exact forget_ordered hα hk hkα hD hs hx hx' h
  · have := (forget_ordered hα hk hkα hD hs hx' hx h).neg
    simpa using this

end Skillratings
