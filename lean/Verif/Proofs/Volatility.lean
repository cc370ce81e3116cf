import Verif.Proofs.Glicko2
import Verif.Proofs.Illinois
/-
The new volatility of Glicko-2 stays between the ends of the initial bracket.
-/
namespace Skillratings.Glicko2
open Real Spec Set

theorem Inv.step_mem {f : ℝ → ℝ} {s : VolState ℝ} (h : Inv f s) (hne : s.a ≠ s.b) {l u : ℝ}
    (ha : s.a ∈ Icc l u) (hb : s.b ∈ Icc l u) :
    (volStep f s).a ∈ Icc l u ∧ (volStep f s).b ∈ Icc l u := by
  have hc : chord s ∈ Icc l u := by
    rcases h.sign.lt_or_eq with hlt | heq
    · obtain ⟨-, -, h1, h2⟩ := chord_facts hlt
      rcases lt_or_gt_of_ne hne with hab | hab
      · have := h1 hab; exact ⟨ha.1.trans this.1.le, this.2.le.trans hb.2⟩
      · have := h2 hab; exact ⟨hb.1.trans this.1.le, this.2.le.trans ha.2⟩
    · rcases mul_eq_zero.1 heq with h0 | h0
      · have : chord s = s.a := by rw [chord, h0]; simp
        rw [this]; exact ha
      · have hfa : s.fa ≠ 0 := fun h1 => hne (h.zero h1 h0)
        have : chord s = s.b := by
          rw [chord, h0, zero_sub, div_neg, mul_div_cancel_right₀ _ hfa]; ring
        rw [this]; exact hb
  rcases le_or_gt (f (chord s) * s.fb) 0 with hs | hs
  · rw [volStep_switch f hs]; exact ⟨hb, hc⟩
  · rw [volStep_stay f hs]; exact ⟨ha, hc⟩

theorem volLoop_mem {f : ℝ → ℝ} {tol : ℝ} (htol : 0 ≤ tol) {s t : VolState ℝ}
    (h : volLoop f tol s = some t) (hs : Inv f s) {l u : ℝ} (ha : s.a ∈ Icc l u)
    (hb : s.b ∈ Icc l u) : t.a ∈ Icc l u := by
  refine volLoop.partial_correctness f tol
    (fun s t => Inv f s → s.a ∈ Icc l u → s.b ∈ Icc l u → t.a ∈ Icc l u) ?_ s t h hs ha hb
  intro loop ih s t h hs ha hb
  by_cases hc : tol < |s.b - s.a|
  · have hb' : (tol <? Flt.abs (s.b - s.a)) = true := by simp only [flt]; exact hc
    rw [if_pos hb'] at h
    have hne : s.a ≠ s.b := by
      intro he
      rw [he, sub_self, abs_zero] at hc
      linarith
    have hm := hs.step_mem hne ha hb
    exact ih _ _ h (hs.step f hne) hm.1 hm.2
  · have hb' : ¬ (tol <? Flt.abs (s.b - s.a)) = true := by simp only [flt]; exact hc
    rw [if_neg hb'] at h
    cases h
    exact ha

/-- The new squared volatility lies between the old one and `Δ² - φ² - v`; if that is not positive, it
is at most the old one. -/
theorem newVolatility_between {σ Δ φ v τ tol σ' : ℝ} (hσ : σ ≠ 0) (hv : 0 < v) (hτ : 0 < τ)
    (h : newVolatility σ (Δ ^ 2) (φ ^ 2) v τ tol = some σ') :
    (σ ^ 2 ≤ Δ ^ 2 - φ ^ 2 - v → σ ^ 2 ≤ σ' ^ 2 ∧ σ' ^ 2 ≤ Δ ^ 2 - φ ^ 2 - v) ∧
    (Δ ^ 2 - φ ^ 2 - v ≤ σ ^ 2 → Δ ^ 2 - φ ^ 2 - v ≤ σ' ^ 2 ∧ σ' ^ 2 ≤ σ ^ 2) := by
  rw [newVolatility_real] at h
  obtain ⟨b, hb, h⟩ := Option.bind_eq_some_iff.1 h
  obtain ⟨s, hs, rfl⟩ := Option.map_eq_some_iff.1 h
  have hσ2 : 0 < σ ^ 2 := by positivity
  rcases lt_or_ge tol 0 with ht | ht
  · rw [volLoop_negative _ ht] at hs
    cases hs
  have hinv := start_inv hv hτ hb
  have e : exp (s.a / 2) ^ 2 = exp s.a := by rw [← Real.exp_nat_mul]; congr 1; push_cast; ring
  rw [e]
  rw [secondEnd] at hb
  split_ifs at hb with hc
  · cases hb
    have hD : 0 < Δ ^ 2 - φ ^ 2 - v := by linarith
    constructor
    · intro hle
      have hm : log (σ ^ 2) ≤ log (Δ ^ 2 - φ ^ 2 - v) := Real.log_le_log hσ2 hle
      have := volLoop_mem (l := log (σ ^ 2)) (u := log (Δ ^ 2 - φ ^ 2 - v)) ht hs hinv
        ⟨le_rfl, hm⟩ ⟨hm, le_rfl⟩
      exact ⟨(Real.log_le_iff_le_exp hσ2).1 this.1, (Real.le_log_iff_exp_le hD).1 this.2⟩
    · intro hle
      have hm : log (Δ ^ 2 - φ ^ 2 - v) ≤ log (σ ^ 2) := Real.log_le_log hD hle
      have := volLoop_mem (u := log (σ ^ 2)) (l := log (Δ ^ 2 - φ ^ 2 - v)) ht hs hinv
        ⟨hm, le_rfl⟩ ⟨le_rfl, hm⟩
      exact ⟨(Real.log_le_iff_le_exp hD).1 this.1, (Real.le_log_iff_exp_le hσ2).1 this.2⟩
  · obtain ⟨k, hk, rfl⟩ := Option.map_eq_some_iff.1 hb
    have hk' := (kLoop_spec hk).2
    have hm : k * -τ + log (σ ^ 2) ≤ log (σ ^ 2) := by nlinarith
    have := volLoop_mem (u := log (σ ^ 2)) (l := k * -τ + log (σ ^ 2)) ht hs hinv
      ⟨hm, le_rfl⟩ ⟨le_rfl, hm⟩
    have h2 := (Real.le_log_iff_exp_le hσ2).1 this.2
    push Not at hc
    have h3 := Real.exp_pos s.a
    refine ⟨fun hle => absurd hle (not_le.2 (by linarith)), fun _ => ⟨by linarith, h2⟩⟩

/-- Zeros of Glickman's function are not far from the old value. -/
theorem zero_bounds {Δ φ v σ τ x : ℝ} (hv : 0 < v) (hτ : 0 < τ) (hx : glicko2F Δ φ v σ τ x = 0) :
    log (σ ^ 2) - τ ^ 2 / 2 ≤ x ∧
    x ≤ log (σ ^ 2) + τ ^ 2 * max (Δ ^ 2 / (φ ^ 2 + v) - 1) 0 / 8 := by
  set S := φ ^ 2 + v with hS
  have hS0 : 0 < S := by positivity
  set y := exp x with hy
  have hy0 : 0 < y := Real.exp_pos x
  have hτ2 : 0 < τ ^ 2 := by positivity
  rw [glicko2F, ← hy, ← hS, sub_eq_zero] at hx
  have e : x = log (σ ^ 2) + τ ^ 2 * (y * (Δ ^ 2 - φ ^ 2 - v - y) / (2 * (S + y) ^ 2)) := by
    rw [hx]; field_simp; ring
  have e2 : Δ ^ 2 - φ ^ 2 - v = Δ ^ 2 - S := by rw [hS]; ring
  rw [e2] at e
  have l1 : -(1 / 2) ≤ y * (Δ ^ 2 - S - y) / (2 * (S + y) ^ 2) := by
    rw [le_div_iff₀ (by positivity)]
    have : 0 ≤ y * Δ ^ 2 := by positivity
    nlinarith
  have l2 : y * (Δ ^ 2 - S - y) / (2 * (S + y) ^ 2) ≤ max (Δ ^ 2 / S - 1) 0 / 8 := by
    rcases le_total (Δ ^ 2) S with hle | hle
    · have h1 : y * (Δ ^ 2 - S - y) / (2 * (S + y) ^ 2) ≤ 0 :=
        div_nonpos_of_nonpos_of_nonneg (mul_nonpos_of_nonneg_of_nonpos hy0.le (by linarith))
          (by positivity)
      have h2 : 0 ≤ max (Δ ^ 2 / S - 1) 0 / 8 := by positivity
      linarith
    · have h1 : 0 ≤ Δ ^ 2 / S - 1 := by rw [sub_nonneg, le_div_iff₀ hS0]; linarith
      rw [max_eq_left h1, div_le_iff₀ (by positivity)]
      have h3 : Δ ^ 2 - S = (Δ ^ 2 / S - 1) * S := by field_simp
      rw [h3]
      set d := Δ ^ 2 / S - 1
      nlinarith [mul_nonneg h1 (sq_nonneg (S - y)), sq_nonneg y]
  constructor
  · rw [e]; nlinarith
  · rw [e]
    have := mul_le_mul_of_nonneg_left l2 hτ2.le
    linarith

theorem newVolatility_limits {σ Δ φ v τ tol σ' : ℝ} (hσ : σ ≠ 0) (hv : 0 < v) (hτ : 0 < τ)
    (h : newVolatility σ (Δ ^ 2) (φ ^ 2) v τ tol = some σ') :
    σ ^ 2 * exp (-(τ ^ 2 / 2 + tol)) ≤ σ' ^ 2 ∧
    σ' ^ 2 ≤ σ ^ 2 * exp (τ ^ 2 * max (Δ ^ 2 / (φ ^ 2 + v) - 1) 0 / 8 + tol) := by
  obtain ⟨h0, x, hx, hd⟩ := newVolatility_spec hv hτ h
  have hz := zero_bounds hv hτ hx
  have hσ2 : 0 < σ ^ 2 := by positivity
  have hs2 : 0 < σ' ^ 2 := by positivity
  rw [abs_le] at hd
  constructor
  · rw [← Real.exp_log hσ2, ← Real.exp_add, ← Real.exp_log hs2]
    apply Real.exp_le_exp.2
    linarith [hd.1, hz.1]
  · conv_rhs => rw [← Real.exp_log hσ2, ← Real.exp_add]
    rw [← Real.exp_log hs2]
    apply Real.exp_le_exp.2
    linarith [hd.2, hz.2]

end Skillratings.Glicko2
