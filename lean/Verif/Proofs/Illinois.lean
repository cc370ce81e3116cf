import Mathlib.Topology.Order.IntermediateValue
import Mathlib.Topology.Order.MonotoneConvergence
import Mathlib.Analysis.Calculus.Deriv.Basic
import Mathlib.Analysis.Normed.Group.Bounded
import Verif.FltReal
import Verif.Tac
import Verif.Model.Glicko2
/-
The root finder of src/glicko2.rs (the "Illinois" variant of regula falsi), for an arbitrary
continuous function: partial correctness and termination.
-/
namespace Skillratings.Glicko2
open Filter Topology Set

variable (f : ℝ → ℝ)

/-- The point where the chord meets the axis. -/
noncomputable def chord (s : VolState ℝ) : ℝ := s.a + (s.a - s.b) * s.fa / (s.fb - s.fa)

theorem volStep_switch {s : VolState ℝ} (h : f (chord s) * s.fb ≤ 0) :
    volStep f s = ⟨s.b, chord s, s.fb, f (chord s)⟩ := by
  have : (f (chord s) * s.fb <=? (0.0 : ℝ)) = true := by simp only [flt]; exact h
  simp only [chord] at this
  simp only [volStep, this, if_true]
  rfl

theorem volStep_stay {s : VolState ℝ} (h : 0 < f (chord s) * s.fb) :
    volStep f s = ⟨s.a, chord s, s.fa / 2, f (chord s)⟩ := by
  have : (f (chord s) * s.fb <=? (0.0 : ℝ)) = false := by simp only [flt]; exact h
  simp only [chord] at this
  simp only [volStep, this, Flt.lit_2, Bool.false_eq_true, if_false]
  rfl

/-- The loop invariant. -/
structure Inv (s : VolState ℝ) : Prop where
  fb : s.fb = f s.b
  fa : ∃ j : ℕ, s.fa = f s.a / 2 ^ j
  sign : s.fa * s.fb ≤ 0
  zero : s.fa = 0 → s.fb = 0 → s.a = s.b

theorem Inv.step {s : VolState ℝ} (h : Inv f s) (hne : s.a ≠ s.b) : Inv f (volStep f s) := by
  rcases le_or_gt (f (chord s) * s.fb) 0 with hc | hc
  · rw [volStep_switch f hc]
    refine ⟨rfl, ⟨0, by simp [h.fb]⟩, by rw [mul_comm]; exact hc, fun h0 _ => ?_⟩
    change s.fb = 0 at h0
    change s.b = chord s
    have hfa : s.fa ≠ 0 := fun h1 => hne (h.zero h1 h0)
    rw [chord, h0, zero_sub, div_neg, mul_div_cancel_right₀ _ hfa]
    ring
  · rw [volStep_stay f hc]
    obtain ⟨j, hj⟩ := h.fa
    refine ⟨rfl, ⟨j + 1, ?_⟩, ?_, fun _ h1 => ?_⟩
    · change s.fa / 2 = _
      rw [hj, pow_succ, div_div]
    · change s.fa / 2 * f (chord s) ≤ 0
      have hs := h.sign
      by_contra hcon
      push Not at hcon
      have h1 : 0 < s.fb ^ 2 := by
        have : s.fb ≠ 0 := by rintro h0; rw [h0] at hc; simp at hc
        positivity
      have h2 : 0 < (s.fa / 2 * f (chord s)) * s.fb ^ 2 := mul_pos hcon h1
      have h3 : (s.fa * s.fb) * (f (chord s) * s.fb) ≤ 0 :=
        mul_nonpos_of_nonpos_of_nonneg hs hc.le
      nlinarith
    · change f (chord s) = 0 at h1
      rw [h1] at hc; simp at hc

/-- A state that satisfies the invariant brackets a zero. -/
theorem Inv.exists_zero {s : VolState ℝ} (h : Inv f s) (hf : Continuous f) :
    ∃ x ∈ uIcc s.a s.b, f x = 0 := by
  have hsub := intermediate_value_uIcc (a := s.a) (b := s.b) hf.continuousOn
  have h0 : (0 : ℝ) ∈ uIcc (f s.a) (f s.b) := by
    obtain ⟨j, hj⟩ := h.fa
    have hs := h.sign
    rw [h.fb, hj] at hs
    have hp : (0 : ℝ) < 2 ^ j := by positivity
    have : f s.a * f s.b ≤ 0 := by
      have e : f s.a / 2 ^ j * f s.b = (f s.a * f s.b) / 2 ^ j := by ring
      rw [e] at hs
      by_contra hcon
      push Not at hcon
      exact absurd hs (not_le.2 (div_pos hcon hp))
    rw [mem_uIcc]
    rcases mul_nonpos_iff.1 this with ⟨h1, h2⟩ | ⟨h1, h2⟩
    · exact Or.inr ⟨h2, h1⟩
    · exact Or.inl ⟨h1, h2⟩
  obtain ⟨x, hx, hx0⟩ := hsub h0
  exact ⟨x, hx, hx0⟩

/-- Partial correctness of the loop. -/
theorem volLoop_spec {tol : ℝ} (htol : 0 ≤ tol) {s t : VolState ℝ}
    (h : volLoop f tol s = some t) (hs : Inv f s) : Inv f t ∧ |t.b - t.a| ≤ tol := by
  refine volLoop.partial_correctness f tol (fun s t => Inv f s → Inv f t ∧ |t.b - t.a| ≤ tol)
    ?_ s t h hs
  intro loop ih s t h hs
  by_cases hc : tol < |s.b - s.a|
  · have hb : (tol <? Flt.abs (s.b - s.a)) = true := by simp only [flt]; exact hc
    rw [if_pos hb] at h
    apply ih _ _ h
    apply hs.step
    intro he
    rw [he, sub_self, abs_zero] at hc
    linarith
  · have hb : ¬ (tol <? Flt.abs (s.b - s.a)) = true := by simp only [flt]; exact hc
    rw [if_neg hb] at h
    cases h
    exact ⟨hs, not_lt.1 hc⟩

/-- With a negative tolerance the loop never ends. -/
theorem volLoop_negative {tol : ℝ} (htol : tol < 0) (s : VolState ℝ) : volLoop f tol s = none := by
  rw [Option.eq_none_iff_forall_ne_some]
  intro t h
  refine volLoop.partial_correctness f tol (fun _ _ => False) ?_ s t h
  intro loop ih s t h
  have hb : (tol <? Flt.abs (s.b - s.a)) = true := by
    simp only [flt]; exact htol.trans_le (abs_nonneg _)
  rw [if_pos hb] at h
  exact ih _ _ h

/-- If some iterate is narrow enough then the loop returns. -/
theorem volLoop_returns {tol : ℝ} (n : ℕ) (s : VolState ℝ)
    (h : |((volStep f)^[n] s).b - ((volStep f)^[n] s).a| ≤ tol) :
    ∃ t, volLoop f tol s = some t := by
  induction n generalizing s with
  | zero =>
    rw [volLoop, if_neg]
    · exact ⟨s, rfl⟩
    · simp only [flt]; exact not_lt.2 h
  | succ n ih =>
    rw [volLoop]
    split
    · exact ih _ h
    · exact ⟨s, rfl⟩

/-- Near a point where `f` is not zero or leaves zero linearly. -/
theorem near_point {tol : ℝ} (htol : 0 < tol) (hf : Continuous f) (X : ℝ)
    (hroot : f X = 0 → ∃ m > 0, ∀ᶠ y in 𝓝 X, m * |y - X| ≤ |f y|) :
    ∃ μ₀ > 0, ∀ μ, 0 < μ → μ ≤ μ₀ →
      ∀ᶠ y in 𝓝 X, μ ≤ |f y| ∨ (|f y| ≤ μ / 2 ∧ μ * |y - X| ≤ tol * |f y|) := by
  by_cases h0 : f X = 0
  · obtain ⟨m, hm, hev⟩ := hroot h0
    refine ⟨m * tol, by positivity, fun μ hμ hle => ?_⟩
    have hc : ∀ᶠ y in 𝓝 X, |f y| < μ / 2 := by
      have ht : Tendsto (fun y => |f y|) (𝓝 X) (𝓝 |f X|) := hf.abs.tendsto X
      rw [h0, abs_zero] at ht
      exact ht.eventually_lt_const (by linarith)
    filter_upwards [hev, hc] with y h1 h2
    right
    refine ⟨h2.le, ?_⟩
    calc μ * |y - X| ≤ m * tol * |y - X| := by gcongr
      _ = tol * (m * |y - X|) := by ring
      _ ≤ tol * |f y| := by gcongr
  · refine ⟨|f X| / 2, by positivity, fun μ hμ hle => ?_⟩
    have ht : Tendsto (fun y => |f y|) (𝓝 X) (𝓝 |f X|) := hf.abs.tendsto X
    have hpos : 0 < |f X| := abs_pos.2 h0
    filter_upwards [ht.eventually_const_lt (show |f X| / 2 < |f X| by linarith)] with y hy
    left; linarith

/-- Facts about one step of a strict bracket. -/
theorem chord_facts {s : VolState ℝ} (h : s.fa * s.fb < 0) :
    |chord s - s.a| * (|s.fa| + |s.fb|) = |s.b - s.a| * |s.fa| ∧
    |chord s - s.b| * (|s.fa| + |s.fb|) = |s.b - s.a| * |s.fb| ∧
    (s.a < s.b → s.a < chord s ∧ chord s < s.b) ∧
    (s.b < s.a → s.b < chord s ∧ chord s < s.a) := by
  have hd : |s.fb - s.fa| = |s.fa| + |s.fb| := by
    rcases mul_neg_iff.1 h with ⟨h1, h2⟩ | ⟨h1, h2⟩
    · rw [abs_of_neg (by linarith), abs_of_pos h1, abs_of_neg h2]; ring
    · rw [abs_of_pos (by linarith), abs_of_neg h1, abs_of_pos h2]; ring
  have hne : s.fb - s.fa ≠ 0 := by
    rcases mul_neg_iff.1 h with ⟨h1, h2⟩ | ⟨h1, h2⟩
    · exact ne_of_lt (by linarith)
    · exact ne_of_gt (by linarith)
  have e1 : chord s - s.a = (s.a - s.b) * s.fa / (s.fb - s.fa) := by rw [chord]; ring
  have e2 : chord s - s.b = (s.a - s.b) * s.fb / (s.fb - s.fa) := by
    rw [chord]; field_simp; ring
  have r1 : s.fa / (s.fb - s.fa) < 0 := by
    rcases mul_neg_iff.1 h with ⟨h1, h2⟩ | ⟨h1, h2⟩
    · exact div_neg_of_pos_of_neg h1 (by linarith)
    · exact div_neg_of_neg_of_pos h1 (by linarith)
  have r2 : 0 < s.fb / (s.fb - s.fa) := by
    rcases mul_neg_iff.1 h with ⟨h1, h2⟩ | ⟨h1, h2⟩
    · exact div_pos_of_neg_of_neg h2 (by linarith)
    · exact div_pos h2 (by linarith)
  have e1' : chord s - s.a = (s.a - s.b) * (s.fa / (s.fb - s.fa)) := by rw [e1]; ring
  have e2' : chord s - s.b = (s.a - s.b) * (s.fb / (s.fb - s.fa)) := by rw [e2]; ring
  have hpos : (0 : ℝ) < |s.fb - s.fa| := abs_pos.2 hne
  refine ⟨?_, ?_, fun hab => ⟨?_, ?_⟩, fun hab => ⟨?_, ?_⟩⟩
  · rw [e1, abs_div, abs_mul, ← hd, div_mul_cancel₀ _ hpos.ne', abs_sub_comm s.a]
  · rw [e2, abs_div, abs_mul, ← hd, div_mul_cancel₀ _ hpos.ne', abs_sub_comm s.a]
  · have := mul_pos_of_neg_of_neg (show s.a - s.b < 0 by linarith) r1
    linarith
  · have := mul_neg_of_neg_of_pos (show s.a - s.b < 0 by linarith) r2
    linarith
  · have := mul_pos (show 0 < s.a - s.b by linarith) r2
    linarith
  · have := mul_neg_of_pos_of_neg (show 0 < s.a - s.b by linarith) r1
    linarith

/-- Termination: if the function leaves zero at least linearly at each of its zeros in the initial
bracket then the bracket becomes arbitrarily short. -/
theorem illinois_terminates (hf : Continuous f) {tol : ℝ} (htol : 0 < tol) (s : VolState ℝ)
    (hs : Inv f s)
    (hroot : ∀ X ∈ uIcc s.a s.b, f X = 0 → ∃ m > 0, ∀ᶠ y in 𝓝 X, m * |y - X| ≤ |f y|) :
    ∃ n, |((volStep f)^[n] s).b - ((volStep f)^[n] s).a| ≤ tol := by
  by_contra hcon
  push Not at hcon
  set st : ℕ → VolState ℝ := fun n => (volStep f)^[n] s with hst
  have hsucc : ∀ n, st (n + 1) = volStep f (st n) := fun n =>
    Function.iterate_succ_apply' (volStep f) n s
  have hw : ∀ n, tol < |(st n).b - (st n).a| := hcon
  have hne : ∀ n, (st n).a ≠ (st n).b := by
    intro n he
    have := hw n
    rw [he, sub_self, abs_zero] at this
    linarith
  have hinv : ∀ n, Inv f (st n) := by
    intro n
    induction n with
    | zero => exact hs
    | succ n ih => rw [hsucc]; exact ih.step f (hne n)
  -- the second end is never a zero
  have hfb : ∀ n, (st n).fb ≠ 0 := by
    intro n h0
    have hfa : (st n).fa ≠ 0 := fun h1 => hne n ((hinv n).zero h1 h0)
    have hc : chord (st n) = (st n).b := by
      rw [chord, h0, zero_sub, div_neg, mul_div_cancel_right₀ _ hfa]; ring
    have hsw : f (chord (st n)) * (st n).fb ≤ 0 := by rw [h0, mul_zero]
    apply hne (n + 1)
    rw [hsucc, volStep_switch f hsw]
    exact hc.symm
  have hfa : ∀ n, (st n).fa ≠ 0 := by
    intro n h0
    have hc : chord (st n) = (st n).a := by rw [chord, h0]; simp
    have hfc : f (chord (st n)) = 0 := by
      obtain ⟨j, hj⟩ := (hinv n).fa
      rw [hc]
      rw [h0] at hj
      have hp : (2 : ℝ) ^ j ≠ 0 := by positivity
      field_simp at hj
      linarith
    have hsw : f (chord (st n)) * (st n).fb ≤ 0 := by rw [hfc, zero_mul]
    apply hfb (n + 1)
    rw [hsucc, volStep_switch f hsw]
    exact hfc
  have hsign : ∀ n, (st n).fa * (st n).fb < 0 := fun n =>
    lt_of_le_of_ne (hinv n).sign (mul_ne_zero (hfa n) (hfb n))
  -- the two ends
  set lo : ℕ → ℝ := fun n => min (st n).a (st n).b with hlo
  set hi : ℕ → ℝ := fun n => max (st n).a (st n).b with hhi
  have hwid : ∀ n, hi n - lo n = |(st n).b - (st n).a| := by
    intro n
    simp only [hlo, hhi]
    rw [max_sub_min_eq_abs, abs_sub_comm]
  have hmid : ∀ n, lo n < chord (st n) ∧ chord (st n) < hi n := by
    intro n
    have hcf := chord_facts (hsign n)
    rcases lt_or_gt_of_ne (hne n) with h | h
    · simp only [hlo, hhi, min_eq_left h.le, max_eq_right h.le]
      exact hcf.2.2.1 h
    · simp only [hlo, hhi, min_eq_right h.le, max_eq_left h.le]
      exact hcf.2.2.2 h
  have hstep : ∀ n, lo n ≤ lo (n + 1) ∧ hi (n + 1) ≤ hi n := by
    intro n
    have hm := hmid n
    have ha1 : lo n ≤ (st n).a := min_le_left _ _
    have ha2 : (st n).a ≤ hi n := le_max_left _ _
    have hb1 : lo n ≤ (st n).b := min_le_right _ _
    have hb2 : (st n).b ≤ hi n := le_max_right _ _
    rcases le_or_gt (f (chord (st n)) * (st n).fb) 0 with hc | hc
    · have e := volStep_switch f hc
      rw [← hsucc] at e
      constructor
      · change lo n ≤ min (st (n + 1)).a (st (n + 1)).b
        rw [e]; exact le_min hb1 hm.1.le
      · change max (st (n + 1)).a (st (n + 1)).b ≤ hi n
        rw [e]; exact max_le hb2 hm.2.le
    · have e := volStep_stay f hc
      rw [← hsucc] at e
      constructor
      · change lo n ≤ min (st (n + 1)).a (st (n + 1)).b
        rw [e]; exact le_min ha1 hm.1.le
      · change max (st (n + 1)).a (st (n + 1)).b ≤ hi n
        rw [e]; exact max_le ha2 hm.2.le
  have hlom : Monotone lo := monotone_nat_of_le_succ fun n => (hstep n).1
  have hhia : Antitone hi := antitone_nat_of_succ_le fun n => (hstep n).2
  have hlohi : ∀ n, lo n ≤ hi n := fun n => min_le_max
  have hbdd : BddAbove (range lo) := ⟨hi 0, by
    rintro _ ⟨n, rfl⟩; exact (hlohi n).trans (hhia (Nat.zero_le n))⟩
  have hbdd' : BddBelow (range hi) := ⟨lo 0, by
    rintro _ ⟨n, rfl⟩; exact (hlom (Nat.zero_le n)).trans (hlohi n)⟩
  set L := ⨆ n, lo n with hL
  set U := ⨅ n, hi n with hU
  have hLt : Tendsto lo atTop (𝓝 L) := tendsto_atTop_ciSup hlom hbdd
  have hUt : Tendsto hi atTop (𝓝 U) := tendsto_atTop_ciInf hhia hbdd'
  have hloL : ∀ n, lo n ≤ L := fun n => le_ciSup hbdd n
  have hUhi : ∀ n, U ≤ hi n := fun n => ciInf_le hbdd' n
  have hLU : L + tol ≤ U := by
    have h1 : Tendsto (fun n => hi n - lo n) atTop (𝓝 (U - L)) := hUt.sub hLt
    have h2 : tol ≤ U - L := ge_of_tendsto' h1 fun n => by rw [hwid]; exact (hw n).le
    linarith
  have hmem : ∀ x, lo 0 ≤ x → x ≤ hi 0 → x ∈ uIcc s.a s.b := fun x h1 h2 => ⟨h1, h2⟩
  have hLmem : L ∈ uIcc s.a s.b := hmem L (hloL 0) (by linarith [hUhi 0])
  have hUmem : U ∈ uIcc s.a s.b := hmem U (by linarith [hloL 0]) (hUhi 0)
  have hamem : ∀ n, (st n).a ∈ uIcc s.a s.b := fun n =>
    hmem _ ((hlom (Nat.zero_le n)).trans (min_le_left _ _))
      ((le_max_left _ _).trans (hhia (Nat.zero_le n)))
  have hbmem : ∀ n, (st n).b ∈ uIcc s.a s.b := fun n =>
    hmem _ ((hlom (Nat.zero_le n)).trans (min_le_right _ _))
      ((le_max_right _ _).trans (hhia (Nat.zero_le n)))
  obtain ⟨M, hM⟩ := isCompact_uIcc.exists_bound_of_continuousOn
    (hf.continuousOn (s := uIcc s.a s.b))
  have hMb : ∀ n, |(st n).fb| ≤ M := fun n => by
    rw [(hinv n).fb]; exact hM _ (hbmem n)
  have hMa : ∀ n, |(st n).fa| ≤ M := fun n => by
    obtain ⟨j, hj⟩ := (hinv n).fa
    rw [hj, abs_div]
    have h1 : |f (st n).a| ≤ M := hM _ (hamem n)
    have h2 : (1 : ℝ) ≤ |(2 : ℝ) ^ j| := by
      rw [abs_of_pos (by positivity)]; exact one_le_pow₀ (by norm_num)
    exact (div_le_self (abs_nonneg _) h2).trans h1
  have hM0 : 0 < M := (abs_pos.2 (hfb 0)).trans_le (hMb 0)
  obtain ⟨μL, hμL, hnL⟩ := near_point f htol hf L (hroot L hLmem)
  obtain ⟨μU, hμU, hnU⟩ := near_point f htol hf U (hroot U hUmem)
  set μ := min μL μU with hμ
  have hμ0 : 0 < μ := lt_min hμL hμU
  obtain ⟨δL, hδL, hnL⟩ := Metric.eventually_nhds_iff.1 (hnL μ hμ0 (min_le_left _ _))
  obtain ⟨δU, hδU, hnU⟩ := Metric.eventually_nhds_iff.1 (hnU μ hμ0 (min_le_right _ _))
  set η := min (1 / 2) (μ / (8 * M)) with hη
  have hη0 : 0 < η := lt_min (by norm_num) (by positivity)
  have hη1 : η ≤ 1 / 2 := min_le_left _ _
  have hηM : η * M ≤ μ / 8 := by
    have : η ≤ μ / (8 * M) := min_le_right _ _
    calc η * M ≤ μ / (8 * M) * M := by gcongr
      _ = μ / 8 := by field_simp
  set ε := min (η * tol / 2) (min δL δU / 2) with hε
  have hε0 : 0 < ε := lt_min (by positivity) (half_pos (lt_min hδL hδU))
  have hε1 : ε ≤ η * tol / 2 := min_le_left _ _
  have hεL : ε < δL := by
    have h1 : ε ≤ min δL δU / 2 := min_le_right _ _
    have h2 : min δL δU ≤ δL := min_le_left _ _
    have h3 : 0 < min δL δU := lt_min hδL hδU
    linarith
  have hεU : ε < δU := by
    have h1 : ε ≤ min δL δU / 2 := min_le_right _ _
    have h2 : min δL δU ≤ δU := min_le_right _ _
    have h3 : 0 < min δL δU := lt_min hδL hδU
    linarith
  obtain ⟨N, hN⟩ := eventually_atTop.1
    ((hLt.eventually_const_lt (show L - ε < L by linarith)).and
      (hUt.eventually_lt_const (show U < U + ε by linarith)))
  -- what a ratio of distances says about the values
  have hratio : ∀ d p q w : ℝ, 0 ≤ p → 0 ≤ q → tol < w → d ≤ ε → d * (p + q) = w * p →
      p ≤ η * q := by
    intro d p q w hp hq hw' hd he
    have h1 : w * p ≤ η * tol / 2 * (p + q) := by
      rw [← he]
      exact mul_le_mul_of_nonneg_right (hd.trans hε1) (by positivity)
    have h2 : tol * p ≤ η * tol / 2 * (p + q) :=
      (mul_le_mul_of_nonneg_right hw'.le hp).trans h1
    have h3 : p ≤ η / 2 * (p + q) := by
      have : tol * p ≤ tol * (η / 2 * (p + q)) := by linarith
      exact le_of_mul_le_mul_left this htol
    nlinarith
  -- switching steps
  have hswitch : ∀ n, N ≤ n → f (chord (st n)) * (st n).fb ≤ 0 →
      |(st n).fa| ≤ η * |(st n).fb| ∧ (st (n + 1)).fa = (st n).fb := by
    intro n hn hc
    have e := volStep_switch f hc
    rw [← hsucc] at e
    refine ⟨?_, by rw [e]⟩
    have hcf := chord_facts (hsign n)
    refine hratio _ _ _ _ (abs_nonneg _) (abs_nonneg _) (hw n) ?_ hcf.1
    have hNn := hN n hn
    rcases lt_or_gt_of_ne (hne n) with h | h
    · have h1 := hcf.2.2.1 h
      have h2 : lo (n + 1) = chord (st n) := by
        change min (st (n + 1)).a (st (n + 1)).b = _
        rw [e]; exact min_eq_right h1.2.le
      have h3 : lo n = (st n).a := min_eq_left h.le
      have h4 := hloL (n + 1)
      rw [abs_of_pos (by linarith)]
      linarith [hNn.1]
    · have h1 := hcf.2.2.2 h
      have h2 : hi (n + 1) = chord (st n) := by
        change max (st (n + 1)).a (st (n + 1)).b = _
        rw [e]; exact max_eq_right h1.1.le
      have h3 : hi n = (st n).a := max_eq_left h.le
      have h4 := hUhi (n + 1)
      rw [abs_of_neg (by linarith)]
      linarith [hNn.2]
  -- steps on the same side
  have hstay : ∀ n, N ≤ n → 0 < f (chord (st n)) * (st n).fb →
      μ / 2 ≤ |(st n).fa| ∧ (st (n + 1)).fa = (st n).fa / 2 := by
    intro n hn hc
    have e := volStep_stay f hc
    rw [← hsucc] at e
    refine ⟨?_, by rw [e]⟩
    have hcf := chord_facts (hsign n)
    have hNn := hN n hn
    have hq : 0 < |(st n).fb| := abs_pos.2 (hfb n)
    -- the side of the newest point
    obtain ⟨X, hXd, hXε, hXn⟩ : ∃ X, |chord (st n) - (st n).b| ≤ |(st n).b - X| ∧
        |(st n).b - X| ≤ ε ∧ (μ ≤ |f (st n).b| ∨ (|f (st n).b| ≤ μ / 2 ∧
          μ * |(st n).b - X| ≤ tol * |f (st n).b|)) := by
      rcases lt_or_gt_of_ne (hne n) with h | h
      · have h1 := hcf.2.2.1 h
        have h2 : hi (n + 1) = chord (st n) := by
          change max (st (n + 1)).a (st (n + 1)).b = _
          rw [e]; exact max_eq_right h1.1.le
        have h3 : hi n = (st n).b := max_eq_right h.le
        have h4 := hUhi (n + 1)
        have h5 : |(st n).b - U| ≤ ε := by
          rw [abs_of_nonneg (by linarith [hUhi n])]; linarith [hNn.2]
        refine ⟨U, ?_, h5, hnU (by rw [Real.dist_eq]; linarith)⟩
        rw [abs_of_neg (by linarith), abs_of_nonneg (by linarith [hUhi n])]
        linarith
      · have h1 := hcf.2.2.2 h
        have h2 : lo (n + 1) = chord (st n) := by
          change min (st (n + 1)).a (st (n + 1)).b = _
          rw [e]; exact min_eq_right h1.2.le
        have h3 : lo n = (st n).b := min_eq_right h.le
        have h4 := hloL (n + 1)
        have h5 : |(st n).b - L| ≤ ε := by
          rw [abs_of_nonpos (by linarith [hloL n])]; linarith [hNn.1]
        refine ⟨L, ?_, h5, hnL (by rw [Real.dist_eq]; linarith)⟩
        rw [abs_of_pos (by linarith), abs_of_nonpos (by linarith [hloL n])]
        linarith
    rw [← (hinv n).fb] at hXn
    have hqp : |(st n).fb| ≤ η * |(st n).fa| := by
      refine hratio _ _ _ _ (abs_nonneg _) (abs_nonneg _) (hw n) (hXd.trans hXε) ?_
      rw [add_comm]; exact hcf.2.1
    rcases hXn with hX | ⟨hX1, hX2⟩
    · have : η * |(st n).fa| ≤ η * M := by gcongr; exact hMa n
      linarith
    · have k1 : |(st n).b - (st n).a| * |(st n).fb| ≤
          |(st n).b - X| * (|(st n).fa| + |(st n).fb|) := by
        rw [← hcf.2.1]; gcongr
      have k2 : tol * |(st n).fb| ≤ |(st n).b - X| * (|(st n).fa| + |(st n).fb|) :=
        (mul_le_mul_of_nonneg_right (hw n).le hq.le).trans k1
      have k3 : μ * (tol * |(st n).fb|) ≤
          tol * |(st n).fb| * (|(st n).fa| + |(st n).fb|) := by
        calc μ * (tol * |(st n).fb|)
            ≤ μ * (|(st n).b - X| * (|(st n).fa| + |(st n).fb|)) := by gcongr
          _ = μ * |(st n).b - X| * (|(st n).fa| + |(st n).fb|) := by ring
          _ ≤ _ := by gcongr
      have k4 : μ ≤ |(st n).fa| + |(st n).fb| := by
        have hpos : 0 < tol * |(st n).fb| := by positivity
        rw [mul_comm] at k3
        exact le_of_mul_le_mul_left k3 hpos
      linarith
  -- once a step stays, all do
  have hstay' : ∀ n, N ≤ n → 0 < f (chord (st n)) * (st n).fb →
      0 < f (chord (st (n + 1))) * (st (n + 1)).fb := by
    intro n hn hc
    by_contra hcon
    push Not at hcon
    obtain ⟨h1, h2⟩ := hstay n hn hc
    obtain ⟨h3, -⟩ := hswitch (n + 1) (by omega) hcon
    rw [h2, abs_div, abs_two] at h3
    have h4 : η * |(st (n + 1)).fb| ≤ η * M := by gcongr; exact hMb _
    linarith
  by_cases hall : ∃ n, N ≤ n ∧ 0 < f (chord (st n)) * (st n).fb
  · obtain ⟨n, hn, hc⟩ := hall
    have hforever : ∀ k, 0 < f (chord (st (n + k))) * (st (n + k)).fb := by
      intro k
      induction k with
      | zero => exact hc
      | succ k ih => exact hstay' (n + k) (by omega) ih
    have hpow : ∀ k, |(st (n + k)).fa| = |(st n).fa| * (1 / 2) ^ k := by
      intro k
      induction k with
      | zero => simp
      | succ k ih =>
        have := (hstay (n + k) (by omega) (hforever k)).2
        rw [← Nat.add_assoc, this, abs_div, abs_two, ih, pow_succ]; ring
    have ht : Tendsto (fun k => |(st n).fa| * (1 / 2 : ℝ) ^ k) atTop (𝓝 (|(st n).fa| * 0)) :=
      (tendsto_pow_atTop_nhds_zero_of_lt_one (by norm_num) (by norm_num)).const_mul _
    rw [mul_zero] at ht
    obtain ⟨k, hk⟩ := (ht.eventually_lt_const (show (0 : ℝ) < μ / 2 by linarith)).exists
    have := (hstay (n + k) (by omega) (hforever k)).1
    rw [hpow] at this
    linarith
  · push Not at hall
    have hpow : ∀ k, |(st N).fb| * 2 ^ k ≤ |(st (N + k)).fb| := by
      intro k
      induction k with
      | zero => simp
      | succ k ih =>
        have h1 := (hswitch (N + k) (by omega) (hall _ (by omega))).2
        have h2 := (hswitch (N + k + 1) (by omega) (hall _ (by omega))).1
        rw [h1] at h2
        have h3 : η * |(st (N + k + 1)).fb| ≤ 1 / 2 * |(st (N + k + 1)).fb| := by gcongr
        rw [pow_succ, ← Nat.add_assoc]
        linarith
    have hq : 0 < |(st N).fb| := abs_pos.2 (hfb N)
    obtain ⟨k, hk⟩ := pow_unbounded_of_one_lt (M / |(st N).fb|) (show (1 : ℝ) < 2 by norm_num)
    rw [div_lt_iff₀ hq] at hk
    have := (hpow k).trans (hMb _)
    linarith

/-- A function with a non-zero derivative at a zero leaves zero linearly. -/
theorem linear_of_hasDerivAt {X f' : ℝ} (h0 : f X = 0) (hd : HasDerivAt f f' X) (hne : f' ≠ 0) :
    ∃ m > 0, ∀ᶠ y in 𝓝 X, m * |y - X| ≤ |f y| := by
  refine ⟨|f'| / 2, by positivity, ?_⟩
  have hpos : 0 < |f'| / 2 := by positivity
  have := (hasDerivAt_iff_isLittleO.1 hd).def hpos
  filter_upwards [this] with y hy
  rw [h0, sub_zero, smul_eq_mul, Real.norm_eq_abs, Real.norm_eq_abs] at hy
  have h1 : |(y - X) * f'| ≤ |f y| + |f y - (y - X) * f'| := by
    have := abs_sub_abs_le_abs_sub ((y - X) * f') (f y)
    rw [abs_sub_comm] at this
    linarith
  rw [abs_mul] at h1
  nlinarith [abs_nonneg (y - X)]

end Skillratings.Glicko2
