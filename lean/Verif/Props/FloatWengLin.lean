import Verif.Props.FloatDirections
/-
Weng-Lin in floating point: expected scores (C79), directions (C80) and histories (C100).
-/

namespace Skillratings
open FP FPVal Spec
variable {E : FloatEnv}

/-- The scale `c` for `beta` in `[b, 1000]` and uncertainties in `[0, 1000]`. -/
theorem wl_c_in (L : E.Lib) {b : ℕ} (hb : 1 ≤ b) (hb' : b ≤ 1000) {β u v : FP E}
    (hβ : In (E := E) ((b : ℝ) : EReal) ((1000 : ℝ) : EReal) β)
    (hu : In (E := E) ((0 : ℝ) : EReal) ((1000 : ℝ) : EReal) u)
    (hv : In (E := E) ((0 : ℝ) : EReal) ((1000 : ℝ) : EReal) v) :
    In (E := E) ((b : ℝ) : EReal) ((2048 : ℝ) : EReal)
      (Flt.sqrt (Flt.mulAdd 2.0 (Flt.powi β 2) (Flt.mulAdd u u (Flt.powi v 2)))) ∧
    ∀ w : FP E, w = u * u ∨ w = v * v → 1 ≤ w.toR →
      √ w.toR * (1 - 1 / 2 ^ 51) ≤
        (Flt.sqrt (Flt.mulAdd 2.0 (Flt.powi β 2) (Flt.mulAdd u u (Flt.powi v 2)))).toR := by
  have hβ2 : Flt.powi β 2 = β * β := L.powi_two _
  have hv2 : Flt.powi v 2 = v * v := L.powi_two _
  have h6 : SRep (1000000 : ℝ) := SRep.ofNat 1000000 (by norm_num)
  have b1 : (1 : ℝ) ≤ b := by exact_mod_cast hb
  have b2' : (b : ℝ) ≤ 1000 := by exact_mod_cast hb'
  have hbb : SRep ((b * b : ℕ) : ℝ) := within_nat (by nlinarith)
  have b2 := mul_in hβ hβ (by linarith) (by linarith) hbb h6 (by push_cast; linarith) (by norm_num)
  have v2 := mul_in hv hv (by norm_num) (by norm_num) SRep.zero h6 (by norm_num) (by norm_num)
  have u2 := mul_in hu hu (by norm_num) (by norm_num) SRep.zero h6 (by norm_num) (by norm_num)
  have two := lit_in (E := E) (m := 20) (s := true) (e := 1) (v := 2) (by norm_num)
    (SRep.ofNat 2 (by norm_num))
  rw [hβ2, hv2]
  obtain ⟨s, hs⟩ := mulAdd_fin hu.finite hu.finite v2.finite
  have w2 : In (E := E) ((0 : ℝ) : EReal) ((2000000 : ℝ) : EReal) (Flt.mulAdd u u (v * v)) := by
    have h1 := hu.toR
    have h2 := v2.toR
    rw [hs]
    exact In.of_round s SRep.zero (SRep.ofNat 2000000 (by norm_num)) (by nlinarith) (by nlinarith)
  have hle : ∀ w : FP E, w = u * u ∨ w = v * v → w.toR ≤ (Flt.mulAdd u u (v * v)).toR := by
    rintro w (rfl | rfl)
    · refine toR_mono u2.finite w2.finite ?_
      obtain ⟨t, ht⟩ := mul_fin hu.finite hu.finite
      rw [hs, ht]
      exact E.round_mono _ _ (by linarith [v2.toR.1])
    · refine toR_of_le w2.finite ?_
      rw [hs]
      exact E.round_ge s (isFinite.srep v2.finite) (by nlinarith [hu.toR.1])
  obtain ⟨t, ht⟩ := mulAdd_fin two.finite b2.finite w2.finite
  have c2 : In (E := E) ((b * b : ℕ) : ℝ) ((4000000 : ℝ) : EReal)
      (Flt.mulAdd 2.0 (β * β) (Flt.mulAdd u u (v * v))) := by
    have h1 := two.toR
    have h2 := b2.toR
    have h3 := w2.toR
    have hbb0 : (0 : ℝ) ≤ ((b * b : ℕ) : ℝ) := Nat.cast_nonneg _
    rw [ht]
    exact In.of_round t hbb (SRep.ofNat 4000000 (by norm_num)) (by nlinarith) (by nlinarith)
  have hwc : (Flt.mulAdd u u (v * v)).toR
      ≤ (Flt.mulAdd 2.0 (β * β) (Flt.mulAdd u u (v * v))).toR := by
    refine toR_of_le c2.finite ?_
    rw [ht]
    exact E.round_ge t (isFinite.srep w2.finite) (by
      have h1 := two.toR
      have h2 := b2.toR
      have hbb0 : (0 : ℝ) ≤ ((b * b : ℕ) : ℝ) := Nat.cast_nonneg _
      nlinarith)
  have h := c2.toR
  push_cast at h
  obtain ⟨k, hk⟩ := sqrt_fin c2.finite (by nlinarith)
  have hc : In (E := E) ((b : ℝ) : EReal) ((2048 : ℝ) : EReal)
      (Flt.sqrt (Flt.mulAdd 2.0 (β * β) (Flt.mulAdd u u (v * v)))) := by
    rw [hk]
    refine In.of_round k (within_nat (by omega)) (SRep.ofNat 2048 (by norm_num))
      (Real.le_sqrt_of_sq_le (by rw [sq]; exact h.1)) ?_
    rw [Real.sqrt_le_left (by norm_num)]
    norm_num
    linarith
  refine ⟨hc, fun w hw h1 => ?_⟩
  have hx : w.toR ≤ (Flt.mulAdd 2.0 (β * β) (Flt.mulAdd u u (v * v))).toR := (hle w hw).trans hwc
  have hx' := Real.sqrt_le_sqrt hx
  have h1' : 1 ≤ √ w.toR := Real.one_le_sqrt.2 h1
  set y := √ (Flt.mulAdd 2.0 (β * β) (Flt.mulAdd u u (v * v))).toR with hy
  have hy0 : 0 ≤ y := Real.sqrt_nonneg _
  have hyu : y ≤ 2048 := by
    rw [hy, Real.sqrt_le_left (by norm_num)]
    norm_num
    linarith
  have hr := round_rel (E := E) k (x := y) (by
      rw [abs_of_nonneg hy0]
      calc (1 : ℝ) / 2 ^ 1000 ≤ 1 := by
            rw [div_le_one (by positivity)]
            exact one_le_pow₀ (by norm_num)
        _ ≤ y := h1'.trans hx') (by
      rw [abs_of_nonneg hy0]
      calc y ≤ 2 ^ 11 := by norm_num; linarith
        _ ≤ 2 ^ 1000 := pow_le_pow_right₀ (by norm_num) (by norm_num))
  have h2 := (abs_le.1 hr.2).1
  rw [abs_of_nonneg hy0] at h2
  rw [hk]
  have h3 : √ w.toR * (1 - 1 / 2 ^ 51) ≤ y * (1 - 1 / 2 ^ 51) :=
    mul_le_mul_of_nonneg_right hx' (by norm_num)
  refine h3.trans ?_
  have : y * (1 - 1 / 2 ^ 51) = y - y / 2 ^ 51 := by ring
  rw [this]
  linarith

/-- The step factor `σ² / c` is at most `U + 1`. -/
theorem wl_factor (L : E.Lib) {U : ℕ} (hU : U ≤ 1000) {u c : FP E}
    (hu : In (E := E) ((0 : ℝ) : EReal) ((U : ℝ) : EReal) u)
    (hc : In (E := E) ((1 : ℝ) : EReal) ((2048 : ℝ) : EReal) c)
    (h : 1 ≤ (u * u).toR → √ (u * u).toR * (1 - 1 / 2 ^ 51) ≤ c.toR) :
    In (E := E) ((0 : ℝ) : EReal) (((U + 1 : ℕ) : ℝ) : EReal) (Flt.powi u 2 / c) := by
  have hU' : (U : ℝ) ≤ 1000 := by exact_mod_cast hU
  have U0 : (0 : ℝ) ≤ U := Nat.cast_nonneg U
  have hUU : SRep ((U * U : ℕ) : ℝ) := within_nat (by nlinarith)
  have u2 := mul_in hu hu le_rfl le_rfl SRep.zero hUU (by norm_num) (by push_cast; linarith)
  rw [powi_two' L]
  have hw := u2.toR
  push_cast at hw
  have hc' := hc.toR
  obtain ⟨s, hs⟩ := div_fin u2.finite hc.finite (by linarith)
  rw [hs]
  refine In.of_round s SRep.zero (within_nat (by omega)) (div_nonneg hw.1 (by linarith)) ?_
  rw [div_le_iff₀ (by linarith)]
  push_cast
  by_cases h1 : 1 ≤ (u * u).toR
  · have h2 := h h1
    set y := √ (u * u).toR with hy
    have hyy : y * y = (u * u).toR := Real.mul_self_sqrt hw.1
    have hy1 : 1 ≤ y := Real.one_le_sqrt.2 h1
    have hyU : y ≤ U := by rw [hy, Real.sqrt_le_left U0, sq]; exact hw.2
    rw [← hyy]
    have h3 : (U + 1) * (y * (1 - 1 / 2 ^ 51)) ≤ (U + 1) * c.toR :=
      mul_le_mul_of_nonneg_left h2 (by linarith)
    refine le_trans ?_ h3
    have h4 : y ≤ (U + 1) * (1 - 1 / 2 ^ 51) := by
      have : (U + 1) * (1 / 2 ^ 51 : ℝ) ≤ 1 := by
        rw [mul_one_div, div_le_one (by positivity)]
        norm_num
        linarith
      linarith
    nlinarith
  · nlinarith

/-- `exp` of moderate numbers. -/
theorem exp_moderate (A : E.Accurate) {x : FP E} (hx : Within 500 x) :
    (Flt.exp x : FP E).isFinite ∧ 0 < (Flt.exp x : FP E).toR ∧ (Flt.exp x : FP E).toR ≤ 2 ^ 751 := by
  obtain ⟨hf, he⟩ := A.exp x hx.1 hx.2
  have hp := Real.exp_pos x.toR
  have h := abs_le.1 he
  have hu : Real.exp x.toR ≤ 2 ^ 750 := by
    calc Real.exp x.toR ≤ Real.exp (250 * 2) :=
          Real.exp_le_exp.2 (by linarith [(abs_le.1 hx.2).2])
      _ = Real.exp 2 ^ 250 := by rw [← Real.exp_nat_mul]; norm_num
      _ ≤ 8 ^ 250 := by
        apply pow_le_pow_left₀ (Real.exp_pos _).le
        have := Real.exp_one_lt_d9
        have e2 : Real.exp 2 = Real.exp 1 * Real.exp 1 := by rw [← Real.exp_add]; norm_num
        rw [e2]
        nlinarith [Real.exp_pos 1]
      _ = 2 ^ 750 := by
        rw [show (8 : ℝ) = 2 ^ 3 by norm_num, ← pow_mul]
  have small : Real.exp x.toR / 2 ^ 50 ≤ Real.exp x.toR / 2 :=
    div_le_div_of_nonneg_left hp.le (by norm_num) (by norm_num)
  have e751 : (2 : ℝ) ^ 751 = 2 * 2 ^ 750 := by rw [pow_succ]; ring
  refine ⟨hf, ?_, ?_⟩
  · change 0 < (E.exp x).toR
    linarith [h.1]
  · change FP.toR (E.exp x) ≤ _
    rw [e751]
    clear e751
    generalize (2 : ℝ) ^ 750 = P at *
    linarith [h.2]

/-- The win probability of Weng-Lin. -/
theorem wl_p_in (A : E.Accurate) {b : ℕ} (hb : 1 ≤ b) {r s c : FP E} (hr : Within ((500 * b : ℕ) : ℝ) r)
    (hs : Within ((500 * b : ℕ) : ℝ) s)
    (hc : In (E := E) ((b : ℝ) : EReal) ((2048 : ℝ) : EReal) c) :
    In 0 1 (WengLin.pValue r s c).1 := by
  have b1 : (1 : ℝ) ≤ b := by exact_mod_cast hb
  have hc' := hc.toR
  have hq : ∀ x : FP E, Within ((500 * b : ℕ) : ℝ) x → Within 500 (x / c) := by
    intro x hx
    obtain ⟨t, ht⟩ := div_fin hx.1 hc.finite (by linarith)
    have h1 : |x.toR / c.toR| ≤ 500 := by
      rw [abs_div, abs_of_pos (by linarith : 0 < c.toR), div_le_iff₀ (by linarith)]
      have := hx.2
      push_cast at this
      nlinarith
    rw [ht]
    have h2 := abs_le.1 h1
    exact In.within (In.of_round t (SRep.ofNat 500 (by norm_num)).neg (SRep.ofNat 500 (by norm_num))
      h2.1 h2.2)
  obtain ⟨f1, p1, u1⟩ := exp_moderate A (hq r hr)
  obtain ⟨f2, p2, u2⟩ := exp_moderate A (hq s hs)
  simp only [WengLin.pValue]
  set x := (Flt.exp (r / c) : FP E)
  set y := (Flt.exp (s / c) : FP E)
  obtain ⟨t, ht⟩ := add_fin f1 f2
  have hsum : In (E := E) (x.toR : EReal) (((2 : ℝ) ^ 752 : ℝ) : EReal) (x + y) := by
    rw [ht]
    refine In.of_round t (isFinite.srep f1) (SRep.two_pow 752 (by norm_num)) (by linarith) ?_
    have e752 : (2 : ℝ) ^ 752 = 2 * 2 ^ 751 := by rw [pow_succ]; ring
    rw [e752]
    clear e752
    generalize (2 : ℝ) ^ 751 = P at *
    linarith
  have hx := hsum.toR.1
  obtain ⟨k, hk⟩ := div_fin f1 hsum.finite (by linarith)
  have := In.of_round (E := E) k (v := x.toR / (x + y).toR) SRep.zero SRep.one
    (div_nonneg p1.le (by linarith)) (by rw [div_le_one (by linarith)]; exact hx)
  rw [hk]
  simpa using this

theorem wl_uncertainty_in (L : E.Lib) {U : ℕ} (hU : U ≤ 1000) {u c p tol : FP E}
    (hu : In (E := E) ((0 : ℝ) : EReal) ((U : ℝ) : EReal) u)
    (hc : In (E := E) ((1 : ℝ) : EReal) ((2048 : ℝ) : EReal) c) (hp : In 0 1 p)
    (ht : In (E := E) ((0 : ℝ) : EReal) ((1 : ℝ) : EReal) tol) :
    In (E := E) ((0 : ℝ) : EReal) ((U : ℝ) : EReal) (WengLin.newUncertainty u c p tol) := by
  have hU' : (U : ℝ) ≤ 1000 := by exact_mod_cast hU
  have U0 : (0 : ℝ) ≤ U := Nat.cast_nonneg U
  have hUU : SRep ((U * U : ℕ) : ℝ) := within_nat (by nlinarith)
  have u2 := mul_in hu hu le_rfl le_rfl SRep.zero hUU (by norm_num) (by push_cast; linarith)
  have q1 := div_in hu hc le_rfl (by norm_num) SRep.zero (SRep.ofNat 1000 (by norm_num))
    (by norm_num) (by norm_num; linarith)
  have q2 := mul_in q1 q1 le_rfl le_rfl SRep.zero (SRep.ofNat 1000000 (by norm_num)) (by norm_num)
    (by norm_num)
  have q3 := mul_in q1 q2 le_rfl le_rfl SRep.zero (SRep.ofNat 1000000000 (by norm_num))
    (by norm_num) (by norm_num)
  have q4 := mul_in q3 (unit_in hp) le_rfl le_rfl SRep.zero (SRep.ofNat 1000000000 (by norm_num))
    (by norm_num) (by norm_num)
  have q5 := mul_in q4 (unit_in (one_sub_in hp)) le_rfl le_rfl SRep.zero
    (SRep.ofNat 1000000000 (by norm_num)) (by norm_num) (by norm_num)
  have e3 : Flt.powi (u / c) 3 = (u / c) * ((u / c) * (u / c)) := L.powi_three _
  simp only [WengLin.newUncertainty, powi_two' L, e3]
  have k1 := sub_in one_in q5 (lo := -1000000000) (hi := 1) (SRep.ofNat 1000000000 (by norm_num)).neg
    SRep.one (by norm_num) (by norm_num)
  have k2 : In (E := E) ((0 : ℝ) : EReal) ((1 : ℝ) : EReal)
      (Flt.fmax (1.0 - (u / c) * ((u / c) * (u / c)) * p * (1.0 - p)) tol) := by
    have hfl := fmax_floor (x := 1.0 - (u / c) * ((u / c) * (u / c)) * p * (1.0 - p)) ht.1
    refine ⟨hfl.1, ht.2.1.trans hfl.2, ?_⟩
    rw [fmax_eq k1.1 ht.1]
    split
    · exact ht.2.2
    · exact k1.2.2
  have k3 := mul_in u2 k2 le_rfl le_rfl SRep.zero hUU (by norm_num) (by push_cast; linarith)
  exact sqrt_in k3 le_rfl SRep.zero (within_nat (by omega)) U0 (by norm_num)
    (by push_cast; nlinarith)

/-- A sane Weng-Lin rating. -/
def WlSane (B : ℝ) (U : ℕ) (a : WengLin.WengLinRating (FP E)) : Prop :=
  Within B a.rating ∧ AtLeast 0 a.uncertainty ∧ AtMost U a.uncertainty

theorem wl_sane_in {B : ℝ} {U : ℕ} {a : WengLin.WengLinRating (FP E)} (h : WlSane B U a) :
    In (E := E) ((0 : ℝ) : EReal) ((U : ℝ) : EReal) a.uncertainty :=
  ⟨h.2.1.1, by simpa using h.2.1.2, h.2.2.2⟩

/-- A usable Weng-Lin configuration. -/
def WlConfig (b : ℕ) (c : WengLin.WengLinConfig (FP E)) : Prop :=
  AtLeast b c.beta ∧ AtMost 1000 c.beta ∧ AtLeast 0 c.uncertaintyTolerance ∧
    AtMost 1 c.uncertaintyTolerance

/-- Expected scores are in `[0, 1]` for ratings up to `500 beta`. -/
theorem C79_wengLin_expected (L : E.Lib) (A : E.Accurate) (a b : WengLin.WengLinRating (FP E))
    (c : WengLin.WengLinConfig (FP E)) (k : ℕ) (hk : 1 ≤ k) (hk' : k ≤ 1000) (hc : WlConfig k c)
    (ha : WlSane ((500 * k : ℕ) : ℝ) 1000 a) (hb : WlSane ((500 * k : ℕ) : ℝ) 1000 b) :
    In 0 1 (WengLin.expectedScore a b c).1 ∧ In 0 1 (WengLin.expectedScore a b c).2 := by
  have hcc := (wl_c_in L hk hk' (β := c.beta) ⟨hc.1.1, hc.1.2, hc.2.1.2⟩
    (by simpa using wl_sane_in ha) (by simpa using wl_sane_in hb)).1
  have h := wl_p_in A hk ha.1 hb.1 hcc
  exact ⟨h, one_sub_in h⟩

/-- A game: everything stays finite, the uncertainty stays in its range, and the change has the
right direction. -/
theorem wl_side (L : E.Lib) {B U k : ℕ} {a : WengLin.WengLinRating (FP E)} {c s p tol : FP E} {v : ℝ}
    (hk : 1 ≤ k) (hU : U ≤ 1000) (hB : B + (U + 1) < 2 ^ 53)
    (ha : WlSane B U a) (hc : In (E := E) ((k : ℝ) : EReal) ((2048 : ℝ) : EReal) c)
    (hcu : 1 ≤ (a.uncertainty * a.uncertainty).toR →
      √ (a.uncertainty * a.uncertainty).toR * (1 - 1 / 2 ^ 51) ≤ c.toR)
    (hp : In 0 1 p) (ht : In (E := E) ((0 : ℝ) : EReal) ((1 : ℝ) : EReal) tol)
    (hs : In (E := E) (v : EReal) (v : EReal) s) (hv0 : 0 ≤ v) (hv1 : v ≤ 1) :
    WlSane ((B + (U + 1) : ℕ) : ℝ) U
      { rating := WengLin.newRating a.rating a.uncertainty c p s
        uncertainty := WengLin.newUncertainty a.uncertainty c p tol } ∧
    (v = 1 → a.rating.toE ≤ (WengLin.newRating a.rating a.uncertainty c p s).toE) ∧
    (v = 0 → (WengLin.newRating a.rating a.uncertainty c p s).toE ≤ a.rating.toE) := by
  have hc1 := hc.mono (c := 1) (d := 2048) (by exact_mod_cast hk) le_rfl
  have hf := wl_factor L hU (wl_sane_in ha) hc1 hcu
  have hu := wl_uncertainty_in L hU (wl_sane_in ha) hc1 hp ht
  have h1 := surprise hs hp hv0 hv1
  have hch := change hf.finite h1.1 (isFinite.not_nan ha.1.1)
  refine ⟨⟨?_, ⟨hu.1, by simpa using hu.2.1⟩, ⟨hu.1, hu.2.2⟩⟩,
    fun h => hch.2.1 (mul_nonneg hf.toR.1 (h1.2.2.2.1 h)),
    fun h => hch.2.2 (mul_nonpos_of_nonneg_of_nonpos hf.toR.1 (h1.2.2.2.2 h))⟩
  have U0 : (0 : ℝ) ≤ U := Nat.cast_nonneg U
  exact mulAdd_abs_in (In.within (hf.mono (by push_cast; linarith) le_rfl))
    ⟨h1.1, abs_le.2 ⟨h1.2.1, h1.2.2.1⟩⟩ ha.1 (within_nat hB) (by push_cast; linarith)

theorem wl_game (L : E.Lib) (A : E.Accurate) {a b : WengLin.WengLinRating (FP E)} (o : Outcomes)
    {c : WengLin.WengLinConfig (FP E)} {B U k : ℕ} (hk : 1 ≤ k) (hk' : k ≤ 1000) (hU : U ≤ 1000)
    (hB : B ≤ 500 * k) (hc : WlConfig k c) (ha : WlSane B U a) (hb : WlSane B U b) :
    (WlSane ((B + (U + 1) : ℕ) : ℝ) U (WengLin.wengLin a b o c).1 ∧
      WlSane ((B + (U + 1) : ℕ) : ℝ) U (WengLin.wengLin a b o c).2) ∧
    (o = .WIN → a.rating.toE ≤ (WengLin.wengLin a b o c).1.rating.toE ∧
      (WengLin.wengLin a b o c).2.rating.toE ≤ b.rating.toE) ∧
    (o = .LOSS → (WengLin.wengLin a b o c).1.rating.toE ≤ a.rating.toE ∧
      b.rating.toE ≤ (WengLin.wengLin a b o c).2.rating.toE) := by
  have hU' : (U : ℝ) ≤ 1000 := by exact_mod_cast hU
  obtain ⟨hcc, hcw⟩ := wl_c_in L hk hk' (β := c.beta) ⟨hc.1.1, hc.1.2, hc.2.1.2⟩
    ((wl_sane_in ha).mono le_rfl hU') ((wl_sane_in hb).mono le_rfl hU')
  have hBk : (B : ℝ) ≤ ((500 * k : ℕ) : ℝ) := by exact_mod_cast hB
  have hp := wl_p_in A hk (ha.1.mono hBk) (hb.1.mono hBk) hcc
  have ht : In (E := E) ((0 : ℝ) : EReal) ((1 : ℝ) : EReal) c.uncertaintyTolerance :=
    ⟨hc.2.2.1.1, by simpa using hc.2.2.1.2, by simpa using hc.2.2.2.2⟩
  have hB' : B + (U + 1) < 2 ^ 53 := by omega
  have h1 := wl_side L hk hU hB' ha hcc (hcw _ (Or.inl rfl)) hp ht (points_in (E := E) o)
    (pointsR_nonneg o) (pointsR_le_one o)
  have h2 := wl_side L hk hU hB' hb hcc (hcw _ (Or.inr rfl)) (one_sub_in hp) ht
    (points_in' (E := E) o) (by linarith [pointsR_le_one o]) (by linarith [pointsR_nonneg o])
  refine ⟨⟨h1.1, h2.1⟩, ?_, ?_⟩
  · rintro rfl
    exact ⟨h1.2.1 rfl, h2.2.2 (by norm_num [pointsR])⟩
  · rintro rfl
    exact ⟨h1.2.2 rfl, h2.2.1 (by norm_num [pointsR])⟩

/-- Direction: the winner never drops and the loser never rises. -/
theorem C80_wengLin_direction (L : E.Lib) (A : E.Accurate) (a b : WengLin.WengLinRating (FP E))
    (o : Outcomes) (c : WengLin.WengLinConfig (FP E)) (k : ℕ) (hk : 1 ≤ k) (hk' : k ≤ 1000)
    (hc : WlConfig k c) (ha : WlSane ((500 * k : ℕ) : ℝ) 1000 a)
    (hb : WlSane ((500 * k : ℕ) : ℝ) 1000 b) :
    ¬ (WengLin.wengLin a b o c).1.rating.isNaN ∧ ¬ (WengLin.wengLin a b o c).2.rating.isNaN ∧
    (o = .WIN → a.rating.toE ≤ (WengLin.wengLin a b o c).1.rating.toE ∧
      (WengLin.wengLin a b o c).2.rating.toE ≤ b.rating.toE) ∧
    (o = .LOSS → (WengLin.wengLin a b o c).1.rating.toE ≤ a.rating.toE ∧
      b.rating.toE ≤ (WengLin.wengLin a b o c).2.rating.toE) :=
  have h := wl_game L A o hk hk' le_rfl le_rfl hc ha hb
  ⟨isFinite.not_nan h.1.1.1.1, isFinite.not_nan h.1.2.1.1, h.2⟩

/-- Weng-Lin: with uncertainties up to `U` a game moves a rating by at most `U + 1`, and as long as
`B + n (U + 1)` is at most `500 beta` nothing overflows.  (C81 shows that a bound of this kind is
needed.) -/
theorem C100_wengLin_history {ι : Type} [DecidableEq ι] (L : E.Lib) (A : E.Accurate)
    (pool : ι → WengLin.WengLinRating (FP E)) (games : List (Game ι (WengLin.WengLinConfig (FP E))))
    (B U k : ℕ) (hk : 1 ≤ k) (hk' : k ≤ 1000) (hU : U ≤ 1000) (hp : ∀ i, WlSane B U (pool i))
    (hc : ∀ g ∈ games, WlConfig k g.config) (h : B + games.length * (U + 1) ≤ 500 * k) (i : ι) :
    WlSane ((B + games.length * (U + 1) : ℕ) : ℝ) U (tournament WengLin.wengLin pool games i) := by
  have := tournament_counted WengLin.wengLin
    (fun n a => WlSane (E := E) ((B + n * (U + 1) : ℕ) : ℝ) U a) (fun c => WlConfig k c) games.length
    (fun n a ha => ⟨ha.1.mono (by
      push_cast; nlinarith [Nat.cast_nonneg (α := ℝ) U]), ha.2⟩)
    (by
      intro n a b o c hn hc ha hb
      have e : B + (n + 1) * (U + 1) = B + n * (U + 1) + (U + 1) := by ring
      have hle : B + n * (U + 1) ≤ 500 * k := by
        have := Nat.mul_le_mul_right (U + 1) hn
        have : n * (U + 1) ≤ (n + 1) * (U + 1) := Nat.mul_le_mul_right _ (by omega)
        omega
      rw [e]
      exact (wl_game L A o hk hk' hU hle hc ha hb).1)
    pool games 0 (by omega) hc (by simpa using hp) i
  simpa using this

/-! Concrete instances: binary64 with rounding to nearest. -/

theorem sample_config : WlConfig 4 (⟨4.0, 0.0⟩ : WengLin.WengLinConfig (FP ieee)) := by
  have h4 := lit_in (E := ieee) (m := 40) (s := true) (e := 1) (v := 4) (by norm_num)
    (SRep.ofNat 4 (by norm_num))
  have h0 := lit_in (E := ieee) (m := 0) (s := true) (e := 1) (v := 0) (by norm_num)
    (by simpa using SRep.nat (n := 0) (by norm_num))
  refine ⟨⟨h4.1, h4.2.1⟩, ⟨h4.1, h4.2.2.trans ?_⟩, ⟨h0.1, ?_⟩, ⟨h0.1, h0.2.2.trans ?_⟩⟩
  · exact_mod_cast (by norm_num : (4 : ℝ) ≤ 1000)
  · simpa using h0.2.1
  · exact_mod_cast (by norm_num : (0 : ℝ) ≤ 1)

theorem sample_player {B : ℝ} (hB : 25 ≤ B) {U : ℕ} (hU : 8 ≤ U) :
    WlSane B U (⟨25.0, 8.0⟩ : WengLin.WengLinRating (FP ieee)) := by
  have h8 := lit_in (E := ieee) (m := 80) (s := true) (e := 1) (v := 8) (by norm_num)
    (SRep.ofNat 8 (by norm_num))
  refine ⟨(sample_within 250 25 (by norm_num) (by norm_num)).mono (by exact_mod_cast hB),
    ⟨h8.1, le_trans ?_ h8.2.1⟩, ⟨h8.1, h8.2.2.trans ?_⟩⟩
  · exact_mod_cast (by norm_num : (0 : ℝ) ≤ 8)
  · exact_mod_cast (by exact_mod_cast hU : (8 : ℝ) ≤ (U : ℝ))

example : In 0 1 (WengLin.expectedScore (F := FP ieee) ⟨25.0, 8.0⟩ ⟨25.0, 8.0⟩ ⟨4.0, 0.0⟩).1 :=
  (C79_wengLin_expected ieee_lib ieee_accurate _ _ _ 4 (by norm_num) (by norm_num) sample_config
    (sample_player (by norm_num) (by norm_num)) (sample_player (by norm_num) (by norm_num))).1

example : (25.0 : FP ieee).toE
    ≤ (WengLin.wengLin (F := FP ieee) ⟨25.0, 8.0⟩ ⟨25.0, 8.0⟩ .WIN ⟨4.0, 0.0⟩).1.rating.toE :=
  ((C80_wengLin_direction ieee_lib ieee_accurate _ _ .WIN _ 4 (by norm_num) (by norm_num)
    sample_config (sample_player (by norm_num) (by norm_num))
    (sample_player (by norm_num) (by norm_num))).2.2.1 rfl).1

/-- Two hundred games with the usual parameters. -/
example (games : List (Game (Fin 3) (WengLin.WengLinConfig (FP ieee))))
    (hg : ∀ g ∈ games, g.config = ⟨4.0, 0.0⟩) (hn : games.length ≤ 200) (i : Fin 3) :
    (tournament WengLin.wengLin (fun _ => (⟨25.0, 8.0⟩ : WengLin.WengLinRating (FP ieee))) games
      i).rating.isFinite :=
  (C100_wengLin_history ieee_lib ieee_accurate _ games 25 8 4 (by norm_num) (by norm_num)
    (by norm_num) (fun _ => sample_player (by norm_num) (by norm_num))
    (fun g h => by rw [hg g h]; exact sample_config) (by omega) i).1.1

end Skillratings
