import Verif.Spec.LogAccurate
import Verif.Proofs.QuantilePerturbed
import Verif.Proofs.FPErfc
import Verif.Proofs.DrawW
/-
The inverse of the complementary error function and the draw margin in floating-point arithmetic.
-/

namespace Skillratings
open FP FPVal Spec
variable {E : FloatEnv}

theorem ieee_logAccurate : ieee.LogAccurate where
  ln := by
    intro x hx h1 h2
    cases x with
    | nan => exact hx.elim
    | inf s => exact hx.elim
    | fin s m =>
      change 1 / 2 ^ 500 ≤ signed s m.1 at h1
      change signed s m.1 ≤ 3 / 4 at h2
      have p500 : (0 : ℝ) < 1 / 2 ^ 500 := by positivity
      have hs : s = false := by
        cases s
        · rfl
        · simp only [signed, if_true] at h1
          have := m.2.nonneg
          linarith
      subst hs
      change 1 / 2 ^ 500 ≤ (m.1 : ℝ) at h1
      change (m.1 : ℝ) ≤ 3 / 4 at h2
      change Near (E := ieee) (|Real.log m.1| / 2 ^ 50) (Ieee.ln (fin false m)) (Real.log m.1)
      have hm0 : (0 : ℝ) < m.1 := lt_of_lt_of_le p500 h1
      have hne : m.1 ≠ 0 := by intro h; rw [h] at hm0; exact lt_irrefl _ hm0
      have hl : Real.log m.1 ≤ -(1 / 4) := by
        have := Real.log_le_sub_one_of_pos hm0
        linarith
      have hl2 : -(2 : ℝ) ^ 10 ≤ Real.log m.1 := by
        have := Real.log_le_log p500 h1
        rw [one_div, Real.log_inv, Real.log_pow] at this
        have l2 := Real.log_two_lt_d9
        push_cast at this
        norm_num at this ⊢; linarith
      have e : Ieee.ln (fin false m) = ieeeBase.round true (Real.log m.1) ∨
          Ieee.ln (fin false m) = ieeeBase.round false (Real.log m.1) := by
        simp only [Ieee.ln, Bool.false_eq_true, if_false, hne]
        simp
      obtain ⟨s', e⟩ : ∃ s', Ieee.ln (fin false m) = ieeeBase.round s' (Real.log m.1) := by
        rcases e with e | e
        · exact ⟨_, e⟩
        · exact ⟨_, e⟩
      rw [e]
      have ha : |Real.log m.1| = -Real.log m.1 := abs_of_nonpos (by linarith)
      have := round_rel (E := ieee) s' (x := Real.log m.1) (by
          rw [ha]
          refine le_trans (one_div_le_one_div_of_le (by positivity)
            (pow_le_pow_right₀ (by norm_num) (by norm_num : 2 ≤ 1000))) ?_
          norm_num; linarith)
        (by rw [ha]; exact le_trans (b := (2 : ℝ) ^ 10) (by linarith) (pow_le_pow_right₀ (by norm_num) (by norm_num)))
      exact this.mono (div_le_div_of_nonneg_left (abs_nonneg _) (by positivity) (by norm_num))

namespace FP
variable {x y z : FP E} {a b c k l m : ℝ}

theorem le_iff_toR (hx : x.isFinite) (hy : y.isFinite) : (x <=? y) = true ↔ x.toR ≤ y.toR := by
  rw [le_iff, show x.toE = _ from isFinite.toE_eq hx, show y.toE = _ from isFinite.toE_eq hy,
    EReal.coe_le_coe_iff]
  exact ⟨fun h => h.2.2, fun h => ⟨isFinite.not_nan hx, isFinite.not_nan hy, h⟩⟩

/-- A positive literal, rounded. -/
theorem lit_ap {m : ℕ} {s : Bool} {e : ℕ} {v : ℝ} {n : ℕ} (h : (OfScientific.ofScientific m s e : ℝ) = v)
    (hm : Mid n v) (hn : n ≤ 900) : Ap 1 n (OfScientific.ofScientific m s e : FP E) v := by
  have hm' := hm.mono hn
  refine ⟨?_, hm⟩
  rw [lit, h]
  exact (rel_round (E := E) (k := 0) (s := false) (v := v) (d := 0) hm.pos hm'.1 hm'.2
      (by simp) (by norm_num) (by ring)).mono (by norm_num)

theorem two_ap : Ap 0 1 (2.0 : FP E) 2 := ⟨lit_rel (lit_in (E := E) (m := 20) (s := true) (e := 1) (v := 2)
    (by norm_num) (SRep.ofNat 2 (by norm_num))), by norm_num, by norm_num⟩

theorem one_ap : Ap 0 0 (1.0 : FP E) 1 := ⟨Rel.of_eq one_in.finite (le_antisymm one_in.toR.2 one_in.toR.1),
    by norm_num, by norm_num⟩

theorem Ap.near (h : Ap k n x a) (hM : k * a ≤ b) : Near (b / 2 ^ 50) x a := by
  refine (h.1.near h.2.pos.le).mono ?_
  rw [div_mul_eq_mul_div]
  exact div_le_div_of_nonneg_right hM (by positivity)

end FP

namespace TrueSkill
variable {x y : FP E}

/-- The square root of the first guess. -/
theorem root_ap (G : E.LogAccurate) (hy : y.isFinite) (h0 : 1 / 2 ^ 21 ≤ y.toR) (h1 : y.toR ≤ 1) :
    Ap 53 5 (Flt.sqrt (-(2.0 : FP E) * Flt.ln (y / (2.0 : FP E)))) √(-2 * Real.log (y.toR / 2)) := by
  have a1 : Ap 0 21 y y.toR := ⟨Rel.exact hy, h0, h1.trans (by norm_num)⟩
  have a2 := a1.div two_ap (by norm_num) (by norm_num) (by norm_num)
  have hY : 0 < y.toR / 2 := a2.2.pos
  have hl1 : Real.log (y.toR / 2) ≤ -0.69 := by
    have h : Real.log (y.toR / 2) ≤ -Real.log 2 := by
      rw [← Real.log_inv]
      exact Real.log_le_log (by positivity) (by linarith)
    have := Real.log_two_gt_d9
    norm_num at this ⊢; linarith
  have hl2 : -15.3 ≤ Real.log (y.toR / 2) := by
    have h : -(22 * Real.log 2) ≤ Real.log (y.toR / 2) := by
      rw [show 22 * Real.log 2 = Real.log (2 ^ 22) by rw [Real.log_pow]; norm_num, ← Real.log_inv]
      refine Real.log_le_log (by positivity) ?_
      norm_num at h0 ⊢; linarith
    have := Real.log_two_lt_d9
    norm_num at this ⊢; linarith
  obtain ⟨⟨f, δ, hδ, e⟩, -⟩ := a2
  have hδ' := abs_le.1 hδ
  have hlog : |Real.log (y / (2.0 : FP E)).toR - Real.log (y.toR / 2)| ≤ 2 / 2 ^ 50 := by
    have h1δ : 0 < 1 + δ := by norm_num at hδ' ⊢; linarith [hδ'.1]
    rw [e, Real.log_mul hY.ne' h1δ.ne', add_sub_cancel_left, abs_le]
    constructor
    · have := Real.one_sub_inv_le_log_of_pos h1δ
      refine le_trans ?_ this
      rw [le_sub_iff_add_le, ← le_sub_iff_add_le', inv_le_comm₀ h1δ (by norm_num)]
      refine le_trans ?_ (add_le_add le_rfl hδ'.1)
      norm_num
    · have := Real.log_le_sub_one_of_pos h1δ
      norm_num at hδ' ⊢; linarith [hδ'.2]
  have hb : (1 : ℝ) / 2 ^ 500 ≤ (y / (2.0 : FP E)).toR ∧ (y / (2.0 : FP E)).toR ≤ 3 / 4 := by
    rw [e]
    have k1 : (0.99 : ℝ) ≤ 1 + δ := by norm_num at hδ' ⊢; linarith [hδ'.1]
    have k2 : 1 + δ ≤ (1.01 : ℝ) := by norm_num at hδ' ⊢; linarith [hδ'.2]
    constructor
    · refine le_trans (one_div_le_one_div_of_le (by positivity)
            (pow_le_pow_right₀ (by norm_num) (by norm_num : 23 ≤ 500))) ?_
      have := mul_le_mul (show 1 / 2 ^ 22 ≤ y.toR / 2 by norm_num at h0 ⊢; linarith) k1 (by norm_num) hY.le
      refine le_trans (by norm_num) this
    · have := mul_le_mul (show y.toR / 2 ≤ 1 / 2 by linarith) k2 (by linarith) (by norm_num)
      refine this.trans (by norm_num)
  have n1 := G.ln _ f hb.1 hb.2
  have n2 : Near (18 / 2 ^ 50) (Flt.ln (y / (2.0 : FP E))) (Real.log (y.toR / 2)) := by
    refine ⟨n1.1, (abs_sub_le _ _ _).trans ((add_le_add n1.2 hlog).trans ?_)⟩
    have := abs_le.1 hlog
    have : |Real.log (y / (2.0 : FP E)).toR| ≤ 16 := by
      rw [abs_le]; constructor <;> norm_num at this hl1 hl2 ⊢ <;> linarith [this.1, this.2]
    norm_num at this ⊢; linarith
  have t2 : Near 0 (-(2.0 : FP E)) (-2) := (near_of_in (lit_in (E := E) (m := 20) (s := true) (e := 1) (v := 2)
    (by norm_num) (SRep.ofNat 2 (by norm_num)))).neg
  have habs : |Real.log (y.toR / 2)| = -Real.log (y.toR / 2) := abs_of_nonpos (by norm_num at hl1; linarith)
  have n3 := near_mul (M := 31) t2 n2 (by
    rw [abs_mul, habs]; norm_num at hl2 ⊢; linarith) (by norm_num) (le_huge 5 (by norm_num) (by norm_num))
  have hV : 1 ≤ -2 * Real.log (y.toR / 2) := by norm_num at hl1 ⊢; linarith
  have hV2 : -2 * Real.log (y.toR / 2) ≤ 31 := by norm_num at hl2 ⊢; linarith
  have a3 : Ap 52 5 (-(2.0 : FP E) * Flt.ln (y / (2.0 : FP E))) (-2 * Real.log (y.toR / 2)) := by
    refine ⟨Rel.of_near (by linarith) (n3.mono ?_), by norm_num; linarith, by norm_num; linarith⟩
    norm_num; linarith
  exact (a3.sqrt (by norm_num) (by norm_num)).mono (by norm_num) le_rfl

theorem frac1Sqrt2_near : Near (1 / 2 ^ 50) (Flt.frac1Sqrt2 : FP E) (1 / √2) := by
  have h1 : (1 : ℝ) ≤ √2 := by rw [Real.le_sqrt' one_pos]; norm_num
  have h : |1 / √(2 : ℝ)| ≤ 1 := by
    rw [abs_of_pos (by positivity), div_le_one (by positivity)]; exact h1
  exact (round_abs (E := E) false h le_rfl (le_huge 0 (by norm_num) (by norm_num))).mono (by norm_num)

/-- The first guess in floating-point arithmetic. -/
theorem guess_fp (G : E.LogAccurate) (hy : y.isFinite) (h0 : 1 / 2 ^ 21 ≤ y.toR) (h1 : y.toR ≤ 1) :
    let t := Flt.sqrt (-(2.0 : FP E) * Flt.ln (y / (2.0 : FP E)))
    Near (1 / 2 ^ 40) (-Flt.frac1Sqrt2
      * (Flt.mulAdd t (0.27061 : FP E) (2.30753 : FP E)
        / Flt.mulAdd t (Flt.mulAdd t (0.04481 : FP E) (0.99229 : FP E)) (1.0 : FP E) - t)) (erfcInvGuess y.toR) := by
  intro t
  have ht : Ap 53 5 t √(-2 * Real.log (y.toR / 2)) := root_ap G hy h0 h1
  have hT : √(-2 * Real.log (y.toR / 2)) ≤ 5.6 := by
    rw [Real.sqrt_le_left (by norm_num)]
    have h : -(22 * Real.log 2) ≤ Real.log (y.toR / 2) := by
      rw [show 22 * Real.log 2 = Real.log (2 ^ 22) by rw [Real.log_pow]; norm_num, ← Real.log_inv]
      refine Real.log_le_log (by positivity) ?_
      norm_num at h0 ⊢; linarith
    have := Real.log_two_lt_d9
    norm_num at this ⊢; linarith
  rw [erfcInvGuess]
  have hT0 := ht.2.pos
  generalize √(-2 * Real.log (y.toR / 2)) = T at *
  have l1 : Ap 1 2 (0.27061 : FP E) 0.27061 := lit_ap rfl ⟨by norm_num, by norm_num⟩ (by norm_num)
  have l2 : Ap 1 7 (2.30753 : FP E) 2.30753 := lit_ap rfl ⟨by norm_num, by norm_num⟩ (by norm_num)
  have l3 : Ap 1 5 (0.04481 : FP E) 0.04481 := lit_ap rfl ⟨by norm_num, by norm_num⟩ (by norm_num)
  have l4 : Ap 1 10 (0.99229 : FP E) 0.99229 := lit_ap rfl ⟨by norm_num, by norm_num⟩ (by norm_num)
  have b1 := ht.mulAdd l1 l2 (by norm_num) (by norm_num) (by norm_num) (by norm_num)
  have b2 := ht.mulAdd l3 l4 (by norm_num) (by norm_num) (by norm_num) (by norm_num)
  have b3 := ht.mulAdd b2 (one_ap.mono (k' := 0) (n' := 5 + (5 + 5 + 1)) (by norm_num) (by norm_num)) (by norm_num) (by norm_num) (by norm_num) (by norm_num)
  have b4 := b1.div b3 (by norm_num) (by norm_num) (by norm_num)
  have hQ : (T * 0.27061 + 2.30753) / (T * (T * 0.04481 + 0.99229) + 1) ≤ 2.4 := by
    rw [div_le_iff₀ (by positivity)]
    have : 0 < T * (T * 0.04481) := by positivity
    norm_num at this ⊢; nlinarith
  have hQ0 := b4.2.pos
  have e : -((2.30753 + 0.27061 * T) / (1 + 0.99229 * T + 0.04481 * T ^ 2) - T) / √2
      = -(1 / √2) * ((T * 0.27061 + 2.30753) / (T * (T * 0.04481 + 0.99229) + 1) - T) := by
    rw [show (2.30753 + 0.27061 * T) = T * 0.27061 + 2.30753 by ring,
      show (1 + 0.99229 * T + 0.04481 * T ^ 2) = T * (T * 0.04481 + 0.99229) + 1 by ring]
    ring
  rw [e]
  generalize (T * 0.27061 + 2.30753) / (T * (T * 0.04481 + 0.99229) + 1) = Q at *
  have c1 := b4.near (b := 400) (by norm_num at hQ ⊢; linarith)
  have c2 := ht.near (b := 300) (by norm_num at hT ⊢; linarith)
  have hQT : |Q - T| ≤ 6 := by rw [abs_le]; constructor <;> norm_num at hT hQ ⊢ <;> linarith
  have c3 := near_sub (M := 7) c1 c2 (by norm_num; linarith) (by norm_num) (le_huge 3 (by norm_num) (by norm_num))
  have hs : |-(1 / √(2 : ℝ))| ≤ 1 := by
    have h1 : (1 : ℝ) ≤ √2 := by rw [Real.le_sqrt' one_pos]; norm_num
    rw [abs_neg, abs_of_pos (by positivity), div_le_one (by positivity)]; exact h1
  have c4 := frac1Sqrt2_near (E := E).neg
  have hp := mul_le_mul hs hQT (abs_nonneg _) zero_le_one
  rw [← abs_mul] at hp
  have c5 := near_mul (M := 8) c4 c3 (by
    norm_num at hp hs hQT ⊢; nlinarith) (by norm_num) (le_huge 3 (by norm_num) (by norm_num))
  refine c5.mono ?_
  norm_num at hp hs hQT ⊢; nlinarith

theorem frac2SqrtPi_near : Near (1 / 2 ^ 50) (Flt.frac2SqrtPi : FP E) (2 / √Real.pi) := by
  have h := two_div_sqrt_pi_lt
  have h0 : 0 < 2 / √Real.pi := div_pos two_pos (Real.sqrt_pos.2 Real.pi_pos)
  exact (round_abs (E := E) false (x := 2 / √Real.pi) (M := 2) (by rw [abs_of_pos h0]; norm_num at h ⊢; linarith)
    (by norm_num) (le_huge 1 (by norm_num) (by norm_num))).mono (by norm_num)

/-- A step in floating-point arithmetic. -/
theorem step_fp (L : E.Lib) (A : E.Accurate) {z h : ℝ} (hx : x.isFinite) (hy : y.isFinite)
    (h0 : 1 / 2 ^ 21 ≤ y.toR) (h1 : y.toR ≤ 1) (hz : erfcExact z = y.toR) (hz0 : 0 ≤ z) (hz6 : z ≤ 6.38)
    (hd : |z - x.toR| ≤ h) (hh : h ≤ 0.0101) :
    ∃ w : ℝ, |w - (erfcExact x.toR - y.toR)| ≤ 6.01e-7 * erfcExact x.toR + 5e-16 ∧
      Near (1 / 2 ^ 40) (inverseErfcStep y x) (x.toR + w / (slope x.toR - x.toR * w)) := by
  have hd' := abs_le.1 hd
  have hx4 : |x.toR| ≤ 6.4 := by rw [abs_le]; constructor <;> norm_num at hz6 hh ⊢ <;> linarith [hd'.1, hd'.2]
  have hx2 : -0.02 ≤ x.toR := by norm_num at hh ⊢; linarith [hd'.2]
  have hE := erfc_le_near hx2
  have hE0 := erfcExact_pos x.toR
  obtain ⟨ef, e1, -, e3⟩ := erfc_fp A hx (hx4.trans (by norm_num))
  have w1 := near_sub (M := 1.06) (near_self ef) (near_self hy) (by
    have := abs_le.1 e1
    have h3 : (0 : ℝ) < 1 / 2 ^ 720 := by positivity
    have h4 : 0 < (erfc x).toR := lt_of_lt_of_le h3 e3
    rw [add_zero, add_zero, abs_le]
    constructor <;> norm_num at this hE ⊢ <;> linarith [this.1, this.2]) (by norm_num)
    (le_huge 1 (by norm_num) (by norm_num))
  have hw : |(erfc x - y).toR - (erfcExact x.toR - y.toR)| ≤ 6.01e-7 * erfcExact x.toR + 5e-16 := by
    have := abs_sub_le (erfc x - y).toR ((erfc x).toR - y.toR) (erfcExact x.toR - y.toR)
    refine this.trans ?_
    rw [show (erfc x).toR - y.toR - (erfcExact x.toR - y.toR) = (erfc x).toR - erfcExact x.toR by ring, add_comm]
    refine add_le_add e1 (w1.2.trans (by norm_num))
  refine ⟨(erfc x - y).toR, hw, ?_⟩
  obtain ⟨-, r2, r3, r4, -, -, -⟩ := step_real hz hz0 hz6 h0 hd hh hw
  have wf := w1.1
  rw [show inverseErfcStep y x = x + (erfc x - y) / Flt.mulAdd Flt.frac2SqrtPi (Flt.exp (-(Flt.powi x 2)))
    (-x * (erfc x - y)) from rfl]
  generalize erfc x - y = W at *
  -- the slope
  have p1 : Near (41 / 2 ^ 51) (Flt.powi x 2) (x.toR * x.toR) := by
    rw [show Flt.powi x 2 = x * x from L.powi_two x]
    have := near_mul (M := 41) (near_self hx) (near_self hx) (by
      rw [abs_mul]
      have := mul_le_mul hx4 hx4 (abs_nonneg _) (by norm_num)
      norm_num at this ⊢; linarith) (by norm_num) (le_huge 6 (by norm_num) (by norm_num))
    simpa using this
  have hxx : |-(x.toR * x.toR)| ≤ 450 := by
    rw [abs_neg, abs_mul]
    have := mul_le_mul hx4 hx4 (abs_nonneg _) (by norm_num)
    norm_num at this ⊢; linarith
  have p2 := exp_ap_wide (τ := 20.5) A (p1.neg.mono (by norm_num)) hxx (by norm_num)
  rw [show -(x.toR * x.toR) = -x.toR ^ 2 by ring] at p2
  have p3 := p2.1.near p2.2.pos.le
  have sl : slope x.toR = 2 / √Real.pi * Real.exp (-x.toR ^ 2) := rfl
  have hs := slope_pos x.toR
  have hk1 := two_div_sqrt_pi
  have hk2 := two_div_sqrt_pi_lt
  have hb0 := Real.exp_pos (-x.toR ^ 2)
  have hsm : slope x.toR ≤ 1.13 := by
    rw [sl]
    have := mul_le_mul hk2.le (Real.exp_le_one_iff.2 (by nlinarith : -x.toR ^ 2 ≤ 0)) hb0.le (by norm_num)
    norm_num at this ⊢; linarith
  have q900 : (1 : ℝ) / 2 ^ 900 ≤ 4.6e-7 := by
    refine le_trans (one_div_le_one_div_of_le (by positivity) (pow_le_pow_right₀ (by norm_num) (by norm_num : 22 ≤ 900))) ?_
    norm_num
  have Q900 : (2 : ℝ) ≤ 2 ^ 900 := le_self_pow₀ (by norm_num) (by norm_num)
  have hxw : |-x.toR * W.toR| ≤ 0.08 * slope x.toR := by
    rw [abs_mul, abs_neg]
    refine (mul_le_mul hx4 r3 (abs_nonneg _) (by norm_num)).trans ?_
    norm_num; linarith
  have hb1 : Real.exp (-x.toR ^ 2) ≤ slope x.toR := by
    rw [sl]; exact le_mul_of_one_le_left hb0.le (by norm_num at hk1; linarith)
  have D : Near (52 / 2 ^ 50 * (slope x.toR - x.toR * W.toR))
      (Flt.mulAdd Flt.frac2SqrtPi (Flt.exp (-(Flt.powi x 2))) (-x * W)) (slope x.toR - x.toR * W.toR) := by
    have m1 := small_mul (M := slope x.toR) (near_self hx).neg (near_self wf) (by
      simp only [zero_mul, mul_zero, add_zero]
      exact hxw.trans (by norm_num; linarith)) (q900.trans r4) (le_trans (by norm_num at hsm; linarith) Q900)
    have hc : |2 / √Real.pi| = 2 / √Real.pi := abs_of_pos (by linarith)
    have hab : |2 / √Real.pi * Real.exp (-x.toR ^ 2) + -x.toR * W.toR| ≤ 1.08 * slope x.toR := by
      rw [← sl]
      refine (abs_add_le _ _).trans ?_
      rw [abs_of_pos hs]; norm_num at hxw ⊢; linarith
    have m2 := small_mulAdd (M := 1.1 * slope x.toR) frac2SqrtPi_near p3 m1 (by
      rw [hc, abs_of_pos hb0]
      have : 2 / √Real.pi * ((2 * 20.5 + 2) / 2 ^ 50 * Real.exp (-x.toR ^ 2))
        = (2 * 20.5 + 2) / 2 ^ 50 * slope x.toR := by rw [sl]; ring
      rw [this]
      generalize 2 / √Real.pi * Real.exp (-x.toR ^ 2) + -x.toR * W.toR = Z at *
      norm_num at hab hb1 hs ⊢; linarith) (q900.trans (by norm_num at r4 ⊢; linarith)) (le_trans (by norm_num at hsm ⊢; linarith) Q900)
    rw [← sl, show slope x.toR + -x.toR * W.toR = slope x.toR - x.toR * W.toR by ring] at m2
    refine m2.mono ?_
    rw [hc, abs_of_pos hb0]
    have : 2 / √Real.pi * ((2 * 20.5 + 2) / 2 ^ 50 * Real.exp (-x.toR ^ 2))
        = (2 * 20.5 + 2) / 2 ^ 50 * slope x.toR := by rw [sl]; ring
    rw [this]
    have r2' := mul_le_mul_of_nonneg_left r2 (show (0 : ℝ) ≤ 52 / 2 ^ 50 by norm_num)
    generalize slope x.toR - x.toR * W.toR = Z at *
    simp only [neg_zero, zero_mul, mul_zero, zero_add, add_zero]
    norm_num at r2' hb1 hs ⊢; linarith
  have hD0 : 0 < slope x.toR - x.toR * W.toR := by norm_num at r2; linarith
  have q1 := near_quotient (M := 1) wf (Rel.of_near hD0 D) hD0 (by
    rw [div_le_one hD0]; norm_num at r2 r3; linarith) le_rfl (by norm_num) (by norm_num)
  have hq : |W.toR / (slope x.toR - x.toR * W.toR)| ≤ 0.1 := by
    rw [abs_div, abs_of_pos hD0, div_le_iff₀ hD0]
    norm_num at r2 r3 ⊢; linarith
  have q2 := near_add (M := 7) (near_self hx) q1 (by
    refine le_trans (add_le_add (abs_add_le _ _) le_rfl) ?_
    generalize W.toR / (slope x.toR - x.toR * W.toR) = Z at *
    norm_num at hx4 hq ⊢; linarith) (by norm_num) (le_huge 3 (by norm_num) (by norm_num))
  exact q2.mono (by norm_num)

/-- The inverse of the complementary error function in floating-point arithmetic, on the reflected branch. -/
theorem inverse_fp (L : E.Lib) (A : E.Accurate) (G : E.LogAccurate) {d : FP E} (hy : y.isFinite) (hy1 : 1 ≤ y.toR)
    (hy2 : y.toR < 2) (hd : (2.0 : FP E) - y = d) (hdf : d.isFinite) (h0 : 1 / 2 ^ 21 ≤ d.toR) (h1 : d.toR ≤ 1) :
    ∃ x : FP E, inverseErfc y = -x ∧ x.isFinite ∧ |x.toR| ≤ 6.4 ∧ -0.02 ≤ x.toR ∧
      |erfcExact x.toR - d.toR| ≤ 6.9e-7 * d.toR := by
  have t2 := two_ap (E := E)
  have e2 : (2.0 : FP E).toR = 2 := by
    obtain ⟨⟨-, δ, hδ, e⟩, -⟩ := t2
    have : δ = 0 := by simpa using hδ
    rw [e, this]; norm_num
  have e1 : (1.0 : FP E).toR = 1 := le_antisymm one_in.toR.2 one_in.toR.1
  have c1 : ((2.0 : FP E) <=? y) = false := by
    rw [Bool.eq_false_iff, ne_eq, le_iff_toR t2.1.1 hy, e2]; linarith
  have c2 : (y <=? (0.0 : FP E)) = false := by
    rw [Bool.eq_false_iff, ne_eq, le_iff_toR hy zero_in.finite, le_antisymm zero_in.toR.2 zero_in.toR.1]; linarith
  have c3 : (y <? (1.0 : FP E)) = false := by
    rw [Bool.eq_false_iff, ne_eq, lt_iff_toR hy one_in.finite, e1]; linarith
  obtain ⟨z, hz0, hz⟩ := exists_erfc (lt_of_lt_of_le (by norm_num) h0) h1
  have h0' : (1e-17 : ℝ) ≤ d.toR := le_trans (by norm_num) h0
  obtain ⟨g0, g1⟩ := guess_bounds (lt_of_lt_of_le (by norm_num) h0) h1
  have g2 := guess_near h0' h1 hz
  have g3 : erfcInvGuess d.toR ≤ 6.365 := by
    refine g1.trans ?_
    rw [← mul_one_div]
    calc √(-2 * Real.log (d.toR / 2)) * (1 / √2) ≤ 9 * 0.7071068 :=
          mul_le_mul (root_lt_nine h0' h1).le sqrt_two_bounds.2 (by positivity) (by norm_num)
      _ ≤ _ := by norm_num
  have hz6 : z ≤ 6.38 := by have := (abs_le.1 g2).2; norm_num at this g3 ⊢; linarith
  have gf := guess_fp G hdf h0 h1
  simp only at gf
  simp only [inverseErfc, c1, c2, c3, hd, Bool.false_eq_true, if_false]
  generalize (-Flt.frac1Sqrt2
      * (Flt.mulAdd (Flt.sqrt (-(2.0 : FP E) * Flt.ln (d / (2.0 : FP E)))) (0.27061 : FP E) (2.30753 : FP E)
        / Flt.mulAdd (Flt.sqrt (-(2.0 : FP E) * Flt.ln (d / (2.0 : FP E))))
          (Flt.mulAdd (Flt.sqrt (-(2.0 : FP E) * Flt.ln (d / (2.0 : FP E)))) (0.04481 : FP E) (0.99229 : FP E)) (1.0 : FP E)
          - Flt.sqrt (-(2.0 : FP E) * Flt.ln (d / (2.0 : FP E))))) = x₀ at *
  have d0 : |z - x₀.toR| ≤ 0.0101 := by
    have := abs_sub_le z (erfcInvGuess d.toR) x₀.toR
    rw [abs_sub_comm (erfcInvGuess d.toR) x₀.toR] at this
    have := gf.2
    norm_num at g2 this ⊢; linarith
  obtain ⟨w₀, hw0, n1⟩ := step_fp L A gf.1 hdf h0 h1 hz hz0 hz6 d0 le_rfl
  have hnext := fun w => two_steps (x₂ := (inverseErfcStep d (inverseErfcStep d x₀)).toR) (w₁ := w) hz hz0 hz6 h0 h1
    d0 hw0 n1.2
  have d1 := (hnext 0).1
  obtain ⟨w₁, hw1, n2⟩ := step_fp L A n1.1 hdf h0 h1 hz hz0 hz6 d1 (by norm_num)
  obtain ⟨d2, fin⟩ := (hnext w₁).2 hw1 n2.2
  have d2' := abs_le.1 d2
  refine ⟨_, rfl, n2.1, ?_, ?_, fin⟩
  · rw [abs_le]; constructor <;> norm_num at hz6 d2' ⊢ <;> linarith [d2'.1, d2'.2]
  · norm_num at d2' ⊢; linarith [d2'.2]

/-- The argument of the inverse and its reflection. -/
theorem argument_fp {p : FP E} (hp : p.isFinite) (h0 : 0 ≤ p.toR) (h1 : p.toR ≤ 1 - 1 / 2 ^ 20) :
    let y := (2.0 : FP E) * ((p + (1.0 : FP E)) / (2.0 : FP E))
    y.isFinite ∧ 1 ≤ y.toR ∧ y.toR < 2 ∧ Near (4 / 2 ^ 50) ((2.0 : FP E) - y) (1 - p.toR) ∧
      1 / 2 ^ 21 ≤ ((2.0 : FP E) - y).toR ∧ ((2.0 : FP E) - y).toR ≤ 1 := by
  intro y
  have t2 : Near 0 (2.0 : FP E) 2 := near_of_in (lit_in (E := E) (m := 20) (s := true) (e := 1) (v := 2)
    (by norm_num) (SRep.ofNat 2 (by norm_num)))
  have e2 : (2.0 : FP E).toR = 2 := by have := abs_nonpos_iff.1 t2.2; linarith
  have t1 : Near 0 (1.0 : FP E) 1 := near_of_in one_in
  have e1 : (1.0 : FP E).toR = 1 := le_antisymm one_in.toR.2 one_in.toR.1
  have hM : ∀ n : ℕ, n ≤ 3 → (n : ℝ) ≤ 2 ^ 1000 := fun n hn => le_huge 2
    (by have : (n : ℝ) ≤ 3 := by exact_mod_cast hn
        linarith) (by norm_num)
  -- bounds
  have b1 : 1 ≤ (p + (1.0 : FP E)).toR ∧ (p + (1.0 : FP E)).toR ≤ 2 := by
    obtain ⟨s, e⟩ := add_fin hp t1.1
    have := (In.of_round (E := E) s SRep.one (SRep.ofNat 2 (by norm_num)) (v := p.toR + (1.0 : FP E).toR)
      (by rw [e1]; linarith) (by rw [e1]; norm_num at h1; linarith)).toR
    rwa [← e] at this
  have n1 := near_add (M := 2) (near_self hp) t1 (by
    rw [abs_of_nonneg (by linarith)]; norm_num at h1 ⊢; linarith) (by norm_num) (by simpa using hM 2 (by norm_num))
  have b2 : 1 / 2 ≤ ((p + (1.0 : FP E)) / (2.0 : FP E)).toR ∧ ((p + (1.0 : FP E)) / (2.0 : FP E)).toR ≤ 1 := by
    obtain ⟨s, e⟩ := div_fin n1.1 t2.1 (by rw [e2]; norm_num)
    have := (In.of_round (E := E) s SRep.half SRep.one (v := (p + (1.0 : FP E)).toR / (2.0 : FP E).toR)
      (by rw [e2]; linarith [b1.1]) (by rw [e2]; linarith [b1.2])).toR
    rwa [← e] at this
  have n2 := near_div_const (M := 2) n1 t2 two_pos (by
    rw [abs_of_nonneg (by linarith)]; norm_num at h1 ⊢; linarith) (by norm_num) (by simpa using hM 2 (by norm_num))
  have b3 : 1 ≤ y.toR ∧ y.toR ≤ 2 := by
    obtain ⟨s, e⟩ := mul_fin t2.1 n2.1
    have := (In.of_round (E := E) s SRep.one (SRep.ofNat 2 (by norm_num))
      (v := (2.0 : FP E).toR * ((p + (1.0 : FP E)) / (2.0 : FP E)).toR)
      (by rw [e2]; linarith [b2.1]) (by rw [e2]; linarith [b2.2])).toR
    rwa [← e] at this
  -- distances
  have c1 : Near (1 / 2 ^ 50) (p + (1.0 : FP E)) (p.toR + 1) := n1.mono (by norm_num)
  have c2 : Near (1 / 2 ^ 50) ((p + (1.0 : FP E)) / (2.0 : FP E)) ((p.toR + 1) / 2) := by
    have := near_div_const (M := 1) c1 t2 two_pos (by
      rw [abs_of_nonneg (by linarith)]; norm_num at h1 ⊢; linarith) (by norm_num) (by simpa using hM 1 (by norm_num))
    exact this.mono (by norm_num)
  have c3 : Near (3 / 2 ^ 50) y (p.toR + 1) := by
    have := near_mul (M := 2) t2 c2 (by
      rw [abs_of_nonneg (by linarith : 0 ≤ 2 * ((p.toR + 1) / 2))]; norm_num at h1 ⊢; linarith) (by norm_num)
      (by simpa using hM 2 (by norm_num))
    rw [mul_div_cancel₀ _ two_ne_zero] at this
    exact this.mono (by norm_num)
  have c3' := abs_le.1 c3.2
  have c4 : Near (4 / 2 ^ 50) ((2.0 : FP E) - y) (1 - p.toR) := by
    have := near_sub (M := 1.5) t2 c3 (by
      rw [abs_of_nonneg (by norm_num at h1; linarith)]; norm_num; linarith) (by norm_num)
      (le_huge 1 (by norm_num) (by norm_num))
    rw [show 2 - (p.toR + 1) = 1 - p.toR by ring] at this
    exact this.mono (by norm_num)
  have c4' := abs_le.1 c4.2
  refine ⟨c3.1, b3.1, by norm_num at h1 c3' ⊢; linarith [c3'.2], c4, by norm_num at h1 c4' ⊢; linarith [c4'.1], ?_⟩
  obtain ⟨s, e⟩ := sub_fin t2.1 c3.1
  have := (In.of_round (E := E) s SRep.zero SRep.one (v := (2.0 : FP E).toR - y.toR)
      (by rw [e2]; linarith [b3.2]) (by rw [e2]; linarith [b3.1])).toR
  rw [← e] at this
  exact this.2

/-- The draw margin in floating-point arithmetic. -/
theorem margin_fp (L : E.Lib) (A : E.Accurate) (G : E.LogAccurate) {p β N : FP E} (hp : p.isFinite)
    (h0 : 0 ≤ p.toR) (h1 : p.toR ≤ 1 - 1 / 2 ^ 20) (hβ : Between (1 / 2 ^ 20) (2 ^ 20) β)
    (hN : Between 1 (2 ^ 10) N) :
    (drawMargin p β N).isFinite ∧ |(drawMargin p β N).toR| ≤ 10 * (√N.toR * β.toR) ∧
      |erfcExact ((drawMargin p β N).toR / (√2 * √N.toR * β.toR)) - (1 - p.toR)| ≤ 7e-7 * (1 - p.toR) := by
  obtain ⟨y1, y2, y3, y4, y5, y6⟩ := argument_fp hp h0 h1
  obtain ⟨x, ex, xf, x6, xn, xe⟩ := inverse_fp L A G y1 y2 y3 rfl y4.1 y5 y6
  have e : drawMargin p β N = Flt.mulAdd ((1.0 : FP E) * Flt.sqrt2) (- -x) (0.0 : FP E) * Flt.sqrt N * β := by
    simp only [drawMargin, inverseCdf, ex]
  rw [e]
  have sq := sqrt2_ap (E := E)
  have s1 : (1.414 : ℝ) ≤ √2 := by rw [Real.le_sqrt' (by norm_num)]; norm_num
  have s2 : √(2 : ℝ) ≤ 1.415 := by rw [Real.sqrt_le_left (by norm_num)]; norm_num
  have a1 := sq.near (b := 2.83) (by norm_num at s2 ⊢; linarith)
  have a2 : Near 0 (- -x) x.toR := by simpa using (near_self xf).neg.neg
  have hsx : |√2 * x.toR + 0| ≤ 9.1 := by
    rw [add_zero, abs_mul, abs_of_nonneg (Real.sqrt_nonneg 2)]
    have := mul_le_mul s2 x6 (abs_nonneg _) (by norm_num)
    norm_num at this ⊢; linarith
  have a3 := near_mulAdd (M := 9.2) a1 a2 (near_of_in zero_in) (by
    simp only [mul_zero, add_zero] at hsx ⊢
    norm_num at hsx x6 ⊢; linarith) (by norm_num) (le_huge 4 (by norm_num) (by norm_num))
  have a4 : Near (25 / 2 ^ 50) (Flt.mulAdd ((1.0 : FP E) * Flt.sqrt2) (- -x) (0.0 : FP E)) (√2 * x.toR) := by
    rw [add_zero (√2 * x.toR)] at a3
    refine a3.mono ?_
    simp only [mul_zero, add_zero]
    norm_num at x6 ⊢; linarith
  rw [add_zero] at hsx
  -- times the square root
  have n1 : Ap 0 10 N N.toR := ⟨Rel.exact hN.1, le_trans (by norm_num) hN.2.1, hN.2.2⟩
  have n2 := n1.sqrt (by norm_num) (by norm_num)
  have n3 := n2.near (b := √N.toR) (by norm_num)
  have hR1 : 1 ≤ √N.toR := by rw [Real.one_le_sqrt]; exact hN.2.1
  have hR2 : √N.toR ≤ 2 ^ 5 := by rw [Real.sqrt_le_left (by norm_num)]; exact hN.2.2.trans (by norm_num)
  set R := √N.toR
  have hR0 : 0 < R := by linarith
  have q900 : (1 : ℝ) / 2 ^ 900 ≤ 1 / 2 ^ 20 :=
    one_div_le_one_div_of_le (by positivity) (pow_le_pow_right₀ (by norm_num) (by norm_num))
  have Q900 : (2 : ℝ) ^ 40 ≤ 2 ^ 900 := pow_le_pow_right₀ (by norm_num) (by norm_num)
  have a5 := small_mul (M := 9.3 * R) a4 n3 (by
    rw [abs_mul, abs_of_pos hR0]
    have := mul_le_mul_of_nonneg_right hsx hR0.le
    norm_num at this ⊢; nlinarith) (q900.trans (by norm_num; linarith)) (le_trans (by norm_num at hR2 ⊢; linarith) Q900)
  have a6 : Near (40 / 2 ^ 50 * R) (Flt.mulAdd ((1.0 : FP E) * Flt.sqrt2) (- -x) (0.0 : FP E) * Flt.sqrt N)
      (√2 * x.toR * R) := by
    refine a5.mono ?_
    rw [abs_of_pos hR0]
    have := mul_le_mul_of_nonneg_right hsx hR0.le
    norm_num at this ⊢; nlinarith
  have hβ0 : 0 < β.toR := lt_of_lt_of_le (by positivity) hβ.2.1
  have hsxR : |√2 * x.toR * R| ≤ 9.1 * R := by
    rw [abs_mul, abs_of_pos hR0]; exact mul_le_mul_of_nonneg_right hsx hR0.le
  have hRβ : 0 < R * β.toR := by positivity
  have hRβ1 : 1 / 2 ^ 20 ≤ R * β.toR := hβ.2.1.trans (le_mul_of_one_le_left hβ0.le hR1)
  have hRβ2 : R * β.toR ≤ 2 ^ 25 := (mul_le_mul hR2 hβ.2.2 hβ0.le (by norm_num)).trans (by norm_num)
  have a7 := small_mul (M := 9.3 * (R * β.toR)) a6 (near_self hβ.1) (by
    rw [abs_mul _ β.toR, abs_of_pos hβ0]
    have := mul_le_mul_of_nonneg_right hsxR hβ0.le
    norm_num at this ⊢; nlinarith) (q900.trans (hRβ1.trans (by norm_num; linarith)))
    (le_trans (by norm_num at hRβ2 ⊢; linarith) Q900)
  have a8 : Near (50 / 2 ^ 50 * (R * β.toR))
      (Flt.mulAdd ((1.0 : FP E) * Flt.sqrt2) (- -x) (0.0 : FP E) * Flt.sqrt N * β) (√2 * x.toR * (R * β.toR)) := by
    rw [← mul_assoc (√2 * x.toR)]
    refine a7.mono ?_
    rw [abs_of_pos hβ0, mul_zero, mul_zero, add_zero, add_zero, mul_assoc]
    norm_num; linarith
  generalize Flt.mulAdd ((1.0 : FP E) * Flt.sqrt2) (- -x) (0.0 : FP E) * Flt.sqrt N * β = m at *
  refine ⟨a8.1, ?_, ?_⟩
  · have := a8.abs_le
    refine this.trans ?_
    rw [abs_mul, abs_of_pos hRβ]
    have := mul_le_mul_of_nonneg_right hsx hRβ.le
    norm_num at this ⊢; linarith
  · have hu : |m.toR / (√2 * R * β.toR) - x.toR| ≤ 1 / 2 ^ 44 := by
      have hden : 0 < √2 * R * β.toR := by positivity
      rw [show m.toR / (√2 * R * β.toR) - x.toR = (m.toR - √2 * x.toR * (R * β.toR)) / (√2 * R * β.toR) by
        field_simp, abs_div, abs_of_pos hden, div_le_iff₀ hden]
      refine a8.2.trans ?_
      rw [mul_assoc √2]
      have := mul_le_mul_of_nonneg_right s1 hRβ.le
      norm_num at this ⊢; linarith
    have hx' := abs_le.1 x6
    have hu' := abs_le.1 hu
    have hc := erfcExact_change (u := m.toR / (√2 * R * β.toR)) (v := x.toR)
      (by norm_num at hx' hu' ⊢; linarith [hx'.2, hu'.2]) (by norm_num at hx' ⊢; linarith [hx'.2])
      (by generalize |m.toR / (√2 * R * β.toR) - x.toR| = U at *
          norm_num at hu ⊢; linarith)
    have hE := erfc_le_near xn
    have hE0 := erfcExact_pos x.toR
    set D := ((2.0 : FP E) - (2.0 : FP E) * ((p + (1.0 : FP E)) / (2.0 : FP E))).toR
    have xe' := abs_le.1 xe
    have y4' := abs_le.1 y4.2
    have hc' : |erfcExact (m.toR / (√2 * R * β.toR)) - erfcExact x.toR| ≤ 90 / 2 ^ 44 * erfcExact x.toR := by
      refine hc.trans (mul_le_mul_of_nonneg_right ?_ hE0.le)
      generalize |m.toR / (√2 * R * β.toR) - x.toR| = U at *
      norm_num at hu ⊢; linarith
    have hc2 := abs_le.1 hc'
    generalize erfcExact (m.toR / (√2 * R * β.toR)) = Z at *
    have hp1 : 1 / 2 ^ 20 ≤ 1 - p.toR := by linarith
    rw [abs_le]
    constructor <;> norm_num at hc2 xe' y4' hp1 ⊢ <;> linarith [hc2.1, hc2.2, xe'.1, xe'.2, y4'.1, y4'.2]

end TrueSkill
end Skillratings
