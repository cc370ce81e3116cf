import Verif.Proofs.QuantileAccuracy
import Verif.Proofs.FPTie
import Verif.Props.FloatAccuracyWengLin
/-
The complementary error function of the crate and the normal distribution function in floating-point
arithmetic, against the exact ones.
-/

namespace Skillratings
open FP FPVal Spec
variable {E : FloatEnv}

namespace FP
variable {x y z : FP E} {a b c k l m : ℝ}

theorem abs_val (hx : x.isFinite) : (Flt.abs x).isFinite ∧ (Flt.abs x).toR = |x.toR| := by
  cases x with
  | nan => exact hx.elim
  | inf s => exact hx.elim
  | fin s r =>
    refine ⟨trivial, ?_⟩
    change signed false (r.1 : ℝ) = |signed s (r.1 : ℝ)|
    have h0 : (0 : ℝ) ≤ r.1 := r.2.nonneg
    cases s
    · simp [signed, abs_of_nonneg h0]
    · simp [signed, abs_of_nonneg h0]

/-- A literal of size at most two. -/
theorem lit_near {m : ℕ} {s : Bool} {e : ℕ} {v : ℝ} (h : (OfScientific.ofScientific m s e : ℝ) = v)
    (hv : |v| ≤ 2) : Near (E := E) (1 / 2 ^ 50) (OfScientific.ofScientific m s e : FP E) v := by
  rw [lit, h]
  exact (round_abs false hv (by norm_num) (le_huge 1 (by norm_num) (by norm_num))).mono (by norm_num)

/-- The exponential of an approximated number, for a wider range. -/
theorem exp_ap_wide (A : E.Accurate) {t : FP E} {T τ : ℝ} (ht : Near (τ / 2 ^ 50) t T) (hT : |T| ≤ 450)
    (hτ : τ ≤ 2 ^ 20) : Ap (2 * τ + 2) 700 (Flt.exp t) (Real.exp T) := by
  have hτ0 : 0 ≤ τ := by
    have := (abs_nonneg _).trans ht.2
    by_contra h
    have : τ / 2 ^ 50 < 0 := div_neg_of_neg_of_pos (not_le.1 h) (by positivity)
    linarith
  have hd := ht.2
  have hτ' : τ / 2 ^ 50 ≤ 1 / 2 ^ 30 := by norm_num at hτ ⊢; linarith
  have h := A.exp t ht.1 (by
    have := ht.abs_le
    norm_num at hτ' ⊢; linarith)
  set d := t.toR - T with hdd
  have e1 : Real.exp t.toR = Real.exp T * Real.exp d := by
    rw [← Real.exp_add, hdd]; congr 1; ring
  have h3 : |Real.exp d - 1| ≤ 2 * |d| := by
    have := Real.abs_exp_sub_one_le (x := d) (by norm_num at hτ' ⊢; linarith)
    exact this
  have hm : Mid 700 (Real.exp T) := by
    have key : ∀ y : ℝ, y ≤ 450 → Real.exp y ≤ 2 ^ 700 := by
      intro y hy
      have h2 : (2 : ℝ) ^ 700 = Real.exp (700 * Real.log 2) := by
        rw [show (700 : ℝ) = ((700 : ℕ) : ℝ) by norm_num, Real.exp_nat_mul, Real.exp_log (by norm_num)]
      rw [h2]
      exact Real.exp_le_exp.2 (by have := Real.log_two_gt_d9; linarith)
    refine ⟨?_, key T (le_of_abs_le hT)⟩
    have := key (-T) (by have := neg_le_of_abs_le hT; linarith)
    rw [div_le_iff₀ (by positivity)]
    have h4 := mul_le_mul_of_nonneg_left this (Real.exp_pos T).le
    rwa [← Real.exp_add, add_neg_cancel, Real.exp_zero] at h4
  refine ⟨Rel.of_near hm.pos ⟨h.1, ?_⟩, hm⟩
  have h5 := h.2
  have hp := hm.pos
  have e2 : (Flt.exp t).toR - Real.exp T
      = ((Flt.exp t).toR - Real.exp t.toR) + Real.exp T * (Real.exp d - 1) := by rw [e1]; ring
  rw [e2]
  refine (abs_add_le _ _).trans ?_
  rw [abs_mul, abs_of_pos hp]
  have h6 : Real.exp t.toR ≤ Real.exp T * 2 := by
    rw [e1]
    refine mul_le_mul_of_nonneg_left ?_ hp.le
    have := (abs_le.1 h3).2
    norm_num at hτ' ⊢
    linarith
  have h7 : Real.exp T * |Real.exp d - 1| ≤ Real.exp T * (2 * (τ / 2 ^ 50)) :=
    mul_le_mul_of_nonneg_left (h3.trans (by linarith)) hp.le
  change |(E.exp t).toR - Real.exp t.toR| + _ ≤ _
  calc _ ≤ Real.exp t.toR / 2 ^ 50 + Real.exp T * (2 * (τ / 2 ^ 50)) := add_le_add h5 h7
    _ ≤ Real.exp T * 2 / 2 ^ 50 + Real.exp T * (2 * (τ / 2 ^ 50)) := by gcongr
    _ = _ := by ring

/-- One step of Horner's rule on `[0, 1]`. -/
theorem horner {t p q : FP E} {T P Q : ℝ} (ht : Near (3 / 2 ^ 50) t T) (h0 : 0 ≤ T) (h1 : T ≤ 1)
    (hp : Near (k / 2 ^ 50) p P) (hP : |P| ≤ a) (ha : a ≤ 6) (hk : k ≤ 2 ^ 20)
    (hq : Near (1 / 2 ^ 50) q Q) (hQ : |Q| ≤ b) (hb : a + b ≤ 6) :
    Near ((k + 24) / 2 ^ 50) (Flt.mulAdd t p q) (T * P + Q) ∧ |T * P + Q| ≤ a + b := by
  have hk0 : 0 ≤ k := by
    have := (abs_nonneg _).trans hp.2
    by_contra h
    have : k / 2 ^ 50 < 0 := div_neg_of_neg_of_pos (not_le.1 h) (by positivity)
    linarith
  have hTP : |T * P| ≤ a := by
    rw [abs_mul, abs_of_nonneg h0]
    exact (mul_le_of_le_one_left (abs_nonneg _) h1).trans hP
  have hsum : |T * P + Q| ≤ a + b := (abs_add_le _ _).trans (add_le_add hTP hQ)
  have hk' : T * (k / 2 ^ 50) ≤ k / 2 ^ 50 := mul_le_of_le_one_left (by positivity) h1
  refine ⟨(near_mulAdd ht hp hq (M := 7) ?_ (by norm_num) (le_huge 3 (by norm_num) (by norm_num))).mono ?_,
    hsum⟩
  · rw [abs_of_nonneg h0]
    norm_num at hk' hk ⊢
    linarith
  · rw [abs_of_nonneg h0]
    norm_num at hk' hk ⊢
    linarith

end FP

namespace TrueSkill

/-- The value of the fit before the case distinction of `erfc`. -/
theorem fit_ap (A : E.Accurate) {z : FP E} (hz : z.isFinite) (h0 : 0 ≤ z.toR) (h1 : z.toR ≤ 20.5) :
    Ap 1600 710 (let t := Flt.recip ((1.0 : FP E) + z / (2.0 : FP E))
      t * Flt.exp (Flt.mulAdd t
    (Flt.mulAdd t
      (Flt.mulAdd t
        (Flt.mulAdd t
          (Flt.mulAdd t
            (Flt.mulAdd t
              (Flt.mulAdd t
                (Flt.mulAdd t
                  (Flt.mulAdd t 0.17087277 (-0.82215223))
                  1.48851587)
                (-1.13520398))
              0.27886807)
            (-0.18628806))
          0.09678418)
        0.37409196)
      1.00002368)
    (Flt.mulAdd (-z) z (-1.26551223)))) (fit z.toR) := by
  set Z := z.toR with hZ
  have h2 := near_of_in (lit_in (E := E) (m := 20) (s := true) (e := 1) (v := 2) (by norm_num)
    (SRep.ofNat 2 (by norm_num)))
  have M1 : (1 : ℝ) ≤ 1 + Z / 2 := by linarith
  have d1 := near_div_const (near_self hz) h2 (by norm_num) (M := 1 + Z / 2)
    (by rw [← hZ, abs_of_nonneg h0]; linarith) M1
    (le_huge 4 (by norm_num at h1 ⊢; linarith) (by norm_num))
  have d2 := near_add (near_of_in one_in) d1 (M := 2 * (1 + Z / 2))
    (by rw [← hZ, abs_of_nonneg (by linarith)]; norm_num; linarith) (by linarith)
    (le_huge 5 (by norm_num at h1 ⊢; linarith) (by norm_num))
  have d3 : Ap 2 4 ((1.0 : FP E) + z / (2.0 : FP E)) (1 + Z / 2) := by
    refine ⟨Rel.of_near (by linarith) (d2.mono ?_), by norm_num; linarith, by norm_num at h1 ⊢; linarith⟩
    norm_num; linarith
  have t1 := d3.recip (by norm_num) (by norm_num)
  generalize ht : Flt.recip ((1.0 : FP E) + z / (2.0 : FP E)) = t at t1 ⊢
  set T := 1 / (1 + Z / 2) with hT
  have T0 : 0 < T := t1.2.pos
  have T1 : T ≤ 1 := by rw [hT, div_le_one (by linarith)]; exact M1
  have tn : Near (3 / 2 ^ 50) t T := (t1.1.near T0.le).mono (by norm_num; linarith)
  have l0 := lit_near (E := E) (m := 17087277) (s := true) (e := 8) (v := 0.17087277) (by norm_num) (by norm_num)
  have l1 := lit_near (E := E) (m := 82215223) (s := true) (e := 8) (v := 0.82215223) (by norm_num) (by norm_num)
  have l2 := lit_near (E := E) (m := 148851587) (s := true) (e := 8) (v := 1.48851587) (by norm_num) (by norm_num)
  have l3 := lit_near (E := E) (m := 113520398) (s := true) (e := 8) (v := 1.13520398) (by norm_num) (by norm_num)
  have l4 := lit_near (E := E) (m := 27886807) (s := true) (e := 8) (v := 0.27886807) (by norm_num) (by norm_num)
  have l5 := lit_near (E := E) (m := 18628806) (s := true) (e := 8) (v := 0.18628806) (by norm_num) (by norm_num)
  have l6 := lit_near (E := E) (m := 9678418) (s := true) (e := 8) (v := 0.09678418) (by norm_num) (by norm_num)
  have l7 := lit_near (E := E) (m := 37409196) (s := true) (e := 8) (v := 0.37409196) (by norm_num) (by norm_num)
  have l8 := lit_near (E := E) (m := 100002368) (s := true) (e := 8) (v := 1.00002368) (by norm_num) (by norm_num)
  have l9 := lit_near (E := E) (m := 126551223) (s := true) (e := 8) (v := 1.26551223) (by norm_num) (by norm_num)
  obtain ⟨p1, b1⟩ := horner (a := 0.2) (b := 0.9) tn T0.le T1 l0 (by norm_num) (by norm_num) (by norm_num)
    l1.neg (by norm_num) (by norm_num)
  obtain ⟨p2, b2⟩ := horner (b := 1.5) tn T0.le T1 p1 b1 (by norm_num) (by norm_num) l2 (by norm_num) (by norm_num)
  obtain ⟨p3, b3⟩ := horner (b := 1.2) tn T0.le T1 p2 b2 (by norm_num) (by norm_num) l3.neg (by norm_num) (by norm_num)
  obtain ⟨p4, b4⟩ := horner (b := 0.3) tn T0.le T1 p3 b3 (by norm_num) (by norm_num) l4 (by norm_num) (by norm_num)
  obtain ⟨p5, b5⟩ := horner (b := 0.2) tn T0.le T1 p4 b4 (by norm_num) (by norm_num) l5.neg (by norm_num) (by norm_num)
  obtain ⟨p6, b6⟩ := horner (b := 0.1) tn T0.le T1 p5 b5 (by norm_num) (by norm_num) l6 (by norm_num) (by norm_num)
  obtain ⟨p7, b7⟩ := horner (b := 0.4) tn T0.le T1 p6 b6 (by norm_num) (by norm_num) l7 (by norm_num) (by norm_num)
  obtain ⟨p8, b8⟩ := horner (b := 1.1) tn T0.le T1 p7 b7 (by norm_num) (by norm_num) l8 (by norm_num) (by norm_num)
  have hZ2 : Z * Z ≤ 421 := by norm_num at h1; nlinarith
  have hZ0 : 0 ≤ Z * Z := mul_self_nonneg Z
  have hW : |-Z * Z + -1.26551223| ≤ 423 := by
    rw [abs_le]; constructor <;> norm_num <;> linarith
  have w1 := (near_mulAdd (near_self hz).neg (near_self hz) l9.neg (M := 430) (by
    rw [← hZ]
    norm_num at hW ⊢; linarith) (by norm_num) (le_huge 9 (by norm_num) (by norm_num))).mono
    (δ := 217 / 2 ^ 50) (by rw [← hZ, abs_neg, abs_of_nonneg h0]; norm_num)
  rw [← hZ] at w1
  generalize hP : T * (T * (T * (T * (T * (T * (T * (T * 0.17087277 + -0.82215223) + 1.48851587)
    + -1.13520398) + 0.27886807) + -0.18628806) + 0.09678418) + 0.37409196) + 1.00002368 = P at p8 b8
  have b8' : |P| ≤ 6 := b8.trans (by norm_num)
  have hTP : |T * P| ≤ 6 := by
    rw [abs_mul, abs_of_pos T0]
    exact (mul_le_of_le_one_left (abs_nonneg _) T1).trans b8'
  have hX : |T * P + (-Z * Z + -1.26551223)| ≤ 429 := (abs_add_le _ _).trans (by linarith)
  have hkT : T * ((1 + 24 + 24 + 24 + 24 + 24 + 24 + 24 + 24) / 2 ^ 50)
      ≤ ((1 + 24 + 24 + 24 + 24 + 24 + 24 + 24 + 24) / 2 ^ 50) := mul_le_of_le_one_left (by norm_num) T1
  generalize hWd : -Z * Z + -1.26551223 = W at w1 hW hX
  have x1 := (near_mulAdd tn p8 w1 (M := 430) (by
    rw [abs_of_pos T0]; norm_num at hkT ⊢; linarith [abs_nonneg P]) (by norm_num)
    (le_huge 9 (by norm_num) (by norm_num))).mono (δ := 645 / 2 ^ 50) (by
    rw [abs_of_pos T0]; norm_num at hkT ⊢; linarith)
  have x2 := exp_ap_wide A x1 (hX.trans (by norm_num)) (by norm_num)
  have x3 := (t1.mul x2 (by norm_num) (by norm_num) (by norm_num)).mono (k' := 1600) (n' := 710)
    (by norm_num) (by norm_num)
  have e : fit Z = T * Real.exp (T * P + W) := by
    rw [fit, fitQ, hT, one_div]
    congr 2
    rw [← hP, ← hWd, hT, one_div]
    ring
  rw [e]
  exact x3

theorem erfcExact_neg (z : ℝ) : erfcExact (-z) = 2 - erfcExact z := by
  rw [erfcExact, erfcExact, mul_neg, neg_neg]
  have := Phi_neg (√2 * z)
  linarith

/-- `erfc` in floating-point arithmetic against the complementary error function. -/
theorem erfc_fp (A : E.Accurate) {x : FP E} (hx : x.isFinite) (h : |x.toR| ≤ 20.5) :
    (erfc x).isFinite ∧ |(erfc x).toR - erfcExact x.toR| ≤ 6.01e-7 * erfcExact x.toR ∧
      |(erfc x).toR - erfcExact x.toR| ≤ 6.01e-7 ∧ 1 / 2 ^ 720 ≤ (erfc x).toR := by
  obtain ⟨az, ez⟩ := abs_val hx
  have h0 : 0 ≤ (Flt.abs x).toR := by rw [ez]; exact abs_nonneg _
  have hr := fit_ap A az h0 (by rw [ez]; exact h)
  simp only at hr
  rw [erfc]
  generalize Flt.recip ((1.0 : FP E) + Flt.abs x / (2.0 : FP E)) * _ = r at hr ⊢
  rw [ez] at hr
  have hf := fit_accurate (abs_nonneg x.toR)
  have f0 := hr.2.pos
  have hn := hr.1.near f0.le
  have e0 := erfcExact_pos |x.toR|
  have e1 : erfcExact |x.toR| ≤ 1 := by
    rw [← erfcExact_zero]; exact erfcExact_strictAnti.antitone (abs_nonneg _)
  have hf2 := abs_le.1 hf
  have f2 : fit |x.toR| ≤ 1.1 * erfcExact |x.toR| := by norm_num at hf2 ⊢; linarith [hf2.2]
  have key : |r.toR - (erfcExact |x.toR|)| ≤ 6.005e-7 * erfcExact |x.toR| := by
    have := abs_add_le (r.toR - fit |x.toR|) (fit |x.toR| - erfcExact |x.toR|)
    rw [sub_add_sub_cancel] at this
    have h3 := hn.2
    norm_num at h3 hf f2 this ⊢
    linarith
  have hz := near_of_in (zero_in (E := E))
  have z0 : (0.0 : FP E).toR = 0 := by
    have := abs_nonpos_iff.1 hz.2; linarith
  by_cases hc : (x <? (0.0 : FP E)) = true
  · rw [if_pos hc]
    rw [lt_iff_toR hx hz.1, z0] at hc
    have h2 := near_of_in (lit_in (E := E) (m := 20) (s := true) (e := 1) (v := 2) (by norm_num)
      (SRep.ofNat 2 (by norm_num)))
    have hn' : Near (1 / 2 ^ 39) r (fit |x.toR|) := hn.mono (by norm_num at f2 ⊢; linarith)
    have hs := near_sub h2 hn' (M := 4) (by
      have : |2 - (fit |x.toR|)| ≤ 3 := by rw [abs_le]; constructor <;> norm_num at f2 ⊢ <;> linarith
      norm_num; linarith) (by norm_num) (le_huge 2 (by norm_num) (by norm_num))
    have ee : erfcExact x.toR = 2 - erfcExact |x.toR| := by
      rw [abs_of_neg hc, erfcExact_neg]; ring
    have e3 : 1 ≤ erfcExact x.toR := by rw [ee]; linarith
    have hb : |((2.0 : FP E) - r).toR - erfcExact x.toR| ≤ 6.01e-7 := by
      have h4 := abs_add_le (((2.0 : FP E) - r).toR - (2 - fit |x.toR|)) (erfcExact |x.toR| - fit |x.toR|)
      rw [abs_sub_comm (erfcExact _)] at h4
      have h5 := hs.2
      have e5 : ((2.0 : FP E) - r).toR - (2 - fit |x.toR|) + (erfcExact |x.toR| - fit |x.toR|)
          = ((2.0 : FP E) - r).toR - erfcExact x.toR := by rw [ee]; ring
      rw [e5] at h4
      refine h4.trans ((add_le_add h5 hf).trans ?_)
      norm_num; linarith
    refine ⟨hs.1, hb.trans ?_, hb, le_trans (b := 1 / 2) ?_ ?_⟩
    · norm_num; linarith
    · rw [div_le_div_iff₀ (by positivity) (by norm_num), one_mul, one_mul]
      exact le_self_pow₀ (by norm_num) (by norm_num)
    · have := abs_le.1 hb
      norm_num at this ⊢; linarith [this.1]
  · rw [if_neg hc]
    rw [lt_iff_toR hx hz.1, z0, not_lt] at hc
    rw [abs_of_nonneg hc] at key e0 e1
    refine ⟨hr.1.1, key.trans ?_, key.trans ?_, ?_⟩
    · norm_num; linarith
    · norm_num; linarith
    · have h3 := (hr.1.pos (by norm_num) f0).2.1
      have h4 := hr.2.1
      refine le_trans (le_trans ?_ (div_le_div_of_nonneg_right h4 (by norm_num : (0 : ℝ) ≤ 2))) h3
      rw [div_div, ← pow_succ]
      exact one_div_le_one_div_of_le (by positivity) (pow_le_pow_right₀ (by norm_num) (by norm_num))

/-- Relative sensitivity of the complementary error function. -/
theorem erfcExact_change {u v : ℝ} (hu : u ≤ 21) (hv : v ≤ 21) (h : 90 * |u - v| ≤ 1) :
    |erfcExact u - erfcExact v| ≤ 90 * |u - v| * erfcExact v := by
  have key : ∀ {u v : ℝ}, u < v → v ≤ 21 → 0 ≤ erfcExact u - erfcExact v ∧
      erfcExact u - erfcExact v ≤ 45 * (v - u) * erfcExact u := by
    intro u v huv hv
    refine ⟨sub_nonneg.2 (erfcExact_strictAnti.antitone huv.le), ?_⟩
    obtain ⟨c, hc, hs⟩ := exists_hasDerivAt_eq_slope erfcExact (fun x => -(2 / √Real.pi * Real.exp (-x ^ 2)))
      huv continuous_erfcExact.continuousOn (fun x _ => hasDerivAt_erfcExact x)
    rw [eq_div_iff (by linarith [hc.1, hc.2])] at hs
    have hcu : erfcExact c ≤ erfcExact u := erfcExact_strictAnti.antitone hc.1.le
    have h0 := erfcExact_pos c
    have hsl : slope c ≤ 45 * erfcExact c := by
      rcases le_total 0 c with h | h
      · refine (slope_le_tail h).trans (mul_le_mul_of_nonneg_right ?_ h0.le)
        norm_num; linarith [hc.2]
      · have h1 : 1 ≤ erfcExact c := by
          rw [← erfcExact_zero]; exact erfcExact_strictAnti.antitone h
        have h2 : slope c ≤ slope 0 := by
          unfold slope
          have : Real.exp (-c ^ 2) ≤ Real.exp (-0 ^ 2) := Real.exp_le_exp.2 (by nlinarith)
          gcongr
        have h3 := slope_le_tail (le_refl (0 : ℝ))
        rw [erfcExact_zero] at h3
        norm_num at h3
        linarith
    have e : erfcExact u - erfcExact v = slope c * (v - u) := by unfold slope; linarith
    rw [e]
    have : slope c ≤ 45 * erfcExact u := hsl.trans (by linarith)
    calc _ ≤ 45 * erfcExact u * (v - u) := mul_le_mul_of_nonneg_right this (by linarith)
      _ = _ := by ring
  rcases lt_trichotomy u v with huv | huv | huv
  · obtain ⟨k1, k2⟩ := key huv hv
    rw [abs_of_nonneg k1, abs_of_neg (by linarith)]
    rw [abs_of_neg (by linarith)] at h
    have h1 := erfcExact_pos u
    have h2 : erfcExact u ≤ 2 * erfcExact v := by nlinarith
    refine k2.trans ?_
    have := mul_le_mul_of_nonneg_left h2 (by linarith : 0 ≤ 45 * (v - u))
    linarith
  · rw [huv]; simp
  · obtain ⟨k1, k2⟩ := key huv hu
    rw [abs_sub_comm, abs_of_nonneg k1, abs_of_pos (by linarith)]
    refine k2.trans ?_
    have h1 := erfcExact_pos v
    nlinarith

theorem sqrt2_ap : Ap 2 2 ((1.0 : FP E) * Flt.sqrt2) √2 := by
  have h1 : (1 : ℝ) ≤ √2 := by rw [Real.le_sqrt' one_pos]; norm_num
  have h2 : √(2 : ℝ) ≤ 2 := by rw [Real.sqrt_le_left (by norm_num)]; norm_num
  have hm : Mid 1 √2 := ⟨by norm_num; linarith, by linarith⟩
  have hm' := hm.mono (show 1 ≤ 900 by norm_num)
  have a1 : Ap 1 1 (Flt.sqrt2 : FP E) √2 := by
    refine ⟨?_, hm⟩
    have := rel_round (E := E) (k := 0) (s := false) (v := √2) (d := 0) (by linarith) hm'.1 hm'.2
      (by simp) (by norm_num) (by ring)
    exact this.mono (by norm_num)
  have a0 : Ap 0 1 (1.0 : FP E) 1 := ⟨Rel.of_eq one_in.finite (le_antisymm one_in.toR.2 one_in.toR.1),
    by norm_num, by norm_num⟩
  have := a0.mul a1 (by norm_num) (by norm_num) (by norm_num)
  rw [one_mul] at this
  exact this.mono (by norm_num) (by norm_num)

/-- The distribution function in floating-point arithmetic, at an approximation `y` of `Y`. -/
theorem cdf_fp (A : E.Accurate) {y : FP E} {Y ε : ℝ} (hy : Near ε y Y) (hε : ε ≤ 1 / 2 ^ 36)
    (h : |Y| ≤ 28.8) :
    (cdf y (0.0 : FP E) (1.0 : FP E)).isFinite ∧
      |(cdf y (0.0 : FP E) (1.0 : FP E)).toR - Phi Y| ≤ 6.1e-7 * Phi Y ∧
      |(cdf y (0.0 : FP E) (1.0 : FP E)).toR - Phi Y| ≤ 3.1e-7 := by
  have hε0 : 0 ≤ ε := (abs_nonneg _).trans hy.2
  have s1 : (1.414 : ℝ) ≤ √2 := by rw [Real.le_sqrt' (by norm_num)]; norm_num
  have hz := (zero_in (E := E)).toR
  obtain ⟨f1, v1⟩ := sub_zero_val hy.1 (zero_in (E := E)).finite (le_antisymm hz.2 hz.1)
  obtain ⟨f2, v2⟩ := neg_val f1
  rw [v1] at v2
  have hyb : |y.toR| ≤ 28.81 := by
    have := hy.abs_le
    norm_num at this h hε ⊢; linarith
  have q := near_quotient f2 (sqrt2_ap (E := E)).1 (sqrt2_ap (E := E)).2.pos (M := 32) (by
    rw [v2, abs_neg, div_le_iff₀ (by linarith)]
    norm_num at hyb s1 ⊢; linarith) (by norm_num) (by norm_num) (by norm_num)
  rw [v2] at q
  rw [cdf]
  generalize -(y - (0.0 : FP E)) / ((1.0 : FP E) * Flt.sqrt2) = x at q ⊢
  have hX : |x.toR - -Y / √2| ≤ 1 / 2 ^ 35 := by
    have e : x.toR - -Y / √2 = (x.toR - -y.toR / √2) + -((y.toR - Y) / √2) := by ring
    rw [e]
    refine (abs_add_le _ _).trans ?_
    rw [abs_neg, abs_div, abs_of_pos (by linarith : (0 : ℝ) < √2)]
    have h2 := q.2
    have h3 : |y.toR - Y| / √2 ≤ ε := (div_le_self (abs_nonneg _) (by linarith)).trans hy.2
    norm_num at h2 h3 hε ⊢
    linarith
  have hXb : |-Y / √2| ≤ 20.4 := by
    rw [abs_div, abs_neg, abs_of_pos (by linarith : (0 : ℝ) < √2), div_le_iff₀ (by linarith)]
    norm_num at h s1 ⊢; linarith
  have hxb : |x.toR| ≤ 20.5 := by
    have := abs_add_le (x.toR - -Y / √2) (-Y / √2)
    rw [sub_add_cancel] at this
    norm_num at this hX hXb ⊢; linarith
  obtain ⟨g1, g2, g3, g4⟩ := erfc_fp A q.1 hxb
  have hXb' : -Y / √2 ≤ 21 := by have := le_of_abs_le hXb; norm_num at this ⊢; linarith
  have hxb' : x.toR ≤ 21 := by have := le_of_abs_le hxb; norm_num at this ⊢; linarith
  have c1 := erfcExact_change hxb' hXb' (by norm_num at hX ⊢; linarith)
  have ePhi : erfcExact (-Y / √2) = 2 * Phi Y := by
    rw [erfcExact]; congr 2; field_simp
  rw [ePhi] at c1
  have p0 := Phi_pos Y
  have p1 := Phi_lt_one Y
  have c2 : |erfcExact x.toR - 2 * Phi Y| ≤ 1e-8 * Phi Y := by
    refine c1.trans ?_
    rw [show 90 * |x.toR - -Y / √2| * (2 * Phi Y) = 180 * |x.toR - -Y / √2| * Phi Y by ring]
    refine mul_le_mul_of_nonneg_right ?_ p0.le
    norm_num at hX ⊢; linarith
  generalize erfc x = r at g1 g2 g3 g4 ⊢
  have c3 := abs_le.1 c2
  have r1 : |r.toR - 2 * Phi Y| ≤ 1.2e-6 * Phi Y * 1.013 := by
    have := abs_add_le (r.toR - erfcExact x.toR) (erfcExact x.toR - 2 * Phi Y)
    rw [sub_add_sub_cancel] at this
    norm_num at this g2 c2 c3 ⊢
    linarith [c3.2]
  have r2 : |r.toR - 2 * Phi Y| ≤ 6.12e-7 := by
    have := abs_add_le (r.toR - erfcExact x.toR) (erfcExact x.toR - 2 * Phi Y)
    rw [sub_add_sub_cancel] at this
    norm_num at this g3 c2 ⊢
    linarith
  have h5 := near_of_in (lit_in (E := E) (m := 5) (s := true) (e := 1) (v := 1 / 2) (by norm_num) SRep.half)
  have e5 : (0.5 : FP E).toR = 1 / 2 := by have := abs_nonpos_iff.1 h5.2; linarith
  obtain ⟨s, hs⟩ := mul_fin h5.1 g1
  rw [e5] at hs
  have r3 := abs_le.1 r1
  have p2 : (1 : ℝ) / 2 ^ 1000 ≤ 1 / 2 ^ 720 * (1 / 2) := by
    rw [div_mul_div_comm, one_mul, ← pow_succ]
    exact one_div_le_one_div_of_le (by positivity) (pow_le_pow_right₀ (by norm_num) (by norm_num))
  have r0 : 0 < r.toR := lt_of_lt_of_le (by positivity) g4
  have r4 : r.toR ≤ 3 := by norm_num at r3 ⊢; linarith [r3.2]
  obtain ⟨k1, k2⟩ := round_rel (E := E) s (x := 1 / 2 * r.toR) (by
    rw [abs_of_pos (by positivity)]
    refine p2.trans ?_
    rw [mul_comm]
    exact mul_le_mul_of_nonneg_left g4 (by norm_num)) (by
    rw [abs_of_pos (by positivity)]
    exact le_huge 2 (by linarith) (by norm_num))
  rw [abs_of_pos (show 0 < 1 / 2 * r.toR by positivity)] at k2
  rw [hs]
  generalize FP.toR (E := E) (E.round s (1 / 2 * r.toR)) = w at k2
  have k3 := abs_add_le (w - 1 / 2 * r.toR) (1 / 2 * (r.toR - 2 * Phi Y))
  rw [abs_mul, abs_of_pos (by norm_num : (0 : ℝ) < 1 / 2),
    show w - 1 / 2 * r.toR + 1 / 2 * (r.toR - 2 * Phi Y) = w - Phi Y by ring] at k3
  refine ⟨k1, k3.trans ?_, k3.trans ?_⟩
  · norm_num at k2 r1 r3 ⊢
    linarith [r3.2]
  · norm_num at k2 r2 r4 ⊢
    linarith

end TrueSkill
end Skillratings
