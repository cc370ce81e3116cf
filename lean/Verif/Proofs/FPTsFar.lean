import Verif.Spec.Fading
import Verif.Props.FloatBayes
/-
The corrections of decided TrueSkill games in floating-point arithmetic, for leads of any size.
-/

namespace Skillratings
open FP FPVal Spec
variable {E : FloatEnv}

/-- The exponential of binary64 with rounding to nearest fades. -/
theorem ieee_fading : ieee.Fading where
  exp := by
    intro x hx h
    cases x with
    | nan => exact hx.elim
    | inf s => exact hx.elim
    | fin s m =>
      change signed s m.1 ≤ -390 at h
      have e : Real.exp (signed s m.1) ≤ 1 / 2 ^ 550 := by
        have h1 : Real.exp (signed s m.1) ≤ Real.exp (-390) := Real.exp_le_exp.2 h
        refine h1.trans ?_
        rw [Real.exp_neg, ← one_div]
        refine one_div_le_one_div_of_le (by positivity) ?_
        have e2 : Real.exp (390 : ℝ) = Real.exp 1 ^ 390 := by rw [← Real.exp_nat_mul]; congr 1; norm_num
        rw [e2]
        have h5 : (2.718 : ℝ) ≤ Real.exp 1 := by have := Real.exp_one_gt_d9; norm_num at this ⊢; linarith
        calc (2 : ℝ) ^ 550 = (2 ^ 55) ^ 10 := by rw [← pow_mul]
          _ ≤ (2.718 ^ 39) ^ 10 := by gcongr; norm_num
          _ = 2.718 ^ 390 := by rw [← pow_mul]
          _ ≤ _ := by gcongr
      change FP.isFinite (E := ieee) (Ieee.exp (fin s m)) ∧ 0 ≤ FP.toR (E := ieee) (Ieee.exp (fin s m)) ∧ _
      have e1 : Ieee.exp (fin s m) = ieee.round false (Real.exp (signed s m.1)) := rfl
      rw [e1]
      have h1 := ieee.round_le false (SRep.inv_two_pow 550 (by norm_num)) e
      have h0 := ieee.round_ge false SRep.zero (Real.exp_pos (signed s m.1)).le
      have hI : In (E := ieee) ((0 : ℝ) : EReal) ((1 / 2 ^ 550 : ℝ) : EReal)
          (ieee.round false (Real.exp (signed s m.1))) := ⟨ieee.round_not_nan _ _, h0, h1⟩
      exact ⟨hI.finite, hI.toR⟩

namespace TrueSkill

theorem mills_sharp {z : ℝ} (hz : -1 < z) : Phi (-z) ≤ normalPdf z * ((z + 1)⁻¹ + (z + 1)⁻¹ ^ 2) := by
  have h : 0 ≤ normalPdf z * ((z + 1)⁻¹ + (z + 1)⁻¹ ^ 2) - Phi (-z) := by
    refine nonneg_of_decreasing (a := z) (f := fun y => normalPdf y * ((y + 1)⁻¹ + (y + 1)⁻¹ ^ 2) - Phi (-y))
      (f' := fun y => -(normalPdf y * (2 * (y + 1)⁻¹ ^ 3))) (fun y hy => ?_) (fun y hy => ?_) ?_ le_rfl
    · have hy0 : y + 1 ≠ 0 := (show 0 < y + 1 by linarith).ne'
      have a2 : HasDerivAt (fun z : ℝ => -z) (-1) y := (hasDerivAt_id y).neg
      have a3 : HasDerivAt (fun z : ℝ => (z + 1)⁻¹) (-1 / (y + 1) ^ 2) y :=
        ((hasDerivAt_id y).add_const 1).inv hy0
      refine (((hasDerivAt_normalPdf y).mul (a3.add (a3.pow 2))).sub
        ((hasDerivAt_Phi (-y)).comp y a2)).congr_deriv ?_
      rw [normalPdf_neg]
      simp only [Nat.cast_ofNat, Pi.add_apply, Pi.pow_apply, Nat.add_one_sub_one, pow_one]
      field_simp
      ring
    · have := pdf_pos' y
      have : 0 < y + 1 := by linarith
      exact neg_nonpos.2 (by positivity)
    · have h0 : Filter.Tendsto (fun y : ℝ => (y + 1)⁻¹) Filter.atTop (nhds 0) :=
        tendsto_inv_atTop_zero.comp (Filter.tendsto_atTop_add_const_right _ _ Filter.tendsto_id)
      have h1 := tendsto_normalPdf.mul (h0.add (h0.pow 2))
      have h2 := tendsto_Phi_atBot.comp Filter.tendsto_neg_atTop_atBot
      have := h1.sub h2
      simpa using this
  linarith

/-- The sum of the inverse Mills ratio and its argument stays away from zero. -/
theorem mills_gap {U : ℝ} (hU : -29 ≤ U) : 1 / 31 ≤ normalPdf U / Phi U + U := by
  have hp := Phi_pos U
  rcases le_or_gt 1 U with h | h
  · have := mills_pos U
    linarith
  · have h1 := mills_sharp (z := -U) (by linarith)
    rw [neg_neg, normalPdf_neg] at h1
    have hy : 0 < -U + 1 := by linarith
    have h2 : Phi U * ((-U + 1) ^ 2 / (-U + 2)) ≤ normalPdf U := by
      rw [mul_div_assoc', div_le_iff₀ (by linarith)]
      have e : (-U + 1)⁻¹ + (-U + 1)⁻¹ ^ 2 = (-U + 2) / (-U + 1) ^ 2 := by field_simp; ring
      rw [e, mul_div_assoc', le_div_iff₀ (by positivity)] at h1
      exact h1
    have h3 : (-U + 1) ^ 2 / (-U + 2) ≤ normalPdf U / Phi U := by
      rw [le_div_iff₀ hp]; linarith
    have h4 : (-U + 1) ^ 2 / (-U + 2) + U = 1 / (-U + 2) := by
      field_simp [show -U + 2 ≠ 0 by linarith]; ring
    have h5 : (1 : ℝ) / 31 ≤ 1 / (-U + 2) := one_div_le_one_div_of_le (by linarith) (by linarith)
    linarith

/-- A product of a number in `[0, 1]` and a tiny number. -/
theorem mul_faint {x y : FP E} (hx : x.isFinite) (x0 : 0 ≤ x.toR) (x1 : x.toR ≤ 1) (hy : y.isFinite)
    (y0 : 0 ≤ y.toR) (y1 : y.toR ≤ 1 / 2 ^ 550) : Between 0 (1 / 2 ^ 550) (x * y) := by
  obtain ⟨s, hs⟩ := mul_fin hx hy
  have h0 : 0 ≤ x.toR * y.toR := mul_nonneg x0 y0
  have h1 : x.toR * y.toR ≤ 1 / 2 ^ 550 := (mul_le_of_le_one_left y0 x1).trans y1
  have hI : In (E := E) ((0 : ℝ) : EReal) ((1 / 2 ^ 550 : ℝ) : EReal) (x * y) := by
    rw [hs]
    exact ⟨E.round_not_nan _ _, E.round_ge _ SRep.zero h0, E.round_le _ (SRep.inv_two_pow 550 (by norm_num)) h1⟩
  exact ⟨hI.finite, hI.toR⟩

/-- The fit of `erfc` far out. -/
theorem fit_faint (X : E.Fading) {z : FP E} (hz : z.isFinite) (h0 : 20 ≤ z.toR) (h1 : z.toR ≤ 2 ^ 80) :
    Between 0 (1 / 2 ^ 550) (let t := Flt.recip ((1.0 : FP E) + z / (2.0 : FP E))
      t * Flt.exp (Flt.mulAdd t
    (Flt.mulAdd t
      (Flt.mulAdd t
        (Flt.mulAdd t
          (Flt.mulAdd t
            (Flt.mulAdd t
              (Flt.mulAdd t
                (Flt.mulAdd t
                  (Flt.mulAdd t 0.17087277 (-0.82215223))
                  1.48851587)
                (-1.13520398))
              0.27886807)
            (-0.18628806))
          0.09678418)
        0.37409196)
      1.00002368)
    (Flt.mulAdd (-z) z (-1.26551223)))) := by
  set Z := z.toR with hZ
  have hZp : 0 ≤ Z := by linarith
  have h2 := near_of_in (lit_in (E := E) (m := 20) (s := true) (e := 1) (v := 2) (by norm_num)
    (SRep.ofNat 2 (by norm_num)))
  have M1 : (1 : ℝ) ≤ 1 + Z / 2 := by linarith
  have d1 := near_div_const (near_self hz) h2 (by norm_num) (M := 1 + Z / 2)
    (by rw [← hZ, abs_of_nonneg hZp]; linarith) M1
    (le_huge 81 (by norm_num at h1 ⊢; linarith) (by norm_num))
  have d2 := near_add (near_of_in one_in) d1 (M := 2 * (1 + Z / 2))
    (by rw [← hZ, abs_of_nonneg (by linarith)]; norm_num; linarith) (by linarith)
    (le_huge 82 (by norm_num at h1 ⊢; linarith) (by norm_num))
  have d3 : Ap 2 82 ((1.0 : FP E) + z / (2.0 : FP E)) (1 + Z / 2) := by
    refine ⟨Rel.of_near (by linarith) (d2.mono ?_), by norm_num; linarith, by norm_num at h1 ⊢; linarith⟩
    norm_num; linarith
  have t1 := d3.recip (by norm_num) (by norm_num)
  generalize ht : Flt.recip ((1.0 : FP E) + z / (2.0 : FP E)) = t at t1 ⊢
  set T := 1 / (1 + Z / 2) with hT
  have T0 : 0 < T := t1.2.pos
  have T11 : T ≤ 1 / 11 := by
    rw [hT]; exact one_div_le_one_div_of_le (by norm_num) (by linarith)
  have T1 : T ≤ 1 := T11.trans (by norm_num)
  have tn : Near (3 / 2 ^ 50) t T := (t1.1.near T0.le).mono (by norm_num; linarith)
  have l0 := lit_near (E := E) (m := 17087277) (s := true) (e := 8) (v := 0.17087277) (by norm_num) (by norm_num)
  have l1 := lit_near (E := E) (m := 82215223) (s := true) (e := 8) (v := 0.82215223) (by norm_num) (by norm_num)
  have l2 := lit_near (E := E) (m := 148851587) (s := true) (e := 8) (v := 1.48851587) (by norm_num) (by norm_num)
  have l3 := lit_near (E := E) (m := 113520398) (s := true) (e := 8) (v := 1.13520398) (by norm_num) (by norm_num)
  have l4 := lit_near (E := E) (m := 27886807) (s := true) (e := 8) (v := 0.27886807) (by norm_num) (by norm_num)
  have l5 := lit_near (E := E) (m := 18628806) (s := true) (e := 8) (v := 0.18628806) (by norm_num) (by norm_num)
  have l6 := lit_near (E := E) (m := 9678418) (s := true) (e := 8) (v := 0.09678418) (by norm_num) (by norm_num)
  have l7 := lit_near (E := E) (m := 37409196) (s := true) (e := 8) (v := 0.37409196) (by norm_num) (by norm_num)
  have l8 := lit_near (E := E) (m := 100002368) (s := true) (e := 8) (v := 1.00002368) (by norm_num) (by norm_num)
  have l9 := lit_near (E := E) (m := 126551223) (s := true) (e := 8) (v := 1.26551223) (by norm_num) (by norm_num)
  obtain ⟨p1, b1⟩ := horner (a := 0.2) (b := 0.9) tn T0.le T1 l0 (by norm_num) (by norm_num) (by norm_num)
    l1.neg (by norm_num) (by norm_num)
  obtain ⟨p2, b2⟩ := horner (b := 1.5) tn T0.le T1 p1 b1 (by norm_num) (by norm_num) l2 (by norm_num) (by norm_num)
  obtain ⟨p3, b3⟩ := horner (b := 1.2) tn T0.le T1 p2 b2 (by norm_num) (by norm_num) l3.neg (by norm_num) (by norm_num)
  obtain ⟨p4, b4⟩ := horner (b := 0.3) tn T0.le T1 p3 b3 (by norm_num) (by norm_num) l4 (by norm_num) (by norm_num)
  obtain ⟨p5, b5⟩ := horner (b := 0.2) tn T0.le T1 p4 b4 (by norm_num) (by norm_num) l5.neg (by norm_num) (by norm_num)
  obtain ⟨p6, b6⟩ := horner (b := 0.1) tn T0.le T1 p5 b5 (by norm_num) (by norm_num) l6 (by norm_num) (by norm_num)
  obtain ⟨p7, b7⟩ := horner (b := 0.4) tn T0.le T1 p6 b6 (by norm_num) (by norm_num) l7 (by norm_num) (by norm_num)
  obtain ⟨p8, b8⟩ := horner (b := 1.1) tn T0.le T1 p7 b7 (by norm_num) (by norm_num) l8 (by norm_num) (by norm_num)
  have hQ1 : 400 ≤ Z * Z := by nlinarith
  have hQ2 : Z * Z ≤ 2 ^ 160 := by
    calc Z * Z ≤ 2 ^ 80 * 2 ^ 80 := mul_le_mul h1 h1 hZp (by positivity)
      _ = _ := by norm_num
  have w1 := (near_mulAdd (near_self hz).neg (near_self hz) l9.neg (M := 2 * (Z * Z)) (by
    rw [← hZ, neg_mul, abs_of_nonpos (by norm_num; linarith)]
    norm_num; linarith) (by linarith) (le_huge 161 (by norm_num at hQ2 ⊢; linarith) (by norm_num))).mono
    (δ := 3 * (Z * Z) / 2 ^ 50) (by norm_num; linarith)
  rw [← hZ] at w1
  generalize T * (T * (T * (T * (T * (T * (T * (T * 0.17087277 + -0.82215223) + 1.48851587)
    + -1.13520398) + 0.27886807) + -0.18628806) + 0.09678418) + 0.37409196) + 1.00002368 = P at p8 b8
  have b8' : |P| ≤ 6 := b8.trans (by norm_num)
  have hTP : |T * P| ≤ 6 / 11 := by
    rw [abs_mul, abs_of_pos T0]
    refine (mul_le_mul T11 b8' (abs_nonneg _) (by norm_num)).trans (by norm_num)
  have hTP' := abs_le.1 hTP
  have hkT : T * ((1 + 24 + 24 + 24 + 24 + 24 + 24 + 24 + 24) / 2 ^ 50)
      ≤ ((1 + 24 + 24 + 24 + 24 + 24 + 24 + 24 + 24) / 2 ^ 50) := mul_le_of_le_one_left (by norm_num) T1
  have x1 := (near_mulAdd tn p8 w1 (M := 2 * (Z * Z)) (by
    rw [abs_of_pos T0, abs_of_nonpos (a := T * P + _) (by norm_num; linarith [hTP'.2])]
    norm_num at hkT ⊢; linarith [abs_nonneg P, hTP'.1]) (by linarith)
    (le_huge 161 (by norm_num at hQ2 ⊢; linarith) (by norm_num))).mono (δ := 1 / 2 ^ 10 + 8 * (Z * Z) / 2 ^ 50) (by
    rw [abs_of_pos T0]; norm_num at hkT ⊢; linarith)
  have hx := abs_le.1 x1.2
  have hX := X.exp _ x1.1 (by norm_num at hx ⊢; linarith [hx.2, hTP'.2])
  have ht1 := abs_le.1 tn.2
  refine mul_faint tn.1 ?_ (by norm_num at ht1 ⊢; linarith [ht1.2]) hX.1 hX.2.1 hX.2.2
  have := t1.1.pos (by norm_num) T0
  exact this.1.le

theorem two_eq : (2.0 : FP E).isFinite ∧ (2.0 : FP E).toR = 2 := by
  have h := lit_in (E := E) (m := 20) (s := true) (e := 1) (v := 2) (by norm_num) (SRep.ofNat 2 (by norm_num))
  exact ⟨h.finite, le_antisymm h.toR.2 h.toR.1⟩

theorem zero_eq : (0.0 : FP E).isFinite ∧ (0.0 : FP E).toR = 0 :=
  ⟨zero_in.finite, le_antisymm zero_in.toR.2 zero_in.toR.1⟩

theorem one_eq : (1.0 : FP E).isFinite ∧ (1.0 : FP E).toR = 1 :=
  ⟨one_in.finite, le_antisymm one_in.toR.2 one_in.toR.1⟩

/-- `erfc` far out. -/
theorem erfc_faint (X : E.Fading) {x : FP E} (hx : x.isFinite) (h0 : 20 ≤ |x.toR|) (h1 : |x.toR| ≤ 2 ^ 80) :
    (0 < x.toR → Between 0 (1 / 2 ^ 550) (erfc x)) ∧ (x.toR < 0 → Between 1 2 (erfc x)) := by
  obtain ⟨az, ez⟩ := abs_val hx
  have hr := fit_faint X az (by rw [ez]; exact h0) (by rw [ez]; exact h1)
  simp only at hr
  rw [erfc]
  generalize Flt.recip ((1.0 : FP E) + Flt.abs x / (2.0 : FP E)) * _ = r at hr ⊢
  obtain ⟨hz, z0⟩ := zero_eq (E := E)
  obtain ⟨h2, t2⟩ := two_eq (E := E)
  constructor
  · intro hp
    have : ¬ (x <? (0.0 : FP E)) = true := by rw [lt_iff_toR hx hz, z0]; linarith
    rw [if_neg this]; exact hr
  · intro hn
    have : (x <? (0.0 : FP E)) = true := by rw [lt_iff_toR hx hz, z0]; exact hn
    rw [if_pos this]
    obtain ⟨s, hs⟩ := sub_fin h2 hr.1
    have hI : In (E := E) ((1 : ℝ) : EReal) ((2 : ℝ) : EReal) ((2.0 : FP E) - r) := by
      rw [hs, t2]
      refine In.of_round _ SRep.one (SRep.ofNat 2 (by norm_num)) ?_ (by linarith [hr.2.1])
      have h3 := hr.2.2
      have h4 : (1 : ℝ) / 2 ^ 550 ≤ 1 := by
        rw [div_le_one (by positivity)]; exact one_le_pow₀ (by norm_num)
      linarith
    exact ⟨hI.finite, hI.toR⟩

/-- The distribution function far out. -/
theorem cdf_faint (X : E.Fading) {y : FP E} (hy : y.isFinite) (h1 : |y.toR| ≤ 2 ^ 80) :
    (y.toR ≤ -28.4 → Between 0 (1 / 2 ^ 550) (cdf y (0.0 : FP E) (1.0 : FP E))) ∧
    (28.4 ≤ y.toR → Between (1 / 2) 1 (cdf y (0.0 : FP E) (1.0 : FP E))) := by
  obtain ⟨hz, z0⟩ := zero_eq (E := E)
  obtain ⟨f1, v1⟩ := sub_zero_val hy hz z0
  obtain ⟨f2, v2⟩ := neg_val f1
  rw [v1] at v2
  have s1 : (1.414 : ℝ) ≤ √2 := by rw [Real.le_sqrt' (by norm_num)]; norm_num
  have s2 : √2 ≤ (1.415 : ℝ) := by rw [Real.sqrt_le_left (by norm_num)]; norm_num
  have sn := (sqrt2_ap (E := E)).1.near (by linarith)
  have hb := abs_le.1 sn.2
  have b1 : (1.41 : ℝ) ≤ ((1.0 : FP E) * Flt.sqrt2).toR := by norm_num at hb s1 s2 ⊢; linarith [hb.1]
  have b2 : ((1.0 : FP E) * Flt.sqrt2).toR ≤ 1.4199 := by norm_num at hb s1 s2 ⊢; linarith [hb.2]
  have b0 : 0 < ((1.0 : FP E) * Flt.sqrt2).toR := by linarith
  obtain ⟨s, hs⟩ := div_fin f2 sn.1 b0.ne'
  rw [v2] at hs
  rw [cdf]
  have hh := lit_in (E := E) (m := 5) (s := true) (e := 1) (v := 1 / 2) (by norm_num) SRep.half
  have h5 : (0.5 : FP E).toR = 1 / 2 := le_antisymm hh.toR.2 hh.toR.1
  have ha := abs_le.1 h1
  have hq : |-y.toR / ((1.0 : FP E) * Flt.sqrt2).toR| ≤ 2 ^ 80 := by
    rw [abs_div, abs_neg, abs_of_pos b0, div_le_iff₀ b0]
    have := abs_nonneg y.toR
    norm_num at b1 h1 ⊢; linarith
  have hq' := abs_le.1 hq
  generalize ((1.0 : FP E) * Flt.sqrt2) = r at hs b0 b1 b2 hq hq' sn ⊢
  generalize -(y - (0.0 : FP E)) / r = x at hs ⊢
  have e80 : SRep ((2 : ℝ) ^ 80) := SRep.two_pow 80 (by norm_num)
  have e20 : SRep (20 : ℝ) := SRep.ofNat 20 (by norm_num)
  constructor
  · intro h
    have h20 : 20 ≤ -y.toR / r.toR := by
      rw [le_div_iff₀ b0]; norm_num at h b2 ⊢; linarith
    have hI : In (E := E) ((20 : ℝ) : EReal) ((2 ^ 80 : ℝ) : EReal) x := by
      rw [hs]; exact In.of_round _ e20 e80 h20 hq'.2
    have hx := hI.toR
    have := (erfc_faint X hI.finite (by rw [abs_of_pos (by linarith)]; exact hx.1)
      (by rw [abs_of_pos (by linarith)]; exact hx.2)).1 (by linarith)
    exact mul_faint hh.finite (by rw [h5]; norm_num) (by rw [h5]; norm_num) this.1 this.2.1 this.2.2
  · intro h
    have h20 : -y.toR / r.toR ≤ -20 := by
      rw [div_le_iff₀ b0]; norm_num at h b2 ⊢; linarith
    have hI : In (E := E) ((-2 ^ 80 : ℝ) : EReal) ((-20 : ℝ) : EReal) x := by
      rw [hs]; exact In.of_round _ e80.neg e20.neg hq'.1 h20
    have hx := hI.toR
    have := (erfc_faint X hI.finite (by rw [abs_of_neg (by linarith)]; linarith)
      (by rw [abs_of_neg (by linarith)]; linarith)).2 (by linarith)
    obtain ⟨s', hs'⟩ := mul_fin hh.finite this.1
    have hJ : In (E := E) ((1 / 2 : ℝ) : EReal) ((1 : ℝ) : EReal) ((0.5 : FP E) * erfc x) := by
      rw [hs', h5]
      exact In.of_round _ SRep.half SRep.one (by linarith [this.2.1]) (by linarith [this.2.2])
    exact ⟨hJ.finite, hJ.toR⟩

/-- The density far out. -/
theorem pdf_faint (L : E.Lib) (X : E.Fading) {y : FP E} (hy : y.isFinite) (h0 : 28.4 ≤ |y.toR|)
    (h1 : |y.toR| ≤ 2 ^ 80) : Between 0 (1 / 2 ^ 550) (pdf y (0.0 : FP E) (1.0 : FP E)) := by
  obtain ⟨hz, z0⟩ := zero_eq (E := E)
  obtain ⟨f1, v1⟩ := sub_zero_val hy hz z0
  obtain ⟨ho, o1⟩ := one_eq (E := E)
  obtain ⟨g1, g2⟩ := abs_val ho
  rw [o1, abs_one] at g2
  obtain ⟨h2, t2⟩ := two_eq (E := E)
  have a2 : Ap 0 1 (2.0 : FP E) 2 := ⟨lit_rel (lit_in (E := E) (m := 20) (s := true) (e := 1) (v := 2)
    (by norm_num) (SRep.ofNat 2 (by norm_num))), by norm_num, by norm_num⟩
  have a1 : Ap 0 1 (Flt.abs (1.0 : FP E)) 1 := ⟨Rel.of_eq g1 g2, by norm_num, by norm_num⟩
  have r1 := (((a2.mul (pi_ap (E := E)) (by norm_num) (by norm_num) (by norm_num)).sqrt (by norm_num)
    (by norm_num)).mul a1 (by norm_num) (by norm_num) (by norm_num)).recip (by norm_num) (by norm_num)
  have hp : (2.5 : ℝ) ≤ √(2 * Real.pi) * 1 := by
    rw [mul_one]
    refine Real.le_sqrt_of_sq_le ?_
    have := Real.pi_gt_d2
    norm_num at this ⊢; linarith
  have hr : 1 / (√(2 * Real.pi) * 1) ≤ 1 / 2.5 := one_div_le_one_div_of_le (by norm_num) hp
  have r0 := r1.2.pos
  have rn := r1.1.near r0.le
  have rp := (r1.1.pos (by norm_num) r0).1
  have e2 : Flt.powi ((y - (0.0 : FP E)) / Flt.abs (1.0 : FP E)) 2
      = (y - (0.0 : FP E)) / Flt.abs (1.0 : FP E) * ((y - (0.0 : FP E)) / Flt.abs (1.0 : FP E)) := L.powi_two _
  rw [pdf, e2]
  generalize Flt.recip (Flt.sqrt ((2.0 : FP E) * Flt.pi) * Flt.abs (1.0 : FP E)) = r at rn rp ⊢
  obtain ⟨s, hs⟩ := div_fin f1 g1 (by rw [g2]; norm_num)
  rw [v1, g2, div_one] at hs
  generalize (y - (0.0 : FP E)) / Flt.abs (1.0 : FP E) = q at hs ⊢
  have e80 : SRep ((2 : ℝ) ^ 80) := SRep.two_pow 80 (by norm_num)
  have e28 : SRep (28 : ℝ) := SRep.ofNat 28 (by norm_num)
  have ha := abs_le.1 h1
  have hq : q.isFinite ∧ 28 * 28 ≤ q.toR * q.toR ∧ q.toR * q.toR ≤ 2 ^ 80 * 2 ^ 80 := by
    rcases le_total 0 y.toR with h | h
    · rw [abs_of_nonneg h] at h0
      have hI : In (E := E) ((28 : ℝ) : EReal) ((2 ^ 80 : ℝ) : EReal) q := by
        rw [hs]; exact In.of_round _ e28 e80 (by norm_num at h0 ⊢; linarith) ha.2
      have hx := hI.toR
      exact ⟨hI.finite, mul_le_mul hx.1 hx.1 (by norm_num) (by linarith),
        mul_le_mul hx.2 hx.2 (by linarith) (by positivity)⟩
    · rw [abs_of_nonpos h] at h0
      have hI : In (E := E) ((-2 ^ 80 : ℝ) : EReal) ((-28 : ℝ) : EReal) q := by
        rw [hs]; exact In.of_round _ e80.neg e28.neg ha.1 (by norm_num at h0 ⊢; linarith)
      have hx := hI.toR
      rw [← neg_mul_neg q.toR]
      exact ⟨hI.finite, mul_le_mul (by linarith) (by linarith) (by norm_num) (by linarith),
        mul_le_mul (by linarith) (by linarith) (by linarith) (by positivity)⟩
  obtain ⟨hqf, hq1, hq2⟩ := hq
  obtain ⟨s', hs'⟩ := mul_fin hqf hqf
  have hI : In (E := E) ((784 : ℝ) : EReal) ((2 ^ 160 : ℝ) : EReal) (q * q) := by
    rw [hs']
    refine In.of_round _ (SRep.ofNat 784 (by norm_num)) (SRep.two_pow 160 (by norm_num)) (by linarith)
      (hq2.trans (by norm_num))
  have hx := hI.toR
  obtain ⟨s2, hs2⟩ := div_fin hI.finite h2 (by rw [t2]; norm_num)
  rw [t2] at hs2
  have hJ : In (E := E) ((392 : ℝ) : EReal) ((2 ^ 160 : ℝ) : EReal) (q * q / (2.0 : FP E)) := by
    rw [hs2]
    exact In.of_round _ (SRep.ofNat 392 (by norm_num)) (SRep.two_pow 160 (by norm_num)) (by linarith)
      (by linarith)
  obtain ⟨n1, n2⟩ := neg_val hJ.finite
  have hX := X.exp _ n1 (by rw [n2]; linarith [hJ.toR.1])
  have rb := abs_le.1 rn.2
  exact mul_faint rn.1 rp.le (by norm_num at rb hr ⊢; linarith [rb.2]) hX.1 hX.2.1 hX.2.2

/-- A number over an approximated one, for large quotients. -/
theorem quotient_wide {r y : FP E} {C M k : ℝ} (hr : r.isFinite) (hc : Rel k y C) (hC : 0 < C)
    (hM : |r.toR| / C ≤ M) (h1 : 1 ≤ M) (h2 : M ≤ 2 ^ 100) (hk : k ≤ 2 ^ 10) :
    Near (M * (k + 2) / 2 ^ 50) (r / y) (r.toR / C) := by
  have k0 := hc.nonneg
  have hpos := hc.pos (by norm_num at hk ⊢; linarith) hC
  obtain ⟨fy, β, hβ, ey⟩ := hc
  obtain ⟨s, e⟩ := div_fin hr fy hpos.1.ne'
  have hb := abs_le.1 (hβ.trans (show k / 2 ^ 50 ≤ 1 / 2 ^ 40 by norm_num at hk ⊢; linarith))
  have hb0 : 0 < 1 + β := by norm_num at hb ⊢; linarith [hb.1]
  have hv : |r.toR / y.toR - r.toR / C| ≤ M * (k + 1) / 2 ^ 50 := by
    have e1 : r.toR / y.toR - r.toR / C = r.toR / C * (-β / (1 + β)) := by
      rw [ey]; field_simp; ring
    rw [e1, abs_mul, abs_div, abs_of_pos hC]
    have : |-β / (1 + β)| ≤ (k + 1) / 2 ^ 50 := by
      rw [abs_div, abs_neg, abs_of_pos hb0, div_le_iff₀ hb0]
      have h3 : (k + 1) / 2 ^ 50 * (1 - 1 / 2 ^ 40) ≤ (k + 1) / 2 ^ 50 * (1 + β) :=
        mul_le_mul_of_nonneg_left (by linarith [hb.1]) (by positivity)
      refine hβ.trans (le_trans ?_ h3)
      norm_num at hk ⊢; linarith
    calc _ ≤ M * ((k + 1) / 2 ^ 50) := mul_le_mul hM this (abs_nonneg _) (by linarith)
      _ = _ := by ring
  have hb2 : M * (k + 1) / 2 ^ 50 ≤ M := by
    rw [div_le_iff₀ (by positivity)]
    refine mul_le_mul_of_nonneg_left ?_ (by linarith)
    norm_num at hk ⊢; linarith
  refine (Near.trans (round_abs s (M := 2 * M) ?_ (by linarith)
    (le_huge 101 (by norm_num at h2 ⊢; linarith) (by norm_num))) hv e).mono (le_of_eq (by ring))
  rw [show r.toR / y.toR = r.toR / C + (r.toR / y.toR - r.toR / C) by ring]
  refine (abs_add_le _ _).trans ?_
  rw [abs_div, abs_of_pos hC]
  linarith

end TrueSkill
end Skillratings
