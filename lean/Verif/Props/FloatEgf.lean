import Verif.Props.FloatDirections
import Verif.Spec.Library
/-
EGF in floating point: expected scores (C79), directions (C80) and histories (C100).
-/

namespace Skillratings
open FP FPVal Spec
variable {E : FloatEnv}

/-- Rounding a number of moderate size up. -/
theorem round_upper (s : Bool) {x : ℝ} (h0 : 0 ≤ x) (h : x ≤ 2 ^ 1000) :
    (E.round s x).isFinite ∧ 0 ≤ FP.toR (E := E) (E.round s x) ∧
      FP.toR (E := E) (E.round s x) ≤ x * (1 + 1 / 2 ^ 50) + 1 / 2 ^ 50 := by
  obtain ⟨hf, hr⟩ := round_near (E := E) s (x := x) (by
    rw [abs_of_nonneg h0]
    exact h.trans_lt (pow_lt_pow_right₀ (by norm_num) (by norm_num)))
  refine ⟨hf, toR_of_le (x := (E.round s x : FP E)) hf (E.round_ge s SRep.zero h0), ?_⟩
  rw [abs_of_nonneg h0] at hr
  have h1 := (abs_le.1 hr).2
  have h2 : (1 : ℝ) / 2 ^ 1074 ≤ 1 / 2 ^ 50 :=
    one_div_le_one_div_of_le (by positivity) (pow_le_pow_right₀ (by norm_num) (by norm_num))
  have h3 : 1 / 2 ^ 52 * x ≤ x * (1 / 2 ^ 50) := by
    have : (1 / 2 ^ 52 : ℝ) ≤ 1 / 2 ^ 50 := by norm_num
    nlinarith
  generalize (1 : ℝ) / 2 ^ 1074 = t at *
  change (E.round s x).toR ≤ _
  linarith

theorem ieee_moderate : ieee.Moderate where
  powf_le := by
    intro x y hx hy hx0 hx1 hy0 hy1
    cases x with
    | nan => exact hx.elim
    | inf s => exact hx.elim
    | fin s m => cases y with
      | nan => exact hy.elim
      | inf t => exact hy.elim
      | fin t n =>
        change 0 ≤ signed s m.1 at hx0
        change signed s m.1 ≤ 2 ^ 20 at hx1
        change 0 < signed t n.1 at hy0
        change signed t n.1 ≤ 2 at hy1
        change FP.isFinite (E := ieee) (Ieee.powf (fin s m) (fin t n)) ∧
          0 ≤ FP.toR (E := ieee) (Ieee.powf (fin s m) (fin t n)) ∧
          FP.toR (E := ieee) (Ieee.powf (fin s m) (fin t n)) ≤
            (signed s m.1) ^ (signed t n.1) * (1 + 1 / 2 ^ 50) + 1 / 2 ^ 50
        have hbig : (signed s m.1) ^ (signed t n.1) ≤ 2 ^ 1000 := by
          by_cases h1 : signed s m.1 ≤ 1
          · exact (Real.rpow_le_one hx0 h1 hy0.le).trans (one_le_pow₀ (by norm_num))
          · have h1' : 1 ≤ signed s m.1 := (not_le.1 h1).le
            calc (signed s m.1) ^ (signed t n.1) ≤ (signed s m.1) ^ (2 : ℝ) :=
                  Real.rpow_le_rpow_of_exponent_le h1' hy1
              _ = signed s m.1 ^ 2 := by exact_mod_cast Real.rpow_natCast (signed s m.1) 2
              _ ≤ (2 ^ 20) ^ 2 := by gcongr
              _ = 2 ^ 40 := by norm_num
              _ ≤ 2 ^ 1000 := pow_le_pow_right₀ (by norm_num) (by norm_num)
        have key := round_upper (E := ieee) false (Real.rpow_nonneg hx0 (signed t n.1)) hbig
        by_cases h : (¬ (fin t n : FPVal).isNaN ∧ (fin t n : FPVal).toE = 0) ∨
            (¬ (fin s m : FPVal).isNaN ∧ (fin s m : FPVal).toE = 1)
        · have e : Ieee.powf (fin s m) (fin t n) = Ieee.one := by
            unfold Ieee.powf; exact if_pos h
          have e1 : (signed s m.1) ^ (signed t n.1) = 1 := by
            rcases h with h | h
            · have h0 : signed t n.1 = 0 := by
                have := h.2
                rw [Ieee.fin_toE] at this
                exact_mod_cast this
              rw [h0, Real.rpow_zero]
            · have h1 : signed s m.1 = 1 := by
                have := h.2
                rw [Ieee.fin_toE] at this
                exact_mod_cast this
              rw [h1, Real.one_rpow]
          rw [e1] at key ⊢
          rw [e]
          exact key
        · have e0 : Ieee.powf (fin s m) (fin t n) = Ieee.powfCore (fin s m) (fin t n) := by
            unfold Ieee.powf; exact if_neg h
          rw [e0]
          by_cases hm : m.1 = 0
          · obtain ⟨b, e⟩ : ∃ b, Ieee.powfCore (fin s m) (fin t n) = fin b Mag.zero :=
              ⟨_, by simp only [Ieee.powfCore, if_pos hm, if_neg (not_lt.2 hy0.le)]; rfl⟩
            rw [e]
            have z : FP.toR (E := ieee) (fin b Mag.zero) = 0 := by
              change signed _ _ = 0
              simp [signed, Mag.zero]
            rw [z]
            refine ⟨trivial, le_rfl, ?_⟩
            have := Real.rpow_nonneg hx0 (signed t n.1)
            positivity
          · have hs : s = false := by
              cases s
              · rfl
              · simp only [signed, if_true] at hx0
                exact (hm (le_antisymm (by linarith) m.2.nonneg)).elim
            subst hs
            have e : Ieee.powfCore (fin false m) (fin t n)
                = ieeeBase.round false (m.1 ^ (signed t n.1)) := by
              simp only [Ieee.powfCore, if_neg hm, Bool.false_eq_true, if_false]
            rw [e]
            exact key
  ln_le := by
    intro x hx hx1
    cases x with
    | nan => exact hx.elim
    | inf s => exact hx.elim
    | fin s m =>
      change 1 ≤ signed s m.1 at hx1
      have hs : s = false := by
        cases s
        · rfl
        · simp only [signed, if_true] at hx1; linarith [m.2.nonneg]
      subst hs
      have hx1' : 1 ≤ m.1 := hx1
      have e : Ieee.ln (fin false m) = ieeeBase.round false (Real.log m.1) := by
        simp [Ieee.ln, (show m.1 ≠ 0 by linarith)]
      change FP.isFinite (E := ieee) (Ieee.ln (fin false m)) ∧
        0 ≤ FP.toR (E := ieee) (Ieee.ln (fin false m)) ∧
        FP.toR (E := ieee) (Ieee.ln (fin false m)) ≤ Real.log m.1 * (1 + 1 / 2 ^ 50) + 1 / 2 ^ 50
      rw [e]
      refine round_upper (E := ieee) false (Real.log_nonneg hx1') ?_
      have h2 : Real.log m.1 ≤ Real.log (2 ^ 1024) :=
        Real.log_le_log (by linarith) m.2.lt_top.le
      rw [Real.log_pow] at h2
      have h3 : Real.log 2 ≤ 1 := by have := Real.log_two_lt_d9; linarith
      have h4 : ((1024 : ℕ) : ℝ) * Real.log 2 ≤ 2 ^ 11 := by push_cast; norm_num; linarith
      exact h2.trans (h4.trans (pow_le_pow_right₀ (by norm_num) (by norm_num)))
  ln1p_le := by
    intro x hx hx0
    cases x with
    | nan => exact hx.elim
    | inf s => exact hx.elim
    | fin s m =>
      change 0 ≤ signed s m.1 at hx0
      have e : Ieee.ln1p (fin s m) = ieeeBase.round s (Real.log (1 + signed s m.1)) := by
        simp only [Ieee.ln1p, if_neg (show ¬ signed s m.1 < -1 by linarith),
          if_neg (show ¬ signed s m.1 = -1 by linarith)]
      change FP.isFinite (E := ieee) (Ieee.ln1p (fin s m)) ∧
        0 ≤ FP.toR (E := ieee) (Ieee.ln1p (fin s m)) ∧
        FP.toR (E := ieee) (Ieee.ln1p (fin s m)) ≤
          Real.log (1 + signed s m.1) * (1 + 1 / 2 ^ 50) + 1 / 2 ^ 50
      rw [e]
      refine round_upper (E := ieee) s (Real.log_nonneg (by linarith)) ?_
      have h1 : |signed s m.1| < 2 ^ 1024 := by
        have := m.2.lt_top
        cases s <;> simp only [signed, if_true, Bool.false_eq_true, if_false, abs_neg] <;>
          rwa [abs_of_nonneg m.2.nonneg]
      rw [abs_of_nonneg hx0] at h1
      have h2 : Real.log (1 + signed s m.1) ≤ Real.log (2 ^ 1025) := by
        apply Real.log_le_log (by linarith)
        have e2 : (2 : ℝ) ^ 1025 = 2 ^ 1024 + 2 ^ 1024 := by rw [pow_succ]; ring
        rw [e2]
        have : (1 : ℝ) ≤ 2 ^ 1024 := one_le_pow₀ (by norm_num)
        clear e2
        generalize (2 : ℝ) ^ 1024 = P at *
        linarith
      rw [Real.log_pow] at h2
      have h3 : Real.log 2 ≤ 1 := by have := Real.log_two_lt_d9; linarith
      have h4 : ((1025 : ℕ) : ℝ) * Real.log 2 ≤ 2 ^ 11 := by push_cast; norm_num; linarith
      exact h2.trans (h4.trans (pow_le_pow_right₀ (by norm_num) (by norm_num)))

/-! The parts of an EGF update. -/

theorem egf_con_in (G : E.Moderate) {r : FP E} (hr : r.isFinite) (h1 : -900 ≤ r.toR)
    (h2 : r.toR ≤ 3300) :
    In (E := E) ((0 : ℝ) : EReal) ((135 : ℝ) : EReal) (Egf.con r) := by
  have h33 := lit_in (E := E) (m := 33000) (s := true) (e := 1) (v := 3300) (by norm_num)
    (SRep.ofNat 3300 (by norm_num))
  have h200 := lit_in (E := E) (m := 2000) (s := true) (e := 1) (v := 200) (by norm_num)
    (SRep.ofNat 200 (by norm_num))
  have hr' : In (E := E) ((-900 : ℝ) : EReal) ((3300 : ℝ) : EReal) r := by
    refine ⟨isFinite.not_nan hr, ?_, ?_⟩
    · rw [show r.toE = (r.toR : EReal) from isFinite.toE_eq hr]; exact_mod_cast h1
    · rw [show r.toE = (r.toR : EReal) from isFinite.toE_eq hr]; exact_mod_cast h2
  have d1 := sub_in h33 hr' SRep.zero (SRep.ofNat 4200 (by norm_num)) (by norm_num) (by norm_num)
  have d2 := div_in d1 h200 le_rfl (by norm_num) SRep.zero (SRep.ofNat 21 (by norm_num)) (by norm_num)
    (by norm_num)
  have h16 : In (E := E) ((3 / 2 : ℝ) : EReal) ((103 / 64 : ℝ) : EReal) (1.6 : FP E) := by
    rw [lit]
    refine In.of_round false ?_ ?_ (by norm_num) (by norm_num)
    · have := SRep.scale (n := 3) (k := -1) (by norm_num) (by norm_num) (by norm_num)
      have h : ((3 : ℕ) : ℝ) * 2 ^ (-1 : ℤ) = 3 / 2 := by norm_num
      rwa [h] at this
    · have := SRep.scale (n := 103) (k := -6) (by norm_num) (by norm_num) (by norm_num)
      have h : ((103 : ℕ) : ℝ) * 2 ^ (-6 : ℤ) = 103 / 64 := by norm_num
      rwa [h] at this
  have x0 := d2.toR
  have y0 := h16.toR
  obtain ⟨pf, p0, pu⟩ := G.powf_le _ _ d2.finite h16.finite x0.1 (by linarith [x0.2]) (by linarith)
    (by linarith)
  have hpow : (((3300.0 : FP E) - r) / 200.0).toR ^ FP.toR (1.6 : FP E) ≤ 1345 / 10 := by
    calc (((3300.0 : FP E) - r) / 200.0).toR ^ FP.toR (1.6 : FP E)
        ≤ 21 ^ FP.toR (1.6 : FP E) := Real.rpow_le_rpow x0.1 x0.2 (by linarith)
      _ ≤ 21 ^ (103 / 64 : ℝ) := Real.rpow_le_rpow_of_exponent_le (by norm_num) y0.2
      _ ≤ 1345 / 10 := by
        rw [show (103 / 64 : ℝ) = (103 : ℕ) * (1 / (64 : ℕ)) by norm_num,
          Real.rpow_mul (by norm_num), Real.rpow_natCast, one_div]
        rw [Real.rpow_inv_le_iff_of_pos (by positivity) (by norm_num) (by norm_num),
          Real.rpow_natCast]
        norm_num
  have hn : ¬ (Egf.con r).isNaN := isFinite.not_nan pf
  have hE : (Egf.con r).toE = ((Egf.con r).toR : EReal) := isFinite.toE_eq pf
  have q0 : 0 ≤ (Egf.con r).toR := p0
  have q1 : (Egf.con r).toR ≤ 135 := by
    refine (show (Egf.con r).toR ≤ _ from pu).trans ?_
    have : (((3300.0 : FP E) - r) / 200.0).toR ^ FP.toR (1.6 : FP E) * (1 + 1 / 2 ^ 50)
        ≤ 1345 / 10 * (1 + 1 / 2 ^ 50) := mul_le_mul_of_nonneg_right hpow (by positivity)
    calc _ ≤ 1345 / 10 * (1 + 1 / 2 ^ 50) + 1 / 2 ^ 50 := by linarith
      _ ≤ (135 : ℝ) := by norm_num
  refine ⟨hn, ?_, ?_⟩ <;> rw [hE]
  · exact_mod_cast q0
  · exact_mod_cast q1

theorem egf_slack {z y : ℝ} (h : z - y ≤ y / 2 ^ 50) (hp : 0 < y) (hu : y ≤ 9 / 10 * 2 ^ 58) :
    z ≤ 2 ^ 58 := by
  have h5 : y / 2 ^ 50 ≤ y / 10 := div_le_div_of_nonneg_left hp.le (by norm_num) (by norm_num)
  linarith

theorem egf_slack' {z l : ℝ} (h : z ≤ l * (1 + 1 / 2 ^ 50) + 1 / 2 ^ 50) (hl : l ≤ 902 / 100) :
    z ≤ 10 := by
  have := mul_le_mul_of_nonneg_right hl (by positivity : (0 : ℝ) ≤ 1 + 1 / 2 ^ 50)
  calc z ≤ 902 / 100 * (1 + 1 / 2 ^ 50) + 1 / 2 ^ 50 := by linarith
    _ ≤ (10 : ℝ) := by norm_num

theorem egf_bonus_in (L : E.Lib) (A : E.Accurate) (G : E.Moderate) {r : FP E} {N : ℕ}
    (hr : r.isFinite) (h1 : -900 ≤ r.toR) (h2 : r.toR ≤ N) (hN : N < 2 ^ 53) :
    In (E := E) ((0 : ℝ) : EReal) ((9 : ℝ) : EReal) (Egf.bonus r) := by
  have h23 := lit_in (E := E) (m := 23000) (s := true) (e := 1) (v := 2300) (by norm_num)
    (SRep.ofNat 2300 (by norm_num))
  have h80 := lit_in (E := E) (m := 800) (s := true) (e := 1) (v := 80) (by norm_num)
    (SRep.ofNat 80 (by norm_num))
  have h5 := lit_in (E := E) (m := 50) (s := true) (e := 1) (v := 5) (by norm_num)
    (SRep.ofNat 5 (by norm_num))
  have hr' : In (E := E) ((-900 : ℝ) : EReal) ((N : ℝ) : EReal) r := by
    refine ⟨isFinite.not_nan hr, ?_, ?_⟩
    · rw [show r.toE = (r.toR : EReal) from isFinite.toE_eq hr]; exact_mod_cast h1
    · rw [show r.toE = (r.toR : EReal) from isFinite.toE_eq hr]; exact_mod_cast h2
  have hN' : SRep (-(N : ℝ)) := (within_nat hN).neg
  have d1 := sub_in h23 hr' (lo := -(N : ℝ)) (hi := 3200) hN' (SRep.ofNat 3200 (by norm_num))
    (by linarith) (by norm_num)
  have d2 : In (E := E) ((-(N : ℝ) : ℝ) : EReal) ((40 : ℝ) : EReal) ((2300.0 - r) / 80.0) := by
    have e80 : FP.toR (80.0 : FP E) = 80 := le_antisymm h80.toR.2 h80.toR.1
    obtain ⟨s, hs⟩ := div_fin d1.finite h80.finite (by rw [e80]; norm_num)
    have n0 : (0 : ℝ) ≤ N := Nat.cast_nonneg N
    rw [hs, e80]
    refine In.of_round s hN' (SRep.ofNat 40 (by norm_num)) ?_ ?_
    · rw [le_div_iff₀ (by norm_num)]; linarith [d1.toR.1]
    · rw [div_le_iff₀ (by norm_num)]; linarith [d1.toR.2]
  have hexp := L.exp_pos _ d2.1
  have hz : In (E := E) ((0 : ℝ) : EReal) (((2 : ℝ) ^ 58 : ℝ) : EReal)
      (Flt.exp ((2300.0 - r) / 80.0) : FP E) := by
    refine ⟨hexp.1, by rw [EReal.coe_zero]; exact hexp.2, ?_⟩
    rcases le_total (((2300.0 : FP E) - r) / 80.0).toR 0 with h | h
    · have := L.exp_le_one _ d2.1 (by
        change FP.toE (((2300.0 : FP E) - r) / 80.0) ≤ 0
        rw [show FP.toE (((2300.0 : FP E) - r) / 80.0) = _ from isFinite.toE_eq d2.finite]
        exact_mod_cast h)
      refine le_trans this ?_
      exact_mod_cast (by norm_num : (1 : ℝ) ≤ 2 ^ 58)
    · obtain ⟨hf, he⟩ := A.exp (((2300.0 : FP E) - r) / 80.0) d2.finite (by
        rw [abs_of_nonneg h]; linarith [d2.toR.2])
      have h3 := (abs_le.1 he).2
      have hp := Real.exp_pos (((2300.0 : FP E) - r) / 80.0).toR
      have hu : Real.exp (((2300.0 : FP E) - r) / 80.0).toR ≤ 9 / 10 * 2 ^ 58 := by
        calc Real.exp (((2300.0 : FP E) - r) / 80.0).toR ≤ Real.exp ((40 : ℕ) * 1) :=
              Real.exp_le_exp.2 (by have := d2.toR.2; norm_num; linarith)
          _ = Real.exp 1 ^ 40 := Real.exp_nat_mul _ _
          _ ≤ (272 / 100) ^ 40 := by
            apply pow_le_pow_left₀ (Real.exp_pos _).le
            have := Real.exp_one_lt_d9
            norm_num
            linarith
          _ ≤ 9 / 10 * 2 ^ 58 := by norm_num
      change FP.toE (E.exp (((2300.0 : FP E) - r) / 80.0) : FP E) ≤ _
      rw [show FP.toE (E.exp (((2300.0 : FP E) - r) / 80.0) : FP E) = _ from isFinite.toE_eq hf]
      have h4 : FP.toR (E := E) (E.exp (((2300.0 : FP E) - r) / 80.0)) ≤ 2 ^ 58 := by
        exact egf_slack h3 hp hu
      exact_mod_cast h4
  obtain ⟨lf, l0, lu⟩ := G.ln1p_le _ hz.finite hz.toR.1
  have hlog : Real.log (1 + FP.toR (Flt.exp ((2300.0 - r) / 80.0) : FP E)) ≤ 4095 / 100 := by
    calc Real.log (1 + FP.toR (Flt.exp ((2300.0 - r) / 80.0) : FP E)) ≤ Real.log (2 ^ 59) := by
          apply Real.log_le_log (by linarith [hz.toR.1])
          have := hz.toR.2
          norm_num at this ⊢
          linarith
      _ = 59 * Real.log 2 := by rw [Real.log_pow]; norm_num
      _ ≤ 4095 / 100 := by have := Real.log_two_lt_d9; linarith
  have hln : In (E := E) ((0 : ℝ) : EReal) ((41 : ℝ) : EReal)
      (Flt.ln1p (Flt.exp ((2300.0 - r) / 80.0)) : FP E) := by
    have q1 : FP.toR (Flt.ln1p (Flt.exp ((2300.0 - r) / 80.0)) : FP E) ≤ 41 := by
      refine (show FP.toR (Flt.ln1p (Flt.exp ((2300.0 - r) / 80.0)) : FP E) ≤ _ from lu).trans ?_
      have := mul_le_mul_of_nonneg_right hlog (by positivity : (0 : ℝ) ≤ 1 + 1 / 2 ^ 50)
      calc _ ≤ 4095 / 100 * (1 + 1 / 2 ^ 50) + 1 / 2 ^ 50 := by linarith
        _ ≤ (41 : ℝ) := by norm_num
    have hE : (Flt.ln1p (Flt.exp ((2300.0 - r) / 80.0)) : FP E).toE
        = ((Flt.ln1p (Flt.exp ((2300.0 - r) / 80.0)) : FP E).toR : EReal) := isFinite.toE_eq lf
    refine ⟨isFinite.not_nan lf, ?_, ?_⟩ <;> rw [hE]
    · exact_mod_cast l0
    · exact_mod_cast q1
  exact div_in hln h5 le_rfl (by norm_num) SRep.zero (SRep.ofNat 9 (by norm_num)) (by norm_num)
    (by norm_num)

theorem abs_in {x : FP E} {B : ℝ} (h : Within B x) :
    In (E := E) ((0 : ℝ) : EReal) (B : EReal) (Flt.abs x) := by
  change In (E := E) ((0 : ℝ) : EReal) (B : EReal) (FPVal.abs x)
  obtain ⟨hf, hb⟩ := h
  cases x with
  | nan => exact hf.elim
  | inf => exact hf.elim
  | fin s m =>
    change |signed s m.1| ≤ B at hb
    have hm : |signed s m.1| = m.1 := by
      cases s <;> simp only [signed, if_true, Bool.false_eq_true, if_false, abs_neg] <;>
        exact abs_of_nonneg m.2.nonneg
    rw [hm] at hb
    refine ⟨id, ?_, ?_⟩
    · change ((0 : ℝ) : EReal) ≤ ((m.1 : ℝ) : EReal)
      exact_mod_cast m.2.nonneg
    · change ((m.1 : ℝ) : EReal) ≤ _
      exact_mod_cast hb

theorem srep_int {n : ℤ} (h : |n| < 2 ^ 53) : SRep (n : ℝ) := by
  have h1 : n.natAbs < 2 ^ 53 := by
    rw [Int.abs_eq_natAbs] at h; exact_mod_cast h
  have := within_nat h1
  rw [SRep, abs_of_nonneg (Nat.cast_nonneg _)] at this
  rw [SRep, ← Int.cast_abs, Int.abs_eq_natAbs, Int.cast_natCast]
  exact this

/-- `beta` is finite when the handicap leaves the rating below the pole. -/
theorem egf_beta_within (G : E.Moderate) {r h : FP E} {H : ℕ} (hr : r.isFinite) (h1 : -900 ≤ r.toR)
    (h2 : r.toR + 100 * H ≤ 3299) (hh : In (E := E) ((0 : ℝ) : EReal) ((H : ℝ) : EReal) h) :
    Within 70 (Egf.beta r h) := by
  have H0 : (0 : ℝ) ≤ H := Nat.cast_nonneg H
  have hH : H ≤ 42 := by
    have : (H : ℝ) < 43 := by linarith
    have : H < 43 := by exact_mod_cast this
    omega
  have h33 := lit_in (E := E) (m := 33000) (s := true) (e := 1) (v := 3300) (by norm_num)
    (SRep.ofNat 3300 (by norm_num))
  have hhalf := lit_in (E := E) (m := 5) (s := true) (e := 1) (v := 1 / 2) (by norm_num) SRep.half
  have hundred := lit_in (E := E) (m := 1000) (s := true) (e := 1) (v := 100) (by norm_num)
    (SRep.ofNat 100 (by norm_num))
  have hz := lit_in (E := E) (m := 0) (s := true) (e := 1) (v := 0) (by norm_num) SRep.zero
  have h7 := lit_in (E := E) (m := 70) (s := true) (e := 1) (v := 7) (by norm_num)
    (SRep.ofNat 7 (by norm_num))
  have rH : SRep ((100 * H : ℕ) : ℝ) := within_nat (by omega)
  have key : ∀ k : FP E, In (E := E) ((-50 : ℝ) : EReal) (((100 * H : ℕ) : ℝ) : EReal) k →
      Within 70 ((-7.0 : FP E) * Flt.ln (3300.0 - k - r)) := by
    intro k hk
    have e1 : SRep (((3300 - 100 * H : ℤ) : ℤ) : ℝ) := srep_int (by rw [abs_lt]; omega)
    have d1 := sub_in h33 hk (lo := ((3300 - 100 * H : ℤ) : ℝ)) (hi := 3350) e1
      (SRep.ofNat 3350 (by norm_num)) (by push_cast; linarith) (by norm_num)
    have hr' : In (E := E) ((-900 : ℝ) : EReal) (((3299 - 100 * H : ℤ) : ℝ) : EReal) r := by
      refine ⟨isFinite.not_nan hr, ?_, ?_⟩
      · rw [show r.toE = (r.toR : EReal) from isFinite.toE_eq hr]; exact_mod_cast h1
      · rw [show r.toE = (r.toR : EReal) from isFinite.toE_eq hr]
        have : r.toR ≤ ((3299 - 100 * H : ℤ) : ℝ) := by push_cast; linarith
        exact_mod_cast this
    have d2 := sub_in d1 hr' (lo := 1) (hi := 4250) SRep.one (SRep.ofNat 4250 (by norm_num))
      (by push_cast; linarith) (by norm_num)
    obtain ⟨lf, l0, lu⟩ := G.ln_le _ d2.finite d2.toR.1
    have hlog : Real.log (3300.0 - k - r : FP E).toR ≤ 902 / 100 := by
      calc Real.log (3300.0 - k - r : FP E).toR ≤ Real.log (2 ^ 13) := by
            apply Real.log_le_log (lt_of_lt_of_le one_pos d2.toR.1)
            have := d2.toR.2
            norm_num at this ⊢
            linarith
        _ = 13 * Real.log 2 := by rw [Real.log_pow]; norm_num
        _ ≤ 902 / 100 := by have := Real.log_two_lt_d9; linarith
        _ = _ := rfl
    have q1 : FP.toR (Flt.ln (3300.0 - k - r) : FP E) ≤ 10 := by
      exact egf_slack' lu hlog
    have w1 : Within 10 (Flt.ln (3300.0 - k - r) : FP E) :=
      ⟨lf, abs_le.2 ⟨by linarith [show (0 : ℝ) ≤ FP.toR (Flt.ln (3300.0 - k - r) : FP E) from l0], q1⟩⟩
    have w7 : Within 7 (-7.0 : FP E) := by
      have h := In.within (h7.mono (c := -7) (d := 7) (by norm_num) le_rfl)
      exact ⟨by simpa using h.1, by rw [toR_neg', abs_neg]; exact h.2⟩
    exact mul_abs_in w7 w1 (SRep.ofNat 70 (by norm_num)) (by norm_num)
  simp only [Egf.beta]
  split
  · exact key _ (hz.mono (by norm_num) (Nat.cast_nonneg _))
  · have d1 := sub_in hh hhalf (lo := -(1 / 2)) (hi := H) SRep.half.neg (within_nat (by omega))
      (by norm_num) (by linarith)
    apply key
    obtain ⟨s, hs⟩ := mul_fin hundred.finite d1.finite
    have e100 : FP.toR (100.0 : FP E) = 100 := le_antisymm hundred.toR.2 hundred.toR.1
    rw [hs, e100]
    refine In.of_round s (SRep.ofNat 50 (by norm_num)).neg rH ?_ ?_
    · have : -(1 / 2) ≤ (h - (0.5 : FP E)).toR := d1.toR.1
      change -50 ≤ 100 * (h - (0.5 : FP E)).toR
      linarith
    · have : (h - (0.5 : FP E)).toR ≤ H := d1.toR.2
      push_cast
      change 100 * (h - (0.5 : FP E)).toR ≤ 100 * H
      linarith

/-- Expected scores are in `[0, 1]`, for ratings below 3300 by more than the handicap. -/
theorem C79_egf_expected (L : E.Lib) (G : E.Moderate) (a b : Egf.EGFRating (FP E))
    (c : Egf.EGFConfig (FP E)) (H : ℕ) (hc : Within H c.handicap) (ha : a.rating.isFinite)
    (ha1 : -900 ≤ a.rating.toR) (ha2 : a.rating.toR + 100 * H ≤ 3299) (hb : b.rating.isFinite)
    (hb1 : -900 ≤ b.rating.toR) (hb2 : b.rating.toR + 100 * H ≤ 3299) :
    In 0 1 (Egf.expectedScore a b c).1 ∧ In 0 1 (Egf.expectedScore a b c).2 := by
  have hh := abs_in hc
  have hz := (lit_in (E := E) (m := 0) (s := true) (e := 1) (v := 0) (by norm_num) SRep.zero).mono
    (d := (H : ℝ)) le_rfl (Nat.cast_nonneg H)
  have key : ∀ h1 h2 : FP E, In (E := E) ((0 : ℝ) : EReal) ((H : ℝ) : EReal) h1 →
      In (E := E) ((0 : ℝ) : EReal) ((H : ℝ) : EReal) h2 →
      In 0 1 (Flt.recip (1.0 + Flt.exp (Egf.beta b.rating h2 - Egf.beta a.rating h1)) : FP E) :=
    fun h1 h2 i1 i2 => exp_score L (sub_not_nan (egf_beta_within G hb hb1 hb2 i2).1
      (egf_beta_within G ha ha1 ha2 i1).1)
  have h : In 0 1 (Egf.expectedScore a b c).1 := by
    simp only [Egf.expectedScore]
    split
    · exact key _ _ hh hz
    · exact key _ _ hz hh
  exact ⟨h, one_sub_in h⟩

/-- A player who wins never drops.  (The loser may rise, because of the bonus.) -/
theorem C80_egf_direction (L : E.Lib) (A : E.Accurate) (G : E.Moderate) (a b : Egf.EGFRating (FP E))
    (o : Outcomes) (c : Egf.EGFConfig (FP E)) (H : ℕ) (hc : Within H c.handicap)
    (ha : a.rating.isFinite) (ha1 : -900 ≤ a.rating.toR) (ha2 : a.rating.toR + 100 * H ≤ 3299)
    (hb : b.rating.isFinite) (hb1 : -900 ≤ b.rating.toR) (hb2 : b.rating.toR + 100 * H ≤ 3299) :
    ¬ (Egf.egf a b o c).1.rating.isNaN ∧ ¬ (Egf.egf a b o c).2.rating.isNaN ∧
    (o = .WIN → a.rating.toE ≤ (Egf.egf a b o c).1.rating.toE) ∧
    (o = .LOSS → b.rating.toE ≤ (Egf.egf a b o c).2.rating.toE) := by
  obtain ⟨e1, e2⟩ := C79_egf_expected L G a b c H hc ha ha1 ha2 hb hb1 hb2
  have H0 : (0 : ℝ) ≤ H := Nat.cast_nonneg H
  have side : ∀ (r s e : FP E) (v : ℝ), r.isFinite → -900 ≤ r.toR → r.toR + 100 * H ≤ 3299 → In 0 1 e →
      In (E := E) (v : EReal) (v : EReal) s → 0 ≤ v → v ≤ 1 →
      ¬ (Egf.newRating r (Egf.con r) s e (Egf.bonus r)).isNaN ∧
      (v = 1 → r.toE ≤ (Egf.newRating r (Egf.con r) s e (Egf.bonus r)).toE) := by
    intro r s e v hr h1 h2 he hs hv0 hv1
    have hk := egf_con_in G hr h1 (by linarith)
    have hbo := egf_bonus_in L A G (N := 3299) hr h1 (by push_cast; linarith) (by norm_num)
    have hsur := surprise hs he hv0 hv1
    have w : Within ((3299 : ℕ) : ℝ) r := ⟨hr, abs_le.2 ⟨by push_cast; linarith, by push_cast; linarith⟩⟩
    have hm : Within ((3434 : ℕ) : ℝ) (Flt.mulAdd (Egf.con r) (s - e) r) :=
      mulAdd_abs_in (In.within (hk.mono (by norm_num) le_rfl))
        ⟨hsur.1, abs_le.2 ⟨hsur.2.1, hsur.2.2.1⟩⟩ w (within_nat (by norm_num)) (by norm_num)
    have h3 := fun hv => (change hk.finite hsur.1 (isFinite.not_nan hr)).2.1
      (mul_nonneg hk.toR.1 (hsur.2.2.2.1 hv))
    have h4 : (Flt.mulAdd (Egf.con r) (s - e) r).toE
        ≤ (Flt.mulAdd (Egf.con r) (s - e) r + Egf.bonus r).toE := by
      obtain ⟨t, ht⟩ := add_fin hm.1 hbo.finite
      rw [ht, show (Flt.mulAdd (Egf.con r) (s - e) r).toE = _ from isFinite.toE_eq hm.1]
      exact E.round_ge t (isFinite.srep hm.1) (by
        have := hbo.toR.1
        change FP.toR _ ≤ _
        linarith)
    have hn : ¬ (Flt.mulAdd (Egf.con r) (s - e) r + Egf.bonus r).isNaN :=
      add_not_nan hm.1 hbo.1
    have h900 : ¬ (-900.0 : FP E).isNaN := by
      have := lit_in (E := E) (m := 9000) (s := true) (e := 1) (v := 900) (by norm_num)
        (SRep.ofNat 900 (by norm_num))
      exact fun h => this.1 (isNaN_neg'.1 h)
    simp only [Egf.newRating]
    rw [fmax_eq hn h900]
    split
    · rename_i h
      exact ⟨h900, fun hv => ((h3 hv).trans h4).trans (lt_iff.1 h).2.2.le⟩
    · exact ⟨hn, fun hv => (h3 hv).trans h4⟩
  have s1 := side _ _ _ _ ha ha1 ha2 e1 (points_in (E := E) o) (pointsR_nonneg o) (pointsR_le_one o)
  have s2 := side _ _ _ _ hb hb1 hb2 e2 (points_in' (E := E) o) (by linarith [pointsR_le_one o])
    (by linarith [pointsR_nonneg o])
  refine ⟨s1.1, s2.1, ?_, ?_⟩
  · rintro rfl
    exact s1.2 rfl
  · rintro rfl
    exact s2.2 (by norm_num [pointsR])

/-- EGF, with any handicaps: every rating stays finite, at least -900, and grows by at most 144 per
game.  (Above 3300 a rating collapses to -900, see C23.) -/
theorem C100_egf_history {ι : Type} [DecidableEq ι] (L : E.Lib) (A : E.Accurate) (G : E.Moderate)
    (pool : ι → Egf.EGFRating (FP E)) (games : List (Game ι (Egf.EGFConfig (FP E)))) (B : ℕ)
    (hp : ∀ i, (pool i).rating.isFinite ∧ -900 ≤ (pool i).rating.toR ∧ (pool i).rating.toR ≤ B)
    (h : B + games.length * 144 < 2 ^ 53) (i : ι) :
    (tournament Egf.egf pool games i).rating.isFinite ∧
      -900 ≤ (tournament Egf.egf pool games i).rating.toR ∧
      (tournament Egf.egf pool games i).rating.toR ≤ ((B + games.length * 144 : ℕ) : ℝ) := by
  have h900 : In (E := E) ((-900 : ℝ) : EReal) ((-900 : ℝ) : EReal) (-900.0 : FP E) := by
    have h := lit_in (E := E) (m := 9000) (s := true) (e := 1) (v := 900) (by norm_num)
      (SRep.ofNat 900 (by norm_num))
    have e : FP.toR (900.0 : FP E) = 900 := le_antisymm h.toR.2 h.toR.1
    have hf : (-900.0 : FP E).isFinite := by simpa using h.finite
    have e' : FP.toE (-900.0 : FP E) = ((-900 : ℝ) : EReal) := by
      rw [show FP.toE (-900.0 : FP E) = ((FP.toR (-900.0 : FP E) : ℝ) : EReal) from
        isFinite.toE_eq hf, toR_neg', e]
    exact ⟨isFinite.not_nan hf, e'.ge, e'.le⟩
  have side : ∀ (n : ℕ) (r s x : FP E) (v : ℝ), B + n * 144 + 144 < 2 ^ 53 → r.isFinite →
      -900 ≤ r.toR → r.toR ≤ ((B + n * 144 : ℕ) : ℝ) →
      In (E := E) (v : EReal) (v : EReal) s → 0 ≤ v → v ≤ 1 → (x.isNaN ∨ In 0 1 x) →
      In (E := E) ((-900 : ℝ) : EReal) (((B + n * 144 + 144 : ℕ) : ℝ) : EReal)
        (Egf.newRating r (Egf.con r) s x (Egf.bonus r)) := by
    intro n r s x v hn hr h1 h2 hs v0 v1 hx
    have N0 : (0 : ℝ) ≤ ((B + n * 144 + 144 : ℕ) : ℝ) := Nat.cast_nonneg _
    have low := fmax_floor (x := Flt.mulAdd (Egf.con r) (s - x) r + Egf.bonus r) h900.1
    refine ⟨low.1, h900.2.1.trans low.2, ?_⟩
    have up900 : FP.toE (-900.0 : FP E) ≤ (((B + n * 144 + 144 : ℕ) : ℝ) : EReal) := by
      refine h900.2.2.trans ?_
      exact_mod_cast (by linarith : (-900 : ℝ) ≤ ((B + n * 144 + 144 : ℕ) : ℝ))
    simp only [Egf.newRating]
    by_cases hnan : (Flt.mulAdd (Egf.con r) (s - x) r + Egf.bonus r).isNaN
    · rw [fmax_nan hnan]; exact up900
    · have hx' : In 0 1 x := hx.resolve_left fun hx =>
        hnan (nan_add (mulAdd_nan (sub_nan hx)))
      have hr33 : r.toR ≤ 3300 := by
        by_contra hcon
        exact hnan (nan_add (nan_mulAdd (con_nan L hr (not_le.1 hcon))))
      have hk := egf_con_in G hr h1 hr33
      have hbo := egf_bonus_in L A G hr h1 h2 (by omega)
      have hsur := surprise hs hx' v0 v1
      obtain ⟨t, ht⟩ := mulAdd_fin hk.finite hsur.1 hr
      have hm : In (E := E) ((-1035 : ℝ) : EReal) (((B + n * 144 + 135 : ℕ) : ℝ) : EReal)
          (Flt.mulAdd (Egf.con r) (s - x) r) := by
        rw [ht]
        have k1 := hk.toR
        have k2 : |(Egf.con r).toR * (s - x).toR| ≤ 135 := by
          rw [abs_mul, abs_of_nonneg k1.1]
          have : |(s - x).toR| ≤ 1 := abs_le.2 ⟨hsur.2.1, hsur.2.2.1⟩
          exact (mul_le_mul_of_nonneg_left this k1.1).trans (by rw [mul_one]; exact k1.2)
        have k3 := abs_le.1 k2
        refine In.of_round t (SRep.ofNat 1035 (by norm_num)).neg (within_nat (by omega)) ?_ ?_
        · linarith
        · push_cast at h2 ⊢; linarith
      have hsum := add_in hm hbo (lo := -1035) (hi := ((B + n * 144 + 144 : ℕ) : ℝ))
        (SRep.ofNat 1035 (by norm_num)).neg (within_nat hn) (by norm_num) (by push_cast; linarith)
      rw [fmax_eq hsum.1 h900.1]
      split
      · exact up900
      · exact hsum.2.2
  have score : ∀ (a b : Egf.EGFRating (FP E)) (c : Egf.EGFConfig (FP E)),
      ((Egf.expectedScore a b c).1.isNaN ∨ In 0 1 (Egf.expectedScore a b c).1) ∧
      ((Egf.expectedScore a b c).2.isNaN ∨ In 0 1 (Egf.expectedScore a b c).2) := by
    intro a b c
    have key : ∀ x : FP E, (Flt.recip (1.0 + Flt.exp x) : FP E).isNaN ∨
        In 0 1 (Flt.recip (1.0 + Flt.exp x) : FP E) := by
      intro x
      by_cases hx : x.isNaN
      · left
        have : (Flt.exp x : FP E).isNaN := by
          rw [nan_iff.1 hx]; exact L.exp_nan
        rw [recip_eq]
        exact div_nan (add_nan this)
      · exact Or.inr (exp_score L hx)
    have h1 : (Egf.expectedScore a b c).1.isNaN ∨ In 0 1 (Egf.expectedScore a b c).1 := by
      simp only [Egf.expectedScore]; exact key _
    exact ⟨h1, h1.imp (fun h => sub_nan h) one_sub_in⟩
  have := tournament_counted Egf.egf
    (fun n a => a.rating.isFinite ∧ -900 ≤ a.rating.toR ∧ a.rating.toR ≤ ((B + n * 144 : ℕ) : ℝ))
    (fun _ => True) games.length
    (fun n a ha => ⟨ha.1, ha.2.1, ha.2.2.trans (by push_cast; linarith)⟩)
    (by
      intro n a b o c hn _ ha hb
      have e : B + (n + 1) * 144 = B + n * 144 + 144 := by ring
      have hle : B + n * 144 + 144 < 2 ^ 53 := by omega
      rw [e]
      have sc := score a b c
      have h1 := side n _ _ _ _ hle ha.1 ha.2.1 ha.2.2 (points_in (E := E) o) (pointsR_nonneg o)
        (pointsR_le_one o) sc.1
      have h2 := side n _ _ _ _ hle hb.1 hb.2.1 hb.2.2 (points_in' (E := E) o)
        (by linarith [pointsR_le_one o]) (by linarith [pointsR_nonneg o]) sc.2
      exact ⟨⟨h1.finite, h1.toR⟩, ⟨h2.finite, h2.toR⟩⟩)
    pool games 0 (by omega) (fun _ _ => trivial) (by simpa using hp) i
  simpa using this

/-! Concrete instances: binary64 with rounding to nearest. -/

theorem sample_egf (m v : ℕ) (h : (OfScientific.ofScientific m true 1 : ℝ) = v)
    (hv : v < 2 ^ 53) : (OfScientific.ofScientific m true 1 : FP ieee).isFinite ∧
      (OfScientific.ofScientific m true 1 : FP ieee).toR = v :=
  lit_rep (E := ieee) h (SRep.nat hv)

/-- Nine handicap stones. -/
example : In 0 1 (Egf.expectedScore (F := FP ieee) ⟨1500.0⟩ ⟨2300.0⟩ ⟨9.0⟩).1 := by
  have h1 := sample_egf 15000 1500 (by norm_num) (by norm_num)
  have h2 := sample_egf 23000 2300 (by norm_num) (by norm_num)
  exact (C79_egf_expected ieee_lib ieee_moderate ⟨1500.0⟩ ⟨2300.0⟩ _ 9
    (sample_within 90 9 (by norm_num) (by norm_num)) h1.1 (by rw [h1.2]; norm_num)
    (by rw [h1.2]; norm_num) h2.1 (by rw [h2.2]; norm_num) (by rw [h2.2]; norm_num)).1

example : (1500.0 : FP ieee).toE
    ≤ (Egf.egf (F := FP ieee) ⟨1500.0⟩ ⟨2300.0⟩ .WIN ⟨9.0⟩).1.rating.toE := by
  have h1 := sample_egf 15000 1500 (by norm_num) (by norm_num)
  have h2 := sample_egf 23000 2300 (by norm_num) (by norm_num)
  exact (C80_egf_direction ieee_lib ieee_accurate ieee_moderate ⟨1500.0⟩ ⟨2300.0⟩ .WIN _ 9
    (sample_within 90 9 (by norm_num) (by norm_num)) h1.1 (by rw [h1.2]; norm_num)
    (by rw [h1.2]; norm_num) h2.1 (by rw [h2.2]; norm_num) (by rw [h2.2]; norm_num)).2.2.1 rfl

example (games : List (Game (Fin 3) (Egf.EGFConfig (FP ieee)))) (hn : games.length ≤ 10 ^ 12)
    (i : Fin 3) :
    (tournament Egf.egf (fun _ => (⟨100.0⟩ : Egf.EGFRating (FP ieee))) games i).rating.isFinite := by
  have h1 := sample_egf 1000 100 (by norm_num) (by norm_num)
  exact (C100_egf_history ieee_lib ieee_accurate ieee_moderate _ games 100
    (fun _ => ⟨h1.1, by rw [h1.2]; norm_num, by rw [h1.2]⟩) (by norm_num; omega) i).1

end Skillratings
