import Verif.Spec.Functions
import Verif.Proofs.FPGlickoAccuracy
/-
`powf`, `exp_m1` and `ln_1p` in floating-point arithmetic.
-/

namespace Skillratings
open FP FPVal Spec
variable {E : FloatEnv}

theorem round_faithful (s : Bool) {v : ℝ} (h1 : 1 / 2 ^ 900 ≤ v) (h2 : v ≤ 2 ^ 900) :
    Near (E := E) (v / 2 ^ 50) (E.round s v) v := by
  have hv : 0 < v := lt_of_lt_of_le (by positivity) h1
  have := round_rel (E := E) s (x := v) (by
    rw [abs_of_pos hv]
    exact le_trans (one_div_le_one_div_of_le (by positivity) (pow_le_pow_right₀ (by norm_num) (by norm_num))) h1)
    (by rw [abs_of_pos hv]; exact h2.trans (pow_le_pow_right₀ (by norm_num) (by norm_num)))
  rw [abs_of_pos hv] at this
  exact this.mono (div_le_div_of_nonneg_left hv.le (by positivity) (by norm_num))

theorem pow_half_le {x : ℝ} (h0 : 0 ≤ x) (h1 : x ≤ 1) : x / 2 ≤ Real.log (1 + x) := by
  have := Real.one_sub_inv_le_log_of_pos (by linarith : 0 < 1 + x)
  refine le_trans ?_ this
  rw [show 1 - (1 + x)⁻¹ = x / (1 + x) by field_simp; ring]
  exact div_le_div_of_nonneg_left h0 (by linarith) (by linarith)

theorem ieee_faithful : ieee.Faithful where
  powf := by
    intro x y hx hy h1 h2 hb
    cases y with
    | nan => exact hy.elim
    | inf t => exact hy.elim
    | fin t n =>
      cases x with
      | nan => exact hx.elim
      | inf s => exact hx.elim
      | fin s m =>
        change 1 / 2 ^ 100 ≤ signed s m.1 at h1
        change signed s m.1 ≤ 2 ^ 100 at h2
        change |signed t n.1| ≤ 4 at hb
        have hpos : 0 < signed s m.1 := lt_of_lt_of_le (by positivity) h1
        have hs : s = false := by
          cases s
          · rfl
          · simp only [signed, if_true] at hpos; linarith [m.2.nonneg]
        subst hs
        change 0 < m.1 at hpos
        change 1 / 2 ^ 100 ≤ m.1 at h1
        change m.1 ≤ 2 ^ 100 at h2
        change Near (E := ieee) (m.1 ^ signed t n.1 / 2 ^ 50) (Ieee.powf (fin false m) (fin t n))
          (m.1 ^ signed t n.1)
        have hb' := abs_le.1 hb
        have hlo : 1 / 2 ^ 900 ≤ m.1 ^ signed t n.1 ∧ m.1 ^ signed t n.1 ≤ 2 ^ 900 := by
          have l2 : Real.log (2 ^ 100) = 100 * Real.log 2 := by rw [Real.log_pow]; norm_num
          have a1 : Real.log m.1 ≤ 100 * Real.log 2 := by
            rw [← l2]; exact Real.log_le_log hpos h2
          have a2 : -(100 * Real.log 2) ≤ Real.log m.1 := by
            rw [← l2, ← Real.log_inv, ← one_div]; exact Real.log_le_log (by positivity) h1
          have a3 : |Real.log m.1 * signed t n.1| ≤ 400 * Real.log 2 := by
            rw [abs_mul]
            have := mul_le_mul (abs_le.2 ⟨a2, a1⟩) hb (abs_nonneg _) (by have := Real.log_two_gt_d9; positivity)
            linarith
          have a4 := abs_le.1 a3
          have e900 : (2 : ℝ) ^ 900 = Real.exp (900 * Real.log 2) := by
            rw [show (900 : ℝ) = ((900 : ℕ) : ℝ) by norm_num, Real.exp_nat_mul, Real.exp_log (by norm_num)]
          have l0 := Real.log_two_gt_d9
          rw [Real.rpow_def_of_pos hpos, e900, one_div, ← Real.exp_neg]
          exact ⟨Real.exp_le_exp.2 (by linarith [a4.1]), Real.exp_le_exp.2 (by linarith [a4.2])⟩
        have key := round_faithful (E := ieee) false hlo.1 hlo.2
        by_cases h : (¬ (fin t n : FPVal).isNaN ∧ (fin t n : FPVal).toE = 0) ∨
            (¬ (fin false m : FPVal).isNaN ∧ FPVal.toE (fin false m) = 1)
        · have e1 : m.1 ^ signed t n.1 = 1 := by
            rcases h with h | h
            · have h0 : signed t n.1 = 0 := by
                have := h.2
                rw [Ieee.fin_toE] at this
                exact_mod_cast this
              rw [h0, Real.rpow_zero]
            · have h0 : m.1 = 1 := by
                have := h.2
                rw [Ieee.fin_toE] at this
                have h3 : signed false m.1 = 1 := by exact_mod_cast this
                exact h3
              rw [h0, Real.one_rpow]
          have e : Ieee.powf (fin false m) (fin t n) = Ieee.one := by
            unfold Ieee.powf; exact if_pos h
          rw [e1] at key ⊢
          rw [e]
          exact key
        · have e : Ieee.powf (fin false m) (fin t n) = ieeeBase.round false (m.1 ^ (signed t n.1)) := by
            have e0 : Ieee.powf (fin false m) (fin t n) = Ieee.powfCore (fin false m) (fin t n) := by
              unfold Ieee.powf; exact if_neg h
            rw [e0]
            simp only [Ieee.powfCore, if_neg hpos.ne', Bool.false_eq_true, if_false]
          rw [e]
          exact key
  expM1 := by
    intro x hx h1 h2
    cases x with
    | nan => exact hx.elim
    | inf s => exact hx.elim
    | fin s m =>
      change 1 / 2 ^ 100 ≤ signed s m.1 at h1
      change signed s m.1 ≤ 500 at h2
      change Near (E := ieee) ((Real.exp (signed s m.1) - 1) / 2 ^ 50)
        (ieeeBase.round s (Real.exp (signed s m.1) - 1)) (Real.exp (signed s m.1) - 1)
      refine round_faithful s ?_ ?_
      · refine le_trans ?_ (h1.trans (by linarith [Real.add_one_le_exp (signed s m.1)]))
        exact one_div_le_one_div_of_le (by positivity) (pow_le_pow_right₀ (by norm_num) (by norm_num))
      · have e900 : (2 : ℝ) ^ 900 = Real.exp (900 * Real.log 2) := by
          rw [show (900 : ℝ) = ((900 : ℕ) : ℝ) by norm_num, Real.exp_nat_mul, Real.exp_log (by norm_num)]
        have l0 := Real.log_two_gt_d9
        have : Real.exp (signed s m.1) ≤ 2 ^ 900 := by
          rw [e900]; exact Real.exp_le_exp.2 (by linarith)
        exact le_trans (sub_le_self _ zero_le_one) this
  ln1p := by
    intro x hx h1 h2
    cases x with
    | nan => exact hx.elim
    | inf s => exact hx.elim
    | fin s m =>
      change 1 / 2 ^ 100 ≤ signed s m.1 at h1
      change signed s m.1 ≤ 2 ^ 900 at h2
      have hpos : 0 < signed s m.1 := lt_of_lt_of_le (by positivity) h1
      have e : Ieee.ln1p (fin s m) = ieeeBase.round s (Real.log (1 + signed s m.1)) := by
        simp only [Ieee.ln1p, if_neg (show ¬ signed s m.1 < -1 by linarith),
          if_neg (show ¬ signed s m.1 = -1 by intro h; linarith)]
      change Near (E := ieee) (Real.log (1 + signed s m.1) / 2 ^ 50)
        (Ieee.ln1p (fin s m)) (Real.log (1 + signed s m.1))
      rw [e]
      generalize signed s m.1 = v at *
      refine round_faithful s ?_ ?_
      · rcases le_total v 1 with h | h
        · refine le_trans ?_ (pow_half_le hpos.le h)
          rw [le_div_iff₀ (by norm_num)]
          refine le_trans ?_ h1
          rw [one_div_mul_eq_div, div_le_div_iff₀ (by positivity) (by positivity), one_mul]
          calc (2 : ℝ) * 2 ^ 100 = 2 ^ 101 := by rw [← pow_succ']
            _ ≤ 2 ^ 900 := pow_le_pow_right₀ (by norm_num) (by norm_num)
        · have : Real.log 2 ≤ Real.log (1 + v) := Real.log_le_log (by norm_num) (by linarith)
          refine le_trans ?_ this
          have l0 := Real.log_two_gt_d9
          refine le_trans (b := 1 / 2) ?_ (by linarith)
          exact one_div_le_one_div_of_le (by norm_num) (le_self_pow₀ (by norm_num) (by norm_num))
      · have := Real.log_le_sub_one_of_pos (by linarith : 0 < 1 + v)
        linarith

end Skillratings
