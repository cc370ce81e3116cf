import Verif.Proofs.FPVolZero
import Verif.Proofs.FPQuantile
import Verif.Props.FloatAccuracy
import Verif.Spec.LogWide
/-
The volatility iteration of Glicko-2 in floating point: where it starts and where it ends.
-/
namespace Skillratings
open FP FPVal Spec
variable {E : FloatEnv}

theorem ieee_logWide : ieee.LogWide where
  zero := by
    intro x hx h0
    cases x with
    | nan => exact hx.elim
    | inf s => exact hx.elim
    | fin s m =>
      change signed s m.1 = 0 at h0
      have : m.1 = 0 := by
        cases s
        · simpa [signed] using h0
        · simpa [signed] using h0
      change Ieee.ln (fin s m) = _
      simp [Ieee.ln, this]
  ln := by
    intro x hx h1 h2
    cases x with
    | nan => exact hx.elim
    | inf s => exact hx.elim
    | fin s m =>
      change 1 / 2 ^ 100 ≤ signed s m.1 at h1
      change signed s m.1 ≤ 2 ^ 100 at h2
      have p100 : (0 : ℝ) < 1 / 2 ^ 100 := by positivity
      have hs : s = false := by
        cases s
        · rfl
        · simp only [signed, if_true] at h1
          have := m.2.nonneg
          linarith
      subst hs
      change 1 / 2 ^ 100 ≤ (m.1 : ℝ) at h1
      change (m.1 : ℝ) ≤ 2 ^ 100 at h2
      change Near (E := ieee) (1 / 2 ^ 40) (Ieee.ln (fin false m)) (Real.log m.1)
      have hm0 : (0 : ℝ) < m.1 := lt_of_lt_of_le p100 h1
      have hne : m.1 ≠ 0 := by intro h; rw [h] at hm0; exact lt_irrefl _ hm0
      have l2 := Real.log_two_lt_d9
      have hl1 : -(100 : ℝ) ≤ Real.log m.1 := by
        have := Real.log_le_log p100 h1
        rw [one_div, Real.log_inv, Real.log_pow] at this
        push_cast at this
        linarith
      have hl2 : Real.log m.1 ≤ 100 := by
        have := Real.log_le_log hm0 h2
        rw [Real.log_pow] at this
        push_cast at this
        linarith
      have e : Ieee.ln (fin false m) = ieeeBase.round false (Real.log m.1) := by simp [Ieee.ln, hne]
      rw [e]
      have := round_small (E := ieee) false (v := Real.log m.1) (M := 2 ^ 7)
        (by rw [abs_le]; constructor <;> norm_num <;> linarith)
        (le_trans (b := 1) (by rw [div_le_one (by positivity)]; exact one_le_pow₀ (by norm_num)) (by norm_num))
        (pow_le_pow_right₀ (by norm_num) (by norm_num))
      exact ⟨this.1, this.2.trans (by norm_num)⟩

namespace Glicko2
variable {Q P V vol tau tol x y : FP E} {c d a₀ t r : ℝ}

/-- The stopping rule. -/
theorem stops (hf : tol.isFinite) (h1 : 1 / 2 ^ 21 ≤ tol.toR) (h2 : tol.toR ≤ 1) :
    Stops tol r 40 (1 / 2 ^ 43) (tol.toR + 1 / 2 ^ 50) where
  stop x y hx hy h := by
    obtain ⟨s, e⟩ := sub_fin hy hx
    have h3 : |y.toR - x.toR| ≤ 1 / 2 ^ 21 := h.trans (by norm_num)
    obtain ⟨f1, -⟩ := round_fine (E := E) s (h3.trans (by norm_num : (1 : ℝ) / 2 ^ 21 ≤ 1))
      (by rw [div_le_one (by positivity)]; exact one_le_pow₀ (by norm_num)) (one_le_pow₀ (by norm_num))
    have hr := SRep.inv_two_pow 21 (by norm_num)
    have g1 := round_le_of f1 hr (abs_le.1 h3).2
    have g2 := le_round_of f1 hr.neg (abs_le.1 h3).1
    rw [← e] at f1 g1 g2
    obtain ⟨a1, a2⟩ := abs_val f1
    rw [lt_iff_toR hf a1, a2, not_lt]
    exact (abs_le.2 ⟨g2, g1⟩).trans h1
  close x y hx hy hxr hyr h := by
    obtain ⟨s, e⟩ := sub_fin hy hx
    have h3 : |y.toR - x.toR| ≤ 80 := by
      have hx' := abs_le.1 hxr
      have hy' := abs_le.1 hyr
      rw [abs_le]; constructor <;> linarith
    obtain ⟨f1, f2⟩ := round_near (E := E) s (x := y.toR - x.toR) (lt_of_le_of_lt h3
      (lt_of_lt_of_le (by norm_num : (80 : ℝ) < 2 ^ 7) (pow_le_pow_right₀ (by norm_num) (by norm_num))))
    rw [← e] at f1 f2
    obtain ⟨a1, a2⟩ := abs_val f1
    rw [lt_iff_toR hf a1, a2, not_lt] at h
    have t1 : (1 : ℝ) / 2 ^ 1074 ≤ 1 / 2 ^ 100 :=
      one_div_le_one_div_of_le (by positivity) (pow_le_pow_right₀ (by norm_num) (by norm_num))
    have t2 := abs_sub_abs_le_abs_sub (y.toR - x.toR) (y - x).toR
    rw [abs_sub_comm (y.toR - x.toR)] at t2
    generalize |y.toR - x.toR| = X at *
    have f3 := f2.trans (add_le_add_right t1 _)
    clear t1 f2
    norm_num at f3 ⊢
    linarith

/-- What the start of the iteration needs besides. -/
structure VolStart (Q P V tau : FP E) : Prop where
  Qf : Q.isFinite
  Pf : P.isFinite
  Vf : V.isFinite
  Q0 : 0 ≤ Q.toR
  P0 : 0 ≤ P.toR
  V1 : 1 / 2 ^ 10 ≤ V.toR
  Tf : tau.isFinite
  T0 : 1 / 32 ≤ tau.toR
  T1 : tau.toR ≤ 5 / 4

/-- If the computed `Δ²` exceeds the computed `φ² + v`, the computed difference is not negative. -/
theorem VolStart.nonneg (H : VolStart Q P V tau) (hc : (Q - P - V).isFinite) (hd : (P + V).isFinite)
    (hw : (Q - P).isFinite) (h : (P + V).toR < Q.toR) : 0 ≤ (Q - P - V).toR := by
  obtain ⟨s1, e1⟩ := add_fin H.Pf H.Vf
  obtain ⟨s2, e2⟩ := sub_fin H.Qf H.Pf
  obtain ⟨s3, e3⟩ := sub_fin hw H.Vf
  have h1 : P.toR + V.toR ≤ Q.toR := by
    by_contra hcon
    rw [e1] at h hd
    exact absurd (le_round_of hd (isFinite.srep H.Qf) (not_le.1 hcon).le) (not_le.2 h)
  have h2 : V.toR ≤ (Q - P).toR := by
    have hw' := hw
    rw [e2] at hw' ⊢
    exact le_round_of hw' (isFinite.srep H.Vf) (by change V.toR ≤ _; linarith)
  have hc' := hc
  rw [e3] at hc' ⊢
  exact le_round_of hc' SRep.zero (by linarith)

/-- If not, the computed difference is at most tiny. -/
theorem VolStart.small (H : VolStart Q P V tau) (hc : (Q - P - V).isFinite) (hd : (P + V).isFinite)
    (hw : (Q - P).isFinite) (hd1 : (P + V).toR ≤ 2 ^ 15) (h : Q.toR ≤ (P + V).toR) :
    (Q - P - V).toR ≤ 1 / 2 ^ 33 := by
  obtain ⟨s1, e1⟩ := add_fin H.Pf H.Vf
  obtain ⟨s2, e2⟩ := sub_fin H.Qf H.Pf
  obtain ⟨s3, e3⟩ := sub_fin hw H.Vf
  have p0 := H.P0
  have v0 : 0 ≤ V.toR := le_trans (by positivity) H.V1
  have q0 := H.Q0
  have r16 : SRep ((2 : ℝ) ^ 16) := by
    have := SRep.ofNat 65536 (by norm_num)
    norm_num at this ⊢; exact this
  have hX : P.toR + V.toR ≤ 2 ^ 16 := by
    by_contra hcon
    have hd' := hd
    rw [e1] at hd' hd1
    have := le_round_of hd' r16 (not_le.1 hcon).le
    have := this.trans hd1
    norm_num at this
  have big : ∀ k : ℕ, k ≤ 900 → (1 : ℝ) / 2 ^ 900 ≤ 2 ^ k ∧ (2 : ℝ) ^ k ≤ 2 ^ 900 := fun k hk =>
    ⟨le_trans (b := 1) (by rw [div_le_one (by positivity)]; exact one_le_pow₀ (by norm_num))
      (one_le_pow₀ (by norm_num)), pow_le_pow_right₀ (by norm_num) hk⟩
  have n1 := (round_small (E := E) s1 (v := P.toR + V.toR) (M := 2 ^ 16) (by rw [abs_of_nonneg (by linarith)]; exact hX)
    (big 16 (by norm_num)).1 (big 16 (by norm_num)).2).2
  rw [← e1] at n1
  have n1' := (abs_le.1 n1).2
  have hQ : Q.toR ≤ 2 ^ 15 := h.trans hd1
  have n2 := (round_small (E := E) s2 (v := Q.toR - P.toR) (M := 2 ^ 17) (by
      rw [abs_le]; norm_num at hX hQ ⊢; constructor <;> linarith)
    (big 17 (by norm_num)).1 (big 17 (by norm_num)).2).2
  rw [← e2] at n2
  have n2' := (abs_le.1 n2).2
  have hc' := hc
  rw [e3] at hc' ⊢
  refine round_le_of hc' (SRep.inv_two_pow 33 (by norm_num)) ?_
  norm_num at n1' n2' ⊢
  linarith

/-- Below the exponential of the starting point. -/
theorem exp_start (h : -19 ≤ a₀) : 1 / 2 ^ 28 ≤ Real.exp a₀ := by
  have h3 : Real.exp 19 ≤ 2 ^ 28 := by
    rw [show (19 : ℝ) = ((19 : ℕ) : ℝ) * 1 by norm_num, Real.exp_nat_mul]
    calc Real.exp 1 ^ 19 ≤ 2.7182818286 ^ 19 := pow_le_pow_left₀ (Real.exp_pos 1).le (Real.exp_one_lt_d9.le) _
      _ ≤ 2 ^ 28 := by norm_num
  refine le_trans ?_ (Real.exp_le_exp.2 h)
  rw [Real.exp_neg, ← one_div]
  exact one_div_le_one_div_of_le (Real.exp_pos _) h3

/-- The starting point of the search for the second end. -/
theorem VolStart.below (H : VolStart Q P V tau) (I : VolInput Q P V vol tau c d a₀ t) :
    (Flt.mulAdd (1.0 : FP E) (-tau) (Flt.ln (Flt.powi vol 2))).isFinite ∧
      |(Flt.mulAdd (1.0 : FP E) (-tau) (Flt.ln (Flt.powi vol 2))).toR - (a₀ - tau.toR)| ≤ 1 / 2 ^ 40 := by
  have h1 : (1.0 : FP E).isFinite := one_in.finite
  have h1' : (1.0 : FP E).toR = 1 := le_antisymm one_in.toR.2 one_in.toR.1
  obtain ⟨s, e⟩ := mulAdd_fin h1 (y := -tau) (by simpa using H.Tf) I.af
  rw [e, toR_neg', h1', I.ae]
  have t0 := H.T0
  have t1 := H.T1
  obtain ⟨q1, q2⟩ := round_small (E := E) s (v := 1 * -tau.toR + a₀) (M := 2 ^ 5) (by
      rw [abs_le]; norm_num; constructor <;> linarith [I.a0, I.a1])
    (le_trans (b := 1) (by rw [div_le_one (by positivity)]; exact one_le_pow₀ (by norm_num)) (by norm_num))
    (pow_le_pow_right₀ (by norm_num) (by norm_num))
  refine ⟨q1, ?_⟩
  rw [show a₀ - tau.toR = 1 * -tau.toR + a₀ by ring]
  exact q2.trans (by norm_num)

/-- The iteration from a negative (or tiny) difference. -/
theorem returns_down (L : E.Lib) (A : E.Accurate) (S : E.Scales) (H : VolStart Q P V tau)
    (I : VolInput Q P V vol tau c d a₀ t) (h0 : volF c d a₀ t r = 0) (hr : |r - a₀| ≤ 2 / 100)
    (hw : (Q - P).isFinite) (hf : tol.isFinite) (h1 : 1 / 2 ^ 21 ≤ tol.toR) (h2 : tol.toR ≤ 1)
    (h : ¬ (P + V <? Q) = true) :
    ∃ s : FP E, newVolatility vol Q P V tau tol = some (Flt.exp (s / 2.0)) ∧ s.isFinite ∧
      |s.toR - r| ≤ tol.toR + 1 / 2 ^ 32 := by
  have hr' := abs_le.1 hr
  have ht := I.tpos
  have hd := I.dpos
  have t0 := H.T0
  have t1 := H.T1
  have a0 := I.a0
  have a1 := I.a1
  rw [lt_iff_toR I.df H.Qf, not_lt] at h
  have Z := fValue_zero L A I h0 hr
  obtain ⟨bf, bn⟩ := H.below I
  have bn' := abs_le.1 bn
  have small40 : (1 : ℝ) / 2 ^ 40 ≤ 1 / 1000 := by norm_num
  have hbr : (Flt.mulAdd (1.0 : FP E) (-tau) (Flt.ln (Flt.powi vol 2))).toR - r ≤ -(1 / 100) := by
    linarith [bn'.2]
  have hbr' : -2 ≤ (Flt.mulAdd (1.0 : FP E) (-tau) (Flt.ln (Flt.powi vol 2))).toR - r := by
    linarith [bn'.1]
  have hbabs : |(Flt.mulAdd (1.0 : FP E) (-tau) (Flt.ln (Flt.powi vol 2))).toR - r| ≤ 2 := by
    rw [abs_le]; constructor <;> linarith
  have hbabs' : 1 / 100 ≤ |(Flt.mulAdd (1.0 : FP E) (-tau) (Flt.ln (Flt.powi vol 2))).toR - r| := by
    rw [abs_of_neg (by linarith)]; linarith
  obtain ⟨far1, -, -⟩ := Z.far _ bf (le_trans (by norm_num) hbabs') (hbabs.trans (by norm_num))
  have fbf := Z.fin _ bf (hbabs.trans (by norm_num))
  -- the loop over k does not move
  have hk : kLoop (fun x => fValue x Q P V vol tau) (Flt.ln (Flt.powi vol 2)) tau (1.0 : FP E) = some 1.0 := by
    rw [kLoop, if_neg]
    rw [lt_iff_toR fbf zero_in.finite]
    have z0 : (0.0 : FP E).toR = 0 := le_antisymm zero_in.toR.2 zero_in.toR.1
    rw [z0, not_lt]
    by_contra hc
    exact absurd far1 (not_lt.2 (mul_nonneg_of_nonpos_of_nonpos (not_le.1 hc).le (by linarith)))
  -- the start lies above the zero
  have hc := H.small I.cf I.df hw (by rw [I.de]; exact I.d1) h
  rw [I.ce] at hc
  have hlt : c < Real.exp a₀ := lt_of_le_of_lt hc (lt_of_lt_of_le (by norm_num) (exp_start a0))
  have hneg : t * volF c d a₀ t a₀ < 0 := by
    apply mul_neg_of_pos_of_neg ht
    rw [volF, sub_self, zero_div, sub_zero, volI]
    have hp := Real.exp_pos a₀
    exact div_neg_of_neg_of_pos (mul_neg_of_pos_of_neg hp (by linarith)) (by positivity)
  obtain ⟨k, e, k1, -, -⟩ := I.toVolParams.line h0 hr a₀
  have har : 0 < a₀ - r := by
    rw [e] at hneg
    by_contra hcon
    have : k * (a₀ - r) ≤ 0 := mul_nonpos_of_nonneg_of_nonpos (by linarith) (not_lt.1 hcon)
    linarith
  obtain ⟨s, e1, e2, e3⟩ := illinois_ends (s := ⟨Flt.ln (Flt.powi vol 2),
      Flt.mulAdd (1.0 : FP E) (-tau) (Flt.ln (Flt.powi vol 2)),
      fValue (Flt.ln (Flt.powi vol 2)) Q P V vol tau,
      fValue (Flt.mulAdd (1.0 : FP E) (-tau) (Flt.ln (Flt.powi vol 2))) Q P V vol tau⟩)
    (secant_arith S (by rw [abs_le]; constructor <;> linarith)) Z (stops hf h1 h2) I.af
    (by rw [I.ae, abs_sub_comm]; exact hr.trans (by norm_num)) bf (hbabs.trans (by norm_num)) rfl rfl
    (Or.inr ⟨le_trans (by norm_num) hbabs', by
      rw [I.ae]; exact mul_neg_of_pos_of_neg har (by linarith)⟩)
  refine ⟨s.a, ?_, e2, e3.trans (by norm_num; linarith)⟩
  have hlt' : ¬ (P + V <? Q) = true := by rw [lt_iff_toR I.df H.Qf, not_lt]; exact h
  simp only [newVolatility, hlt', hk]
  simp only [Option.bind_eq_bind, Option.bind_some, if_false, Bool.false_eq_true, e1]

/-- The iteration from a positive difference. -/
theorem returns_up (L : E.Lib) (A : E.Accurate) (S : E.Scales) (W : E.LogWide) (H : VolStart Q P V tau)
    (I : VolInput Q P V vol tau c d a₀ t) (h0 : volF c d a₀ t r = 0) (hr : |r - a₀| ≤ 2 / 100)
    (hw : (Q - P).isFinite) (hf : tol.isFinite) (h1 : 1 / 2 ^ 21 ≤ tol.toR) (h2 : tol.toR ≤ 1)
    (h : (P + V <? Q) = true) (hc : 0 < c) :
    ∃ s : FP E, newVolatility vol Q P V tau tol = some (Flt.exp (s / 2.0)) ∧ s.isFinite ∧
      |s.toR - r| ≤ tol.toR + 1 / 2 ^ 32 := by
  have hr' := abs_le.1 hr
  have ht := I.tpos
  have hd := I.dpos
  have a0 := I.a0
  have a1 := I.a1
  have Z := fValue_zero L A I h0 hr
  -- the difference is not too small and not too large
  have c1 : 1 / 2 ^ 63 ≤ c := by
    have g := sub_zero_or hw H.Vf I.cf 63 (by norm_num) (by
      rcases gap_nat H.Vf hw (k := 10) (l := 63) rfl (by
          rw [abs_of_nonneg (le_trans (by positivity) H.V1)]; exact H.V1) with g | g
      · exact Or.inl g.symm
      · exact Or.inr (by rw [abs_sub_comm]; exact g))
    rw [I.ce, abs_of_pos hc] at g
    rcases g with g | g
    · linarith
    · exact g
  have c2 : c ≤ 2 ^ 29 := by
    have := I.c1
    have g : 1 / 2 ^ 10 * c ≤ t * c := mul_le_mul_of_nonneg_right I.t0 hc.le
    have := I.d1
    norm_num at this g ⊢
    linarith
  have l1 : -(437 / 10) ≤ Real.log c := by
    have := Real.log_le_log (by positivity) c1
    rw [one_div, Real.log_inv, Real.log_pow] at this
    have l2 := Real.log_two_lt_d9
    push_cast at this
    linarith
  have l2 : Real.log c ≤ 202 / 10 := by
    have := Real.log_le_log hc c2
    rw [Real.log_pow] at this
    have l2 := Real.log_two_lt_d9
    push_cast at this
    linarith
  obtain ⟨bf, bn⟩ := W.ln (Q - P - V) I.cf
    (by rw [I.ce]; exact le_trans (one_div_le_one_div_of_le (by positivity)
      (pow_le_pow_right₀ (by norm_num) (by norm_num))) c1)
    (by rw [I.ce]; exact c2.trans (pow_le_pow_right₀ (by norm_num) (by norm_num)))
  rw [I.ce] at bn
  change (Flt.ln (Q - P - V)).isFinite at bf
  change |(Flt.ln (Q - P - V)).toR - Real.log c| ≤ 1 / 2 ^ 40 at bn
  have bn' := abs_le.1 bn
  have small40 : (1 : ℝ) / 2 ^ 40 ≤ 1 / 1000 := by norm_num
  have hbR : |(Flt.ln (Q - P - V)).toR - r| ≤ 40 := by
    rw [abs_le]; constructor <;> linarith [bn'.1, bn'.2]
  -- the value at the logarithm of the difference
  obtain ⟨k, e, k1, k2, -⟩ := I.toVolParams.line h0 hr (Real.log c)
  have eF : t * volF c d a₀ t (Real.log c) = -(Real.log c - a₀) := by
    rw [volF, volI, Real.exp_log hc, sub_self, mul_zero, zero_div, zero_sub, mul_neg]
    field_simp
  rw [eF] at e
  have e' : Real.log c - a₀ = k * (Real.log c - r) := by linarith
  -- the value at the start
  obtain ⟨k', e2, k1', -, -⟩ := I.toVolParams.line h0 hr a₀
  have hp := Real.exp_pos a₀
  have eA : t * volF c d a₀ t a₀ = t * (Real.exp a₀ * (c - Real.exp a₀)) / (2 * (d + Real.exp a₀) ^ 2) := by
    rw [volF, sub_self, zero_div, sub_zero, volI]; ring
  rw [eA] at e2
  have hop : |a₀ - r| ≤ 48 * (1 / 2 ^ 43) ∨
      48 * (1 / 2 ^ 43) ≤ |(Flt.ln (Q - P - V)).toR - r| ∧ (a₀ - r) * ((Flt.ln (Q - P - V)).toR - r) < 0 := by
    have hden : 0 < 2 * (d + Real.exp a₀) ^ 2 := by positivity
    generalize (Flt.ln (Q - P - V)).toR = b at bn'
    rcases le_or_gt (1 / 2 ^ 35) (Real.log c - a₀) with g | g
    · right
      have q1 : (1 / 2 ^ 35) * (10 / 22) ≤ Real.log c - r := by
        by_contra hcon
        rw [e'] at g
        have := mul_le_mul_of_nonneg_left (not_le.1 hcon).le (by linarith : 0 ≤ k)
        have h3 : k * (1 / 2 ^ 35 * (10 / 22)) ≤ 22 / 10 * (1 / 2 ^ 35 * (10 / 22)) :=
          mul_le_mul_of_nonneg_right k2 (by positivity)
        rcases eq_or_lt_of_le k2 with k3 | k3
        · have := mul_lt_mul_of_pos_left (not_le.1 hcon) (by linarith : 0 < k)
          norm_num at this g h3
          linarith
        · have h4 : k * (1 / 2 ^ 35 * (10 / 22)) < 22 / 10 * (1 / 2 ^ 35 * (10 / 22)) :=
            mul_lt_mul_of_pos_right k3 (by positivity)
          norm_num at this g h4
          linarith
      have q2 : 48 * (1 / 2 ^ 43) ≤ b - r := by
        have := bn'.1
        norm_num at this q1 ⊢
        linarith
      have q3 : 0 < b - r := lt_of_lt_of_le (by positivity) q2
      refine ⟨by rwa [abs_of_pos q3], ?_⟩
      have q4 : Real.exp a₀ < c := by
        rw [← Real.log_lt_log_iff hp hc, Real.log_exp]
        have : (0 : ℝ) < 1 / 2 ^ 35 := by positivity
        linarith
      have q5 : 0 < -(k' * (a₀ - r)) := by
        rw [← e2]
        exact div_pos (mul_pos ht (mul_pos hp (by linarith))) hden
      have q6 : a₀ - r < 0 := by
        by_contra hcon
        have := mul_nonneg (by linarith : 0 ≤ k') (not_lt.1 hcon)
        linarith
      exact mul_neg_of_neg_of_pos q6 q3
    rcases le_or_gt (Real.log c - a₀) (-(1 / 2 ^ 35)) with g' | g'
    · right
      have q1 : Real.log c - r ≤ -((1 / 2 ^ 35) * (10 / 22)) := by
        by_contra hcon
        rw [e'] at g'
        have := mul_lt_mul_of_pos_left (not_le.1 hcon) (by linarith : 0 < k)
        have h3 : k * (1 / 2 ^ 35 * (10 / 22)) ≤ 22 / 10 * (1 / 2 ^ 35 * (10 / 22)) :=
          mul_le_mul_of_nonneg_right k2 (by positivity)
        norm_num at this g' h3
        linarith
      have q2 : b - r ≤ -(48 * (1 / 2 ^ 43)) := by
        have := bn'.2
        norm_num at this q1 ⊢
        linarith
      have q3 : b - r < 0 := lt_of_le_of_lt q2 (by rw [neg_lt_zero]; positivity)
      refine ⟨by rw [abs_of_neg q3]; linarith, ?_⟩
      have q4 : c < Real.exp a₀ := by
        rw [← Real.log_lt_log_iff hc hp, Real.log_exp]
        have : (0 : ℝ) < 1 / 2 ^ 35 := by positivity
        linarith
      have q5 : -(k' * (a₀ - r)) < 0 := by
        rw [← e2]
        exact div_neg_of_neg_of_pos (mul_neg_of_pos_of_neg ht (mul_neg_of_pos_of_neg hp (by linarith))) hden
      have q6 : 0 < a₀ - r := by
        by_contra hcon
        have := mul_nonpos_of_nonneg_of_nonpos (by linarith : 0 ≤ k') (not_lt.1 hcon)
        linarith
      exact mul_neg_of_pos_of_neg q6 q3
    · left
      have q1 : |Real.log c - a₀| ≤ 1 / 2 ^ 35 := by rw [abs_le]; constructor <;> linarith
      have q2 : c - Real.exp a₀ = Real.exp a₀ * (Real.exp (Real.log c - a₀) - 1) := by
        rw [Real.exp_sub, Real.exp_log hc]; field_simp
      have q3 : |c - Real.exp a₀| ≤ Real.exp a₀ * (2 * (1 / 2 ^ 35)) := by
        rw [q2, abs_mul, abs_of_pos hp]
        apply mul_le_mul_of_nonneg_left _ hp.le
        exact (Real.abs_exp_sub_one_le (q1.trans (by norm_num))).trans (by linarith)
      have q4 : k' * |a₀ - r| ≤ t * (Real.exp a₀ * (Real.exp a₀ * (2 * (1 / 2 ^ 35)))) / (2 * (d + Real.exp a₀) ^ 2) := by
        have e3 : k' * |a₀ - r| = |-(k' * (a₀ - r))| := by
          rw [abs_neg, abs_mul, abs_of_nonneg (by linarith : 0 ≤ k')]
        rw [e3, ← e2, abs_div, abs_of_pos hden, abs_mul, abs_mul, abs_of_pos ht, abs_of_pos hp]
        gcongr
      have q5 : t * (Real.exp a₀ * (Real.exp a₀ * (2 * (1 / 2 ^ 35)))) / (2 * (d + Real.exp a₀) ^ 2) ≤ 1 / 2 ^ 45 := by
        rw [div_le_iff₀ hden]
        have z := I.z
        have q6 : Real.exp a₀ ^ 2 ≤ (d / 50) ^ 2 := pow_le_pow_left₀ hp.le z 2
        have q7 : d ^ 2 ≤ (d + Real.exp a₀) ^ 2 := pow_le_pow_left₀ hd.le (by linarith) 2
        have q8 : t * Real.exp a₀ ^ 2 ≤ 3 / 2 * (d / 50) ^ 2 := mul_le_mul I.t1 q6 (by positivity) (by norm_num)
        norm_num
        nlinarith
      have q6 := q4.trans q5
      have q7 : 36 / 100 * |a₀ - r| ≤ k' * |a₀ - r| := mul_le_mul_of_nonneg_right k1' (abs_nonneg _)
      norm_num at q6 ⊢
      linarith
  obtain ⟨s, e1, e2, e3⟩ := illinois_ends (s := ⟨Flt.ln (Flt.powi vol 2), Flt.ln (Q - P - V),
      fValue (Flt.ln (Flt.powi vol 2)) Q P V vol tau, fValue (Flt.ln (Q - P - V)) Q P V vol tau⟩)
    (secant_arith S (by rw [abs_le]; constructor <;> linarith)) Z (stops hf h1 h2) I.af
    (by rw [I.ae, abs_sub_comm]; exact hr.trans (by norm_num)) bf hbR rfl rfl
    (by rw [I.ae]; exact hop)
  refine ⟨s.a, ?_, e2, e3.trans (by norm_num; linarith)⟩
  simp only [newVolatility, h, Option.bind_eq_bind, Option.bind_some, if_true, e1]

section Wild
variable {w z : FPVal}

theorem wild_mul (h : ¬ w.isFinite) : ¬ (E.mul w z).isFinite := by
  cases w <;> cases z <;> simp only [FloatEnv.mul]
  all_goals try split_ifs
  all_goals first | exact h | exact fun h => h | exact fun _ => h trivial

theorem wild_sub_left (h : ¬ w.isFinite) : ¬ (E.sub w z).isFinite := by
  cases w <;> cases z <;> simp only [FloatEnv.sub, FloatEnv.add, FPVal.neg]
  all_goals try split_ifs
  all_goals first | exact h | exact fun h => h | exact fun _ => h trivial

theorem wild_sub_right (h : ¬ z.isFinite) : ¬ (E.sub w z).isFinite := by
  cases w <;> cases z <;> simp only [FloatEnv.sub, FloatEnv.add, FPVal.neg]
  all_goals try split_ifs
  all_goals first | exact h | exact fun h => h | exact fun _ => h trivial

theorem wild_div (h : ¬ w.isFinite) (hz : z.isFinite) : ¬ (E.div w z).isFinite := by
  cases w <;> cases z <;> simp_all [FPVal.isFinite, FloatEnv.div]

theorem wild_div_wild (h : ¬ w.isFinite) (hz : ¬ z.isFinite) : E.div w z = nan := by
  cases w <;> cases z <;> simp_all [FPVal.isFinite, FloatEnv.div]

/-- NaN, as a number of the arithmetic. -/
def quiet (E : FloatEnv) : FP E := (nan : FPVal)

theorem add_nan' : E.add w nan = nan := by cases w <;> rfl
theorem sub_nan' : E.sub w nan = nan := by cases w <;> rfl
end Wild

/-- With a second end of minus infinity, the iteration gives up at once. -/
theorem returns_zero (W : E.LogWide) (H : VolStart Q P V tau)
    (I : VolInput Q P V vol tau c d a₀ t) (hf : tol.isFinite)
    (h : (P + V <? Q) = true) (hc : c = 0) :
    newVolatility vol Q P V tau tol = some (Flt.exp (Flt.ln (Flt.powi vol 2) / 2.0)) := by
  have hb : E.ln (Q - P - V) = .inf true := W.zero _ I.cf (by rw [I.ce, hc])
  have hbw : ¬ FPVal.isFinite (E.ln (Q - P - V)) := by rw [hb]; exact fun h => h
  -- the value at minus infinity is not finite
  have hfb : ¬ (fValue (Flt.ln (Q - P - V)) Q P V vol tau).isFinite :=
    wild_sub_right (wild_div (wild_sub_left hbw) I.tf)
  -- the next point is not a number
  have hcn : Flt.ln (Flt.powi vol 2) + (Flt.ln (Flt.powi vol 2) - Flt.ln (Q - P - V))
      * fValue (Flt.ln (Flt.powi vol 2)) Q P V vol tau
      / (fValue (Flt.ln (Q - P - V)) Q P V vol tau - fValue (Flt.ln (Flt.powi vol 2)) Q P V vol tau) = quiet E := by
    have e : (Flt.ln (Flt.powi vol 2) - Flt.ln (Q - P - V))
      * fValue (Flt.ln (Flt.powi vol 2)) Q P V vol tau
      / (fValue (Flt.ln (Q - P - V)) Q P V vol tau - fValue (Flt.ln (Flt.powi vol 2)) Q P V vol tau)
      = quiet E := wild_div_wild (wild_mul (wild_sub_right hbw)) (wild_sub_left hfb)
    rw [e]
    exact add_nan'
  have hfn : fValue (quiet E) Q P V vol tau = quiet E := by
    have e : (quiet E - Flt.ln (Flt.powi vol 2)) / Flt.powi tau 2 = quiet E := rfl
    rw [fValue, e]
    exact sub_nan'
  have t1 : (tol <? Flt.abs (Flt.ln (Q - P - V) - Flt.ln (Flt.powi vol 2))) = true := by
    rw [lt_iff]
    have e : (Flt.abs (Flt.ln (Q - P - V) - Flt.ln (Flt.powi vol 2)) : FP E) = (show FP E from .inf false) := by
      change FPVal.abs (E.sub (E.ln (Q - P - V)) (Flt.ln (Flt.powi vol 2) : FP E)) = .inf false
      rw [hb]
      have ha := I.af
      revert ha
      generalize (Flt.ln (Flt.powi vol 2) : FP E) = a
      intro ha
      change FPVal at a
      cases a with
      | nan => exact ha.elim
      | inf => exact ha.elim
      | fin s m => rfl
    rw [e]
    refine ⟨isFinite.not_nan hf, fun h => h, ?_⟩
    rw [show tol.toE = _ from isFinite.toE_eq hf]
    change ((tol.toR : ℝ) : EReal) < (FPVal.inf false).toE
    simp only [FPVal.toE, Bool.false_eq_true, if_false]
    exact EReal.coe_lt_top _
  have t2 : ¬ ((quiet E * fValue (Flt.ln (Q - P - V)) Q P V vol tau) <=? (0.0 : FP E)) = true := by
    have e : quiet E * fValue (Flt.ln (Q - P - V)) Q P V vol tau = quiet E := rfl
    rw [e, le_iff]
    rintro ⟨h1, -⟩
    exact h1 trivial
  have t3 : ¬ (tol <? Flt.abs (quiet E - Flt.ln (Flt.powi vol 2))) = true := by
    have e : Flt.abs (quiet E - Flt.ln (Flt.powi vol 2)) = quiet E := rfl
    rw [e, lt_iff]
    rintro ⟨-, h1, -⟩
    exact h1 trivial
  have hl : volLoop (fun x => fValue x Q P V vol tau) tol ⟨Flt.ln (Flt.powi vol 2), Flt.ln (Q - P - V),
      fValue (Flt.ln (Flt.powi vol 2)) Q P V vol tau, fValue (Flt.ln (Q - P - V)) Q P V vol tau⟩
      = some ⟨Flt.ln (Flt.powi vol 2), quiet E,
          fValue (Flt.ln (Flt.powi vol 2)) Q P V vol tau / 2.0, quiet E⟩ := by
    rw [volLoop, if_pos t1]
    have e : volStep (fun x => fValue x Q P V vol tau) ⟨Flt.ln (Flt.powi vol 2), Flt.ln (Q - P - V),
      fValue (Flt.ln (Flt.powi vol 2)) Q P V vol tau, fValue (Flt.ln (Q - P - V)) Q P V vol tau⟩
      = ⟨Flt.ln (Flt.powi vol 2), quiet E,
          fValue (Flt.ln (Flt.powi vol 2)) Q P V vol tau / 2.0, quiet E⟩ := by
      simp only [volStep, hcn, hfn]
      rw [if_neg t2]
    rw [e, volLoop, if_neg t3]
  simp only [newVolatility, h, Option.bind_eq_bind, Option.bind_some, if_true, hl]

/-- The start is close to the zero anyway, if the difference vanishes. -/
theorem VolParams.start_near (I : VolParams c d a₀ t) (h0 : volF c d a₀ t r = 0) (hr : |r - a₀| ≤ 2 / 100)
    (hc : c = 0) : |a₀ - r| ≤ 4 / 5 * (Real.exp a₀ / d) ^ 2 := by
  have ht := I.tpos
  have hd := I.dpos
  have hp := Real.exp_pos a₀
  obtain ⟨k, e, -, -, k3⟩ := I.line h0 hr a₀
  obtain ⟨k1, -⟩ := k3 (by rw [abs_sub_comm]; exact hr.trans (by norm_num))
  have hden : 0 < 2 * (d + Real.exp a₀) ^ 2 := by positivity
  have eA : t * volF c d a₀ t a₀ = -(t * Real.exp a₀ ^ 2 / (2 * (d + Real.exp a₀) ^ 2)) := by
    rw [volF, sub_self, zero_div, sub_zero, volI, hc]; ring
  rw [eA] at e
  have q5 : t * Real.exp a₀ ^ 2 / (2 * (d + Real.exp a₀) ^ 2) ≤ 3 / 4 * (Real.exp a₀ / d) ^ 2 := by
    rw [div_pow, mul_div_assoc', div_le_div_iff₀ hden (by positivity)]
    have q7 : d ^ 2 ≤ (d + Real.exp a₀) ^ 2 := pow_le_pow_left₀ hd.le (by linarith) 2
    have q8 : t * Real.exp a₀ ^ 2 ≤ 3 / 2 * Real.exp a₀ ^ 2 := mul_le_mul_of_nonneg_right I.t1 (by positivity)
    have := mul_le_mul q8 q7 (by positivity) (by positivity)
    linarith
  have q0 : 0 ≤ t * Real.exp a₀ ^ 2 / (2 * (d + Real.exp a₀) ^ 2) := by positivity
  have hpos : 0 ≤ a₀ - r := by
    by_contra hcon
    have := mul_neg_of_pos_of_neg (by linarith : 0 < k) (not_le.1 hcon)
    linarith
  rw [abs_of_nonneg hpos]
  have := mul_le_mul_of_nonneg_right k1 hpos
  have : 0 ≤ (Real.exp a₀ / d) ^ 2 := by positivity
  linarith

/-- **The computed volatility**: the iteration ends, close to the zero. -/
theorem newVolatility_fp (L : E.Lib) (A : E.Accurate) (S : E.Scales) (W : E.LogWide)
    (H : VolStart Q P V tau) (I : VolInput Q P V vol tau c d a₀ t) (h0 : volF c d a₀ t r = 0)
    (hr : |r - a₀| ≤ 2 / 100) (hw : (Q - P).isFinite) (hf : tol.isFinite) (h1 : 1 / 2 ^ 21 ≤ tol.toR)
    (h2 : tol.toR ≤ 1) :
    ∃ s : FP E, newVolatility vol Q P V tau tol = some (Flt.exp (s / 2.0)) ∧ s.isFinite ∧
      (|s.toR - r| ≤ tol.toR + 1 / 2 ^ 32 ∨ c = 0 ∧ d < Q.toR ∧ |s.toR - r| ≤ 4 / 5 * (Real.exp a₀ / d) ^ 2) := by
  by_cases h : (P + V <? Q) = true
  · have hlt := (lt_iff_toR I.df H.Qf).1 h
    have hc0 := H.nonneg I.cf I.df hw hlt
    rw [I.ce] at hc0
    rcases eq_or_lt_of_le hc0 with hc | hc
    · refine ⟨_, returns_zero W H I hf h hc.symm, I.af, Or.inr ⟨hc.symm, by rwa [I.de] at hlt, ?_⟩⟩
      rw [I.ae]
      exact I.toVolParams.start_near h0 hr hc.symm
    · obtain ⟨s, e1, e2, e3⟩ := returns_up L A S W H I h0 hr hw hf h1 h2 h hc
      exact ⟨s, e1, e2, Or.inl e3⟩
  · obtain ⟨s, e1, e2, e3⟩ := returns_down L A S H I h0 hr hw hf h1 h2 h
    exact ⟨s, e1, e2, Or.inl e3⟩

end Glicko2
end Skillratings
