import Verif.Proofs.FPRel
import Verif.Proofs.FPGlickoAccuracy
import Verif.Proofs.VolFunction
import Verif.Model.Glicko2
/-
The rounding error of one evaluation of the function of step 5 of Glicko-2.
-/
namespace Skillratings
open FP FPVal Spec
variable {E : FloatEnv}

namespace FP
variable {x y : FP E} {a b A B k l : ℝ}

/-- `x` approximates `a` up to `k` units relative to a bound `A` of `|a|`. -/
def Sm (k : ℝ) (x : FP E) (a A : ℝ) : Prop := Near (k / 2 ^ 50 * A) x a ∧ |a| ≤ A

theorem Sm.mono (h : Sm k x a A) (hkl : k ≤ l) : Sm l x a A := by
  have hA : 0 ≤ A := (abs_nonneg _).trans h.2
  exact ⟨⟨h.1.1, h.1.2.trans (by gcongr)⟩, h.2⟩

theorem Sm.of_rel (h : Rel k x a) (ha : 0 < a) : Sm k x a a := ⟨h.near ha.le, (abs_of_pos ha).le⟩

theorem Sm.exact (h : x.isFinite) (hA : |x.toR| ≤ A) : Sm 0 x x.toR A :=
  ⟨⟨h, by simp⟩, hA⟩

theorem sm_sub (hx : Sm k x a A) (hy : Sm k y b B) (hk : k ≤ 2 ^ 20) (k0 : 0 ≤ k)
    (h1 : 1 / 2 ^ 800 ≤ A + B) (h2 : A + B ≤ 2 ^ 800) : Sm (k + 1) (x - y) (a - b) (A + B) := by
  have hs : |a - b| ≤ A + B := (abs_sub _ _).trans (add_le_add hx.2 hy.2)
  have hAB : 0 ≤ A + B := (abs_nonneg _).trans hs
  have hq : k / 2 ^ 50 ≤ 1 := by
    rw [div_le_one (by positivity)]; exact hk.trans (by norm_num)
  have := small_sub (M := 2 * (A + B)) hx.1 hy.1 (by nlinarith)
    (le_trans (one_div_le_one_div_of_le (by positivity) (pow_le_pow_right₀ (by norm_num) (by norm_num)))
      (h1.trans (by linarith)))
    (by rw [show (2 : ℝ) ^ 900 = 2 * 2 ^ 899 by rw [← pow_succ']]
        exact mul_le_mul_of_nonneg_left (h2.trans (pow_le_pow_right₀ (by norm_num) (by norm_num))) (by norm_num))
  refine ⟨⟨this.1, this.2.trans (le_of_eq ?_)⟩, hs⟩
  ring

private theorem up_900 {X : ℝ} (h0 : 0 ≤ X) (h : X ≤ 2 ^ 800) : 5 / 4 * X ≤ 2 ^ 900 := by
  have h3 : X ≤ 2 ^ 899 := h.trans (pow_le_pow_right₀ (by norm_num) (by norm_num))
  rw [show (2 : ℝ) ^ 900 = 2 * 2 ^ 899 by rw [← pow_succ']]
  generalize (2 : ℝ) ^ 899 = Y at h3
  clear h
  linarith

theorem sm_mul (hx : Sm k x a A) (hy : Sm l y b B) (hk : k ≤ 2 ^ 20) (k0 : 0 ≤ k) (hl : l ≤ 2 ^ 20)
    (l0 : 0 ≤ l) (h1 : 1 / 2 ^ 800 ≤ A * B) (h2 : A * B ≤ 2 ^ 800) :
    Sm (k + l + 1) (x * y) (a * b) (A * B) := by
  have hA : 0 ≤ A := (abs_nonneg _).trans hx.2
  have hB : 0 ≤ B := (abs_nonneg _).trans hy.2
  have hs : |a * b| ≤ A * B := by rw [abs_mul]; exact mul_le_mul hx.2 hy.2 (abs_nonneg _) hA
  have hAB : 0 ≤ A * B := mul_nonneg hA hB
  have hkl : k * l ≤ 2 ^ 40 := (mul_le_mul hk hl l0 (by positivity)).trans (by norm_num)
  have e1 : k / 2 ^ 50 * A * |b| ≤ k / 2 ^ 50 * A * B := mul_le_mul_of_nonneg_left hy.2 (by positivity)
  have e2 : |a| * (l / 2 ^ 50 * B) ≤ A * (l / 2 ^ 50 * B) := mul_le_mul_of_nonneg_right hx.2 (by positivity)
  have e3 : k / 2 ^ 50 * A * (l / 2 ^ 50 * B) ≤ 1 / 2 ^ 10 / 2 ^ 50 * (A * B) := by
    rw [show k / 2 ^ 50 * A * (l / 2 ^ 50 * B) = (k * l / 2 ^ 100) * (A * B) by ring]
    apply mul_le_mul_of_nonneg_right _ hAB
    rw [div_le_iff₀ (by positivity)]
    refine hkl.trans (by norm_num)
  have hE : k / 2 ^ 50 * A * |b| + |a| * (l / 2 ^ 50 * B) + k / 2 ^ 50 * A * (l / 2 ^ 50 * B)
      ≤ (k + l + 1 / 2 ^ 10) / 2 ^ 50 * (A * B) := by
    have : (k + l + 1 / 2 ^ 10) / 2 ^ 50 * (A * B)
      = k / 2 ^ 50 * A * B + A * (l / 2 ^ 50 * B) + 1 / 2 ^ 10 / 2 ^ 50 * (A * B) := by ring
    rw [this]; linarith
  have hq : (k + l + 1 / 2 ^ 10) / 2 ^ 50 ≤ 1 / 4 := by
    rw [div_le_iff₀ (by positivity)]; norm_num at hk hl ⊢; linarith
  have hq2 := mul_le_mul_of_nonneg_right hq hAB
  have := small_mul (M := 5 / 4 * (A * B)) hx.1 hy.1 (by linarith)
    (le_trans (one_div_le_one_div_of_le (by positivity) (pow_le_pow_right₀ (by norm_num) (by norm_num)))
      (h1.trans (by linarith)))
    (up_900 hAB h2)
  refine ⟨⟨this.1, this.2.trans ?_⟩, hs⟩
  refine (add_le_add_left hE _).trans ?_
  rw [show 5 / 4 * (A * B) / 2 ^ 51 = (5 / 8) / 2 ^ 50 * (A * B) by ring, ← add_mul, ← add_div]
  apply mul_le_mul_of_nonneg_right _ hAB
  clear h1 h2
  apply div_le_div_of_nonneg_right _ (by positivity)
  norm_num
  linarith

theorem sm_div (hx : Sm k x a A) (hy : Rel l y b) (hb : 0 < b) (hk : k ≤ 2 ^ 20) (k0 : 0 ≤ k) (hl : l ≤ 2 ^ 20)
    (l0 : 0 ≤ l) (h1 : 1 / 2 ^ 800 ≤ A / b) (h2 : A / b ≤ 2 ^ 800) :
    Sm (k + l + 1) (x / y) (a / b) (A / b) := by
  have hA : 0 ≤ A := (abs_nonneg _).trans hx.2
  have hy0 := (hy.pos (hl.trans (by norm_num)) hb).1
  obtain ⟨fy, δ, hδ, ey⟩ := hy
  obtain ⟨s, e⟩ := div_fin hx.1.1 fy hy0.ne'
  have hAb : 0 ≤ A / b := div_nonneg hA hb.le
  have hs : |a / b| ≤ A / b := by rw [abs_div, abs_of_pos hb]; gcongr; exact hx.2
  have hq : l / 2 ^ 50 ≤ 1 / 2 ^ 30 := by rw [div_le_iff₀ (by positivity)]; refine hl.trans (by norm_num)
  have hδ' := abs_le.1 (hδ.trans hq)
  have h1δ : 1 - 1 / 2 ^ 30 ≤ 1 + δ := by linarith [hδ'.1]
  have h1δ0 : 0 < 1 + δ := lt_of_lt_of_le (by norm_num) h1δ
  have hE : |x.toR / y.toR - a / b| ≤ (k + l + 1 / 100) / 2 ^ 50 * (A / b) := by
    have e2 : x.toR / y.toR - a / b = ((x.toR - a) - a * δ) / b / (1 + δ) := by
      rw [ey]; field_simp; ring
    rw [e2, abs_div, abs_div, abs_of_pos hb, abs_of_pos h1δ0]
    have e3 : |x.toR - a - a * δ| ≤ (k + l) / 2 ^ 50 * A := by
      refine (abs_sub _ _).trans ?_
      rw [abs_mul, show (k + l) / 2 ^ 50 * A = k / 2 ^ 50 * A + A * (l / 2 ^ 50) by ring]
      exact add_le_add hx.1.2 (mul_le_mul hx.2 hδ (abs_nonneg _) hA)
    rw [div_le_iff₀ h1δ0]
    calc |x.toR - a - a * δ| / b ≤ (k + l) / 2 ^ 50 * A / b := by gcongr
      _ = (k + l) / 2 ^ 50 * (A / b) := by ring
      _ ≤ (k + l + 1 / 100) / 2 ^ 50 * (1 + δ) * (A / b) := by
          apply mul_le_mul_of_nonneg_right _ hAb
          rw [div_mul_eq_mul_div]
          gcongr
          have : (k + l + 1 / 100) * (1 - 1 / 2 ^ 30) ≤ (k + l + 1 / 100) * (1 + δ) :=
            mul_le_mul_of_nonneg_left h1δ (by positivity)
          refine le_trans ?_ this
          norm_num at hk hl ⊢
          linarith
      _ = _ := by ring
  have hq : (k + l + 1 / 100) / 2 ^ 50 ≤ 1 / 4 := by
    rw [div_le_iff₀ (by positivity)]; norm_num at hk hl ⊢; linarith
  have hq2 := mul_le_mul_of_nonneg_right hq hAb
  have hr : Near (E := E) (5 / 4 * (A / b) / 2 ^ 51) (E.round s (x.toR / y.toR)) (x.toR / y.toR) := by
    refine round_small s ?_
      (le_trans (one_div_le_one_div_of_le (by positivity) (pow_le_pow_right₀ (by norm_num) (by norm_num)))
      (h1.trans (by linarith)))
     (up_900 hAb h2)
    have := abs_add_le (x.toR / y.toR - a / b) (a / b)
    rw [sub_add_cancel] at this
    linarith
  have := Near.trans hr hE e
  refine ⟨⟨this.1, this.2.trans ?_⟩, hs⟩
  rw [show 5 / 4 * (A / b) / 2 ^ 51 = (5 / 8) / 2 ^ 50 * (A / b) by ring, ← add_mul, ← add_div]
  apply mul_le_mul_of_nonneg_right _ hAb
  clear h1 h2
  apply div_le_div_of_nonneg_right _ (by positivity)
  norm_num
  linarith

end FP

namespace Glicko2
open FP
variable {Q P V vol tau x : FP E} {c d a₀ t : ℝ}

/-- The numbers the function is computed from, as they come out of the arithmetic. -/
structure VolInput (Q P V vol tau : FP E) (c d a₀ t : ℝ) : Prop extends VolParams c d a₀ t where
  cf : (Q - P - V).isFinite
  ce : (Q - P - V).toR = c
  df : (P + V).isFinite
  de : (P + V).toR = d
  af : (Flt.ln (Flt.powi vol 2)).isFinite
  ae : (Flt.ln (Flt.powi vol 2)).toR = a₀
  tf : (Flt.powi tau 2).isFinite
  te : (Flt.powi tau 2).toR = t

theorem VolInput.input (I : VolInput Q P V vol tau c d a₀ t) : VolParams c d a₀ t := I.toVolParams

/-- Crude bounds of the exponential. -/
theorem exp_range {x : ℝ} (h : |x| ≤ 64) : 1 / 2 ^ 128 ≤ Real.exp x ∧ Real.exp x ≤ 2 ^ 128 := by
  have hx := abs_le.1 h
  have he : Real.exp 1 ≤ 4 := (Real.exp_one_lt_d9.le).trans (by norm_num)
  have h1 : Real.exp 64 ≤ 2 ^ 128 := by
    rw [show (64 : ℝ) = ((64 : ℕ) : ℝ) * 1 by norm_num, Real.exp_nat_mul]
    calc Real.exp 1 ^ 64 ≤ 4 ^ 64 := pow_le_pow_left₀ (Real.exp_pos 1).le he _
      _ = 2 ^ 128 := by norm_num
  refine ⟨?_, (Real.exp_le_exp.2 hx.2).trans h1⟩
  refine le_trans ?_ (Real.exp_le_exp.2 hx.1)
  rw [Real.exp_neg, ← one_div]
  exact one_div_le_one_div_of_le (Real.exp_pos _) h1

theorem exp_rel (A : E.Accurate) (hx : x.isFinite) (h : |x.toR| ≤ 64) :
    Rel 1 (Flt.exp x) (Real.exp x.toR) := by
  refine Rel.of_near (Real.exp_pos _) ?_
  have := A.exp x hx (h.trans (by norm_num))
  rwa [one_div_mul_eq_div]

/-- The denominator. -/
theorem den_rel (L : E.Lib) (A : E.Accurate) (I : VolInput Q P V vol tau c d a₀ t) (hx : x.isFinite)
    (h : |x.toR| ≤ 64) :
    Rel 6 ((2.0 : FP E) * Flt.powi (P + V + Flt.exp x) 2) (2 * (d + Real.exp x.toR) ^ 2) := by
  have he := exp_rel A hx h
  have hr := exp_range h
  have hd := I.dpos
  have hp := Real.exp_pos x.toR
  have h1 : Rel 0 (P + V) d := Rel.of_eq I.df I.de
  have lo : 1 / 2 ^ 20 ≤ d + Real.exp x.toR := by linarith [I.d0]
  have hi : d + Real.exp x.toR ≤ 2 ^ 129 := by
    have := I.d1
    rw [show (2 : ℝ) ^ 129 = 2 ^ 128 + 2 ^ 128 by ring]
    exact add_le_add (this.trans (pow_le_pow_right₀ (by norm_num) (by norm_num))) hr.2
  have sq_lo : 1 / 2 ^ 40 ≤ (d + Real.exp x.toR) ^ 2 := by
    refine le_trans (by norm_num) (pow_le_pow_left₀ (by positivity) lo 2)
  have sq_hi : (d + Real.exp x.toR) ^ 2 ≤ 2 ^ 258 := by
    refine (pow_le_pow_left₀ (by positivity) hi 2).trans (by rw [← pow_mul])
  have l900 : ∀ {X : ℝ}, 1 / 2 ^ 40 ≤ X → 1 / 2 ^ 900 ≤ X := fun h =>
    (one_div_le_one_div_of_le (by positivity) (pow_le_pow_right₀ (by norm_num) (by norm_num))).trans h
  have h2 := rel_add (h1.mono (by norm_num : (0 : ℝ) ≤ 1)) he hd hp (by norm_num)
    (l900 (le_trans (by norm_num) lo)) (hi.trans (pow_le_pow_right₀ (by norm_num) (by norm_num)))
  have h3 := rel_sq L h2 (by positivity) (by norm_num) (l900 sq_lo)
    (sq_hi.trans (pow_le_pow_right₀ (by norm_num) (by norm_num)))
  have h4 : Rel 0 (2.0 : FP E) 2 := lit_rel (lit_in (E := E) (m := 20) (s := true) (e := 1) (v := 2)
    (by norm_num) (SRep.ofNat 2 (by norm_num)))
  have h5 := rel_mul h4 h3 (by norm_num) (by positivity) (by norm_num) (by norm_num)
    (l900 (sq_lo.trans (by linarith [sq_nonneg (d + Real.exp x.toR)])))
    (by rw [show (2 : ℝ) ^ 900 = 2 * 2 ^ 899 by rw [← pow_succ']]
        exact mul_le_mul_of_nonneg_left (sq_hi.trans (pow_le_pow_right₀ (by norm_num) (by norm_num)))
          (by norm_num))
  exact h5.mono (by norm_num)

/-- The numerator. -/
theorem num_sm (A : E.Accurate) (I : VolInput Q P V vol tau c d a₀ t) (hx : x.isFinite)
    (h : |x.toR| ≤ 64) :
    Sm 2 (Q - P - V - Flt.exp x) (c - Real.exp x.toR) (|c| + Real.exp x.toR) ∧
    Sm 4 (Flt.exp x * (Q - P - V - Flt.exp x)) (Real.exp x.toR * (c - Real.exp x.toR))
      (Real.exp x.toR * (|c| + Real.exp x.toR)) ∧
    1 / 2 ^ 256 ≤ Real.exp x.toR * (|c| + Real.exp x.toR) ∧
    Real.exp x.toR * (|c| + Real.exp x.toR) ≤ 2 ^ 257 := by
  have he := exp_rel A hx h
  have hr := exp_range h
  have hd := I.dpos
  have ht := I.tpos
  have hp := Real.exp_pos x.toR
  have hc : |c| ≤ 2 ^ 50 := by
    have h1 := I.abs_c
    have h2 : 1 / 2 ^ 10 * |c| ≤ t * |c| := mul_le_mul_of_nonneg_right I.t0 (abs_nonneg _)
    have := I.d1
    norm_num at this h2 ⊢
    linarith
  have hC : Sm 0 (Q - P - V) c |c| := by
    have := Sm.exact I.cf le_rfl
    rwa [I.ce] at this
  have hE := Sm.of_rel he hp
  have s1 : 1 / 2 ^ 128 ≤ |c| + Real.exp x.toR := hr.1.trans (by linarith [abs_nonneg c])
  have s2 : |c| + Real.exp x.toR ≤ 2 ^ 129 := by
    rw [show (2 : ℝ) ^ 129 = 2 ^ 128 + 2 ^ 128 by ring]
    exact add_le_add (hc.trans (pow_le_pow_right₀ (by norm_num) (by norm_num))) hr.2
  have n3 := sm_sub (hC.mono (by norm_num : (0 : ℝ) ≤ 1)) hE (by norm_num) (by norm_num)
    ((one_div_le_one_div_of_le (by positivity) (pow_le_pow_right₀ (by norm_num) (by norm_num))).trans s1)
    (s2.trans (pow_le_pow_right₀ (by norm_num) (by norm_num)))
  have p1 : 1 / 2 ^ 256 ≤ Real.exp x.toR * (|c| + Real.exp x.toR) := by
    have := mul_le_mul hr.1 s1 (by positivity) hp.le
    rwa [div_mul_div_comm, one_mul, ← pow_add] at this
  have p2 : Real.exp x.toR * (|c| + Real.exp x.toR) ≤ 2 ^ 257 := by
    have := mul_le_mul hr.2 s2 (by positivity) (by positivity)
    rwa [← pow_add] at this
  have num := sm_mul hE n3 (by norm_num) (by norm_num) (by norm_num) (by norm_num)
    ((one_div_le_one_div_of_le (by positivity) (pow_le_pow_right₀ (by norm_num) (by norm_num))).trans p1)
    (p2.trans (pow_le_pow_right₀ (by norm_num) (by norm_num)))
  exact ⟨n3.mono (by norm_num), num.mono (by norm_num), p1, p2⟩

/-- The first part. -/
theorem volI_sm (L : E.Lib) (A : E.Accurate) (I : VolInput Q P V vol tau c d a₀ t) (hx : x.isFinite)
    (h : |x.toR| ≤ 64) :
    Sm 11 ((Flt.exp x * (Q - P - V - Flt.exp x)) / ((2.0 : FP E) * Flt.powi (P + V + Flt.exp x) 2))
      (volI c d x.toR) (volB c d x.toR) := by
  have hr := exp_range h
  have hd := I.dpos
  have hp := Real.exp_pos x.toR
  obtain ⟨-, num, p1, p2⟩ := num_sm A I hx h
  have hden0 : 0 < 2 * (d + Real.exp x.toR) ^ 2 := by positivity
  have dlo : 1 / 2 ^ 40 ≤ 2 * (d + Real.exp x.toR) ^ 2 := by
    have lo : 1 / 2 ^ 20 ≤ d + Real.exp x.toR := by linarith [I.d0]
    have := pow_le_pow_left₀ (by positivity) lo 2
    have h2 := _root_.sq_nonneg (d + Real.exp x.toR)
    norm_num at this ⊢
    linarith
  have dhi : 2 * (d + Real.exp x.toR) ^ 2 ≤ 2 ^ 259 := by
    have hi : d + Real.exp x.toR ≤ 2 ^ 129 := by
      have := I.d1
      rw [show (2 : ℝ) ^ 129 = 2 ^ 128 + 2 ^ 128 by ring]
      exact add_le_add (this.trans (pow_le_pow_right₀ (by norm_num) (by norm_num))) hr.2
    have := pow_le_pow_left₀ (by positivity) hi 2
    rw [← pow_mul] at this
    rw [show (2 : ℝ) ^ 259 = 2 * 2 ^ 258 by rw [← pow_succ']]
    exact mul_le_mul_of_nonneg_left this (by norm_num)
  have q1 : 1 / 2 ^ 515 ≤ Real.exp x.toR * (|c| + Real.exp x.toR) / (2 * (d + Real.exp x.toR) ^ 2) := by
    rw [show (1 : ℝ) / 2 ^ 515 = 1 / 2 ^ 256 / 2 ^ 259 by rw [div_div, ← pow_add]]
    exact div_le_div₀ (by positivity) p1 hden0 dhi
  have q2 : Real.exp x.toR * (|c| + Real.exp x.toR) / (2 * (d + Real.exp x.toR) ^ 2) ≤ 2 ^ 297 := by
    rw [div_le_iff₀ hden0]
    have : (2 : ℝ) ^ 257 = 2 ^ 297 * (1 / 2 ^ 40) := by
      rw [mul_one_div, eq_div_iff (by positivity), ← pow_add]
    exact p2.trans (this.le.trans (mul_le_mul_of_nonneg_left dlo (by positivity)))
  have := sm_div num (den_rel L A I hx h) hden0 (by norm_num) (by norm_num) (by norm_num) (by norm_num)
    ((one_div_le_one_div_of_le (by positivity) (pow_le_pow_right₀ (by norm_num) (by norm_num))).trans q1)
    (q2.trans (pow_le_pow_right₀ (by norm_num) (by norm_num)))
  exact this.mono (by norm_num)

/-- The numerator of the second part. -/
theorem volS_sm (I : VolInput Q P V vol tau c d a₀ t) (hx : x.isFinite) (h : |x.toR| ≤ 64) :
    Sm 1 (x - Flt.ln (Flt.powi vol 2)) (x.toR - a₀) (|x.toR - a₀| + 1 / 2 ^ 200) := by
  obtain ⟨s, e⟩ := sub_fin hx I.af
  rw [I.ae] at e
  have ha : |x.toR - a₀| ≤ 100 := by
    have h1 := abs_le.1 h
    rw [abs_le]; constructor <;> linarith [I.a0, I.a1]
  have hlo : 1 / 2 ^ 200 ≤ |x.toR - a₀| + 1 / 2 ^ 200 := by linarith [abs_nonneg (x.toR - a₀)]
  have hhi : |x.toR - a₀| + 1 / 2 ^ 200 ≤ 2 ^ 7 := by
    have : (1 : ℝ) / 2 ^ 200 ≤ 1 := by norm_num
    linarith
  have h1 := round_small (E := E) s (v := x.toR - a₀) (M := |x.toR - a₀| + 1 / 2 ^ 200) (by
      have : (0 : ℝ) ≤ 1 / 2 ^ 200 := by positivity
      linarith)
    ((one_div_le_one_div_of_le (by positivity) (pow_le_pow_right₀ (by norm_num) (by norm_num))).trans hlo)
    (hhi.trans (pow_le_pow_right₀ (by norm_num) (by norm_num)))
  rw [← e] at h1
  have h2 : Sm 1 (x - Flt.ln (Flt.powi vol 2)) (x.toR - a₀) (|x.toR - a₀| + 1 / 2 ^ 200) := by
    refine ⟨⟨h1.1, h1.2.trans ?_⟩, ?_⟩
    · have : (0 : ℝ) ≤ |x.toR - a₀| + 1 / 2 ^ 200 := by positivity
      generalize |x.toR - a₀| + 1 / 2 ^ 200 = X at this ⊢
      norm_num
      linarith
    · have : (0 : ℝ) ≤ 1 / 2 ^ 200 := by positivity
      linarith
  exact h2

/-- The second part. -/
theorem volJ_sm (I : VolInput Q P V vol tau c d a₀ t) (hx : x.isFinite) (h : |x.toR| ≤ 64) :
    Sm 2 ((x - Flt.ln (Flt.powi vol 2)) / Flt.powi tau 2) ((x.toR - a₀) / t)
      ((|x.toR - a₀| + 1 / 2 ^ 200) / t) := by
  have ht := I.tpos
  have ha : |x.toR - a₀| ≤ 100 := by
    have h1 := abs_le.1 h
    rw [abs_le]; constructor <;> linarith [I.a0, I.a1]
  have hlo : 1 / 2 ^ 200 ≤ |x.toR - a₀| + 1 / 2 ^ 200 := by linarith [abs_nonneg (x.toR - a₀)]
  have hhi : |x.toR - a₀| + 1 / 2 ^ 200 ≤ 2 ^ 7 := by
    have : (1 : ℝ) / 2 ^ 200 ≤ 1 := by norm_num
    linarith
  have h2 := volS_sm (x := x) I hx h
  have h3 : Rel 0 (Flt.powi tau 2) t := Rel.of_eq I.tf I.te
  have q1 : 1 / 2 ^ 201 ≤ (|x.toR - a₀| + 1 / 2 ^ 200) / t := by
    rw [le_div_iff₀ ht]
    refine le_trans ?_ hlo
    have := I.t1
    rw [show (1 : ℝ) / 2 ^ 200 = 1 / 2 ^ 201 * 2 by norm_num]
    exact mul_le_mul_of_nonneg_left (by linarith) (by positivity)
  have q2 : (|x.toR - a₀| + 1 / 2 ^ 200) / t ≤ 2 ^ 17 := by
    rw [div_le_iff₀ ht]
    refine hhi.trans ?_
    have := I.t0
    norm_num at this ⊢
    linarith
  have := sm_div h2 h3 ht (by norm_num) (by norm_num) (by norm_num) (by norm_num)
    ((one_div_le_one_div_of_le (by positivity) (pow_le_pow_right₀ (by norm_num) (by norm_num))).trans q1)
    (q2.trans (pow_le_pow_right₀ (by norm_num) (by norm_num)))
  exact this.mono (by norm_num)

/-- The function: how far the computed value is from the exact one. -/
theorem fValue_noise (L : E.Lib) (A : E.Accurate) (I : VolInput Q P V vol tau c d a₀ t) (hx : x.isFinite)
    (h : |x.toR| ≤ 64) :
    (fValue x Q P V vol tau).isFinite ∧
      |t * (fValue x Q P V vol tau).toR - t * volF c d a₀ t x.toR|
        ≤ (23 / 2 * (t * volB c d x.toR) + 5 / 2 * (|x.toR - a₀| + 1 / 2 ^ 200)
          + 1 / 2 * |t * volF c d a₀ t x.toR|) / 2 ^ 50 := by
  have ht := I.tpos
  have hI := volI_sm L A I hx h
  have hJ := volJ_sm (x := x) I hx h
  have hB0 : 0 ≤ volB c d x.toR := (abs_nonneg _).trans hI.2
  have ha : |x.toR - a₀| ≤ 100 := by
    have h1 := abs_le.1 h
    rw [abs_le]; constructor <;> linarith [I.a0, I.a1]
  have hJ0 : 1 / 2 ^ 201 ≤ (|x.toR - a₀| + 1 / 2 ^ 200) / t := by
    rw [le_div_iff₀ ht]
    have := I.t1
    have h0 := abs_nonneg (x.toR - a₀)
    have h3 : (1 : ℝ) / 2 ^ 201 * t ≤ 1 / 2 ^ 201 * 2 := mul_le_mul_of_nonneg_left (by linarith) (by positivity)
    rw [show (1 : ℝ) / 2 ^ 200 = 1 / 2 ^ 201 * 2 by norm_num]
    linarith
  have hJ1 : (|x.toR - a₀| + 1 / 2 ^ 200) / t ≤ 2 ^ 17 := by
    rw [div_le_iff₀ ht]
    have := I.t0
    norm_num at this ⊢
    linarith
  have hB1 : volB c d x.toR ≤ 2 ^ 17 := by
    have h1 := I.bound_one x.toR
    have := I.t0
    have h2 : 1 / 2 ^ 10 * volB c d x.toR ≤ t * volB c d x.toR := mul_le_mul_of_nonneg_right this hB0
    norm_num at h2 ⊢
    linarith
  have eJ : t * ((|x.toR - a₀| + 1 / 2 ^ 200) / t) = |x.toR - a₀| + 1 / 2 ^ 200 := by field_simp
  have hF : |volF c d a₀ t x.toR| ≤ volB c d x.toR + (|x.toR - a₀| + 1 / 2 ^ 200) / t := by
    rw [volF]; exact (abs_sub _ _).trans (add_le_add hI.2 hJ.2)
  have key := small_sub (M := |volF c d a₀ t x.toR| + (volB c d x.toR + (|x.toR - a₀| + 1 / 2 ^ 200) / t))
    hI.1 hJ.1 (by
      rw [← volF]
      have e1 : 11 / 2 ^ 50 * volB c d x.toR ≤ 1 * volB c d x.toR := by gcongr; norm_num
      have e2 : 2 / 2 ^ 50 * ((|x.toR - a₀| + 1 / 2 ^ 200) / t) ≤ 1 * ((|x.toR - a₀| + 1 / 2 ^ 200) / t) := by
        have : 0 ≤ (|x.toR - a₀| + 1 / 2 ^ 200) / t := le_trans (by positivity) hJ0
        gcongr; norm_num
      linarith)
    ((one_div_le_one_div_of_le (by positivity) (pow_le_pow_right₀ (by norm_num) (by norm_num))).trans
      (hJ0.trans (by linarith [abs_nonneg (volF c d a₀ t x.toR)])))
    (le_trans (b := 2 ^ 20) (by
      generalize (|x.toR - a₀| + 1 / 2 ^ 200) / t = J at *
      norm_num at hJ1 hB1 ⊢
      linarith) (pow_le_pow_right₀ (by norm_num) (by norm_num)))
  refine ⟨key.1, ?_⟩
  have k2 := key.2
  rw [← volF] at k2
  change |(fValue x Q P V vol tau).toR - _| ≤ _ at k2
  rw [← mul_sub, abs_mul, abs_of_pos ht, abs_mul, abs_of_pos ht]
  generalize (|x.toR - a₀| + 1 / 2 ^ 200) / t = J at k2 eJ
  refine (mul_le_mul_of_nonneg_left k2 ht.le).trans (le_of_eq ?_)
  rw [← eJ]
  ring

end Glicko2
end Skillratings
