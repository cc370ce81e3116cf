import Verif.Proofs.FPVolStart
import Verif.Proofs.FPQuantile
import Verif.Spec.Glicko2
import Verif.Spec.Precise
/-
The search for the new volatility, given approximations of the quantities of step 5 of Glicko-2.
-/
namespace Skillratings
open FP FPVal Spec
variable {E : FloatEnv}

namespace Glicko2
variable {Q P V vol tau tol : FP E} {Δ φ v K : ℝ}

/-- Approximations of `Δ²`, `φ²` and `v`. -/
structure VolNear (Q P V : FP E) (Δ φ v : ℝ) : Prop where
  Qf : Q.isFinite
  Pf : P.isFinite
  wf : (Q - P).isFinite
  Q0 : 0 ≤ Q.toR
  P0 : 0 ≤ P.toR
  Vr : Rel (2 ^ 13) V v
  V1 : 1 / 2 ^ 10 ≤ V.toR
  v0 : 0 < v
  c : Near ((φ ^ 2 + v) / 2 ^ 24) (Q - P - V) (Δ ^ 2 - φ ^ 2 - v)
  d : Rel (2 ^ 13) (P + V) (φ ^ 2 + v)
  d1 : φ ^ 2 + v ≤ 2 ^ 15 - 1

theorem VolNear.dpos (N : VolNear Q P V Δ φ v) : 0 < φ ^ 2 + v := by
  have := N.v0; positivity

/-- The computed sum, from below and above. -/
theorem VolNear.d_near (N : VolNear Q P V Δ φ v) :
    |(P + V).toR - (φ ^ 2 + v)| ≤ (φ ^ 2 + v) / 2 ^ 37 := by
  have := (N.d.near N.dpos.le).2
  refine this.trans (le_of_eq ?_)
  generalize φ ^ 2 + v = w
  ring

/-- The numerator is at least minus the denominator. -/
theorem VolNear.c0 (N : VolNear Q P V Δ φ v) : -(P + V).toR ≤ (Q - P - V).toR := by
  have Vf := N.Vr.1
  obtain ⟨s₁, e₁⟩ := sub_fin N.Qf N.Pf
  obtain ⟨s₂, e₂⟩ := sub_fin N.wf Vf
  obtain ⟨s₃, e₃⟩ := add_fin N.Pf Vf
  have h1 : -P.toR ≤ (Q - P).toR := by
    have hf := N.wf
    rw [e₁] at hf ⊢
    have := E.round_ge s₁ (x := Q.toR - P.toR) (r := -P.toR) (isFinite.srep N.Pf).neg
      (by linarith [N.Q0])
    rw [isFinite.toE_eq hf, EReal.coe_le_coe_iff] at this
    exact this
  have hc := N.c.1
  have hd := N.d.1
  rw [e₂] at hc ⊢
  rw [e₃] at hd ⊢
  have h2 := E.round_mono (!s₃) s₂ (x := -(P.toR + V.toR)) (y := (Q - P).toR - V.toR) (by linarith)
  rw [E.round_neg, Bool.not_not, isFinite.toE_eq hc, isFinite.toE_eq hd, ← EReal.coe_neg, EReal.coe_le_coe_iff] at h2
  exact h2

/-- The logarithm of the squared volatility. -/
theorem log_sq_range {σ : ℝ} (h0 : 1 / 10000 ≤ σ) (h1 : σ ≤ 1 / 8) :
    -(37 / 2) ≤ Real.log (σ ^ 2) ∧ Real.log (σ ^ 2) ≤ -(33 / 8) := by
  have hs : 0 < σ := lt_of_lt_of_le (by norm_num) h0
  have q0 : (1 / 10000) ^ 2 ≤ σ ^ 2 := pow_le_pow_left₀ (by norm_num) h0 2
  have q1 : σ ^ 2 ≤ (1 / 8) ^ 2 := pow_le_pow_left₀ hs.le h1 2
  have qp : 0 < σ ^ 2 := by positivity
  have lo : -(37 / 2) ≤ Real.log (σ ^ 2) := by
    rw [Real.le_log_iff_exp_le qp, Real.exp_neg]
    have e1 : (1.6486 : ℝ) ≤ Real.exp (1 / 2) := by
      have h2 : Real.exp (1 / 2) ^ 2 = Real.exp 1 := by rw [← Real.exp_nat_mul]; norm_num
      have := Real.exp_one_gt_d9
      nlinarith [Real.exp_pos (1 / 2)]
    have e2 : (10000 : ℝ) ^ 2 ≤ Real.exp (37 / 2) := by
      rw [show (37 / 2 : ℝ) = ((37 : ℕ) : ℝ) * (1 / 2) by norm_num, Real.exp_nat_mul]
      exact le_trans (by norm_num) (pow_le_pow_left₀ (by norm_num) e1 37)
    refine (inv_anti₀ (by norm_num) e2).trans (le_trans (by norm_num) q0)
  have hi : Real.log (σ ^ 2) ≤ -(33 / 8) := by
    rw [Real.log_le_iff_le_exp qp, Real.exp_neg]
    have e1 : Real.exp (33 / 8) ≤ 64 := by
      have h2 : Real.exp (33 / 8) = Real.exp 1 ^ 4 * Real.exp (1 / 8) := by
        rw [← Real.exp_nat_mul, ← Real.exp_add]; norm_num
      have h3 : Real.exp (1 / 8) ≤ 8 / 7 := by
        have := Real.add_one_le_exp (-(1 / 8) : ℝ)
        rw [Real.exp_neg] at this
        have h4 := Real.exp_pos (1 / 8)
        rw [← inv_inv (Real.exp (1 / 8))]
        refine (inv_anti₀ (by norm_num) this).trans (by norm_num)
      have h5 : Real.exp 1 ^ 4 ≤ 2.7182818286 ^ 4 := pow_le_pow_left₀ (Real.exp_pos 1).le Real.exp_one_lt_d9.le 4
      rw [h2]
      exact (mul_le_mul h5 h3 (Real.exp_pos _).le (by positivity)).trans (by norm_num)
    refine le_trans (by linarith [q1]) (inv_anti₀ (Real.exp_pos _) e1)
  exact ⟨lo, hi⟩

theorem log_vol {y : FP E} (W : E.LogWide) {σ : ℝ} (hy : Rel 1 y (σ ^ 2)) (h0 : 1 / 10000 ≤ σ) (h1 : σ ≤ 1 / 8) :
    (Flt.ln y).isFinite ∧ |(Flt.ln y).toR - Real.log (σ ^ 2)| ≤ 1 / 2 ^ 39 ∧
      -19 ≤ (Flt.ln y).toR ∧ (Flt.ln y).toR ≤ -(41 / 10) := by
  have hs : 0 < σ := lt_of_lt_of_le (by norm_num) h0
  have q0 : (1 / 10000) ^ 2 ≤ σ ^ 2 := pow_le_pow_left₀ (by norm_num) h0 2
  have q1 : σ ^ 2 ≤ (1 / 8) ^ 2 := pow_le_pow_left₀ hs.le h1 2
  have qp : 0 < σ ^ 2 := by positivity
  obtain ⟨fy, δ, hδ, ey⟩ := hy
  have hδ' := abs_le.1 hδ
  have hn := W.ln y fy (by rw [ey]; norm_num at *; nlinarith) (by rw [ey]; norm_num at *; nlinarith)
  have h1δ : 0 < 1 + δ := by norm_num at hδ'; linarith [hδ'.1]
  have e : Real.log y.toR = Real.log (σ ^ 2) + Real.log (1 + δ) := by rw [ey, Real.log_mul qp.ne' h1δ.ne']
  have l1 : Real.log (1 + δ) ≤ δ := by linarith [Real.log_le_sub_one_of_pos h1δ]
  have l2 : -(2 / 2 ^ 50) ≤ Real.log (1 + δ) := by
    have := Real.one_sub_inv_le_log_of_pos h1δ
    refine le_trans ?_ this
    rw [show 1 - (1 + δ)⁻¹ = δ / (1 + δ) by field_simp; ring, le_div_iff₀ h1δ]
    norm_num at hδ' ⊢
    nlinarith [hδ'.1, hδ'.2]
  obtain ⟨lo, hi⟩ := log_sq_range h0 h1
  have hN := hn.2
  replace hN : |(Flt.ln y).toR - Real.log y.toR| ≤ 1 / 2 ^ 40 := hN
  have hN' := abs_le.1 hN
  rw [e] at hN'
  generalize Real.log (σ ^ 2) = A at *
  generalize Real.log (1 + δ) = B at *
  generalize (Flt.ln y).toR = C at *
  refine ⟨hn.1, ?_, ?_, ?_⟩
  · rw [abs_le]; constructor <;> norm_num at * <;> linarith
  · norm_num at *; linarith
  · norm_num at *; linarith

/-- The square of a number of moderate size. -/
theorem sq_rel (L : E.Lib) {x : FP E} (hx : x.isFinite) (h0 : 1 / 2 ^ 20 ≤ x.toR) (h1 : x.toR ≤ 2 ^ 20) :
    Rel 1 (Flt.powi x 2) (x.toR ^ 2) := by
  have a : Ap 0 20 x x.toR := ⟨Rel.exact hx, h0, h1⟩
  exact (a.sq L (by norm_num) (by norm_num)).1.mono (by norm_num)

/-- The volatility is small and the improvement not too large, compared with the variances. -/
structure Calm (K Δ φ v σ τ : ℝ) : Prop where
  K0 : 50 ≤ K
  z : K * (1001 / 1000) * σ ^ 2 ≤ φ ^ 2 + v
  c1 : τ ^ 2 * Δ ^ 2 ≤ 13 * (φ ^ 2 + v)
  cz : 401 * (τ ^ 2 * Δ ^ 2 * σ ^ 2) ≤ 13 * (φ ^ 2 + v) ^ 2

/-- The exponential of the start. -/
theorem exp_log_le {a σ : ℝ} (hσ : 0 < σ) (h : a ≤ Real.log (σ ^ 2) + 1 / 2 ^ 39) :
    Real.exp a ≤ σ ^ 2 * (1 + 1 / 2 ^ 38) := by
  calc Real.exp a ≤ Real.exp (Real.log (σ ^ 2) + 1 / 2 ^ 39) := Real.exp_le_exp.2 h
    _ = σ ^ 2 * Real.exp (1 / 2 ^ 39) := by rw [Real.exp_add, Real.exp_log (by positivity)]
    _ ≤ σ ^ 2 * (1 + 1 / 2 ^ 38) := by
        apply mul_le_mul_of_nonneg_left _ (by positivity)
        have := Real.abs_exp_sub_one_le (x := (1 / 2 ^ 39 : ℝ)) (by norm_num)
        have := (abs_le.1 this).2
        norm_num at this ⊢
        linarith

/-- The start is small, compared with the computed variances. -/
theorem VolNear.start (N : VolNear Q P V Δ φ v) {σ τ a : ℝ} (C : Calm K Δ φ v σ τ) (hσ : 0 < σ)
    (h : a ≤ Real.log (σ ^ 2) + 1 / 2 ^ 39) : K * Real.exp a ≤ (P + V).toR := by
  have e := exp_log_le hσ h
  have hK : 0 < K := lt_of_lt_of_le (by norm_num) C.K0
  have e2 := mul_le_mul_of_nonneg_left e hK.le
  have dn := (abs_le.1 N.d_near).1
  have dp := N.dpos
  have z := C.z
  have hs : 0 < K * σ ^ 2 := by positivity
  have z' : 1001 / 1000 * (K * σ ^ 2) ≤ φ ^ 2 + v := by linarith
  have e3 : K * (σ ^ 2 * (1 + 1 / 2 ^ 38)) = (1 + 1 / 2 ^ 38) * (K * σ ^ 2) := by ring
  rw [e3] at e2
  generalize K * σ ^ 2 = w at *
  generalize φ ^ 2 + v = D at *
  norm_num at *
  linarith

/-- The input of the search. -/
theorem VolNear.input (L : E.Lib) (W : E.LogWide) (N : VolNear Q P V Δ φ v)
    (hσ : Between (1 / 10000) (1 / 8) vol) (hτ : Between (1 / 10) (6 / 5) tau)
    (C : Calm K Δ φ v vol.toR tau.toR) :
    VolInput Q P V vol tau (Q - P - V).toR (P + V).toR (Flt.ln (Flt.powi vol 2)).toR
      (Flt.powi tau 2).toR ∧ K * Real.exp (Flt.ln (Flt.powi vol 2)).toR ≤ (P + V).toR := by
  have hσ0 : 0 < vol.toR := lt_of_lt_of_le (by norm_num) hσ.2.1
  have hτ0 : 0 < tau.toR := lt_of_lt_of_le (by norm_num) hτ.2.1
  have rσ := sq_rel L hσ.1 (le_trans (by norm_num) hσ.2.1) (hσ.2.2.trans (by norm_num))
  have rτ := sq_rel L hτ.1 (le_trans (by norm_num) hτ.2.1) (hτ.2.2.trans (by norm_num))
  obtain ⟨af, ae, alo, ahi⟩ := log_vol W rσ hσ.2.1 hσ.2.2
  have tn := abs_le.1 ((rτ.near (by positivity)).2)
  have t2 : (1 / 10) ^ 2 ≤ tau.toR ^ 2 := pow_le_pow_left₀ (by norm_num) hτ.2.1 2
  have t3 : tau.toR ^ 2 ≤ (6 / 5) ^ 2 := pow_le_pow_left₀ hτ0.le hτ.2.2 2
  have dn := abs_le.1 N.d_near
  have dp := N.dpos
  have cn := abs_le.1 N.c.2
  have d1 := N.d1
  have hV1 := N.V1
  have hc0 := N.c0
  have hst := N.start C hσ0 (a := (Flt.ln (Flt.powi vol 2)).toR) (by linarith [(abs_le.1 ae).2])
  have he := exp_log_le hσ0 (a := (Flt.ln (Flt.powi vol 2)).toR) (by linarith [(abs_le.1 ae).2])
  have hep := Real.exp_pos (Flt.ln (Flt.powi vol 2)).toR
  have hz50 : Real.exp (Flt.ln (Flt.powi vol 2)).toR ≤ (P + V).toR / 50 := by
    rw [le_div_iff₀ (by norm_num)]
    have := mul_le_mul_of_nonneg_right C.K0 hep.le
    linarith
  have tp : 0 < (Flt.powi tau 2).toR := (rτ.pos (by norm_num) (by positivity)).1
  have tu : (Flt.powi tau 2).toR ≤ tau.toR ^ 2 * (1 + 1 / 2 ^ 50) := by
    norm_num at tn ⊢; linarith [tn.2]
  have tl : 99 / 10000 ≤ (Flt.powi tau 2).toR := by
    norm_num at tn t2 ⊢; linarith [tn.1]
  have du : (1 - 1 / 2 ^ 37) * (φ ^ 2 + v) ≤ (P + V).toR := by
    norm_num at dn ⊢; linarith [dn.1]
  have cu : (Q - P - V).toR ≤ Δ ^ 2 - (1 - 1 / 2 ^ 24) * (φ ^ 2 + v) := by
    norm_num at cn ⊢; linarith [cn.2]
  have dpos : 0 < (P + V).toR := by norm_num at du; linarith
  refine ⟨{ cf := N.c.1, ce := rfl, df := N.d.1, de := rfl, af := af, ae := rfl, tf := rτ.1, te := rfl,
            c0 := hc0, a0 := alo, a1 := ahi, d0 := ?_, d1 := ?_, c1 := ?_, t0 := ?_, t1 := ?_, z := hz50, cz := ?_ }, hst⟩
  · have := N.Vr.pos (by norm_num) N.v0
    have hv : (1 - 1 / 2 ^ 37) * v ≤ (P + V).toR :=
      le_trans (mul_le_mul_of_nonneg_left (by nlinarith [_root_.sq_nonneg φ]) (by norm_num)) du
    have hv2 := (abs_le.1 (N.Vr.near N.v0.le).2).2
    norm_num at *
    linarith
  · norm_num at *; linarith
  · calc (Flt.powi tau 2).toR * (Q - P - V).toR
        ≤ (Flt.powi tau 2).toR * (Δ ^ 2 - (1 - 1 / 2 ^ 24) * (φ ^ 2 + v)) := mul_le_mul_of_nonneg_left cu tp.le
      _ = (Flt.powi tau 2).toR * Δ ^ 2 - (Flt.powi tau 2).toR * ((1 - 1 / 2 ^ 24) * (φ ^ 2 + v)) := by ring
      _ ≤ 13 * (1 + 1 / 2 ^ 50) * (φ ^ 2 + v) - 99 / 10000 * ((1 - 1 / 2 ^ 24) * (φ ^ 2 + v)) := by
          have h1 := mul_le_mul_of_nonneg_right tu (_root_.sq_nonneg Δ)
          have h2 := mul_le_mul_of_nonneg_right tl (by
            have : (0 : ℝ) ≤ 1 - 1 / 2 ^ 24 := by norm_num
            positivity : 0 ≤ (1 - 1 / 2 ^ 24) * (φ ^ 2 + v))
          have h3 := mul_le_mul_of_nonneg_left C.c1 (by norm_num : (0 : ℝ) ≤ 1 + 1 / 2 ^ 50)
          linarith
      _ ≤ 13 * (P + V).toR := by
          norm_num at du ⊢
          linarith
  · norm_num at *; linarith
  · norm_num at *; linarith
  · have ht15 : (Flt.powi tau 2).toR ≤ 3 / 2 := by norm_num at *; linarith
    rcases le_or_gt (Q - P - V).toR 0 with hn | hn
    · rw [abs_of_nonpos hn]
      have h1 : (Flt.powi tau 2).toR * -(Q - P - V).toR ≤ 3 / 2 * (P + V).toR :=
        mul_le_mul ht15 (by linarith) (by linarith) (by norm_num)
      have h2 := mul_le_mul h1 hz50 hep.le (by positivity)
      nlinarith
    · rw [abs_of_pos hn]
      have cu2 : (Q - P - V).toR ≤ Δ ^ 2 := by norm_num at cu; linarith
      have h1 : (Flt.powi tau 2).toR * (Q - P - V).toR ≤ tau.toR ^ 2 * (1 + 1 / 2 ^ 50) * Δ ^ 2 :=
        mul_le_mul tu cu2 hn.le (by positivity)
      have h2 := mul_le_mul h1 he hep.le (by positivity)
      have h3 : tau.toR ^ 2 * (1 + 1 / 2 ^ 50) * Δ ^ 2 * (vol.toR ^ 2 * (1 + 1 / 2 ^ 38)) =
        ((1 + 1 / 2 ^ 50) * (1 + 1 / 2 ^ 38)) * (tau.toR ^ 2 * Δ ^ 2 * vol.toR ^ 2) := by ring
      have h4 : (1 - 1 / 2 ^ 37) ^ 2 * (φ ^ 2 + v) ^ 2 ≤ (P + V).toR ^ 2 := by
        rw [← mul_pow]; exact pow_le_pow_left₀ (mul_nonneg (by norm_num) dp.le) du 2
      have h5 := C.cz
      refine h2.trans (h3.trans_le ?_)
      have h6 : 0 ≤ tau.toR ^ 2 * Δ ^ 2 * vol.toR ^ 2 := by positivity
      generalize tau.toR ^ 2 * Δ ^ 2 * vol.toR ^ 2 = w at *
      generalize (φ ^ 2 + v) ^ 2 = D at *
      norm_num at h4 ⊢
      linarith

/-- The exact input. -/
theorem exact_params {σ τ : ℝ} (v0 : 1 / 2 ^ 11 ≤ v) (d1 : φ ^ 2 + v ≤ 2 ^ 15) (h0 : 1 / 10000 ≤ σ) (h1 : σ ≤ 1 / 8)
    (t0 : 1 / 10 ≤ τ) (t1 : τ ≤ 6 / 5) (C : Calm K Δ φ v σ τ) :
    VolParams (Δ ^ 2 - φ ^ 2 - v) (φ ^ 2 + v) (Real.log (σ ^ 2)) (τ ^ 2) ∧
      K * Real.exp (Real.log (σ ^ 2)) ≤ φ ^ 2 + v := by
  have hs : 0 < σ := lt_of_lt_of_le (by norm_num) h0
  have qp : 0 < σ ^ 2 := by positivity
  have hφ := _root_.sq_nonneg φ
  have hΔ := _root_.sq_nonneg Δ
  have v1 : 0 < v := lt_of_lt_of_le (by positivity) v0
  obtain ⟨lo, hi⟩ := log_sq_range h0 h1
  have c1 := C.c1
  have hK := C.K0
  have hz := C.z
  have hKs : K * σ ^ 2 ≤ φ ^ 2 + v := by nlinarith [mul_pos (lt_of_lt_of_le (by norm_num) hK) qp]
  have hz50 : σ ^ 2 ≤ (φ ^ 2 + v) / 50 := by
    rw [le_div_iff₀ (by norm_num)]
    nlinarith
  have hτ := _root_.sq_nonneg τ
  have ht : τ ^ 2 ≤ 3 / 2 := by nlinarith
  refine ⟨⟨?_, d1, ?_, ?_, ?_, ht, ?_, ?_, ?_, ?_⟩, by rw [Real.exp_log qp]; exact hKs⟩
  · norm_num at *; linarith
  · linarith
  · nlinarith
  · nlinarith
  · linarith
  · linarith
  · rw [Real.exp_log qp]; exact hz50
  · rw [Real.exp_log qp]
    rcases le_or_gt (Δ ^ 2 - φ ^ 2 - v) 0 with hn | hn
    · rw [abs_of_nonpos hn]
      have h1 : τ ^ 2 * -(Δ ^ 2 - φ ^ 2 - v) ≤ 3 / 2 * (φ ^ 2 + v) :=
        mul_le_mul ht (by linarith) (by linarith) (by norm_num)
      have h2 := mul_le_mul h1 hz50 qp.le (by positivity)
      nlinarith
    · rw [abs_of_pos hn]
      have h1 : τ ^ 2 * (Δ ^ 2 - φ ^ 2 - v) * σ ^ 2 ≤ τ ^ 2 * Δ ^ 2 * σ ^ 2 := by
        apply mul_le_mul_of_nonneg_right _ qp.le
        exact mul_le_mul_of_nonneg_left (by linarith) hτ
      have h2 := C.cz
      have h3 := _root_.sq_nonneg (φ ^ 2 + v)
      linarith

theorem volF_spec (σ τ x : ℝ) : volF (Δ ^ 2 - φ ^ 2 - v) (φ ^ 2 + v) (Real.log (σ ^ 2)) (τ ^ 2) x =
    glicko2F Δ φ v σ τ x := rfl

/-- How the function depends on its parameters. -/
theorem volI_perturb {c c' d d' t t' p : ℝ} (hK : 48 ≤ K) (hd : 0 < d') (hp : 0 ≤ p) (hz : K * p ≤ d')
    (t0 : 0 ≤ t') (t1 : t' ≤ 3 / 2) (c0 : |c'| ≤ 1300 * d') (hc : |c - c'| ≤ d' / 2 ^ 24) (ht : |t - t'| ≤ t' / 2 ^ 48)
    (hdd : |d - d'| ≤ d' / 2 ^ 36) :
    |t * (p * (c - p) / (2 * (d + p) ^ 2)) - t' * (p * (c' - p) / (2 * (d' + p) ^ 2))| ≤ 77 / 100 / K / 2 ^ 23 := by
  have hpd : p ≤ d' := by nlinarith
  have hK0 : 0 < K := by linarith
  have hdl := abs_le.1 hdd
  have hS' : 0 < d' + p := by linarith
  have hS : (1 - 1 / 2 ^ 36) * d' ≤ d := by norm_num at *; linarith
  have hS0 : 0 < d + p := by norm_num at hS; linarith
  obtain ⟨ε, hε⟩ : ∃ ε, d + p = (d' + p) * (1 + ε) := ⟨(d - d') / (d' + p), by field_simp; ring⟩
  have hεb : |ε| ≤ 1 / 2 ^ 36 := by
    have : ε = (d - d') / (d' + p) := by
      rw [eq_div_iff hS'.ne']; linarith
    rw [this, abs_div, abs_of_pos hS', div_le_iff₀ hS']
    refine hdd.trans ?_
    norm_num; linarith
  have hε2 : |(1 + ε) ^ 2 - 1| ≤ 3 / 2 ^ 36 := by
    have h := abs_le.1 hεb
    rw [show (1 + ε) ^ 2 - 1 = ε * (2 + ε) by ring, abs_mul]
    have h2 : |2 + ε| ≤ 3 := by rw [abs_le]; constructor <;> norm_num at * <;> linarith
    refine (mul_le_mul hεb h2 (abs_nonneg _) (by norm_num)).trans (by norm_num)
  have key : |t * (c - p) - t' * (c' - p) * (1 + ε) ^ 2| ≤ t' * d' / 2 ^ 23 := by
    have e : t * (c - p) - t' * (c' - p) * (1 + ε) ^ 2 =
      (t - t') * (c - p) + t' * (c - c') - t' * (c' - p) * ((1 + ε) ^ 2 - 1) := by ring
    have hcl := abs_le.1 hc
    have hc'l := abs_le.1 c0
    have b1 : |c - p| ≤ 1302 * d' := by
      rw [abs_le]; constructor <;> norm_num at * <;> linarith
    have b2 : |c' - p| ≤ 1301 * d' := by
      rw [abs_le]; constructor <;> norm_num at * <;> linarith
    rw [e]
    refine (abs_sub _ _).trans ((add_le_add (abs_add_le _ _) le_rfl).trans ?_)
    rw [abs_mul, abs_mul, abs_mul, abs_mul, abs_of_nonneg t0]
    have c1 := mul_le_mul ht b1 (abs_nonneg _) (by positivity)
    have c2 := mul_le_mul_of_nonneg_left hc t0
    have c3 := mul_le_mul (mul_le_mul_of_nonneg_left b2 t0) hε2 (abs_nonneg _) (by positivity)
    refine (add_le_add (add_le_add c1 c2) c3).trans ?_
    have hm : 0 ≤ t' * d' := mul_nonneg t0 hd.le
    rw [show t' / 2 ^ 48 * (1302 * d') + t' * (d' / 2 ^ 24) + t' * (1301 * d') * (3 / 2 ^ 36)
      = (1302 / 2 ^ 48 + 1 / 2 ^ 24 + 1301 * 3 / 2 ^ 36) * (t' * d') by ring,
      show t' * d' / 2 ^ 23 = 1 / 2 ^ 23 * (t' * d') by ring]
    exact mul_le_mul_of_nonneg_right (by norm_num) hm
  have e : t * (p * (c - p) / (2 * (d + p) ^ 2)) - t' * (p * (c' - p) / (2 * (d' + p) ^ 2)) =
      (t * (c - p) - t' * (c' - p) * (1 + ε) ^ 2) * (p / (2 * (d + p) ^ 2)) := by
    have h1 : (1 + ε) ≠ 0 := by
      intro h; rw [h, mul_zero] at hε; linarith
    rw [hε]; field_simp
  rw [e, abs_mul, abs_of_nonneg (by positivity : 0 ≤ p / (2 * (d + p) ^ 2))]
  have f1 : p / (2 * (d + p) ^ 2) ≤ 51 / 100 / K / d' := by
    rw [div_div, div_div, div_le_div_iff₀ (by positivity) (by positivity)]
    have h2 : (1 - 1 / 2 ^ 36) ^ 2 * d' ^ 2 ≤ (d + p) ^ 2 := by
      rw [← mul_pow]; exact pow_le_pow_left₀ (by norm_num; linarith) (by linarith) 2
    have h3 : K * p * d' ≤ d' * d' := mul_le_mul_of_nonneg_right hz hd.le
    have h4 : 0 < d' ^ 2 := by positivity
    norm_num at h2
    have e : p * (100 * (K * d')) = 100 * (K * p * d') := by ring
    nlinarith
  refine (mul_le_mul key f1 (by positivity) (by positivity)).trans ?_
  rw [show t' * d' / 2 ^ 23 * (51 / 100 / K / d') = t' * (51 / 100 / K / 2 ^ 23) by field_simp]
  refine (mul_le_mul_of_nonneg_right t1 (by positivity)).trans ?_
  rw [show (3 : ℝ) / 2 * (51 / 100 / K / 2 ^ 23) = 153 / 200 / K / 2 ^ 23 by ring]
  exact div_le_div_of_nonneg_right (div_le_div_of_nonneg_right (by norm_num) hK0.le) (by positivity)

/-- The zero of the function with the computed parameters is close to the exact one. -/
theorem zero_perturb {c c' d d' a a' t t' r r' : ℝ} (H : VolParams c d a t) (H' : VolParams c' d' a' t')
    (h : volF c d a t r = 0) (hr : |r - a| ≤ 2 / 100) (h' : volF c' d' a' t' r' = 0)
    (hr' : |r' - a'| ≤ 2 / 100) (ht0 : 1 / 100 ≤ t')
    (hc : |c - c'| ≤ d' / 2 ^ 24) (ht : |t - t'| ≤ t' / 2 ^ 48)
    (hd : |d - d'| ≤ d' / 2 ^ 36) (ha : |a - a'| ≤ 1 / 2 ^ 39) (hK : 50 ≤ K) (hKz : K * Real.exp a' ≤ d') :
    |r - r'| ≤ 1 / K / 2 ^ 21 + 1 / 2 ^ 37 := by
  obtain ⟨k, e, k1, -, -⟩ := H.line h hr r'
  have hd' := H'.dpos
  have ht' := H'.tpos
  have hp := Real.exp_pos r'
  have hK0 : 0 < K := by linarith
  have hz : 975 / 1000 * K * Real.exp r' ≤ d' := by
    have h1 : Real.exp r' ≤ Real.exp a' * Real.exp (2 / 100) := by
      rw [← Real.exp_add]; exact Real.exp_le_exp.2 (by linarith [(abs_le.1 hr').2])
    have h2 : Real.exp (2 / 100) ≤ 1 + 2 / 100 + (2 / 100) ^ 2 := by
      have := Real.norm_exp_sub_one_sub_id_le (x := (2 / 100 : ℝ)) (by norm_num)
      rw [Real.norm_eq_abs, Real.norm_eq_abs, sq_abs] at this
      linarith [(abs_le.1 this).2]
    have h4 := mul_le_mul hKz h2 (Real.exp_pos _).le (by positivity)
    have h5 := mul_le_mul_of_nonneg_left h1 hK0.le
    norm_num at h4
    linarith
  have hc' : |c'| ≤ 1300 * d' := by
    rw [abs_le]
    have := H'.c0
    have := H'.c1
    constructor
    · linarith
    · by_contra hn
      have := mul_le_mul_of_nonneg_right ht0 (by linarith : 0 ≤ c')
      linarith
  have hI := volI_perturb (K := 975 / 1000 * K) (by linarith) hd' hp.le hz ht'.le H'.t1 hc' hc ht hd
  have e' : t' * volF c' d' a' t' r' = t' * (Real.exp r' * (c' - Real.exp r') / (2 * (d' + Real.exp r') ^ 2))
      - (r' - a') := by
    rw [volF, volI]; field_simp
  have e2 : t * volF c d a t r' = t * (Real.exp r' * (c - Real.exp r') / (2 * (d + Real.exp r') ^ 2))
      - (r' - a) := by
    have := H.tpos
    rw [volF, volI]; field_simp
  rw [h', mul_zero] at e'
  rw [e2] at e
  have e3 : k * (r - r') = (t * (Real.exp r' * (c - Real.exp r') / (2 * (d + Real.exp r') ^ 2)) -
    t' * (Real.exp r' * (c' - Real.exp r') / (2 * (d' + Real.exp r') ^ 2))) + (a - a') := by linarith
  have e4 : k * |r - r'| ≤ 77 / 100 / (975 / 1000 * K) / 2 ^ 23 + 1 / 2 ^ 39 := by
    have e5 : k * |r - r'| = |k * (r - r')| := by rw [abs_mul, abs_of_pos (by linarith : 0 < k)]
    rw [e5, e3]
    exact (abs_add_le _ _).trans (add_le_add hI ha)
  have := mul_le_mul_of_nonneg_right k1 (abs_nonneg (r - r'))
  have e6 : 77 / 100 / (975 / 1000 * K) / 2 ^ 23 = 770 / 975 / 4 * (1 / K / 2 ^ 21) := by field_simp; norm_num
  have e7 : 0 < 1 / K / 2 ^ 21 := by positivity
  rw [e6] at e4
  generalize 1 / K / 2 ^ 21 = u at *
  generalize |r - r'| = w at *
  norm_num at *
  linarith

/-- From the logarithm to the volatility. -/
theorem exp_half (A : E.Accurate) {s : FP E} {r η : ℝ} (hs : s.isFinite) (h : |s.toR - r| ≤ η)
    (hη : η ≤ 101 / 100) (hr : |r| ≤ 20) :
    Near ((η + 1 / 2 ^ 40) * Real.exp (r / 2)) (Flt.exp (s / (2.0 : FP E))) (Real.exp (r / 2)) := by
  have h2 := near_of_in (lit_in (E := E) (m := 20) (s := true) (e := 1) (v := 2) (by norm_num)
    (SRep.ofNat 2 (by norm_num)))
  have hrl := abs_le.1 hr
  have hl := abs_le.1 h
  have h0 : 0 ≤ η := (abs_nonneg _).trans h
  have hsz : |s.toR| ≤ 22 := by rw [abs_le]; constructor <;> linarith
  have n1 := near_div_const (near_self hs) h2 (by norm_num) (M := 11) (by
    rw [add_zero, div_le_iff₀ (by norm_num)]; linarith) (by norm_num) (le_huge 4 (by norm_num) (by norm_num))
  have hy := n1.2
  rw [zero_div, zero_add] at hy
  have hy' := abs_le.1 hy
  have hsl := abs_le.1 hsz
  have hx := exp_rel A n1.1 (by rw [abs_le]; constructor <;> norm_num at * <;> linarith)
  obtain ⟨fx, δ, hδ, ex⟩ := hx
  refine ⟨fx, ?_⟩
  have e : Real.exp (s / (2.0 : FP E)).toR = Real.exp (r / 2) * Real.exp ((s / (2.0 : FP E)).toR - r / 2) := by
    rw [← Real.exp_add]; congr 1; ring
  have hz : |(s / (2.0 : FP E)).toR - r / 2| ≤ η / 2 + 1 / 2 ^ 46 := by
    rw [abs_le]; constructor <;> norm_num at * <;> linarith
  generalize (s / (2.0 : FP E)).toR - r / 2 = z at e hz
  have hz2 := Real.norm_exp_sub_one_sub_id_le (x := z) (by
    rw [Real.norm_eq_abs]; refine hz.trans ?_; norm_num; linarith)
  rw [Real.norm_eq_abs, Real.norm_eq_abs] at hz2
  have hw : |Real.exp z - 1| ≤ 4 / 5 * η + 1 / 2 ^ 45 := by
    have e1 : Real.exp z - 1 = (Real.exp z - 1 - z) + z := by ring
    rw [e1]
    refine (abs_add_le _ _).trans ?_
    have e2 : |z| ^ 2 ≤ 51 / 100 * |z| := by
      rw [pow_two]
      refine mul_le_mul_of_nonneg_right ?_ (abs_nonneg _)
      refine hz.trans ?_
      norm_num
      linarith
    generalize |z| = u at *
    norm_num at *
    linarith
  rw [ex, e]
  have hp := Real.exp_pos (r / 2)
  generalize Real.exp (r / 2) = X at *
  generalize Real.exp z = w at *
  rw [show X * w * (1 + δ) - X = (w * (1 + δ) - 1) * X by ring, abs_mul, abs_of_pos hp]
  apply mul_le_mul_of_nonneg_right _ hp.le
  rw [show w * (1 + δ) - 1 = (w - 1) + δ + (w - 1) * δ by ring]
  refine (abs_add_le _ _).trans ((add_le_add (abs_add_le _ _) le_rfl).trans ?_)
  rw [abs_mul]
  have := mul_le_mul hw hδ (abs_nonneg _) (by positivity)
  refine (add_le_add (add_le_add hw hδ) this).trans ?_
  norm_num
  linarith

/-- The new volatility in floating point. -/
theorem VolNear.returns (L : E.Lib) (A : E.Accurate) (S : E.Scales) (W : E.LogWide) (N : VolNear Q P V Δ φ v)
    (hσ : Between (1 / 10000) (1 / 8) vol) (hτ : Between (1 / 10) (6 / 5) tau)
    (C : Calm K Δ φ v vol.toR tau.toR) (hf : Between (1 / 2 ^ 21) 1 tol) :
    ∃ (r : ℝ) (σ' : FP E), glicko2F Δ φ v vol.toR tau.toR r = 0 ∧ |r - Real.log (vol.toR ^ 2)| ≤ 2 / 100 ∧
      newVolatility vol Q P V tau tol = some σ' ∧
      Near ((tol.toR + 1 / 2 ^ 31 + 1 / K / 2 ^ 21 + 1 / K ^ 2) * Real.exp (r / 2)) σ' (Real.exp (r / 2)) ∧
      ((φ ^ 2 + v) / 2 ^ 24 < |Δ ^ 2 - φ ^ 2 - v| →
        Near ((tol.toR + 1 / 2 ^ 31 + 1 / K / 2 ^ 21) * Real.exp (r / 2)) σ' (Real.exp (r / 2))) := by
  obtain ⟨I, hKd⟩ := N.input L W hσ hτ C
  have H : VolStart Q P V tau := ⟨N.Qf, N.Pf, N.Vr.1, N.Q0, N.P0, N.V1, hτ.1, le_trans (by norm_num) hτ.2.1,
    hτ.2.2.trans (by norm_num)⟩
  have v0 : 1 / 2 ^ 11 ≤ v := by
    obtain ⟨-, δ, hδ, e⟩ := N.Vr
    have h1 := N.V1
    rw [e] at h1
    have := (abs_le.1 hδ).2
    have hv := N.v0
    norm_num at *
    nlinarith
  obtain ⟨I', hKd'⟩ := exact_params (Δ := Δ) (K := K) v0 (N.d1.trans (by norm_num)) hσ.2.1 hσ.2.2 hτ.2.1 hτ.2.2 C
  obtain ⟨r, h0, hr⟩ := I.toVolParams.exists_zero
  obtain ⟨r', h0', hr'⟩ := I'.exists_zero
  obtain ⟨s, e, fs, hs⟩ := newVolatility_fp L A S W H I h0 hr N.wf hf.1 hf.2.1 hf.2.2
  have rσ := sq_rel L hσ.1 (le_trans (by norm_num) hσ.2.1) (hσ.2.2.trans (by norm_num))
  have rτ := sq_rel L hτ.1 (le_trans (by norm_num) hτ.2.1) (hτ.2.2.trans (by norm_num))
  have hσ0 : 0 < vol.toR := lt_of_lt_of_le (by norm_num) hσ.2.1
  have hτ0 : 0 < tau.toR := lt_of_lt_of_le (by norm_num) hτ.2.1
  have hc := N.c.2
  have hrr : |r - r'| ≤ 1 / K / 2 ^ 21 + 1 / 2 ^ 37 := by
    refine zero_perturb I.toVolParams I' h0 hr h0' hr' ?_ hc ?_ ?_ (log_vol W rσ hσ.2.1 hσ.2.2).2.1 C.K0 hKd'
    · nlinarith [hτ.2.1]
    · refine (rτ.near (by positivity)).2.trans ?_
      have : 0 < tau.toR ^ 2 := by positivity
      generalize tau.toR ^ 2 = w at *
      norm_num
      linarith
    · refine N.d_near.trans ?_
      have := N.dpos
      generalize φ ^ 2 + v = w at *
      norm_num
      linarith
  have hr20 : |r'| ≤ 20 := by
    obtain ⟨lo, hi⟩ := log_sq_range hσ.2.1 hσ.2.2
    have := abs_le.1 hr'
    rw [abs_le]; constructor <;> linarith
  have tri : ∀ {η : ℝ}, |s.toR - r| ≤ η → |s.toR - r'| ≤ η + (1 / K / 2 ^ 21 + 1 / 2 ^ 37) := fun h => by
    have : s.toR - r' = (s.toR - r) + (r - r') := by ring
    rw [this]
    exact (abs_add_le _ _).trans (add_le_add h hrr)
  have t1 := hf.2.2
  have t0 := hf.2.1
  have hE := Real.exp_pos (r' / 2)
  have hK0 : 0 < K := lt_of_lt_of_le (by norm_num) C.K0
  have k1 : 1 / K ≤ 1 / 50 := one_div_le_one_div_of_le (by norm_num) C.K0
  have k2 : 0 < 1 / K := by positivity
  have k3 : 1 / K / 2 ^ 21 ≤ 1 / 50 / 2 ^ 21 := by gcongr
  have k4 : 0 < 1 / K / 2 ^ 21 := by positivity
  have k5 : 1 / K ^ 2 ≤ 1 / 2500 := one_div_le_one_div_of_le (by norm_num) (by nlinarith [C.K0])
  have k6 : 0 < 1 / K ^ 2 := by positivity
  have k7 : (Real.exp (Flt.ln (Flt.powi vol 2)).toR / (P + V).toR) ^ 2 ≤ 1 / K ^ 2 := by
    rw [← one_div_pow]
    have hd := I.dpos
    refine pow_le_pow_left₀ (by positivity) ?_ 2
    rw [div_le_div_iff₀ hd hK0]
    linarith
  generalize 1 / K / 2 ^ 21 = u at *
  generalize 1 / K ^ 2 = w at *
  refine ⟨r', _, h0', hr', e, ?_, fun hn => ?_⟩
  · rcases hs with hs | ⟨-, -, hs⟩
    · refine (exp_half A fs (tri hs) (by norm_num at *; linarith) hr20).mono ?_
      exact mul_le_mul_of_nonneg_right (by norm_num; linarith) hE.le
    · refine (exp_half A fs (tri hs) (by norm_num at *; linarith) hr20).mono ?_
      exact mul_le_mul_of_nonneg_right (by norm_num at *; linarith) hE.le
  · rcases hs with hs | ⟨h1, -, -⟩
    · refine (exp_half A fs (tri hs) (by norm_num at *; linarith) hr20).mono ?_
      exact mul_le_mul_of_nonneg_right (by norm_num; linarith) hE.le
    · exfalso
      rw [h1, zero_sub, abs_neg] at hc
      exact absurd hc (not_le.2 hn)

end Glicko2
end Skillratings
