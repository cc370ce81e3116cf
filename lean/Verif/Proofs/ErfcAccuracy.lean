import Mathlib.Analysis.Calculus.MeanValue
import Verif.Proofs.Gaussian
import Verif.Proofs.PolyBound
import Verif.Proofs.TrueSkillW
/-
How far the fitted complementary error function is from the true one.

With `t = 1/(1 + z/2)` the derivative of the fit is `-(2/√π) exp(-z²) exp(G t)`, where
`G t = P t + log (Q t) + log (√π/2)` for two polynomials, and `|G|` is tiny on `[0, 1]`.
-/
namespace Skillratings.TrueSkill
open Real Spec Poly Filter
open scoped Topology

/-- The exponent of the fit. -/
def tP : Coeffs := [-1.26551223, 1.00002368, 0.37409196, 0.09678418, -0.18628806, 0.27886807,
  -1.13520398, 1.48851587, -0.82215223, 0.17087277]

/-- `4 (1 - t) + t²/2 + t³ P'/2`. -/
def tQ : Coeffs := add [4, -4, 1 / 2] (mul [0, 0, 0, 1 / 2] (der tP))

/-- `P' Q + Q'`. -/
def tN : Coeffs := add (mul (der tP) tQ) (der tQ)

/-- A polynomial close to `G - G 0`. -/
def tS : Coeffs := [0, 2368012 / 10 ^ 11, -90807511 / 10 ^ 11, 1345606141 / 10 ^ 11,
  -10063926334 / 10 ^ 11, 42848081248 / 10 ^ 11, -109938649432 / 10 ^ 11, 175097444891 / 10 ^ 11,
  -187673294335 / 10 ^ 11, 204103843602 / 10 ^ 11, -361752224466 / 10 ^ 11, 676655159181 / 10 ^ 11,
  -980118871204 / 10 ^ 11, 1038232727973 / 10 ^ 11, -761060016291 / 10 ^ 11, 354953150018 / 10 ^ 11,
  -93052033829 / 10 ^ 11, 10512085907 / 10 ^ 11]

theorem table_Q : checkAbs (add tQ [-2.6]) 1.5 (1 / 16) 8 0 = true := by decide +kernel

theorem table_N : checkAbs (add tN (scale (-1) (mul (der tS) tQ))) 7e-9 (1 / 32) 16 0 = true := by
  decide +kernel

theorem table_A : checkAbs (add tS [-1.065e-7]) 5.79e-7 0.002325 200 0 = true := by
  decide +kernel

theorem table_B : checkAbs (add tS [-1.065e-7]) 1.36e-6 0.0025 10 0.93 = true := by
  decide +kernel

theorem table_C : checkAbs (add tS [-1.065e-7]) 2.16e-6 0.005 1 0.98 = true := by
  decide +kernel

theorem table_D : checkAbs (add tS [-1.065e-7]) 6.33e-6 0.005 1 0.99 = true := by
  decide +kernel

/-! ### The logarithm of the ratio of the derivatives -/

theorem ev_tP (t : ℝ) : ev t tP = fitQ t := by
  simp only [tP, ev, fitQ]; push_cast; ring

theorem ev_der_tP (t : ℝ) : ev t (der tP) = fitQ' t :=
  (hasDerivAt_ev tP t).unique (by
    have := hasDerivAt_fitQ t
    rwa [show fitQ = fun y => ev y tP from funext fun y => (ev_tP y).symm] at this)

theorem ev_tQ (t : ℝ) : ev t tQ = 4 * (1 - t) + t ^ 2 / 2 + t ^ 3 * fitQ' t / 2 := by
  simp only [tQ, ev_add, ev_mul, ev_der_tP]
  simp only [ev]; push_cast; ring

theorem ev_tQ_ge {t : ℝ} (h0 : 0 ≤ t) (h1 : t ≤ 1) : 1.1 ≤ ev t tQ := by
  have h := checkAbs_sound 8 0 table_Q (x := t) (by simpa using h0) (by norm_num; exact h1)
    (by norm_num)
  simp only [ev_add, ev] at h
  have := (abs_le.1 h).1
  norm_num at this ⊢
  linarith

/-- The logarithm of the derivative of the fit over that of the true function. -/
noncomputable def G (t : ℝ) : ℝ := ev t tP + log (ev t tQ) + log (√π / 2)

theorem hasDerivAt_G {t : ℝ} (h0 : 0 ≤ t) (h1 : t ≤ 1) :
    HasDerivAt G (ev t tN / ev t tQ) t := by
  have hq := ev_tQ_ge h0 h1
  have hq0 : ev t tQ ≠ 0 := by
    have : (0 : ℝ) < ev t tQ := lt_of_lt_of_le (by norm_num) hq
    exact this.ne'
  have h := ((hasDerivAt_ev tP t).add ((hasDerivAt_ev tQ t).log hq0)).add_const (log (√π / 2))
  refine h.congr_deriv ?_
  simp only [tN, ev_add, ev_mul]
  field_simp

theorem G_near {t : ℝ} (h0 : 0 ≤ t) (h1 : t ≤ 1) : |G t - G 0 - ev t tS| ≤ 7e-9 := by
  have hd : ∀ x ∈ Set.Icc (0 : ℝ) 1, HasDerivWithinAt (fun x => G x - ev x tS)
      (ev x tN / ev x tQ - ev x (der tS)) (Set.Icc 0 1) x := fun x hx =>
    ((hasDerivAt_G hx.1 hx.2).sub (hasDerivAt_ev tS x)).hasDerivWithinAt
  have hb : ∀ x ∈ Set.Icc (0 : ℝ) 1, ‖ev x tN / ev x tQ - ev x (der tS)‖ ≤ 7e-9 := by
    intro x hx
    have hq := ev_tQ_ge hx.1 hx.2
    have hq0 : (0 : ℝ) < ev x tQ := lt_of_lt_of_le (by norm_num) hq
    have h := checkAbs_sound 16 0 table_N (x := x) (by simpa using hx.1) (by norm_num; exact hx.2)
      (by norm_num)
    simp only [ev_add, ev_scale, ev_mul] at h
    have e : ev x tN / ev x tQ - ev x (der tS)
        = (ev x tN + ((-1 : ℚ) : ℝ) * (ev x (der tS) * ev x tQ)) / ev x tQ := by
      push_cast; field_simp; ring
    rw [Real.norm_eq_abs, e, abs_div, abs_of_pos hq0, div_le_iff₀ hq0]
    refine h.trans ?_
    norm_num at hq ⊢
    linarith
  have h := (convex_Icc (0 : ℝ) 1).norm_image_sub_le_of_norm_hasDerivWithin_le hd hb
    (Set.left_mem_Icc.2 zero_le_one) (⟨h0, h1⟩ : t ∈ Set.Icc (0 : ℝ) 1)
  have e0 : ev 0 tS = 0 := by simp [tS, ev]
  rw [Real.norm_eq_abs, Real.norm_eq_abs, e0, sub_zero, sub_zero, abs_of_nonneg h0] at h
  have e : G t - ev t tS - G 0 = G t - G 0 - ev t tS := by ring
  rw [e] at h
  norm_num at h ⊢
  linarith

theorem exp_le_four_pi : exp 2.531024246 ≤ 4 * π := by
  have h := Real.exp_bound' (x := (0.6327560615 : ℝ)) (by norm_num) (by norm_num) (n := 14)
    (by norm_num)
  have e : exp (2.531024246 : ℝ) = exp 0.6327560615 ^ 4 := by
    rw [← Real.exp_nat_mul]; congr 1; norm_num
  rw [e]
  have hpi := Real.pi_gt_d20
  refine (pow_le_pow_left₀ (Real.exp_pos _).le h 4).trans ?_
  simp only [Finset.sum_range_succ, Finset.sum_range_zero, Nat.factorial]
  norm_num at hpi ⊢
  linarith

theorem four_pi_le_exp : 4 * π ≤ exp 2.531024248 := by
  have h := Real.sum_le_exp_of_nonneg (x := 2.531024248) (by norm_num) 24
  refine le_trans ?_ h
  have hpi := Real.pi_lt_d20
  simp only [Finset.sum_range_succ, Finset.sum_range_zero, Nat.factorial]
  norm_num at hpi ⊢
  linarith

theorem G_zero : |G 0 + 1.065e-7| ≤ 2e-9 := by
  have e0 : ev 0 tP = -1.26551223 := by rw [ev_tP]; simp [fitQ]
  have e1 : ev 0 tQ = 4 := by rw [ev_tQ]; norm_num
  have hs : 0 < √π := Real.sqrt_pos.2 Real.pi_pos
  have hG : G 0 = -1.26551223 + log (4 * π) / 2 := by
    rw [G, e0, e1, add_assoc, ← Real.log_mul (by norm_num) (by positivity)]
    have : (4 : ℝ) * (√π / 2) = √(4 * π) := by
      rw [Real.sqrt_mul (by norm_num), show (4 : ℝ) = 2 ^ 2 by norm_num,
        Real.sqrt_sq (by norm_num)]
      ring
    rw [this, Real.log_sqrt (by positivity)]
  have h1 : 2.531024246 ≤ log (4 * π) :=
    (Real.le_log_iff_exp_le (by positivity)).2 exp_le_four_pi
  have h2 : log (4 * π) ≤ 2.531024248 := (Real.log_le_iff_le_exp (by positivity)).2 four_pi_le_exp
  rw [hG, abs_le]
  norm_num at h1 h2 ⊢
  constructor <;> linarith

theorem G_of_table {B h a : ℚ} {n : ℕ} (hn : n ≠ 0)
    (hc : checkAbs (add tS [-1.065e-7]) B h n a = true) {t : ℝ} (h0 : 0 ≤ t) (h1 : t ≤ 1)
    (ha : (a : ℝ) ≤ t) (hb : t ≤ a + n * (2 * h)) : |G t| ≤ B + 1e-8 := by
  have k1 := checkAbs_sound n a hc ha hb hn
  have k2 := G_near h0 h1
  have k3 := G_zero
  simp only [ev_add, ev] at k1
  rw [abs_le] at k1 k2 k3 ⊢
  push_cast at k1
  norm_num at k1 k2 k3 ⊢
  constructor <;> linarith

theorem G_A {t : ℝ} (h0 : 0 ≤ t) (h1 : t ≤ 0.93) : |G t| ≤ 5.9e-7 := by
  have := G_of_table (by norm_num) table_A h0 (h1.trans (by norm_num)) (by simpa using h0)
    (by norm_num at h1 ⊢; linarith)
  norm_num at this ⊢; linarith

theorem G_B {t : ℝ} (h0 : 0.93 ≤ t) (h1 : t ≤ 0.98) : |G t| ≤ 1.38e-6 := by
  have := G_of_table (by norm_num) table_B (le_trans (by norm_num) h0) (h1.trans (by norm_num))
    (by norm_num at h0 ⊢; linarith) (by norm_num at h1 ⊢; linarith)
  norm_num at this ⊢; linarith

theorem G_C {t : ℝ} (h0 : 0.98 ≤ t) (h1 : t ≤ 0.99) : |G t| ≤ 2.18e-6 := by
  have := G_of_table (by norm_num) table_C (le_trans (by norm_num) h0) (h1.trans (by norm_num))
    (by norm_num at h0 ⊢; linarith) (by norm_num at h1 ⊢; linarith)
  norm_num at this ⊢; linarith

theorem G_D {t : ℝ} (h0 : 0.99 ≤ t) (h1 : t ≤ 1) : |G t| ≤ 6.35e-6 := by
  have := G_of_table (by norm_num) table_D (le_trans (by norm_num) h0) h1
    (by norm_num at h0 ⊢; linarith) (by norm_num at h1 ⊢; linarith)
  norm_num at this ⊢; linarith

/-! ### The derivative of the fit -/

theorem hasDerivAt_fit {z : ℝ} (hz : 0 ≤ z) :
    HasDerivAt fit (-(2 / √π * exp (-z ^ 2)) * exp (G (1 + z / 2)⁻¹)) z := by
  have hz1 : 1 + z / 2 ≠ 0 := by positivity
  have ht : HasDerivAt (fun z : ℝ => (1 + z / 2)⁻¹) (-(1 / 2) / (1 + z / 2) ^ 2) z := by
    have h := ((((hasDerivAt_id z).div_const 2).const_add 1)).inv hz1
    exact h.congr_deriv (by simp)
  have hz2 : HasDerivAt (fun z : ℝ => z ^ 2) (2 * z) z := by
    simpa using hasDerivAt_pow 2 z
  have he := (((hasDerivAt_fitQ _).comp z ht).sub hz2).exp
  have h := ht.mul he
  refine h.congr_deriv ?_
  have h0 : 0 < (1 + z / 2)⁻¹ := by positivity
  have h1 : (1 + z / 2)⁻¹ ≤ 1 := inv_le_one_of_one_le₀ (by linarith)
  have hs : 0 < √π := Real.sqrt_pos.2 Real.pi_pos
  have hq0 : (0 : ℝ) < ev (1 + z / 2)⁻¹ tQ := lt_of_lt_of_le (by norm_num) (ev_tQ_ge h0.le h1)
  rw [G, Real.exp_add, Real.exp_add, Real.exp_log hq0, Real.exp_log (by positivity), ev_tP, ev_tQ]
  simp only [Function.comp, Pi.sub_apply]
  set t := (1 + z / 2)⁻¹ with htd
  have e1 : z = 2 * (1 - t) / t := by rw [htd]; field_simp; ring
  have e2 : -(1 / 2) / (1 + z / 2) ^ 2 = -(t ^ 2 / 2) := by rw [htd]; field_simp
  rw [e2, sub_eq_add_neg, Real.exp_add]
  have e3 : z * t = 2 * (1 - t) := by rw [e1]; field_simp
  field_simp
  clear_value t
  linear_combination (-4) * e3

end Skillratings.TrueSkill
