import Verif.Proofs.DrawTail
import Verif.Proofs.DrawV
import Mathlib.Analysis.SpecialFunctions.Trigonometric.DerivHyp
/-
What a draw says about the difference of the performances: a normal message whose mean is within
the draw margin (C97).
-/
namespace Skillratings
namespace TrueSkill
open Real Spec

/-! ### The exact window -/

/-- `φ(t) exp(-x²/2)`. -/
noncomputable def bell (t x : ℝ) : ℝ := normalPdf t * exp (-x ^ 2 / 2)

theorem bell_pos (t x : ℝ) : 0 < bell t x := mul_pos (pdf_pos' t) (exp_pos _)

theorem pdf_sub (t x : ℝ) : normalPdf (t - x) = bell t x * exp (x * t) := by
  rw [bell, normalPdf, normalPdf, div_mul_eq_mul_div, div_mul_eq_mul_div, ← exp_add, ← exp_add]
  congr 2; ring

theorem pdf_add (t x : ℝ) : normalPdf (t + x) = bell t x * exp (-(x * t)) := by
  rw [bell, normalPdf, normalPdf, div_mul_eq_mul_div, div_mul_eq_mul_div, ← exp_add, ← exp_add]
  congr 2; ring

theorem pdf_gap (t x : ℝ) : normalPdf (t - x) - normalPdf (t + x) = 2 * bell t x * sinh (x * t) := by
  rw [pdf_sub, pdf_add, sinh_eq]; ring

theorem pdf_both (t x : ℝ) : normalPdf (t - x) + normalPdf (t + x) = 2 * bell t x * cosh (x * t) := by
  rw [pdf_sub, pdf_add, cosh_eq]; ring

/-- The mass of the window. -/
noncomputable def mass (t x : ℝ) : ℝ := Phi (t + x) - Phi (t - x)

theorem hasDerivAt_mass (t x : ℝ) : HasDerivAt (mass t) (2 * bell t x * cosh (x * t)) x := by
  have h1 : HasDerivAt (fun y => Phi (t + y)) (normalPdf (t + x) * 1) x :=
    (hasDerivAt_Phi (t + x)).comp x ((hasDerivAt_id x).const_add t)
  have h2 : HasDerivAt (fun y => Phi (t - y)) (normalPdf (t - x) * -1) x :=
    (hasDerivAt_Phi (t - x)).comp x ((hasDerivAt_id x).const_sub t)
  refine (h1.sub h2).congr_deriv ?_
  rw [← pdf_both]; ring

theorem hasDerivAt_bell (t x : ℝ) : HasDerivAt (bell t) (-(x * bell t x)) x := by
  have h1 : HasDerivAt (fun y : ℝ => -y ^ 2 / 2) (-x) x :=
    (((hasDerivAt_pow 2 x).neg).div_const 2).congr_deriv (by norm_num; ring)
  exact (h1.exp.const_mul (normalPdf t)).congr_deriv (by rw [bell]; ring)

theorem hasDerivAt_sinh_mul (t x : ℝ) : HasDerivAt (fun y => sinh (y * t)) (cosh (x * t) * t) x :=
  (HasDerivAt.sinh (show HasDerivAt (fun y => y * t) (1 * t) x from
    (hasDerivAt_id x).mul_const t)).congr_deriv (by rw [one_mul])

theorem hasDerivAt_cosh_mul (t x : ℝ) : HasDerivAt (fun y => cosh (y * t)) (sinh (x * t) * t) x :=
  (HasDerivAt.cosh (show HasDerivAt (fun y => y * t) (1 * t) x from
    (hasDerivAt_id x).mul_const t)).congr_deriv (by rw [one_mul])

theorem sinh_nonneg' {x : ℝ} (h : 0 ≤ x) : 0 ≤ sinh x := sinh_nonneg_iff.2 h

/-- The mean of the window is not negative. -/
theorem gap_le_mass {t e : ℝ} (ht : 0 < t) (he : 0 ≤ e) : 2 * bell t e * sinh (e * t) ≤ t * mass t e := by
  have k := le_of_deriv (f := fun x => t * mass t x - 2 * bell t x * sinh (x * t))
    (f' := fun x => t * (2 * bell t x * cosh (x * t))
      - (2 * -(x * bell t x) * sinh (x * t) + 2 * bell t x * (cosh (x * t) * t))) he
    (fun x _ => ((hasDerivAt_mass t x).const_mul t).sub
      (((hasDerivAt_bell t x).const_mul 2).mul (hasDerivAt_sinh_mul t x)))
    (fun x hx => by
      have h1 := bell_pos t x
      have h2 := sinh_nonneg' (x := x * t) (mul_nonneg hx.1 ht.le)
      have h3 : 0 ≤ x * bell t x * sinh (x * t) := mul_nonneg (mul_nonneg hx.1 h1.le) h2
      linarith)
  have e0 : mass t 0 = 0 := by simp [mass]
  simp only [e0, zero_mul, sinh_zero, mul_zero, sub_zero] at k
  linarith

/-- The mean of the uniform distribution on `[-x, x]` tilted by `exp (t y)`. -/
noncomputable def tilt (t x : ℝ) : ℝ := x * (cosh (x * t) / sinh (x * t)) - 1 / t

theorem sinh_le_mul_cosh {x : ℝ} (h : 0 ≤ x) : sinh x ≤ x * cosh x := by
  have k := le_of_deriv (f := fun y => y * cosh y - sinh y) (f' := fun y => 1 * cosh y + y * sinh y - cosh y) h
    (fun y _ => ((hasDerivAt_id y).mul (hasDerivAt_cosh y)).sub (hasDerivAt_sinh y))
    (fun y hy => by have := mul_nonneg hy.1 (sinh_nonneg' hy.1); linarith)
  simp only [zero_mul, sinh_zero, sub_zero] at k
  linarith

theorem le_sinh_mul_cosh {x : ℝ} (h : 0 ≤ x) : x ≤ sinh x * cosh x := by
  have h1 : x ≤ sinh x := self_le_sinh_iff.2 h
  have h2 := one_le_cosh x
  nlinarith [sinh_nonneg' h]

theorem tilt_nonneg {t x : ℝ} (ht : 0 < t) (hx : 0 < x) : 0 ≤ tilt t x := by
  have h := sinh_le_mul_cosh (mul_pos hx ht).le
  have hs : 0 < sinh (x * t) := sinh_pos_iff.2 (mul_pos hx ht)
  rw [tilt, sub_nonneg, div_le_iff₀ ht, mul_assoc, div_mul_eq_mul_div, mul_div_assoc', le_div_iff₀ hs]
  linarith

theorem hasDerivAt_tilt {t x : ℝ} (ht : 0 < t) (hx : 0 < x) :
    HasDerivAt (tilt t) ((sinh (x * t) * cosh (x * t) - x * t) / sinh (x * t) ^ 2) x := by
  have hs : 0 < sinh (x * t) := sinh_pos_iff.2 (mul_pos hx ht)
  refine (((hasDerivAt_id x).mul ((hasDerivAt_cosh_mul t x).div (hasDerivAt_sinh_mul t x) hs.ne')).sub_const
    (1 / t)).congr_deriv ?_
  have h2 := cosh_sq (x * t)
  change 1 * (cosh (x * t) / sinh (x * t)) + x * ((sinh (x * t) * t * sinh (x * t)
    - cosh (x * t) * (cosh (x * t) * t)) / sinh (x * t) ^ 2) = _
  generalize sinh (x * t) = a at *
  generalize cosh (x * t) = b at *
  field_simp
  linear_combination (-x * t) * h2

/-- **The window pulls at least as much as its tilted uniform distribution.** -/
theorem tilt_le {t e : ℝ} (ht : 0 < t) (he : 0 < e) :
    (t - tilt t e) * mass t e ≤ 2 * bell t e * sinh (e * t) := by
  have key : ∀ d, 0 < d → d ≤ e →
      (t - tilt t e) * mass t e - 2 * bell t e * sinh (e * t) ≤ t * mass t d := by
    intro d hd hde
    have k := le_of_deriv (f := fun x => 2 * bell t x * sinh (x * t) - (t - tilt t x) * mass t x)
      (f' := fun x => 2 * -(x * bell t x) * sinh (x * t) + 2 * bell t x * (cosh (x * t) * t)
        - (-((sinh (x * t) * cosh (x * t) - x * t) / sinh (x * t) ^ 2) * mass t x
          + (t - tilt t x) * (2 * bell t x * cosh (x * t)))) hde
      (fun x hx => (((hasDerivAt_bell t x).const_mul 2).mul (hasDerivAt_sinh_mul t x)).sub
        (((hasDerivAt_tilt ht (lt_of_lt_of_le hd hx.1)).const_sub t).mul (hasDerivAt_mass t x)))
      (fun x hx => by
        have hx0 : 0 < x := lt_of_lt_of_le hd hx.1
        have hs : 0 < sinh (x * t) := sinh_pos_iff.2 (mul_pos hx0 ht)
        have h1 := gap_le_mass ht hx0.le
        have h2 : 0 ≤ (sinh (x * t) * cosh (x * t) - x * t) / sinh (x * t) ^ 2 :=
          div_nonneg (sub_nonneg.2 (le_sinh_mul_cosh (mul_pos hx0 ht).le)) (by positivity)
        have h3 : 2 * bell t x * sinh (x * t) / t ≤ mass t x := by
          rw [div_le_iff₀ ht]; linarith
        have h4 := mul_nonneg h2 (sub_nonneg.2 h3)
        refine le_trans h4 (le_of_eq ?_)
        have hc := cosh_sq (x * t)
        rw [tilt]
        field_simp
        linear_combination (-2 * bell t x * x * t * sinh (x * t)) * hc)
    have h5 := tilt_nonneg ht hd
    have h6 := bell_pos t d
    have h7 : 0 < sinh (d * t) := sinh_pos_iff.2 (mul_pos hd ht)
    have h8 : 0 ≤ mass t d := by
      rw [mass, sub_nonneg]; exact Phi_strictMono.monotone (by linarith)
    have h9 := mul_nonneg h5 h8
    have h10 : 0 ≤ 2 * bell t d * sinh (d * t) := by positivity
    linarith
  by_contra hc
  push Not at hc
  obtain ⟨g, hg⟩ : ∃ g, g = (t - tilt t e) * mass t e - 2 * bell t e * sinh (e * t) := ⟨_, rfl⟩
  have hg0 : 0 < g := by rw [hg]; linarith
  rw [← hg] at key
  have hcont : Filter.Tendsto (fun d => t * mass t d) (nhdsWithin 0 (Set.Ioi 0)) (nhds (t * mass t 0)) :=
    (((hasDerivAt_mass t 0).continuousAt.const_mul t).tendsto).mono_left nhdsWithin_le_nhds
  have e0 : mass t 0 = 0 := by simp [mass]
  rw [e0, mul_zero] at hcont
  have := ge_of_tendsto hcont (b := g) (by
    filter_upwards [Ioc_mem_nhdsGT he] with d hd
    exact key d hd.1 hd.2)
  linarith

/-! ### The computed window -/

/-- The mean of the message of a draw, by the mass as it is computed. -/
theorem message_core {T e N η : ℝ} (hT : 0 < T) (hT2 : T ≤ 26) (he : 0.01 * (1 + T) ≤ e) (hN : 0 < N)
    (hη : η ≤ 1.03e-5) (hη0 : 0 ≤ η) (hN2 : N ≤ (1 + η) * mass T e)
    (hW0 : 0 < ((normalPdf (T - e) - normalPdf (T + e)) / N) ^ 2
      + ((T + e) * normalPdf (T + e) - (T - e) * normalPdf (T - e)) / N)
    (hW1 : ((normalPdf (T - e) - normalPdf (T + e)) / N) ^ 2
      + ((T + e) * normalPdf (T + e) - (T - e) * normalPdf (T - e)) / N < 1) :
    |T - (normalPdf (T - e) - normalPdf (T + e)) / N /
      (((normalPdf (T - e) - normalPdf (T + e)) / N) ^ 2
      + ((T + e) * normalPdf (T + e) - (T - e) * normalPdf (T - e)) / N)| ≤ 1.002 * e := by
  norm_num at he
  have he0 : 0 < e := by linarith
  have hs : 0 < sinh (e * T) := sinh_pos_iff.2 (mul_pos he0 hT)
  have hb := bell_pos T e
  have hm : 0 < mass T e := by rw [mass, sub_pos]; exact Phi_strictMono (by linarith)
  have ht := tilt_le hT he0
  have hn2 : (T + e) * normalPdf (T + e) - (T - e) * normalPdf (T - e)
      = (normalPdf (T - e) - normalPdf (T + e)) * (tilt T e + 1 / T - T) := by
    have e1 : (T + e) * normalPdf (T + e) - (T - e) * normalPdf (T - e)
      = e * (normalPdf (T - e) + normalPdf (T + e)) - T * (normalPdf (T - e) - normalPdf (T + e)) := by ring
    rw [e1, pdf_both, pdf_gap, tilt]
    field_simp
    ring
  have hmean := trunc_mean_ge (a := T - e) (b := T + e) (by linarith)
  rw [hn2] at hW0 hW1 ⊢
  rw [pdf_gap] at hW0 hW1 hmean ⊢
  change (T - e) * mass T e ≤ _ at hmean
  have hn1 : 0 < 2 * bell T e * sinh (e * T) := by positivity
  generalize 2 * bell T e * sinh (e * T) = n at *
  generalize mass T e = Z at *
  generalize hK : tilt T e = K at *
  have hK0 : 0 ≤ K := by rw [← hK]; exact tilt_nonneg hT he0
  have hv : 0 < n / N := div_pos hn1 hN
  have hvl : ∀ x, x * Z ≤ n → 0 ≤ x → x * (1 - η) ≤ n / N := by
    intro x hx hx0
    rw [le_div_iff₀ hN]
    have h1 : x * (1 - η) * N ≤ x * (1 - η) * ((1 + η) * Z) :=
      mul_le_mul_of_nonneg_left hN2 (mul_nonneg hx0 (by norm_num at hη; linarith))
    have h2 : x * (1 - η) * ((1 + η) * Z) = x * Z - η ^ 2 * (x * Z) := by ring
    have h3 : 0 ≤ η ^ 2 * (x * Z) := by positivity
    linarith
  have hWe : (n / N) ^ 2 + n * (K + 1 / T - T) / N = n / N * (n / N + (K + 1 / T - T)) := by ring
  rw [hWe] at hW0 hW1 ⊢
  generalize n / N = v at *
  have hB : 0 < v + (K + 1 / T - T) := (pos_iff_pos_of_mul_pos hW0).1 hv
  have e3 : v / (v * (v + (K + 1 / T - T))) = 1 / (v + (K + 1 / T - T)) := by field_simp
  rw [e3, abs_le]
  have hinv : 0 < 1 / T := by positivity
  constructor
  · have h1 : 1 / (v + (K + 1 / T - T)) ≤ T + e := by
      rw [div_le_iff₀ hB]
      have h2 : 1 / T - η * T ≤ v + (K + 1 / T - T) := by
        rcases le_total T K with h | h
        · have : 0 ≤ η * T := by positivity
          linarith
        · have h3 := hvl (T - K) (by linarith) (by linarith)
          have h4 : 0 ≤ η * K := by positivity
          nlinarith
      have h5 : 1 ≤ (T + e) * (1 / T - η * T) := by
        have h6 : (T + e) * (1 / T - η * T) = 1 + (e - η * T ^ 2 * (T + e)) / T := by
          field_simp; ring
        rw [h6]
        have h7 : η * T ^ 2 ≤ 1.03e-5 * 26 ^ 2 := by gcongr
        have h8 : η * T ^ 2 * (T + e) ≤ 1.03e-5 * 26 ^ 2 * (T + e) := by
          gcongr
        have h9 : 0 ≤ e - η * T ^ 2 * (T + e) := by norm_num at h8 ⊢; linarith
        have := div_nonneg h9 hT.le
        linarith
      exact h5.trans (mul_le_mul_of_nonneg_left h2 (by linarith))
    generalize 1 / (v + (K + 1 / T - T)) = y at *
    norm_num; linarith
  · have h0 : 0 < 1 / (v + (K + 1 / T - T)) := by positivity
    rcases le_total T e with h | h
    · generalize 1 / (v + (K + 1 / T - T)) = y at *
      norm_num; linarith
    · have h1 := hvl (T - e) (by linarith) (by linarith)
      have h2 : v ≤ 1 / (v + (K + 1 / T - T)) := by
        rw [le_div_iff₀ hB]; exact hW1.le
      have h3 : η * (T - e) ≤ 1.03e-5 * (T - e) := by
        have : 0 ≤ T - e := by linarith
        gcongr
      generalize 1 / (v + (K + 1 / T - T)) = y at *
      norm_num at h3 ⊢; linarith

/-- The computed mass of a window around zero. -/
theorem mass_middle {T e : ℝ} (h0 : 0 ≤ T) (he : 0.01 ≤ e) (hT : T < e) :
    1 - halfFit (e - T) - halfFit (T + e) ≤ (1 + 1.03e-5) * mass T e ∧
      0.0079 ≤ 1 - halfFit (e - T) - halfFit (T + e) := by
  have hw := window_ge (a := T - e) (b := T + e) (by linarith) (by linarith)
    (by norm_num at he ⊢; linarith)
  have h1 := halfFit_all le_rfl (show 0 ≤ e - T by linarith)
  have h2 := halfFit_all le_rfl (show 0 ≤ T + e by linarith)
  have h3 : |halfFit 0 - 1 / 2| ≤ 1.55e-8 := by
    have := abs_le.1 fit_start
    rw [erfcExact_zero] at this
    rw [halfFit, zero_div, abs_le]
    norm_num at this ⊢
    constructor <;> linarith [this.1, this.2]
  have h4 := abs_le.1 h3
  have hneg : Phi (T - e) = 1 - Phi (e - T) := by rw [← Phi_neg]; congr 1; ring
  rw [Phi_zero] at h1 h2
  rw [mass]
  rw [hneg] at hw ⊢
  generalize Phi (T + e) = u at *
  generalize Phi (e - T) = v at *
  generalize halfFit (e - T) = x at *
  generalize halfFit (T + e) = y at *
  generalize halfFit 0 = z at *
  norm_num at *
  constructor <;> linarith [h1.1, h1.2, h2.1, h2.2, h4.1, h4.2]

theorem pdf_26 {y : ℝ} (h0 : 0 ≤ y) (h : y ≤ 26) : 0.39 * ((60300 : ℝ) ^ 31)⁻¹ ≤ normalPdf y := by
  refine le_trans ?_ (pdf_anti h0 h)
  have h1 : exp (-338 : ℝ) = (exp 1 ^ 338)⁻¹ := by
    rw [← exp_nat_mul, ← exp_neg]; norm_num
  have h2 : exp 1 ^ 338 ≤ (2.72 : ℝ) ^ 338 := by
    gcongr
    exact le_of_lt (lt_trans exp_one_lt_d9 (by norm_num))
  have h3 : (2.72 : ℝ) ^ 338 ≤ 60300 ^ 31 := by
    refine (pow_le_pow_right₀ (by norm_num) (show 338 ≤ 341 by norm_num)).trans ?_
    rw [show 341 = 11 * 31 from rfl, pow_mul]
    gcongr
    norm_num
  have h4 : ((60300 : ℝ) ^ 31)⁻¹ ≤ exp (-338) := by
    rw [h1]; exact inv_anti₀ (by positivity) (h2.trans h3)
  have h5 : √(2 * π) ≤ 2.5067 := by
    rw [Real.sqrt_le_left (by norm_num)]
    have := Real.pi_lt_d6
    norm_num at this ⊢; linarith
  have h6 : 0 < √(2 * π) := by positivity
  rw [normalPdf, le_div_iff₀ h6, show -(26 : ℝ) ^ 2 / 2 = -338 by norm_num]
  have h7 : (0 : ℝ) < ((60300 : ℝ) ^ 31)⁻¹ := by positivity
  generalize ((60300 : ℝ) ^ 31)⁻¹ = c at *
  norm_num at h5 ⊢
  nlinarith

theorem window_25 {T e : ℝ} (he : 0.01 ≤ e) (hT : e ≤ T) (h : T ≤ 25) :
    0.02 * (0.39 * ((60300 : ℝ) ^ 31)⁻¹) ≤ mass T e := by
  obtain ⟨r, hr1, hr2, hr3⟩ : ∃ r : ℝ, 0.01 ≤ r ∧ r ≤ e ∧ r ≤ 1 :=
    ⟨min e 1, le_min he (by norm_num), min_le_left _ _, min_le_right _ _⟩
  have k := Phi_sub_ge (a := T - e) (b := T - e + 2 * r) (k := 0.39 * ((60300 : ℝ) ^ 31)⁻¹)
    (by norm_num at hr1; linarith) (fun x hx => pdf_26 (by linarith [hx.1]) (by linarith [hx.2]))
  have h1 := Phi_strictMono.monotone (show T - e + 2 * r ≤ T + e by linarith)
  have h2 : (0 : ℝ) < 0.39 * ((60300 : ℝ) ^ 31)⁻¹ := by positivity
  rw [mass]
  generalize 0.39 * ((60300 : ℝ) ^ 31)⁻¹ = c at *
  norm_num at hr1 ⊢
  nlinarith

/-- **The message of a draw.**  Not numerically impossible, and its mean is within the margin (up to
0.2 percent, for the approximation of the error function). -/
theorem draw_message {t e : ℝ} (he : 0.01 * (1 + |t|) ≤ e) (ht : |t| ≤ 25) :
    0 < tsWDraw t e ∧ tsWDraw t e < 1 ∧ |t + tsVDraw t e / tsWDraw t e| ≤ 1.002 * e := by
  have ht0 := abs_nonneg t
  have he0 : 0.01 ≤ e := by norm_num at he ⊢; linarith
  have he1 : 0 < e := lt_of_lt_of_le (by norm_num) he0
  obtain ⟨η, hη0, hη, hN2, hN⟩ : ∃ η : ℝ, 0 ≤ η ∧ η ≤ 1.03e-5 ∧ tsDrawNorm t e ≤ (1 + η) * mass |t| e ∧
      ¬ tsDrawNorm t e < tsTiny := by
    rcases le_or_gt e |t| with h | h
    · have k := halfFit_all (a := |t| - e) (b := |t| + e) (by linarith) (by linarith)
      rw [drawNorm_side he1 h]
      refine ⟨6.36e-6, by norm_num, by norm_num, k.2, not_lt.2 (le_trans ?_ k.1)⟩
      have hw := window_25 he0 h ht
      rw [mass] at hw
      have : tsTiny ≤ (1 - 6.36e-6) * (0.02 * (0.39 * ((60300 : ℝ) ^ 31)⁻¹)) := by
        unfold tsTiny; norm_num
      exact this.trans (mul_le_mul_of_nonneg_left hw (by norm_num))
    · have e1 : tsDrawNorm t e = 1 - halfFit (e - |t|) - halfFit (|t| + e) := by
        rw [tsDrawNorm, ← normalCdf_halfFit (y := e - |t|) (by linarith),
          ← normalCdf_halfFit (y := |t| + e) (by linarith), normalCdf_neg (by linarith)]
        rw [show -e - |t| = -(|t| + e) by ring]
        ring
      have k := mass_middle ht0 he0 h
      rw [e1]
      exact ⟨1.03e-5, by norm_num, le_rfl, k.1, not_lt.2 (le_trans (by unfold tsTiny; norm_num) k.2)⟩
  have hW := tsWDraw_unit he
  have hW1 : tsWDraw t e < 1 := hW.2.resolve_left fun h => hN h.2
  refine ⟨hW.1, hW1, ?_⟩
  have hN0 : 0 < tsDrawNorm t e := lt_of_lt_of_le (by unfold tsTiny; norm_num) (not_lt.1 hN)
  rcases eq_or_lt_of_le ht0 with h0 | h0
  · have : t = 0 := abs_eq_zero.1 h0.symm
    subst this
    have : tsVDraw 0 e = 0 := by
      rw [tsVDraw, if_neg hN, abs_zero, sub_zero, sub_zero, normalPdf_neg, sub_self, mul_zero, zero_div]
    rw [this, zero_div, add_zero, abs_zero]
    positivity
  have e1 : normalPdf (e - |t|) = normalPdf (|t| - e) := by
    rw [← normalPdf_neg]; congr 1; ring
  have e2 : normalPdf (-e - |t|) = normalPdf (|t| + e) := by
    rw [← normalPdf_neg]; congr 1; ring
  have hWe := tsWDraw_eq hN
  have hW0 := hW.1
  rw [hWe] at hW0 hW1 ⊢
  have k := message_core h0 (by linarith) he hN0 hη hη0 hN2 hW0 hW1
  refine le_trans (le_of_eq ?_) k
  rw [tsVDraw, if_neg hN, e1, e2]
  rcases lt_or_ge t 0 with h | h
  · rw [if_pos h, abs_of_neg h, ← abs_neg]
    congr 1; ring
  · rw [if_neg (not_lt.2 h), abs_of_nonneg h]
    congr 1; ring

end TrueSkill
end Skillratings
