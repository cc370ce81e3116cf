import Mathlib.Analysis.Real.Pi.Bounds
import Mathlib.Analysis.SpecialFunctions.Log.Deriv
import Mathlib.Analysis.Complex.ExponentialBounds
import Verif.Proofs.TrueSkill
/-
The sign and the size of the draw margin: the inverse of the complementary error function, two
steps of Halley's method, is negative on `[1, 2)`.
-/
namespace Skillratings.TrueSkill
open Spec Real

/-- `e^L ≥ 1 + L + L²/2 + L³/6`. -/
theorem exp_ge_cubic {x : ℝ} (hx : x ≤ 0) : 1 + x + x ^ 2 / 2 + x ^ 3 / 6 ≤ exp x := by
  have h2 : ∀ y : ℝ, 0 ≤ y → exp (-y) ≤ 1 - y + y ^ 2 / 2 := by
    intro y hy
    have h := Real.quadratic_le_exp_of_nonneg hy
    have hp : 0 < 1 + y + y ^ 2 / 2 := by positivity
    rw [Real.exp_neg, inv_le_comm₀ (Real.exp_pos y) (by nlinarith [sq_nonneg (y - 1)])]
    refine le_trans ?_ h
    rw [inv_le_iff_one_le_mul₀ (by nlinarith [sq_nonneg (y - 1)])]
    nlinarith [sq_nonneg (y ^ 2)]
  have key : MonotoneOn (fun y : ℝ => exp (-y) - (1 - y + y ^ 2 / 2 - y ^ 3 / 6)) (Set.Ici 0) := by
    apply monotoneOn_of_deriv_nonneg (convex_Ici 0)
    · fun_prop
    · fun_prop
    · intro y hy
      rw [interior_Ici] at hy
      have hd : HasDerivAt (fun y : ℝ => exp (-y) - (1 - y + y ^ 2 / 2 - y ^ 3 / 6))
          (exp (-y) * (-1) - (0 - 1 + (2 * y ^ 1 * 1) / 2 - (3 * y ^ 2 * 1) / 6)) y := by
        refine ((hasDerivAt_id y).neg.exp).sub ((((hasDerivAt_const y 1).sub (hasDerivAt_id y)).add
          (((hasDerivAt_id y).pow 2).div_const 2)).sub (((hasDerivAt_id y).pow 3).div_const 6))
      rw [hd.deriv]
      have := h2 y (le_of_lt hy)
      ring_nf at this ⊢
      linarith
  have := key (Set.mem_Ici.2 le_rfl) (Set.mem_Ici.2 (neg_nonneg.2 hx)) (neg_nonneg.2 hx)
  simp only [neg_zero, Real.exp_zero, neg_neg] at this
  ring_nf at this ⊢
  linarith

/-- `(1 - u) e^u ≤ 1 - u²/2`. -/
theorem one_sub_mul_exp {u : ℝ} (hu : 0 ≤ u) : (1 - u) * exp u ≤ 1 - u ^ 2 / 2 := by
  have key : AntitoneOn (fun y : ℝ => (1 - y) * exp y + y ^ 2 / 2) (Set.Ici 0) := by
    apply antitoneOn_of_deriv_nonpos (convex_Ici 0)
    · fun_prop
    · fun_prop
    · intro y hy
      rw [interior_Ici] at hy
      have hy : 0 < y := hy
      have hd : HasDerivAt (fun y : ℝ => (1 - y) * exp y + y ^ 2 / 2)
          ((0 - 1) * exp y + (1 - y) * exp y + (2 * y ^ 1 * 1) / 2) y :=
        ((((hasDerivAt_const y 1).sub (hasDerivAt_id y)).mul (Real.hasDerivAt_exp y)).add
          (((hasDerivAt_id y).pow 2).div_const 2))
      rw [hd.deriv]
      have : 1 ≤ exp y := Real.one_le_exp hy.le
      nlinarith
  have := key (Set.mem_Ici.2 le_rfl) (Set.mem_Ici.2 hu) hu
  simp at this
  linarith

/-- A lower bound of the exponent of the fit near `t = 1`. -/
theorem fitQ_ge {u : ℝ} (h0 : 0 ≤ u) (h1 : u ≤ 1 / 3) :
    3e-8 - 1.25677255 * u - 0.30267231 * u ^ 2 + 0.15292371 * u ^ 3 ≤ fitQ (1 - u) := by
  have e : fitQ (1 - u) - (3e-8 - 1.25677255 * u - 0.30267231 * u ^ 2 + 0.15292371 * u ^ 3) =
      u ^ 4 * (0.25736096 - 0.2159216 * u + 0.61745735 * u ^ 2 - 1.06271775 * u ^ 3
        + 0.7157027 * u ^ 4 - 0.17087277 * u ^ 5) := by
    unfold fitQ; ring
  have h : 0 ≤ 0.25736096 - 0.2159216 * u + 0.61745735 * u ^ 2 - 1.06271775 * u ^ 3
        + 0.7157027 * u ^ 4 - 0.17087277 * u ^ 5 := by
    have p3 : u ^ 3 ≤ u ^ 2 * (1 / 3) := by
      rw [pow_succ]; exact mul_le_mul_of_nonneg_left h1 (by positivity)
    have p5 : u ^ 5 ≤ u ^ 4 * (1 / 3) := by
      rw [pow_succ]; exact mul_le_mul_of_nonneg_left h1 (by positivity)
    have : 0 ≤ u ^ 2 := by positivity
    have : 0 ≤ u ^ 4 := by positivity
    linarith
  have := mul_nonneg (by positivity : (0 : ℝ) ≤ u ^ 4) h
  linarith

theorem two_div_sqrt_pi : 1.128379 < 2 / √π := by
  rw [lt_div_iff₀ (Real.sqrt_pos.2 Real.pi_pos)]
  have h : √π < 1.7724538519 := by
    rw [Real.sqrt_lt' (by norm_num)]
    have := Real.pi_lt_d20
    norm_num at this ⊢
    linarith
  nlinarith

theorem exp_ge_cubic' (x : ℝ) : 1 + x + x ^ 2 / 2 + x ^ 3 / 6 ≤ exp x := by
  rcases le_or_gt x 0 with hx | hx
  · exact exp_ge_cubic hx
  · have := Real.sum_le_exp_of_nonneg hx.le 4
    simp [Finset.sum_range_succ, Nat.factorial] at this
    linarith

/-- A lower bound of the exponential part of the fit near `t = 1`. -/
theorem fitExp_ge {u : ℝ} (h0 : 0 ≤ u) (h1 : u ≤ 1 / 3) :
    1.00000003 - 1.2567726 * u + 0.487066 * u ^ 2 + 0.2 * u ^ 3 - 0.39 * u ^ 4 ≤
      exp (fitQ (1 - u)) := by
  refine le_trans ?_ (Real.exp_le_exp.2 (fitQ_ge h0 h1))
  refine le_trans ?_ (exp_ge_cubic' _)
  have p5 : 0 ≤ u ^ 5 := by positivity
  have p6 : 0 ≤ u ^ 6 := by positivity
  have p3 : 0 ≤ u ^ 3 := by positivity
  have p2 : 0 ≤ u ^ 2 := by positivity
  have p4 : 0 ≤ u ^ 4 := by positivity
  have p9 : 0 ≤ u ^ 9 := by positivity
  have p7 : u ^ 7 ≤ u ^ 6 * (1 / 3) := by
    rw [pow_succ]; exact mul_le_mul_of_nonneg_left h1 (by positivity)
  have p8 : u ^ 8 ≤ u ^ 6 * (1 / 9) := by
    have : u ^ 2 ≤ 1 / 9 := by nlinarith
    calc u ^ 8 = u ^ 6 * u ^ 2 := by ring
      _ ≤ _ := mul_le_mul_of_nonneg_left this (by positivity)
  ring_nf
  linarith

/-- The polynomial inequality behind the sign of a step. -/
theorem margin_poly {u : ℝ} (h0 : 0 ≤ u) (h1 : u ≤ 1 / 3) :
    (1 - u) ^ 4 < (1 + u) * (1 - 3 * u) * (1 - u) ^ 3 *
      (1.00000003 - 1.2567726 * u + 0.487066 * u ^ 2 + 0.2 * u ^ 3 - 0.39 * u ^ 4)
      + 8 * u ^ 4 + 2 * 1.128379 * u * (1 - u) ^ 3 := by
  have hc : 0 < 3e-8 - 1.48e-5 * u + 2 * u ^ 3 := by
    have : 0 ≤ (u - 1.57e-3) ^ 2 * (2 * u + 6.28e-3) := by positivity
    ring_nf at this ⊢
    linarith
  have e : (1 + u) * (1 - 3 * u) * (1 - u) ^ 3 *
      (1.00000003 - 1.2567726 * u + 0.487066 * u ^ 2 + 0.2 * u ^ 3 - 0.39 * u ^ 4)
      + 8 * u ^ 4 + 2 * 1.128379 * u * (1 - u) ^ 3 - (1 - u) ^ 4
      - (3e-8 - 1.48e-5 * u + 2 * u ^ 3) = 5e-8 * u + 0.00065518 * u ^ 2 +
        u ^ 3 * (0.99430846 - 3.23790741 * u + 15.92154029 * u ^ 2 - 9.1197798 * u ^ 3
          - 0.718802 * u ^ 4 + 3.33 * u ^ 5 - 1.17 * u ^ 6) := by ring
  have h : 0 ≤ 0.99430846 - 3.23790741 * u + 15.92154029 * u ^ 2 - 9.1197798 * u ^ 3
          - 0.718802 * u ^ 4 + 3.33 * u ^ 5 - 1.17 * u ^ 6 := by
    have p3 : u ^ 3 ≤ u ^ 2 * (1 / 3) := by
      rw [pow_succ]; exact mul_le_mul_of_nonneg_left h1 (by positivity)
    have p4 : u ^ 4 ≤ u ^ 2 * (1 / 9) := by nlinarith
    have p6 : u ^ 6 ≤ u ^ 5 * (1 / 3) := by
      rw [pow_succ]; exact mul_le_mul_of_nonneg_left h1 (by positivity)
    have p5 : 0 ≤ u ^ 5 := by positivity
    nlinarith [sq_nonneg (u - 0.1)]
  have := mul_nonneg (by positivity : (0 : ℝ) ≤ u ^ 3) h
  have : 0 ≤ u ^ 2 := by positivity
  linarith

/-- `erf(x) (1 - x²) < (2/√π) x e^{-x²}` for the fit. -/
theorem fit_gap {x : ℝ} (h0 : 0 ≤ x) (h1 : x ≤ 1) :
    (1 - x ^ 2) * (1 - fit x) < 2 / √π * exp (-x ^ 2) * x := by
  obtain ⟨u, hu⟩ : ∃ u, u = x / (2 + x) := ⟨_, rfl⟩
  have hu0 : 0 ≤ u := by rw [hu]; positivity
  have hu1 : u ≤ 1 / 3 := by
    rw [hu, div_le_iff₀ (by linarith)]; linarith
  have ht : (1 + x / 2)⁻¹ = 1 - u := by rw [hu]; field_simp; ring
  have hx : x = 2 * u / (1 - u) := by
    rw [hu]
    field_simp
    ring
  have hd : 0 < 1 - u := by linarith
  have hk := two_div_sqrt_pi
  have hp := margin_poly hu0 hu1
  have hE := fitExp_ge hu0 hu1
  set T := 1.00000003 - 1.2567726 * u + 0.487066 * u ^ 2 + 0.2 * u ^ 3 - 0.39 * u ^ 4
  have hpoly : 1 < (1 - x ^ 2) * ((1 - u) * T) + x ^ 4 / 2 + 1.128379 * x := by
    have h4 : 0 < (1 - u) ^ 4 := by positivity
    have e : (1 - x ^ 2) * ((1 - u) * T) + x ^ 4 / 2 + 1.128379 * x =
        ((1 + u) * (1 - 3 * u) * (1 - u) ^ 3 * T + 8 * u ^ 4
          + 2 * 1.128379 * u * (1 - u) ^ 3) / (1 - u) ^ 4 := by
      rw [hx, eq_div_iff h4.ne']
      field_simp
      ring
    rw [e, lt_div_iff₀ h4, one_mul]
    exact hp
  have hx2 : 0 ≤ 1 - x ^ 2 := by nlinarith
  have h3 : (1 - x ^ 2) * ((1 - u) * T) ≤ (1 - x ^ 2) * ((1 - u) * exp (fitQ (1 - u))) := by
    gcongr
  have h4 := one_sub_mul_exp (u := x ^ 2) (by positivity)
  have h5 : 1.128379 * x ≤ 2 / √π * x := by gcongr
  have h6 : (1 - x ^ 2) * (exp (x ^ 2) - (1 - u) * exp (fitQ (1 - u))) < 2 / √π * x := by
    nlinarith
  have h7 : fit x = exp (-x ^ 2) * ((1 - u) * exp (fitQ (1 - u))) := by
    rw [fit, ht, sub_eq_add_neg (fitQ _), Real.exp_add]; ring
  have h8 : exp (-x ^ 2) * exp (x ^ 2) = 1 := by
    rw [← Real.exp_add]; simp
  have h9 := mul_lt_mul_of_pos_left h6 (Real.exp_pos (-x ^ 2))
  calc (1 - x ^ 2) * (1 - fit x)
      = exp (-x ^ 2) * ((1 - x ^ 2) * (exp (x ^ 2) - (1 - u) * exp (fitQ (1 - u)))) := by
        rw [h7]; linear_combination (-(1 - x ^ 2)) * h8
    _ < _ := h9
    _ = _ := by ring

theorem fitQ_le_sub {u : ℝ} (h0 : 0 ≤ u) (h1 : u ≤ 1) : fitQ (1 - u) ≤ 3e-8 - u := by
  have e : fitQ (1 - u) - (3e-8 - u) =
      u * (-0.25677255 - 0.30267231 * u + 0.15292371 * u ^ 2 + 0.25736096 * u ^ 3
        - 0.2159216 * u ^ 4 + 0.61745735 * u ^ 5 - 1.06271775 * u ^ 6
        + 0.7157027 * u ^ 7 - 0.17087277 * u ^ 8) := by
    unfold fitQ; ring
  have h : -0.25677255 - 0.30267231 * u + 0.15292371 * u ^ 2 + 0.25736096 * u ^ 3
        - 0.2159216 * u ^ 4 + 0.61745735 * u ^ 5 - 1.06271775 * u ^ 6
        + 0.7157027 * u ^ 7 - 0.17087277 * u ^ 8 ≤ 0 := by
    have p2 : u ^ 2 ≤ u := by nlinarith
    have p3 : u ^ 3 ≤ u ^ 2 := pow_le_pow_of_le_one h0 h1 (by norm_num)
    have p4 : u ^ 5 ≤ u ^ 4 := pow_le_pow_of_le_one h0 h1 (by norm_num)
    have p4' : u ^ 4 ≤ u ^ 3 := pow_le_pow_of_le_one h0 h1 (by norm_num)
    have p7 : u ^ 7 ≤ u ^ 6 := pow_le_pow_of_le_one h0 h1 (by norm_num)
    have p6 : u ^ 6 ≤ u ^ 5 := pow_le_pow_of_le_one h0 h1 (by norm_num)
    have p8 : 0 ≤ u ^ 8 := by positivity
    have q6 : 0 ≤ u ^ 6 := by positivity
    have q1 : 0 ≤ u * (1 - u) ^ 2 := by positivity
    have q2 : u ^ 8 ≤ u ^ 7 := pow_le_pow_of_le_one h0 h1 (by norm_num)
    nlinarith
  have := mul_nonneg h0 (neg_nonneg.2 h)
  linarith

/-- `x e^{x²} erfc(x) ≤ 0.737` for the fit. -/
theorem fit_small {x : ℝ} (h0 : 0 ≤ x) :
    x * fit x ≤ 0.737 * exp (-x ^ 2) ∧ fit x ≤ 1.0001 * exp (-x ^ 2) := by
  obtain ⟨u, hu⟩ : ∃ u, u = x / (2 + x) := ⟨_, rfl⟩
  have hu0 : 0 ≤ u := by rw [hu]; positivity
  have hu1 : u ≤ 1 := by
    rw [hu, div_le_iff₀ (by linarith)]; linarith
  have ht : (1 + x / 2)⁻¹ = 1 - u := by rw [hu]; field_simp; ring
  have hx : x * (1 - u) = 2 * u := by
    rw [hu]
    field_simp
    ring
  have h7 : fit x = exp (-x ^ 2) * ((1 - u) * exp (fitQ (1 - u))) := by
    rw [fit, ht, sub_eq_add_neg (fitQ _), Real.exp_add]; ring
  have hQ := Real.exp_le_exp.2 (fitQ_le_sub hu0 hu1)
  have hq : exp (3e-8) ≤ (1.0001 : ℝ) := by
    have := Real.exp_bound_div_one_sub_of_interval (x := 3e-8) (by norm_num) (by norm_num)
    refine this.trans (by norm_num)
  have hsplit : exp (3e-8 - u) = exp (3e-8) * exp (-u) := by rw [← Real.exp_add]; ring_nf
  have hu' : u * exp (-u) ≤ 0.3679 := by
    have h1 : u ≤ exp (u - 1) := by linarith [Real.add_one_le_exp (u - 1)]
    have h2 : exp (u - 1) * exp (-u) = exp (-1) := by rw [← Real.exp_add]; ring_nf
    have h3 : exp (-1) < (0.3679 : ℝ) := Real.exp_neg_one_lt_d9.trans (by norm_num)
    nlinarith [Real.exp_pos (-u)]
  have hle : exp (-u) ≤ 1 := Real.exp_le_one_iff.2 (by linarith)
  have hpos := Real.exp_pos (-x ^ 2)
  have hpu := Real.exp_pos (-u)
  rw [hsplit] at hQ
  have h3 : exp (fitQ (1 - u)) ≤ 1.0001 * exp (-u) := hQ.trans (by gcongr)
  constructor
  · have : 2 * u * exp (fitQ (1 - u)) ≤ 0.737 := by nlinarith
    calc x * fit x = exp (-x ^ 2) * (2 * u * exp (fitQ (1 - u))) := by rw [h7, ← hx]; ring
      _ ≤ exp (-x ^ 2) * 0.737 := by gcongr
      _ = _ := by ring
  · have h4 : exp (fitQ (1 - u)) ≤ 1.0001 := by linarith
    have h5 : (1 - u) * exp (fitQ (1 - u)) ≤ 1.0001 := by nlinarith [Real.exp_pos (fitQ (1 - u))]
    rw [h7]; nlinarith

theorem erfcFit_of_nonneg {x : ℝ} (hx : 0 ≤ x) : erfcFit x = fit x := by
  rw [erfcFit, if_neg (not_lt.2 hx), erfcTail_eq hx]

/-- A step of Halley's method from a positive value gives a positive value not much larger. -/
theorem step_bounds {y x : ℝ} (hy0 : 0 < y) (hy1 : y ≤ 1) (hx : 0 < x) :
    0 < erfcInvStep y x ∧ erfcInvStep y x ≤ x + 2.56 := by
  rw [erfcInvStep, erfcFit_of_nonneg hx.le]
  obtain ⟨hs1, hs2⟩ := fit_small hx.le
  have hk := two_div_sqrt_pi
  have hE := Real.exp_pos (-x ^ 2)
  have hD : 1.128379 * exp (-x ^ 2) ≤ 2 / √π * exp (-x ^ 2) := by gcongr
  have hD0 : 0 < 2 / √π * exp (-x ^ 2) := by linarith [mul_pos (by norm_num : (0 : ℝ) < 1.128379) hE]
  set D := 2 / √π * exp (-x ^ 2) with hDdef
  rcases le_or_gt y (fit x) with hf | hf
  · have hxy : x * (fit x - y) ≤ x * fit x := by nlinarith
    have hden : 0.391 * exp (-x ^ 2) ≤ D - x * (fit x - y) := by nlinarith
    have hden0 : 0 < D - x * (fit x - y) := by nlinarith
    have h1 : 0 ≤ (fit x - y) / (D - x * (fit x - y)) := div_nonneg (by linarith) hden0.le
    refine ⟨by linarith, ?_⟩
    have h2 : (fit x - y) / (D - x * (fit x - y)) ≤ 2.56 := by
      rw [div_le_iff₀ hden0]
      nlinarith
    linarith
  · have hden0 : 0 < D - x * (fit x - y) := by nlinarith
    have h1 : (fit x - y) / (D - x * (fit x - y)) ≤ 0 :=
      div_nonpos_of_nonpos_of_nonneg (by linarith) hden0.le
    refine ⟨?_, by linarith⟩
    rw [← sub_neg_eq_add, sub_pos, ← neg_div, div_lt_iff₀ hden0]
    rcases le_or_gt x 1 with h | h
    · have := fit_gap hx.le h
      have h2 : 0 ≤ 1 - x ^ 2 := by nlinarith
      have h3 : (1 - x ^ 2) * (y - fit x) ≤ (1 - x ^ 2) * (1 - fit x) := by gcongr
      nlinarith
    · have h2 : (1 - x ^ 2) * (y - fit x) ≤ 0 :=
        mul_nonpos_of_nonpos_of_nonneg (by nlinarith) (by linarith)
      nlinarith [mul_pos hx hD0]

theorem guess_bounds {y : ℝ} (hy0 : 0 < y) (hy1 : y ≤ 1) :
    0 < erfcInvGuess y ∧ erfcInvGuess y ≤ √(-2 * log (y / 2)) / √2 := by
  have hlog : log (y / 2) ≤ -log 2 := by
    rw [← Real.log_inv]
    exact Real.log_le_log (by positivity) (by linarith)
  have hs : 1.17741 ≤ √(-2 * log (y / 2)) := by
    apply Real.le_sqrt_of_sq_le
    have := Real.log_two_gt_d9
    norm_num at this ⊢
    linarith
  rw [erfcInvGuess]
  set s := √(-2 * log (y / 2))
  have hd : 0 < 1 + 0.99229 * s + 0.04481 * s ^ 2 := by positivity
  have h2 : 0 < √(2 : ℝ) := by positivity
  have hq : 0 ≤ (2.30753 + 0.27061 * s) / (1 + 0.99229 * s + 0.04481 * s ^ 2) := by positivity
  constructor
  · apply div_pos _ h2
    rw [neg_sub, sub_pos, div_lt_iff₀ hd]
    nlinarith [sq_nonneg (s - 1.17741), mul_nonneg (sub_nonneg.2 hs) (sub_nonneg.2 hs)]
  · gcongr
    linarith

/-- The quantile of the draw margin. -/
theorem erfcInv_bounds {p : ℝ} (h0 : 0 ≤ p) (h1 : p < 1) :
    0 < -(√2 * erfcInv (p + 1)) ∧
      -(√2 * erfcInv (p + 1)) ≤ √(-2 * log ((1 - p) / 2)) + 7.25 := by
  have h2 : 0 < √(2 : ℝ) := by positivity
  have h2' : √(2 : ℝ) ≤ 1.4143 := by
    rw [Real.sqrt_le_left (by norm_num)]; norm_num
  have e : 2 - (p + 1) = 1 - p := by ring
  rw [erfcInv, if_neg (by linarith), if_neg (by linarith), if_neg (by linarith), e]
  obtain ⟨g0, g1⟩ := guess_bounds (y := 1 - p) (by linarith) (by linarith)
  obtain ⟨a0, a1⟩ := step_bounds (y := 1 - p) (by linarith) (by linarith) g0
  obtain ⟨b0, b1⟩ := step_bounds (y := 1 - p) (by linarith) (by linarith) a0
  set s := √(-2 * log ((1 - p) / 2))
  constructor
  · rw [mul_neg, neg_neg]; positivity
  · rw [mul_neg, neg_neg]
    have : √2 * (s / √2 + 5.12) ≤ s + 7.25 := by
      rw [mul_add, mul_div_cancel₀ _ h2.ne']
      linarith
    refine le_trans (mul_le_mul_of_nonneg_left ?_ h2.le) this
    linarith

theorem tsMargin_pos {p β : ℝ} (h0 : 0 ≤ p) (hβ : 0 < β) {n : ℕ} (hn : 0 < n) :
    0 < tsMargin p β n := by
  have hn' : 0 < √(n : ℝ) := Real.sqrt_pos.2 (by exact_mod_cast hn)
  rw [tsMargin]
  rcases lt_or_ge p 1 with h | h
  · have := (erfcInv_bounds h0 h).1
    positivity
  · rw [erfcInv, if_pos (by linarith)]
    have : 0 < -(√2 * (-100 : ℝ)) := by
      rw [mul_neg, neg_neg]; positivity
    positivity

theorem tsMargin_nonneg {p β : ℝ} (h0 : 0 ≤ p) (hβ : 0 ≤ β) (n : ℕ) : 0 ≤ tsMargin p β n := by
  rcases hβ.eq_or_lt with rfl | hβ
  · simp [tsMargin]
  rcases Nat.eq_zero_or_pos n with rfl | hn
  · simp [tsMargin]
  · exact (tsMargin_pos h0 hβ hn).le

theorem tsMargin_le {p β : ℝ} (h0 : 0 ≤ p) (h1 : p < 1) (hβ : 0 ≤ β) (n : ℕ) :
    tsMargin p β n ≤ (√(-2 * log ((1 - p) / 2)) + 7.25) * √n * β := by
  rw [tsMargin]
  gcongr
  exact (erfcInv_bounds h0 h1).2

end Skillratings.TrueSkill
