import Verif.Proofs.Margin
/-
The variance correction of a draw between two sides of equal strength, and the draw margin
of the default draw probability.
-/
namespace Skillratings.TrueSkill
open Real Spec

theorem two_div_sqrt_pi_lt : 2 / √π < 1.1284 := by
  rw [div_lt_iff₀ (Real.sqrt_pos.2 Real.pi_pos)]
  have h : 1.77245 < √π := by
    rw [Real.lt_sqrt (by norm_num)]
    have := Real.pi_gt_d6
    norm_num at this ⊢
    linarith
  nlinarith

theorem drawNorm_equal {ε : ℝ} (h : 0 < ε) : tsDrawNorm 0 ε = 1 - fit (ε / √2) := by
  have h2 : 0 < √(2 : ℝ) := by positivity
  rw [tsDrawNorm, abs_zero, sub_zero, sub_zero, normalCdf_neg h.ne',
    show normalCdf ε = 1 - normalCdf (-ε) by rw [normalCdf_neg h.ne']; ring,
    normalCdf, neg_neg, erfcFit_of_nonneg (by positivity)]
  ring

/-- The correction of a draw between equals is `(2/√π) z e^{-z²} / erf z` with `z = ε/√2`. -/
theorem wDraw_equal {ε : ℝ} (h : 0 < ε) (hn : tsTiny ≤ 1 - fit (ε / √2)) :
    tsWDraw 0 ε = 2 / √π * exp (-(ε / √2) ^ 2) * (ε / √2) / (1 - fit (ε / √2)) := by
  have hn' : ¬ tsDrawNorm 0 ε < tsTiny := by rw [drawNorm_equal h]; exact not_lt.2 hn
  have hp : normalPdf (-ε) = normalPdf ε := by simp [normalPdf]
  rw [tsWDraw, if_neg hn', tsVDraw, if_neg hn', abs_zero, sub_zero, sub_zero, hp, sub_self,
    drawNorm_equal h]
  have e : normalPdf ε = exp (-(ε / √2) ^ 2) / (√2 * √π) := by
    rw [normalPdf, Real.sqrt_mul (by norm_num), div_pow, Real.sq_sqrt (by norm_num)]
    congr 2; ring
  rw [e]
  have h2 : √(2 : ℝ) * √2 = 2 := Real.mul_self_sqrt (by norm_num)
  have h3 : (√2 : ℝ) ≠ 0 := by positivity
  have h4 : √π ≠ 0 := (Real.sqrt_pos.2 Real.pi_pos).ne'
  simp only [lt_irrefl, if_false, mul_zero, zero_div]
  rw [zero_pow two_ne_zero, zero_add]
  congr 1
  field_simp
  ring

/-- Near zero the fit is larger than `erfc`, and larger than one at zero. -/
theorem erf_small_le {z : ℝ} (h0 : 0 ≤ z) (h1 : z ≤ 1e-4) :
    1 - fit z ≤ exp (-z ^ 2) * (1.128379 * z - 1.9e-8) := by
  obtain ⟨u, hu⟩ : ∃ u, u = z / (2 + z) := ⟨_, rfl⟩
  have hu0 : 0 ≤ u := by rw [hu]; positivity
  have hu2 : u ≤ z / 2 := by
    rw [hu]; gcongr; linarith
  have hu1 : u ≤ 1 / 3 := by norm_num at h1 ⊢; linarith
  have ht : (1 + z / 2)⁻¹ = 1 - u := by rw [hu]; field_simp; ring
  have hE := fitExp_ge hu0 hu1
  have h7 : fit z = exp (-z ^ 2) * ((1 - u) * exp (fitQ (1 - u))) := by
    rw [fit, ht, sub_eq_add_neg (fitQ _), Real.exp_add]; ring
  have h8 : exp (-z ^ 2) * exp (z ^ 2) = 1 := by
    rw [← Real.exp_add]; simp
  have hz2 : z ^ 2 ≤ 1e-8 := by nlinarith
  have he : exp (z ^ 2) ≤ 1 + 1.00001e-8 := by
    refine (Real.exp_le_exp.2 hz2).trans ?_
    refine (Real.exp_bound_div_one_sub_of_interval (x := 1e-8) (by norm_num) (by norm_num)).trans ?_
    norm_num
  have hT : 1.00000003 - 1.2567726 * u ≤ exp (fitQ (1 - u)) := by
    refine le_trans ?_ hE
    have : 0 ≤ u ^ 2 * (0.487066 + 0.2 * u - 0.39 * u ^ 2) := by
      apply mul_nonneg (by positivity); nlinarith
    nlinarith
  have hk : 1.00000003 - 1.1283864 * z ≤ (1 - u) * exp (fitQ (1 - u)) := by
    have : (1 - u) * (1.00000003 - 1.2567726 * u) ≤ (1 - u) * exp (fitQ (1 - u)) := by
      gcongr; linarith
    refine le_trans ?_ this
    nlinarith [mul_nonneg hu0 hu0]
  have hg : exp (z ^ 2) - (1 - u) * exp (fitQ (1 - u)) ≤ 1.128379 * z - 1.9e-8 := by
    norm_num at h1 he hk ⊢
    linarith
  calc 1 - fit z = exp (-z ^ 2) * (exp (z ^ 2) - (1 - u) * exp (fitQ (1 - u))) := by
        rw [h7]; linear_combination -h8
    _ ≤ _ := by gcongr

theorem fit_le_inv {x : ℝ} (h0 : 0 ≤ x) : fit x ≤ 1.000000031 / (1 + x) * exp (-x ^ 2) := by
  obtain ⟨u, hu⟩ : ∃ u, u = x / (2 + x) := ⟨_, rfl⟩
  have hu0 : 0 ≤ u := by rw [hu]; positivity
  have hu1 : u ≤ 1 := by
    rw [hu, div_le_iff₀ (by linarith)]; linarith
  have ht : (1 + x / 2)⁻¹ = 1 - u := by rw [hu]; field_simp; ring
  have h7 : fit x = exp (-x ^ 2) * ((1 - u) * exp (fitQ (1 - u))) := by
    rw [fit, ht, sub_eq_add_neg (fitQ _), Real.exp_add]; ring
  have hQ := Real.exp_le_exp.2 (fitQ_le_sub hu0 hu1)
  have hq : exp (3e-8) ≤ (1.000000031 : ℝ) := by
    have := Real.exp_bound_div_one_sub_of_interval (x := 3e-8) (by norm_num) (by norm_num)
    refine this.trans (by norm_num)
  have hsplit : exp (3e-8 - u) = exp (3e-8) * exp (-u) := by rw [← Real.exp_add]; ring_nf
  have hmu : exp (-u) ≤ 1 / (1 + u) := by
    rw [Real.exp_neg, inv_eq_one_div]
    exact one_div_le_one_div_of_le (by linarith) (by linarith [Real.add_one_le_exp u])
  have hr : (1 - u) * (1 / (1 + u)) = 1 / (1 + x) := by
    rw [hu]; field_simp; ring
  rw [h7, mul_comm]
  gcongr
  calc (1 - u) * exp (fitQ (1 - u)) ≤ (1 - u) * (1.000000031 * (1 / (1 + u))) := by
        refine mul_le_mul_of_nonneg_left (hQ.trans ?_) (by linarith)
        rw [hsplit]; gcongr
    _ = 1.000000031 * ((1 - u) * (1 / (1 + u))) := by ring
    _ = _ := by rw [hr]; ring

theorem fit_le_inv' {x : ℝ} (h0 : 0 ≤ x) : fit x ≤ 1.000000031 / (1 + x) := by
  refine (fit_le_inv h0).trans ?_
  have : exp (-x ^ 2) ≤ 1 := Real.exp_le_one_iff.2 (by nlinarith)
  have h2 : 0 ≤ 1.000000031 / (1 + x) := by positivity
  nlinarith

/-- Between equals the draw is not degenerate unless the margin is minute. -/
theorem tiny_le_erf {z : ℝ} (h : 1e-7 ≤ z) : tsTiny ≤ 1 - fit z := by
  have hz : 0 ≤ z := le_trans (by norm_num) h
  have h1 : fit z ≤ 1 - 1e-8 := by
    refine (fit_le_inv' hz).trans ?_
    rw [div_le_iff₀ (by linarith)]
    norm_num at h ⊢
    nlinarith
  have : tsTiny ≤ 1e-8 := by rw [tsTiny]; norm_num
  linarith

/-- For small margins the variance correction of a draw between equals exceeds one. -/
theorem wDraw_gt {z ε : ℝ} (hz : ε / √2 = z) (h0 : 1e-7 ≤ z) (h1 : z ≤ 1e-4) :
    1 + 1.6e-8 / z ≤ tsWDraw 0 ε := by
  have hz0 : 0 < z := lt_of_lt_of_le (by norm_num) h0
  have hε : 0 < ε := by
    have h2 : 0 < √(2 : ℝ) := by positivity
    rcases div_pos_iff.1 (hz ▸ hz0) with h | h
    · exact h.1
    · linarith [h.2]
  have ht := tiny_le_erf h0
  rw [wDraw_equal hε (by rw [hz]; exact ht), hz]
  have hpos : 0 < 1 - fit z := lt_of_lt_of_le (by rw [tsTiny]; norm_num) ht
  rw [le_div_iff₀ hpos]
  have he := erf_small_le hz0.le h1
  have hE := Real.exp_pos (-z ^ 2)
  have hk := two_div_sqrt_pi
  have hpr : (1 + 1.6e-8 / z) * (1.128379 * z - 1.9e-8) ≤ 1.128379 * z := by
    have e : (1 + 1.6e-8 / z) * (1.128379 * z - 1.9e-8)
        = 1.128379 * z + (1.6e-8 * 1.128379 - 1.9e-8) - 1.6e-8 * 1.9e-8 / z := by
      field_simp; ring
    rw [e]
    have : 0 ≤ 1.6e-8 * 1.9e-8 / z := by positivity
    norm_num at this ⊢
    linarith
  calc (1 + 1.6e-8 / z) * (1 - fit z)
      ≤ (1 + 1.6e-8 / z) * (exp (-z ^ 2) * (1.128379 * z - 1.9e-8)) := by gcongr
    _ = exp (-z ^ 2) * ((1 + 1.6e-8 / z) * (1.128379 * z - 1.9e-8)) := by ring
    _ ≤ exp (-z ^ 2) * (1.128379 * z) := by gcongr
    _ = 1.128379 * exp (-z ^ 2) * z := by ring
    _ ≤ _ := by gcongr

/-! ### The margin of draw probability 1/10 -/

theorem step_tenth {x : ℝ} (h0 : 0 < x) (h1 : x ≤ 0.3) :
    0.05 ≤ erfcInvStep 0.9 x ∧ erfcInvStep 0.9 x ≤ 0.3 := by
  rw [erfcInvStep, erfcFit_of_nonneg h0.le]
  have hk := two_div_sqrt_pi
  have hk' := two_div_sqrt_pi_lt
  have hg := fit_gap h0.le (by norm_num at h1; linarith)
  have hE : 1 - x ^ 2 ≤ exp (-x ^ 2) := by linarith [Real.add_one_le_exp (-x ^ 2)]
  have hE1 : exp (-x ^ 2) ≤ 1 := Real.exp_le_one_iff.2 (by nlinarith)
  have hx2 : x ^ 2 ≤ 0.09 := by nlinarith
  have hD : 1.02 ≤ 2 / √π * exp (-x ^ 2) := by
    calc (1.02 : ℝ) ≤ 1.128379 * (1 - 0.09) := by norm_num
      _ ≤ 2 / √π * exp (-x ^ 2) := by gcongr; linarith
  have hD' : 2 / √π * exp (-x ^ 2) ≤ 1.1284 := by
    calc 2 / √π * exp (-x ^ 2) ≤ 1.1284 * 1 := by gcongr
      _ = _ := by ring
  have hf := fit_le_inv' h0.le
  set D := 2 / √π * exp (-x ^ 2)
  set f := fit x
  have hfx : f * (1 + x) ≤ 1.000000031 := by
    rwa [le_div_iff₀ (by linarith)] at hf
  rcases le_or_gt f 0.9 with he | he
  · have hden : D ≤ D - x * (f - 0.9) := by nlinarith
    have hq : (f - 0.9) / (D - x * (f - 0.9)) ≤ 0 :=
      div_nonpos_of_nonpos_of_nonneg (by linarith) (by linarith)
    refine ⟨?_, by linarith⟩
    have : -(x - 0.05) ≤ (f - 0.9) / (D - x * (f - 0.9)) := by
      rw [le_div_iff₀ (by linarith)]
      have hx8 : 0.05 ≤ x := by
        by_contra h
        push Not at h
        have : (1 - x ^ 2) * (1 - f) < 1.1284 * x := by nlinarith
        nlinarith
      have h3 : (1 - x ^ 2) * (0.9 - f) ≤ (1 - x ^ 2) * ((x - 0.05) * D) := by
        have h4 : (1 - x ^ 2) * (0.9 - f) < D * x - 0.1 * (1 - x ^ 2) := by linarith
        have h5 : D * (x - (1 - x ^ 2) * (x - 0.05)) ≤ 0.1 * (1 - x ^ 2) := by
          have h6 : x - (1 - x ^ 2) * (x - 0.05) ≤ 0.0725 := by nlinarith
          have h7 : 0 ≤ x - (1 - x ^ 2) * (x - 0.05) := by nlinarith
          nlinarith
        nlinarith
      have h8 : 0.9 - f ≤ (x - 0.05) * D := le_of_mul_le_mul_left h3 (by linarith)
      nlinarith
    linarith
  · have hx : x ≤ 0.112 := by nlinarith
    have hxe : x * (f - 0.9) ≤ 0.112 * 0.1000001 := by
      have : f ≤ 1.0000001 := by nlinarith
      have h9 : f - 0.9 ≤ 0.1000001 := by linarith
      exact mul_le_mul hx h9 (by linarith) (by norm_num)
    have hden : 1 ≤ D - x * (f - 0.9) := by linarith
    have hf1 : f ≤ 1.0000001 := by nlinarith
    constructor
    · have : 0.05 - x ≤ (f - 0.9) / (D - x * (f - 0.9)) := by
        rw [le_div_iff₀ (by linarith)]
        rcases le_or_gt 0.05 x with h | h
        · nlinarith
        · have : (1 - x ^ 2) * (1 - f) < 1.1284 * x := by nlinarith
          have hD2 : D - x * (f - 0.9) ≤ 1.1284 := by nlinarith
          have h10 : (0.05 - x) * (D - x * (f - 0.9)) ≤ (0.05 - x) * 1.1284 := by
            gcongr
          nlinarith
      linarith
    · have : (f - 0.9) / (D - x * (f - 0.9)) ≤ f - 0.9 := div_le_self (by linarith) hden
      norm_num at hf1 hx this ⊢
      linarith

theorem guess_tenth : 0 < erfcInvGuess 0.9 ∧ erfcInvGuess 0.9 ≤ 0.3 := by
  refine ⟨(guess_bounds (by norm_num) (by norm_num)).1, ?_⟩
  have hl : -0.8043 ≤ log (0.9 / 2) := by
    have e : log (0.9 / 2) = log 0.9 - log 2 := Real.log_div (by norm_num) (by norm_num)
    have h1 := Real.one_sub_inv_le_log_of_pos (x := 0.9) (by norm_num)
    have h2 := Real.log_two_lt_d9
    rw [e]
    norm_num at h1 h2 ⊢
    linarith
  have hs0 : 0 ≤ √(-2 * log (0.9 / 2)) := Real.sqrt_nonneg _
  have hs : √(-2 * log (0.9 / 2)) ≤ 1.2685 := by
    rw [Real.sqrt_le_left (by norm_num)]
    norm_num at hl ⊢
    linarith
  rw [erfcInvGuess]
  set s := √(-2 * log (0.9 / 2))
  have h2 : 0 < √(2 : ℝ) := by positivity
  have h2' : 1.4 ≤ √(2 : ℝ) := by
    rw [Real.le_sqrt' (by norm_num)]; norm_num
  rw [div_le_iff₀ h2, neg_sub]
  have : s - 0.42 ≤ (2.30753 + 0.27061 * s) / (1 + 0.99229 * s + 0.04481 * s ^ 2) := by
    rw [le_div_iff₀ (by positivity)]
    rcases le_or_gt s 0.42 with h | h
    · nlinarith [mul_nonneg hs0 hs0, mul_nonneg (mul_nonneg hs0 hs0) hs0]
    · have : 1 + 0.99229 * s + 0.04481 * s ^ 2 ≤ 2.34 := by nlinarith
      nlinarith
  linarith

/-- With draw probability 1/10 the margin of a game of two players lies between `0.1 β` and
`0.6 β` (the exact value is about `0.1777 β`). -/
theorem margin_tenth {β : ℝ} (hβ : 0 ≤ β) :
    0.1 * β ≤ tsMargin (1 / 10) β 2 ∧ tsMargin (1 / 10) β 2 ≤ 0.6 * β := by
  have e : tsMargin (1 / 10) β 2 = 2 * erfcInvStep 0.9 (erfcInvStep 0.9 (erfcInvGuess 0.9)) * β := by
    have h2 : √(2 : ℝ) * √2 = 2 := Real.mul_self_sqrt (by norm_num)
    rw [tsMargin, erfcInv, if_neg (by norm_num), if_neg (by norm_num), if_neg (by norm_num),
      show (2 : ℝ) - (1 / 10 + 1) = 0.9 by norm_num]
    push_cast
    linear_combination erfcInvStep 0.9 (erfcInvStep 0.9 (erfcInvGuess 0.9)) * β * h2
  obtain ⟨a, b⟩ := guess_tenth
  obtain ⟨c, d⟩ := step_tenth a b
  obtain ⟨f, g⟩ := step_tenth (lt_of_lt_of_le (by norm_num) c) d
  rw [e]
  constructor <;> gcongr <;> linarith

/-! ### Larger margins -/

/-- The even Taylor polynomial of degree four bounds the exponential below zero. -/
theorem exp_le_quartic {x : ℝ} (hx : x ≤ 0) :
    exp x ≤ 1 + x + x ^ 2 / 2 + x ^ 3 / 6 + x ^ 4 / 24 := by
  have key : MonotoneOn (fun y : ℝ => exp y - (1 + y + y ^ 2 / 2 + y ^ 3 / 6 + y ^ 4 / 24))
      (Set.Iic 0) := by
    apply monotoneOn_of_deriv_nonneg (convex_Iic 0) (by fun_prop) (by fun_prop)
    intro y hy
    have hd : HasDerivAt (fun y : ℝ => exp y - (1 + y + y ^ 2 / 2 + y ^ 3 / 6 + y ^ 4 / 24))
        (exp y - (1 + y + y ^ 2 / 2 + y ^ 3 / 6)) y := by
      have h1 := Real.hasDerivAt_exp y
      have h2 := (((((hasDerivAt_const y (1 : ℝ)).add (hasDerivAt_id y)).add
        ((hasDerivAt_pow 2 y).div_const 2)).add ((hasDerivAt_pow 3 y).div_const 6)).add
        ((hasDerivAt_pow 4 y).div_const 24))
      refine (h1.sub h2).congr_deriv ?_
      push_cast; ring
    rw [hd.deriv]
    linarith [exp_ge_cubic' y]
  have := key (Set.mem_Iic.2 hx) (Set.mem_Iic.2 le_rfl) hx
  simp at this
  linarith

theorem fitQ_le_quartic {u : ℝ} (h0 : 0 ≤ u) (h1 : u ≤ 1 / 3) :
    fitQ (1 - u) ≤ 3e-8 - 1.25677255 * u - 0.30267231 * u ^ 2 + 0.15292371 * u ^ 3
      + 0.26 * u ^ 4 := by
  have e : fitQ (1 - u) - (3e-8 - 1.25677255 * u - 0.30267231 * u ^ 2 + 0.15292371 * u ^ 3) =
      u ^ 4 * (0.25736096 - 0.2159216 * u + 0.61745735 * u ^ 2 - 1.06271775 * u ^ 3
        + 0.7157027 * u ^ 4 - 0.17087277 * u ^ 5) := by
    unfold fitQ; ring
  have h : 0.25736096 - 0.2159216 * u + 0.61745735 * u ^ 2 - 1.06271775 * u ^ 3
        + 0.7157027 * u ^ 4 - 0.17087277 * u ^ 5 ≤ 0.26 := by
    have p2 : u ^ 2 ≤ u * (1 / 3) := by nlinarith
    have p4 : u ^ 4 ≤ u ^ 3 * (1 / 3) := by
      rw [pow_succ]; exact mul_le_mul_of_nonneg_left h1 (by positivity)
    have p5 : 0 ≤ u ^ 5 := by positivity
    have p3 : 0 ≤ u ^ 3 := by positivity
    linarith
  have := mul_le_mul_of_nonneg_left h (by positivity : (0 : ℝ) ≤ u ^ 4)
  linarith

/-- An upper bound of the exponential part of the fit near `t = 1`. -/
theorem fitExp_le {u : ℝ} (h0 : 1e-3 ≤ u) (h1 : u ≤ 1 / 3) :
    exp (fitQ (1 - u)) ≤
      1.00000004 - 1.2567725 * u + 0.487077 * u ^ 2 + 0.2027 * u ^ 3 := by
  have hu0 : 0 ≤ u := le_trans (by norm_num) h0
  refine (Real.exp_le_exp.2 (fitQ_le_quartic hu0 h1)).trans ?_
  have hw : 3e-8 - 1.25677255 * u - 0.30267231 * u ^ 2 + 0.15292371 * u ^ 3 + 0.26 * u ^ 4 ≤ 0 := by
    have p4 : u ^ 4 ≤ u ^ 3 * (1 / 3) := by
      rw [pow_succ]; exact mul_le_mul_of_nonneg_left h1 (by positivity)
    have p3 : u ^ 3 ≤ u ^ 2 * (1 / 3) := by
      rw [pow_succ]; exact mul_le_mul_of_nonneg_left h1 (by positivity)
    have p2 : 0 ≤ u ^ 2 := by positivity
    norm_num at h0 ⊢
    linarith
  refine (exp_le_quartic hw).trans ?_
  have n2 : 0 ≤ u ^ 2 := by positivity
  have n3 : 0 ≤ u ^ 3 := by positivity
  have n4 : 0 ≤ u ^ 4 := by positivity
  have n5 : 0 ≤ u ^ 5 := by positivity
  have n12 : 0 ≤ u ^ 12 := by positivity
  have n13 : 0 ≤ u ^ 13 := by positivity
  have n14 : 0 ≤ u ^ 14 := by positivity
  have n9 : 0 ≤ u ^ 9 := by positivity
  have n8 : 0 ≤ u ^ 8 := by positivity
  have p6 : u ^ 6 ≤ u ^ 5 * (1 / 3) := by
    rw [pow_succ]; exact mul_le_mul_of_nonneg_left h1 (by positivity)
  have p7 : u ^ 7 ≤ u ^ 6 * (1 / 3) := by
    rw [pow_succ]; exact mul_le_mul_of_nonneg_left h1 (by positivity)
  have p10 : u ^ 10 ≤ u ^ 9 * (1 / 3) := by
    rw [pow_succ]; exact mul_le_mul_of_nonneg_left h1 (by positivity)
  have p11 : u ^ 11 ≤ u ^ 10 * (1 / 3) := by
    rw [pow_succ]; exact mul_le_mul_of_nonneg_left h1 (by positivity)
  have p15 : u ^ 15 ≤ u ^ 14 * (1 / 3) := by
    rw [pow_succ]; exact mul_le_mul_of_nonneg_left h1 (by positivity)
  have p16 : u ^ 16 ≤ u ^ 15 * (1 / 3) := by
    rw [pow_succ]; exact mul_le_mul_of_nonneg_left h1 (by positivity)
  ring_nf
  linarith

theorem draw_poly {u : ℝ} (h0 : 1.99e-3 ≤ u) (h1 : u ≤ 1 / 3) :
    (1 - u) ^ 5 * (1.00000004 - 1.2567725 * u + 0.487077 * u ^ 2 + 0.2027 * u ^ 3)
      + 2 * 1.12838 * u * (1 - u) ^ 3 ≤ (1 - u) ^ 4 + 4 * u ^ 2 * (1 - u) ^ 2 + 8 * u ^ 4 := by
  have hu0 : 0 ≤ u := le_trans (by norm_num) h0
  have e : (1 - u) ^ 4 + 4 * u ^ 2 * (1 - u) ^ 2 + 8 * u ^ 4
      - ((1 - u) ^ 5 * (1.00000004 - 1.2567725 * u + 0.487077 * u ^ 2 + 0.2027 * u ^ 3)
      + 2 * 1.12838 * u * (1 - u) ^ 3)
      = -4e-8 + 1.27e-5 * u - 0.0006599 * u ^ 2 + 6.0301304 * u ^ 3 - 6.1682352 * u ^ 4
        + 10.12763254 * u ^ 5 - 1.6651575 * u ^ 6 - 0.526423 * u ^ 7 + 0.2027 * u ^ 8 := by ring
  have p8 : 0 ≤ u ^ 8 := by positivity
  have p7 : u ^ 7 ≤ u ^ 5 * (1 / 9) := by
    have : u ^ 2 ≤ 1 / 9 := by nlinarith
    calc u ^ 7 = u ^ 5 * u ^ 2 := by ring
      _ ≤ _ := mul_le_mul_of_nonneg_left this (by positivity)
  have p6 : u ^ 6 ≤ u ^ 5 * (1 / 3) := by
    rw [pow_succ]; exact mul_le_mul_of_nonneg_left h1 (by positivity)
  have p5 : 0 ≤ u ^ 3 * (u - 1 / 3) ^ 2 := by positivity
  have p3 : 0 ≤ u ^ 3 := by positivity
  have hc : 0 ≤ -4e-8 + 1.27e-5 * u - 0.0006599 * u ^ 2 + 4.9 * u ^ 3 := by
    have q : 0 ≤ (u - 1.99e-3) * (4.9 * u ^ 2 + 0.009 * u) := by
      apply mul_nonneg
      · linarith
      · positivity
    have q1 : 4.9 * u ^ 3 - 0.0006599 * u ^ 2 = (u - 1.99e-3) * (4.9 * u ^ 2 + 0.009 * u)
      + 0.0000911 * u ^ 2 + 1.791e-5 * u := by ring
    have q2 : 0 ≤ u ^ 2 := by positivity
    norm_num at q q1 h0 ⊢
    linarith
  norm_num at e hc p5 p6 p7 ⊢
  nlinarith

theorem two_div_sqrt_pi_lt' : 2 / √π < 1.12838 := by
  rw [div_lt_iff₀ (Real.sqrt_pos.2 Real.pi_pos)]
  have h : 1.772453 < √π := by
    rw [Real.lt_sqrt (by norm_num)]
    have := Real.pi_gt_d6
    norm_num at this ⊢
    linarith
  nlinarith

/-- `(2/√π) z e^{-z²} ≤ erf z` for the fit, away from zero. -/
theorem erf_gt {z : ℝ} (h0 : 0.004 ≤ z) : 2 / √π * exp (-z ^ 2) * z < 1 - fit z := by
  have hz : 0 < z := lt_of_lt_of_le (by norm_num) h0
  have hk := two_div_sqrt_pi_lt'
  rcases le_or_gt z 1 with h1 | h1
  · obtain ⟨u, hu⟩ : ∃ u, u = z / (2 + z) := ⟨_, rfl⟩
    have hu1 : u ≤ 1 / 3 := by
      rw [hu, div_le_iff₀ (by linarith)]; linarith
    have hu0 : 1.99e-3 ≤ u := by
      rw [hu, le_div_iff₀ (by linarith)]
      norm_num at h0 ⊢
      linarith
    have ht : (1 + z / 2)⁻¹ = 1 - u := by rw [hu]; field_simp; ring
    have hx : z = 2 * u / (1 - u) := by
      rw [hu]; field_simp; ring
    have hd : 0 < 1 - u := by linarith
    have hp := draw_poly hu0 hu1
    have hE := fitExp_le (le_trans (by norm_num) hu0) hu1
    set T := 1.00000004 - 1.2567725 * u + 0.487077 * u ^ 2 + 0.2027 * u ^ 3
    have h7 : fit z = exp (-z ^ 2) * ((1 - u) * exp (fitQ (1 - u))) := by
      rw [fit, ht, sub_eq_add_neg (fitQ _), Real.exp_add]; ring
    have h8 : exp (-z ^ 2) * exp (z ^ 2) = 1 := by
      rw [← Real.exp_add]; simp
    have hq := Real.quadratic_le_exp_of_nonneg (x := z ^ 2) (by positivity)
    have hpoly : (1 - u) * T + 1.12838 * z ≤ 1 + z ^ 2 + (z ^ 2) ^ 2 / 2 := by
      have h4 : 0 < (1 - u) ^ 4 := by positivity
      have e1 : (1 - u) * T + 1.12838 * z
          = ((1 - u) ^ 5 * T + 2 * 1.12838 * u * (1 - u) ^ 3) / (1 - u) ^ 4 := by
        rw [hx]; field_simp
      have e2 : 1 + z ^ 2 + (z ^ 2) ^ 2 / 2
          = ((1 - u) ^ 4 + 4 * u ^ 2 * (1 - u) ^ 2 + 8 * u ^ 4) / (1 - u) ^ 4 := by
        rw [hx]; field_simp; ring
      rw [e1, e2]
      gcongr
    have h3 : (1 - u) * exp (fitQ (1 - u)) ≤ (1 - u) * T := by gcongr
    have h5 : 2 / √π * z < 1.12838 * z := by gcongr
    have h6 : (1 - u) * exp (fitQ (1 - u)) + 2 / √π * z < exp (z ^ 2) := by linarith
    have h9 := mul_lt_mul_of_pos_left h6 (Real.exp_pos (-z ^ 2))
    rw [h8] at h9
    rw [h7]
    linarith
  · have hz1 : z ≤ exp (z - 1) := by linarith [Real.add_one_le_exp (z - 1)]
    have e1 : exp (z - 1) * exp (-z ^ 2) ≤ exp (-1) := by
      rw [← Real.exp_add]
      apply Real.exp_le_exp.2
      nlinarith
    have h3 : exp (-1) < (0.3679 : ℝ) := Real.exp_neg_one_lt_d9.trans (by norm_num)
    have hE := Real.exp_pos (-z ^ 2)
    have h4 : exp (-z ^ 2) * z ≤ 0.3679 := by nlinarith
    have h5 : exp (-z ^ 2) ≤ 0.3679 := by nlinarith
    have h6 := fit_le_inv hz.le
    have h7 : 1.000000031 / (1 + z) ≤ 1 := by
      rw [div_le_one (by linarith)]
      linarith
    have h8 : fit z ≤ 0.3679 := h6.trans (by nlinarith)
    have h9 : 2 / √π * exp (-z ^ 2) * z ≤ 1.12838 * 0.3679 := by
      rw [mul_assoc]; gcongr
    norm_num at h8 h9 ⊢
    linarith

/-- For margins that are not small the variance correction of a draw between equals lies
strictly between zero and one. -/
theorem wDraw_mem {ε : ℝ} (h0 : 0.004 ≤ ε / √2) : 0 < tsWDraw 0 ε ∧ tsWDraw 0 ε < 1 := by
  have hz : 0 < ε / √2 := lt_of_lt_of_le (by norm_num) h0
  have hε : 0 < ε := by
    have h2 : 0 < √(2 : ℝ) := by positivity
    rcases div_pos_iff.1 hz with h | h
    · exact h.1
    · linarith [h.2]
  have ht := tiny_le_erf (le_trans (by norm_num) h0)
  have hpos : 0 < 1 - fit (ε / √2) := lt_of_lt_of_le (by rw [tsTiny]; norm_num) ht
  rw [wDraw_equal hε ht]
  refine ⟨by positivity, ?_⟩
  rw [div_lt_one hpos]
  exact erf_gt h0

theorem wDraw_le {ε : ℝ} (h0 : 0.004 ≤ ε / √2) : 0 ≤ tsWDraw 0 ε ∧ tsWDraw 0 ε ≤ 1 :=
  ⟨(wDraw_mem h0).1.le, (wDraw_mem h0).2.le⟩

/-- A draw between equals leaves the means alone. -/
theorem vDraw_equal {ε : ℝ} (h0 : 0.004 ≤ ε / √2) : tsVDraw 0 ε = 0 := by
  have hz : 0 < ε / √2 := lt_of_lt_of_le (by norm_num) h0
  have hε : 0 < ε := by
    have h2 : 0 < √(2 : ℝ) := by positivity
    rcases div_pos_iff.1 hz with h | h
    · exact h.1
    · linarith [h.2]
  have ht := tiny_le_erf (le_trans (by norm_num) h0)
  have hn' : ¬ tsDrawNorm 0 ε < tsTiny := by rw [drawNorm_equal hε]; exact not_lt.2 ht
  have hp : normalPdf (-ε) = normalPdf ε := by simp [normalPdf]
  rw [tsVDraw, if_neg hn', abs_zero, sub_zero, sub_zero, hp, sub_self, mul_zero, zero_div]

end Skillratings.TrueSkill
