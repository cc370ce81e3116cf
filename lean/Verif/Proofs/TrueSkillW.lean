import Mathlib.Analysis.Real.Pi.Bounds
import Mathlib.Analysis.SpecialFunctions.Log.Deriv
import Mathlib.Analysis.SpecialFunctions.Sqrt
import Verif.Proofs.TrueSkill
/-
The variance correction of a decided game lies in `[0, 1]`, for the fitted normal
distribution.
-/
namespace Skillratings.TrueSkill
open Real Spec

/-! ### The lower bound -/

theorem four_pi_le : 4 * π ≤ exp 2.5310244 := by
  have h := Real.sum_le_exp_of_nonneg (x := 2.5310244) (by norm_num) 20
  refine le_trans ?_ h
  have hpi := Real.pi_lt_d20
  simp only [Finset.sum_range_succ, Finset.sum_range_zero, Nat.factorial]
  norm_num at hpi ⊢
  linarith

theorem two_sqrt_pi_le : 2 * √π ≤ exp 1.2655122 := by
  have h1 : (2 * √π) ^ 2 ≤ exp 1.2655122 ^ 2 := by
    rw [mul_pow, Real.sq_sqrt Real.pi_pos.le, ← Real.exp_nat_mul]
    have e : ((2 : ℕ) : ℝ) * 1.2655122 = 2.5310244 := by norm_num
    rw [e]
    have := four_pi_le
    linarith
  exact le_of_sq_le_sq h1 (Real.exp_pos _).le

theorem one_sub_le_exp {t : ℝ} (h0 : 0 ≤ t) (h1 : t ≤ 1) :
    1 - t ≤ exp (-(t + t ^ 2 / 2 + t ^ 3 / 3)) := by
  rcases h1.eq_or_lt with rfl | h1
  · rw [sub_self]; exact (Real.exp_pos _).le
  · have hs := Real.hasSum_pow_div_log_of_abs_lt_one (x := t) (by rw [abs_of_nonneg h0]; exact h1)
    have hle := sum_le_hasSum (Finset.range 3) (fun n _ => by positivity) hs
    simp only [Finset.sum_range_succ, Finset.sum_range_zero] at hle
    norm_num at hle
    rw [← Real.log_le_iff_le_exp (by linarith)]
    linarith

theorem lower {t : ℝ} (h0 : 0 ≤ t) (h1 : t ≤ 1) : 2 * √π * (1 - t) < exp (-fitQ t) := by
  have hp : 0 ≤ 2 * √π := by positivity
  calc 2 * √π * (1 - t) ≤ exp 1.2655122 * exp (-(t + t ^ 2 / 2 + t ^ 3 / 3)) :=
        mul_le_mul two_sqrt_pi_le (one_sub_le_exp h0 h1) (by linarith) (Real.exp_pos _).le
    _ = exp (1.2655122 - (t + t ^ 2 / 2 + t ^ 3 / 3)) := by rw [← Real.exp_add]; rfl
    _ < exp (-fitQ t) := by
      apply Real.exp_lt_exp.2
      have e : -fitQ t - (1.2655122 - (t + t ^ 2 / 2 + t ^ 3 / 3)) =
          (0.00000003 - 0.00002368 * t + 0.12 * t ^ 2) + 0.00590804 * t ^ 2
          + (1 / 3 - 0.09678418) * t ^ 3 + 0.18628806 * t ^ 4 - 0.27886807 * t ^ 5
          + t ^ 6 * (1.13520398 - 1.48851587 * t + 0.82215223 * t ^ 2 - 0.17087277 * t ^ 3) := by
        unfold fitQ; ring
      have a1 : 0 < 0.00000003 - 0.00002368 * t + 0.12 * t ^ 2 := by
        nlinarith [sq_nonneg (t - 0.0001)]
      have p5 : t ^ 5 ≤ t ^ 4 := pow_le_pow_of_le_one h0 h1 (by norm_num)
      have p4 : t ^ 4 ≤ t ^ 3 := pow_le_pow_of_le_one h0 h1 (by norm_num)
      have p4' : 0 ≤ t ^ 4 := by positivity
      have p3' : 0 ≤ t ^ 3 := by positivity
      have p2' : 0 ≤ t ^ 2 := by positivity
      have p3 : t ^ 3 ≤ t ^ 2 := pow_le_pow_of_le_one h0 h1 (by norm_num)
      have a2 : 0 ≤ 1.13520398 - 1.48851587 * t + 0.82215223 * t ^ 2 - 0.17087277 * t ^ 3 := by
        nlinarith [sq_nonneg (t - 1)]
      have a3 : 0 ≤ t ^ 6 * (1.13520398 - 1.48851587 * t + 0.82215223 * t ^ 2
          - 0.17087277 * t ^ 3) := mul_nonneg (by positivity) a2
      nlinarith

/-! ### The upper bound -/

theorem bernstein (t : ℝ) : (1 - 2 * t + 3 / 2 * t ^ 2) * (1 + t * fitQ' t) ^ 2 - 1 = t * (
      (38067291786931645434646224570239521596403952286469 / 47612217598171370960384564223775279460000000000000000) * (t - 9 / 100) ^ 0 * (1 - t) ^ 19
      + (164848277268150103641122768579934574348899488647 / 3808977407853709676830765137902022356800000000000) * (t - 9 / 100) ^ 1 * (1 - t) ^ 18
      + (4565113639292754080193327703581673005807010158599 / 4761221759817137096038456422377527946000000000000) * (t - 9 / 100) ^ 2 * (1 - t) ^ 17
      + (581191814986590637935183123567710556687716525617 / 47612217598171370960384564223775279460000000000) * (t - 9 / 100) ^ 3 * (1 - t) ^ 16
      + (9964676946160583100799607110346456727485448239 / 95224435196342741920769128447550558920000000) * (t - 9 / 100) ^ 4 * (1 - t) ^ 15
      + (424813201315389977665528107159381427461696103 / 680174537116733870862636631768218278000000) * (t - 9 / 100) ^ 5 * (1 - t) ^ 14
      + (18450675768274246485555736997296929948536561 / 6801745371167338708626366317682182780000) * (t - 9 / 100) ^ 6 * (1 - t) ^ 13
      + (326570573926237214018565547785548457071121 / 36624782767824131507988126325980984200) * (t - 9 / 100) ^ 7 * (1 - t) ^ 12
      + (4161840986452754021756503633641905587395 / 183123913839120657539940631629904921) * (t - 9 / 100) ^ 8 * (1 - t) ^ 11
      + (8319726458883812801373292708463614758300 / 183123913839120657539940631629904921) * (t - 9 / 100) ^ 9 * (1 - t) ^ 10
      + (13088610031756540530073726013489113070000 / 183123913839120657539940631629904921) * (t - 9 / 100) ^ 10 * (1 - t) ^ 9
      + (16185809555915252310666095505087129000000 / 183123913839120657539940631629904921) * (t - 9 / 100) ^ 11 * (1 - t) ^ 8
      + (2237373111345063535067770309497450000000 / 26160559119874379648562947375700703) * (t - 9 / 100) ^ 12 * (1 - t) ^ 7
      + (21860224154571868996507062958575000000000 / 340087268558366935431318315884109139) * (t - 9 / 100) ^ 13 * (1 - t) ^ 6
      + (88283019866593657279641177369500000000000 / 2380610879908568548019228211188763973) * (t - 9 / 100) ^ 14 * (1 - t) ^ 5
      + (38347455793683253812557876850000000000000 / 2380610879908568548019228211188763973) * (t - 9 / 100) ^ 15 * (1 - t) ^ 4
      + (12138137641687675596125215000000000000000 / 2380610879908568548019228211188763973) * (t - 9 / 100) ^ 16 * (1 - t) ^ 3
      + (2643925825745325914228500000000000000000 / 2380610879908568548019228211188763973) * (t - 9 / 100) ^ 17 * (1 - t) ^ 2
      + (354551051956416679250000000000000000000 / 2380610879908568548019228211188763973) * (t - 9 / 100) ^ 18 * (1 - t) ^ 1
      + (3156145247381125000000000000000000000 / 340087268558366935431318315884109139) * (t - 9 / 100) ^ 19 * (1 - t) ^ 0) := by
  unfold fitQ'
  ring

theorem bernstein_pos {t : ℝ} (h0 : 0.09 ≤ t) (h1 : t ≤ 1) :
    1 < (1 - 2 * t + 3 / 2 * t ^ 2) * (1 + t * fitQ' t) ^ 2 := by
  have a : 0 ≤ t - 9 / 100 := by norm_num at h0 ⊢; linarith
  have b : 0 ≤ 1 - t := by linarith
  have t0 : 0 < t := by norm_num at h0; linarith
  have hp : 0 < (1 - 2 * t + 3 / 2 * t ^ 2) * (1 + t * fitQ' t) ^ 2 - 1 := by
    rw [bernstein]
    apply mul_pos t0
    rcases a.eq_or_lt with a0 | a0
    · have b0 : 0 < 1 - t := by linarith
      positivity
    · positivity
  linarith

/-- The radicand `(1 - t)² + t²/2`. -/
noncomputable def radD (t : ℝ) : ℝ := 1 - 2 * t + 3 / 2 * t ^ 2

theorem radD_pos (t : ℝ) : 0 < radD t := by
  unfold radD; nlinarith [sq_nonneg (t - 2 / 3)]

noncomputable def radB (t : ℝ) : ℝ := 1 - t + √(radD t)

theorem sqrt_radD_gt {t : ℝ} (h : t ≠ 0) : |1 - t| < √(radD t) := by
  apply Real.lt_sqrt_of_sq_lt
  have : 0 < t ^ 2 := by positivity
  rw [sq_abs, radD]; nlinarith

theorem radB_pos {t : ℝ} (h : t ≠ 0) : 0 < radB t := by
  have h1 := sqrt_radD_gt h
  have h2 := neg_abs_le (1 - t)
  unfold radB; linarith

theorem hasDerivAt_log_radB {t : ℝ} (h : t ≠ 0) :
    HasDerivAt (fun t => log (radB t)) (1 / t * (1 - 1 / √(radD t))) t := by
  have hD : HasDerivAt radD (-2 + 3 * t) t := by
    have := (((hasDerivAt_id t).const_mul (-2 : ℝ)).const_add 1).add
      ((hasDerivAt_pow 2 t).const_mul (3 / 2 : ℝ))
    have e : radD = (fun x : ℝ => 1 + -2 * id x) + fun x : ℝ => 3 / 2 * x ^ 2 := by
      funext x; simp only [radD, Pi.add_apply, id]; ring
    rw [e]
    refine this.congr_deriv ?_
    norm_num
    ring
  have hs := hD.sqrt (radD_pos t).ne'
  have hB : HasDerivAt radB (-1 + (-2 + 3 * t) / (2 * √(radD t))) t := by
    have h1 : HasDerivAt (fun x : ℝ => 1 - x) (-1) t := by
      simpa using (hasDerivAt_id t).const_sub 1
    exact h1.add hs
  have hl := hB.log (radB_pos h).ne'
  refine hl.congr_deriv ?_
  have s0 : 0 < √(radD t) := Real.sqrt_pos.2 (radD_pos t)
  have b0 := radB_pos h
  have hsq : √(radD t) ^ 2 = radD t := Real.sq_sqrt (radD_pos t).le
  unfold radB at b0 ⊢
  set s := √(radD t)
  have hb : 1 - t + s ≠ 0 := b0.ne'
  have hs0 : s ≠ 0 := s0.ne'
  field_simp
  unfold radD at hsq
  linear_combination -2 * hsq

theorem gap_strictMono : StrictMonoOn (fun t => log (radB t) + fitQ t) (Set.Icc 0.09 1) := by
  have t0 : ∀ t : ℝ, 0.09 ≤ t → t ≠ 0 := by
    intro t h h0; rw [h0] at h; norm_num at h
  apply strictMonoOn_of_deriv_pos (convex_Icc _ _)
  · intro t ht
    exact ((hasDerivAt_log_radB (t0 t ht.1)).add (hasDerivAt_fitQ t)).continuousAt.continuousWithinAt
  · intro t ht
    rw [interior_Icc] at ht
    have h0 : 0 < t := by have := ht.1; norm_num at this; linarith
    have hd := (hasDerivAt_log_radB (t0 t ht.1.le)).add (hasDerivAt_fitQ t)
    have e : (fun t => log (radB t) + fitQ t) = (fun t => log (radB t)) + fitQ := rfl
    rw [e, hd.deriv]
    have hq := fitQ'_pos h0 ht.2
    have hs : 0 < √(radD t) := Real.sqrt_pos.2 (radD_pos t)
    have hb : 1 < √(radD t) * (1 + t * fitQ' t) := by
      have h1 := bernstein_pos ht.1.le ht.2.le
      have h2 : 1 ^ 2 < (√(radD t) * (1 + t * fitQ' t)) ^ 2 := by
        rw [mul_pow, Real.sq_sqrt (radD_pos t).le, one_pow]; exact h1
      exact lt_of_pow_lt_pow_left₀ 2 (by positivity) h2
    have e2 : 1 / t * (1 - 1 / √(radD t)) + fitQ' t
        = (√(radD t) * (1 + t * fitQ' t) - 1) / (t * √(radD t)) := by
      field_simp
      ring
    rw [e2]
    exact div_pos (by linarith) (by positivity)

theorem gap_start : exp (-fitQ 0.09) < √π * radB 0.09 := by
  have hq : -fitQ 0.09 ≤ (2 : ℕ) * 0.5862103 := by unfold fitQ; norm_num
  have he : exp 0.5862103 ≤ 1.7971651 := by
    have h := Real.exp_bound' (x := 0.5862103) (by norm_num) (by norm_num) (n := 12) (by norm_num)
    refine h.trans ?_
    simp only [Finset.sum_range_succ, Finset.sum_range_zero, Nat.factorial]
    norm_num
  have hp : 1.772453 < √π := by
    apply Real.lt_sqrt_of_sq_lt
    have := Real.pi_gt_d20
    norm_num at this ⊢
    linarith
  have hd : 0.912222 < √(radD 0.09) := by
    apply Real.lt_sqrt_of_sq_lt
    unfold radD; norm_num
  have hb : 1.822222 < radB 0.09 := by
    unfold radB; norm_num at hd ⊢; linarith
  calc exp (-fitQ 0.09) ≤ exp ((2 : ℕ) * 0.5862103) := Real.exp_le_exp.2 hq
    _ = exp 0.5862103 ^ 2 := Real.exp_nat_mul _ _
    _ ≤ 1.7971651 ^ 2 := by gcongr
    _ < 1.772453 * 1.822222 := by norm_num
    _ ≤ √π * radB 0.09 := by gcongr

theorem upper {t : ℝ} (h0 : 0.09 ≤ t) (h1 : t ≤ 1) : exp (-fitQ t) < √π * radB t := by
  have t0 : ∀ t : ℝ, 0.09 ≤ t → t ≠ 0 := by
    intro t h h0; rw [h0] at h; norm_num at h
  have hm : log (radB 0.09) + fitQ 0.09 ≤ log (radB t) + fitQ t :=
    gap_strictMono.monotoneOn ⟨le_rfl, by norm_num⟩ ⟨h0, h1⟩ h0
  have hb := radB_pos (t0 t h0)
  have hb' := radB_pos (t0 0.09 le_rfl)
  have hp : 0 < √π := Real.sqrt_pos.2 Real.pi_pos
  have hs := gap_start
  rw [← Real.lt_log_iff_exp_lt (by positivity), Real.log_mul hp.ne' hb'.ne'] at hs
  rw [← Real.lt_log_iff_exp_lt (by positivity), Real.log_mul hp.ne' hb.ne']
  linarith

/-! ### The variance correction -/

/-- Below the mean: the ratio `φ/Φ` in terms of `t`. -/
theorem ratio_neg {y : ℝ} (hy : y ≤ 0) :
    ∃ t E : ℝ, 0 < t ∧ t ≤ 1 ∧ E = exp (-fitQ t) / √π ∧ y = -(√2 * (2 * (1 - t) / t)) ∧
      normalPdf y / normalCdf y = √2 * E / t ∧ normalCdf y = fit (2 * (1 - t) / t) / 2 := by
  have s2 : (0 : ℝ) < √2 := by positivity
  have hz : 0 ≤ -y / √2 := div_nonneg (by linarith) s2.le
  set z := -y / √2 with hzdef
  have hyz : y = -(√2 * z) := by rw [hzdef]; field_simp
  have ht : 0 < (1 + z / 2)⁻¹ := by positivity
  have hzt : 2 * (1 - (1 + z / 2)⁻¹) / (1 + z / 2)⁻¹ = z := by
    have : 1 + z / 2 ≠ 0 := by positivity
    field_simp; ring
  have hcdf : normalCdf y = fit z / 2 := by
    rw [normalCdf, ← hzdef, erfcFit, if_neg (not_lt.2 hz), erfcTail_eq hz]
  refine ⟨(1 + z / 2)⁻¹, exp (-fitQ (1 + z / 2)⁻¹) / √π, ht,
    inv_le_one_of_one_le₀ (by linarith), rfl, by rw [hzt]; exact hyz, ?_, by rw [hzt]; exact hcdf⟩
  rw [hcdf, fit, normalPdf]
  set t := (1 + z / 2)⁻¹
  have e1 : -y ^ 2 / 2 = -z ^ 2 := by
    have : √2 ^ 2 = (2 : ℝ) := Real.sq_sqrt (by norm_num)
    rw [hyz, neg_sq, mul_pow, this]; ring
  have e2 : √(2 * π) = √2 * √π := Real.sqrt_mul (by norm_num) _
  rw [e1, e2, sub_eq_add_neg, Real.exp_add, Real.exp_neg (fitQ t)]
  have h1 := Real.exp_pos (-z ^ 2)
  have h2 := Real.exp_pos (fitQ t)
  have h3 : 0 < √π := Real.sqrt_pos.2 Real.pi_pos
  have h4 : √2 ^ 2 = (2 : ℝ) := Real.sq_sqrt (by norm_num)
  field_simp
  linear_combination -h4

theorem exp_tiny : exp (-407 : ℝ) < 4.4e-162 := by
  have h1 : exp (-407 : ℝ) = (exp 1 ^ 407)⁻¹ := by
    rw [← Real.exp_nat_mul, ← Real.exp_neg]; norm_num
  have h2 : (2.7 : ℝ) ^ 407 ≤ exp 1 ^ 407 := by
    gcongr
    exact le_of_lt (lt_trans (by norm_num) Real.exp_one_gt_d9)
  rw [h1]
  have h3 : (55000 : ℝ) ^ 37 ≤ 2.7 ^ 407 := by
    rw [show 407 = 11 * 37 from rfl, pow_mul]
    gcongr
    norm_num
  calc (exp 1 ^ 407)⁻¹ ≤ ((55000 : ℝ) ^ 37)⁻¹ := inv_anti₀ (by positivity) (h3.trans h2)
    _ < 4.4e-162 := by norm_num

/-- Far out the distribution function is below the threshold. -/
theorem fit_tiny {t : ℝ} (h0 : 0 < t) (h : t < 0.09) : fit (2 * (1 - t) / t) / 2 < tsTiny := by
  have hz : 20.2 < 2 * (1 - t) / t := by
    rw [lt_div_iff₀ h0]; norm_num at h ⊢; linarith
  have hinv : (1 + 2 * (1 - t) / t / 2)⁻¹ = t := by
    field_simp; ring
  have hq := fitQ_le h0.le (by norm_num at h ⊢; linarith : t ≤ 1)
  have he : exp (fitQ t - (2 * (1 - t) / t) ^ 2) ≤ exp (-407) := by
    apply Real.exp_le_exp.2
    nlinarith
  have h4 := exp_tiny
  have hle : t * exp (fitQ t - (2 * (1 - t) / t) ^ 2) ≤ 1 * exp (-407) :=
    mul_le_mul (by norm_num at h ⊢; linarith) he (Real.exp_pos _).le zero_le_one
  rw [fit, hinv, tsTiny]
  norm_num at h4 ⊢
  linarith

theorem w_neg {y : ℝ} (hy : y ≤ 0) :
    0 < normalPdf y / normalCdf y * (normalPdf y / normalCdf y + y) ∧
      (tsTiny ≤ normalCdf y →
        normalPdf y / normalCdf y * (normalPdf y / normalCdf y + y) < 1) := by
  obtain ⟨t, E, h0, h1, hE, hy', hr, hc⟩ := ratio_neg hy
  have s2 : √2 ^ 2 = (2 : ℝ) := Real.sq_sqrt (by norm_num)
  have hp : 0 < √π := Real.sqrt_pos.2 Real.pi_pos
  have hE0 : 0 < E := by rw [hE]; positivity
  have hw : normalPdf y / normalCdf y * (normalPdf y / normalCdf y + y)
      = 2 * (E * (E - 2 * (1 - t))) / t ^ 2 := by
    rw [hr, hy']
    field_simp
    linear_combination (E - 2 * (1 - t)) * s2
  rw [hw]
  constructor
  · have : 2 * (1 - t) < E := by
      rw [hE, lt_div_iff₀ hp]
      have := lower h0.le h1
      linarith
    have : 0 < E * (E - 2 * (1 - t)) := mul_pos hE0 (by linarith)
    positivity
  · intro hn
    have ht : 0.09 ≤ t := by
      by_contra h
      rw [hc] at hn
      have := fit_tiny h0 (not_le.1 h)
      linarith
    have hu : E < radB t := by
      rw [hE, div_lt_iff₀ hp]
      have := upper ht h1
      linarith
    have hs : √(radD t) ^ 2 = radD t := Real.sq_sqrt (radD_pos t).le
    have ha := sqrt_radD_gt h0.ne'
    have ha1 := le_abs_self (1 - t)
    unfold radB at hu
    rw [div_lt_one (by positivity)]
    unfold radD at hs
    have hs' : √(radD t) ^ 2 = 1 - 2 * t + 3 / 2 * t ^ 2 := hs
    set s := √(radD t)
    have k1 : 0 < 1 - t + s - E := by linarith
    have k2 : 0 < s - (1 - t) + E := by linarith
    nlinarith [mul_pos k1 k2]

theorem w_pos {y : ℝ} (hy : 0 < y) :
    0 < normalPdf y / normalCdf y * (normalPdf y / normalCdf y + y) ∧
      normalPdf y / normalCdf y * (normalPdf y / normalCdf y + y) < 1 := by
  have hc0 := normalCdf_pos y
  have hp0 := normalPdf_pos y
  constructor
  · positivity
  · have hc : 0.4999999 < normalCdf y := by
      have h1 := normalCdf_neg (x := y) hy.ne'
      have h2 := normalCdf_strictMono_neg (x := -y) (y := 0) (by linarith) le_rfl
      have h3 := normalCdf_zero_bounds.2
      norm_num at h3 ⊢
      linarith
    have hpi : 2.506 < √(2 * π) := by
      apply Real.lt_sqrt_of_sq_lt
      have := Real.pi_gt_d20
      norm_num at this ⊢
      linarith
    have hexp : exp (-y ^ 2 / 2) ≤ (1 + y ^ 2 / 2)⁻¹ := by
      have h1 := Real.add_one_le_exp (y ^ 2 / 2)
      have e : -y ^ 2 / 2 = -(y ^ 2 / 2) := by ring
      rw [e, Real.exp_neg]
      apply inv_anti₀ (by positivity)
      linarith
    have hv : normalPdf y / normalCdf y ≤ 0.8 * (1 + y ^ 2 / 2)⁻¹ := by
      rw [div_le_iff₀ hc0, normalPdf, div_le_iff₀ (by positivity)]
      have hi : 0 < (1 + y ^ 2 / 2)⁻¹ := by positivity
      have h1 : 1 ≤ 0.8 * normalCdf y * √(2 * π) := by
        have : (0.4999999 : ℝ) * 2.506 ≤ normalCdf y * √(2 * π) := by gcongr
        norm_num at this ⊢
        linarith
      calc exp (-y ^ 2 / 2) ≤ (1 + y ^ 2 / 2)⁻¹ * 1 := by rw [mul_one]; exact hexp
        _ ≤ (1 + y ^ 2 / 2)⁻¹ * (0.8 * normalCdf y * √(2 * π)) := by gcongr
        _ = _ := by ring
    have hv0 : 0 < normalPdf y / normalCdf y := by positivity
    set v := normalPdf y / normalCdf y
    calc v * (v + y) ≤ 0.8 * (1 + y ^ 2 / 2)⁻¹ * (0.8 * (1 + y ^ 2 / 2)⁻¹ + y) := by gcongr
      _ = 0.8 * (0.8 + y * (1 + y ^ 2 / 2)) / (1 + y ^ 2 / 2) ^ 2 := by field_simp
      _ < 1 := by
        rw [div_lt_one (by positivity)]
        nlinarith [sq_nonneg (y ^ 2 - 0.8 * y), sq_nonneg (y - 0.5), sq_nonneg y]

theorem tsWWin_bounds (t ε : ℝ) : 0 ≤ tsWWin t ε ∧ tsWWin t ε ≤ 1 := by
  unfold tsWWin
  split_ifs with h1 h2
  · norm_num
  · norm_num
  · have e : tsVWin t ε = normalPdf (t - ε) / normalCdf (t - ε) := by
      rw [tsVWin, if_neg h1]
    rw [e, add_sub_assoc]
    rcases le_or_gt (t - ε) 0 with h | h
    · exact ⟨(w_neg h).1.le, ((w_neg h).2 (not_lt.1 h1)).le⟩
    · exact ⟨(w_pos h).1.le, (w_pos h).2.le⟩

/-- Strictly below 1 unless the win was impossible. -/
theorem tsWWin_lt_one {t ε : ℝ} (h : tsTiny ≤ normalCdf (t - ε)) : tsWWin t ε < 1 := by
  have h1 := not_lt.2 h
  rw [tsWWin, if_neg h1, tsVWin, if_neg h1, add_sub_assoc]
  rcases le_or_gt (t - ε) 0 with h' | h'
  · exact (w_neg h').2 h
  · exact (w_pos h').2

/-- Strictly positive unless the win was impossible. -/
theorem tsWWin_pos {t ε : ℝ} (h : tsTiny ≤ normalCdf (t - ε)) : 0 < tsWWin t ε := by
  have h1 := not_lt.2 h
  rw [tsWWin, if_neg h1, tsVWin, if_neg h1, add_sub_assoc]
  rcases le_or_gt (t - ε) 0 with h' | h'
  · exact (w_neg h').1
  · exact (w_pos h').1

end Skillratings.TrueSkill
