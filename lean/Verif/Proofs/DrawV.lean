import Verif.Proofs.TruncVar
import Verif.Proofs.DrawW
/-
The mean correction of a draw lies between those of a loss and of a win, unless the draw margin is
tiny.
-/
namespace Skillratings.TrueSkill
open Real Spec Filter Topology

theorem normalPdf_le_of_abs {x y : ℝ} (h : |x| ≤ |y|) : normalPdf y ≤ normalPdf x := by
  have : x ^ 2 ≤ y ^ 2 := sq_le_sq.2 h
  unfold normalPdf
  gcongr

/-- The mean of a normal variable on an interval with a positive midpoint is at most the midpoint. -/
theorem midpoint {t e : ℝ} (ht : 0 ≤ t) (he : 0 ≤ e) :
    normalPdf (e - t) - normalPdf (-e - t) ≤ t * (Phi (e - t) - Phi (-e - t)) := by
  have hd : ∀ z, HasDerivAt (fun z => t * (Phi (z - t) - Phi (-z - t))
      - (normalPdf (z - t) - normalPdf (-z - t)))
      (z * (normalPdf (z - t) - normalPdf (-z - t))) z := by
    intro z
    have a1 : HasDerivAt (fun z : ℝ => z - t) 1 z := (hasDerivAt_id z).sub_const t
    have a2 : HasDerivAt (fun z : ℝ => -z - t) (-1) z := ((hasDerivAt_id z).neg).sub_const t
    have b1 := (hasDerivAt_Phi (z - t)).comp z a1
    have b2 := (hasDerivAt_Phi (-z - t)).comp z a2
    have c1 := (hasDerivAt_normalPdf (z - t)).comp z a1
    have c2 := (hasDerivAt_normalPdf (-z - t)).comp z a2
    exact (((b1.sub b2).const_mul t).sub (c1.sub c2)).congr_deriv (by ring)
  have hm : MonotoneOn (fun z => t * (Phi (z - t) - Phi (-z - t))
      - (normalPdf (z - t) - normalPdf (-z - t))) (Set.Ici 0) := by
    refine monotoneOn_of_deriv_nonneg (convex_Ici 0)
      (fun x _ => (hd x).continuousAt.continuousWithinAt)
      (fun x _ => (hd x).differentiableAt.differentiableWithinAt) (fun x hx => ?_)
    rw [interior_Ici] at hx
    have hx : 0 < x := hx
    rw [(hd x).deriv]
    refine mul_nonneg hx.le (sub_nonneg.2 (normalPdf_le_of_abs ?_))
    rw [abs_of_neg (a := -x - t) (by linarith)]
    exact abs_le.2 ⟨by linarith, by linarith⟩
  have := hm (Set.mem_Ici.2 le_rfl) (Set.mem_Ici.2 he) he
  simp only [zero_sub, neg_zero, sub_self, mul_zero] at this
  linarith

theorem tendsto_normalPdf : Tendsto normalPdf atTop (𝓝 0) := by
  have h1 : Tendsto (fun x : ℝ => -x ^ 2 / 2) atTop atBot := by
    have : Tendsto (fun x : ℝ => x ^ 2 / 2) atTop atTop :=
      (tendsto_pow_atTop (by norm_num)).atTop_div_const (by norm_num)
    refine (tendsto_neg_atTop_atBot.comp this).congr fun x => ?_
    simp only [Function.comp]; ring
  have := (Real.tendsto_exp_atBot.comp h1).div_const (√(2 * π))
  rw [zero_div] at this
  exact this

/-- The inverse Mills ratio is at least its argument. -/
theorem mills_ge {z : ℝ} (hz : 0 < z) : z * Phi (-z) ≤ normalPdf z := by
  have h : 0 ≤ normalPdf z / z - Phi (-z) := by
    refine nonneg_of_decreasing (a := z) (f := fun y => normalPdf y / y - Phi (-y))
      (f' := fun y => -(normalPdf y / y ^ 2)) (fun y hy => ?_) (fun y hy => ?_) ?_ le_rfl
    · have hy0 : y ≠ 0 := (hz.trans_le hy).ne'
      have a2 : HasDerivAt (fun z : ℝ => -z) (-1) y := (hasDerivAt_id y).neg
      refine (((hasDerivAt_normalPdf y).div (hasDerivAt_id y) hy0).sub
        ((hasDerivAt_Phi (-y)).comp y a2)).congr_deriv ?_
      rw [normalPdf_neg]
      simp only [id]
      field_simp
      ring
    · have := pdf_pos' y
      have := hz.trans_le hy
      exact neg_nonpos.2 (by positivity)
    · have h1 : Tendsto (fun y => normalPdf y / y) atTop (𝓝 0) := by
        have := tendsto_normalPdf.mul tendsto_inv_atTop_zero
        rw [zero_mul] at this
        exact this
      have h2 := tendsto_Phi_atBot.comp tendsto_neg_atTop_atBot
      have := h1.sub h2
      rwa [sub_zero] at this
  have := sub_nonneg.1 h
  rw [le_div_iff₀ hz] at this
  linarith

theorem pdf_ge_small {x : ℝ} (h : |x| ≤ 1 / 2) : 0.34 ≤ normalPdf x := by
  have hx2 : x ^ 2 ≤ 1 / 4 := by
    rw [← sq_abs]
    calc |x| ^ 2 ≤ (1 / 2) ^ 2 := by gcongr
      _ = _ := by norm_num
  have he : 0.875 ≤ exp (-x ^ 2 / 2) := by
    have := Real.add_one_le_exp (-x ^ 2 / 2)
    norm_num at hx2 ⊢; linarith
  have hs : √(2 * π) ≤ 2.51 := by
    rw [Real.sqrt_le_left (by norm_num)]
    have := Real.pi_lt_d4
    norm_num at this ⊢; linarith
  have hs0 : 0 < √(2 * π) := by positivity
  rw [normalPdf, le_div_iff₀ hs0]
  norm_num at he hs ⊢; linarith

theorem mills_ge_half {y z : ℝ} (hy : 0 ≤ y) (hz : y ≤ z) :
    (y + 1 / 2) / 2 * Phi (-z) ≤ normalPdf z := by
  have hp := Phi_pos (-z)
  have hh : 1 / 2 * Phi (-z) ≤ normalPdf z := by
    rcases le_total (1 / 2) z with h | h
    · have := mills_ge (z := z) (by linarith)
      nlinarith
    · have h1 := pdf_ge_small (x := z) (by rw [abs_of_nonneg (by linarith)]; exact h)
      have h2 := Phi_le_one (-z)
      have h3 : Phi (-z) ≤ 1 / 2 := Phi_zero ▸ Phi_strictMono.monotone (by linarith)
      norm_num at h1; linarith
  rcases hy.eq_or_lt with rfl | h0
  · linarith
  · have := mills_ge (z := z) (by linarith)
    nlinarith

theorem Phi_sub_ge {a b k : ℝ} (h : a ≤ b) (hk : ∀ x ∈ Set.Icc a b, k ≤ normalPdf x) :
    (b - a) * k ≤ Phi b - Phi a := by
  rw [← integral_pdf h]
  have := MeasureTheory.setIntegral_mono_on (μ := MeasureTheory.volume) (s := Set.Icc a b)
    (f := fun _ => k) (g := normalPdf) (by simp)
    (continuous_normalPdf.continuousOn.integrableOn_compact isCompact_Icc) measurableSet_Icc hk
  rwa [MeasureTheory.setIntegral_const, Real.volume_real_Icc_of_le h, smul_eq_mul] at this

/-- The upper tail from `y` exceeds the upper tail from `y + 2e` by a factor. -/
theorem tail_ratio {y e : ℝ} (hy : 0 ≤ y) (he : 0 ≤ e) :
    Phi (-(y + 2 * e)) * (1 + e * (y + 1 / 2)) ≤ Phi (-y) := by
  have h1 := mills_ge_half hy (show y ≤ y + 2 * e by linarith)
  have h2 := Phi_sub_ge (a := -(y + 2 * e)) (b := -y) (k := normalPdf (y + 2 * e)) (by linarith)
    fun x hx => normalPdf_le_of_abs (by
      rw [abs_of_nonneg (a := y + 2 * e) (by linarith), abs_of_nonpos (by linarith [hx.2])]
      linarith [hx.1])
  nlinarith

/-- The crate's distribution function reaches its threshold before 29. -/
theorem cdf_tiny_le {y : ℝ} (h : tsTiny ≤ normalCdf (-y)) : y ≤ 29 := by
  by_contra hy
  rw [not_le] at hy
  obtain ⟨t, E, h0, h1, -, hyt, -, hc⟩ := ratio_neg (y := -y) (by linarith)
  have ht : ¬ t < 0.09 := fun h' => by
    have := fit_tiny h0 h'
    linarith
  have : 2 * (1 - t) / t ≤ 20.3 := by
    rw [div_le_iff₀ h0]; norm_num at ht ⊢; linarith
  have h2 : √2 ≤ (1.415 : ℝ) := by
    rw [Real.sqrt_le_left (by norm_num)]; norm_num
  have h3 : √2 * (2 * (1 - t) / t) ≤ 1.415 * 20.3 :=
    mul_le_mul h2 this (div_nonneg (by linarith) h0.le) (by norm_num)
  norm_num at h3; linarith

theorem draw_real {y e : ℝ} (hy : 0 ≤ y) (hy' : y ≤ 29) (he : 1 / 500 ≤ e) :
    1.2e-6 * (y + 2 * e) * (1 + e * (y + 1 / 2)) ≤ e * (e * (y + 1 / 2)) := by
  have hx : 0 ≤ e * (y + 1 / 2) := by positivity
  have k1 : 1.2e-6 * (y + 2 * e) * (e * (y + 1 / 2)) ≤ 0.1 * e * (e * (y + 1 / 2)) := by
    refine mul_le_mul_of_nonneg_right ?_ hx
    norm_num; linarith
  have k2 : 1.2e-6 * y ≤ 0.31 * e * (e * y) := by
    have : (1 / 500) * ((1 / 500) * y) ≤ e * (e * y) := by gcongr
    norm_num at this ⊢; linarith
  have k3 : 1.2e-6 * (2 * e) ≤ 0.31 * e * (e * (1 / 2)) := by nlinarith
  nlinarith

/-- The weight that the approximation gives to a draw is not much below the true weight. -/
theorem draw_weight {s e : ℝ} (hs : 0 ≤ s) (he : 1 / 500 ≤ e)
    (hn : tsTiny ≤ normalCdf (e - s) - normalCdf (-e - s)) :
    s * (Phi (e - s) - Phi (-e - s)) ≤ (s + e) * (normalCdf (e - s) - normalCdf (-e - s)) := by
  have he0 : 0 < e := by linarith
  have hT : (0 : ℝ) < tsTiny := by norm_num [tsTiny]
  rcases lt_or_ge s e with h | h
  · have e1 := (abs_le.1 (normalCdf_accurate (e - s)).2).1
    have e2 := (abs_le.1 (normalCdf_accurate (-e - s)).2).2
    have hD : 0.00068 ≤ Phi (e - s) - Phi (-e - s) := by
      have a1 := Phi_strictMono.monotone (show (0 : ℝ) ≤ e - s by linarith)
      have a2 := Phi_strictMono.monotone (show -e - s ≤ -(1 / 500) by linarith)
      have := Phi_sub_ge (a := -(1 / 500)) (b := 0) (k := 0.34) (by norm_num) fun x hx =>
        pdf_ge_small (abs_le.2 ⟨by linarith [hx.1], by linarith [hx.2]⟩)
      norm_num at this a1 a2 ⊢; linarith
    set D := Phi (e - s) - Phi (-e - s)
    have h3 : D - 6e-7 ≤ normalCdf (e - s) - normalCdf (-e - s) := by
      norm_num at e1 e2 ⊢; linarith
    have h4 := mul_le_mul_of_nonneg_left h3 (show 0 ≤ s + e by linarith)
    have h5 : (s + e) * 6e-7 ≤ e * D := by
      have : e * 0.00068 ≤ e * D := by gcongr
      norm_num at this ⊢; linarith
    linarith
  · obtain ⟨y, rfl⟩ : ∃ y, s = y + e := ⟨s - e, by ring⟩
    have hy : 0 ≤ y := by linarith
    rw [show e - (y + e) = -y by ring, show -e - (y + e) = -(y + 2 * e) by ring] at *
    have hy' : y ≤ 29 := cdf_tiny_le (by have := normalCdf_pos (-(y + 2 * e)); linarith)
    have e1 := (abs_le.1 (normalCdf_accurate (-y)).1).1
    have e2 := (abs_le.1 (normalCdf_accurate (-(y + 2 * e))).1).2
    have h1 := tail_ratio hy he0.le
    have h2 := draw_real hy hy' he
    have hA := Phi_pos (-y)
    have hB := Phi_pos (-(y + 2 * e))
    have hx : 0 < e * (y + 1 / 2) := by positivity
    set x := e * (y + 1 / 2)
    set A := Phi (-y)
    set B := Phi (-(y + 2 * e))
    have hBA : B ≤ A := by nlinarith
    have h3 : (A - B) - 1.2e-6 * A ≤ normalCdf (-y) - normalCdf (-(y + 2 * e)) := by
      norm_num at e1 e2 ⊢; linarith
    have h4 := mul_le_mul_of_nonneg_left h3 (show 0 ≤ y + e + e by linarith)
    have h5 : 1.2e-6 * (y + 2 * e) * A ≤ e * (A - B) := by
      have k1 : x * A ≤ (A - B) * (1 + x) := by nlinarith
      have k2 := mul_le_mul_of_nonneg_right h2 hA.le
      have k3 := mul_le_mul_of_nonneg_left k1 he0.le
      have : (1.2e-6 * (y + 2 * e) * A) * (1 + x) ≤ (e * (A - B)) * (1 + x) := by linarith
      exact le_of_mul_le_mul_right this (by linarith)
    linarith

/-- The correction of a win makes up for the margin. -/
theorem tsVWin_ge (t ε : ℝ) : ε - t ≤ tsVWin t ε := by
  have hp := tsVWin_pos t ε
  by_cases h : normalCdf (t - ε) < tsTiny
  · rw [tsVWin, if_pos h]
  · rcases le_total (t - ε) 0 with hy | hy
    · have := (w_neg hy).1
      rw [tsVWin, if_neg h] at hp ⊢
      have := pos_of_mul_pos_right this hp.le
      linarith
    · linarith

theorem draw_num_nonneg {s e : ℝ} (hs : 0 ≤ s) (he : 0 ≤ e) :
    normalPdf (-e - s) ≤ normalPdf (e - s) := by
  refine normalPdf_le_of_abs ?_
  rw [abs_of_nonpos (a := -e - s) (by linarith)]
  exact abs_le.2 ⟨by linarith, by linarith⟩

/-- A draw corrects the mean no more than a win and no less than a loss. -/
theorem tsVDraw_between {t ε : ℝ} (he : ε = 0 ∨ 1 / 500 ≤ ε) :
    -tsVWin (-t) ε ≤ tsVDraw t ε ∧ tsVDraw t ε ≤ tsVWin t ε := by
  have he0 : 0 ≤ ε := by rcases he with h | h <;> linarith
  have w1 := tsVWin_ge t ε
  have w2 := tsVWin_ge (-t) ε
  have p1 := tsVWin_pos t ε
  have p2 := tsVWin_pos (-t) ε
  by_cases hn : tsDrawNorm t ε < tsTiny
  · rw [tsVDraw, if_pos hn]
    split_ifs <;> constructor <;> linarith
  · rcases he with rfl | he
    · exfalso
      apply hn
      simp only [tsDrawNorm, zero_sub, neg_zero, sub_self]
      norm_num [tsTiny]
    have hT : (0 : ℝ) < tsTiny := by norm_num [tsTiny]
    have hN : 0 < tsDrawNorm t ε := hT.trans_le (not_lt.1 hn)
    have hm := midpoint (abs_nonneg t) he0
    have hw := draw_weight (abs_nonneg t) he (not_lt.1 hn)
    have h0 := draw_num_nonneg (abs_nonneg t) he0
    rw [tsVDraw, if_neg hn]
    have hup : (normalPdf (ε - |t|) - normalPdf (-ε - |t|)) / tsDrawNorm t ε ≤ |t| + ε := by
      rw [div_le_iff₀ hN]
      exact hm.trans hw
    have hlo : 0 ≤ (normalPdf (ε - |t|) - normalPdf (-ε - |t|)) / tsDrawNorm t ε :=
      div_nonneg (by linarith) hN.le
    split_ifs with h
    · rw [show -1 * (normalPdf (-ε - |t|) - normalPdf (ε - |t|)) / tsDrawNorm t ε
        = (normalPdf (ε - |t|) - normalPdf (-ε - |t|)) / tsDrawNorm t ε by ring]
      rw [abs_of_neg h] at *
      constructor <;> linarith
    · rw [show 1 * (normalPdf (-ε - |t|) - normalPdf (ε - |t|)) / tsDrawNorm t ε
        = -((normalPdf (ε - |t|) - normalPdf (-ε - |t|)) / tsDrawNorm t ε) by ring]
      rw [abs_of_nonneg (not_lt.1 h)] at *
      constructor <;> linarith

theorem corrV_ordered {t ε : ℝ} (he : ε = 0 ∨ 1 / 500 ≤ ε) :
    corrV .LOSS t ε ≤ corrV .DRAW t ε ∧ corrV .DRAW t ε ≤ corrV .WIN t ε := tsVDraw_between he

end Skillratings.TrueSkill
