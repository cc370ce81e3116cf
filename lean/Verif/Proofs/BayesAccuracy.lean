import Verif.Proofs.Bayes
import Verif.Proofs.NormalAccuracy
/-
How far the published TrueSkill corrections, computed with the crate's fitted normal distribution
function, are from the exact conditional moments.
-/
set_option linter.unusedSectionVars false

namespace Skillratings.TrueSkill
open MeasureTheory ProbabilityTheory Spec Real

/-- The exact variance correction of a win is at most one. -/
theorem mills_sq_le (u : ℝ) : normalPdf u / Phi u * (normalPdf u / Phi u + u) ≤ 1 := by
  have h := (std_Ioi (P := gaussianReal 0 1) measurable_id HasLaw.id u).2.2
  have := variance_nonneg (id : ℝ → ℝ) (gaussianReal 0 1)[|id ⁻¹' Set.Ioi (-u)]
  linarith

theorem mills_pos (u : ℝ) : 0 < normalPdf u / Phi u := div_pos (pdf_pos' u) (Phi_pos u)

theorem mills_le (u : ℝ) : normalPdf u / Phi u ≤ |u| + 1 := by
  have h1 := mills_sq_le u
  have h2 := mills_pos u
  by_contra h
  push Not at h
  have h3 : 1 < normalPdf u / Phi u + u := by have := neg_abs_le u; linarith
  have h4 : 1 < normalPdf u / Phi u := by have := abs_nonneg u; linarith
  nlinarith

/-- The computed mean correction of a win. -/
theorem vwin_near {u : ℝ} (h : 3e-162 ≤ Phi u) :
    ¬ normalCdf u < tsTiny ∧
    |normalPdf u / normalCdf u - normalPdf u / Phi u| ≤ 6.1e-7 * (normalPdf u / Phi u) := by
  have ha := (normalCdf_accurate u).1
  have hP := Phi_pos u
  obtain ⟨h1, h2⟩ := abs_le.1 ha
  refine ⟨?_, ?_⟩
  · rw [tsTiny]
    norm_num at h h1 ⊢
    linarith
  · have hn : (1 - 6e-7) * Phi u ≤ normalCdf u := by linarith
    have hn0 : 0 < normalCdf u := lt_of_lt_of_le (by norm_num; linarith) hn
    have e : normalPdf u / normalCdf u - normalPdf u / Phi u
        = normalPdf u / Phi u * ((Phi u - normalCdf u) / normalCdf u) := by
      field_simp
    rw [e, abs_mul, abs_of_pos (mills_pos u), mul_comm]
    refine mul_le_mul_of_nonneg_right ?_ (mills_pos u).le
    rw [abs_div, abs_of_pos hn0, div_le_iff₀ hn0, abs_sub_comm]
    refine ha.trans ?_
    norm_num at hn ⊢
    linarith

theorem tsVWin_near {t ε : ℝ} (h : 3e-162 ≤ Phi (t - ε)) :
    |tsVWin t ε - normalPdf (t - ε) / Phi (t - ε)|
      ≤ 6.1e-7 * (normalPdf (t - ε) / Phi (t - ε)) := by
  obtain ⟨h1, h2⟩ := vwin_near h
  rwa [tsVWin, if_neg h1]

theorem tsWWin_near {t ε : ℝ} (h : 3e-162 ≤ Phi (t - ε)) :
    |tsWWin t ε - normalPdf (t - ε) / Phi (t - ε) * (normalPdf (t - ε) / Phi (t - ε) + (t - ε))|
      ≤ 2e-6 * (1 + |t - ε|) ^ 2 := by
  have hv := tsVWin_near h
  rw [tsWWin, if_neg (vwin_near h).1]
  set v := normalPdf (t - ε) / Phi (t - ε) with hvd
  set V := tsVWin t ε
  have h0 : 0 < v := mills_pos _
  have h1 : v ≤ |t - ε| + 1 := mills_le _
  have e : V * (V + t - ε) - v * (v + (t - ε)) = (V - v) * (V + v + (t - ε)) := by ring
  rw [e, abs_mul]
  have h2 : |V + v + (t - ε)| ≤ 2.1 * v + |t - ε| := by
    have : V + v + (t - ε) = (V - v) + 2 * v + (t - ε) := by ring
    rw [this]
    refine (abs_add_le _ _).trans ?_
    have := abs_add_le (V - v) (2 * v)
    rw [abs_of_pos (by linarith : 0 < 2 * v)] at this
    norm_num at hv ⊢
    linarith
  have h3 : |V - v| ≤ 6.1e-7 * (|t - ε| + 1) := hv.trans (by norm_num; linarith)
  have h4 : |V + v + (t - ε)| ≤ 3.1 * (|t - ε| + 1) := h2.trans (by
    have := abs_nonneg (t - ε); norm_num; linarith)
  calc |V - v| * |V + v + (t - ε)|
      ≤ 6.1e-7 * (|t - ε| + 1) * (3.1 * (|t - ε| + 1)) :=
        mul_le_mul h3 h4 (abs_nonneg _) (by positivity)
    _ ≤ _ := by
        have := sq_nonneg (|t - ε| + 1)
        norm_num
        nlinarith

/-! ### Draws -/

theorem Phi_gap_symm (t e : ℝ) : Phi (e - |t|) - Phi (-e - |t|) = Phi (e - t) - Phi (-e - t) := by
  rcases le_total 0 t with h | h
  · rw [abs_of_nonneg h]
  · rw [abs_of_nonpos h]
    have h1 := Phi_neg (-e - t)
    have h2 := Phi_neg (e - t)
    rw [show e - -t = -(-e - t) by ring, show -e - -t = -(e - t) by ring, h1, h2]
    ring

theorem drawNorm_near (t e : ℝ) : |tsDrawNorm t e - (Phi (e - t) - Phi (-e - t))| ≤ 6e-7 := by
  rw [← Phi_gap_symm, tsDrawNorm]
  have h1 := (normalCdf_accurate (e - |t|)).2
  have h2 := (normalCdf_accurate (-e - |t|)).2
  have e : normalCdf (e - |t|) - normalCdf (-e - |t|) - (Phi (e - |t|) - Phi (-e - |t|))
      = (normalCdf (e - |t|) - Phi (e - |t|)) - (normalCdf (-e - |t|) - Phi (-e - |t|)) := by ring
  rw [e]
  refine (abs_sub _ _).trans ?_
  norm_num at h1 h2 ⊢
  linarith

/-- The numerator of the mean correction of a draw. -/
theorem draw_num (t e : ℝ) : (if t < 0 then -1 else 1) * (normalPdf (-e - |t|) - normalPdf (e - |t|))
    = normalPdf (-e - t) - normalPdf (e - t) := by
  split_ifs with h
  · rw [abs_of_neg h, ← normalPdf_neg (-e - t), ← normalPdf_neg (e - t)]
    rw [show -(-e - t) = e - -t by ring, show -(e - t) = -e - -t by ring]
    ring
  · rw [abs_of_nonneg (by linarith)]; ring

theorem draw_sq (t e : ℝ) : (e - |t|) * normalPdf (e - |t|) - (-e - |t|) * normalPdf (-e - |t|)
    = (e - t) * normalPdf (e - t) - (-e - t) * normalPdf (-e - t) := by
  rcases le_total 0 t with h | h
  · rw [abs_of_nonneg h]
  · rw [abs_of_nonpos h, ← normalPdf_neg (-e - t), ← normalPdf_neg (e - t)]
    rw [show -(-e - t) = e - -t by ring, show -(e - t) = -e - -t by ring]
    ring

theorem inv_near {D d : ℝ} (hd : 1e-5 ≤ d) (h : |D - d| ≤ 6e-7) (x : ℝ) :
    ¬ D < tsTiny ∧ |x / D - x / d| ≤ 7e-7 / d * |x / d| := by
  obtain ⟨h1, h2⟩ := abs_le.1 h
  have hd0 : 0 < d := lt_of_lt_of_le (by norm_num) hd
  have hD : 0.94 * d ≤ D := by norm_num at hd h1 ⊢; linarith
  have hD0 : 0 < D := lt_of_lt_of_le (by positivity) hD
  refine ⟨?_, ?_⟩
  · rw [tsTiny]; norm_num at hd hD ⊢; linarith
  · have e : x / D - x / d = (d - D) / D * (x / d) := by field_simp
    rw [e, abs_mul]
    refine mul_le_mul_of_nonneg_right ?_ (abs_nonneg _)
    rw [abs_div, abs_of_pos hD0, abs_sub_comm, div_le_div_iff₀ hD0 hd0]
    calc |D - d| * d ≤ 6e-7 * d := mul_le_mul_of_nonneg_right h hd0.le
      _ ≤ 7e-7 * (0.94 * d) := by norm_num; linarith
      _ ≤ _ := mul_le_mul_of_nonneg_left hD (by norm_num)

/-- The computed mean correction of a draw. -/
theorem tsVDraw_near {t e : ℝ} (h : 1e-5 ≤ Phi (e - t) - Phi (-e - t)) :
    |tsVDraw t e - (normalPdf (-e - t) - normalPdf (e - t)) / (Phi (e - t) - Phi (-e - t))|
      ≤ 7e-7 / (Phi (e - t) - Phi (-e - t)) *
        |(normalPdf (-e - t) - normalPdf (e - t)) / (Phi (e - t) - Phi (-e - t))| := by
  obtain ⟨h1, h2⟩ := inv_near h (drawNorm_near t e) (normalPdf (-e - t) - normalPdf (e - t))
  rwa [tsVDraw, if_neg h1, draw_num]

/-- The exact mean correction of a draw lies in the interval of the draw. -/
theorem draw_mean_le {t e : ℝ} (he : 0 < e) :
    |(normalPdf (-e - t) - normalPdf (e - t)) / (Phi (e - t) - Phi (-e - t))| ≤ |t| + e := by
  have hab : -e - t < e - t := by linarith
  obtain ⟨h0, h1, h2⟩ := std_Icc (P := gaussianReal 0 1) measurable_id HasLaw.id hab
  rw [← h1]
  have : IsProbabilityMeasure (gaussianReal 0 1)[|id ⁻¹' Set.Icc (-e - t) (e - t)] :=
    cond_isProbabilityMeasure h0
  rw [← Real.norm_eq_abs]
  have hb := norm_integral_le_of_norm_le_const (μ := (gaussianReal 0 1)[|id ⁻¹' Set.Icc (-e - t) (e - t)])
    (f := (id : ℝ → ℝ)) (C := |t| + e) (by
      refine ae_cond_of_forall_mem (measurableSet_Icc) ?_
      intro x hx
      rw [Real.norm_eq_abs, abs_le]
      have := neg_abs_le t
      have := le_abs_self t
      exact ⟨by simp only [id]; linarith [hx.1], by simp only [id]; linarith [hx.2]⟩)
  rw [probReal_univ, mul_one] at hb
  exact hb

theorem draw_var_bounds {t e : ℝ} (he : 0 < e) :
    ((normalPdf (-e - t) - normalPdf (e - t)) / (Phi (e - t) - Phi (-e - t))) ^ 2
        + ((e - t) * normalPdf (e - t) - (-e - t) * normalPdf (-e - t))
          / (Phi (e - t) - Phi (-e - t)) ≤ 1 := by
  have hab : -e - t < e - t := by linarith
  obtain ⟨h0, h1, h2⟩ := std_Icc (P := gaussianReal 0 1) measurable_id HasLaw.id hab
  have := variance_nonneg (id : ℝ → ℝ) (gaussianReal 0 1)[|id ⁻¹' Set.Icc (-e - t) (e - t)]
  linarith

theorem draw_sq_bounds {t e : ℝ} (he : 0 < e) :
    |((e - t) * normalPdf (e - t) - (-e - t) * normalPdf (-e - t)) / (Phi (e - t) - Phi (-e - t))|
      ≤ 1 + 2 * (|t| + e) ^ 2 := by
  have hab : -e - t < e - t := by linarith
  obtain ⟨h0, h1, h2⟩ := std_Icc (P := gaussianReal 0 1) measurable_id HasLaw.id hab
  have hp : IsProbabilityMeasure (gaussianReal 0 1)[|id ⁻¹' Set.Icc (-e - t) (e - t)] :=
    cond_isProbabilityMeasure h0
  have hv := variance_le_sq_of_bounded (μ := (gaussianReal 0 1)[|id ⁻¹' Set.Icc (-e - t) (e - t)])
    (X := (id : ℝ → ℝ)) (a := -e - t) (b := e - t)
    (ae_cond_of_forall_mem measurableSet_Icc fun x hx => hx) measurable_id.aemeasurable
  rw [h2] at hv
  have hm := draw_mean_le (t := t) he
  have hm2 := sq_le_sq' (by have := neg_abs_le ((normalPdf (-e - t) - normalPdf (e - t)) / (Phi (e - t) - Phi (-e - t))); linarith) ((le_abs_self _).trans hm)
  have hw := draw_var_bounds (t := t) he
  have hsq := sq_nonneg ((normalPdf (-e - t) - normalPdf (e - t)) / (Phi (e - t) - Phi (-e - t)))
  have he2 : e ^ 2 ≤ (|t| + e) ^ 2 := by
    have := abs_nonneg t
    exact pow_le_pow_left₀ he.le (by linarith) 2
  rw [show (e - t - (-e - t)) / 2 = e by ring] at hv
  rw [abs_le]
  have := sq_nonneg (|t| + e)
  constructor <;> linarith

/-- The computed variance correction of a draw. -/
theorem tsWDraw_near {t e : ℝ} (he : 0 < e) (h : 1e-5 ≤ Phi (e - t) - Phi (-e - t)) :
    |tsWDraw t e - (((normalPdf (-e - t) - normalPdf (e - t)) / (Phi (e - t) - Phi (-e - t))) ^ 2
        + ((e - t) * normalPdf (e - t) - (-e - t) * normalPdf (-e - t))
          / (Phi (e - t) - Phi (-e - t)))|
      ≤ 7e-7 / (Phi (e - t) - Phi (-e - t)) * (1 + 5 * (|t| + e) ^ 2) := by
  have hV := tsVDraw_near h
  obtain ⟨h1, h2⟩ := inv_near h (drawNorm_near t e)
    ((e - t) * normalPdf (e - t) - (-e - t) * normalPdf (-e - t))
  rw [tsWDraw, if_neg h1, draw_sq]
  have hm := draw_mean_le (t := t) he
  have hs := draw_sq_bounds (t := t) he
  set d := Phi (e - t) - Phi (-e - t)
  set v := (normalPdf (-e - t) - normalPdf (e - t)) / d
  set q := ((e - t) * normalPdf (e - t) - (-e - t) * normalPdf (-e - t))
  set A := |t| + e
  set V := tsVDraw t e
  have hd0 : 0 < d := lt_of_lt_of_le (by norm_num) h
  have hr0 : 0 < 7e-7 / d := by positivity
  have hr1 : 7e-7 / d ≤ 0.07 := by
    rw [div_le_iff₀ hd0]; norm_num at h ⊢; linarith
  set r := 7e-7 / d
  have hA : 0 ≤ A := (abs_nonneg v).trans hm
  have b1 : |V - v| ≤ r * A := hV.trans (mul_le_mul_of_nonneg_left hm hr0.le)
  have b2 : |V + v| ≤ 2.07 * A := by
    have e1 : V + v = (V - v) + 2 * v := by ring
    rw [e1]
    refine (abs_add_le _ _).trans ?_
    rw [abs_mul, abs_two]
    have : r * A ≤ 0.07 * A := mul_le_mul_of_nonneg_right hr1 hA
    norm_num at this ⊢
    linarith
  have e1 : V ^ 2 + q / tsDrawNorm t e - (v ^ 2 + q / d)
      = (V - v) * (V + v) + (q / tsDrawNorm t e - q / d) := by ring
  rw [e1]
  refine (abs_add_le _ _).trans ?_
  rw [abs_mul]
  have b3 : |V - v| * |V + v| ≤ r * A * (2.07 * A) :=
    mul_le_mul b1 b2 (abs_nonneg _) (by positivity)
  have b4 : |q / tsDrawNorm t e - q / d| ≤ r * (1 + 2 * A ^ 2) :=
    h2.trans (mul_le_mul_of_nonneg_left hs hr0.le)
  have b5 : 0 ≤ r * A ^ 2 := by positivity
  norm_num at b3 ⊢
  nlinarith

/-! ### Updates of a contest -/

section
variable {Ω ι : Type*} [MeasurableSpace Ω] [Fintype ι] {P : Measure Ω} [IsProbabilityMeasure P]
  {X N : ι → Ω → ℝ} {μ v : ι → ℝ} {b : ℝ}

theorem lead_neg (k : ι → ℝ) (X N : ι → Ω → ℝ) (ω : Ω) :
    lead (fun i => -k i) X N ω = -lead k X N ω := by
  simp [lead]

/-- A computed new uncertainty whose square would be `s - (κ s/c)² W` if that is not negative. -/
theorem sqrt_near {s c κ W w Var B : ℝ} (hc : 0 < c) (hs : 0 ≤ s)
    (hle : κ ^ 2 * s ≤ c ^ 2) (hVar : Var = s - (κ * s / c) ^ 2 * w)
    (h0 : 0 ≤ Var) (hw : |W - w| ≤ B) :
    |√(s * (1 - W * (κ ^ 2 * s / c ^ 2))) ^ 2 - Var| ≤ B * s := by
  have hB : 0 ≤ B := (abs_nonneg _).trans hw
  have hx : |s * (1 - W * (κ ^ 2 * s / c ^ 2)) - Var| ≤ B * s := by
    rw [hVar]
    have e : s * (1 - W * (κ ^ 2 * s / c ^ 2)) - (s - (κ * s / c) ^ 2 * w)
        = -((W - w) * (s * (κ ^ 2 * s / c ^ 2))) := by field_simp; ring
    rw [e, abs_neg, abs_mul]
    have h1 : κ ^ 2 * s / c ^ 2 ≤ 1 := (div_le_one (by positivity)).2 hle
    have h2 : 0 ≤ κ ^ 2 * s / c ^ 2 := by positivity
    refine mul_le_mul hw ?_ (abs_nonneg _) hB
    rw [abs_of_nonneg (by positivity)]
    nlinarith
  set y := s * (1 - W * (κ ^ 2 * s / c ^ 2))
  rcases le_total 0 y with hy | hy
  · rwa [Real.sq_sqrt hy]
  · rw [Real.sqrt_eq_zero_of_nonpos hy]
    obtain ⟨a1, a2⟩ := abs_le.1 hx
    rw [abs_le]
    constructor <;> linarith [mul_nonneg hB hs]

theorem weight_le (hv : ∀ i, 0 ≤ v i) (k : ι → ℝ) {c : ℝ}
    (hc2 : c ^ 2 = ∑ i, k i ^ 2 * (v i + b ^ 2)) (j : ι) : k j ^ 2 * v j ≤ c ^ 2 := by
  rw [hc2]
  refine le_trans ?_ (Finset.single_le_sum (f := fun i => k i ^ 2 * (v i + b ^ 2))
      (fun i _ => mul_nonneg (sq_nonneg _) (add_nonneg (hv i) (sq_nonneg b))) (Finset.mem_univ j))
  have := mul_nonneg (sq_nonneg (k j)) (sq_nonneg b)
  linarith

theorem rating_near {x s τ c k V v E r : ℝ} (hE : E = x + k * (s + τ ^ 2) / c * v) (h : |V - v| ≤ r * |v|) :
    |tsRating x s τ c (k * V) - E| ≤ r * |E - x| := by
  have e : tsRating x s τ c (k * V) - E = k * (s + τ ^ 2) / c * (V - v) := by
    rw [hE, tsRating]; ring
  have e2 : E - x = k * (s + τ ^ 2) / c * v := by rw [hE]; ring
  rw [e, e2, abs_mul, abs_mul]
  calc _ ≤ |k * (s + τ ^ 2) / c| * (r * |v|) := mul_le_mul_of_nonneg_left h (abs_nonneg _)
    _ = _ := by ring

/-- The update of player `j` after a decided game. -/
theorem decided_near (h : IsContest P X N μ v b) (hv : ∀ i, 0 ≤ v i) (k : ι → ℝ)
    {c : ℝ} (hc : 0 < c) (hc2 : c ^ 2 = ∑ i, k i ^ 2 * (v i + b ^ 2)) (ε : ℝ) {o : Outcomes}
    (ho : o ≠ .DRAW) (hp : 3e-162 ≤ P.real (happened o ε (lead k X N))) {j : ι} {s τ : ℝ}
    (hj : v j = s + τ ^ 2) :
    |tsRating (μ j) s τ c (k j * corrV o ((∑ i, k i * μ i) / c) (ε / c))
        - ∫ ω, X j ω ∂P[|happened o ε (lead k X N)]|
      ≤ 7e-7 * |∫ ω, X j ω ∂P[|happened o ε (lead k X N)] - μ j| ∧
    |√((s + τ ^ 2) * (1 - corrW o ((∑ i, k i * μ i) / c) (ε / c) * (k j ^ 2 * (s + τ ^ 2) / c ^ 2))) ^ 2
        - Var[X j; P[|happened o ε (lead k X N)]]|
      ≤ 2e-6 * (1 + (|∑ i, k i * μ i| + |ε|) / c) ^ 2 * (s + τ ^ 2) := by
  have key : ∀ (k' : ι → ℝ), (∀ i, k' i ^ 2 = k i ^ 2) →
      (|∑ i, k' i * μ i| = |∑ i, k i * μ i|) →
      3e-162 ≤ P.real {ω | ε < lead k' X N ω} →
      |tsRating (μ j) s τ c (k' j * tsVWin ((∑ i, k' i * μ i) / c) (ε / c))
        - ∫ ω, X j ω ∂P[|{ω | ε < lead k' X N ω}]|
        ≤ 7e-7 * |∫ ω, X j ω ∂P[|{ω | ε < lead k' X N ω}] - μ j| ∧
      |√((s + τ ^ 2) * (1 - tsWWin ((∑ i, k' i * μ i) / c) (ε / c)
          * (k' j ^ 2 * (s + τ ^ 2) / c ^ 2))) ^ 2
        - Var[X j; P[|{ω | ε < lead k' X N ω}]]|
        ≤ 2e-6 * (1 + (|∑ i, k' i * μ i| + |ε|) / c) ^ 2 * (s + τ ^ 2) := by
    intro k' hk' hm hp
    have hc2' : c ^ 2 = ∑ i, k' i ^ 2 * (v i + b ^ 2) := by rw [hc2]; simp only [hk']
    have hu : (∑ i, k' i * μ i) / c - ε / c = (∑ i, k' i * μ i - ε) / c := by ring
    obtain ⟨hP, hpost⟩ := h.posterior_win hv k' hc hc2' ε hu
    obtain ⟨hE, hVar⟩ := hpost j
    rw [hP] at hp
    have hV := tsVWin_near hp
    have hW := tsWWin_near hp
    have h0 := mills_pos ((∑ i, k' i * μ i) / c - ε / c)
    rw [hj] at hE hVar
    refine ⟨rating_near hE (hV.trans ?_), ?_⟩
    · rw [abs_of_pos h0]; norm_num; linarith
    · refine sqrt_near hc (hj ▸ hv j) (hj ▸ weight_le hv k' hc2' j) hVar (variance_nonneg _ _) (hW.trans ?_)
      refine mul_le_mul_of_nonneg_left ?_ (by norm_num)
      refine pow_le_pow_left₀ (by positivity) ?_ 2
      gcongr
      rw [hu, abs_div, abs_of_pos hc]
      gcongr
      exact abs_sub _ _
  cases o with
  | DRAW => exact absurd rfl ho
  | WIN => exact key k (fun _ => rfl) rfl hp
  | LOSS =>
    have hs : happened .LOSS ε (lead k X N) = {ω | ε < lead (fun i => -k i) X N ω} := by
      ext ω
      simp only [happened, Set.mem_ofPred_eq, lead_neg]
      constructor <;> intro h <;> linarith
    have hsum : ∑ i, -k i * μ i = -∑ i, k i * μ i := by simp [Finset.sum_neg_distrib]
    have := key (fun i => -k i) (fun i => by ring) (by rw [hsum, abs_neg]) (hs ▸ hp)
    rw [hs]
    simpa [corrV, corrW, neg_div] using this

/-- A margin at which draws have positive probability is positive. -/
theorem draw_margin_pos (h : IsContest P X N μ v b) (hv : ∀ i, 0 ≤ v i) (k : ι → ℝ)
    {c : ℝ} (hc : 0 < c) (hc2 : c ^ 2 = ∑ i, k i ^ 2 * (v i + b ^ 2)) {ε : ℝ}
    (hp : 0 < P.real (happened .DRAW ε (lead k X N))) : 0 < ε := by
  by_contra hn
  have hz : P (happened .DRAW ε (lead k X N)) = 0 := by
    have hL := h.law_zlead hv k hc hc2
    have hsub : happened .DRAW ε (lead k X N)
        ⊆ zlead k X N (∑ i, k i * μ i) c ⁻¹' {(0 - ∑ i, k i * μ i) / c} := by
      intro ω hω
      have h1 : |lead k X N ω| ≤ 0 := le_trans hω (not_lt.1 hn)
      have h2 : lead k X N ω = 0 := abs_nonpos_iff.1 h1
      simp [zlead, h2]
    refine measure_mono_null hsub ?_
    have := hL.measure_eq (p := fun x => x ∈ ({(0 - ∑ i, k i * μ i) / c} : Set ℝ))
      (measurableSet_singleton _)
    have hns := nullSingletonClass_gaussianReal (μ := 0) (v := 1) one_ne_zero
    have h3 : (gaussianReal 0 1) {(0 - ∑ i, k i * μ i) / c} = 0 := measure_singleton _
    exact this.trans h3
  rw [measureReal_def, hz] at hp
  norm_num at hp

/-- The update of player `j` after a drawn game. -/
theorem drawn_near (h : IsContest P X N μ v b) (hv : ∀ i, 0 ≤ v i) (k : ι → ℝ)
    {c : ℝ} (hc : 0 < c) (hc2 : c ^ 2 = ∑ i, k i ^ 2 * (v i + b ^ 2)) {ε : ℝ}
    (hp : 1e-5 ≤ P.real (happened .DRAW ε (lead k X N))) {j : ι} {s τ : ℝ}
    (hj : v j = s + τ ^ 2) :
    |tsRating (μ j) s τ c (k j * corrV .DRAW ((∑ i, k i * μ i) / c) (ε / c))
        - ∫ ω, X j ω ∂P[|happened .DRAW ε (lead k X N)]|
      ≤ 7e-7 / P.real (happened .DRAW ε (lead k X N)) *
        |∫ ω, X j ω ∂P[|happened .DRAW ε (lead k X N)] - μ j| ∧
    |√((s + τ ^ 2) * (1 - corrW .DRAW ((∑ i, k i * μ i) / c) (ε / c)
          * (k j ^ 2 * (s + τ ^ 2) / c ^ 2))) ^ 2
        - Var[X j; P[|happened .DRAW ε (lead k X N)]]|
      ≤ 7e-7 / P.real (happened .DRAW ε (lead k X N)) *
        (1 + 5 * ((|∑ i, k i * μ i| + ε) / c) ^ 2) * (s + τ ^ 2) := by
  have hε : 0 < ε := draw_margin_pos h hv k hc hc2 (lt_of_lt_of_le (by norm_num) hp)
  obtain ⟨hP, hpost⟩ := h.posterior_draw hv k hc hc2 hε rfl rfl
  obtain ⟨hE, hVar⟩ := hpost j
  simp only [happened]
  simp only [happened] at hp
  rw [hP] at hp ⊢
  have he : 0 < ε / c := by positivity
  have hV := tsVDraw_near hp
  have hW := tsWDraw_near he hp
  rw [hj] at hE hVar
  refine ⟨rating_near hE hV, ?_⟩
  refine (sqrt_near hc (hj ▸ hv j) (hj ▸ weight_le hv k hc2 j) hVar (variance_nonneg _ _) hW).trans (le_of_eq ?_)
  rw [abs_div, abs_of_pos hc, ← add_div]

end

end Skillratings.TrueSkill
