import Verif.Proofs.TrueSkillErf
import Verif.Spec.TrueSkill
/-
Helper lemmas for the TrueSkill properties.
-/
namespace Skillratings.TrueSkill
open Real Spec

theorem erfcTail_eq {z : ℝ} (hz : 0 ≤ z) : erfcTail z = fit z := by
  have e : (1 + z / 2)⁻¹ = 2 / (2 + z) := by
    have : 2 + z ≠ 0 := by positivity
    field_simp
  rw [erfcTail, fit, e]
  congr 2
  simp only [erfcCoefficients, List.mapIdx_cons, List.mapIdx_nil, List.sum_cons, List.sum_nil,
    fitQ]
  ring

theorem erfc_eq (x : ℝ) : erfc x = erfcFit x := by
  rw [erfc_real, erfcFit]
  split_ifs with h
  · rw [abs_of_neg h, erfcTail_eq (by linarith)]
  · rw [abs_of_nonneg (not_lt.1 h), erfcTail_eq (not_lt.1 h)]

theorem cdf_eq (x : ℝ) : cdf x 0.0 1.0 = normalCdf x := by
  simp only [cdf, erfc_eq, normalCdf, flt, sub_zero, one_mul]
  ring

theorem pdf_eq (x : ℝ) : pdf x 0.0 1.0 = normalPdf x := by
  simp only [pdf, normalPdf, flt, sub_zero, abs_one, mul_one, div_one]
  rw [div_eq_mul_inv, mul_comm]
  congr 2; ring

theorem inverseErfcStep_eq (y x : ℝ) : inverseErfcStep y x = erfcInvStep y x := by
  simp only [inverseErfcStep, erfcInvStep, erfc_eq, flt]
  congr 2; ring

theorem inverseErfc_eq (y : ℝ) : inverseErfc y = erfcInv y := by
  have g : ∀ y : ℝ, -Flt.frac1Sqrt2 *
      (Flt.mulAdd (Flt.sqrt (-2.0 * Flt.ln (y / 2.0))) 0.27061 2.30753 /
          Flt.mulAdd (Flt.sqrt (-2.0 * Flt.ln (y / 2.0)))
            (Flt.mulAdd (Flt.sqrt (-2.0 * Flt.ln (y / 2.0))) 0.04481 0.99229) 1.0 -
        Flt.sqrt (-2.0 * Flt.ln (y / 2.0))) = erfcInvGuess y := by
    intro y
    simp only [flt, erfcInvGuess]
    set s := √(-2 * log (y / 2))
    have : 1 + 0.99229 * s + 0.04481 * s ^ 2 = s * (s * 0.04481 + 0.99229) + 1 := by ring
    rw [this]
    ring
  have h100 : (100.0 : ℝ) = 100 := Flt.lit_100
  rw [inverseErfc, erfcInv]
  simp only [inverseErfcStep_eq, Flt.le_real, Flt.lt_real, Flt.lit_1, Flt.lit_0]
  rw [Flt.lit_2] at *
  rw [h100]
  split_ifs with h1 h2 h3
  · rfl
  · rfl
  · rw [← g]; simp only [Flt.lit_1, Flt.lit_2]
  · rw [← g]; simp only [Flt.lit_1, Flt.lit_2]

theorem drawMargin_eq (p β : ℝ) (n : ℕ) : drawMargin p β (n : ℝ) = tsMargin p β n := by
  simp only [drawMargin, inverseCdf, inverseErfc_eq, tsMargin, flt]
  have : 2 * ((p + 1) / 2) = p + 1 := by ring
  rw [this]; ring

theorem vNonDraw_eq (d m c : ℝ) : vNonDraw d m c = tsVWin (d / c) (m / c) := by
  simp only [vNonDraw, cdf_eq, pdf_eq, tsVWin, Flt.lt_real, tsTiny]
  congr 1; ring

theorem wNonDraw_eq (d m c : ℝ) : wNonDraw d m c = tsWWin (d / c) (m / c) := by
  simp only [wNonDraw, cdf_eq, tsWWin, Flt.lt_real, tsTiny, vNonDraw_eq]
  simp only [flt]
  congr 1

theorem vDraw_eq (d m c : ℝ) : vDraw d m c = tsVDraw (d / c) (m / c) := by
  simp only [vDraw, cdf_eq, pdf_eq, tsVDraw, Flt.lt_real, tsTiny, Flt.abs_real, tsDrawNorm]
  simp only [Flt.lit_0]
  split_ifs
  · rfl
  · rfl
  · rw [neg_one_mul]
  · rw [one_mul]

theorem wDraw_eq (d m c : ℝ) : wDraw d m c = tsWDraw (d / c) (m / c) := by
  simp only [wDraw, cdf_eq, pdf_eq, tsWDraw, Flt.lt_real, tsTiny, vDraw_eq, tsDrawNorm]
  simp only [flt]
  congr 1; ring

theorem newRating_eq (μ σ V c τ m : ℝ) :
    newRating μ σ V c τ m = tsRating μ (σ ^ 2) τ c (m * V) := by
  simp only [newRating, tsRating, flt]; ring

theorem newUncertainty_eq (σ c W τ : ℝ) :
    newUncertainty σ c W τ = tsUncertainty (σ ^ 2) τ c W := by
  simp only [newUncertainty, tsUncertainty, flt]
  congr 1; ring

/-! ### The normal distribution -/

theorem erfcFit_pos (x : ℝ) : 0 < erfcFit x := by
  unfold erfcFit
  split_ifs with h
  · rw [erfcTail_eq (by linarith)]
    have := fit_lt (z := -x) (by linarith)
    linarith
  · rw [erfcTail_eq (not_lt.1 h)]; exact fit_pos (not_lt.1 h)

theorem erfcFit_lt_two (x : ℝ) : erfcFit x < 2 := by
  unfold erfcFit
  split_ifs with h
  · rw [erfcTail_eq (by linarith)]
    have := fit_pos (z := -x) (by linarith)
    linarith
  · rw [erfcTail_eq (not_lt.1 h)]
    have := fit_lt (not_lt.1 h)
    linarith

theorem erfcFit_neg {x : ℝ} (hx : x ≠ 0) : erfcFit (-x) = 2 - erfcFit x := by
  unfold erfcFit
  rcases lt_or_gt_of_ne hx with h | h
  · rw [if_neg (by linarith), if_pos h]; ring
  · rw [if_pos (by linarith), if_neg (by linarith), neg_neg]

theorem erfcFit_zero : erfcFit 0 = exp 0.00000003 := by
  rw [erfcFit, if_neg (lt_irrefl _), erfcTail_eq le_rfl, fit_zero]

theorem normalCdf_pos (x : ℝ) : 0 < normalCdf x := by
  have := erfcFit_pos (-x / √2); unfold normalCdf; linarith

theorem normalCdf_lt_one (x : ℝ) : normalCdf x < 1 := by
  have := erfcFit_lt_two (-x / √2); unfold normalCdf; linarith

theorem normalCdf_neg {x : ℝ} (hx : x ≠ 0) : normalCdf (-x) = 1 - normalCdf x := by
  have h : -x / √2 ≠ 0 := by
    apply div_ne_zero (neg_ne_zero.2 hx); positivity
  have e : - -x / √2 = -(-x / √2) := by ring
  rw [normalCdf, normalCdf, e, erfcFit_neg h]; ring

theorem normalCdf_zero : normalCdf 0 = exp 0.00000003 / 2 := by
  rw [normalCdf]; simp [erfcFit_zero]

theorem normalCdf_zero_bounds : 1 / 2 < normalCdf 0 ∧ normalCdf 0 < 1 / 2 + 1e-7 := by
  rw [normalCdf_zero]
  have h1 := Real.add_one_lt_exp (x := (0.00000003 : ℝ)) (by norm_num)
  have h2 : exp (0.00000003 : ℝ) < 1 + 2e-7 := by
    have h := Real.exp_bound_div_one_sub_of_interval' (x := (0.00000003 : ℝ)) (by norm_num)
      (by norm_num)
    refine h.trans ?_
    norm_num
  constructor
  · norm_num at h1 ⊢; linarith
  · norm_num at h2 ⊢; linarith

theorem normalCdf_ge_of_nonneg {x : ℝ} (hx : 0 ≤ x) : 0.04 < normalCdf x := by
  rcases hx.eq_or_lt with rfl | h
  · have := normalCdf_zero_bounds.1
    norm_num at this ⊢; linarith
  · have hn : -x / √2 < 0 := div_neg_of_neg_of_pos (by linarith) (by positivity)
    have := fit_lt (z := -(-x / √2)) (by linarith)
    rw [normalCdf, erfcFit, if_pos hn, erfcTail_eq (by linarith)]
    norm_num at this ⊢; linarith

theorem normalPdf_pos (x : ℝ) : 0 < normalPdf x := by
  unfold normalPdf; positivity

theorem normalPdf_lt {x y : ℝ} (h : |x| < |y|) : normalPdf y < normalPdf x := by
  have : x ^ 2 < y ^ 2 := sq_lt_sq.2 h
  unfold normalPdf
  gcongr

theorem tsVWin_pos (t ε : ℝ) : 0 < tsVWin t ε := by
  unfold tsVWin
  split_ifs with h
  · by_contra hn
    have := normalCdf_ge_of_nonneg (x := t - ε) (by linarith)
    have h2 : tsTiny < 0.04 := by unfold tsTiny; norm_num
    linarith
  · exact div_pos (normalPdf_pos _) (normalCdf_pos _)

/-- The fit is strictly decreasing. -/
theorem fit_strictAnti {a b : ℝ} (ha : 0 ≤ a) (h : a < b) : fit b < fit a := by
  have ta : (1 + a / 2)⁻¹ ∈ Set.Icc (0 : ℝ) 1 :=
    ⟨by positivity, inv_le_one_of_one_le₀ (by linarith)⟩
  have tb : (1 + b / 2)⁻¹ ∈ Set.Icc (0 : ℝ) 1 :=
    ⟨by have : 0 < b := by linarith
        positivity, inv_le_one_of_one_le₀ (by linarith)⟩
  have tba : (1 + b / 2)⁻¹ < (1 + a / 2)⁻¹ := by
    apply inv_strictAnti₀ (by linarith); linarith
  have hq := fitQ_strictMono tb ta tba
  have hs : a ^ 2 < b ^ 2 := by gcongr
  have he : exp (fitQ (1 + b / 2)⁻¹ - b ^ 2) < exp (fitQ (1 + a / 2)⁻¹ - a ^ 2) :=
    Real.exp_lt_exp.2 (by linarith)
  unfold fit
  exact mul_lt_mul'' tba he tb.1 (Real.exp_pos _).le

theorem normalCdf_strictMono_neg {x y : ℝ} (h : x < y) (hy : y ≤ 0) :
    normalCdf x < normalCdf y := by
  have s2 : (0 : ℝ) < √2 := by positivity
  have e : ∀ z : ℝ, z ≤ 0 → normalCdf z = fit (-z / √2) / 2 := by
    intro z hz
    have h0 : 0 ≤ -z / √2 := div_nonneg (by linarith) s2.le
    rw [normalCdf, erfcFit, if_neg (not_lt.2 h0), erfcTail_eq h0]
  rw [e x (by linarith), e y hy]
  have := fit_strictAnti (a := -y / √2) (b := -x / √2) (div_nonneg (by linarith) s2.le)
    (by gcongr)
  linarith

theorem normalCdf_strictMono_pos {x y : ℝ} (hx : 0 < x) (h : x < y) :
    normalCdf x < normalCdf y := by
  have h1 := normalCdf_neg (x := x) (by linarith)
  have h2 := normalCdf_neg (x := y) (by linarith)
  have h3 := normalCdf_strictMono_neg (x := -y) (y := -x) (by linarith) (by linarith)
  linarith

/-! ### Sides -/

/-- A player as a side. -/
def solo (p : TrueSkillRating ℝ) : TsSide := ⟨1, p.rating, p.uncertainty ^ 2⟩

/-- A team as a side. -/
noncomputable def side (t : List (TrueSkillRating ℝ)) : TsSide :=
  ⟨t.length, (t.map fun p => p.rating).sum, (t.map fun p => p.uncertainty ^ 2).sum⟩

theorem side_singleton (p : TrueSkillRating ℝ) : side [p] = solo p := by
  simp [side, solo]

theorem side_v_nonneg (t : List (TrueSkillRating ℝ)) : 0 ≤ (side t).v := by
  apply List.sum_nonneg
  intro x hx
  obtain ⟨p, _, rfl⟩ := List.mem_map.1 hx
  positivity

theorem teamRating_real (t : List (TrueSkillRating ℝ)) : teamRating t = (side t).μ := by
  simp only [teamRating, flt, side]

theorem teamUncertaintySq_real (t : List (TrueSkillRating ℝ)) :
    teamUncertaintySq t = (side t).v := by
  simp only [teamUncertaintySq, flt, side]

theorem tsC_comm (β : ℝ) (a b : TsSide) : tsC β a b = tsC β b a := by
  unfold tsC; congr 1; rw [Nat.add_comm]; ring

theorem tsC_pos {β : ℝ} {a b : TsSide} (ha : 0 ≤ a.v) (hb : 0 ≤ b.v)
    (h : 0 < a.v ∨ 0 < b.v ∨ (β ≠ 0 ∧ 0 < a.n + b.n)) : 0 < tsC β a b := by
  apply Real.sqrt_pos.2
  have hn : (0 : ℝ) ≤ ((a.n + b.n : ℕ) : ℝ) * β ^ 2 := by positivity
  rcases h with h | h | ⟨h, h'⟩
  · linarith
  · linarith
  · have : (0 : ℝ) < ((a.n + b.n : ℕ) : ℝ) := by exact_mod_cast h'
    have : 0 < ((a.n + b.n : ℕ) : ℝ) * β ^ 2 := by positivity
    linarith

/-- The published update of a player. -/
noncomputable def upd (p : TrueSkillRating ℝ) (τ c V W : ℝ) : TrueSkillRating ℝ :=
  ⟨tsRating p.rating (p.uncertainty ^ 2) τ c V, tsUncertainty (p.uncertainty ^ 2) τ c W⟩

/-- `corrV` and `corrW` of a match of two sides. -/
noncomputable def matchV (cfg : TrueSkillConfig ℝ) (o : Outcomes) (a b : TsSide) : ℝ :=
  corrV o ((a.μ - b.μ) / tsC cfg.beta a b)
    (tsMargin cfg.drawProbability cfg.beta (a.n + b.n) / tsC cfg.beta a b)

noncomputable def matchW (cfg : TrueSkillConfig ℝ) (o : Outcomes) (a b : TsSide) : ℝ :=
  corrW o ((a.μ - b.μ) / tsC cfg.beta a b)
    (tsMargin cfg.drawProbability cfg.beta (a.n + b.n) / tsC cfg.beta a b)

theorem trueskill_real (a b : TrueSkillRating ℝ) (o : Outcomes) (cfg : TrueSkillConfig ℝ) :
    trueskill a b o cfg =
      (upd a cfg.dynamicsFactor (tsC cfg.beta (solo a) (solo b)) (matchV cfg o (solo a) (solo b))
        (matchW cfg o (solo a) (solo b)),
       upd b cfg.dynamicsFactor (tsC cfg.beta (solo a) (solo b)) (-matchV cfg o (solo a) (solo b))
        (matchW cfg o (solo a) (solo b))) := by
  have hc : Flt.sqrt (Flt.mulAdd 2.0 (Flt.powi cfg.beta 2)
      (Flt.mulAdd a.uncertainty a.uncertainty (Flt.powi b.uncertainty 2)))
      = tsC cfg.beta (solo a) (solo b) := by
    simp only [flt, tsC, solo]
    congr 1; push_cast; ring
  have hm : drawMargin cfg.drawProbability cfg.beta (2.0 : ℝ)
      = tsMargin cfg.drawProbability cfg.beta (1 + 1) := by
    rw [← drawMargin_eq]; norm_num
  have hn : (b.rating - a.rating) / tsC cfg.beta (solo a) (solo b)
      = -((a.rating - b.rating) / tsC cfg.beta (solo a) (solo b)) := by ring
  cases o <;>
  · simp only [trueskill, hc, hm, ratingDelta, vw, rankMultipliers, newRating_eq,
      newUncertainty_eq, reduceCtorEq, if_false, if_true, vNonDraw_eq, wNonDraw_eq, vDraw_eq,
      wDraw_eq, upd, matchV, matchW, corrV, corrW, hn]
    simp only [solo, flt, one_mul, neg_mul, neg_neg]

theorem twoTeams_real (s t : List (TrueSkillRating ℝ)) (o : Outcomes) (cfg : TrueSkillConfig ℝ)
    (hs : s ≠ []) (ht : t ≠ []) :
    trueskillTwoTeams s t o cfg =
      (s.map fun p => upd p cfg.dynamicsFactor (tsC cfg.beta (side s) (side t))
        (matchV cfg o (side s) (side t)) (matchW cfg o (side s) (side t)),
       t.map fun p => upd p cfg.dynamicsFactor (tsC cfg.beta (side s) (side t))
        (-matchV cfg o (side s) (side t)) (matchW cfg o (side s) (side t))) := by
  have hc : Flt.sqrt (Flt.mulAdd (Flt.ofNat (s.length + t.length)) (Flt.powi cfg.beta 2)
      ((side s).v + (side t).v)) = tsC cfg.beta (side s) (side t) := by
    simp only [flt, tsC, side]
    congr 1; push_cast; ring
  have hn : ((side t).μ - (side s).μ) / tsC cfg.beta (side s) (side t)
      = -(((side s).μ - (side t).μ) / tsC cfg.beta (side s) (side t)) := by ring
  have hm : drawMargin cfg.drawProbability cfg.beta (Flt.ofNat (s.length + t.length) : ℝ)
      = tsMargin cfg.drawProbability cfg.beta ((side s).n + (side t).n) := by
    rw [← drawMargin_eq]; rfl
  have he : (s.isEmpty || t.isEmpty) = false := by simp [hs, ht]
  rw [trueskillTwoTeams, he]
  cases o <;>
  · simp only [Bool.false_eq_true, if_false, teamRating_real, teamUncertaintySq_real, hc, hm,
      ratingDelta, vw, rankMultipliers, updateTeam, newRating_eq, newUncertainty_eq, reduceCtorEq,
      if_true, vNonDraw_eq, wNonDraw_eq, vDraw_eq, wDraw_eq, upd, matchV, matchW, corrV, corrW, hn]
    simp only [flt, one_mul, neg_mul, neg_neg]

end Skillratings.TrueSkill
