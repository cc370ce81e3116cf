import Verif.Props.Elo
import Verif.Props.Fifa
import Verif.Props.Dwz
import Verif.Props.Egf
import Verif.Props.Ingo
import Verif.Props.Uscf
import Verif.Props.Glicko
import Verif.Props.Glicko2
import Verif.Props.Sticko
import Verif.Props.GlickoBoost
import Verif.Props.WengLin
import Verif.Props.TrueSkill
import Verif.Proofs.DrawV
/-
C150: how the expected scores of the three games between three players fit together.
-/
namespace Skillratings
open Spec Real

/-! ### Rating alone: the odds multiply -/

/-- `f` of the three pairs: the odds multiply, and a chain of favourites is at least as clear as each of
its links. -/
structure FitTogether (ab bc ac : ℝ) : Prop where
  odds : odds ac = odds ab * odds bc
  chain : 1 / 2 ≤ ab → 1 / 2 ≤ bc → max ab bc ≤ ac

theorem from_half_iff {x : ℝ} : 1 / 2 ≤ sigmoid x ↔ 0 ≤ x := by
  rw [one_div, ← sigmoid_zero, sigmoid_le_iff]

theorem fit_sigmoid {x y z : ℝ} (h : z = x + y) : FitTogether (sigmoid x) (sigmoid y) (sigmoid z) := by
  subst h
  refine ⟨by rw [odds_sigmoid, odds_sigmoid, odds_sigmoid, exp_add], fun hx hy => ?_⟩
  rw [from_half_iff] at hx hy
  exact max_le (sigmoid_le_iff.2 (by linarith)) (sigmoid_le_iff.2 (by linarith))

theorem C150_elo (a b c : Elo.EloRating ℝ) :
    FitTogether (Elo.expectedScore a b).1 (Elo.expectedScore b c).1 (Elo.expectedScore a c).1 := by
  simp only [Elo.expectedScore_real]; exact fit_sigmoid (by ring)

theorem C150_fifa (a b c : Fifa.FifaRating ℝ) :
    FitTogether (Fifa.expectedScore a b).1 (Fifa.expectedScore b c).1 (Fifa.expectedScore a c).1 := by
  simp only [Fifa.expectedScore_real]; exact fit_sigmoid (by ring)

theorem C150_dwz (a b c : Dwz.DWZRating ℝ) :
    FitTogether (Dwz.expectedScore a b).1 (Dwz.expectedScore b c).1 (Dwz.expectedScore a c).1 := by
  simp only [Dwz.expectedScore_real]; exact fit_sigmoid (by ring)

theorem C150_uscf (a b c : Uscf.USCFRating ℝ) :
    FitTogether (Uscf.expectedScore a b).1 (Uscf.expectedScore b c).1 (Uscf.expectedScore a c).1 := by
  simp only [Uscf.expectedScore_real]; exact fit_sigmoid (by ring)

/-- Even games. -/
theorem C150_egf (a b c : Egf.EGFRating ℝ) :
    FitTogether (Egf.expectedScore a b ⟨0⟩).1 (Egf.expectedScore b c ⟨0⟩).1
      (Egf.expectedScore a c ⟨0⟩).1 := by
  simp only [Egf.expectedScore_real]
  refine fit_sigmoid ?_
  simp only [egfFirst, egfSecond, egfStones]
  norm_num

/-- Ingo's expected scores are linear: the advantages add up. -/
theorem C150_ingo (a b c : Ingo.IngoRating ℝ) :
    (Ingo.expectedScore a c).1 - 1 / 2
      = ((Ingo.expectedScore a b).1 - 1 / 2) + ((Ingo.expectedScore b c).1 - 1 / 2) := by
  simp only [(Ingo.C26_ingo_expected_formula _ _).1]; ring

/-! ### Rating and deviation: no cycles of favourites -/

/-- No cycle: a chain of favourites, strict if one of the links is. -/
structure NoCycle (ab bc ac : ℝ) : Prop where
  weak : 1 / 2 ≤ ab → 1 / 2 ≤ bc → 1 / 2 ≤ ac
  strict : 1 / 2 ≤ ab → 1 / 2 ≤ bc → 1 / 2 < ab ∨ 1 / 2 < bc → 1 / 2 < ac

theorem above_half_iff {x : ℝ} : 1 / 2 < sigmoid x ↔ 0 < x := by
  rw [one_div, ← sigmoid_zero, sigmoid_lt_iff]

theorem noCycle_sigmoid {k l m x y z : ℝ} (hk : 0 < k) (hl : 0 < l) (hm : 0 < m) (h : z = x + y) :
    NoCycle (sigmoid (k * x)) (sigmoid (l * y)) (sigmoid (m * z)) := by
  constructor <;> simp only [from_half_iff, above_half_iff, mul_nonneg_iff_of_pos_left, hk, hl, hm,
    mul_pos_iff_of_pos_left]
  · intro h1 h2; linarith
  · rintro h1 h2 (h3 | h3) <;> linarith

theorem C150_glicko (a b c : Glicko.GlickoRating ℝ) :
    NoCycle (Glicko.expectedScore a b).1 (Glicko.expectedScore b c).1 (Glicko.expectedScore a c).1 ∧
    (a.deviation = b.deviation → b.deviation = c.deviation →
      FitTogether (Glicko.expectedScore a b).1 (Glicko.expectedScore b c).1
        (Glicko.expectedScore a c).1) := by
  simp only [Glicko.expectedScore_real, glickoE_eq, ← mul_assoc]
  refine ⟨noCycle_sigmoid (mul_pos glickoQ_pos (glickoG_pos _)) (mul_pos glickoQ_pos (glickoG_pos _))
    (mul_pos glickoQ_pos (glickoG_pos _)) (by ring), fun h1 h2 => ?_⟩
  rw [h1, h2]
  exact fit_sigmoid (by ring)

theorem C150_glicko2 (a b c : Glicko2.Glicko2Rating ℝ) :
    NoCycle (Glicko2.expectedScore a b).1 (Glicko2.expectedScore b c).1 (Glicko2.expectedScore a c).1 ∧
    (a.deviation = b.deviation → b.deviation = c.deviation →
      FitTogether (Glicko2.expectedScore a b).1 (Glicko2.expectedScore b c).1
        (Glicko2.expectedScore a c).1) := by
  have e : ∀ μ ν φ : ℝ, glicko2E μ ν φ = sigmoid (glicko2G φ * (μ - ν)) := fun μ ν φ => by
    rw [glicko2E, one_div, sigmoid_def]
  have hg : ∀ φ : ℝ, 0 < glicko2G φ := fun φ => by unfold glicko2G; positivity
  simp only [Glicko2.expectedScore_real, e]
  refine ⟨noCycle_sigmoid (hg _) (hg _) (hg _) (by ring), fun h1 h2 => ?_⟩
  rw [h1, h2]
  exact fit_sigmoid (by ring)

theorem C150_wengLin (a b c : WengLin.WengLinRating ℝ) (cfg : WengLin.WengLinConfig ℝ)
    (hβ : cfg.beta ≠ 0) :
    NoCycle (WengLin.expectedScore a b cfg).1 (WengLin.expectedScore b c cfg).1
      (WengLin.expectedScore a c cfg).1 ∧
    (a.uncertainty = b.uncertainty → b.uncertainty = c.uncertainty →
      FitTogether (WengLin.expectedScore a b cfg).1 (WengLin.expectedScore b c cfg).1
        (WengLin.expectedScore a c cfg).1) := by
  have hc : ∀ s t : ℝ, 0 < (wlC cfg.beta (s ^ 2) (t ^ 2))⁻¹ := fun s t =>
    inv_pos.2 (WengLin.wlC_pos (sq_nonneg _) (sq_nonneg _) (.inr (.inr hβ)))
  simp only [WengLin.expected_real, WengLin.wlP_eq, div_eq_inv_mul]
  refine ⟨noCycle_sigmoid (hc _ _) (hc _ _) (hc _ _) (by ring), fun h1 h2 => ?_⟩
  rw [h1, h2]
  exact fit_sigmoid (by ring)

/-- With different deviations a chain of favourites can be less clear than its links: the first player is
the favourite against the second, the second against the third, but the first is a smaller favourite
against the third than against the second. -/
theorem C150_glicko_weaker :
    let a : Glicko.GlickoRating ℝ := ⟨1700, 30⟩
    let b : Glicko.GlickoRating ℝ := ⟨1500, 30⟩
    let c : Glicko.GlickoRating ℝ := ⟨1490, 350⟩
    1 / 2 < (Glicko.expectedScore b c).1 ∧ 1 / 2 < (Glicko.expectedScore a c).1 ∧
      (Glicko.expectedScore a c).1 < (Glicko.expectedScore a b).1 := by
  intro a b c
  simp only [Glicko.expectedScore_real, glickoE_eq, above_half_iff, sigmoid_lt_iff, a, b, c]
  have hq := glickoQ_pos
  have hg := fun x => glickoG_pos x
  refine ⟨mul_pos hq (mul_pos (hg _) (by norm_num)), mul_pos hq (mul_pos (hg _) (by norm_num)),
    mul_lt_mul_of_pos_left ?_ hq⟩
  have hK : 1e-6 < 3 * glickoQ ^ 2 / π ^ 2 := by
    have h1 : 1 / 400 < glickoQ := by
      rw [glickoQ]
      have : 1 < log 10 := by
        rw [Real.lt_log_iff_exp_lt (by norm_num)]; exact Real.exp_one_lt_d9.trans (by norm_num)
      linarith
    rw [lt_div_iff₀ (by positivity)]
    have h2 : π ^ 2 < 16 := by nlinarith [Real.pi_lt_four, Real.pi_pos]
    nlinarith
  have e : ∀ x : ℝ, 0 ≤ x → glickoG √x = 1 / √(1 + 3 * glickoQ ^ 2 / π ^ 2 * x) := fun x hx => by
    rw [glickoG, Real.sq_sqrt hx]; congr 3; ring
  rw [e _ (by norm_num), e _ (by norm_num)]
  generalize 3 * glickoQ ^ 2 / π ^ 2 = K at *
  have p1 : 0 < 1 + K * (30 ^ 2 + 30 ^ 2) := by linarith
  have p2 : 0 < 1 + K * (30 ^ 2 + 350 ^ 2) := by linarith
  have key : 210 * √(1 + K * (30 ^ 2 + 30 ^ 2)) < 200 * √(1 + K * (30 ^ 2 + 350 ^ 2)) := by
    refine lt_of_pow_lt_pow_left₀ 2 (by positivity) ?_
    rw [mul_pow, mul_pow, Real.sq_sqrt p1.le, Real.sq_sqrt p2.le]
    linarith
  have s1 := Real.sqrt_pos.2 p1
  have s2 := Real.sqrt_pos.2 p2
  rw [div_mul_eq_mul_div, div_mul_eq_mul_div, div_lt_div_iff₀ s2 s1]
  norm_num at key ⊢
  linarith

/-- The same for Weng-Lin. -/
theorem C150_wengLin_weaker :
    let a : WengLin.WengLinRating ℝ := ⟨35, 1⟩
    let b : WengLin.WengLinRating ℝ := ⟨25, 1⟩
    let c : WengLin.WengLinRating ℝ := ⟨24, 8⟩
    let cfg : WengLin.WengLinConfig ℝ := WengLin.WengLinConfig.new
    1 / 2 < (WengLin.expectedScore b c cfg).1 ∧ 1 / 2 < (WengLin.expectedScore a c cfg).1 ∧
      (WengLin.expectedScore a c cfg).1 < (WengLin.expectedScore a b cfg).1 := by
  intro a b c cfg
  have hβ : cfg.beta = 25 / 6 := by simp [cfg, WengLin.WengLinConfig.new, flt]
  simp only [WengLin.expected_real, WengLin.wlP_eq, above_half_iff, sigmoid_lt_iff, a, b, c, wlC, hβ]
  have p1 : (0 : ℝ) < √(1 ^ 2 + 8 ^ 2 + 2 * (25 / 6) ^ 2) := by positivity
  have p2 : (0 : ℝ) < √(1 ^ 2 + 1 ^ 2 + 2 * (25 / 6) ^ 2) := by positivity
  refine ⟨div_pos (by norm_num) p1, div_pos (by norm_num) p1, ?_⟩
  rw [div_lt_div_iff₀ p1 p2]
  refine lt_of_pow_lt_pow_left₀ 2 (by positivity) ?_
  rw [mul_pow, mul_pow, Real.sq_sqrt (by positivity), Real.sq_sqrt (by positivity)]
  norm_num

/-! ### The advantage of the first player -/

/-- With an advantage for the first player there are cycles: each of three players is the favourite when
starting against the next, but the last is also the favourite against the first, who starts. -/
theorem C150_sticko_cycle (cfg : Sticko.StickoConfig ℝ) (hγ : 0 < cfg.gamma) (r d : ℝ) :
    1 / 2 < (Sticko.expectedScore ⟨r, d⟩ ⟨r + 2 / 3 * cfg.gamma, d⟩ cfg).1 ∧
    1 / 2 < (Sticko.expectedScore ⟨r + 2 / 3 * cfg.gamma, d⟩ ⟨r + 4 / 3 * cfg.gamma, d⟩ cfg).1 ∧
    (Sticko.expectedScore ⟨r, d⟩ ⟨r + 4 / 3 * cfg.gamma, d⟩ cfg).1 < 1 / 2 := by
  simp only [Sticko.expectedScore_real, glickoE_eq]
  have hq := glickoQ_pos
  have hg := fun x => glickoG_pos x
  refine ⟨above_half_iff.2 ?_, above_half_iff.2 ?_, ?_⟩
  · exact mul_pos hq (mul_pos (hg _) (by linarith))
  · exact mul_pos hq (mul_pos (hg _) (by linarith))
  · rw [one_div, ← sigmoid_zero, sigmoid_lt_iff]
    exact mul_neg_of_pos_of_neg hq (mul_neg_of_pos_of_neg (hg _) (by linarith))

theorem C150_boost_cycle (cfg : GlickoBoost.GlickoBoostConfig ℝ) (hγ : 0 < cfg.eta) (r d : ℝ) :
    1 / 2 < (GlickoBoost.expectedScore ⟨r, d⟩ ⟨r + 2 / 3 * cfg.eta, d⟩ cfg).1 ∧
    1 / 2 < (GlickoBoost.expectedScore ⟨r + 2 / 3 * cfg.eta, d⟩ ⟨r + 4 / 3 * cfg.eta, d⟩ cfg).1 ∧
    (GlickoBoost.expectedScore ⟨r, d⟩ ⟨r + 4 / 3 * cfg.eta, d⟩ cfg).1 < 1 / 2 := by
  simp only [GlickoBoost.expectedScore_real, glickoE_eq]
  have hq := glickoQ_pos
  have hg := fun x => glickoG_pos x
  refine ⟨above_half_iff.2 ?_, above_half_iff.2 ?_, ?_⟩
  · exact mul_pos hq (mul_pos (hg _) (by linarith))
  · exact mul_pos hq (mul_pos (hg _) (by linarith))
  · rw [one_div, ← sigmoid_zero, sigmoid_lt_iff]
    exact mul_neg_of_pos_of_neg hq (mul_neg_of_pos_of_neg (hg _) (by linarith))

/-! ### TrueSkill -/
namespace TrueSkill

theorem cdf_near_zero : normalCdf (√2 * 0.000000002) < 1 / 2 := by
  have h2 : (√2 : ℝ) ≠ 0 := by positivity
  have hz : -(√2 * 0.000000002) / √2 = -(0.000000002 : ℝ) := by
    field_simp
  rw [normalCdf, hz, erfcFit_neg (by norm_num), erfcFit, if_neg (by norm_num),
    erfcTail_eq (by norm_num), fit]
  have ht : ((1 : ℝ) + 0.000000002 / 2)⁻¹ = 1000000000 / 1000000001 := by norm_num
  rw [ht]
  have hq : (0.00000002 : ℝ) ≤ fitQ (1000000000 / 1000000001) - 0.000000002 ^ 2 := by
    rw [fitQ]; norm_num
  have h3 := Real.add_one_le_exp (fitQ (1000000000 / 1000000001) - 0.000000002 ^ 2)
  have h5 : (1 : ℝ) + 0.00000002 ≤ exp (fitQ (1000000000 / 1000000001) - 0.000000002 ^ 2) := by
    linarith
  have h6 : (1000000000 / 1000000001 : ℝ) * (1 + 0.00000002) ≤ 1000000000 / 1000000001 *
      exp (fitQ (1000000000 / 1000000001) - 0.000000002 ^ 2) := by gcongr
  norm_num at h6 ⊢
  linarith

theorem cdf_far : 0.99 < normalCdf 30 := by
  have h : normalCdf (-30) < tsTiny := by
    by_contra h
    have := cdf_tiny_le (not_lt.1 h)
    norm_num at this
  rw [normalCdf_neg (by norm_num)] at h
  have : tsTiny < 0.01 := by norm_num [tsTiny]
  norm_num at this ⊢; linarith

/-- The point from which on the fitted distribution function is above one half. -/
theorem cdf_crossing : ∃ x : ℝ, 0 < x ∧ (∀ y, 0 < y → y < x → normalCdf y < 1 / 2) ∧
    ∀ y, x < y → 1 / 2 < normalCdf y := by
  set S := {y : ℝ | 0 < y ∧ normalCdf y < 1 / 2} with hS
  have h0 : √2 * 0.000000002 ∈ S := ⟨by positivity, cdf_near_zero⟩
  have hb : BddAbove S := ⟨30, fun y hy => by
    by_contra h
    have := normalCdf_strictMono_pos (x := 30) (by norm_num) (not_le.1 h)
    have h2 := cdf_far
    have h3 := hy.2
    norm_num at h2 h3; linarith⟩
  refine ⟨sSup S, lt_of_lt_of_le h0.1 (le_csSup hb h0), fun y hy hlt => ?_, fun y hy => ?_⟩
  · obtain ⟨z, hz, hyz⟩ := exists_lt_of_lt_csSup ⟨_, h0⟩ hlt
    exact (normalCdf_strictMono_pos hy hyz).trans hz.2
  · obtain ⟨z, hz, hzy⟩ := exists_between hy
    have hz0 : 0 < z := lt_of_le_of_lt (h0.1.le.trans (le_csSup hb h0)) hz
    have : 1 / 2 ≤ normalCdf z := by
      by_contra h
      exact absurd (le_csSup hb ⟨hz0, not_le.1 h⟩) (not_le.2 hz)
    exact this.trans_lt (normalCdf_strictMono_pos hz0 hzy)

/-- An advantage of more than `1e-7` is never reversed along a chain by more than that. -/
theorem C150_trueskill (a b c : TrueSkillRating ℝ) (cfg : TrueSkillConfig ℝ) (hβ : cfg.beta ≠ 0)
    (h1 : 1 / 2 + 1e-7 ≤ (expectedScore a b cfg).1) (h2 : 1 / 2 + 1e-7 ≤ (expectedScore b c cfg).1) :
    1 / 2 - 1e-7 < (expectedScore a c cfg).1 := by
  have hc : ∀ a b : TrueSkillRating ℝ, 0 < tsC cfg.beta (solo a) (solo b) := fun a b =>
    tsC_pos (sq_nonneg _) (sq_nonneg _) (.inr (.inr ⟨hβ, Nat.succ_pos _⟩))
  have up : ∀ x : ℝ, 1 / 2 + 1e-7 ≤ normalCdf x → 0 < x := fun x hx => by
    by_contra h
    have := normalCdf_zero_bounds.2
    rcases (not_lt.1 h).eq_or_lt with h | h
    · rw [h] at hx; linarith
    · have := normalCdf_strictMono_neg h le_rfl
      linarith
  rw [expected_real] at h1 h2 ⊢
  have e1 := (div_pos_iff_of_pos_right (hc a b)).1 (up _ h1)
  have e2 := (div_pos_iff_of_pos_right (hc b c)).1 (up _ h2)
  have e3 : 0 < (a.rating - c.rating) / tsC cfg.beta (solo a) (solo c) :=
    div_pos (by linarith) (hc a c)
  have := normalCdf_strictMono_neg (neg_lt_zero.2 e3) le_rfl
  rw [normalCdf_neg e3.ne'] at this
  have := normalCdf_zero_bounds.2
  dsimp only
  linarith

/-- Below that there are cycles, whatever the configuration: the first of three players is the favourite
against the second, the second against the third and the third against the first. -/
theorem C150_trueskill_cycle (cfg : TrueSkillConfig ℝ) (hβ : cfg.beta ≠ 0) (u : ℝ) :
    ∃ a b c : TrueSkillRating ℝ, a.uncertainty = u ∧ b.uncertainty = u ∧ c.uncertainty = u ∧
      1 / 2 < (expectedScore a b cfg).1 ∧ 1 / 2 < (expectedScore b c cfg).1 ∧
      1 / 2 < (expectedScore c a cfg).1 := by
  obtain ⟨x, hx, lo, hi⟩ := cdf_crossing
  set C := tsC cfg.beta (solo ⟨0, u⟩) (solo ⟨0, u⟩) with hC
  have C0 : 0 < C := tsC_pos (sq_nonneg _) (sq_nonneg _) (.inr (.inr ⟨hβ, Nat.succ_pos _⟩))
  have eC : ∀ r s : ℝ, tsC cfg.beta (solo ⟨r, u⟩) (solo ⟨s, u⟩) = C := fun r s => rfl
  have low : ∀ y, 0 < y → y < x → 1 / 2 < normalCdf (-y) := fun y h0 h1 => by
    rw [normalCdf_neg h0.ne']; linarith [lo y h0 h1]
  refine ⟨⟨0, u⟩, ⟨3 / 4 * x * C, u⟩, ⟨3 / 2 * x * C, u⟩, rfl, rfl, rfl, ?_, ?_, ?_⟩ <;>
    simp only [expected_real, eC]
  · rw [show (0 - 3 / 4 * x * C) / C = -(3 / 4 * x) by field_simp; ring]
    exact low _ (by positivity) (by linarith)
  · rw [show (3 / 4 * x * C - 3 / 2 * x * C) / C = -(3 / 4 * x) by field_simp; ring]
    exact low _ (by positivity) (by linarith)
  · rw [show (3 / 2 * x * C - 0) / C = 3 / 2 * x by field_simp; ring]
    exact hi _ (by linarith)

theorem pdf_half (x : ℝ) : normalPdf x ≤ 1 / 2 := by
  have h : 2 ≤ √(2 * π) := by
    rw [Real.le_sqrt (by norm_num) (by positivity)]
    nlinarith [Real.pi_gt_three]
  have h1 : exp (-x ^ 2 / 2) ≤ 1 := Real.exp_le_one_iff.2 (by nlinarith [sq_nonneg x])
  rw [normalPdf]
  rw [div_le_div_iff₀ (by positivity) (by norm_num)]
  linarith

theorem cdf_le_near {x : ℝ} (hx : 0 ≤ x) : normalCdf x ≤ 1 / 2 + x / 2 + 3e-7 := by
  have h1 := (abs_le.1 (normalCdf_accurate x).2).2
  have h2 : Phi x - Phi 0 ≤ x / 2 := by
    have := Convex.image_sub_le_mul_sub_of_deriv_le (f := Phi) (D := Set.univ) convex_univ
      (fun y _ => (hasDerivAt_Phi y).continuousAt.continuousWithinAt)
      (fun y _ => (hasDerivAt_Phi y).differentiableAt.differentiableWithinAt) (C := 1 / 2)
      (fun y _ => by rw [(hasDerivAt_Phi y).deriv]; exact pdf_half y) 0 trivial x trivial hx
    linarith
  rw [Phi_zero] at h2
  linarith

theorem cdf_ge_near {x : ℝ} (hx : 0 < x) (h1 : x ≤ 1) : 1 / 2 + x / 10 - 3e-7 ≤ normalCdf x := by
  have h2 := (abs_le.1 (normalCdf_accurate x).2).1
  have h3 := Phi_sub_ge (a := 0) (b := x) (k := 1 / 10) hx.le fun y hy => by
    have e : 1 / 2 ≤ exp (-y ^ 2 / 2) := by
      have := Real.add_one_le_exp (-y ^ 2 / 2)
      have : y ^ 2 ≤ 1 := by nlinarith [hy.1, hy.2.trans h1]
      linarith
    have p : √(2 * π) ≤ 3 := by
      rw [Real.sqrt_le_left (by norm_num)]
      nlinarith [Real.pi_lt_d2]
    rw [normalPdf, div_le_div_iff₀ (by norm_num) (by positivity)]
    linarith
  rw [Phi_zero] at h3
  linarith

/-- In a match of three teams the team that is the favourite against each of the others alone need not
have the highest expected score. -/
theorem C150_trueskill_multi :
    let i : List (TrueSkillRating ℝ) := [⟨100, 10000⟩]
    let j : List (TrueSkillRating ℝ) := [⟨0, 1⟩]
    let k : List (TrueSkillRating ℝ) := [⟨-1000, 1⟩]
    let cfg : TrueSkillConfig ℝ := TrueSkillConfig.new
    1 / 2 < (expectedScoreTwoTeams i j cfg).1 ∧ 1 / 2 < (expectedScoreTwoTeams i k cfg).1 ∧
      ∃ x y z, expectedScoreMultiTeam [i, j, k] cfg = [x, y, z] ∧ x < y := by
  intro i j k cfg
  have hβ : cfg.beta = 25 / 6 := by
    simp only [cfg, TrueSkillConfig.new, flt]; norm_num
  have lower : ∀ w : ℝ, w ≤ 10 ^ 10 → 0 < w → ∀ d : ℝ, 100 ≤ d → d ≤ 10000 → 10 ^ 8 ≤ w →
      1 / 2 < normalCdf (d / √w) := by
    intro w hw w0 d hd hd' hw'
    have s0 := Real.sqrt_pos.2 w0
    have s1 : √w ≤ 100000 := by
      rw [Real.sqrt_le_left (by norm_num)]; linarith
    have s2 : 10000 ≤ √w := by
      rw [Real.le_sqrt (by norm_num) w0.le]; linarith
    have h1 : d / √w ≤ 1 := by rw [div_le_one s0]; linarith
    have h2 : 1 / 1000 ≤ d / √w := by rw [div_le_div_iff₀ (by norm_num) s0]; linarith
    have := cdf_ge_near (by linarith : 0 < d / √w) h1
    norm_num at this ⊢
    linarith
  have upper : ∀ w : ℝ, 10 ^ 8 ≤ w → ∀ d : ℝ, 0 ≤ d → d ≤ 1100 → normalCdf (d / √w) ≤ 0.56 := by
    intro w hw d hd hd'
    have s2 : 10000 ≤ √w := by
      rw [Real.le_sqrt (by norm_num) (by linarith)]; linarith
    have h2 : d / √w ≤ 11 / 100 := by
      rw [div_le_div_iff₀ (by linarith) (by norm_num)]; linarith
    have h0 : 0 ≤ d / √w := div_nonneg hd (by linarith)
    have := cdf_le_near h0
    norm_num at this ⊢
    linarith
  refine ⟨?_, ?_, ?_⟩
  · rw [expectedTwo_real]
    simp only [tsC, side, i, j, hβ, List.map_cons, List.map_nil, List.sum_cons, List.sum_nil,
      List.length_cons, List.length_nil]
    refine lower _ ?_ ?_ _ ?_ ?_ ?_ <;> norm_num
  · rw [expectedTwo_real]
    simp only [tsC, side, i, k, hβ, List.map_cons, List.map_nil, List.sum_cons, List.sum_nil,
      List.length_cons, List.length_nil]
    refine lower _ ?_ ?_ _ ?_ ?_ ?_ <;> norm_num
  · have h := C64_trueskill_expected_multi_formula ![i, j, k] cfg
    have hs : ∀ f : Fin 3 → ℝ, (∑ x ∈ Finset.univ.erase 0, f x) = f 1 + f 2 ∧
        (∑ x ∈ Finset.univ.erase 1, f x) = f 0 + f 2 := fun f => by
      constructor
      · rw [show (Finset.univ.erase 0 : Finset (Fin 3)) = {1, 2} by decide]; simp
      · rw [show (Finset.univ.erase 1 : Finset (Fin 3)) = {0, 2} by decide]; simp
    have e : List.ofFn ![i, j, k] = [i, j, k] := by simp
    rw [e] at h
    set T := ∑ a, ∑ b ∈ Finset.univ.erase a, pairP (∑ c, (![i, j, k] c).length) cfg.beta
      (side (![i, j, k] a)) (side (![i, j, k] b)) with hT
    have T0 : 0 < T := Finset.sum_pos (fun a _ => Finset.sum_pos (fun b _ => pairP_pos _ _ _ _)
      (by revert a; decide)) Finset.univ_nonempty
    rw [List.ofFn_succ, List.ofFn_succ, List.ofFn_succ, List.ofFn_zero] at h
    refine ⟨_, _, _, h, ?_⟩
    refine div_lt_div_of_pos_right ?_ T0
    have n3 : ∑ c, (![i, j, k] c).length = 3 := by simp [Fin.sum_univ_three, i, j, k]
    simp only [Fin.succ_zero_eq_one, (hs _).1, (hs _).2, n3]
    simp only [pairP, Matrix.cons_val_zero, Matrix.cons_val_one, Matrix.cons_val, side, i, j, k, hβ,
      List.map_cons, List.map_nil, List.sum_cons, List.sum_nil]
    have u1 := upper (3 * (25 / 6) ^ 2 + (10000 ^ 2 + 0) + (1 ^ 2 + 0)) (by norm_num) 100 (by norm_num)
      (by norm_num)
    have u2 := upper (3 * (25 / 6) ^ 2 + (10000 ^ 2 + 0) + (1 ^ 2 + 0)) (by norm_num) 1100 (by norm_num)
      (by norm_num)
    have l1 : 0.44 ≤ normalCdf (-(100 / √(3 * (25 / 6) ^ 2 + (10000 ^ 2 + 0) + (1 ^ 2 + 0)))) := by
      rw [normalCdf_neg (by positivity)]; norm_num at u1 ⊢; linarith
    have l2 : 0.99 < normalCdf (1000 / √(3 * (25 / 6) ^ 2 + (1 ^ 2 + 0) + (1 ^ 2 + 0))) := by
      have hs : √(3 * (25 / 6) ^ 2 + (1 ^ 2 + 0) + (1 ^ 2 + 0)) ≤ 10 := by
        rw [Real.sqrt_le_left (by norm_num)]; norm_num
      have hp : (0 : ℝ) < √(3 * (25 / 6) ^ 2 + (1 ^ 2 + 0) + (1 ^ 2 + 0)) := by positivity
      have h30 : 30 < 1000 / √(3 * (25 / 6) ^ 2 + (1 ^ 2 + 0) + (1 ^ 2 + 0)) := by
        rw [lt_div_iff₀ hp]; linarith
      have := normalCdf_strictMono_pos (x := 30) (by norm_num) h30
      have := cdf_far
      linarith
    have e1 : ((3 : ℕ) : ℝ) = 3 := by norm_num
    rw [show (0 : ℝ) + 0 - (100 + 0) = -100 by norm_num, neg_div, e1,
      show (3 : ℝ) * (25 / 6) ^ 2 + (1 ^ 2 + 0) + (10000 ^ 2 + 0)
        = 3 * (25 / 6) ^ 2 + (10000 ^ 2 + 0) + (1 ^ 2 + 0) by ring,
      show (100 : ℝ) + 0 - (0 + 0) = 100 by norm_num, show (100 : ℝ) + 0 - (-1000 + 0) = 1100 by norm_num,
      show (0 : ℝ) + 0 - (-1000 + 0) = 1000 by norm_num]
    norm_num at u1 u2 l1 l2 ⊢
    linarith

end TrueSkill

/-! Concrete cases. -/
/-- Three TrueSkill players two points apart. -/
example : 1 / 2 - 1e-7 < (TrueSkill.expectedScore (⟨2, 1⟩ : TrueSkill.TrueSkillRating ℝ) ⟨-2, 1⟩
    ⟨0, 1, 0⟩).1 := by
  have hc : ∀ r s : ℝ, tsC 1 (TrueSkill.solo ⟨r, 1⟩) (TrueSkill.solo ⟨s, 1⟩) = 2 := by
    intro r s
    rw [tsC, show ((2 : ℝ) = √(2 ^ 2)) from (Real.sqrt_sq (by norm_num)).symm]
    norm_num [TrueSkill.solo]
  have h : (1 / 2 + 1e-7 : ℝ) ≤ normalCdf 1 := by
    have := TrueSkill.cdf_ge_near (x := 1) one_pos le_rfl
    norm_num at this ⊢; linarith
  refine TrueSkill.C150_trueskill _ ⟨0, 1⟩ _ _ one_ne_zero ?_ ?_ <;>
    simp only [TrueSkill.expected_real, hc] <;> norm_num at h ⊢ <;> exact h
example : NoCycle (Glicko.expectedScore (⟨1700, 30⟩ : Glicko.GlickoRating ℝ) ⟨1500, 200⟩).1
    (Glicko.expectedScore (⟨1500, 200⟩ : Glicko.GlickoRating ℝ) ⟨1490, 350⟩).1
    (Glicko.expectedScore (⟨1700, 30⟩ : Glicko.GlickoRating ℝ) ⟨1490, 350⟩).1 := (C150_glicko _ _ _).1
/-- 400 points twice are odds of 10 times 10. -/
example : odds (Elo.expectedScore (⟨2200⟩ : Elo.EloRating ℝ) ⟨1400⟩).1
    = odds (Elo.expectedScore (⟨2200⟩ : Elo.EloRating ℝ) ⟨1800⟩).1
      * odds (Elo.expectedScore (⟨1800⟩ : Elo.EloRating ℝ) ⟨1400⟩).1 := (C150_elo _ _ _).odds

end Skillratings
