import Mathlib.Analysis.Calculus.Deriv.MeanValue
import Mathlib.Analysis.Real.Pi.Bounds
import Verif.Proofs.KeepOrder
import Verif.Proofs.WengLin
import Verif.Props.Glicko
/-
C158: which games teach most.  How the deviation after a game depends on the opponent.
-/
namespace Skillratings
open Spec Real

/-- `σ (1 - σ)` falls with the distance from even. -/
theorem sigmoid_var_lt {x y : ℝ} (h : |x| < |y|) :
    sigmoid y * (1 - sigmoid y) < sigmoid x * (1 - sigmoid x) := by
  have even : ∀ z, sigmoid z * (1 - sigmoid z) = sigmoid |z| * (1 - sigmoid |z|) := by
    intro z
    rcases abs_cases z with ⟨e, -⟩ | ⟨e, -⟩
    · rw [e]
    · rw [e, sigmoid_neg]; ring
  rw [even x, even y]
  have h1 : sigmoid |x| < sigmoid |y| := sigmoid_strictMono h
  have h2 : 1 / 2 ≤ sigmoid |x| := by
    rcases (abs_nonneg x).eq_or_lt with h | h
    · rw [← h, sigmoid_zero]; norm_num
    · have := sigmoid_strictMono h
      rw [sigmoid_zero] at this
      linarith
  nlinarith

theorem sigmoid_var_le {x y : ℝ} (h : |x| ≤ |y|) :
    sigmoid y * (1 - sigmoid y) ≤ sigmoid x * (1 - sigmoid x) := by
  rcases h.eq_or_lt with h | h
  · rcases abs_eq_abs.1 h with rfl | rfl
    · exact le_rfl
    · rw [sigmoid_neg]; exact le_of_eq (by ring)
  · exact (sigmoid_var_lt h).le

/-- `y² σ (1 - σ)` rises up to 2. -/
theorem scaled_var_lt {x y : ℝ} (h0 : 0 ≤ x) (h : x < y) (h2 : y ≤ 2) :
    x ^ 2 * (sigmoid x * (1 - sigmoid x)) < y ^ 2 * (sigmoid y * (1 - sigmoid y)) := by
  have hd : ∀ z, HasDerivAt (fun z => z ^ 2 * (sigmoid z * (1 - sigmoid z)))
      (z * (sigmoid z * (1 - sigmoid z)) * (2 + z * (1 - 2 * sigmoid z))) z := by
    intro z
    have h1 := hasDerivAt_sig z
    have h2 := ((hasDerivAt_pow 2 z).mul (h1.mul ((hasDerivAt_const z (1 : ℝ)).sub h1)))
    refine h2.congr_deriv ?_
    simp only [Pi.sub_apply, Pi.mul_apply]
    push_cast
    ring
  have hm : StrictMonoOn (fun z => z ^ 2 * (sigmoid z * (1 - sigmoid z))) (Set.Icc 0 2) := by
    apply strictMonoOn_of_deriv_pos (convex_Icc 0 2)
    · exact fun z _ => (hd z).continuousAt.continuousWithinAt
    · intro z hz
      rw [interior_Icc] at hz
      rw [(hd z).deriv]
      have h1 := sigmoid_lt_one z
      have h3 := sigmoid_mul_one_sub_pos z
      have h4 : 0 < z := hz.1
      have h5 : 0 < 2 + z * (1 - 2 * sigmoid z) := by nlinarith [hz.2]
      positivity
  exact hm ⟨h0, by linarith⟩ ⟨by linarith, h2⟩ h

namespace Glicko

theorem info_eq (r rj rdj : ℝ) : glickoInfo r rj rdj = glickoQ ^ 2 * glickoG rdj ^ 2 *
    (sigmoid (glickoQ * (glickoG rdj * (r - rj))) *
      (1 - sigmoid (glickoQ * (glickoG rdj * (r - rj))))) := by
  rw [glickoInfo, glickoE_eq]; ring

theorem info_closer {r rj rj' rdj : ℝ} (h : |r - rj| < |r - rj'|) :
    glickoInfo r rj' rdj < glickoInfo r rj rdj := by
  have hq := glickoQ_pos
  have hg := glickoG_pos rdj
  rw [info_eq, info_eq]
  apply mul_lt_mul_of_pos_left _ (by positivity)
  apply sigmoid_var_lt
  rw [abs_mul, abs_mul, abs_mul, abs_mul, abs_of_pos hq, abs_of_pos hg]
  gcongr

theorem info_known {r rj rdj rdj' : ℝ} (hgap : |r - rj| ≤ 347) (h : rdj ^ 2 < rdj' ^ 2) :
    glickoInfo r rj rdj' < glickoInfo r rj rdj := by
  have hq := glickoQ_pos
  have hq' := glickoQ_lt
  have hg := glickoG_pos rdj
  have hg' := glickoG_pos rdj'
  have hg1 := glickoG_le_one rdj
  have hlt := glickoG_lt_of_sq_lt h
  rw [info_eq, info_eq]
  rcases eq_or_ne r rj with rfl | hne
  · simp only [sub_self, mul_zero, sigmoid_zero]
    have : glickoG rdj' ^ 2 < glickoG rdj ^ 2 := pow_lt_pow_left₀ hlt hg'.le (by norm_num)
    have h2 : glickoQ ^ 2 * glickoG rdj' ^ 2 < glickoQ ^ 2 * glickoG rdj ^ 2 :=
      mul_lt_mul_of_pos_left this (by positivity)
    norm_num
    linarith
  · have hx : 0 < |r - rj| := abs_pos.2 (sub_ne_zero.2 hne)
    have even : ∀ g, 0 < g → sigmoid (glickoQ * (g * (r - rj))) *
        (1 - sigmoid (glickoQ * (g * (r - rj)))) =
        sigmoid (glickoQ * (g * |r - rj|)) * (1 - sigmoid (glickoQ * (g * |r - rj|))) := by
      intro g hg
      have e : |glickoQ * (g * (r - rj))| = |glickoQ * (g * |r - rj|)| := by
        simp only [abs_mul, abs_abs]
      exact le_antisymm (sigmoid_var_le e.ge) (sigmoid_var_le e.le)
    rw [even _ hg, even _ hg']
    have key := scaled_var_lt (x := glickoQ * (glickoG rdj' * |r - rj|))
      (y := glickoQ * (glickoG rdj * |r - rj|)) (by positivity) (by gcongr) (by
        have h1 : glickoG rdj * |r - rj| ≤ 1 * 347 := mul_le_mul hg1 hgap hx.le (by norm_num)
        nlinarith)
    rw [mul_pow, mul_pow, mul_pow, mul_pow] at key
    refine lt_of_mul_lt_mul_right ?_ (show (0 : ℝ) ≤ |r - rj| ^ 2 by positivity)
    linarith

theorem deviation_lt {v i i' : ℝ} (hv : 0 < v) (hi : 0 < i') (h : i' < i) :
    √(posterior v i) < √(posterior v i') := by
  apply Real.sqrt_lt_sqrt (posterior_pos hv (by linarith)).le
  unfold posterior
  apply one_div_lt_one_div_of_lt (by positivity)
  linarith

/-- The closer the opponent's rating, the smaller the deviation after the game. -/
theorem C158_glicko_closer (a b b' : GlickoRating ℝ) (o o' : Outcomes) (c : GlickoConfig ℝ)
    (ha : 0 < a.deviation) (hd : b.deviation = b'.deviation)
    (h : |a.rating - b.rating| < |a.rating - b'.rating|) :
    (glicko a b o c).1.deviation < (glicko a b' o' c).1.deviation := by
  have := glickoOnset_pos c.c ha
  simp only [glicko_real, rated, hd]
  exact deviation_lt (by positivity) (glickoInfo_pos _ _ _) (info_closer h)

/-- Among opponents at most 347 points away: the better known, the smaller the deviation after the
game. -/
theorem C158_glicko_known (a b b' : GlickoRating ℝ) (o o' : Outcomes) (c : GlickoConfig ℝ)
    (ha : 0 < a.deviation) (hr : b.rating = b'.rating) (hgap : |a.rating - b.rating| ≤ 347)
    (h : b.deviation ^ 2 < b'.deviation ^ 2) :
    (glicko a b o c).1.deviation < (glicko a b' o' c).1.deviation := by
  have := glickoOnset_pos c.c ha
  simp only [glicko_real, rated, ← hr]
  exact deviation_lt (by positivity) (glickoInfo_pos _ _ _) (info_known hgap h)

/-- In a period: replacing one opponent by one of closer rating. -/
theorem C158_glicko_period_closer (a b b' : GlickoRating ℝ) (o o' : Outcomes)
    (l₁ l₂ : List (GlickoRating ℝ × Outcomes)) (c : GlickoConfig ℝ)
    (ha : 0 < a.deviation) (hd : b.deviation = b'.deviation)
    (h : |a.rating - b.rating| < |a.rating - b'.rating|) :
    (glickoRatingPeriod a (l₁ ++ (b, o) :: l₂) c).deviation <
      (glickoRatingPeriod a (l₁ ++ (b', o') :: l₂) c).deviation := by
  have := glickoOnset_pos c.c ha
  rw [period_real _ _ _ (by simp), period_real _ _ _ (by simp)]
  refine deviation_lt (by positivity) ?_ ?_
  · exact List_sum_pos _ _ (by simp) fun x => glickoInfo_pos _ _ _
  · have := info_closer (rdj := b'.deviation) h
    simp only [List.map_append, List.map_cons, List.sum_append, List.sum_cons, hd]
    linarith

theorem G_350 : 0.6 ≤ glickoG 350 ∧ glickoG 350 ≤ 3 / 4 := by
  have hq := glickoQ_pos
  have hq1 := glickoQ_lt
  have hq2 : 0.005 < glickoQ := by
    unfold glickoQ
    have h1 : (2 : ℝ) < log 10 := by
      rw [Real.lt_log_iff_exp_lt (by norm_num)]
      have e : exp 2 = exp 1 * exp 1 := by rw [← Real.exp_add]; norm_num
      have := Real.exp_one_lt_d9
      have := Real.exp_pos 1
      nlinarith
    linarith
  have p1 := Real.pi_gt_d2
  have p2 := Real.pi_lt_d2
  have hp : 0 < Real.pi ^ 2 := by positivity
  have s1 : glickoQ ^ 2 < 0.0057565 ^ 2 := pow_lt_pow_left₀ hq1 hq.le (by norm_num)
  have s2 : (0.005 : ℝ) ^ 2 < glickoQ ^ 2 := pow_lt_pow_left₀ hq2 (by norm_num) (by norm_num)
  have s3 : (3.14 : ℝ) ^ 2 < Real.pi ^ 2 := pow_lt_pow_left₀ p1 (by norm_num) (by norm_num)
  have s4 : Real.pi ^ 2 < (3.15 : ℝ) ^ 2 := pow_lt_pow_left₀ p2 Real.pi_pos.le (by norm_num)
  have r1 : 3 * glickoQ ^ 2 * 350 ^ 2 / Real.pi ^ 2 ≤ 1.7 := by
    rw [div_le_iff₀ hp]; nlinarith
  have r2 : 0.8 ≤ 3 * glickoQ ^ 2 * 350 ^ 2 / Real.pi ^ 2 := by
    rw [le_div_iff₀ hp]; nlinarith
  have hr := glickoG_radicand_pos 350
  unfold glickoG
  constructor
  · rw [le_div_iff₀ (Real.sqrt_pos.2 hr)]
    have : √(1 + 3 * glickoQ ^ 2 * 350 ^ 2 / Real.pi ^ 2) ≤ 5 / 3 := by
      rw [Real.sqrt_le_left (by norm_num)]; linarith
    linarith
  · rw [div_le_iff₀ (Real.sqrt_pos.2 hr)]
    have : 4 / 3 ≤ √(1 + 3 * glickoQ ^ 2 * 350 ^ 2 / Real.pi ^ 2) := by
      rw [Real.le_sqrt' (by norm_num)]; linarith
    linarith

/-- Against a far weaker opponent it is the other way round: 1600 points below, a game against a
newcomer leaves a smaller deviation than one against a perfectly known player. -/
theorem C158_glicko_known_fails (a : GlickoRating ℝ) (o o' : Outcomes) (c : GlickoConfig ℝ)
    (ha : 0 < a.deviation) :
    (glicko a ⟨a.rating - 1600, 350⟩ o c).1.deviation <
      (glicko a ⟨a.rating - 1600, 0⟩ o' c).1.deviation := by
  have ho := glickoOnset_pos c.c ha
  simp only [glicko_real, rated]
  refine deviation_lt (by positivity) (glickoInfo_pos _ _ _) ?_
  obtain ⟨g1, g2⟩ := G_350
  have hq := glickoQ_pos
  have hl := log_ten_pos
  rw [info_eq, info_eq, mul_assoc, mul_assoc, sub_sub_cancel]
  apply mul_lt_mul_of_pos_left _ (by positivity)
  have e0 : glickoG 0 = 1 := by norm_num [glickoG]
  have v1 : sigmoid (3 * log 10) * (1 - sigmoid (3 * log 10)) ≤
      sigmoid (glickoQ * (glickoG 350 * 1600)) * (1 - sigmoid (glickoQ * (glickoG 350 * 1600))) := by
    apply sigmoid_var_le
    rw [abs_of_nonneg (by positivity), abs_of_nonneg (by positivity), glickoQ]
    nlinarith
  have pw : ∀ n : ℕ, sigmoid (n * log 10) = 10 ^ n / (10 ^ n + 1) := by
    intro n
    have h : exp (-(n * log 10)) = (10 ^ n)⁻¹ := by
      rw [Real.exp_neg, Real.exp_nat_mul, Real.exp_log (by norm_num)]
    rw [sigmoid_def, h]
    field_simp
  have w3 := pw 3
  have w4 := pw 4
  push_cast at w3 w4
  rw [w3] at v1
  rw [e0, show glickoQ * (1 * 1600) = 4 * log 10 by rw [glickoQ]; ring, w4]
  have v2 : 0.36 ≤ glickoG 350 ^ 2 := by nlinarith
  have v3 : (0.0009 : ℝ) ≤ sigmoid (glickoQ * (glickoG 350 * 1600)) *
      (1 - sigmoid (glickoQ * (glickoG 350 * 1600))) := le_trans (by norm_num) v1
  have v4 := mul_le_mul v2 v3 (by norm_num) (by positivity)
  refine lt_of_lt_of_le ?_ v4
  norm_num

end Glicko

/-! ### Weng-Lin -/

/-- The closer the opponent's rating, the smaller the uncertainty after the game (or equal, at the
tolerance). -/
theorem C158_wengLin_closer (a b b' : WengLin.WengLinRating ℝ) (o o' : Outcomes)
    (c : WengLin.WengLinConfig ℝ) (ha : 0 ≤ a.uncertainty) (hd : b.uncertainty = b'.uncertainty)
    (h : |a.rating - b.rating| ≤ |a.rating - b'.rating|) :
    (WengLin.wengLin a b o c).1.uncertainty ≤ (WengLin.wengLin a b' o' c).1.uncertainty := by
  simp only [WengLin.wengLin_real, WengLin.wlP_eq, hd]
  have hc : 0 ≤ wlC c.beta (a.uncertainty ^ 2) (b'.uncertainty ^ 2) := Real.sqrt_nonneg _
  set k := wlC c.beta (a.uncertainty ^ 2) (b'.uncertainty ^ 2)
  have hv := sigmoid_var_le (x := (a.rating - b.rating) / k) (y := (a.rating - b'.rating) / k) (by
    rw [abs_div, abs_div]; gcongr)
  have hk : 0 ≤ (a.uncertainty / k) ^ 3 := by positivity
  have := mul_le_mul_of_nonneg_left hv hk
  apply Real.sqrt_le_sqrt
  apply mul_le_mul_of_nonneg_left _ (by positivity)
  apply max_le_max_right
  linarith

/-! ### Cases -/

example (o : Outcomes) (c : Glicko.GlickoConfig ℝ) :
    (Glicko.glicko ⟨1500, 200⟩ ⟨1600, 50⟩ o c).1.deviation <
      (Glicko.glicko ⟨1500, 200⟩ ⟨1300, 50⟩ o c).1.deviation :=
  Glicko.C158_glicko_closer ⟨1500, 200⟩ ⟨1600, 50⟩ ⟨1300, 50⟩ o o c (by norm_num) rfl
    (by norm_num [abs_lt])

example (o : Outcomes) (c : Glicko.GlickoConfig ℝ) :
    (Glicko.glicko ⟨1500, 200⟩ ⟨1700, 50⟩ o c).1.deviation <
      (Glicko.glicko ⟨1500, 200⟩ ⟨1700, 300⟩ o c).1.deviation :=
  Glicko.C158_glicko_known ⟨1500, 200⟩ ⟨1700, 50⟩ ⟨1700, 300⟩ o o c (by norm_num) rfl
    (by norm_num [abs_le]) (by norm_num)

example (c : Glicko.GlickoConfig ℝ) (l : List (Glicko.GlickoRating ℝ × Outcomes)) :
    (Glicko.glickoRatingPeriod ⟨1500, 200⟩ (l ++ [(⟨1600, 50⟩, .WIN)]) c).deviation <
      (Glicko.glickoRatingPeriod ⟨1500, 200⟩ (l ++ [(⟨1300, 50⟩, .LOSS)]) c).deviation :=
  Glicko.C158_glicko_period_closer ⟨1500, 200⟩ ⟨1600, 50⟩ ⟨1300, 50⟩ .WIN .LOSS l [] c
    (by norm_num) rfl (by norm_num [abs_lt])

example (c : WengLin.WengLinConfig ℝ) :
    (WengLin.wengLin ⟨25, 8⟩ ⟨27, 5⟩ .WIN c).1.uncertainty ≤
      (WengLin.wengLin ⟨25, 8⟩ ⟨20, 5⟩ .WIN c).1.uncertainty :=
  C158_wengLin_closer ⟨25, 8⟩ ⟨27, 5⟩ ⟨20, 5⟩ .WIN .WIN c (by norm_num) rfl (by norm_num [abs_le])

end Skillratings
