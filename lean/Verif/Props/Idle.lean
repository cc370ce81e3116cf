import Verif.Props.Glicko
import Verif.Props.Sticko
import Verif.Props.Glicko2
import Verif.Props.GlickoBoost
/-
C153: how many idle periods make a player as uncertain as a newcomer.
-/
namespace Skillratings
open Spec Real

theorem idle_cap (d : ℝ) (v : ℝ) : min √(d ^ 2 + v) 350 = 350 ↔ 350 ^ 2 ≤ d ^ 2 + v := by
  rw [min_eq_right_iff, Real.le_sqrt' (by norm_num)]

/-- Glicko: the number of idle periods after which the deviation is that of a newcomer. -/
theorem C153_glicko (p : Glicko.GlickoRating ℝ) (c : Glicko.GlickoConfig ℝ) (n : ℕ)
    (h : 0 ≤ p.deviation) (h' : p.deviation ≤ 350) :
    ((fun p => Glicko.decayDeviation p c)^[n] p).deviation = 350
      ↔ 350 ^ 2 ≤ p.deviation ^ 2 + n * c.c ^ 2 := by
  rw [Glicko.C33_glicko_decay_n p c n h h']; exact idle_cap _ _

/-- With the default of c a player of deviation 50 needs 31 periods, one more than the 30 for which the
value was chosen. -/
theorem C153_glicko_default (r : ℝ) (n : ℕ) :
    ((fun p => Glicko.decayDeviation p .new)^[n] (⟨r, 50⟩ : Glicko.GlickoRating ℝ)).deviation = 350
      ↔ 31 ≤ n := by
  rw [C153_glicko _ _ _ (by norm_num) (by norm_num)]
  simp only [Glicko.GlickoConfig.new, flt]
  constructor
  · intro h
    by_contra hn
    have : (n : ℝ) ≤ 30 := by exact_mod_cast (by omega : n ≤ 30)
    norm_num at h; linarith
  · intro h
    have : (31 : ℝ) ≤ n := by exact_mod_cast h
    norm_num; linarith

theorem C153_sticko (p : Sticko.StickoRating ℝ) (c : Sticko.StickoConfig ℝ) (n : ℕ)
    (h : 0 ≤ p.deviation) (h' : p.deviation ≤ 350) :
    ((fun p => Sticko.decayDeviation p c)^[n] p).deviation = 350
      ↔ 350 ^ 2 ≤ p.deviation ^ 2 + n * c.c ^ 2 := by
  rw [Sticko.C33_sticko_decay_n p c n h h']; exact idle_cap _ _

theorem C153_glicko2 (p : Glicko2.Glicko2Rating ℝ) (n : ℕ)
    (h : 0 ≤ p.deviation) (h' : p.deviation ≤ 350) :
    (Glicko2.decayDeviation^[n] p).deviation = 350
      ↔ 350 ^ 2 ≤ p.deviation ^ 2 + n * (173.7178 * p.volatility) ^ 2 := by
  rw [Glicko2.C40_glicko2_decay_n p n h h']; exact idle_cap _ _

/-! ### Glicko-Boost -/

theorem boost_idle (p : GlickoBoost.GlickoBoostRating ℝ) (c : GlickoBoost.GlickoBoostConfig ℝ) (δ : ℝ)
    (hδ : ∀ d, 0 ≤ d → d ≤ 350 → δ ≤ exp (c.alpha.a0 + c.alpha.a1 * d
      + c.alpha.a2 * d * (p.rating / 1000) + c.alpha.a3 * (p.rating / 1000)
      + c.alpha.a4 * (p.rating / 1000) ^ 2))
    (h : 0 ≤ p.deviation) (h' : p.deviation ≤ 350) (n : ℕ) :
    let q := (fun p => GlickoBoost.decayDeviation p c)^[n] p
    q.rating = p.rating ∧ 0 ≤ q.deviation ∧ q.deviation ≤ 350 ∧
      (q.deviation = 350 ∨ p.deviation ^ 2 + n * δ ≤ q.deviation ^ 2) := by
  induction n with
  | zero => exact ⟨rfl, h, h', .inr (by simp)⟩
  | succ n ih =>
    simp only [Function.iterate_succ_apply'] at ih ⊢
    set q := (fun p => GlickoBoost.decayDeviation p c)^[n] p with hq
    obtain ⟨h1, h2, h3, h4⟩ := ih
    obtain ⟨e1, e2⟩ := GlickoBoost.C86_glickoBoost_decay_formula q c
    have hd := hδ q.deviation h2 h3
    rw [h1] at e2
    set x := exp (c.alpha.a0 + c.alpha.a1 * q.deviation
      + c.alpha.a2 * q.deviation * (p.rating / 1000) + c.alpha.a3 * (p.rating / 1000)
      + c.alpha.a4 * (p.rating / 1000) ^ 2) with hx
    have hx0 : 0 < x := exp_pos _
    refine ⟨e1.trans h1, by rw [e2]; positivity, by rw [e2]; exact min_le_right _ _, ?_⟩
    rcases le_total 350 √(q.deviation ^ 2 + x) with h5 | h5
    · left; rw [e2]; exact min_eq_right h5
    · rcases h4 with h4 | h4
      · exfalso
        rw [h4, Real.sqrt_le_left (by norm_num)] at h5
        linarith
      · right
        rw [e2, min_eq_left h5, Real.sq_sqrt (by positivity)]
        push_cast; linarith

/-- Glicko-Boost: with any configuration and for any rating idle periods end with the deviation of a
newcomer. -/
theorem C153_boost (p : GlickoBoost.GlickoBoostRating ℝ) (c : GlickoBoost.GlickoBoostConfig ℝ)
    (h : 0 ≤ p.deviation) (h' : p.deviation ≤ 350) :
    ∃ N : ℕ, ∀ n ≥ N, ((fun p => GlickoBoost.decayDeviation p c)^[n] p).deviation = 350 := by
  set r := p.rating / 1000 with hr
  set δ := exp (c.alpha.a0 + c.alpha.a3 * r + c.alpha.a4 * r ^ 2 - |c.alpha.a1 + c.alpha.a2 * r| * 350)
  have hδ0 : 0 < δ := exp_pos _
  obtain ⟨N, hN⟩ := exists_nat_gt (350 ^ 2 / δ)
  refine ⟨N, fun n hn => ?_⟩
  obtain ⟨_, _, h3, h4⟩ := boost_idle p c δ (fun d h1 h2 => by
    apply exp_le_exp.2
    have := abs_le.1 (le_refl |c.alpha.a1 + c.alpha.a2 * r|)
    have h5 := mul_le_mul_of_nonneg_right this.1 h1
    have h6 := mul_le_mul_of_nonneg_left h2 (abs_nonneg (c.alpha.a1 + c.alpha.a2 * r))
    rw [← hr]; linarith) h h' n
  refine h4.resolve_right fun h4 => ?_
  rw [div_lt_iff₀ hδ0] at hN
  have h5 : (N : ℝ) * δ ≤ n * δ := by gcongr
  nlinarith [sq_nonneg p.deviation]

/-- With the default configuration 430 periods are enough. -/
theorem C153_boost_default (p : GlickoBoost.GlickoBoostRating ℝ) (h : 0 ≤ p.deviation)
    (h' : p.deviation ≤ 350) (hr : 0 ≤ p.rating) (hr' : p.rating ≤ 3000) (n : ℕ) (hn : 430 ≤ n) :
    ((fun p => GlickoBoost.decayDeviation p .new)^[n] p).deviation = 350 := by
  obtain ⟨_, h2, h3, h4⟩ := boost_idle p .new 287 (fun d h1 h2 => by
    have e : (287 : ℝ) ≤ exp 5.7 := by
      have h1 : (2.7182 : ℝ) ^ 5 ≤ exp 1 ^ 5 := by
        gcongr; linarith [Real.exp_one_gt_d9]
      have h2 := Real.quadratic_le_exp_of_nonneg (show (0 : ℝ) ≤ 0.7 by norm_num)
      have e : exp (5.7 : ℝ) = exp 1 ^ 5 * exp 0.7 := by
        rw [← Real.exp_nat_mul, ← Real.exp_add]; norm_num
      rw [e]
      have := mul_le_mul h1 h2 (by norm_num) (by positivity)
      refine le_trans ?_ this
      norm_num
    refine e.trans (exp_le_exp.2 ?_)
    simp only [GlickoBoost.GlickoBoostConfig.new, flt]
    have h5 : d * p.rating ≤ 350 * 3000 := mul_le_mul h2 hr' hr (by norm_num)
    nlinarith [sq_nonneg p.rating]) h h' n
  refine h4.resolve_right fun h4 => ?_
  have h5 : (430 : ℝ) ≤ n := by exact_mod_cast hn
  nlinarith [sq_nonneg p.deviation]

/-! Concrete cases. -/
example : ((fun p => Glicko.decayDeviation p .new)^[40] (⟨1700, 50⟩ : Glicko.GlickoRating ℝ)).deviation = 350 :=
  (C153_glicko_default 1700 40).2 (by norm_num)

example : (Glicko2.decayDeviation^[1000] (⟨1500, 200, 0.06⟩ : Glicko2.Glicko2Rating ℝ)).deviation = 350 :=
  (C153_glicko2 ⟨1500, 200, 0.06⟩ 1000 (by norm_num) (by norm_num)).2 (by norm_num)

example : ((fun p => GlickoBoost.decayDeviation p .new)^[500]
    (⟨1500, 60⟩ : GlickoBoost.GlickoBoostRating ℝ)).deviation = 350 :=
  C153_boost_default ⟨1500, 60⟩ (by norm_num) (by norm_num) (by norm_num) (by norm_num) 500 (by norm_num)

end Skillratings
