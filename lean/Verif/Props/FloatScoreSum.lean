import Verif.Props.FloatIngoDraws
import Verif.Props.FloatScores
import Verif.Props.FloatEgf
import Verif.Props.FloatWengLin
import Verif.Proofs.FPZero
/-
C167: the two expected scores of a game add up to exactly one with rounding to nearest, ties to even.
-/
namespace Skillratings
open FP FPVal Spec
variable {E : FloatEnv}

/-- Rounding to nearest, ties to even; the library functions are left open. -/
def FloatEnv.ToNearest (E : FloatEnv) : Prop := E.mag = nearest

/-- Rounding a number of the unit interval to nearest moves it by at most `2 ^ -54`. -/
theorem nearest_unit {z : ℝ} (h0 : 0 ≤ z) (h1 : z ≤ 1) : |z - cval (nearest z)| ≤ 1 / 2 ^ 54 := by
  set n := ⌊z * 2 ^ 53 + 1 / 2⌋₊ with hn
  have a1 : (n : ℝ) ≤ z * 2 ^ 53 + 1 / 2 := Nat.floor_le (by positivity)
  have a2 : z * 2 ^ 53 + 1 / 2 < n + 1 := Nat.lt_floor_add_one _
  have hn1 : n ≤ 2 ^ 53 := by
    have : (n : ℝ) < 2 ^ 53 + 1 := by nlinarith
    have : n < 2 ^ 53 + 1 := by exact_mod_cast this
    omega
  have hrep : Rep ((n : ℝ) / 2 ^ 53) := by
    rcases hn1.lt_or_eq with h | h
    · exact ⟨n, -53, h, by norm_num, by norm_num, by
        rw [zpow_neg, div_eq_mul_inv]; norm_num⟩
    · refine ⟨1, 0, by norm_num, by norm_num, by norm_num, ?_⟩
      rw [h]; norm_num
  have key : |z - cval (nearest z)| ≤ |z - n / 2 ^ 53| :=
    nearest_nearest h0 (h1.trans (one_le_pow₀ (by norm_num)))
      (WithTop.some (⟨(n : ℝ) / 2 ^ 53, hrep⟩ : { m : ℝ // Rep m }))
  refine key.trans ?_
  rw [abs_le]
  constructor <;> [rw [neg_le_sub_iff_le_add]; rw [sub_le_iff_le_add]] <;> norm_num at * <;> linarith

theorem rep_one : Rep 1 := ⟨1, 0, by norm_num, by norm_num, by norm_num, by norm_num⟩

/-- Nothing representable lies between `1 - 2 ^ -53`, `1` and `1 + 2 ^ -52`. -/
theorem rep_gap_low {c : ℝ} (h : Rep c) (h1 : c < 1) : c ≤ 1 - 1 / 2 ^ 53 := by
  by_cases hc : c < 1 / 2
  · norm_num; linarith
  · obtain ⟨n, rfl⟩ := rep_grid h (k := -1) (by norm_num; linarith)
    norm_num at *
    have : (n : ℝ) < 2 ^ 53 := by norm_num; linarith
    have : n < 2 ^ 53 := by exact_mod_cast this
    have : n ≤ 2 ^ 53 - 1 := by omega
    have : (n : ℝ) ≤ 2 ^ 53 - 1 := by exact_mod_cast this
    norm_num at this
    linarith

theorem rep_gap_high {c : ℝ} (h : Rep c) (h1 : 1 < c) : 1 + 1 / 2 ^ 52 ≤ c := by
  obtain ⟨n, rfl⟩ := rep_grid h (k := 0) (by norm_num; linarith)
  norm_num at *
  have : (2 : ℝ) ^ 52 < n := by norm_num; linarith
  have : 2 ^ 52 < n := by exact_mod_cast this
  have : 2 ^ 52 + 1 ≤ n := by omega
  have : (2 : ℝ) ^ 52 + 1 ≤ n := by exact_mod_cast this
  norm_num at this
  linarith

/-- The significand of `1 - 2 ^ -53` is odd. -/
theorem odd_below_one (c : WithTop Mag) (hc : cval c = 1 - 1 / 2 ^ 53) : ¬ evenSignificand c := by
  cases c with
  | top =>
    have h1 : (1 : ℝ) ≤ 2 ^ 1024 := one_le_pow₀ (by norm_num)
    rw [cval_top] at hc
    exfalso
    rw [hc] at h1
    norm_num at h1
  | coe m =>
    rw [cval_coe] at hc
    rintro ⟨n, k, he, hn, hk, hv⟩
    rw [hc] at hv
    have hn' : (n : ℝ) < 2 ^ (53 : ℤ) := by exact_mod_cast hn
    have hk1 : -53 ≤ k := by
      by_contra hlt
      have h2 : (n : ℝ) * 2 ^ k < 2 ^ (53 : ℤ) * 2 ^ k := mul_lt_mul_of_pos_right hn' (by positivity)
      rw [← zpow_add₀ (by norm_num : (2 : ℝ) ≠ 0), ← hv] at h2
      have h3 : (2 : ℝ) ^ (53 + k) ≤ 2 ^ (-1 : ℤ) := zpow_le_zpow_right₀ (by norm_num) (by omega)
      norm_num at h2 h3
      linarith
    have hk2 : k ≤ -53 := by
      rcases hk with hk | hk
      · by_contra hlt
        have h1 : (2 : ℝ) ^ (52 : ℤ) ≤ n := by exact_mod_cast hk
        have h2 : (2 : ℝ) ^ (52 : ℤ) * 2 ^ k ≤ n * 2 ^ k := mul_le_mul_of_nonneg_right h1 (by positivity)
        rw [← zpow_add₀ (by norm_num : (2 : ℝ) ≠ 0), ← hv] at h2
        have h3 : (1 : ℝ) ≤ 2 ^ (52 + k) := one_le_zpow₀ (by norm_num) (by omega)
        norm_num at h2
        linarith
      · omega
    have hk3 : k = -53 := le_antisymm hk2 hk1
    rw [hk3] at hv
    norm_num at hv
    have h4 : (n : ℝ) = 2 ^ 53 - 1 := by norm_num; linarith
    have h5 : (n : ℝ) = ((2 ^ 53 - 1 : ℕ) : ℝ) := by rw [h4]; norm_num
    have h6 : n = 2 ^ 53 - 1 := by exact_mod_cast h5
    rw [h6] at he
    revert he
    decide

/-- A sum within `2 ^ -54` of one is rounded to one. -/
theorem nearest_one {s : ℝ} (h : |s - 1| ≤ 1 / 2 ^ 54) : cval (nearest s) = 1 := by
  have hs := abs_le.1 h
  norm_num at hs
  have h0 : 0 ≤ s := by linarith
  have h1 : s ≤ 2 ^ 1024 := le_trans (by linarith : s ≤ 2 ^ 1) (pow_le_pow_right₀ (by norm_num) (by norm_num))
  have hcl : clamp s = s := by rw [clamp, max_eq_left h0, min_eq_left h1]
  have key : |s - cval (nearest s)| ≤ |s - 1| :=
    nearest_nearest h0 h1 (WithTop.some (⟨1, rep_one⟩ : { m : ℝ // Rep m }))
  have hk := abs_le.1 (key.trans h)
  norm_num at hk
  have hrep : Rep (cval (nearest s)) := by
    cases hc : nearest s with
    | top =>
      exfalso
      rw [hc, cval_top] at hk
      have h2 : (2 : ℝ) ^ 2 ≤ 2 ^ 1024 := pow_le_pow_right₀ (by norm_num) (by norm_num)
      have hk1 := hk.1
      clear hk key h1
      generalize (2 : ℝ) ^ 1024 = T at h2 hk1
      norm_num at h2
      linarith
    | coe m => exact m.2
  rcases lt_trichotomy (cval (nearest s)) 1 with hlt | heq | hgt
  · exfalso
    have hg := rep_gap_low hrep hlt
    norm_num at hg
    -- the tie
    have hs' : s = 1 - 1 / 2 ^ 54 := by norm_num; linarith
    have hlow : cval (lower s) = 1 - 1 / 2 ^ 53 := by
      have l1 := cval_lower s
      rw [hcl] at l1
      have lr : Rep (cval (lower s)) := by
        cases hc : lower s with
        | top =>
          exfalso
          rw [hc, cval_top] at l1
          have h2 : (2 : ℝ) ^ 2 ≤ 2 ^ 1024 := pow_le_pow_right₀ (by norm_num) (by norm_num)
          clear hk key h1
          generalize (2 : ℝ) ^ 1024 = T at h2 l1
          norm_num at h2
          linarith
        | coe m => exact m.2
      have l2 := rep_gap_low lr (lt_of_le_of_lt l1 (by rw [hs']; norm_num))
      have l3 : cval (nearest s) ≤ cval (lower s) :=
        cval_strictMono.monotone (le_lower (by rw [hcl]; norm_num at hs'; linarith))
      norm_num at l2 ⊢
      norm_num at hs'
      linarith
    have hup : cval (upper s) = 1 := by
      have u1 := cval_upper s
      rw [hcl] at u1
      have u2 : cval (upper s) ≤ 1 := by
        have : upper s ≤ WithTop.some (⟨1, rep_one⟩ : { m : ℝ // Rep m }) :=
          upper_le (by rw [hcl]; change s ≤ 1; rw [hs']; norm_num)
        exact cval_strictMono.monotone this
      refine le_antisymm u2 (not_lt.1 fun hl => ?_)
      have ur : Rep (cval (upper s)) := by
        cases hc : upper s with
        | top =>
          exfalso
          rw [hc, cval_top] at hl
          exact absurd hl (not_lt.2 (one_le_pow₀ (by norm_num)))
        | coe m => exact m.2
      have u3 := rep_gap_low ur hl
      norm_num at hs' u3
      linarith
    have hnear : nearest s = upper s := by
      rw [nearest, hcl, if_neg, if_neg, if_neg (odd_below_one _ hlow)]
      · rw [hlow, hup, hs']; norm_num
      · rw [hlow, hup, hs']; norm_num
    rw [hnear, hup] at hlt
    exact lt_irrefl _ hlt
  · exact heq
  · exfalso
    have hg := rep_gap_high hrep hgt
    norm_num at hg
    linarith

/-- The value of a rounded nonnegative number. -/
theorem round_cval (hE : E.ToNearest) {s : Bool} {x : ℝ} (h0 : 0 ≤ x) (h1 : x ≤ 2) :
    Is (E := E) (E.round s x) (cval (nearest x)) := by
  rcases h0.eq_or_lt with rfl | h0
  · have : cval (nearest 0) = 0 := by
      have := nearest_rep Mag.zero
      rw [show Mag.zero.1 = 0 from rfl] at this
      rw [this]; rfl
    rw [this]
    exact Is.round SRep.zero
  · have hr : E.round s x = FloatEnv.ofMag (decide (x < 0)) (nearest |x|) := by
      rw [FloatEnv.round, if_neg h0.ne', show E.mag = nearest from hE]
    rw [abs_of_pos h0, decide_eq_false (not_lt.2 h0.le)] at hr
    have hle : nearest x ≤ nearest 2 := nearest_mono h1
    have h2 : nearest 2 ≠ ⊤ := by
      have r2 : Rep 2 := ⟨2, 0, by norm_num, by norm_num, by norm_num, by norm_num⟩
      rw [nearest_rep ⟨2, r2⟩]
      exact WithTop.coe_ne_top
    cases hc : nearest x with
    | top => exact absurd (top_le_iff.1 (hc ▸ hle)) h2
    | coe m =>
      rw [hr, hc]
      exact ⟨trivial, rfl⟩

/-- A score and its complement. -/
theorem score_sum (hE : E.ToNearest) {x : FP E} (hx : In 0 1 x) : x + ((1.0 : FP E) - x) = 1.0 := by
  have hu := unit_in hx
  have hv := hu.toR
  have h1 := Is.one (E := E)
  obtain ⟨t, ht⟩ := sub_fin h1.1 hu.finite
  rw [h1.2] at ht
  have hy := round_cval hE (s := t) (x := 1 - x.toR) (by linarith [hv.2]) (by linarith [hv.1])
  rw [← ht] at hy
  have hd := nearest_unit (z := 1 - x.toR) (by linarith [hv.2]) (by linarith [hv.1])
  obtain ⟨u, hu'⟩ := add_fin hu.finite hy.1
  rw [hy.2] at hu'
  have e : |x.toR + cval (nearest (1 - x.toR)) - 1| ≤ 1 / 2 ^ 54 := by
    rw [← abs_neg]
    refine le_trans (le_of_eq ?_) hd
    congr 1
    ring
  have hb := abs_le.1 e
  norm_num at hb
  have := round_cval hE (s := u) (x := x.toR + cval (nearest (1 - x.toR))) (by linarith) (by linarith)
  rw [nearest_one e] at this
  rw [← hu'] at this
  exact eq_of_toR this.1 h1.1 (this.2.trans h1.2.symm) (by rw [h1.2]; norm_num)

theorem C167_elo (hE : E.ToNearest) (L : E.Lib) (a b : Elo.EloRating (FP E)) (ha : a.rating.isFinite)
    (hb : b.rating.isFinite) : (Elo.expectedScore a b).1 + (Elo.expectedScore a b).2 = 1.0 :=
  score_sum hE (C79_elo_expected L a b ha hb).1

theorem C167_fifa (hE : E.ToNearest) (L : E.Lib) (a b : Fifa.FifaRating (FP E)) (ha : a.rating.isFinite)
    (hb : b.rating.isFinite) : (Fifa.expectedScore a b).1 + (Fifa.expectedScore a b).2 = 1.0 :=
  score_sum hE (C79_fifa_expected L a b ha hb).1

theorem C167_dwz (hE : E.ToNearest) (L : E.Lib) (a b : Dwz.DWZRating (FP E)) (ha : a.rating.isFinite)
    (hb : b.rating.isFinite) : (Dwz.expectedScore a b).1 + (Dwz.expectedScore a b).2 = 1.0 :=
  score_sum hE (C79_dwz_expected L a b ha hb).1

theorem C167_uscf (hE : E.ToNearest) (L : E.Lib) (a b : Uscf.USCFRating (FP E)) (ha : a.rating.isFinite)
    (hb : b.rating.isFinite) : (Uscf.expectedScore a b).1 + (Uscf.expectedScore a b).2 = 1.0 :=
  score_sum hE (C79_uscf_expected L a b ha hb).1

theorem C167_egf (hE : E.ToNearest) (L : E.Lib) (G : E.Moderate) (a b : Egf.EGFRating (FP E))
    (c : Egf.EGFConfig (FP E)) (H : ℕ) (hc : Within H c.handicap) (ha : a.rating.isFinite)
    (ha1 : -900 ≤ a.rating.toR) (ha2 : a.rating.toR + 100 * H ≤ 3299) (hb : b.rating.isFinite)
    (hb1 : -900 ≤ b.rating.toR) (hb2 : b.rating.toR + 100 * H ≤ 3299) :
    (Egf.expectedScore a b c).1 + (Egf.expectedScore a b c).2 = 1.0 :=
  score_sum hE (C79_egf_expected L G a b c H hc ha ha1 ha2 hb hb1 hb2).1

theorem C167_glicko (hE : E.ToNearest) (L : E.Lib) (a b : Glicko.GlickoRating (FP E))
    (hda : ¬ a.deviation.isNaN) (hdb : ¬ b.deviation.isNaN) (ha : a.rating.isFinite)
    (hb : b.rating.isFinite) (ha' : |a.rating.toR| ≤ 2 ^ 970) (hb' : |b.rating.toR| ≤ 2 ^ 970) :
    (Glicko.expectedScore a b).1 + (Glicko.expectedScore a b).2 = 1.0 :=
  score_sum hE (C79_glicko_expected_bounded L a b hda hdb ha hb ha' hb').1

theorem C167_glicko2 (hE : E.ToNearest) (L : E.Lib) (a b : Glicko2.Glicko2Rating (FP E))
    (hda : ¬ a.deviation.isNaN) (hdb : ¬ b.deviation.isNaN) (ha : a.rating.isFinite)
    (hb : b.rating.isFinite) (ha' : |a.rating.toR| ≤ 2 ^ 970) (hb' : |b.rating.toR| ≤ 2 ^ 970) :
    (Glicko2.expectedScore a b).1 + (Glicko2.expectedScore a b).2 = 1.0 :=
  score_sum hE (C79_glicko2_expected_bounded L a b hda hdb ha hb ha' hb').1

theorem C167_glickoBoost (hE : E.ToNearest) (L : E.Lib) (a b : GlickoBoost.GlickoBoostRating (FP E))
    (c : GlickoBoost.GlickoBoostConfig (FP E)) (hda : ¬ a.deviation.isNaN) (hdb : ¬ b.deviation.isNaN)
    (ha : a.rating.isFinite) (hb : b.rating.isFinite) (hc : c.eta.isFinite) (ha' : |a.rating.toR| ≤ 2 ^ 969)
    (hb' : |b.rating.toR| ≤ 2 ^ 969) (hc' : |c.eta.toR| ≤ 2 ^ 969) :
    (GlickoBoost.expectedScore a b c).1 + (GlickoBoost.expectedScore a b c).2 = 1.0 :=
  score_sum hE (C79_glickoBoost_expected_bounded L a b c hda hdb ha hb hc ha' hb' hc').1

theorem C167_sticko (hE : E.ToNearest) (L : E.Lib) (a b : Sticko.StickoRating (FP E))
    (c : Sticko.StickoConfig (FP E)) (hda : ¬ a.deviation.isNaN) (hdb : ¬ b.deviation.isNaN)
    (ha : a.rating.isFinite) (hb : b.rating.isFinite) (hc : c.gamma.isFinite) (ha' : |a.rating.toR| ≤ 2 ^ 969)
    (hb' : |b.rating.toR| ≤ 2 ^ 969) (hc' : |c.gamma.toR| ≤ 2 ^ 969) :
    (Sticko.expectedScore a b c).1 + (Sticko.expectedScore a b c).2 = 1.0 :=
  score_sum hE (C79_sticko_expected_bounded L a b c hda hdb ha hb hc ha' hb' hc').1

/-- Weng-Lin, for ratings up to 500 times beta. -/
theorem C167_wengLin (hE : E.ToNearest) (L : E.Lib) (A : E.Accurate) (a b : WengLin.WengLinRating (FP E))
    (c : WengLin.WengLinConfig (FP E)) (k : ℕ) (hk : 1 ≤ k) (hk' : k ≤ 1000) (hc : WlConfig k c)
    (ha : WlSane ((500 * k : ℕ) : ℝ) 1000 a) (hb : WlSane ((500 * k : ℕ) : ℝ) 1000 b) :
    (WengLin.expectedScore a b c).1 + (WengLin.expectedScore a b c).2 = 1.0 :=
  score_sum hE (C79_wengLin_expected L A a b c k hk hk' hc ha hb).1

/-- The scores that a game hands out add up to exactly one as well. -/
theorem C167_points (o : Outcomes) :
    (o.toChessPoints : FP E) + ((1.0 : FP E) - o.toChessPoints) = 1.0 := by
  have h1 := Is.one (E := E)
  have hp := points_in (E := E) o
  have hq := points_in' (E := E) o
  obtain ⟨t, ht⟩ := add_fin hp.finite hq.finite
  rw [le_antisymm hp.toR.2 hp.toR.1, le_antisymm hq.toR.2 hq.toR.1, add_sub_cancel] at ht
  have := Is.round (E := E) (s := t) SRep.one
  rw [← ht] at this
  exact eq_of_toR this.1 h1.1 (this.2.trans h1.2.symm) (by rw [h1.2]; norm_num)

/-! ### Examples -/

theorem ieee_toNearest : ieee.ToNearest := rfl

/-- The exact scores are `1 / 11` and `10 / 11`, neither of them representable. -/
example : (Elo.expectedScore (F := FP ieee) ⟨1000.0⟩ ⟨1400.0⟩).1
    + (Elo.expectedScore (F := FP ieee) ⟨1000.0⟩ ⟨1400.0⟩).2 = 1.0 :=
  C167_elo ieee_toNearest ieee_lib _ _ (lit_finite 1000 (by norm_num) (by norm_num))
    (lit_finite 1400 (by norm_num) (by norm_num))

example : (Glicko2.expectedScore (F := FP ieee) ⟨1500.0, 350.0, 0.06⟩ ⟨50.0, 50.0, 0.06⟩).1
    + (Glicko2.expectedScore (F := FP ieee) ⟨1500.0, 350.0, 0.06⟩ ⟨50.0, 50.0, 0.06⟩).2 = 1.0 :=
  C167_glicko2 ieee_toNearest ieee_lib _ _ (isFinite.not_nan even_350.1) (isFinite.not_nan even_50.1) even_1500.1
    even_50.1 (le_trans (by rw [even_1500.2]; norm_num : |FP.toR (1500.0 : FP ieee)| ≤ 2 ^ 11)
      (pow_le_pow_right₀ (by norm_num) (by norm_num)))
    (le_trans (by rw [even_50.2]; norm_num : |FP.toR (50.0 : FP ieee)| ≤ 2 ^ 11)
      (pow_le_pow_right₀ (by norm_num) (by norm_num)))

end Skillratings
