import Verif.Proofs.FPAverage
import Verif.Props.FloatAccuracyGlicko
import Verif.Props.FloatAccuracyWengLin
import Verif.Proofs.Sticko
/-
Error bounds for the parts of a Sticko update.
-/
namespace Skillratings
namespace FP
open FPVal Skillratings.Spec
variable {E : FloatEnv} {x y z : FP E} {a b : ℝ}

/-- The smaller of two numbers. -/
theorem near_min {ε : ℝ} (hx : Near ε x a) (hy : y.isFinite) : Near ε (Flt.fmin x y) (min a y.toR) := by
  rw [fmin_eq (isFinite.not_nan hx.1) (isFinite.not_nan hy)]
  have hε : 0 ≤ ε := (abs_nonneg _).trans hx.2
  have h2 := abs_le.1 hx.2
  by_cases hc : (y <? x) = true
  · rw [if_pos hc]
    rw [lt_iff_toR hy hx.1] at hc
    refine ⟨hy, abs_le.2 ?_⟩
    rcases le_total a y.toR with h3 | h3
    · rw [min_eq_left h3]; constructor <;> linarith [h2.1, h2.2]
    · rw [min_eq_right h3]; constructor <;> linarith
  · rw [if_neg hc]
    rw [lt_iff_toR hy hx.1, not_lt] at hc
    refine ⟨hx.1, abs_le.2 ?_⟩
    rcases le_total a y.toR with h3 | h3
    · rw [min_eq_left h3]; exact h2
    · rw [min_eq_right h3]; constructor <;> linarith [h2.1, h2.2]

/-- The smaller of a number and 350. -/
theorem near_cap {ε : ℝ} (hx : Near ε x a) : Near ε (Flt.fmin x (350.0 : FP E)) (min a 350) := by
  have h := lit_in (E := E) (m := 3500) (s := true) (e := 1) (v := 350) (by norm_num)
    (SRep.ofNat 350 (by norm_num))
  have e : (350.0 : FP E).toR = 350 := le_antisymm h.toR.2 h.toR.1
  have := near_min hx h.finite
  rwa [e] at this

/-- A variance with something added to it. -/
theorem widened_rel {pre t : FP E} {v H : ℝ} (hp : Rel 1 pre v) (h1 : 1 / 2 ^ 10 ≤ v) (h2 : v ≤ 350)
    (ht : Near ((H + 1 / 2 ^ 40) / 2 ^ 51) t H) (h0 : 0 ≤ H) (hH : H ≤ 25600) :
    Rel 6 (Flt.mulAdd pre pre t) (v ^ 2 + H) := by
  have hv0 : 0 < v := lt_of_lt_of_le (by positivity) h1
  have n1 := hp.near hv0.le
  have lo : (1 / 2 ^ 10) ^ 2 ≤ v ^ 2 := pow_le_pow_left₀ (by positivity) h1 2
  have hs : 0 < v ^ 2 + H := by positivity
  have hi : v ^ 2 ≤ 122500 := by nlinarith
  refine Rel.of_near hs ?_
  have := small_mulAdd n1 n1 ht (M := 2 * (v ^ 2 + H)) (by
    rw [← pow_two, abs_of_pos hs, abs_of_pos hv0,
      show 1 / 2 ^ 50 * v * v + v * (1 / 2 ^ 50 * v) + 1 / 2 ^ 50 * v * (1 / 2 ^ 50 * v)
        = (2 / 2 ^ 50 + 1 / 2 ^ 100) * v ^ 2 by ring]
    norm_num at lo ⊢; linarith)
    (le_trans (b := 1 / 2 ^ 20)
      (one_div_le_one_div_of_le (by norm_num) (pow_le_pow_right₀ (by norm_num) (by norm_num)))
      (by norm_num at lo ⊢; linarith))
    (le_trans (b := (2 : ℝ) ^ 22) (by norm_num at hi ⊢; linarith) (pow_le_pow_right₀ (by norm_num) (by norm_num)))
  rw [show v * v = v ^ 2 by ring] at this
  refine this.mono ?_
  rw [abs_of_pos hv0,
      show 1 / 2 ^ 50 * v * v + v * (1 / 2 ^ 50 * v) + 1 / 2 ^ 50 * v * (1 / 2 ^ 50 * v)
        = (2 / 2 ^ 50 + 1 / 2 ^ 100) * v ^ 2 by ring]
  norm_num at lo ⊢; linarith

/-- The deviation after the games, for a variance of at most 148100 before them. -/
theorem spread_near {s w : FP E} {V I K : ℝ} (hs : Rel 6 s V) (h1 : 1 / 2 ^ 20 ≤ V) (h2 : V ≤ 148100)
    (hw : Near (K / 2 ^ 50 / 148100) w I) (hw0 : 0 ≤ w.toR) (hI : 0 ≤ I)
    (hI1 : I ≤ 1) (hK0 : 0 ≤ K) (hK : K ≤ 10 ^ 8) :
    Near ((K + 2 ^ 11) * 385 / 2 ^ 50) (Flt.sqrt (Flt.recip (Flt.recip s + Flt.recip (Flt.recip w))))
      √(posterior V I) := by
  have m : Mid 20 V := ⟨h1, h2.trans (by norm_num)⟩
  have a1 := (show Ap 6 20 s V from ⟨hs, m⟩).recip (by norm_num) (by norm_num)
  have hv0 := m.pos
  have lo : 1 / 148100 ≤ 1 / V := one_div_le_one_div_of_le (by positivity) h2
  have hi : 1 / V ≤ 2 ^ 20 := a1.2.2
  have hKs : K / 2 ^ 50 / 148100 ≤ 1 / 2 ^ 22 / 148100 := by
    norm_num at hK ⊢
    linarith
  have hw2 := abs_le.1 hw.2
  have hw1 : w.toR ≤ I + K / 2 ^ 50 / 148100 := by linarith [hw2.2]
  have hw3 : w.toR ≤ 2 := by norm_num at hKs; linarith
  have rr := near_recip_recip hw0 (hw3.trans (by norm_num)) hw.1
  have t800 : (1 : ℝ) / 2 ^ 800 ≤ 1 / 2 ^ 100 :=
    one_div_le_one_div_of_le (by positivity) (pow_le_pow_right₀ (by norm_num) (by norm_num))
  have n2 : Near (K / 2 ^ 50 / 148100 + (2 * I + 1 / 2 ^ 18) / 2 ^ 49) (Flt.recip (Flt.recip w)) I := by
    refine ⟨rr.1, ?_⟩
    have e : (Flt.recip (Flt.recip w)).toR - I = ((Flt.recip (Flt.recip w)).toR - w.toR) + (w.toR - I) := by ring
    rw [e]
    refine (abs_add_le _ _).trans ?_
    have := rr.2
    have := hw.2
    generalize (1 : ℝ) / 2 ^ 800 = q at *
    have e2 : w.toR / 2 ^ 49 + 1 / 2 ^ 100 ≤ (2 * I + 1 / 2 ^ 18) / 2 ^ 49 := by
      norm_num at hKs ⊢
      linarith
    linarith
  have n1 := a1.1.near (by positivity)
  have hd : 0 < 1 / V + I := by positivity
  have n3 := small_add n1 n2 (M := 2 * (1 / V + I)) (by
    rw [abs_of_pos hd]
    norm_num at hKs lo ⊢
    linarith) (le_trans (b := 1 / 148100)
      (one_div_le_one_div_of_le (by norm_num) (le_trans (b := (2 : ℝ) ^ 18) (by norm_num)
        (pow_le_pow_right₀ (by norm_num) (by norm_num)))) (by linarith))
      (le_trans (b := (2 : ℝ) ^ 22) (by norm_num at hi ⊢; linarith) (pow_le_pow_right₀ (by norm_num) (by norm_num)))
  have hd1 : Rel (K + 16) (Flt.recip s + Flt.recip (Flt.recip w)) (1 / V + I) := by
    refine Rel.of_near hd (n3.mono ?_)
    have hKd : K / 2 ^ 50 / 148100 ≤ K / 2 ^ 50 * (1 / V) := by
      rw [div_eq_mul_one_div (K / 2 ^ 50)]
      exact mul_le_mul_of_nonneg_left lo (by positivity)
    have hKI : 0 ≤ K / 2 ^ 50 * I := by positivity
    rw [show (K + 16) / 2 ^ 50 * (1 / V + I) = K / 2 ^ 50 * (1 / V) + K / 2 ^ 50 * I
      + 16 / 2 ^ 50 * (1 / V + I) by ring]
    norm_num at lo hKd hKI ⊢
    linarith
  have m2 : Mid 21 (1 / V + I) := ⟨by norm_num at lo ⊢; linarith, by norm_num at hi ⊢; linarith⟩
  have ha : Ap 0 0 (1.0 : FP E) 1 := ⟨lit_rel one_in, by norm_num, by norm_num⟩
  have m3 := (ha.2.div m2).mono (show 0 + 21 ≤ 900 by norm_num)
  have r1 := rel_div_big ha.1 hd1 one_pos m2.pos (by norm_num) (by norm_num at hK ⊢; linarith) m3.1 m3.2
  rw [← recip_eq] at r1
  have hm1 := m3.sqrt
  have r3 := rel_sqrt_big r1 m3.pos (by norm_num at hK ⊢; linarith) hm1.1 hm1.2
  have hp : posterior V I = 1 / (1 / V + I) := rfl
  have hp1 : √(posterior V I) ≤ 385 := by
    rw [Real.sqrt_le_iff]
    refine ⟨by norm_num, ?_⟩
    rw [hp, one_div_le m2.pos (by norm_num)]
    norm_num at lo ⊢; linarith
  rw [← hp] at r3
  refine (r3.near (Real.sqrt_nonneg _)).mono ?_
  refine (mul_le_mul_of_nonneg_left hp1 (by positivity)).trans ?_
  norm_num; linarith

end FP
end Skillratings
