import Verif.Proofs.FPFunctions
import Verif.Proofs.FPAverage
import Verif.Proofs.Dwz
/-
The development coefficient of DWZ in floating-point arithmetic.
-/

namespace Skillratings
open FP FPVal Spec
variable {E : FloatEnv}

namespace FP

theorem feq_iff_toR {x y : FP E} (hx : x.isFinite) (hy : y.isFinite) :
    (x ==? y) = true ↔ x.toR = y.toR := by
  change FPVal.feq x y = true ↔ _
  have h1 : FPVal.toE x = _ := isFinite.toE_eq hx
  have h2 : FPVal.toE y = _ := isFinite.toE_eq hy
  simp only [FPVal.feq, h1, h2, isFinite.not_nan hx, isFinite.not_nan hy, EReal.coe_eq_coe_iff, decide_eq_true_eq,
    not_false_eq_true, true_and]

/-- An exact literal. -/
theorem lit_exact {m : ℕ} {s : Bool} {e : ℕ} {v : ℝ} (h : (OfScientific.ofScientific m s e : ℝ) = v)
    (hv : SRep v) : Near 0 (OfScientific.ofScientific m s e : FP E) v := near_of_in (lit_in h hv)

theorem _root_.Skillratings.Spec.Near.eq {x : FP E} {v : ℝ} (h : Near 0 x v) : x.toR = v := by
  have := abs_nonpos_iff.1 h.2; linarith

/-- Clipping. -/
theorem clip_near {x c five : FP E} {v C ε : ℝ} (hx : x.isFinite) (hc : Near 0 c C) (h5 : Near 0 five 5)
    (hC : 5 ≤ C) (hε : 0 ≤ ε)
    (h : |x.toR - v| ≤ ε ∨ (C ≤ x.toR ∧ C ≤ v) ∨ (x.toR ≤ 5 ∧ v ≤ 5)) :
    Near ε (if x <=? five then five else if c <=? x then c else x) (max 5 (min v C)) := by
  have e5 := h5.eq
  have eC := hc.eq
  have hv : FP.toR (if x <=? five then five else if c <=? x then c else x) = max 5 (min x.toR C) ∧
      FP.isFinite (if x <=? five then five else if c <=? x then c else x) := by
    by_cases k1 : (x <=? five) = true
    · rw [if_pos k1]
      rw [le_iff_toR hx h5.1, e5] at k1
      refine ⟨?_, h5.1⟩
      rw [e5, max_eq_left]
      exact (min_le_left _ _).trans k1
    · rw [if_neg k1]
      rw [le_iff_toR hx h5.1, e5, not_le] at k1
      by_cases k2 : (c <=? x) = true
      · rw [if_pos k2]
        rw [le_iff_toR hc.1 hx, eC] at k2
        refine ⟨?_, hc.1⟩
        rw [eC, min_eq_right k2, max_eq_right hC]
      · rw [if_neg k2]
        rw [le_iff_toR hc.1 hx, eC, not_le] at k2
        exact ⟨by rw [min_eq_left k2.le, max_eq_right k1.le], hx⟩
  refine ⟨hv.2, ?_⟩
  rw [hv.1]
  rcases h with h | h | h
  · refine (abs_max_sub_max_le_max _ _ _ _).trans ?_
    rw [sub_self, abs_zero]
    refine max_le hε ((abs_min_sub_min_le_max _ _ _ _).trans ?_)
    rw [sub_self, abs_zero]
    exact max_le h hε
  · rw [min_eq_right h.1, min_eq_right h.2, sub_self, abs_zero]; exact hε
  · rw [max_eq_left ((min_le_left _ _).trans h.1), max_eq_left ((min_le_left _ _).trans h.2), sub_self, abs_zero]
    exact hε

/-- A floating-point number below 1300 is at least `2 ^ -52` below. -/
theorem gap_1300 {r : ℝ} (h : SRep r) (h1 : r < 1300) : 1 / 2 ^ 52 ≤ 1300 - r := by
  rcases le_total r 1 with h0 | h0
  · norm_num; linarith
  · obtain ⟨n, k, hn, -, -, e⟩ := h
    rw [abs_of_nonneg (by linarith)] at e
    have hk : -52 ≤ k := by
      by_contra hk
      have hk : k ≤ -53 := by omega
      have : (2 : ℝ) ^ k ≤ 2 ^ (-53 : ℤ) := zpow_le_zpow_right₀ (by norm_num) hk
      have hn' : (n : ℝ) < 2 ^ 53 := by exact_mod_cast hn
      have : (n : ℝ) * 2 ^ k < 1 := by
        calc (n : ℝ) * 2 ^ k ≤ n * 2 ^ (-53 : ℤ) := mul_le_mul_of_nonneg_left this (Nat.cast_nonneg n)
          _ < 2 ^ 53 * 2 ^ (-53 : ℤ) := mul_lt_mul_of_pos_right hn' (by positivity)
          _ = 1 := by norm_num
      linarith
    obtain ⟨j, rfl⟩ : ∃ j : ℕ, k = -52 + (j : ℤ) := ⟨(k + 52).toNat, by omega⟩
    have e2 : r = ((n * 2 ^ j : ℕ) : ℝ) / 2 ^ 52 := by
      rw [e, zpow_add₀ (by norm_num), zpow_natCast, zpow_neg]
      push_cast
      rw [show ((2 : ℝ) ^ (52 : ℤ)) = 2 ^ 52 by norm_num]
      ring
    rw [e2] at h1 ⊢
    rw [div_lt_iff₀ (by positivity)] at h1
    have h3 : n * 2 ^ j < 1300 * 2 ^ 52 := by exact_mod_cast h1
    have h4 : n * 2 ^ j + 1 ≤ 1300 * 2 ^ 52 := h3
    have h5 : ((n * 2 ^ j : ℕ) : ℝ) + 1 ≤ 1300 * 2 ^ 52 := by exact_mod_cast h4
    rw [← sub_nonneg, show (1300 : ℝ) - ((n * 2 ^ j : ℕ) : ℝ) / 2 ^ 52 - 1 / 2 ^ 52
      = (1300 * 2 ^ 52 - (((n * 2 ^ j : ℕ) : ℝ) + 1)) / 2 ^ 52 by ring]
    exact div_nonneg (by linarith) (by positivity)

end FP

/-- The square of a number of magnitude at most `T`. -/
theorem near_square {x : FP E} {q T k : ℝ} (h : Near (k * T / 2 ^ 51) x q) (hq : |q| ≤ T) (h1 : 1 ≤ T) (h2 : T ≤ 512)
    (k0 : 0 ≤ k) (k8 : k ≤ 8) : Near ((2 * k + 1 + 1 / 8) * T ^ 2 / 2 ^ 51) (x * x) (q * q) ∧ |q * q| ≤ T ^ 2 := by
  have b2 : |q * q| ≤ T ^ 2 := by rw [abs_mul, pow_two]; exact mul_le_mul hq hq (abs_nonneg _) (by linarith)
  have T2 : 1 ≤ T ^ 2 := one_le_pow₀ h1
  have T2' : T ^ 2 ≤ 512 ^ 2 := pow_le_pow_left₀ (by linarith) h2 2
  have s1 : k * T / 2 ^ 51 * |q| ≤ k * T ^ 2 / 2 ^ 51 := by
    have := mul_le_mul_of_nonneg_left hq (show 0 ≤ k * T / 2 ^ 51 by positivity)
    exact this.trans (le_of_eq (by ring))
  have s2 : k * T / 2 ^ 51 * (k * T / 2 ^ 51) ≤ T ^ 2 / 2 ^ 90 := by
    rw [show k * T / 2 ^ 51 * (k * T / 2 ^ 51) = k * k * T ^ 2 / 2 ^ 102 by ring]
    have : k * k * T ^ 2 ≤ 64 * T ^ 2 := mul_le_mul_of_nonneg_right (by nlinarith) (by positivity)
    norm_num; linarith
  have s0 : k * T ^ 2 ≤ 8 * T ^ 2 := mul_le_mul_of_nonneg_right k8 (by positivity)
  refine ⟨?_, b2⟩
  rw [show (2 * k + 1 + 1 / 8) * T ^ 2 = 2 * (k * T ^ 2) + (1 + 1 / 8) * T ^ 2 by ring]
  refine (near_mul h h (M := T ^ 2 * (1 + 1 / 2 ^ 40)) ?_ ?_ ?_).mono ?_
  · rw [mul_comm |q| (k * T / 2 ^ 51)]
    generalize |q * q| = z at *
    generalize k * T / 2 ^ 51 * |q| = w at *
    generalize k * T / 2 ^ 51 * (k * T / 2 ^ 51) = w' at *
    norm_num at s0 s1 s2 ⊢
    linarith
  · norm_num; linarith
  · exact le_huge 20 (by norm_num at T2' ⊢; linarith) (by norm_num)
  · rw [mul_comm |q| (k * T / 2 ^ 51)]
    generalize k * T / 2 ^ 51 * |q| = w at *
    generalize k * T / 2 ^ 51 * (k * T / 2 ^ 51) = w' at *
    norm_num at s0 s1 s2 ⊢
    linarith

/-- The basic coefficient. -/
theorem dwz_base_near (L : E.Lib) {r j : FP E} {J Q : ℝ} (hr : Within (2 ^ 14) r) (hQ : |r.toR| ≤ 1000 * Q) (h1 : 1 ≤ Q)
    (h2 : Q ≤ 17) (hj : Near 0 j J) (hJ : 0 ≤ J ∧ J ≤ 15) :
    Near (11 * (Q ^ 4 + 3) / 2 ^ 51) (Flt.powi (r / (1000.0 : FP E)) 4 + j) ((r.toR / 1000) ^ 4 + J) := by
  have q1 := near_div_const hr.near (lit_exact (E := E) (m := 10000) (s := true) (e := 1) (v := 1000) (by norm_num)
    (SRep.ofNat 1000 (by norm_num))) (by norm_num) (M := Q) (by rw [add_zero, div_le_iff₀ (by norm_num)]; linarith)
    h1 (le_huge 5 (h2.trans (by norm_num)) (by norm_num))
  rw [zero_div, zero_add] at q1
  have hq : |r.toR / 1000| ≤ Q := by
    rw [abs_div, abs_of_pos (by norm_num : (0 : ℝ) < 1000), div_le_iff₀ (by norm_num)]; linarith
  have e4 : Flt.powi (r / (1000.0 : FP E)) 4 = (r / 1000.0) * (r / 1000.0) * ((r / 1000.0) * (r / 1000.0)) :=
    L.powi_four _
  rw [e4]
  generalize r.toR / 1000 = q at *
  generalize (r / (1000.0 : FP E)) = x at *
  obtain ⟨n2, b2⟩ := near_square (k := 1) (by rwa [one_mul]) hq h1 (h2.trans (by norm_num)) (by norm_num) (by norm_num)
  have Q2 : 1 ≤ Q ^ 2 := one_le_pow₀ h1
  have Q2' : Q ^ 2 ≤ 289 := by nlinarith
  obtain ⟨n4, b4⟩ := near_square (T := Q ^ 2) n2 b2 Q2 (Q2'.trans (by norm_num)) (by norm_num) (by norm_num)
  have ep : q ^ 4 = q * q * (q * q) := by ring
  have eT : Q ^ 4 = (Q ^ 2) ^ 2 := by ring
  rw [ep, eT]
  have T1 : 1 ≤ (Q ^ 2) ^ 2 := one_le_pow₀ Q2
  have T2 : (Q ^ 2) ^ 2 ≤ 289 ^ 2 := pow_le_pow_left₀ (by positivity) Q2' 2
  generalize (Q ^ 2) ^ 2 = T at *
  generalize q * q * (q * q) = p at *
  have hs := abs_add_le p J
  rw [abs_of_nonneg hJ.1] at hs
  refine (near_add n4 hj (M := T * (1 + 1 / 2 ^ 40) + 16) ?_ ?_ ?_).mono ?_
  · norm_num at hs ⊢
    linarith [hJ.2]
  · norm_num; linarith
  · exact le_huge 20 (by norm_num at T2 ⊢; linarith) (by norm_num)
  · norm_num; linarith

/-- Two numbers that give close results when clipped to `[5, C]`. -/
def DwzClose (C : ℝ) (x : FP E) (v : ℝ) : Prop :=
  |x.toR - v| ≤ 1 / 2 ^ 36 ∨ (C ≤ x.toR ∧ C ≤ v) ∨ (x.toR ≤ 5 ∧ v ≤ 5)

/-- The coefficient before clipping, without surcharge. -/
theorem dwz_plain (L : E.Lib) {r a j z : FP E} {J α : ℝ} (hr : Within (2 ^ 14) r) (hj : Near 0 j J) (hJ : 0 ≤ J ∧ J ≤ 15)
    (hz : Near 0 z 0) (ha : Near (9 / 2 ^ 51) a α) (h1 : |r.toR| ≤ 4000 → |α| ≤ 2) (h2 : 4000 ≤ |r.toR| → 1 ≤ |α|)
    (h3 : |α| ≤ 9) :
    FP.isFinite (Flt.mulAdd a (Flt.powi (r / (1000.0 : FP E)) 4 + j) z) ∧
      DwzClose 150 (Flt.mulAdd a (Flt.powi (r / (1000.0 : FP E)) 4 + j) z) (α * ((r.toR / 1000) ^ 4 + J) + 0) := by
  rcases le_total |r.toR| 4000 with h | h
  · have e0 := dwz_base_near L hr (Q := 4) (by linarith) (by norm_num) (by norm_num) hj hJ
    have hq : (r.toR / 1000) ^ 4 ≤ 256 := by
      rw [← abs_of_nonneg (show 0 ≤ (r.toR / 1000) ^ 4 by positivity), abs_pow, abs_div,
        abs_of_pos (by norm_num : (0 : ℝ) < 1000)]
      calc (|r.toR| / 1000) ^ 4 ≤ 4 ^ 4 := pow_le_pow_left₀ (by positivity) (by rw [div_le_iff₀ (by norm_num)]; linarith) 4
        _ = 256 := by norm_num
    have hb : |(r.toR / 1000) ^ 4 + J| ≤ 271 := by
      rw [abs_of_nonneg (by have := hJ.1; positivity)]; linarith [hJ.2]
    have h1 := h1 h
    generalize (r.toR / 1000) ^ 4 + J = e at *
    have hv : |α * e + 0| ≤ 542 := by
      rw [add_zero, abs_mul]
      calc |α| * |e| ≤ 2 * 271 := mul_le_mul h1 hb (abs_nonneg _) (by norm_num)
        _ = 542 := by norm_num
    have hx := near_mulAdd ha e0 hz (M := 1000) (by norm_num at hv hb h1 ⊢; linarith) (by norm_num)
      (le_huge 10 (by norm_num) (by norm_num))
    refine ⟨hx.1, Or.inl (hx.2.trans ?_)⟩
    norm_num at hb h1 ⊢
    linarith
  · have hr2 := hr.2
    have e0 := dwz_base_near L hr (Q := 17) (by norm_num at hr2 ⊢; linarith) (by norm_num) (by norm_num) hj hJ
    have hq : (r.toR / 1000) ^ 4 ≤ 17 ^ 4 := by
      rw [← abs_of_nonneg (show 0 ≤ (r.toR / 1000) ^ 4 by positivity), abs_pow, abs_div,
        abs_of_pos (by norm_num : (0 : ℝ) < 1000)]
      refine pow_le_pow_left₀ (by positivity) ?_ 4
      rw [div_le_iff₀ (by norm_num)]; norm_num at hr2 ⊢; linarith
    have hq' : 4 ^ 4 ≤ (r.toR / 1000) ^ 4 := by
      rw [← abs_of_nonneg (show 0 ≤ (r.toR / 1000) ^ 4 by positivity), abs_pow, abs_div,
        abs_of_pos (by norm_num : (0 : ℝ) < 1000)]
      refine pow_le_pow_left₀ (by norm_num) ?_ 4
      rw [le_div_iff₀ (by norm_num)]; linarith
    have h2 := h2 h
    have hb0 : 256 ≤ (r.toR / 1000) ^ 4 + J := by linarith [hJ.1]
    have hb : |(r.toR / 1000) ^ 4 + J| ≤ 83540 := by
      rw [abs_of_nonneg (by linarith)]; norm_num at hq ⊢; linarith [hJ.2]
    generalize (r.toR / 1000) ^ 4 + J = e at *
    have hv : |α * e + 0| ≤ 9 * 83540 := by
      rw [add_zero, abs_mul]
      exact mul_le_mul h3 hb (abs_nonneg _) (by norm_num)
    have hx := (near_mulAdd ha e0 hz (M := 1000000) (by norm_num at hv hb h1 ⊢; linarith) (by norm_num)
      (le_huge 20 (by norm_num) (by norm_num))).mono (δ := 1) (by norm_num at hb h3 ⊢; linarith)
    refine ⟨hx.1, Or.inr ?_⟩
    have hx2 := abs_le.1 hx.2
    generalize Flt.mulAdd a (Flt.powi (r / (1000.0 : FP E)) 4 + j) z = x at *
    rcases le_abs.1 h2 with h4 | h4
    · left
      have : 256 ≤ α * e + 0 := by nlinarith
      constructor <;> linarith [hx2.1]
    · right
      have : α * e + 0 ≤ -256 := by nlinarith
      constructor <;> linarith [hx2.2]

/-- The surcharge of a weak player. -/
theorem dwz_surcharge (P : E.Faithful) {r : FP E} (hr : Within (2 ^ 14) r) (h : r.toR < 1300) :
    let b := Flt.expM1 (((1300.0 : FP E) - r) / (150.0 : FP E))
    let B := Real.exp ((1300 - r.toR) / 150) - 1
    (b.isFinite ∧ 0 < b.toR ∧ b.toR ≤ 2 ^ 200) ∧ 0 < B ∧ (r.toR ≤ 500 → 180 ≤ b.toR ∧ 180 ≤ B) ∧
      (500 ≤ r.toR → |b.toR - B| ≤ 1 / 2 ^ 37 ∧ B ≤ 250) := by
  intro b B
  have h1300 := lit_exact (E := E) (m := 13000) (s := true) (e := 1) (v := 1300) (by norm_num)
    (SRep.ofNat 1300 (by norm_num))
  have g := gap_1300 hr.1.srep h
  have hr2 := abs_le.1 hr.2
  have md : Mid 52 (1300 - r.toR) := ⟨g, by norm_num at hr2 ⊢; linarith [hr2.1]⟩
  have d1 : Ap 1 52 ((1300.0 : FP E) - r) (1300 - r.toR) := by
    refine ⟨?_, md⟩
    obtain ⟨s, e⟩ := sub_fin (E := E) h1300.1 hr.1
    rw [e, h1300.eq]
    have m := md.mono (show 52 ≤ 900 by norm_num)
    exact (rel_round (E := E) (k := 0) (d := 0) md.pos m.1 m.2 (by simp) (by norm_num) (by ring)).mono
      (by norm_num)
  have a150 : Ap 0 8 (150.0 : FP E) 150 :=
    ⟨Rel.of_eq (lit_exact (E := E) (m := 1500) (s := true) (e := 1) (v := 150) (by norm_num)
      (SRep.ofNat 150 (by norm_num))).1 (lit_exact (E := E) (m := 1500) (s := true) (e := 1) (v := 150) (by norm_num)
      (SRep.ofNat 150 (by norm_num))).eq, by norm_num, by norm_num⟩
  have d2 := d1.div a150 (by norm_num) (by norm_num) (by norm_num)
  have t0 := d2.2.1
  have n2 := d2.1.near d2.2.pos.le
  have ht1 : (1300 - r.toR) / 150 ≤ 118 := by
    rw [div_le_iff₀ (by norm_num)]; norm_num at hr2; linarith [hr2.1]
  change (b.isFinite ∧ 0 < b.toR ∧ b.toR ≤ 2 ^ 200) ∧ _
  have hB : B = Real.exp ((1300 - r.toR) / 150) - 1 := rfl
  have hb : b = E.expM1 (((1300.0 : FP E) - r) / (150.0 : FP E)) := rfl
  have hlow : r.toR ≤ 500 → 16 / 3 ≤ (1300 - r.toR) / 150 := fun h => by
    rw [le_div_iff₀ (by norm_num)]; linarith
  have hup : 500 ≤ r.toR → (1300 - r.toR) / 150 ≤ 16 / 3 := fun h => by
    rw [div_le_iff₀ (by norm_num)]; linarith
  clear_value b B
  subst hB
  generalize (1300 - r.toR) / 150 = t at *
  generalize (((1300.0 : FP E) - r) / (150.0 : FP E)) = u at *
  have t0' : 0 < t := lt_of_lt_of_le (by positivity) t0
  have k := abs_le.1 n2.2
  have u0 : 1 / 2 ^ 100 ≤ u.toR := by
    have : 1 / 2 ^ 61 ≤ t / 2 := by norm_num at t0 ⊢; linarith
    norm_num at k this ⊢
    linarith [k.1]
  have u1 : u.toR ≤ 119 := by
    norm_num at k ⊢
    linarith [k.2]
  have hm := P.expM1 u n2.1 u0 (by linarith)
  rw [← hb] at hm
  have u0' : 0 < u.toR := lt_of_lt_of_le (by positivity) u0
  have m0 : u.toR ≤ Real.exp u.toR - 1 := by linarith [Real.add_one_le_exp u.toR]
  have m1 := abs_le.1 hm.2
  have e19 : Real.exp 119 ≤ 2 ^ 180 := by
    have e180 : (2 : ℝ) ^ 180 = Real.exp (180 * Real.log 2) := by
      rw [show (180 : ℝ) = ((180 : ℕ) : ℝ) by norm_num, Real.exp_nat_mul, Real.exp_log (by norm_num)]
    rw [e180]
    exact Real.exp_le_exp.2 (by linarith [Real.log_two_gt_d9])
  refine ⟨⟨hm.1, ?_, ?_⟩, ?_, ?_, ?_⟩
  · norm_num at m1; linarith [m1.1]
  · have := (Real.exp_le_exp.2 u1).trans e19
    norm_num at m1 this ⊢; linarith [m1.2]
  · linarith [Real.add_one_le_exp t]
  · intro hr5
    have h5 := hlow hr5
    have he : 190 ≤ Real.exp 5.3 := by
      have := Real.exp_one_gt_d9
      have e1 : Real.exp 5.3 = Real.exp 1 ^ 5 * Real.exp 0.3 := by
        rw [← Real.exp_nat_mul, ← Real.exp_add]; norm_num
      have e2 : (1.345 : ℝ) ≤ Real.exp 0.3 := by
        have := Real.quadratic_le_exp_of_nonneg (show (0 : ℝ) ≤ 0.3 by norm_num)
        norm_num at this ⊢; linarith
      have e3 : (148.4 : ℝ) ≤ Real.exp 1 ^ 5 := by
        calc (148.4 : ℝ) ≤ 2.7182818283 ^ 5 := by norm_num
          _ ≤ _ := pow_le_pow_left₀ (by norm_num) this.le 5
      rw [e1]
      nlinarith
    have hu : 5.3 ≤ u.toR := by norm_num at k ⊢; linarith [k.1]
    have he1 := he.trans (Real.exp_le_exp.2 hu)
    have he2 := he.trans (Real.exp_le_exp.2 (show 5.3 ≤ t by norm_num; linarith))
    norm_num at m1 ⊢
    constructor
    · linarith [m1.1]
    · linarith
  · intro hr5
    have h5 := hup hr5
    have he : Real.exp 5.4 ≤ 240 := by
      have := Real.exp_one_lt_d9
      have e1 : Real.exp 5.4 = Real.exp 1 ^ 5 * Real.exp 0.4 := by
        rw [← Real.exp_nat_mul, ← Real.exp_add]; norm_num
      have e2 : Real.exp 0.4 ≤ (1.6 : ℝ) := by
        have := Real.abs_exp_sub_one_sub_id_le (x := 0.4) (by norm_num [abs_of_pos])
        have := (abs_le.1 this).2
        norm_num at this ⊢; linarith
      have e3 : Real.exp 1 ^ 5 ≤ (148.5 : ℝ) := by
        calc Real.exp 1 ^ 5 ≤ 2.7182818286 ^ 5 := pow_le_pow_left₀ (Real.exp_pos _).le this.le 5
          _ ≤ 148.5 := by norm_num
      rw [e1]
      calc Real.exp 1 ^ 5 * Real.exp 0.4 ≤ 148.5 * 1.6 :=
            mul_le_mul e3 e2 (Real.exp_pos _).le (by norm_num)
        _ ≤ 240 := by norm_num
    have hu : u.toR ≤ 5.4 := by norm_num at k ⊢; linarith [k.2]
    have he1 := (Real.exp_le_exp.2 hu).trans he
    have he2 := (Real.exp_le_exp.2 (show t ≤ 5.4 by norm_num; linarith)).trans he
    have key : |Real.exp u.toR - Real.exp t| ≤ 240 * |u.toR - t| := by
      have step : ∀ x y : ℝ, x ≤ y → Real.exp y ≤ 240 → Real.exp y - Real.exp x ≤ 240 * (y - x) := by
        intro x y hxy hy
        have h1 := Real.add_one_le_exp (x - y)
        have h2 : Real.exp x = Real.exp y * Real.exp (x - y) := by rw [← Real.exp_add]; ring_nf
        rw [h2]
        have h3 := mul_le_mul_of_nonneg_left h1 (Real.exp_pos y).le
        have h4 := mul_le_mul_of_nonneg_right hy (sub_nonneg.2 hxy)
        linarith
      rcases le_total u.toR t with h | h
      · rw [abs_of_nonpos (by linarith [Real.exp_le_exp.2 h]), abs_of_nonpos (by linarith)]
        linarith [step _ _ h he2]
      · rw [abs_of_nonneg (by linarith [Real.exp_le_exp.2 h]), abs_of_nonneg (by linarith)]
        exact step _ _ h he1
    have n3 : |u.toR - t| ≤ 2 / 2 ^ 50 * 5.4 := n2.2.trans (by norm_num; linarith)
    constructor
    · have hkey := abs_le.1 (key.trans (mul_le_mul_of_nonneg_left n3 (by norm_num)))
      rw [abs_le]
      norm_num at hkey m1 ⊢
      constructor
      · linarith [hkey.1, m1.1]
      · linarith [hkey.2, m1.2]
    · linarith

theorem dwz_age (age : ℕ) : ∃ J : ℝ, (0 ≤ J ∧ J ≤ 15) ∧
    Near 0 (if age ≤ 20 then (5.0 : FP E) else if age ≤ 25 then 10.0 else 15.0) J ∧
    J = if age ≤ 20 then 5 else if age ≤ 25 then 10 else 15 := by
  refine ⟨_, ?_, ?_, rfl⟩
  · split_ifs <;> norm_num
  · split_ifs
    · exact lit_exact (by norm_num) (SRep.ofNat 5 (by norm_num))
    · exact lit_exact (by norm_num) (SRep.ofNat 10 (by norm_num))
    · exact lit_exact (by norm_num) (SRep.ofNat 15 (by norm_num))

theorem dwz_cap {i : ℕ} (h1 : 1 ≤ i) (h2 : i < 2 ^ 50) :
    Near 0 (Flt.fmin (30.0 : FP E) (5.0 * Flt.ofNat i)) (min 30 (5 * i)) := by
  have five := lit_in (E := E) (m := 50) (s := true) (e := 1) (v := 5) (by norm_num) (SRep.ofNat 5 (by norm_num))
  have thirty := lit_in (E := E) (m := 300) (s := true) (e := 1) (v := 30) (by norm_num) (SRep.ofNat 30 (by norm_num))
  have hs : SRep (5 * i : ℝ) := by
    have := SRep.nat (n := 5 * i) (by omega)
    push_cast at this
    exact this
  have h3 := mul_in five (ofNat_in (E := E) (n := i) (by omega)) (by norm_num) (Nat.cast_nonneg i) hs hs le_rfl le_rfl
  exact near_of_in (fmin_in thirty h3)

/-- The development coefficient is close to the exact one if the comparisons of score and expectation
agree. -/
theorem dwz_e_near (L : E.Lib) (P : E.Faithful) {r s e : FP E} {S X : ℝ} (age : ℕ) {i : ℕ} (hr : Within (2 ^ 14) r)
    (h1 : 1 ≤ i) (h2 : i < 2 ^ 50) (c1 : (e <=? s) = true ↔ X ≤ S) (c2 : (s <=? e) = true ↔ S ≤ X) (hne : S ≠ X) :
    Near (1 / 2 ^ 36) (Dwz.eValue r age s e i) (Dwz.eValue r.toR age S X i) := by
  obtain ⟨J, hJ, hj, eJ⟩ := dwz_age (E := E) age
  have five := lit_exact (E := E) (m := 50) (s := true) (e := 1) (v := 5) (by norm_num) (SRep.ofNat 5 (by norm_num))
  have cap := lit_exact (E := E) (m := 1500) (s := true) (e := 1) (v := 150) (by norm_num)
    (SRep.ofNat 150 (by norm_num))
  have lim := lit_exact (E := E) (m := 13000) (s := true) (e := 1) (v := 1300) (by norm_num)
    (SRep.ofNat 1300 (by norm_num))
  have zero := lit_exact (E := E) (m := 0) (s := true) (e := 1) (v := 0) (by norm_num) SRep.zero
  have hcap := dwz_cap (E := E) h1 h2
  have hi : (1 : ℝ) ≤ i := by exact_mod_cast h1
  have hcap5 : (5 : ℝ) ≤ min 30 (5 * (i : ℝ)) := by
    apply _root_.le_min
    · norm_num
    · linarith
  have hcap150 : min 30 (5 * (i : ℝ)) ≤ 150 := (min_le_left _ _).trans (by norm_num)
  have hlim : (r <? 1300.0) = true ↔ r.toR < 1300 := by rw [lt_iff_toR hr.1 lim.1, lim.eq]
  have hone := (near_of_in (one_in (E := E))).mono (δ := 9 / 2 ^ 51) (by norm_num)
  have hr2 := hr.2
  rw [Dwz.eValue_spec _ _ _ _ _ h1]
  unfold Dwz.eValue dwzCoefficient
  dsimp only
  rw [← eJ]
  generalize (if age ≤ 20 then (5.0 : FP E) else if age ≤ 25 then 10.0 else 15.0) = j at *
  -- without surcharge
  have plain : ∀ {a : FP E} {α : ℝ}, Near (9 / 2 ^ 51) a α → (|r.toR| ≤ 4000 → |α| ≤ 2) →
      (4000 ≤ |r.toR| → 1 ≤ |α|) → |α| ≤ 9 →
      Near (1 / 2 ^ 36)
        (if Flt.mulAdd a (Flt.powi (r / 1000.0) 4 + j) 0.0 <=? 5.0 then (5.0 : FP E)
        else if (0.0 : FP E) ==? 0.0 then
          if Flt.fmin 30.0 (5.0 * Flt.ofNat i) <=? Flt.mulAdd a (Flt.powi (r / 1000.0) 4 + j) 0.0
            then Flt.fmin 30.0 (5.0 * Flt.ofNat i) else Flt.mulAdd a (Flt.powi (r / 1000.0) 4 + j) 0.0
        else if (150.0 : FP E) <=? Flt.mulAdd a (Flt.powi (r / 1000.0) 4 + j) 0.0 then 150.0
        else Flt.mulAdd a (Flt.powi (r / 1000.0) 4 + j) 0.0)
        (max 5 (min (α * ((r.toR / 1000) ^ 4 + J) + 0) (min 30 (5 * (i : ℝ))))) := by
    intro a α ha b1 b2 b3
    obtain ⟨f, hd⟩ := dwz_plain L hr hj hJ zero ha b1 b2 b3
    rw [if_pos ((feq_iff_toR zero.1 zero.1).2 rfl)]
    refine clip_near f hcap five hcap5 (by norm_num) ?_
    rcases hd with hd | hd | hd
    · exact Or.inl hd
    · exact Or.inr (Or.inl ⟨hcap150.trans hd.1, hcap150.trans hd.2⟩)
    · exact Or.inr (Or.inr hd)
  have pone := plain hone (by norm_num) (by norm_num) (by norm_num)
  rcases lt_or_gt_of_ne hne with hlt | hgt
  · -- fewer points than expected
    have f1 : ¬ (e <=? s) = true := fun h => not_le.2 hlt (c1.1 h)
    have f2 : (s <=? e) = true := c2.2 hlt.le
    have g1 : (decide (age < 20) && (e <=? s)) = false := by
      rw [Bool.and_eq_false_iff]; right; simpa using f1
    have g2 : ¬ (age < 20 ∧ X ≤ S) := fun h => not_le.2 hlt h.2
    rw [g1, if_neg g2, if_neg Bool.false_ne_true]
    by_cases hw : r.toR < 1300
    · have g3 : ((r <? 1300.0) && (s <=? e)) = true := by rw [Bool.and_eq_true]; exact ⟨hlim.2 hw, f2⟩
      rw [g3, if_pos rfl, if_pos (⟨hw, hlt.le⟩ : r.toR < 1300 ∧ S ≤ X)]
      obtain ⟨⟨bf, b0, b2⟩, B0, hl, hu⟩ := dwz_surcharge P hr hw
      rw [if_neg B0.ne']
      rw [if_neg (fun h => b0.ne' (((feq_iff_toR bf zero.1).1 h).trans zero.eq)) (c := (_ ==? (0.0 : FP E)) = true)]
      generalize Flt.expM1 (((1300.0 : FP E) - r) / (150.0 : FP E)) = b at *
      generalize Real.exp ((1300 - r.toR) / 150) - 1 = B at *
      have e17 := dwz_base_near L hr (Q := 17) (by norm_num at hr2 ⊢; linarith) (by norm_num) (by norm_num) hj hJ
      have q0 : 0 ≤ (r.toR / 1000) ^ 4 := by positivity
      have hq : (r.toR / 1000) ^ 4 ≤ 17 ^ 4 := by
        rw [← abs_of_nonneg q0, abs_pow, abs_div, abs_of_pos (by norm_num : (0 : ℝ) < 1000)]
        refine pow_le_pow_left₀ (by positivity) ?_ 4
        rw [div_le_iff₀ (by norm_num)]; norm_num at hr2 ⊢; linarith
      have k17 := abs_le.1 e17.2
      obtain ⟨t, ht⟩ := mulAdd_fin (E := E) (x := (1.0 : FP E)) one_in.finite e17.1 bf
      have one : FP.toR (1.0 : FP E) = 1 := (near_of_in (one_in (E := E))).eq
      rw [one, one_mul] at ht
      have hin : In (E := E) ((-1 : ℝ) : EReal) ((2 ^ 201 : ℝ) : EReal)
          (Flt.mulAdd (1.0 : FP E) (Flt.powi (r / 1000.0) 4 + j) b) := by
        rw [ht]
        refine In.of_round t SRep.one.neg (SRep.two_pow 201 (by norm_num)) ?_ ?_
        · norm_num at k17 ⊢; linarith [k17.1, hJ.1]
        · norm_num at k17 b2 hq ⊢; linarith [k17.2, hJ.2]
      refine clip_near hin.finite cap five (by norm_num) (by norm_num) ?_
      rcases le_total r.toR 500 with h5 | h5
      · right; left
        obtain ⟨w1, w2⟩ := hl h5
        constructor
        · refine toR_of_le hin.finite ?_
          rw [ht]
          refine E.round_ge t (SRep.ofNat 150 (by norm_num)) ?_
          norm_num at k17 ⊢; linarith [k17.1, hJ.1]
        · rw [one_mul]; linarith [hJ.1]
      · left
        obtain ⟨w1, w2⟩ := hu h5
        have e4 := dwz_base_near L hr (Q := 4) (by rw [abs_le]; constructor <;> linarith) (by norm_num) (by norm_num) hj hJ
        have hq4 : (r.toR / 1000) ^ 4 ≤ 4 ^ 4 :=
          pow_le_pow_left₀ (by positivity) (by rw [div_le_iff₀ (by norm_num)]; linarith) 4
        have hb : |(r.toR / 1000) ^ 4 + J| ≤ 271 := by
          rw [abs_of_nonneg (by linarith [hJ.1])]; norm_num at hq4; linarith [hJ.2]
        have hs : |1 * ((r.toR / 1000) ^ 4 + J) + B| ≤ 521 := by
          rw [one_mul, abs_of_nonneg (by linarith [hJ.1])]; norm_num at hq4; linarith [hJ.2]
        have hbn : Near (1 / 2 ^ 37) b B := ⟨bf, w1⟩
        have := near_mulAdd (near_of_in (one_in (E := E))) e4 hbn (M := 1000) (by
          generalize |1 * ((r.toR / 1000) ^ 4 + J) + B| = y at *
          norm_num; linarith) (by norm_num)
          (le_huge 10 (by norm_num) (by norm_num))
        refine this.2.trans ?_
        norm_num
    · have g3 : ((r <? 1300.0) && (s <=? e)) = false := by
        rw [Bool.and_eq_false_iff]; left; simpa using fun h => hw (hlim.1 h)
      rw [g3, if_neg Bool.false_ne_true, if_neg (fun h : r.toR < 1300 ∧ S ≤ X => hw h.1), if_pos rfl]
      exact pone
  · -- more points than expected
    have f1 : (e <=? s) = true := c1.2 hgt.le
    have f2 : ¬ (s <=? e) = true := fun h => not_le.2 hgt (c2.1 h)
    have g3 : ((r <? 1300.0) && (s <=? e)) = false := by
      rw [Bool.and_eq_false_iff]; right; simpa using f2
    rw [g3, if_neg Bool.false_ne_true, if_neg (fun h : r.toR < 1300 ∧ S ≤ X => not_le.2 hgt h.2), if_pos rfl]
    by_cases hy : age < 20
    · have g1 : (decide (age < 20) && (e <=? s)) = true := by simp [hy, f1]
      rw [g1, if_pos rfl, if_pos (⟨hy, hgt.le⟩ : age < 20 ∧ X ≤ S)]
      have e2000 : |r.toR / 2000| = |r.toR| / 2000 := by rw [abs_div, abs_of_pos (by norm_num : (0 : ℝ) < 2000)]
      have ha := near_div_const hr.near (lit_exact (E := E) (m := 20000) (s := true) (e := 1) (v := 2000) (by norm_num)
        (SRep.ofNat 2000 (by norm_num))) (by norm_num) (M := 9) (by
          rw [div_le_iff₀ (by norm_num)]; norm_num at hr2 ⊢; linarith) (by norm_num)
        (le_huge 5 (by norm_num) (by norm_num))
      refine plain (ha.mono (by norm_num)) ?_ ?_ ?_
      · intro h; rw [e2000, div_le_iff₀ (by norm_num)]; linarith
      · intro h; rw [e2000, le_div_iff₀ (by norm_num)]; linarith
      · rw [e2000, div_le_iff₀ (by norm_num)]; norm_num at hr2 ⊢; linarith
    · have g1 : (decide (age < 20) && (e <=? s)) = false := by simp [hy]
      rw [g1, if_neg Bool.false_ne_true, if_neg (fun h : age < 20 ∧ X ≤ S => hy h.1)]
      exact pone

end Skillratings
