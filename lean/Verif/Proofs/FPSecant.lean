import Verif.Proofs.FPIllinois
import Verif.Proofs.FPScale
import Verif.Proofs.FPRel
/-
The arithmetic of one step of the Glicko-2 volatility iteration in floating point.
-/
namespace Skillratings
open FP FPVal
variable {E : FloatEnv}

/-- A little more than a unit in the last place. -/
noncomputable def ulp : ℝ := 1 / 2 ^ 52 + 1 / 2 ^ 100

theorem ulp_pos : 0 < ulp := by unfold ulp; positivity
theorem ulp_le : ulp ≤ 1 / 2 ^ 51 := by unfold ulp; norm_num

theorem round_fine (s : Bool) {v M : ℝ} (h : |v| ≤ M) (h1 : 1 / 2 ^ 900 ≤ M) (h2 : M ≤ 2 ^ 900) :
    (E.round s v).isFinite ∧ |(E.round s v).toR - v| ≤ M * ulp := by
  have h3 : M ≤ 2 ^ 1000 := h2.trans (pow_le_pow_right₀ (by norm_num) (by norm_num))
  obtain ⟨p, q⟩ := round_near (E := E) s ((h.trans h3).trans_lt
    (pow_lt_pow_right₀ (by norm_num) (by norm_num)))
  refine ⟨p, q.trans ?_⟩
  have t : (1 : ℝ) / 2 ^ 1074 ≤ 1 / 2 ^ 100 * (1 / 2 ^ 900) := by
    rw [div_mul_div_comm, one_mul, ← pow_add]
    exact one_div_le_one_div_of_le (by positivity) (pow_le_pow_right₀ (by norm_num) (by norm_num))
  rw [show M * ulp = 1 / 2 ^ 52 * M + 1 / 2 ^ 100 * M by unfold ulp; ring]
  exact add_le_add (mul_le_mul_of_nonneg_left h (by positivity))
    (t.trans (mul_le_mul_of_nonneg_left h1 (by positivity)))

theorem round_flag (s t : Bool) (v : ℝ) : (E.round s v).toR = (E.round t v).toR := by
  unfold FloatEnv.round
  split
  · cases s <;> cases t <;> simp [FPVal.toR, signed, Mag.zero]
  · rfl

theorem round_le_of {s : Bool} {v r : ℝ} (hf : (E.round s v).isFinite) (hr : SRep r) (h : v ≤ r) :
    (E.round s v).toR ≤ r := by
  have := E.round_le s hr h
  rw [isFinite.toE_eq hf] at this
  exact_mod_cast this

theorem le_round_of {s : Bool} {v r : ℝ} (hf : (E.round s v).isFinite) (hr : SRep r) (h : r ≤ v) :
    r ≤ (E.round s v).toR := by
  have := E.round_ge s hr h
  rw [isFinite.toE_eq hf] at this
  exact_mod_cast this

theorem round_le_round {s t : Bool} {v w : ℝ} (hv : (E.round s v).isFinite) (hw : (E.round t w).isFinite)
    (h : v ≤ w) : (E.round s v).toR ≤ (E.round t w).toR := by
  have := E.round_mono s t h
  rw [isFinite.toE_eq hv, isFinite.toE_eq hw] at this
  exact_mod_cast this

/-- Rounding keeps the order, in a direction. -/
theorem round_dir {s t : Bool} {v w A : ℝ} (hv : (E.round s v).isFinite) (hw : (E.round t w).isFinite)
    (h : 0 ≤ (v - w) * A) : 0 ≤ ((E.round s v).toR - (E.round t w).toR) * A := by
  rcases lt_trichotomy A 0 with hA | hA | hA
  · have : v ≤ w := by
      by_contra hc
      have := mul_neg_of_pos_of_neg (sub_pos.2 (not_le.1 hc)) hA
      linarith
    have := round_le_round hv hw this
    exact mul_nonneg_of_nonpos_of_nonpos (by linarith) hA.le
  · rw [hA, mul_zero]
  · have : w ≤ v := by
      by_contra hc
      have := mul_neg_of_neg_of_pos (sub_neg.2 (not_le.1 hc)) hA
      linarith
    have := round_le_round hw hv this
    exact mul_nonneg (by linarith) hA.le

/-- Rounding keeps signs. -/
theorem round_sign {s : Bool} {v A : ℝ} (hv : (E.round s v).isFinite) (h : 0 ≤ v * A) :
    0 ≤ (E.round s v).toR * A := by
  have h0 : (E.round false 0).isFinite := E.round_finite false SRep.zero
  have hz : (E.round false 0).toR = 0 := by
    have := E.round_rep false SRep.zero
    rw [isFinite.toE_eq h0] at this
    exact_mod_cast this
  have := round_dir (s := s) (t := false) (v := v) (w := 0) (A := A) hv h0 (by rw [sub_zero]; exact h)
  rwa [hz, sub_zero] at this

namespace Glicko2
variable {r : ℝ} {s : VolState (FP E)}

private theorem q401 : (1 : ℝ) / 2 ^ 401 = 1 / 2 ^ 400 / 2 := by rw [pow_succ]; field_simp

theorem q900 : (1 : ℝ) / 2 ^ 900 ≤ 1 / 2 ^ 401 :=
  one_div_le_one_div_of_le (by positivity) (pow_le_pow_right₀ (by norm_num) (by norm_num))

theorem le_900 {x : ℝ} (h : x ≤ 2 ^ 200) : x ≤ 2 ^ 900 :=
  h.trans (pow_le_pow_right₀ (by norm_num) (by norm_num))

theorem Usable.gap {R : ℝ} (hu : Usable r R s) : |s.fa.toR| ≤ |s.fb.toR - s.fa.toR| ∧
    1 / 2 ^ 401 ≤ |s.fb.toR - s.fa.toR| ∧ |s.fb.toR - s.fa.toR| ≤ 2 ^ 101 := by
  have hq : (0 : ℝ) < 1 / 2 ^ 400 := by positivity
  have hup : |s.fb.toR - s.fa.toR| ≤ 2 ^ 101 := by
    refine (abs_sub _ _).trans ?_
    have h1 := hu.fa.2.2
    have h2 := hu.fb.2.2
    norm_num at h1 h2 ⊢
    linarith
  rw [q401]
  have hfa1 := hu.fa.2.1
  have hfb1 := hu.fb.2.1
  generalize (1 : ℝ) / 2 ^ 400 = q at *
  rcases hu.ne with h | ⟨h, h'⟩ | ⟨h, h'⟩
  · have e : |s.fb.toR - s.fa.toR| = |s.fb.toR| + |s.fa.toR| := by
      rcases mul_neg_iff.1 h with ⟨h1, h2⟩ | ⟨h1, h2⟩
      · rw [abs_of_neg (by linarith : s.fb.toR - s.fa.toR < 0), abs_of_pos h1, abs_of_neg h2]; ring
      · rw [abs_of_pos (by linarith : 0 < s.fb.toR - s.fa.toR), abs_of_neg h1, abs_of_pos h2]; ring
    have h3 : q ≤ |s.fa.toR| := by
      rcases hfa1 with h3 | h3
      · rw [h3] at h; simp at h
      · linarith
    rw [e] at hup ⊢
    exact ⟨by linarith [abs_nonneg s.fb.toR], by linarith [abs_nonneg s.fb.toR], hup⟩
  · have h1 := abs_sub_abs_le_abs_sub s.fb.toR s.fa.toR
    have h3 : q ≤ |s.fb.toR| := by
      rcases hfb1 with h3 | h3
      · exact absurd h3 h
      · linarith
    exact ⟨by linarith, by linarith, hup⟩
  · have h3 : q ≤ |s.fa.toR| := by
      rcases hfa1 with h3 | h3
      · exact absurd h3 h'
      · linarith
    rw [h, zero_sub, abs_neg] at hup ⊢
    exact ⟨le_rfl, by linarith, hup⟩

/-- The intermediate values of a step. -/
theorem secant_parts (hr : |r| ≤ 20) (hu : Usable r 40 s) : ∃ (d1 d2 d3 : ℝ) (t1 t2 t3 t4 t5 : Bool) (d4 : ℝ),
    let A := s.a.toR - s.b.toR
    let D := s.fb.toR - s.fa.toR
    (E.round t1 A).isFinite ∧ d1 = (E.round t1 A).toR ∧ |d1 - A| ≤ 80 * ulp ∧
    (E.round t2 (d1 * s.fa.toR)).isFinite ∧ d2 = (E.round t2 (d1 * s.fa.toR)).toR ∧
    (E.round t3 D).isFinite ∧ d3 = (E.round t3 D).toR ∧ |d3 - D| ≤ |D| * ulp ∧
    (E.round t4 (d2 / d3)).isFinite ∧ d4 = (E.round t4 (d2 / d3)).toR ∧
    |d4 - A * s.fa.toR / D| ≤ 323 * ulp ∧
    (E.round t5 (s.a.toR + d4)).isFinite ∧ secant s = E.round t5 (s.a.toR + d4) ∧
    |(E.round t5 (s.a.toR + d4)).toR - (s.a.toR + d4)| ≤ 141 * ulp := by
  obtain ⟨g1, g2, g3⟩ := hu.gap
  obtain ⟨⟨ha, haR⟩, ⟨hb, hbR⟩, ⟨hfa, -, -⟩, ⟨hfb, -, -⟩, -⟩ := hu
  have hup := ulp_pos
  have hul := ulp_le
  norm_num at hul
  have hq9 := q900
  have q0 : (0 : ℝ) < 1 / 2 ^ 401 := by positivity
  obtain ⟨A, hA⟩ : ∃ A, A = s.a.toR - s.b.toR := ⟨_, rfl⟩
  obtain ⟨D, hD⟩ : ∃ D, D = s.fb.toR - s.fa.toR := ⟨_, rfl⟩
  rw [← hD] at g1 g2 g3
  have hA80 : |A| ≤ 80 := by
    rw [hA, show s.a.toR - s.b.toR = (s.a.toR - r) - (s.b.toR - r) by ring]
    exact (abs_sub _ _).trans (by linarith)
  have ha60 : |s.a.toR| ≤ 60 := by
    rw [show s.a.toR = (s.a.toR - r) + r by ring]
    exact (abs_add_le _ _).trans (by linarith)
  have big : ∀ M : ℝ, 1 ≤ M → 1 / 2 ^ 900 ≤ M := fun M h =>
    le_trans (by rw [div_le_one (by positivity)]; exact one_le_pow₀ (by norm_num)) h
  obtain ⟨t1, e1⟩ := sub_fin ha hb
  rw [← hA] at e1
  obtain ⟨f1, n1⟩ := round_fine (E := E) t1 hA80 (big _ (by norm_num)) (le_900 (by norm_num))
  obtain ⟨d1, hd1⟩ : ∃ d, d = (E.round t1 A).toR := ⟨_, rfl⟩
  rw [← hd1] at n1
  have hd1le : |d1| ≤ 81 := by
    rw [show d1 = (d1 - A) + A by ring]
    exact (abs_add_le _ _).trans (by linarith)
  have f1' : (s.a - s.b).isFinite := by rw [e1]; exact f1
  obtain ⟨t2, e2⟩ := mul_fin f1' hfa
  have er1 : (s.a - s.b).toR = d1 := by rw [hd1, e1]
  rw [er1] at e2
  have hm2 : |d1 * s.fa.toR| ≤ 81 * |D| := by
    rw [abs_mul]; exact mul_le_mul hd1le g1 (abs_nonneg _) (by norm_num)
  have hD1 : 1 / 2 ^ 900 ≤ |D| := hq9.trans g2
  have hD0 : 0 < |D| := lt_of_lt_of_le q0 g2
  obtain ⟨f2, n2⟩ := round_fine (E := E) t2 hm2 (hD1.trans (by linarith)) (le_900 (by norm_num at g3 ⊢; linarith))
  obtain ⟨d2, hd2⟩ : ∃ d, d = (E.round t2 (d1 * s.fa.toR)).toR := ⟨_, rfl⟩
  rw [← hd2] at n2
  obtain ⟨t3, e3⟩ := sub_fin hfb hfa
  rw [← hD] at e3
  obtain ⟨f3, n3⟩ := round_fine (E := E) t3 (le_refl |D|) hD1 (le_900 (by norm_num at g3 ⊢; linarith))
  obtain ⟨d3, hd3⟩ : ∃ d, d = (E.round t3 D).toR := ⟨_, rfl⟩
  rw [← hd3] at n3
  have hDu : |D| * ulp ≤ |D| * (1 / 1000) := mul_le_mul_of_nonneg_left (by linarith) hD0.le
  have hd3lo : |D| * (1 - ulp) ≤ |d3| := by
    have := abs_sub_abs_le_abs_sub D d3
    rw [abs_sub_comm D d3] at this
    linarith
  have hd30 : 0 < |d3| := lt_of_lt_of_le (mul_pos hD0 (by linarith)) hd3lo
  have hd3ne : d3 ≠ 0 := abs_pos.1 hd30
  have hDne : D ≠ 0 := abs_pos.1 hD0
  have f2' : ((s.a - s.b) * s.fa).isFinite := by rw [e2]; exact f2
  have f3' : (s.fb - s.fa).isFinite := by rw [e3]; exact f3
  have er2 : ((s.a - s.b) * s.fa).toR = d2 := by rw [hd2, e2]
  have er3 : (s.fb - s.fa).toR = d3 := by rw [hd3, e3]
  obtain ⟨t4, e4⟩ := div_fin f2' f3' (by rw [er3]; exact hd3ne)
  rw [er2, er3] at e4
  have hd2e : |d2 - A * s.fa.toR| ≤ 161 * ulp * |D| := by
    rw [show d2 - A * s.fa.toR = (d2 - d1 * s.fa.toR) + (d1 - A) * s.fa.toR by ring]
    refine (abs_add_le _ _).trans ?_
    rw [abs_mul]
    have := mul_le_mul n1 g1 (abs_nonneg _) (by positivity)
    linarith
  have hAf : |A * s.fa.toR| ≤ 80 * |D| := by
    rw [abs_mul]; exact mul_le_mul hA80 g1 (abs_nonneg _) (by norm_num)
  have hq : |d2 / d3 - A * s.fa.toR / D| ≤ 242 * ulp := by
    rw [div_sub_div _ _ hd3ne hDne, abs_div, div_le_iff₀ (by rw [abs_mul]; positivity), abs_mul]
    have h1 : |d2 * D - d3 * (A * s.fa.toR)| ≤ 161 * ulp * |D| * |D| + |D| * ulp * (80 * |D|) := by
      rw [show d2 * D - d3 * (A * s.fa.toR) = (d2 - A * s.fa.toR) * D - (d3 - D) * (A * s.fa.toR) by ring]
      refine (abs_sub _ _).trans ?_
      rw [abs_mul, abs_mul]
      exact add_le_add (mul_le_mul_of_nonneg_right hd2e (abs_nonneg _))
        (mul_le_mul n3 hAf (abs_nonneg _) (by positivity))
    have h2 : 242 * ulp * (|D| * (1 - ulp) * |D|) ≤ 242 * ulp * (|d3| * |D|) :=
      mul_le_mul_of_nonneg_left (mul_le_mul_of_nonneg_right hd3lo hD0.le) (by positivity)
    have h3 : ulp * |D| * |D| * (242 * ulp) ≤ ulp * |D| * |D| * 1 :=
      mul_le_mul_of_nonneg_left (by linarith) (by positivity)
    linarith
  have hqs : |A * s.fa.toR / D| ≤ 80 := by
    rw [abs_div, div_le_iff₀ hD0]; exact hAf
  have hq81 : |d2 / d3| ≤ 81 := by
    rw [show d2 / d3 = (d2 / d3 - A * s.fa.toR / D) + A * s.fa.toR / D by ring]
    exact (abs_add_le _ _).trans (by linarith)
  obtain ⟨f4, n4⟩ := round_fine (E := E) t4 hq81 (big _ (by norm_num)) (le_900 (by norm_num))
  obtain ⟨d4, hd4⟩ : ∃ d, d = (E.round t4 (d2 / d3)).toR := ⟨_, rfl⟩
  rw [← hd4] at n4
  have hd4e : |d4 - A * s.fa.toR / D| ≤ 323 * ulp := by
    rw [show d4 - A * s.fa.toR / D = (d4 - d2 / d3) + (d2 / d3 - A * s.fa.toR / D) by ring]
    exact (abs_add_le _ _).trans (by linarith)
  have hd4s : |d4| ≤ 81 := by
    rw [show d4 = (d4 - A * s.fa.toR / D) + A * s.fa.toR / D by ring]
    exact (abs_add_le _ _).trans (by linarith)
  have f4' : ((s.a - s.b) * s.fa / (s.fb - s.fa)).isFinite := by rw [e4]; exact f4
  have er4 : ((s.a - s.b) * s.fa / (s.fb - s.fa)).toR = d4 := by rw [hd4, e4]
  obtain ⟨t5, e5⟩ := add_fin ha f4'
  rw [er4] at e5
  obtain ⟨f5, n5⟩ := round_fine (E := E) t5 (M := 141) (v := s.a.toR + d4)
    ((abs_add_le _ _).trans (by linarith)) (big _ (by norm_num)) (le_900 (by norm_num))
  rw [← hA, ← hD]
  exact ⟨d1, d2, d3, t1, t2, t3, t4, t5, d4, f1, hd1, n1, f2, hd2, f3, hd3, n3, f4, hd4, hd4e, f5, e5, n5⟩

theorem ulp_theta : 464 * ulp ≤ 1 / 2 ^ 43 := by unfold ulp; norm_num

private theorem doubled {E : FloatEnv} (S : E.Scales) {t t' : Bool} {v : ℝ} (h1 : 1 / 2 ^ 900 ≤ |2 * v|)
    (h2 : |2 * v| ≤ 2 ^ 900) : (E.round t (2 * v)).toR = 2 * (E.round t' v).toR := by
  have := S.half t (2 * v) h1 h2
  rw [mul_div_cancel_left₀ v (by norm_num : (2 : ℝ) ≠ 0), round_flag t t'] at this
  linarith

/-- The quotient of the step moves towards zero when the value at the kept end is halved. -/
theorem quotient_mono {d2 d2x d3 d3x fa A : ℝ} (e2 : d2x = 2 * d2) (hs : 0 ≤ d2 * (A * fa))
    (h3 : d3 * fa < 0) (h3x : d3x * fa < 0) (hle : |d3x| ≤ 2 * |d3|) :
    0 ≤ (d2 / d3 - d2x / d3x) * A := by
  have hd3 : d3 ≠ 0 := by rintro rfl; simp at h3
  have hd3x : d3x ≠ 0 := by rintro rfl; simp at h3x
  have hfa : fa ≠ 0 := by rintro rfl; simp at h3
  have hpos : 0 < d3 * d3x := by
    have : 0 < (d3 * fa) * (d3x * fa) := mul_pos_of_neg_of_neg h3 h3x
    have e : (d3 * fa) * (d3x * fa) = d3 * d3x * (fa * fa) := by ring
    rw [e] at this
    exact pos_of_mul_pos_left this (mul_self_nonneg fa)
  have e : (d2 / d3 - d2x / d3x) * A = (d2 * (A * fa)) * ((d3x - 2 * d3) * fa) / (d3 * d3x * (fa * fa)) := by
    rw [e2]; field_simp
  rw [e]
  apply div_nonneg _ (mul_nonneg hpos.le (mul_self_nonneg fa))
  apply mul_nonneg hs
  rcases lt_or_gt_of_ne hfa with h | h
  · have h4 : 0 < d3 := pos_of_mul_neg_left h3 h.le
    have h5 : 0 < d3x := pos_of_mul_neg_left h3x h.le
    rw [abs_of_pos h4, abs_of_pos h5] at hle
    exact mul_nonneg_of_nonpos_of_nonpos (by linarith) h.le
  · have h4 : d3 < 0 := neg_of_mul_neg_left h3 h.le
    have h5 : d3x < 0 := neg_of_mul_neg_left h3x h.le
    rw [abs_of_neg h4, abs_of_neg h5] at hle
    exact mul_nonneg (by linarith) h.le

private theorem gap_sign {fa fb d3 : ℝ} (h : fa * fb < 0) (h3 : |d3 - (fb - fa)| ≤ |fb - fa| * ulp) :
    d3 * fa < 0 ∧ (fb - fa) * fa < 0 := by
  have hul := ulp_le
  norm_num at hul
  have hup := ulp_pos
  have hfa : fa ≠ 0 := by rintro rfl; simp at h
  have hD : (fb - fa) * fa < 0 := by
    have := mul_self_pos.2 hfa
    nlinarith
  refine ⟨?_, hD⟩
  have h1 : |d3 - (fb - fa)| ≤ |fb - fa| / 2 := h3.trans (by nlinarith [abs_nonneg (fb - fa)])
  obtain ⟨a1, a2⟩ := abs_le.1 h1
  rcases lt_or_gt_of_ne hfa with h | h
  · have h4 : 0 < fb - fa := pos_of_mul_neg_left hD h.le
    rw [abs_of_pos h4] at a1
    exact mul_neg_of_pos_of_neg (by linarith) h
  · have h4 : fb - fa < 0 := neg_of_mul_neg_left hD h.le
    rw [abs_of_neg h4] at a2
    exact mul_neg_of_neg_of_pos (by linarith) h

theorem secant_arith (S : E.Scales) (hr : |r| ≤ 20) : Secant E r 40 (1 / 2 ^ 43) where
  err s hu := by
    obtain ⟨d1, d2, d3, t1, t2, t3, t4, t5, d4, -, -, -, -, -, -, -, -, -, -, h4, f5, e5, n5⟩ := secant_parts hr hu
    rw [e5]
    refine ⟨f5, ?_⟩
    refine le_trans ?_ ulp_theta
    rw [show (E.round t5 (s.a.toR + d4)).toR - (s.a.toR + (s.a.toR - s.b.toR) * s.fa.toR / (s.fb.toR - s.fa.toR)) =
      ((E.round t5 (s.a.toR + d4)).toR - (s.a.toR + d4)) +
        (d4 - (s.a.toR - s.b.toR) * s.fa.toR / (s.fb.toR - s.fa.toR)) by ring]
    exact (abs_add_le _ _).trans (by linarith)
  dir s hu hneg := by
    obtain ⟨d1, d2, d3, t1, t2, t3, t4, t5, d4, f1, e1, -, f2, e2, f3, e3, n3, f4, e4, -, f5, e5, -⟩ :=
      secant_parts hr hu
    obtain ⟨g1, g2⟩ := gap_sign hneg n3
    have hfa : s.fa.toR ≠ 0 := by intro h; rw [h] at hneg; simp at hneg
    have k1 : 0 ≤ d1 * (s.a.toR - s.b.toR) := by rw [e1]; exact round_sign f1 (mul_self_nonneg _)
    have k2 : 0 ≤ d2 * ((s.a.toR - s.b.toR) * s.fa.toR) := by
      rw [e2]; refine round_sign f2 ?_
      rw [show d1 * s.fa.toR * ((s.a.toR - s.b.toR) * s.fa.toR) =
        d1 * (s.a.toR - s.b.toR) * (s.fa.toR * s.fa.toR) by ring]
      exact mul_nonneg k1 (mul_self_nonneg _)
    have hd3 : d3 ≠ 0 := by rintro rfl; simp at g1
    have k4 : 0 ≤ d4 * (s.b.toR - s.a.toR) := by
      rw [e4]; refine round_sign f4 ?_
      have e : d2 / d3 * (s.b.toR - s.a.toR) =
          (d2 * ((s.a.toR - s.b.toR) * s.fa.toR)) * -(d3 * s.fa.toR) / ((d3 * s.fa.toR) * (d3 * s.fa.toR)) := by
        field_simp; ring
      rw [e]
      exact div_nonneg (mul_nonneg k2 (by linarith)) (mul_self_nonneg _)
    have ha := E.round_finite false hu.a.1.srep
    have hae : (E.round false s.a.toR).toR = s.a.toR := by
      have := E.round_rep false hu.a.1.srep
      rw [isFinite.toE_eq ha] at this
      exact_mod_cast this
    have := round_dir (A := s.b.toR - s.a.toR) f5 ha (by rw [show s.a.toR + d4 - s.a.toR = d4 by ring]; exact k4)
    rw [hae] at this
    rw [e5]; exact this
  mono s x hu hux hneg hx hA := by
    obtain ⟨d1, d2, d3, t1, t2, t3, t4, t5, d4, f1, e1, n1, f2, e2, f3, e3, n3, f4, e4, -, f5, e5, -⟩ :=
      secant_parts hr hu
    obtain ⟨d1', d2x, d3x, t1', t2', t3', t4', t5', d4x, -, e1', -, f2x, e2x, f3x, e3x, n3x, f4x, e4x, -, f5x, e5x, -⟩ :=
      secant_parts hr hux
    dsimp only at e1' e2x e3x n3x e4x e5x f2x f3x f4x f5x
    have hul := ulp_le
    have hup := ulp_pos
    have he1 : d1' = d1 := by rw [e1', e1]; exact round_flag _ _ _
    rw [he1] at e2x f2x
    rw [hx] at e2x e3x n3x f2x f3x
    obtain ⟨g1, g2⟩ := gap_sign hneg n3
    obtain ⟨g1x, g2x⟩ := gap_sign (fa := 2 * s.fa.toR) (by linarith : 2 * s.fa.toR * s.fb.toR < 0) n3x
    have hfa : s.fa.toR ≠ 0 := by intro h; rw [h] at hneg; simp at hneg
    have hfb : s.fb.toR ≠ 0 := by intro h; rw [h] at hneg; simp at hneg
    have q0 : (0 : ℝ) < 1 / 2 ^ 400 := by positivity
    have hfalb : 1 / 2 ^ 400 ≤ |s.fa.toR| := hu.fa.2.1.resolve_left hfa
    have k1 : 0 ≤ d1 * (s.a.toR - s.b.toR) := by rw [e1]; exact round_sign f1 (mul_self_nonneg _)
    have k2 : 0 ≤ d2 * ((s.a.toR - s.b.toR) * s.fa.toR) := by
      rw [e2]; refine round_sign f2 ?_
      rw [show d1 * s.fa.toR * ((s.a.toR - s.b.toR) * s.fa.toR) =
        d1 * (s.a.toR - s.b.toR) * (s.fa.toR * s.fa.toR) by ring]
      exact mul_nonneg k1 (mul_self_nonneg _)
    have hd1lo : 1 / 2 ^ 44 ≤ |d1| := by
      have h1 := abs_sub_abs_le_abs_sub (s.a.toR - s.b.toR) d1
      rw [abs_sub_comm (s.a.toR - s.b.toR) d1] at h1
      norm_num at hA hul ⊢
      linarith
    have hd1hi : |d1| ≤ 2 ^ 20 := by
      rw [show d1 = (d1 - (s.a.toR - s.b.toR)) + ((s.a.toR - r) - (s.b.toR - r)) by ring]
      refine (abs_add_le _ _).trans ?_
      have := abs_sub (s.a.toR - r) (s.b.toR - r)
      have h1 := hu.a.2
      have h2 := hu.b.2
      have h20 : (2 : ℝ) ^ 20 = 1048576 := by norm_num
      norm_num at hul
      rw [h20]
      linarith
    have e22 : d2x = 2 * d2 := by
      rw [e2x, e2, show d1 * (2 * s.fa.toR) = 2 * (d1 * s.fa.toR) by ring]
      refine doubled S ?_ ?_
      · rw [abs_mul, abs_mul, abs_two]
        have h1 : (1 : ℝ) / 2 ^ 44 * (1 / 2 ^ 400) ≤ |d1| * |s.fa.toR| :=
          mul_le_mul hd1lo hfalb q0.le (abs_nonneg _)
        rw [one_div_mul_one_div, ← pow_add] at h1
        have h2 : (1 : ℝ) / 2 ^ 900 ≤ 1 / 2 ^ (44 + 400) :=
          one_div_le_one_div_of_le (by positivity) (pow_le_pow_right₀ (by norm_num) (by norm_num))
        have h3 : 0 ≤ |d1| * |s.fa.toR| := by positivity
        exact (h2.trans h1).trans (by linarith)
      · refine le_900 ?_
        rw [abs_mul, abs_mul, abs_two]
        have h1 : |d1| * |s.fa.toR| ≤ 2 ^ 20 * 2 ^ 100 :=
          mul_le_mul hd1hi hu.fa.2.2 (abs_nonneg _) (by positivity)
        norm_num at h1 ⊢
        linarith
    have e33 : |d3x| ≤ 2 * |d3| := by
      obtain ⟨-, gl, gu⟩ := hu.gap
      have h1 : (E.round t3 (2 * (s.fb.toR - s.fa.toR))).toR = 2 * d3 := by
        rw [e3]
        refine doubled S ?_ ?_
        · rw [abs_mul, abs_two]
          have := abs_nonneg (s.fb.toR - s.fa.toR)
          exact (q900.trans gl).trans (by linarith)
        · refine le_900 ?_
          rw [abs_mul, abs_two]
          norm_num at gu ⊢
          linarith
      have hfin : (E.round t3 (2 * (s.fb.toR - s.fa.toR))).isFinite := by
        refine (round_fine t3 (le_refl _) ?_ ?_).1
        · rw [abs_mul, abs_two]
          have := abs_nonneg (s.fb.toR - s.fa.toR)
          exact (q900.trans gl).trans (by linarith)
        · refine le_900 ?_
          rw [abs_mul, abs_two]
          norm_num at gu ⊢
          linarith
      have hdd : 0 ≤ ((2 * (s.fb.toR - s.fa.toR)) - (s.fb.toR - 2 * s.fa.toR)) * -s.fa.toR := by
        have : ((2 * (s.fb.toR - s.fa.toR)) - (s.fb.toR - 2 * s.fa.toR)) * -s.fa.toR = -(s.fa.toR * s.fb.toR) := by
          ring
        rw [this]; linarith
      have h2 := round_dir (A := -s.fa.toR) hfin f3x hdd
      rw [h1, ← e3x] at h2
      rcases lt_or_gt_of_ne hfa with h | h
      · have h4 : 0 < d3 := pos_of_mul_neg_left g1 h.le
        have h5 : 0 < d3x := pos_of_mul_neg_left g1x (by linarith)
        rw [abs_of_pos h4, abs_of_pos h5]
        have := nonneg_of_mul_nonneg_left h2 (by linarith : 0 < -s.fa.toR)
        linarith
      · have h4 : d3 < 0 := neg_of_mul_neg_left g1 h.le
        have h5 : d3x < 0 := neg_of_mul_neg_left g1x (by linarith)
        rw [abs_of_neg h4, abs_of_neg h5]
        have := nonpos_of_mul_nonneg_left h2 (by linarith : -s.fa.toR < 0)
        linarith
    have kq := quotient_mono (A := s.a.toR - s.b.toR) e22 k2 g1 (by linarith : d3x * s.fa.toR < 0) e33
    have k4 := round_dir f4 f4x kq
    rw [← e4, ← e4x] at k4
    have k5 := round_dir f5 f5x (A := s.a.toR - s.b.toR)
      (by rw [show s.a.toR + d4 - (s.a.toR + d4x) = d4 - d4x by ring]; exact k4)
    rw [e5, e5x]
    exact k5
  half x hx h1 h2 := by
    have h2in : In (E := E) ((2 : ℝ) : EReal) ((2 : ℝ) : EReal) (2.0 : FP E) :=
      lit_in (by norm_num) (SRep.ofNat 2 (by norm_num))
    have h2r : (2.0 : FP E).toR = 2 := le_antisymm h2in.toR.2 h2in.toR.1
    obtain ⟨t, e⟩ := div_fin hx h2in.finite (by rw [h2r]; norm_num)
    rw [h2r] at e
    have hrep : SRep (x.toR / 2) := by
      have := Rep.halve hx.srep ((one_div_le_one_div_of_le (by positivity)
        (pow_le_pow_right₀ (by norm_num) (by norm_num))).trans h1)
      rw [SRep, abs_div, abs_two]; exact this
    have hf := E.round_finite t hrep
    rw [e]
    refine ⟨hf, ?_⟩
    have := E.round_rep t hrep
    rw [isFinite.toE_eq hf] at this
    exact_mod_cast this
  prod x y hx hy hx0 hy0 hx1 hy1 := by
    obtain ⟨t, e⟩ := mul_fin hx hy
    have hsz : |x.toR * y.toR| ≤ 2 ^ 200 := by
      rw [abs_mul]
      have : |x.toR| * |y.toR| ≤ 2 ^ 100 * 2 ^ 100 := mul_le_mul hx1 hy1 (abs_nonneg _) (by positivity)
      norm_num at this ⊢; linarith
    have hf : (E.round t (x.toR * y.toR)).isFinite :=
      (round_fine t hsz (le_trans (by rw [div_le_one (by positivity)]; exact one_le_pow₀ (by norm_num))
        (one_le_pow₀ (by norm_num))) (le_900 le_rfl)).1
    have h0in : In (E := E) ((0 : ℝ) : EReal) ((0 : ℝ) : EReal) (0.0 : FP E) :=
      lit_in (by norm_num) SRep.zero
    have h0r : (0.0 : FP E).toR = 0 := le_antisymm h0in.toR.2 h0in.toR.1
    have hf' : (x * y).isFinite := by rw [e]; exact hf
    have key : (x * y <=? (0.0 : FP E)) = true ↔ (x * y).toR ≤ (0.0 : FP E).toR := by
      have e1 : (x * y).toE = ((x * y).toR : EReal) := isFinite.toE_eq hf'
      have e2 : (0.0 : FP E).toE = ((0.0 : FP E).toR : EReal) := isFinite.toE_eq h0in.finite
      have e0 : (x * y <=? (0.0 : FP E)) = true ↔
          ¬ (x * y).isNaN ∧ ¬ (0.0 : FP E).isNaN ∧ (x * y).toE ≤ (0.0 : FP E).toE := by
        change FPVal.le _ _ = true ↔ _
        simp [FPVal.le]
      rw [e0]
      change ¬ (x * y).isNaN ∧ ¬ (0.0 : FP E).isNaN ∧ (x * y).toE ≤ (0.0 : FP E).toE ↔ _
      rw [e1, e2, EReal.coe_le_coe_iff]
      exact ⟨fun h => h.2.2, fun h => ⟨isFinite.not_nan hf', isFinite.not_nan h0in.finite, h⟩⟩
    rw [key, h0r]
    have er : (x * y).toR = (E.round t (x.toR * y.toR)).toR := by rw [e]
    rw [er]
    constructor
    · intro h
      by_contra hc
      push Not at hc
      have hxn : x.toR ≠ 0 := by intro h; rw [h] at hc; simp at hc
      have hyn : y.toR ≠ 0 := by intro h; rw [h] at hc; simp at hc
      have h1 := hx0.resolve_left hxn
      have h2 := hy0.resolve_left hyn
      have h3 : (1 : ℝ) / 2 ^ 400 * (1 / 2 ^ 400) ≤ |x.toR| * |y.toR| :=
        mul_le_mul h1 h2 (by positivity) (abs_nonneg _)
      rw [one_div_mul_one_div, ← pow_add, ← abs_mul, abs_of_pos hc] at h3
      have h4 := le_round_of hf (SRep.inv_two_pow (400 + 400) (by norm_num)) h3
      have h5 : (0 : ℝ) < 1 / 2 ^ (400 + 400) := by positivity
      exact absurd (h4.trans h) (not_le.2 h5)
    · intro h
      exact round_le_of hf SRep.zero h

end Glicko2
end Skillratings
