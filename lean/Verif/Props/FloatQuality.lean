import Verif.Props.FloatBayesTeams
import Verif.Proofs.FPWlTeams
/-
C136: the match quality of TrueSkill in double precision.
-/

namespace Skillratings
open FP FPVal Spec
variable {E : FloatEnv}

namespace TrueSkill

/-- The arithmetic of `match_quality`: the part of the variance which is not uncertainty and the
penalty for the lead `D`. -/
theorem quality_fp (L : E.Lib) (A : E.Accurate) {d u w : FP E} {D C U k : ℝ} (hw : Ap k 102 w (C ^ 2))
    (hk : k ≤ 40) (hC : Mid 50 C) (hu : Ap 40 60 u U) (hd : Near (5 * C / 2 ^ 41) d D) (hD : |D| ≤ 19 * C) :
    Near (√(U / C ^ 2) * Real.exp (-D ^ 2 / (2 * C ^ 2)) / 2 ^ 32)
      (Flt.sqrt (u / w) * Flt.exp (-Flt.powi d 2 / ((2.0 : FP E) * w)))
      (√(U / C ^ 2) * Real.exp (-D ^ 2 / (2 * C ^ 2))) := by
  have hC0 := hC.pos
  have h2 : Ap 0 1 (2.0 : FP E) 2 := ⟨lit_rel (lit_in (E := E) (m := 20) (s := true) (e := 1) (v := 2)
    (by norm_num) (SRep.ofNat 2 (by norm_num))), by norm_num, by norm_num⟩
  have q1 := (hu.div (hw.mono hk le_rfl) (by norm_num) (by norm_num) (by norm_num)).sqrt (by norm_num) (by norm_num)
  have q2 := h2.mul (hw.mono hk le_rfl) (by norm_num) (by norm_num) (by norm_num)
  have hC2 : C ^ 2 ≤ 2 ^ 100 := by have := (Mid.sq hC).2; simpa using this
  have hC2' : 1 / 2 ^ 100 ≤ C ^ 2 := by have := (Mid.sq hC).1; simpa using this
  have e1 : |D| * |D| = D ^ 2 := by rw [abs_mul_abs_self, pow_two]
  have hDD : D ^ 2 ≤ 361 * C ^ 2 := by
    rw [← e1]
    calc _ ≤ (19 * C) * (19 * C) := mul_le_mul hD hD (abs_nonneg _) (by positivity)
      _ = _ := by ring
  have hcross : 5 * C / 2 ^ 41 * |D| ≤ 95 / 2 ^ 41 * C ^ 2 := by
    calc _ ≤ 5 * C / 2 ^ 41 * (19 * C) := mul_le_mul_of_nonneg_left hD (by positivity)
      _ = _ := by ring
  have q3 : Near (200 / 2 ^ 41 * C ^ 2) (Flt.powi d 2) (D ^ 2) := by
    rw [powi_two' L, pow_two D]
    refine (small_mul hd hd (M := 362 * C ^ 2) ?_ ?_ ?_).mono ?_
    · rw [abs_mul, e1]
      have : 5 * C / 2 ^ 41 * (5 * C / 2 ^ 41) = 25 / 2 ^ 82 * C ^ 2 := by ring
      rw [this, mul_comm |D|]
      norm_num at hcross ⊢
      nlinarith
    · refine le_trans (one_div_le_one_div_of_le (by positivity)
        (pow_le_pow_right₀ (by norm_num) (by norm_num : 100 ≤ 900))) ?_
      linarith
    · refine le_trans ?_ (pow_le_pow_right₀ (by norm_num) (by norm_num : 120 ≤ 900))
      norm_num at hC2 ⊢; linarith
    · have : 5 * C / 2 ^ 41 * (5 * C / 2 ^ 41) = 25 / 2 ^ 82 * C ^ 2 := by ring
      rw [this, mul_comm |D|]
      norm_num at hcross ⊢
      nlinarith
  have q4 : Near (51200 / 2 ^ 50 * (2 * C ^ 2)) (-Flt.powi d 2) (-D ^ 2) :=
    q3.neg.mono (by norm_num; nlinarith [_root_.sq_nonneg C])
  have q5 := near_quotient_of q4 q2.1 q2.2.pos (M := 181) (by
      rw [abs_neg, abs_of_nonneg (_root_.sq_nonneg D), div_le_iff₀ q2.2.pos]; linarith)
    (by norm_num) (by norm_num) (by norm_num) (by norm_num)
  have q6 := exp_ap A (q5.mono (le_of_eq rfl)) (by
      rw [abs_div, abs_neg, abs_of_nonneg (_root_.sq_nonneg D), abs_of_pos q2.2.pos, div_le_iff₀ q2.2.pos]; linarith)
    (by norm_num)
  have q7 := q1.mul q6 (by norm_num) (by norm_num) (by norm_num)
  refine (q7.1.near q7.2.pos.le).mono ?_
  have := q7.2.pos
  rw [div_eq_mul_one_div _ ((2 : ℝ) ^ 32), mul_comm]
  refine mul_le_mul_of_nonneg_left ?_ this.le
  norm_num

/-- Match quality of two players whose ratings are at most 19 total uncertainties apart: within a
relative error of `2 ^ -32` of the exact formula. -/
theorem C136_trueskill_quality (L : E.Lib) (A : E.Accurate) (a b : TrueSkillRating (FP E))
    (c : TrueSkillConfig (FP E)) (hβ : Between (1 / 2 ^ 20) (2 ^ 20) c.beta) (ha : TsUsual a) (hb : TsUsual b)
    (h : |a.rating.toR - b.rating.toR| ≤ 19 * spread a b c) :
    let q := √(2 * c.beta.toR ^ 2 / spread a b c ^ 2)
      * Real.exp (-(a.rating.toR - b.rating.toR) ^ 2 / (2 * spread a b c ^ 2))
    Near (q / 2 ^ 32) (matchQuality a b c) q := by
  intro q
  obtain ⟨hc, hC2⟩ := spread_ap L hβ ha hb
  have hβ' := FP.Spec.Between.ap' hβ
  have hσ := FP.Spec.Between.ap' ha.2
  have hτ := FP.Spec.Between.ap' hb.2
  have h2 : Ap 0 1 (2.0 : FP E) 2 := ⟨lit_rel (lit_in (E := E) (m := 20) (s := true) (e := 1) (v := 2)
    (by norm_num) (SRep.ofNat 2 (by norm_num))), by norm_num, by norm_num⟩
  have s2 := h2.mulAdd (hβ'.sq L (by norm_num) (by norm_num))
    ((hσ.sq L (by norm_num) (by norm_num)).mono (k' := 1) (n' := 41) (by norm_num) (by norm_num))
    (by norm_num) (by norm_num) (by norm_num) (by norm_num)
  have s1 := (hτ.mono (k' := 1) (n' := 21) (by norm_num) (by norm_num)).mulAdd
    (hτ.mono (k' := 1) (n' := 21) (by norm_num) (by norm_num))
    (s2.mono (k' := 2) (n' := 42) (by norm_num) (by norm_num))
    (by norm_num) (by norm_num) (by norm_num) (by norm_num)
  have e : b.uncertainty.toR * b.uncertainty.toR + (2 * c.beta.toR ^ 2 + a.uncertainty.toR ^ 2)
      = spread a b c ^ 2 := by rw [hC2]; ring
  rw [e] at s1
  have u1 := h2.mul (hβ'.sq L (by norm_num) (by norm_num)) (by norm_num) (by norm_num) (by norm_num)
  exact quality_fp L A (s1.mono le_rfl (by norm_num)) (by norm_num) hc.2 (u1.mono (by norm_num) (by norm_num))
    (delta_near hc ha.1 hb.1 (h.trans (by linarith [hc.2.pos]))) h

/-- The qualities of a player's matches against a list of opponents. -/
theorem C136_trueskill_quality_period (L : E.Lib) (A : E.Accurate) (a : TrueSkillRating (FP E))
    (l : List (TrueSkillRating (FP E))) (c : TrueSkillConfig (FP E)) (hβ : Between (1 / 2 ^ 20) (2 ^ 20) c.beta)
    (ha : TsUsual a) (i : ℕ) (hi : i < l.length) (hb : TsUsual l[i])
    (h : |a.rating.toR - l[i].rating.toR| ≤ 19 * spread a l[i] c) :
    let q := √(2 * c.beta.toR ^ 2 / spread a l[i] c ^ 2)
      * Real.exp (-(a.rating.toR - l[i].rating.toR) ^ 2 / (2 * spread a l[i] c ^ 2))
    ∃ x, (matchQualityRatingPeriod a l c)[i]? = some x ∧ Near (q / 2 ^ 32) x q := by
  intro q
  refine ⟨matchQuality a l[i] c, ?_, C136_trueskill_quality L A a l[i] c hβ ha hb h⟩
  simp [matchQualityRatingPeriod, List.getElem?_map, List.getElem?_eq_getElem hi]

/-- Match quality of two teams of together at most 16 players. -/
theorem C136_trueskill_quality_two_teams (L : E.Lib) (A : E.Accurate) (s t : List (TrueSkillRating (FP E)))
    (c : TrueSkillConfig (FP E)) (hβ : Between (1 / 2 ^ 20) (2 ^ 20) c.beta) (hs : s ≠ []) (ht : t ≠ [])
    (hn : s.length + t.length ≤ 16) (hs' : ∀ a ∈ s, TsMember c a) (ht' : ∀ a ∈ t, TsMember c a) {D V : ℝ}
    (hD : D = (s.map fun a => a.rating.toR).sum - (t.map fun a => a.rating.toR).sum)
    (hV : V = (s.length + t.length : ℕ) * c.beta.toR ^ 2 + (s.map fun a => a.uncertainty.toR ^ 2).sum
      + (t.map fun a => a.uncertainty.toR ^ 2).sum) (h : |D| ≤ 19 * √V) :
    let q := √((s.length + t.length : ℕ) * c.beta.toR ^ 2 / V) * Real.exp (-D ^ 2 / (2 * V))
    Near (q / 2 ^ 32) (matchQualityTwoTeams s t c) q := by
  intro q
  have hβ' := FP.Spec.Between.ap' hβ
  have ls : 0 < s.length := List.length_pos_iff.2 hs
  have lt : 0 < t.length := List.length_pos_iff.2 ht
  have v1 := sum_ap s (fun a => Flt.powi a.uncertainty 2) (fun a => a.uncertainty.toR ^ 2) (k := 1) (n := 40)
    (m := 4) (by norm_num) (by norm_num) hs (by omega) (by norm_num)
    (fun a ha => ((FP.Spec.Between.ap' (hs' a ha).1.2).sq L (by norm_num) (by norm_num)).mono (by norm_num)
      (by norm_num))
  have v2 := sum_ap t (fun a => Flt.powi a.uncertainty 2) (fun a => a.uncertainty.toR ^ 2) (k := 1) (n := 40)
    (m := 4) (by norm_num) (by norm_num) ht (by omega) (by norm_num)
    (fun a ha => ((FP.Spec.Between.ap' (ht' a ha).1.2).sq L (by norm_num) (by norm_num)).mono (by norm_num)
      (by norm_num))
  have ls' : (s.length : ℝ) ≤ 15 := by exact_mod_cast (by omega : s.length ≤ 15)
  have lt' : (t.length : ℝ) ≤ 15 := by exact_mod_cast (by omega : t.length ≤ 15)
  have n1 : Ap 0 4 (Flt.ofNat (s.length + t.length) : FP E) ((s.length + t.length : ℕ) : ℝ) := by
    refine ⟨(ofNat_ap (E := E) (n := s.length + t.length) (by omega) (by omega)).1, ?_, ?_⟩
    · have : (1 : ℝ) ≤ ((s.length + t.length : ℕ) : ℝ) := by exact_mod_cast (by omega : 1 ≤ s.length + t.length)
      norm_num at this ⊢; linarith
    · have : ((s.length + t.length : ℕ) : ℝ) ≤ 16 := by exact_mod_cast hn
      norm_num at this ⊢; linarith
  have c1 := (n1.mono (k' := 16) (n' := 4) (by norm_num) (by norm_num)).mulAdd
    ((hβ'.sq L (by norm_num) (by norm_num)).mono (k' := 1) (n' := 40) (by norm_num) (by norm_num))
    (v1.mono (k' := 17) (n' := 44) (by linarith) (by norm_num))
    (by norm_num) (by norm_num) (by norm_num) (by norm_num)
  have c2 := (c1.mono (k' := 20) (n' := 45) (by norm_num) (by norm_num)).add
    (v2.mono (k' := 20) (n' := 45) (by linarith) (by norm_num)) (by norm_num) (by norm_num)
  have hV0 : Mid 46 V := by rw [hV]; exact c2.2
  have e : √V ^ 2 = V := Real.sq_sqrt hV0.pos.le
  rw [← hV] at c2
  have hCm := hV0.sqrt
  have u1 := n1.mul (hβ'.sq L (by norm_num) (by norm_num)) (by norm_num) (by norm_num) (by norm_num)
  have es : (side (s.map tsExact)).μ - (side (t.map tsExact)).μ = D := by
    simp only [side, List.map_map, Function.comp_def, tsExact, hD]
  have d1 := team_delta (C := √V) hβ hs ht hn hs' ht' (hCm.mono (by norm_num)) (by
      rw [e, hV]
      have := sq_sum_nonneg s
      have := sq_sum_nonneg t
      linarith) (by rw [es]; linarith [hCm.pos])
  rw [es] at d1
  have key := quality_fp L A (C := √V) (k := 21) (by rw [e]; exact c2.mono (by norm_num) (by norm_num)) (by norm_num)
    (hCm.mono (by norm_num)) (u1.mono (by norm_num) (by norm_num)) d1 h
  rw [e] at key
  exact key

/-! ### The hypotheses are satisfiable -/

theorem tom_values : tom.rating.toR = 25 ∧ tom.uncertainty.toR = 8 := by
  have h25 := lit_in (E := ieee) (m := 250) (s := true) (e := 1) (v := 25) (by norm_num)
    (SRep.ofNat 25 (by norm_num))
  have h8 := lit_in (E := ieee) (m := 80) (s := true) (e := 1) (v := 8) (by norm_num)
    (SRep.ofNat 8 (by norm_num))
  exact ⟨le_antisymm h25.toR.2 h25.toR.1, le_antisymm h8.toR.2 h8.toR.1⟩

theorem toms_spread_sq : spread tom tom cfg4 ^ 2 = 160 := by
  rw [spread, Real.sq_sqrt (by positivity), cfg4_beta, tom_values.2]; norm_num

theorem tom_quality : √(2 * cfg4.beta.toR ^ 2 / spread tom tom cfg4 ^ 2)
    * Real.exp (-(tom.rating.toR - tom.rating.toR) ^ 2 / (2 * spread tom tom cfg4 ^ 2)) = √(1 / 5) := by
  rw [toms_spread_sq, cfg4_beta, sub_self]
  norm_num

example : Near (√(1 / 5) / 2 ^ 32) (matchQuality tom tom cfg4) √(1 / 5) := by
  have h := C136_trueskill_quality ieee_lib ieee_accurate tom tom cfg4 cfg4_usual tom_member.1 tom_member.1
    (by rw [sub_self, abs_zero, spread]; positivity)
  rw [tom_quality] at h
  exact h

example : ∃ x, (matchQualityRatingPeriod tom [tom, tom] cfg4)[1]? = some x ∧ Near (√(1 / 5) / 2 ^ 32) x √(1 / 5) := by
  have h := C136_trueskill_quality_period ieee_lib ieee_accurate tom [tom, tom] cfg4 cfg4_usual tom_member.1 1
    (by simp) tom_member.1 (by
      change |tom.rating.toR - tom.rating.toR| ≤ 19 * spread tom tom cfg4
      rw [sub_self, abs_zero, spread]; positivity)
  simp only [List.getElem_cons_succ, List.getElem_cons_zero] at h
  rw [tom_quality] at h
  exact h

example : Near (√(1 / 5) * Real.exp (-(25 ^ 2) / 480) / 2 ^ 32) (matchQualityTwoTeams [tom, tom] [tom] cfg4)
    (√(1 / 5) * Real.exp (-(25 ^ 2) / 480)) := by
  have h := C136_trueskill_quality_two_teams ieee_lib ieee_accurate [tom, tom] [tom] cfg4 cfg4_usual (by simp)
    (by simp) (by simp) (by simp [tom_member]) (by simp [tom_member]) (D := 25) (V := 240)
    (by simp [tom_values]) (by simp [tom_values, cfg4_beta]; norm_num)
    (by
      rw [abs_of_pos (by norm_num)]
      have : (10 : ℝ) ≤ √240 := Real.le_sqrt_of_sq_le (by norm_num)
      linarith)
  have e : √(((([tom, tom].length + [tom].length : ℕ)) : ℝ) * cfg4.beta.toR ^ 2 / 240) *
      Real.exp (-25 ^ 2 / (2 * 240)) = √(1 / 5) * Real.exp (-(25 ^ 2) / 480) := by
    rw [cfg4_beta]
    congr 2 <;> norm_num
  rw [e] at h
  exact h

end TrueSkill
end Skillratings
