import Verif.Proofs.FPFirstDwz
import Verif.Proofs.FPVolNoise
import Verif.Proofs.Egf
import Verif.Spec.LogWide
/-
The parts of an EGF update in floating-point arithmetic.
-/

namespace Skillratings
open FP FPVal Spec
variable {E : FloatEnv}

namespace FP

/-- A difference of two floating-point numbers. -/
theorem sub_ap {x y : FP E} {n : ℕ} (hx : x.isFinite) (hy : y.isFinite) (h : Mid n (x.toR - y.toR)) (hn : n ≤ 900) :
    Ap 1 n (x - y) (x.toR - y.toR) := by
  obtain ⟨s, e⟩ := sub_fin hx hy
  have hm := h.mono hn
  refine ⟨?_, h⟩
  rw [e]
  exact (rel_round (E := E) (k := 0) (s := s) (d := 0) h.pos hm.1 hm.2 (by simp) (by norm_num) (by ring)).mono
    (by norm_num)

end FP

theorem abs_log_sub {a δ : ℝ} (ha : 0 < a) (hδ : |δ| ≤ 1 / 2) : |Real.log (a * (1 + δ)) - Real.log a| ≤ 2 * |δ| := by
  obtain ⟨h1, h2⟩ := abs_le.1 hδ
  have hp : 0 < 1 + δ := by linarith
  rw [Real.log_mul ha.ne' hp.ne', add_sub_cancel_left]
  have u := Real.log_le_sub_one_of_pos hp
  have l := Real.one_sub_inv_le_log_of_pos hp
  have e : 1 - (1 + δ)⁻¹ = δ / (1 + δ) := by field_simp; ring
  rw [e] at l
  rw [abs_le]
  constructor
  · refine le_trans ?_ l
    rw [le_div_iff₀ hp]
    rcases abs_cases δ with ⟨h, h'⟩ | ⟨h, h'⟩ <;> rw [h]
    · nlinarith
    · nlinarith [mul_nonneg (neg_nonneg.2 h'.le) (by linarith : 0 ≤ 1 + 2 * δ)]
  · have := le_abs_self δ
    have := abs_nonneg δ
    linarith

theorem abs_exp_sub {a b : ℝ} (h : |a - b| ≤ 1) : |Real.exp a - Real.exp b| ≤ 2 * |a - b| * Real.exp b := by
  have := Real.abs_exp_sub_one_le h
  have e : Real.exp a - Real.exp b = (Real.exp (a - b) - 1) * Real.exp b := by
    rw [sub_mul, ← Real.exp_add]; ring_nf
  rw [e, abs_mul, abs_of_pos (Real.exp_pos b)]
  exact mul_le_mul_of_nonneg_right this (Real.exp_pos b).le

theorem egf_lit {m v : ℕ} (h : (OfScientific.ofScientific m true 1 : ℝ) = v) (hv : v < 2 ^ 53) :
    Near 0 (OfScientific.ofScientific m true 1 : FP E) (v : ℝ) := lit_exact h (SRep.nat hv)

theorem near_ap {x : FP E} {v : ℝ} {n : ℕ} (h : Near 0 x v) (hm : Mid n v) : Ap 0 n x v :=
  ⟨Rel.of_eq h.1 h.eq, hm⟩

theorem egfCon_bounds {r : ℝ} (h1 : -1000 ≤ r) (h2 : r ≤ 3299) : 0 < egfCon r ∧ egfCon r ≤ 2 ^ 8 := by
  refine ⟨Egf.egfCon_pos (by linarith), ?_⟩
  unfold egfCon
  have h0 : 0 ≤ (3300 - r) / 200 := by linarith
  calc ((3300 - r) / 200) ^ (8 / 5 : ℝ) ≤ (2 ^ (5 : ℝ)) ^ (8 / 5 : ℝ) :=
        Real.rpow_le_rpow h0 (by
          rw [show ((5 : ℝ)) = ((5 : ℕ) : ℝ) by norm_num, Real.rpow_natCast]; norm_num; linarith) (by norm_num)
    _ = 2 ^ 8 := by
        rw [← Real.rpow_mul (by norm_num), show (5 * (8 / 5) : ℝ) = ((8 : ℕ) : ℝ) by norm_num, Real.rpow_natCast]

theorem egf_con_near (F : E.Faithful) {r : FP E} (hr : r.isFinite) (h1 : -1000 ≤ r.toR) (h2 : r.toR ≤ 3299) :
    Near (1 / 2 ^ 35) (Egf.con r) (egfCon r.toR) := by
  have l33 := egf_lit (E := E) (m := 33000) (v := 3300) (by norm_num) (by norm_num)
  have l2 := egf_lit (E := E) (m := 2000) (v := 200) (by norm_num) (by norm_num)
  push_cast at l33 l2
  have hsub := sub_ap (n := 13) l33.1 hr (by rw [l33.eq]; constructor <;> norm_num <;> linarith) (by norm_num)
  rw [l33.eq] at hsub
  have hq := hsub.div (near_ap (n := 8) l2 (by constructor <;> norm_num)) (by norm_num) (by norm_num) (by norm_num)
  obtain ⟨⟨xf, δ, hδ, ex⟩, -⟩ := hq
  set X : ℝ := (3300 - r.toR) / 200 with hX
  have X0 : 1 / 2 ^ 8 ≤ X := by rw [hX]; norm_num; linarith
  have X1 : X ≤ 2 ^ 5 := by rw [hX]; norm_num; linarith
  have Xp : 0 < X := lt_of_lt_of_le (by norm_num) X0
  have y16 := lit_ap (E := E) (m := 16) (s := true) (e := 1) (v := 8 / 5) (n := 1) (by norm_num)
    (by constructor <;> norm_num) (by norm_num)
  obtain ⟨⟨yf, η, hη, ey⟩, -⟩ := y16
  have hδ' : |δ| ≤ 1 / 2 ^ 48 := hδ.trans (by norm_num)
  obtain ⟨d1, d2⟩ := abs_le.1 hδ'
  obtain ⟨e1, e2⟩ := abs_le.1 hη
  norm_num at d1 d2 e1 e2
  have xlo : 1 / 2 ^ 9 ≤ X * (1 + δ) := by
    have : X * (1 / 2) ≤ X * (1 + δ) := mul_le_mul_of_nonneg_left (by linarith) Xp.le
    norm_num at X0 ⊢; linarith
  have xhi : X * (1 + δ) ≤ 2 ^ 6 := by
    have : X * (1 + δ) ≤ X * 2 := mul_le_mul_of_nonneg_left (by linarith) Xp.le
    norm_num at X1 ⊢; linarith
  have hp := F.powf _ (1.6 : FP E) xf yf (by rw [ex]; refine le_trans ?_ xlo; exact one_div_le_one_div_of_le (by norm_num) (by norm_num))
    (by rw [ex]; exact xhi.trans (by norm_num)) (by rw [ey, abs_le]; constructor <;> linarith)
  rw [ex, ey] at hp
  have xpos : 0 < X * (1 + δ) := lt_of_lt_of_le (by norm_num) xlo
  -- the logarithms
  have hlog := abs_log_sub Xp (hδ'.trans (by norm_num))
  have hlX : |Real.log X| ≤ 8 := by
    have lg2 : Real.log 2 ≤ 1 := (Real.log_two_lt_d9.le).trans (by norm_num)
    rw [abs_le]
    constructor
    · have := Real.log_le_log (by norm_num) X0
      rw [one_div, Real.log_inv, Real.log_pow] at this
      push_cast at this
      linarith
    · have := Real.log_le_log Xp X1
      rw [Real.log_pow] at this
      push_cast at this
      linarith
  have hexp : |Real.log (X * (1 + δ)) * (8 / 5 * (1 + η)) - Real.log X * (8 / 5)| ≤ 1 / 2 ^ 45 := by
    have e : Real.log (X * (1 + δ)) * (8 / 5 * (1 + η)) - Real.log X * (8 / 5)
        = (Real.log (X * (1 + δ)) - Real.log X) * (8 / 5 * (1 + η)) + Real.log X * (8 / 5 * η) := by ring
    rw [e]
    refine (abs_add_le _ _).trans ?_
    rw [abs_mul, abs_mul]
    have a1 : |8 / 5 * (1 + η)| ≤ 2 := by rw [abs_le]; constructor <;> linarith
    have a2 : |8 / 5 * η| ≤ 2 / 2 ^ 50 := by rw [abs_le]; norm_num; constructor <;> linarith
    have b1 := mul_le_mul (hlog.trans (mul_le_mul_of_nonneg_left hδ' (by norm_num))) a1 (abs_nonneg _) (by norm_num)
    have b2 := mul_le_mul hlX a2 (abs_nonneg _) (by norm_num)
    norm_num at b1 b2 ⊢
    linarith
  have hC : egfCon r.toR = Real.exp (Real.log X * (8 / 5)) := by
    rw [egfCon, ← hX, Real.rpow_def_of_pos Xp]
  have hC' : (X * (1 + δ)) ^ (8 / 5 * (1 + η)) = Real.exp (Real.log (X * (1 + δ)) * (8 / 5 * (1 + η))) := by
    rw [Real.rpow_def_of_pos xpos]
  obtain ⟨c0, c1⟩ := egfCon_bounds h1 h2
  have hd := abs_exp_sub (hexp.trans (by norm_num))
  rw [← hC, ← hC'] at hd
  set C := egfCon r.toR
  set D := (X * (1 + δ)) ^ (8 / 5 * (1 + η))
  have hd' : |D - C| ≤ 1 / 2 ^ 36 := by
    refine hd.trans ?_
    have := mul_le_mul (mul_le_mul_of_nonneg_left hexp (by norm_num : (0 : ℝ) ≤ 2)) c1 c0.le (by norm_num)
    refine this.trans (by norm_num)
  have D1 : D ≤ 2 ^ 9 := by
    have := (abs_le.1 hd').2
    norm_num at this c1 ⊢; linarith
  refine ⟨hp.1, ?_⟩
  have h3 := hp.2
  have hm : D / 2 ^ 50 ≤ 1 / 2 ^ 41 := by norm_num at D1 ⊢; linarith
  change |FP.toR (E.powf _ (1.6 : FP E)) - C| ≤ _
  have := abs_sub_le (FP.toR (E := E) (E.powf (((3300.0 : FP E) - r) / (200.0 : FP E)) (1.6 : FP E))) D C
  refine this.trans ((add_le_add (h3.trans hm) hd').trans (by norm_num))

theorem egfBonus_bounds {r : ℝ} (h1 : -1000 ≤ r) : 0 < egfBonus r ∧ egfBonus r ≤ 9 := by
  refine ⟨Egf.egfBonus_pos r, ?_⟩
  unfold egfBonus
  have h : 1 + Real.exp ((2300 - r) / 80) ≤ Real.exp 45 := by
    have a : Real.exp ((2300 - r) / 80) ≤ Real.exp 44 := Real.exp_le_exp.2 (by linarith)
    have b : (45 : ℝ) ≤ Real.exp 44 := by have := Real.add_one_le_exp (44 : ℝ); linarith
    have c : Real.exp 45 = Real.exp 44 * Real.exp 1 := by rw [← Real.exp_add]; norm_num
    have d : (2 : ℝ) ≤ Real.exp 1 := by have := Real.add_one_le_exp (1 : ℝ); linarith
    rw [c]
    nlinarith
  have := Real.log_le_log (by positivity) h
  rw [Real.log_exp] at this
  linarith

theorem egf_bonus_near (A : E.Accurate) (F : E.Faithful) {r : FP E} (hr : r.isFinite) (h1 : -1000 ≤ r.toR)
    (h2 : r.toR ≤ 3299) : Near (1 / 2 ^ 40) (Egf.bonus r) (egfBonus r.toR) := by
  have l23 := egf_lit (E := E) (m := 23000) (v := 2300) (by norm_num) (by norm_num)
  have l80 := egf_lit (E := E) (m := 800) (v := 80) (by norm_num) (by norm_num)
  have l5 := egf_lit (E := E) (m := 50) (v := 5) (by norm_num) (by norm_num)
  push_cast at l23 l80 l5
  have hb : |2300 - r.toR| ≤ 3300 := by rw [abs_le]; constructor <;> linarith
  have s := near_sub l23 (near_self hr) (M := 2 ^ 12) (by generalize |2300 - r.toR| = z at *; norm_num; linarith)
    (by norm_num) (le_huge 12 (by norm_num) (by norm_num))
  have d := near_div_const s l80 (by norm_num) (M := 2 ^ 6) (by generalize |2300 - r.toR| = z at *; norm_num; linarith)
    (by norm_num) (le_huge 6 (by norm_num) (by norm_num))
  set T := (2300 - r.toR) / 80 with hT
  have T0 : -13 ≤ T := by rw [hT]; linarith
  have T1 : T ≤ 42 := by rw [hT]; linarith
  have ht := exp_ap A (d.mono (δ := 2 ^ 7 / 2 ^ 50) (by norm_num)) (by rw [abs_le]; constructor <;> linarith) (by norm_num)
  obtain ⟨⟨xf, δ, hδ, ex⟩, -⟩ := ht
  have hδ' : |δ| ≤ 1 / 2 ^ 41 := hδ.trans (by norm_num)
  have Y0 := Real.exp_pos T
  have Yr := Glicko2.exp_range (x := T) (by rw [abs_le]; constructor <;> linarith)
  have Ylo : 1 / 2 ^ 20 ≤ Real.exp T := by
    have : Real.exp (-13) ≤ Real.exp T := Real.exp_le_exp.2 T0
    refine le_trans ?_ this
    rw [Real.exp_neg, ← one_div]
    refine one_div_le_one_div_of_le (Real.exp_pos _) ?_
    rw [show (13 : ℝ) = ((13 : ℕ) : ℝ) * 1 by norm_num, Real.exp_nat_mul]
    calc Real.exp 1 ^ 13 ≤ (2.7182818286 : ℝ) ^ 13 := pow_le_pow_left₀ (Real.exp_pos 1).le Real.exp_one_lt_d9.le _
      _ ≤ 2 ^ 20 := by norm_num
  obtain ⟨d1, d2⟩ := abs_le.1 hδ'
  norm_num at d1 d2
  set Y := Real.exp T with hY
  have y1 : Y * (1 / 2) ≤ Y * (1 + δ) := mul_le_mul_of_nonneg_left (by linarith) Y0.le
  have y2 : Y * (1 + δ) ≤ Y * 2 := mul_le_mul_of_nonneg_left (by linarith) Y0.le
  have hl := F.ln1p _ xf (by
      rw [ex]
      refine le_trans ?_ y1
      refine le_trans ?_ (mul_le_mul_of_nonneg_right Ylo (by norm_num))
      norm_num) (by
      rw [ex]
      refine y2.trans ?_
      calc Y * 2 ≤ 2 ^ 128 * 2 := mul_le_mul_of_nonneg_right Yr.2 (by norm_num)
        _ = 2 ^ 129 := by ring
        _ ≤ 2 ^ 900 := pow_le_pow_right₀ (by norm_num) (by norm_num))
  rw [ex] at hl
  -- `1 + Y (1 + δ) = (1 + Y) (1 + δ')`
  have e1 : 1 + Y * (1 + δ) = (1 + Y) * (1 + Y * δ / (1 + Y)) := by field_simp; ring
  have hδ2 : |Y * δ / (1 + Y)| ≤ 1 / 2 ^ 41 := by
    rw [abs_div, abs_mul, abs_of_pos Y0, abs_of_pos (by linarith : 0 < 1 + Y), div_le_iff₀ (by linarith)]
    have := mul_le_mul_of_nonneg_left hδ' Y0.le
    linarith
  have hlog := abs_log_sub (a := 1 + Y) (by linarith) (hδ2.trans (by norm_num))
  rw [← e1] at hlog
  have hB := egfBonus_bounds h1
  have eB : egfBonus r.toR = Real.log (1 + Y) / 5 := by rw [egfBonus]
  rw [eB] at hB ⊢
  set Z := Real.log (1 + Y) with hZ
  set W := Real.log (1 + Y * (1 + δ)) with hW
  have hWZ : |W - Z| ≤ 1 / 2 ^ 40 := by
    refine hlog.trans ((mul_le_mul_of_nonneg_left hδ2 (by norm_num)).trans (by norm_num))
  have W1 : W / 2 ^ 50 ≤ 1 / 2 ^ 44 := by
    have := (abs_le.1 hWZ).2
    norm_num at this ⊢; linarith [hB.2]
  have hln : Near (1 / 2 ^ 40 + 1 / 2 ^ 44) (Flt.ln1p (Flt.exp (((2300.0 : FP E) - r) / (80.0 : FP E)))) Z := by
    refine ⟨hl.1, ?_⟩
    have := abs_sub_le (FP.toR (E := E) (E.ln1p (Flt.exp (F := FP E) (((2300.0 : FP E) - r) / (80.0 : FP E))))) W Z
    exact this.trans (by have := hl.2.trans W1; linarith)
  have Z0 : |Z| ≤ 45 := by rw [abs_le]; constructor <;> linarith [hB.1, hB.2]
  refine (near_div_const hln l5 (by norm_num) (M := 16) (by generalize |Z| = z at *; norm_num; linarith) (by norm_num)
    (le_huge 4 (by norm_num) (by norm_num))).mono (by norm_num)

theorem egfBeta_bounds {s : ℝ} (h1 : -1100 ≤ s) (h2 : s ≤ 3299) : |egfBeta s| ≤ 64 := by
  unfold egfBeta
  have h : Real.log (3300 - s) ≤ 9 + 1 / 7 := by
    rw [Real.log_le_iff_le_exp (by linarith)]
    have a : (4400 : ℝ) ≤ Real.exp 9 * Real.exp (1 / 7) := by
      have b : (8103 : ℝ) ≤ Real.exp 9 := by
        rw [show (9 : ℝ) = ((9 : ℕ) : ℝ) * 1 by norm_num, Real.exp_nat_mul]
        calc (8103 : ℝ) ≤ (2.7182818283 : ℝ) ^ 9 := by norm_num
          _ ≤ Real.exp 1 ^ 9 := pow_le_pow_left₀ (by norm_num) Real.exp_one_gt_d9.le _
      have c : (1 : ℝ) ≤ Real.exp (1 / 7) := Real.one_le_exp (by norm_num)
      nlinarith
    rw [Real.exp_add]
    linarith
  have h0 : 0 ≤ Real.log (3300 - s) := Real.log_nonneg (by linarith)
  rw [abs_le]
  constructor <;> linarith

/-- `beta` for a number of stones. -/
theorem egf_beta_near (W : E.LogWide) {r h : FP E} (hr : r.isFinite) (h1 : -1000 ≤ r.toR) (hh : h.isFinite)
    (hh0 : 0 ≤ h.toR) (hh1 : h.toR ≤ 64) (hs : r.toR + egfStones h.toR ≤ 3200) :
    Near (1 / 2 ^ 36) (Egf.beta r h) (egfBeta (r.toR + egfStones h.toR)) := by
  have l33 := egf_lit (E := E) (m := 33000) (v := 3300) (by norm_num) (by norm_num)
  have l100 := egf_lit (E := E) (m := 1000) (v := 100) (by norm_num) (by norm_num)
  have l7 := egf_lit (E := E) (m := 70) (v := 7) (by norm_num) (by norm_num)
  have l0 : Near 0 (0.0 : FP E) 0 := lit_exact (by norm_num) SRep.zero
  have l05 : Near 0 (0.5 : FP E) (1 / 2) := lit_exact (by norm_num) (by
    have := srep_half (k := 1) (by norm_num)
    simpa using this)
  push_cast at l33 l100 l7
  have hstones : Near (1 / 2 ^ 36) (if (h ==? 0.0) = true then (0.0 : FP E) else 100.0 * (h - 0.5)) (egfStones h.toR) ∧
      |egfStones h.toR| ≤ 6400 := by
    have hc : (h ==? (0.0 : FP E)) = true ↔ h.toR = 0 := by rw [feq_iff_toR hh l0.1, l0.eq]
    unfold egfStones
    by_cases hz : h.toR = 0
    · rw [if_pos (hc.2 hz), if_pos hz]
      exact ⟨l0.mono (by norm_num), by norm_num⟩
    · rw [if_neg (fun e => hz (hc.1 e)), if_neg hz]
      have hb : |h.toR - 1 / 2| ≤ 64 := by rw [abs_le]; constructor <;> linarith
      have s := near_sub (near_self hh) l05 (M := 2 ^ 7) (by generalize |h.toR - 1 / 2| = z at *; norm_num; linarith)
        (by norm_num) (le_huge 7 (by norm_num) (by norm_num))
      generalize h.toR - 1 / 2 = z at *
      have hz : |100 * z| ≤ 6400 := by rw [abs_mul]; norm_num; linarith
      refine ⟨(near_mul l100 s (M := 2 ^ 13) ?_ (by norm_num) (le_huge 13 (by norm_num) (by norm_num))).mono ?_, hz⟩
      · generalize |100 * z| = q at *
        norm_num
        linarith
      · norm_num
  obtain ⟨n1, b1⟩ := hstones
  have hrange : -50 ≤ egfStones h.toR := by
    unfold egfStones
    split_ifs <;> linarith
  set S := egfStones h.toR with hS
  generalize hst : (if (h ==? 0.0) = true then (0.0 : FP E) else 100.0 * (h - 0.5)) = st at n1
  obtain ⟨b2, b3⟩ := abs_le.1 b1
  have hr2 : r.toR ≤ 3250 := by linarith
  have g1 := near_sub l33 n1 (M := 2 ^ 14) (by
      have : |3300 - S| ≤ 9700 := by rw [abs_le]; constructor <;> linarith
      generalize |3300 - S| = z at *; norm_num; linarith) (by norm_num) (le_huge 14 (by norm_num) (by norm_num))
  have g2 := (near_sub g1 (near_self hr) (M := 2 ^ 14) (by
      have : |3300 - S - r.toR| ≤ 9700 := by rw [abs_le]; constructor <;> linarith
      generalize |3300 - S - r.toR| = z at *; norm_num; linarith) (by norm_num) (le_huge 14 (by norm_num) (by norm_num))).mono
      (δ := 1 / 2 ^ 35) (by norm_num)
  have hV : 100 ≤ 3300 - S - r.toR := by linarith
  have hV' : 3300 - S - r.toR ≤ 9700 := by linarith
  have hb := egfBeta_bounds (s := r.toR + S) (by linarith) (by linarith)
  have eV : egfBeta (r.toR + S) = -7 * Real.log (3300 - S - r.toR) := by
    rw [egfBeta, show 3300 - (r.toR + S) = 3300 - S - r.toR by ring]
  rw [eV] at hb ⊢
  generalize 3300 - S - r.toR = V at *
  have hR : Rel (2 ^ 9) (3300.0 - st - r) V := by
    refine Rel.of_near (by linarith) (g2.mono ?_)
    norm_num
    linarith
  obtain ⟨xf, δ, hδ, ex⟩ := hR
  have hδ' : |δ| ≤ 1 / 2 ^ 41 := hδ.trans (by norm_num)
  obtain ⟨d1, d2⟩ := abs_le.1 hδ'
  norm_num at d1 d2
  have Vp : 0 < V := by linarith
  have y1 : V * (1 / 2) ≤ V * (1 + δ) := mul_le_mul_of_nonneg_left (by linarith) Vp.le
  have y2 : V * (1 + δ) ≤ V * 2 := mul_le_mul_of_nonneg_left (by linarith) Vp.le
  have hl := W.ln _ xf (by
      rw [ex]
      refine le_trans ?_ y1
      norm_num
      linarith) (by
      rw [ex]
      refine y2.trans ?_
      norm_num
      linarith)
  rw [ex] at hl
  have hlog := abs_log_sub Vp (hδ'.trans (by norm_num))
  have hln : Near (1 / 2 ^ 39) (Flt.ln (3300.0 - st - r)) (Real.log V) := by
    refine ⟨hl.1, ?_⟩
    have := abs_sub_le (FP.toR (E := E) (E.ln (3300.0 - st - r))) (Real.log (V * (1 + δ))) (Real.log V)
    refine this.trans ?_
    have h3 := hl.2
    have h4 := hlog.trans (mul_le_mul_of_nonneg_left hδ' (by norm_num))
    norm_num at h3 h4 ⊢
    linarith
  have e : Egf.beta r h = -(7.0 : FP E) * Flt.ln (3300.0 - st - r) := by rw [← hst]; rfl
  rw [e]
  have hL : |Real.log V| ≤ 10 := by
    rw [abs_mul] at hb
    norm_num at hb
    linarith
  refine (near_mul l7.neg hln (M := 2 ^ 7) ?_ (by norm_num) (le_huge 7 (by norm_num) (by norm_num))).mono ?_
  · generalize Real.log V = q at *
    norm_num at hb ⊢
    linarith
  · norm_num

end Skillratings
