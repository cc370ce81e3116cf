import Verif.Proofs.FPGlickoAccuracy
import Verif.Proofs.WengLin
import Verif.Props.FloatWengLin
/-
C123 for Weng-Lin: double precision stays close to exact arithmetic.
-/

namespace Skillratings
open FP FPVal Spec
variable {E : FloatEnv}

namespace FP
variable {x y z : FP E} {a b c k l m : ℝ} {n n' : ℕ}

theorem Ap.mulAdd (hx : Ap k n x a) (hy : Ap l n' y b) (hz : Ap m (n + n') z c) (hk : k ≤ 2 ^ 22)
    (hl : l ≤ 2 ^ 22) (hm : m ≤ k + l + 1 / 4) (hn : n + n' + 1 ≤ 900) :
    Ap (k + l + 1) (n + n' + 1) (Flt.mulAdd x y z) (a * b + c) :=
  have h := ((hx.2.mul hy.2).add hz.2).mono hn
  ⟨rel_mulAdd hx.1 hy.1 hz.1 hx.2.pos hy.2.pos hz.2.pos hk hl hm h.1 h.2, (hx.2.mul hy.2).add hz.2⟩

theorem Spec.Between.ap' {n : ℕ} {x : FP E} (h : Between (1 / 2 ^ n) (2 ^ n) x) : Ap 0 n x x.toR :=
  ⟨Rel.exact h.1, h.2.1, h.2.2⟩

theorem near_max {ε : ℝ} (hx : Near ε x a) (hy : y.isFinite) : Near ε (Flt.fmax x y) (max a y.toR) := by
  have h : Flt.fmax x y = if (x <? y) = true then y else x := by
    have hx' := hx.1
    change FPVal.max x y = if FPVal.lt x y = true then y else x
    cases x with
    | nan => exact hx'.elim
    | inf => exact hx'.elim
    | fin s m =>
      cases y with
      | nan => exact hy.elim
      | inf => exact hy.elim
      | fin t n => rfl
  rw [h]
  have hε : 0 ≤ ε := (abs_nonneg _).trans hx.2
  have h2 := abs_le.1 hx.2
  by_cases hc : (x <? y) = true
  · rw [if_pos hc]
    rw [lt_iff_toR hx.1 hy] at hc
    refine ⟨hy, abs_le.2 ?_⟩
    rcases le_total a y.toR with h3 | h3
    · rw [max_eq_right h3]; constructor <;> linarith
    · rw [max_eq_left h3]; constructor <;> linarith [h2.1, h2.2]
  · rw [if_neg hc]
    rw [lt_iff_toR hx.1 hy, not_lt] at hc
    refine ⟨hx.1, abs_le.2 ?_⟩
    rcases le_total a y.toR with h3 | h3
    · rw [max_eq_right h3]; constructor <;> linarith [h2.1, h2.2]
    · rw [max_eq_left h3]; exact h2

/-- A number over an approximated one. -/
theorem near_quotient {r : FP E} {C M : ℝ} (hr : r.isFinite) (hc : Rel k y C) (hC : 0 < C)
    (hM : |r.toR| / C ≤ M) (h1 : 1 ≤ M) (h2 : M ≤ 2 ^ 20) (hk : k ≤ 2 ^ 10) :
    Near (M * (k + 2) / 2 ^ 50) (r / y) (r.toR / C) := by
  have k0 := hc.nonneg
  have hpos := hc.pos (by norm_num at hk ⊢; linarith) hC
  obtain ⟨fy, β, hβ, ey⟩ := hc
  obtain ⟨s, e⟩ := div_fin hr fy hpos.1.ne'
  have hb := abs_le.1 (hβ.trans (show k / 2 ^ 50 ≤ 1 / 2 ^ 40 by norm_num at hk ⊢; linarith))
  have hb0 : 0 < 1 + β := by norm_num at hb ⊢; linarith [hb.1]
  have hv : |r.toR / y.toR - r.toR / C| ≤ M * (k + 1) / 2 ^ 50 := by
    have e1 : r.toR / y.toR - r.toR / C = r.toR / C * (-β / (1 + β)) := by
      rw [ey]; field_simp; ring
    rw [e1, abs_mul, abs_div, abs_of_pos hC]
    have : |-β / (1 + β)| ≤ (k + 1) / 2 ^ 50 := by
      rw [abs_div, abs_neg, abs_of_pos hb0, div_le_iff₀ hb0]
      have h3 : (k + 1) / 2 ^ 50 * (1 - 1 / 2 ^ 40) ≤ (k + 1) / 2 ^ 50 * (1 + β) :=
        mul_le_mul_of_nonneg_left (by linarith [hb.1]) (by positivity)
      refine hβ.trans (le_trans ?_ h3)
      norm_num at hk ⊢; linarith
    calc _ ≤ M * ((k + 1) / 2 ^ 50) := mul_le_mul hM this (abs_nonneg _) (by linarith)
      _ = _ := by ring
  have hb2 : M * (k + 1) / 2 ^ 50 ≤ M := by
    rw [div_le_iff₀ (by positivity)]
    refine mul_le_mul_of_nonneg_left ?_ (by linarith)
    norm_num at hk ⊢; linarith
  refine (Near.trans (round_abs s (M := 2 * M) ?_ (by linarith)
    (le_huge 21 (by norm_num at h2 ⊢; linarith) (by norm_num))) hv e).mono (le_of_eq (by ring))
  rw [show r.toR / y.toR = r.toR / C + (r.toR / y.toR - r.toR / C) by ring]
  refine (abs_add_le _ _).trans ?_
  rw [abs_div, abs_of_pos hC]
  linarith

/-- The exponential of an approximated number. -/
theorem exp_ap (A : E.Accurate) {t : FP E} {T τ : ℝ} (ht : Near (τ / 2 ^ 50) t T) (hT : |T| ≤ 200)
    (hτ : τ ≤ 2 ^ 20) : Ap (2 * τ + 2) 300 (Flt.exp t) (Real.exp T) := by
  have hτ0 : 0 ≤ τ := by
    have := (abs_nonneg _).trans ht.2
    by_contra h
    have : τ / 2 ^ 50 < 0 := div_neg_of_neg_of_pos (not_le.1 h) (by positivity)
    linarith
  have hd := ht.2
  have hτ' : τ / 2 ^ 50 ≤ 1 / 2 ^ 30 := by norm_num at hτ ⊢; linarith
  have h := A.exp t ht.1 (by
    have := ht.abs_le
    norm_num at hτ' ⊢; linarith)
  set d := t.toR - T with hdd
  have e1 : Real.exp t.toR = Real.exp T * Real.exp d := by
    rw [← Real.exp_add, hdd]; congr 1; ring
  have h3 : |Real.exp d - 1| ≤ 2 * |d| := by
    have := Real.abs_exp_sub_one_le (x := d) (by norm_num at hτ' ⊢; linarith)
    exact this
  have hm : Mid 300 (Real.exp T) := by
    have key : ∀ y : ℝ, y ≤ 200 → Real.exp y ≤ 2 ^ 300 := by
      intro y hy
      have h2 : (2 : ℝ) ^ 300 = Real.exp (300 * Real.log 2) := by
        rw [show (300 : ℝ) = ((300 : ℕ) : ℝ) by norm_num, Real.exp_nat_mul, Real.exp_log (by norm_num)]
      rw [h2]
      exact Real.exp_le_exp.2 (by have := Real.log_two_gt_d9; linarith)
    refine ⟨?_, key T (le_of_abs_le hT)⟩
    have := key (-T) (by have := neg_le_of_abs_le hT; linarith)
    rw [div_le_iff₀ (by positivity)]
    have h4 := mul_le_mul_of_nonneg_left this (Real.exp_pos T).le
    rwa [← Real.exp_add, add_neg_cancel, Real.exp_zero] at h4
  refine ⟨Rel.of_near hm.pos ⟨h.1, ?_⟩, hm⟩
  have h5 := h.2
  have hp := hm.pos
  have e2 : (Flt.exp t).toR - Real.exp T
      = ((Flt.exp t).toR - Real.exp t.toR) + Real.exp T * (Real.exp d - 1) := by rw [e1]; ring
  rw [e2]
  refine (abs_add_le _ _).trans ?_
  rw [abs_mul, abs_of_pos hp]
  have h6 : Real.exp t.toR ≤ Real.exp T * 2 := by
    rw [e1]
    refine mul_le_mul_of_nonneg_left ?_ hp.le
    have := (abs_le.1 h3).2
    norm_num at hτ' ⊢
    linarith
  have h7 : Real.exp T * |Real.exp d - 1| ≤ Real.exp T * (2 * (τ / 2 ^ 50)) :=
    mul_le_mul_of_nonneg_left (h3.trans (by linarith)) hp.le
  change |(E.exp t).toR - Real.exp t.toR| + _ ≤ _
  calc _ ≤ Real.exp t.toR / 2 ^ 50 + Real.exp T * (2 * (τ / 2 ^ 50)) := add_le_add h5 h7
    _ ≤ Real.exp T * 2 / 2 ^ 50 + Real.exp T * (2 * (τ / 2 ^ 50)) := by gcongr
    _ = _ := by ring

end FP

/-- The same player in exact arithmetic. -/
noncomputable def wlExact (a : WengLin.WengLinRating (FP E)) : WengLin.WengLinRating ℝ :=
  ⟨a.rating.toR, a.uncertainty.toR⟩

/-- The same configuration in exact arithmetic. -/
noncomputable def wlConfigExact (c : WengLin.WengLinConfig (FP E)) : WengLin.WengLinConfig ℝ :=
  ⟨c.beta.toR, c.uncertaintyTolerance.toR⟩

/-- A player whose uncertainty is between `2 ^ -20` and `2 ^ 20` and whose rating is at most 250 times
`beta`, for a `beta` between `2 ^ -20` and `2 ^ 20` and a tolerance between -1 and 1. -/
def WlUsual (c : WengLin.WengLinConfig (FP E)) (a : WengLin.WengLinRating (FP E)) : Prop :=
  a.rating.isFinite ∧ |a.rating.toR| ≤ 250 * c.beta.toR ∧ Between (1 / 2 ^ 20) (2 ^ 20) a.uncertainty

def WlUsualConfig (c : WengLin.WengLinConfig (FP E)) : Prop :=
  Between (1 / 2 ^ 20) (2 ^ 20) c.beta ∧ Within 1 c.uncertaintyTolerance

theorem wl_c_ap (L : E.Lib) {c : WengLin.WengLinConfig (FP E)} {a b : WengLin.WengLinRating (FP E)}
    (hc : WlUsualConfig c) (ha : WlUsual c a) (hb : WlUsual c b) :
    let C := wlC c.beta.toR (a.uncertainty.toR ^ 2) (b.uncertainty.toR ^ 2)
    Ap 4 50 (Flt.sqrt (Flt.mulAdd (2.0 : FP E) (Flt.powi c.beta 2)
      (Flt.mulAdd a.uncertainty a.uncertainty (Flt.powi b.uncertainty 2)))) C ∧
    a.uncertainty.toR ≤ C ∧ b.uncertainty.toR ≤ C ∧ |a.rating.toR| / C ≤ 180 ∧ |b.rating.toR| / C ≤ 180 := by
  intro C
  have hβ := FP.Spec.Between.ap' hc.1
  have hσ := FP.Spec.Between.ap' ha.2.2
  have hτ := FP.Spec.Between.ap' hb.2.2
  have h2 : Ap 0 1 (2.0 : FP E) 2 := ⟨lit_rel (lit_in (E := E) (m := 20) (s := true) (e := 1) (v := 2)
    (by norm_num) (SRep.ofNat 2 (by norm_num))), by norm_num, by norm_num⟩
  have s1 := (hσ.mono (k' := 1) (by norm_num) le_rfl).mulAdd hσ (hτ.sq L (by norm_num) (by norm_num))
    (by norm_num) (by norm_num) (by norm_num) (by norm_num)
  have s2 := h2.mulAdd ((hβ.sq L (by norm_num) (by norm_num)).mono (k' := 2) (n' := 40) (by norm_num) (by norm_num))
    (s1.mono (k' := 2) (n' := 41) (by norm_num) (by norm_num)) (by norm_num) (by norm_num) (by norm_num) (by norm_num)
  have s3 := s2.sqrt (by norm_num) (by norm_num)
  have e : C = √(2 * c.beta.toR ^ 2 + (a.uncertainty.toR * a.uncertainty.toR + b.uncertainty.toR ^ 2)) := by
    change √_ = √_
    congr 1; ring
  have hβ0 := hβ.2.pos
  have hC0 : 0 < C := by rw [e]; exact s3.2.pos
  have hC2 : C ^ 2 = a.uncertainty.toR ^ 2 + b.uncertainty.toR ^ 2 + 2 * c.beta.toR ^ 2 :=
    Real.sq_sqrt (by positivity)
  have hCβ : 7 / 5 * c.beta.toR ≤ C := by
    by_contra h
    nlinarith [_root_.sq_nonneg a.uncertainty.toR, _root_.sq_nonneg b.uncertainty.toR]
  refine ⟨by rw [e]; exact s3.mono (by norm_num) (by norm_num), ?_, ?_, ?_, ?_⟩
  · by_contra h
    nlinarith [_root_.sq_nonneg b.uncertainty.toR]
  · by_contra h
    nlinarith [_root_.sq_nonneg a.uncertainty.toR]
  · rw [div_le_iff₀ hC0]; linarith [ha.2.1]
  · rw [div_le_iff₀ hC0]; linarith [hb.2.1]

theorem wl_p_near (A : E.Accurate) {r s c : FP E} {C : ℝ} (hr : r.isFinite) (hs : s.isFinite)
    (hc : Ap 4 50 c C) (h1 : |r.toR| / C ≤ 180) (h2 : |s.toR| / C ≤ 180) :
    Near (4330 / 2 ^ 50) (WengLin.pValue r s c).1 (wlP C r.toR s.toR) ∧
    Near (4331 / 2 ^ 50) (WengLin.pValue r s c).2 (1 - wlP C r.toR s.toR) := by
  have hC := hc.2.pos
  have bound : ∀ x : ℝ, |x| / C ≤ 180 → |x / C| ≤ 200 := by
    intro x hx; rw [abs_div, abs_of_pos hC]; linarith
  have t1 := near_quotient hr hc.1 hC h1 (by norm_num) (by norm_num) (by norm_num)
  have t2 := near_quotient hs hc.1 hC h2 (by norm_num) (by norm_num) (by norm_num)
  have e1 := exp_ap A t1 (bound _ h1) (by norm_num)
  have e2 := exp_ap A t2 (bound _ h2) (by norm_num)
  have p := e1.div (e1.add e2 (by norm_num) (by norm_num)) (by norm_num) (by norm_num) (by norm_num)
  have h01 : 0 ≤ wlP C r.toR s.toR ∧ wlP C r.toR s.toR ≤ 1 :=
    ⟨(WengLin.wlP_pos _ _ _).le, (WengLin.wlP_lt_one _ _ _).le⟩
  have n1 : Near (4330 / 2 ^ 50) (WengLin.pValue r s c).1 (wlP C r.toR s.toR) := by
    refine (p.1.near p.2.pos.le).mono ?_
    refine (mul_le_of_le_one_right (by positivity) h01.2).trans (by norm_num)
  refine ⟨n1, ?_⟩
  refine (near_sub (near_of_in one_in) n1 (M := 1 + 1 / 2 ^ 20) ?_ (by norm_num) ?_).mono (by norm_num)
  · rw [abs_of_nonneg (by linarith [h01.2])]; norm_num; linarith [h01.1]
  · exact le_huge 1 (by norm_num) (by norm_num)

theorem wl_half (L : E.Lib) {r σ c p s tol : FP E} {C P v : ℝ} (hr : r.isFinite)
    (hσ : Between (1 / 2 ^ 20) (2 ^ 20) σ) (hc : Ap 4 50 c C) (hσC : σ.toR ≤ C)
    (hr1 : |r.toR| ≤ 2 ^ 30) (hp : Near (4331 / 2 ^ 50) p P) (hP : 0 ≤ P ∧ P ≤ 1) (hs : Near 0 s v)
    (hv : 0 ≤ v ∧ v ≤ 1) (ht : Within 1 tol) :
    Near ((|r.toR| + σ.toR) / 2 ^ 37) (WengLin.newRating r σ c p s) (r.toR + σ.toR ^ 2 / C * (v - P)) ∧
    Near (σ.toR / 2 ^ 36) (WengLin.newUncertainty σ c p tol)
      √(σ.toR ^ 2 * max (1 - (σ.toR / C) ^ 3 * P * (1 - P)) tol.toR) := by
  have hσ' := FP.Spec.Between.ap' hσ
  have hσ0 := hσ'.2.pos
  have hC := hc.2.pos
  have p900 : (1 : ℝ) / 2 ^ 900 ≤ 1 / 2 ^ 20 :=
    one_div_le_one_div_of_le (by positivity) (pow_le_pow_right₀ (by norm_num) (by norm_num))
  have q900 : (2 : ℝ) ^ 40 ≤ 2 ^ 900 := pow_le_pow_right₀ (by norm_num) (by norm_num)
  have σ1 := hσ.2.1
  have σ2 := hσ.2.2
  refine ⟨?_, ?_⟩
  · have k := (hσ'.sq L (by norm_num) (by norm_num)).div hc (by norm_num) (by norm_num) (by norm_num)
    have hS : σ.toR ^ 2 / C ≤ σ.toR := by
      rw [div_le_iff₀ hC]; nlinarith
    set S := σ.toR ^ 2 / C with hSd
    have S0 : 0 < S := k.2.pos
    have k1 : Near (S * (6 / 2 ^ 50)) (Flt.powi σ 2 / c) S := (k.1.near S0.le).mono (by
      rw [mul_comm S]; gcongr; norm_num)
    have hvp : |v - P| ≤ 1 := by rw [abs_le]; constructor <;> linarith [hv.1, hv.2, hP.1, hP.2]
    have d1 := (near_sub hs hp (M := 1 + 1 / 2 ^ 20) (by norm_num at hvp ⊢; linarith) (by norm_num)
      (le_huge 1 (by norm_num) (by norm_num))).mono (δ := 4332 / 2 ^ 50) (by norm_num)
    have hSD : |S * (v - P)| ≤ S := by
      rw [abs_mul, abs_of_pos S0]; exact mul_le_of_le_one_right S0.le hvp
    have hsum := abs_add_le (S * (v - P)) r.toR
    have b1 : S * (6 / 2 ^ 50) * |v - P| ≤ S * (6 / 2 ^ 50) := mul_le_of_le_one_right (by positivity) hvp
    have hr0 := abs_nonneg r.toR
    rw [add_comm r.toR]
    refine (small_mulAdd k1 d1 (near_self hr) (M := 2 * (|r.toR| + σ.toR)) ?_ ?_ ?_).mono ?_
    · rw [abs_of_pos S0]
      norm_num at b1 ⊢
      linarith
    · exact p900.trans (by norm_num at σ1 ⊢; linarith)
    · refine le_trans ?_ q900
      norm_num at hr1 σ2 ⊢; linarith
    · rw [abs_of_pos S0]
      norm_num at b1 ⊢
      linarith
  · have k := hσ'.div hc (by norm_num) (by norm_num) (by norm_num)
    have k2 := k.mul (k.mul k (by norm_num) (by norm_num) (by norm_num)) (by norm_num) (by norm_num) (by norm_num)
    set x := σ.toR / C with hx
    have x0 : 0 < x := k.2.pos
    have x1 : x ≤ 1 := by rw [hx, div_le_one hC]; exact hσC
    have e3 : Flt.powi (σ / c) 3 = σ / c * (σ / c * (σ / c)) := L.powi_three _
    rw [show x * (x * x) = x ^ 3 by ring, ← e3] at k2
    have w := variance_near (k := 64) (k2.1.mono (by norm_num)) le_rfl k2.2.pos (pow_le_one₀ x0.le x1)
      (by norm_num) le_rfl hp (by norm_num) hP
    have hη : 0 ≤ x ^ 3 * P * (1 - P) ∧ x ^ 3 * P * (1 - P) ≤ 1 / 4 := by
      have h1 : 0 ≤ P * (1 - P) := mul_nonneg hP.1 (by linarith [hP.2])
      have h2 : P * (1 - P) ≤ 1 / 4 := by nlinarith [_root_.sq_nonneg (P - 1 / 2)]
      have h3 : x ^ 3 ≤ 1 := pow_le_one₀ x0.le x1
      have h4 : 0 ≤ x ^ 3 := by positivity
      rw [mul_assoc]
      exact ⟨mul_nonneg h4 h1, by nlinarith⟩
    have w2 := (near_sub (near_of_in one_in) w (M := 1 + 1 / 2 ^ 20) (by
      rw [abs_of_nonneg (by linarith [hη.2])]; norm_num; linarith [hη.1]) (by norm_num)
      (le_huge 1 (by norm_num) (by norm_num))).mono (δ := 8930 / 2 ^ 50) (by norm_num)
    have w3 := near_max w2 ht.1
    set X := max (1 - x ^ 3 * P * (1 - P)) tol.toR with hX
    have X0 : 3 / 4 ≤ X := le_trans (by linarith [hη.2]) (le_max_left _ _)
    have X1 : X ≤ 1 := max_le (by linarith [hη.1]) (le_of_abs_le ht.2)
    have w4 : Ap 11910 1 (Flt.fmax ((1.0 : FP E) - Flt.powi (σ / c) 3 * p * ((1.0 : FP E) - p)) tol) X := by
      refine ⟨Rel.of_near (by linarith) (w3.mono ?_), by norm_num; linarith, by norm_num; linarith⟩
      norm_num; linarith
    have w5 := ((hσ'.sq L (by norm_num) (by norm_num)).mul w4 (by norm_num) (by norm_num) (by norm_num)).sqrt
      (by norm_num) (by norm_num)
    refine (w5.1.near (Real.sqrt_nonneg _)).mono ?_
    have hle : √(σ.toR ^ 2 * X) ≤ σ.toR := by
      rw [Real.sqrt_le_iff]
      exact ⟨hσ0.le, mul_le_of_le_one_right (by positivity) X1⟩
    refine (mul_le_mul_of_nonneg_left hle (by norm_num)).trans ?_
    norm_num; linarith

/-- Weng-Lin, one game: a new rating is within `(|rating| + uncertainty) / 2 ^ 37` and a new
uncertainty within `uncertainty / 2 ^ 36` of the exact formulas applied to the same players. -/
theorem C123_wengLin_game (L : E.Lib) (A : E.Accurate) (a b : WengLin.WengLinRating (FP E)) (o : Outcomes)
    (c : WengLin.WengLinConfig (FP E)) (hc : WlUsualConfig c) (ha : WlUsual c a) (hb : WlUsual c b) :
    let x := WengLin.wengLin a b o c
    let y := WengLin.wengLin (wlExact a) (wlExact b) o (wlConfigExact c)
    (Near ((|a.rating.toR| + a.uncertainty.toR) / 2 ^ 37) x.1.rating y.1.rating ∧
      Near (a.uncertainty.toR / 2 ^ 36) x.1.uncertainty y.1.uncertainty) ∧
    (Near ((|b.rating.toR| + b.uncertainty.toR) / 2 ^ 37) x.2.rating y.2.rating ∧
      Near (b.uncertainty.toR / 2 ^ 36) x.2.uncertainty y.2.uncertainty) := by
  intro x y
  have ey : y = _ := WengLin.wengLin_real _ _ _ _
  rw [ey]
  obtain ⟨h1, h2, h3, h4, h5⟩ := wl_c_ap L hc ha hb
  obtain ⟨p1, p2⟩ := wl_p_near A ha.1 hb.1 h1 h4 h5
  have hs1 := near_of_in (points_in (E := E) o)
  have hs2 := near_of_in (points_in' (E := E) o)
  rw [pointsR_eq] at hs1 hs2
  have h01 := fun (C x y : ℝ) => (⟨(WengLin.wlP_pos C x y).le, (WengLin.wlP_lt_one C x y).le⟩ :
    0 ≤ wlP C x y ∧ wlP C x y ≤ 1)
  have big : ∀ d : WengLin.WengLinRating (FP E), WlUsual c d → |d.rating.toR| ≤ 2 ^ 30 := by
    intro d hd
    have := hc.1.2.2
    refine hd.2.1.trans ?_
    norm_num at this ⊢; linarith
  refine ⟨wl_half L ha.1 ha.2.2 h1 h2 (big a ha) (p1.mono (by norm_num)) (h01 _ _ _) hs1
    ⟨points_nonneg o, points_le_one o⟩ hc.2,
    wl_half L hb.1 hb.2.2 h1 h3 (big b hb) p2 ?_ hs2
    ⟨by linarith [points_le_one o], by linarith [points_nonneg o]⟩ hc.2⟩
  have := h01 (wlC c.beta.toR (a.uncertainty.toR ^ 2) (b.uncertainty.toR ^ 2)) a.rating.toR b.rating.toR
  exact ⟨sub_nonneg.2 this.2, sub_le_self _ this.1⟩

/-- Weng-Lin, expected scores: within `2 ^ -37` of the exact formula. -/
theorem C123_wengLin_expected (L : E.Lib) (A : E.Accurate) (a b : WengLin.WengLinRating (FP E))
    (c : WengLin.WengLinConfig (FP E)) (hc : WlUsualConfig c) (ha : WlUsual c a) (hb : WlUsual c b) :
    Near (1 / 2 ^ 37) (WengLin.expectedScore a b c).1
      (WengLin.expectedScore (wlExact a) (wlExact b) (wlConfigExact c)).1 ∧
    Near (1 / 2 ^ 37) (WengLin.expectedScore a b c).2
      (WengLin.expectedScore (wlExact a) (wlExact b) (wlConfigExact c)).2 := by
  obtain ⟨h1, h2, h3, h4, h5⟩ := wl_c_ap L hc ha hb
  obtain ⟨p1, p2⟩ := wl_p_near A ha.1 hb.1 h1 h4 h5
  have e : WengLin.expectedScore (wlExact a) (wlExact b) (wlConfigExact c)
      = (wlP (wlC c.beta.toR (a.uncertainty.toR ^ 2) (b.uncertainty.toR ^ 2)) a.rating.toR b.rating.toR,
        1 - wlP (wlC c.beta.toR (a.uncertainty.toR ^ 2) (b.uncertainty.toR ^ 2)) a.rating.toR b.rating.toR) := by
    rw [WengLin.expectedScore, WengLin.c_real', WengLin.pValue_real]
    rfl
  rw [e]
  exact ⟨p1.mono (by norm_num), p2.mono (by norm_num)⟩

theorem usual_wengLin_config : WlUsualConfig (E := ieee) ⟨4.0, 0.0⟩ := by
  have h4 := lit_in (E := ieee) (m := 40) (s := true) (e := 1) (v := 4) (by norm_num)
    (SRep.ofNat 4 (by norm_num))
  have h0 := lit_in (E := ieee) (m := 0) (s := true) (e := 1) (v := 0) (by norm_num) SRep.zero
  have e4 := le_antisymm h4.toR.2 h4.toR.1
  have e0 := le_antisymm h0.toR.2 h0.toR.1
  refine ⟨⟨h4.finite, ?_, ?_⟩, h0.finite, ?_⟩
  · rw [e4]; norm_num
  · rw [e4]; norm_num
  · rw [e0]; norm_num

theorem usual_wengLin : WlUsual (E := ieee) ⟨4.0, 0.0⟩ ⟨25.0, 8.0⟩ := by
  have h4 := lit_in (E := ieee) (m := 40) (s := true) (e := 1) (v := 4) (by norm_num)
    (SRep.ofNat 4 (by norm_num))
  have h25 := lit_in (E := ieee) (m := 250) (s := true) (e := 1) (v := 25) (by norm_num)
    (SRep.ofNat 25 (by norm_num))
  have h8 := lit_in (E := ieee) (m := 80) (s := true) (e := 1) (v := 8) (by norm_num)
    (SRep.ofNat 8 (by norm_num))
  have e4 := le_antisymm h4.toR.2 h4.toR.1
  have e8 := le_antisymm h8.toR.2 h8.toR.1
  have e25 := le_antisymm h25.toR.2 h25.toR.1
  refine ⟨h25.finite, ?_, h8.finite, ?_, ?_⟩
  · rw [e25, e4]; norm_num
  · rw [e8]; norm_num
  · rw [e8]; norm_num

example : Near (|(25.0 : FP ieee).toR| / 2 ^ 37 + (8.0 : FP ieee).toR / 2 ^ 37)
    (WengLin.wengLin (F := FP ieee) ⟨25.0, 8.0⟩ ⟨25.0, 8.0⟩ .WIN ⟨4.0, 0.0⟩).1.rating
    (WengLin.wengLin (wlExact (E := ieee) ⟨25.0, 8.0⟩) (wlExact (E := ieee) ⟨25.0, 8.0⟩) .WIN
      (wlConfigExact (E := ieee) ⟨4.0, 0.0⟩)).1.rating := by
  rw [← add_div]
  exact (C123_wengLin_game ieee_lib ieee_accurate _ _ .WIN ⟨4.0, 0.0⟩ usual_wengLin_config usual_wengLin
    usual_wengLin).1.1

example : Near (1 / 2 ^ 37)
    (WengLin.expectedScore (F := FP ieee) ⟨25.0, 8.0⟩ ⟨25.0, 8.0⟩ ⟨4.0, 0.0⟩).1
    (WengLin.expectedScore (wlExact (E := ieee) ⟨25.0, 8.0⟩) (wlExact (E := ieee) ⟨25.0, 8.0⟩)
      (wlConfigExact (E := ieee) ⟨4.0, 0.0⟩)).1 :=
  (C123_wengLin_expected ieee_lib ieee_accurate _ _ ⟨4.0, 0.0⟩ usual_wengLin_config usual_wengLin
    usual_wengLin).1

end Skillratings
