import Verif.Props.FloatAccuracyTrueSkill
import Verif.Proofs.DrawV
/-
The corrections and updates of TrueSkill in floating-point arithmetic, against the exact conditional
moments of the normal distribution.
-/

namespace Skillratings
open FP FPVal Spec
variable {E : FloatEnv}

namespace TrueSkill

/-- The density in floating-point arithmetic, at an approximation `y` of `Y`. -/
theorem pdf_fp (L : E.Lib) (A : E.Accurate) {y : FP E} {Y ε : ℝ} (hy : Near ε y Y) (hε : ε ≤ 1 / 2 ^ 36)
    (h : |Y| ≤ 28.8) : Ap (2 ^ 20 + 600) 706 (pdf y (0.0 : FP E) (1.0 : FP E)) (normalPdf Y) := by
  have hε0 : 0 ≤ ε := (abs_nonneg _).trans hy.2
  have hz := (zero_in (E := E)).toR
  obtain ⟨f1, v1⟩ := sub_zero_val hy.1 (zero_in (E := E)).finite (le_antisymm hz.2 hz.1)
  have h1 := near_of_in (one_in (E := E))
  obtain ⟨g1, g2⟩ := abs_val h1.1
  have e1 : (1.0 : FP E).toR = 1 := by have := abs_nonpos_iff.1 h1.2; linarith
  rw [e1, abs_one] at g2
  have n1 : Near 0 (Flt.abs (1.0 : FP E)) 1 := ⟨g1, by rw [g2]; simp⟩
  have y1 : Near ε (y - (0.0 : FP E)) Y := ⟨f1, by rw [v1]; exact hy.2⟩
  have q := (near_div_const y1 n1 one_pos (M := 29) (by norm_num at h hε ⊢; linarith) (by norm_num)
    (le_huge 5 (by norm_num) (by norm_num))).mono (δ := 1 / 2 ^ 36 + 15 / 2 ^ 50) (by
      norm_num at hε ⊢; linarith)
  rw [div_one] at q
  have hY2 : Y * Y ≤ 829.44 := by
    have := abs_mul_abs_self Y
    have h0 := abs_nonneg Y
    norm_num at h ⊢; nlinarith
  have s1 := (near_mul q q (M := 830) (by
    rw [abs_of_nonneg (mul_self_nonneg Y)]
    norm_num at h hY2 ⊢; linarith) (by norm_num) (le_huge 10 (by norm_num) (by norm_num))).mono
    (δ := 2 ^ 20 / 2 ^ 50) (by norm_num at h ⊢; linarith)
  have e2 : Flt.powi ((y - (0.0 : FP E)) / Flt.abs (1.0 : FP E)) 2
      = (y - (0.0 : FP E)) / Flt.abs (1.0 : FP E) * ((y - (0.0 : FP E)) / Flt.abs (1.0 : FP E)) := L.powi_two _
  have h2 := near_of_in (lit_in (E := E) (m := 20) (s := true) (e := 1) (v := 2) (by norm_num)
    (SRep.ofNat 2 (by norm_num)))
  have s2 := ((near_div_const s1 h2 (by norm_num) (M := 416) (by
    rw [abs_of_nonneg (mul_self_nonneg Y)]
    norm_num at hY2 ⊢; linarith) (by norm_num) (le_huge 9 (by norm_num) (by norm_num))).mono
    (δ := (2 ^ 19 + 256) / 2 ^ 50) (by norm_num)).neg
  have s3 := exp_ap_wide A s2 (by
    rw [abs_neg, abs_of_nonneg (by have := mul_self_nonneg Y; positivity)]
    norm_num at hY2 ⊢; linarith) (by norm_num)
  have a2 : Ap 0 1 (2.0 : FP E) 2 := ⟨lit_rel (lit_in (E := E) (m := 20) (s := true) (e := 1) (v := 2)
    (by norm_num) (SRep.ofNat 2 (by norm_num))), by norm_num, by norm_num⟩
  have a1 : Ap 0 1 (Flt.abs (1.0 : FP E)) 1 := ⟨Rel.of_eq g1 g2, by norm_num, by norm_num⟩
  have r1 := ((((a2.mul (pi_ap (E := E)) (by norm_num) (by norm_num) (by norm_num)).sqrt (by norm_num)
    (by norm_num)).mul a1 (by norm_num) (by norm_num) (by norm_num)).recip (by norm_num) (by norm_num)).mul s3
    (by norm_num) (by norm_num) (by norm_num)
  have e : normalPdf Y = 1 / (√(2 * Real.pi) * 1) * Real.exp (-(Y * Y / 2)) := by
    rw [normalPdf, mul_one, show -Y ^ 2 / 2 = -(Y * Y / 2) by ring]; ring
  rw [pdf, e2, e]
  exact r1.mono (by norm_num) (by norm_num)

/-- The quotient of density and distribution function in floating-point arithmetic. -/
theorem mills_fp (L : E.Lib) (A : E.Accurate) {y : FP E} {Y ε : ℝ} (hy : Near ε y Y) (hε : ε ≤ 1 / 2 ^ 36)
    (h : |Y| ≤ 28.8) :
    Near (6.2e-7 * (normalPdf Y / Phi Y)) (pdf y (0.0 : FP E) (1.0 : FP E) / cdf y (0.0 : FP E) (1.0 : FP E))
      (normalPdf Y / Phi Y) := by
  have hp := pdf_fp L A hy hε h
  obtain ⟨n1, n2, -⟩ := cdf_fp A hy hε h
  have hP := Phi_pos Y
  have hP1 := Phi_lt_one Y
  obtain ⟨⟨p1, α, hα, ep⟩, hm⟩ := hp
  generalize pdf y (0.0 : FP E) (1.0 : FP E) = p at p1 ep ⊢
  generalize cdf y (0.0 : FP E) (1.0 : FP E) = n at n1 n2 ⊢
  have n3 := abs_le.1 n2
  have hn0 : 0 < n.toR := by norm_num at n3 ⊢; linarith [n3.1]
  obtain ⟨s, hs⟩ := div_fin p1 n1 hn0.ne'
  have hV := mills_pos Y
  have hVl := mills_le Y
  have hφ := hm.pos
  have hα' : |α| ≤ 1e-9 := hα.trans (by norm_num)
  have key : |p.toR / n.toR - normalPdf Y / Phi Y| ≤ 6.12e-7 * (normalPdf Y / Phi Y) := by
    have e : p.toR / n.toR - normalPdf Y / Phi Y
        = normalPdf Y / Phi Y * ((Phi Y * α + (Phi Y - n.toR)) / n.toR) := by
      rw [ep]; field_simp; ring
    rw [e, abs_mul, abs_of_pos hV, mul_comm]
    refine mul_le_mul_of_nonneg_right ?_ hV.le
    rw [abs_div, abs_of_pos hn0, div_le_iff₀ hn0]
    refine (abs_add_le _ _).trans ?_
    rw [abs_mul, abs_of_pos hP, abs_sub_comm]
    have : Phi Y * |α| ≤ Phi Y * 1e-9 := mul_le_mul_of_nonneg_left hα' hP.le
    norm_num at this n2 n3 ⊢
    linarith [n3.1]
  have kl := abs_le.1 key
  have hlow : 1 / 2 ^ 706 ≤ normalPdf Y / Phi Y := hm.1.trans (le_div_self hφ.le hP hP1.le)
  have hx0 : 0 < p.toR / n.toR := by norm_num at kl; linarith [kl.1]
  have hx1 : 1 / 2 ^ 1000 ≤ p.toR / n.toR := by
    have h1 : (1 : ℝ) / 2 ^ 1000 ≤ 1 / 2 ^ 706 * (1 / 2) := by
      rw [div_mul_div_comm, one_mul, ← pow_succ]
      exact one_div_le_one_div_of_le (by positivity) (pow_le_pow_right₀ (by norm_num) (by norm_num))
    refine h1.trans ((mul_le_mul_of_nonneg_right hlow (by norm_num)).trans ?_)
    norm_num at kl ⊢; linarith [kl.1]
  have hx2 : p.toR / n.toR ≤ 2 ^ 1000 := by
    refine le_huge 6 ?_ (by norm_num)
    norm_num at kl h ⊢; linarith [kl.2]
  obtain ⟨k1, k2⟩ := round_rel (E := E) s (by rw [abs_of_pos hx0]; exact hx1) (by rw [abs_of_pos hx0]; exact hx2)
  rw [abs_of_pos hx0] at k2
  rw [hs]
  refine ⟨k1, ?_⟩
  refine (abs_sub_le _ (p.toR / n.toR) _).trans ?_
  norm_num at k2 key kl ⊢
  linarith [kl.2]

/-- The threshold for tiny probabilities in floating-point arithmetic. -/
theorem tiny_near : Near (E := E) (1e-170) (2.222758749e-162 : FP E) 2.222758749e-162 := by
  have hl : (2.222758749e-162 : FP E) = E.round false 2.222758749e-162 := lit _ _ _
  have h1 : (1 : ℝ) / 2 ^ 1000 ≤ 2.222758749e-162 := by
    have : (2 : ℝ) ^ 1000 = (2 ^ 200) ^ 5 := by rw [← pow_mul]
    rw [this]
    have h2 : (1e60 : ℝ) ≤ 2 ^ 200 := by norm_num
    have h3 : (1e60 : ℝ) ^ 5 ≤ (2 ^ 200) ^ 5 := pow_le_pow_left₀ (by norm_num) h2 5
    refine (one_div_le_one_div_of_le (by norm_num) h3).trans (by norm_num)
  have h0 : |(2.222758749e-162 : ℝ)| = 2.222758749e-162 := abs_of_pos (by norm_num)
  obtain ⟨k1, k2⟩ := round_rel (E := E) false (x := 2.222758749e-162) (by rw [h0]; exact h1)
    (by rw [h0]; exact le_huge 1 (by norm_num) (by norm_num))
  rw [hl]
  refine ⟨k1, k2.trans ?_⟩
  rw [h0]; norm_num

theorem ratio_near {d c : FP E} {D C δ : ℝ} (hd : Near δ d D) (hc : Ap 20 50 c C) (hδ : δ ≤ 5 * C / 2 ^ 41)
    (hD : |D| ≤ 28 * C) : Near (13 / 2 ^ 42) (d / c) (D / C) := by
  have hC := hc.2.pos
  have h1 : |d.toR| / C ≤ 29 := by
    rw [div_le_iff₀ hC]
    have := hd.abs_le
    norm_num at hδ ⊢; linarith
  have q := near_quotient hd.1 hc.1 hC h1 (by norm_num) (by norm_num) (by norm_num)
  refine ⟨q.1, ?_⟩
  rw [show (d / c).toR - D / C = ((d / c).toR - d.toR / C) + (d.toR - D) / C by ring]
  refine (abs_add_le _ _).trans ?_
  rw [abs_div (d.toR - D), abs_of_pos hC]
  have h2 : |d.toR - D| / C ≤ 5 / 2 ^ 41 := by
    rw [div_le_iff₀ hC]; linarith [hd.2]
  refine (add_le_add q.2 h2).trans ?_
  norm_num

/-- The corrections of a decided game in floating-point arithmetic. -/
theorem decided_fp (L : E.Lib) (A : E.Accurate) {d m c : FP E} {D C δ U V : ℝ} (hd : Near δ d D)
    (hm : m.isFinite) (hc : Ap 20 50 c C) (hδ : δ ≤ 5 * C / 2 ^ 41) (hb : |D| + |m.toR| ≤ 28 * C)
    (hU : U = D / C - m.toR / C) (hp : 3e-162 ≤ Phi U) (hV : V = normalPdf U / Phi U) :
    |U| ≤ 28 ∧ Near (6.2e-7 * V) (vNonDraw d m c) V ∧
      Near (2e-6 * (1 + |U|) ^ 2) (wNonDraw d m c) (V * (V + U)) := by
  have hC := hc.2.pos
  have q1 := ratio_near hd hc hδ (by linarith [abs_nonneg m.toR])
  have q2 := ratio_near (near_self hm) hc (by positivity) (by linarith [abs_nonneg D])
  have hUb : |U| ≤ 28 := by
    rw [hU, ← sub_div, abs_div, abs_of_pos hC, div_le_iff₀ hC]
    exact (abs_sub _ _).trans hb
  have hDb : |D / C| ≤ 28 := by
    rw [abs_div, abs_of_pos hC, div_le_iff₀ hC]; linarith [abs_nonneg m.toR]
  have hMb : |m.toR / C| ≤ 28 := by
    rw [abs_div, abs_of_pos hC, div_le_iff₀ hC]; linarith [abs_nonneg D]
  refine ⟨hUb, ?_⟩
  have hU28 : |U| ≤ 28.8 := hUb.trans (by norm_num)
  have y1 := (near_sub q1 q2 (M := 29) (by rw [← hU]; norm_num; linarith) (by norm_num)
    (le_huge 5 (by norm_num) (by norm_num))).mono (δ := 1 / 2 ^ 37) (by norm_num)
  rw [← hU] at y1
  have y2 := y1.mono (δ := 1 / 2 ^ 36) (by norm_num)
  obtain ⟨n1, n2, -⟩ := cdf_fp A y2 le_rfl hU28
  have hv := mills_fp L A y2 le_rfl hU28
  rw [← hV] at hv
  have ht := tiny_near (E := E)
  have hlt : ¬ (cdf (d / c - m / c) (0.0 : FP E) (1.0 : FP E) <? (2.222758749e-162 : FP E)) = true := by
    rw [lt_iff_toR n1 ht.1, not_lt]
    have h2 := abs_le.1 ht.2
    have h3 := abs_le.1 n2
    norm_num at h2 h3 hp ⊢
    linarith [h2.2, h3.1]
  have hV0 : 0 < V := hV ▸ mills_pos U
  have hV1 : V ≤ |U| + 1 := hV ▸ mills_le U
  have ev : vNonDraw d m c = pdf (d / c - m / c) (0.0 : FP E) (1.0 : FP E)
      / cdf (d / c - m / c) (0.0 : FP E) (1.0 : FP E) := by
    rw [vNonDraw]; exact if_neg hlt
  rw [← ev] at hv
  refine ⟨hv, ?_⟩
  have ew : wNonDraw d m c = vNonDraw d m c * (vNonDraw d m c + d / c - m / c) := by
    rw [wNonDraw]; exact if_neg hlt
  rw [ew]
  generalize vNonDraw d m c = v at hv ⊢
  have hU0 := abs_nonneg U
  have b1 : |V + D / C| ≤ 57 := (abs_add_le _ _).trans (by rw [abs_of_pos hV0]; linarith)
  have a1 := near_add hv q1 (M := 58) (by norm_num; linarith) (by norm_num)
    (le_huge 6 (by norm_num) (by norm_num))
  have e1 : V + D / C - m.toR / C = V + U := by rw [hU]; ring
  have b2 : |V + U| ≤ 57 := (abs_add_le _ _).trans (by rw [abs_of_pos hV0]; linarith)
  have a2 := (near_sub a1 q2 (M := 58) (by rw [e1]; norm_num; linarith) (by norm_num)
    (le_huge 6 (by norm_num) (by norm_num))).mono (δ := 6.2e-7 * V + 1 / 2 ^ 37) (by norm_num; linarith)
  rw [e1] at a2
  have b3 : |V + U| ≤ V + |U| := (abs_add_le _ _).trans (by rw [abs_of_pos hV0])
  set T := |U| + 1 with hT
  have hT1 : 1 ≤ T := by linarith
  have hT29 : T ≤ 29 := by linarith
  have e2 : |V * (V + U)| ≤ T * (2 * T) := by
    rw [abs_mul, abs_of_pos hV0]
    exact mul_le_mul hV1 (by linarith) (abs_nonneg _) (by linarith)
  have e3 : 6.2e-7 * V * |V + U| + |V| * (6.2e-7 * V + 1 / 2 ^ 37) + 6.2e-7 * V * (6.2e-7 * V + 1 / 2 ^ 37)
      ≤ 1.9e-6 * T ^ 2 := by
    rw [abs_of_pos hV0]
    have h1 : 6.2e-7 * V * |V + U| ≤ 6.2e-7 * T * (2 * T) :=
      mul_le_mul (by norm_num; linarith) (by linarith) (abs_nonneg _) (by positivity)
    have h2 : V * (6.2e-7 * V + 1 / 2 ^ 37) ≤ T * (6.3e-7 * T) :=
      mul_le_mul hV1 (by norm_num; linarith) (by positivity) (by linarith)
    have h3 : 6.2e-7 * V * (6.2e-7 * V + 1 / 2 ^ 37) ≤ 6.2e-7 * T * (6.3e-7 * T) :=
      mul_le_mul (by norm_num; linarith) (by norm_num; linarith) (by positivity) (by positivity)
    have h4 : 0 ≤ T ^ 2 := by positivity
    norm_num at h1 h2 h3 ⊢
    nlinarith
  have hTT : T ^ 2 ≤ 841 := by nlinarith
  have a3 := near_mul hv a2 (M := 3 * T ^ 2) (by
      norm_num at e2 e3 ⊢; nlinarith) (by nlinarith)
    (le_huge 12 (by norm_num; linarith) (by norm_num))
  rw [show 1 + |U| = T by rw [hT]; ring]
  refine a3.mono ?_
  have h4 : 0 ≤ T ^ 2 := by positivity
  norm_num at e3 ⊢
  linarith

theorem pdf_le (u : ℝ) : normalPdf u ≤ 0.4 := by
  rw [normalPdf]
  have h1 : (2.5 : ℝ) ≤ √(2 * Real.pi) := by
    refine Real.le_sqrt_of_sq_le ?_
    have := Real.pi_gt_d2
    norm_num at this ⊢; linarith
  have h2 : Real.exp (-u ^ 2 / 2) ≤ 1 := Real.exp_le_one_iff.2 (by nlinarith [_root_.sq_nonneg u])
  rw [div_le_iff₀ (by linarith)]
  norm_num at h1 ⊢; linarith

theorem Ap.pdf_near {p : FP E} {Y : ℝ} (h : Ap (2 ^ 20 + 600) 706 p (normalPdf Y)) :
    Near 4e-10 p (normalPdf Y) := by
  have h1 := pdf_le Y
  refine (h.1.near h.2.pos.le).mono ?_
  norm_num at h1 ⊢; linarith

/-- A quotient by an approximation of a probability. -/
theorem quotient_fp {x n : FP E} {X G ξ : ℝ} (hx : Near ξ x X) (hn : Near 6.21e-7 n G) (hG : 1e-5 ≤ G)
    (hG1 : G ≤ 1) (hX : |X| ≤ 30) (hξ : ξ ≤ 1) :
    Near ((6.7e-7 * |X / G| + 1.1 * ξ + 1e-14) / G) (x / n) (X / G) := by
  have hξ0 : 0 ≤ ξ := (abs_nonneg _).trans hx.2
  have hG0 : 0 < G := lt_of_lt_of_le (by norm_num) hG
  have hn' := abs_le.1 hn.2
  have hN : 0.937 * G ≤ n.toR := by norm_num at hn' hG ⊢; linarith [hn'.1]
  have hN0 : 0 < n.toR := lt_of_lt_of_le (by positivity) hN
  obtain ⟨s, hs⟩ := div_fin hx.1 hn.1 hN0.ne'
  have key : |x.toR / n.toR - X / G| ≤ (6.65e-7 * |X / G| + 1.07 * ξ) / G := by
    have e : x.toR / n.toR - X / G = ((x.toR - X) + X / G * (G - n.toR)) / n.toR := by field_simp; ring
    rw [e, abs_div, abs_of_pos hN0, div_le_div_iff₀ hN0 hG0]
    have h1 : |x.toR - X + X / G * (G - n.toR)| ≤ ξ + |X / G| * 6.21e-7 := by
      refine (abs_add_le _ _).trans (add_le_add hx.2 ?_)
      rw [abs_mul, abs_sub_comm]
      exact mul_le_mul_of_nonneg_left hn.2 (abs_nonneg _)
    have h2 := abs_nonneg (X / G)
    calc _ ≤ (ξ + |X / G| * 6.21e-7) * G := mul_le_mul_of_nonneg_right h1 hG0.le
      _ ≤ (6.65e-7 * |X / G| + 1.07 * ξ) * (0.937 * G) := by
        rw [← mul_assoc]
        refine mul_le_mul_of_nonneg_right ?_ hG0.le
        norm_num; linarith
      _ ≤ _ := mul_le_mul_of_nonneg_left hN (by positivity)
  have hXG : |X / G| ≤ 3000000 := by
    rw [abs_div, abs_of_pos hG0, div_le_iff₀ hG0]
    norm_num at hG ⊢; linarith
  have hxn : |x.toR / n.toR| ≤ (1.07 * ξ + 1.1 * |X|) / G := by
    have := abs_add_le (x.toR / n.toR - X / G) (X / G)
    rw [sub_add_cancel] at this
    refine this.trans ((add_le_add key le_rfl).trans ?_)
    rw [abs_div X, abs_of_pos hG0, ← add_div]
    refine div_le_div_of_nonneg_right ?_ hG0.le
    have h1 : |X| / G ≤ |X| * 100000 := by
      rw [div_le_iff₀ hG0]; have := abs_nonneg X; norm_num at hG ⊢; nlinarith
    norm_num at h1 ⊢; linarith [abs_nonneg X]
  have hb : (1.07 * ξ + 1.1 * |X|) / G ≤ 2 ^ 22 := by
    rw [div_le_iff₀ hG0]; norm_num at hG ⊢; linarith
  have hM1 : 1 ≤ (1.07 * ξ + 1.1 * |X| + 1) / G := by
    rw [le_div_iff₀ hG0]
    have := abs_nonneg X
    norm_num; linarith
  have r1 := round_abs (E := E) s (x := x.toR / n.toR) (M := (1.07 * ξ + 1.1 * |X| + 1) / G)
    (hxn.trans (div_le_div_of_nonneg_right (by linarith) hG0.le)) hM1
    (le_huge 23 (by rw [div_le_iff₀ hG0]; norm_num at hG ⊢; linarith) (by norm_num))
  rw [hs]
  refine ⟨r1.1, ?_⟩
  refine (abs_sub_le _ (x.toR / n.toR) _).trans ((add_le_add r1.2 key).trans ?_)
  rw [div_div, mul_comm G, ← div_div, ← add_div]
  refine div_le_div_of_nonneg_right ?_ hG0.le
  have h1 : |X| ≤ |X / G| := by
    rw [abs_div, abs_of_pos hG0, le_div_iff₀ hG0]
    exact mul_le_of_le_one_right (abs_nonneg _) hG1
  have h2 := abs_nonneg X
  norm_num; linarith

/-- The ingredients of the corrections of a draw in floating-point arithmetic. -/
theorem drawn_core (L : E.Lib) (A : E.Accurate) {y₁ y₂ : FP E} {Y₁ Y₂ : ℝ} (h₁ : Near (1 / 2 ^ 37) y₁ Y₁)
    (h₂ : Near (1 / 2 ^ 37) y₂ Y₂) (b₁ : |Y₁| ≤ 28) (b₂ : |Y₂| ≤ 28) (hG : 1e-5 ≤ Phi Y₁ - Phi Y₂) :
    let n := cdf y₁ (0.0 : FP E) (1.0 : FP E) - cdf y₂ (0.0 : FP E) (1.0 : FP E)
    let G := Phi Y₁ - Phi Y₂
    let x := pdf y₂ (0.0 : FP E) (1.0 : FP E) - pdf y₁ (0.0 : FP E) (1.0 : FP E)
    let X := normalPdf Y₂ - normalPdf Y₁
    let q := Flt.mulAdd y₁ (pdf y₁ (0.0 : FP E) (1.0 : FP E)) (-y₂ * pdf y₂ (0.0 : FP E) (1.0 : FP E))
    let Q := Y₁ * normalPdf Y₁ - Y₂ * normalPdf Y₂
    ¬ (n <? (2.222758749e-162 : FP E)) = true ∧ Near ((6.7e-7 * |X / G| + 1.1e-9) / G) (x / n) (X / G) ∧
      Near ((6.7e-7 * |X / G| + 1.1e-9) / G) (-x / n) (-X / G) ∧
      Near ((6.7e-7 * |Q / G| + 2.8e-8) / G) (q / n) (Q / G) := by
  intro n G x X q Q
  have h₁' := h₁.mono (δ := 1 / 2 ^ 36) (by norm_num)
  have h₂' := h₂.mono (δ := 1 / 2 ^ 36) (by norm_num)
  have c₁ : |Y₁| ≤ 28.8 := b₁.trans (by norm_num)
  have c₂ : |Y₂| ≤ 28.8 := b₂.trans (by norm_num)
  obtain ⟨f₁, -, g₁⟩ := cdf_fp A h₁' le_rfl c₁
  obtain ⟨f₂, -, g₂⟩ := cdf_fp A h₂' le_rfl c₂
  have p₁ := Ap.pdf_near (pdf_fp L A h₁' le_rfl c₁)
  have p₂ := Ap.pdf_near (pdf_fp L A h₂' le_rfl c₂)
  have F₁ := Phi_pos Y₁
  have F₂ := Phi_pos Y₂
  have F₃ := Phi_lt_one Y₁
  have F₄ := Phi_lt_one Y₂
  have d₁ := pdf_le Y₁
  have d₂ := pdf_le Y₂
  have d₃ := pdf_pos' Y₁
  have d₄ := pdf_pos' Y₂
  have hn : Near 6.21e-7 n G := (near_sub (show Near _ _ _ from ⟨f₁, g₁⟩) (show Near _ _ _ from ⟨f₂, g₂⟩) (M := 2) (by
      have : |Phi Y₁ - Phi Y₂| ≤ 1 := by rw [abs_le]; constructor <;> linarith
      norm_num; linarith) (by norm_num) (le_huge 1 (by norm_num) (by norm_num))).mono (by norm_num)
  have hx : Near 9e-10 x X := (near_sub p₂ p₁ (M := 2) (by
      have : |normalPdf Y₂ - normalPdf Y₁| ≤ 1 := by
        rw [abs_le]; constructor <;> norm_num at d₁ d₂ ⊢ <;> linarith
      norm_num; linarith) (by norm_num) (le_huge 1 (by norm_num) (by norm_num))).mono (by norm_num)
  have hX : |X| ≤ 30 := by
    rw [abs_le]; constructor <;> norm_num at d₁ d₂ ⊢ <;> linarith
  have hYp : ∀ Y : ℝ, |Y| ≤ 28 → |Y * normalPdf Y| ≤ 12 := by
    intro Y hY
    rw [abs_mul, abs_of_pos (pdf_pos' Y)]
    refine (mul_le_mul hY (pdf_le Y) (pdf_pos' Y).le (by norm_num)).trans (by norm_num)
  have t₁ := hYp _ b₁
  have t₂ := hYp _ b₂
  have ht : |-Y₂ * normalPdf Y₂| ≤ 12 := by rw [neg_mul, abs_neg]; exact t₂
  have m₂ := (near_mul h₂.neg p₂ (M := 13) (by
      rw [abs_of_pos d₄, abs_neg]; norm_num at ht d₂ ⊢; linarith) (by norm_num) (le_huge 4 (by norm_num) (by norm_num))).mono
    (δ := 1.21e-8) (by rw [abs_of_pos d₄, abs_neg]; norm_num at d₂ ⊢; linarith)
  have eQ : Y₁ * normalPdf Y₁ + -Y₂ * normalPdf Y₂ = Q := by ring
  have hQ : |Q| ≤ 24 := (abs_sub _ _).trans (by linarith)
  have hq := (near_mulAdd h₁ p₁ m₂ (M := 25) (by
      rw [eQ, abs_of_pos d₃]; norm_num at d₁ ⊢; linarith) (by norm_num) (le_huge 5 (by norm_num) (by norm_num))).mono
    (δ := 2.5e-8) (by rw [abs_of_pos d₃]; norm_num at d₁ ⊢; linarith)
  rw [eQ] at hq
  have hG0 : 0 < G := lt_of_lt_of_le (by norm_num) hG
  have hG1 : G ≤ 1 := by linarith
  refine ⟨?_, (quotient_fp hx hn hG hG1 hX (by norm_num)).mono ?_, ?_,
    (quotient_fp hq hn hG hG1 (by linarith) (by norm_num)).mono ?_⟩
  · have ht := tiny_near (E := E)
    rw [lt_iff_toR hn.1 ht.1, not_lt]
    have h2 := abs_le.1 ht.2
    have h3 := abs_le.1 hn.2
    norm_num at h2 h3 hG ⊢
    linarith [h2.2, h3.1]
  · refine div_le_div_of_nonneg_right ?_ hG0.le
    have : (1.1 * 9e-10 + 1e-14 : ℝ) ≤ 1.1e-9 := by norm_num
    linarith
  · have := quotient_fp hx.neg hn hG hG1 (by rw [abs_neg]; exact hX) (by norm_num)
    refine this.mono (div_le_div_of_nonneg_right ?_ hG0.le)
    have : (1.1 * 9e-10 + 1e-14 : ℝ) ≤ 1.1e-9 := by norm_num
    rw [neg_div, abs_neg]; linarith
  · refine div_le_div_of_nonneg_right ?_ hG0.le
    have : (1.1 * 2.5e-8 + 1e-14 : ℝ) ≤ 2.8e-8 := by norm_num
    linarith

theorem wDraw_arith {v r : FP E} {V R W B g : ℝ} (hv : Near ((6.7e-7 * |V| + 1.1e-9) * g) v V)
    (hr : Near ((6.7e-7 * |R| + 2.8e-8) * g) r R) (hVb : |V| ≤ B) (hSb : |R| ≤ 1 + 2 * B ^ 2)
    (g1 : g ≤ 100000) (g2 : 1 ≤ g) (hA0 : 0 ≤ B) (hA : B ≤ 28) (hW : W = V ^ 2 + R)
    (hWl : -2000 ≤ W) (hWb : W ≤ 1) :
    Near (8e-7 * g * (1 + 5 * B ^ 2)) (Flt.mulAdd v v r) W := by
  have hA2 : B ^ 2 ≤ 784 := by nlinarith
  have v0 := abs_nonneg V
  have r0 := abs_nonneg R
  have hv' := hv.mono (δ := (6.7e-7 * B + 1.1e-9) * g) (by
    refine mul_le_mul_of_nonneg_right ?_ (by linarith)
    norm_num; linarith)
  have hr' := hr.mono (δ := (6.7e-7 * (1 + 2 * B ^ 2) + 2.8e-8) * g) (by
    refine mul_le_mul_of_nonneg_right ?_ (by linarith)
    norm_num at hSb ⊢; linarith)
  have hBg : 0 ≤ B * g := by positivity
  have hη : (6.7e-7 * B + 1.1e-9) * g ≤ 0.067 * B + 1.1e-4 := by
    have := mul_le_mul_of_nonneg_left g1 (show 0 ≤ 6.7e-7 * B + 1.1e-9 by positivity)
    refine this.trans ?_
    norm_num; linarith
  set η := (6.7e-7 * B + 1.1e-9) * g with hηd
  have hη0 : 0 ≤ η := by positivity
  set ρ := (6.7e-7 * (1 + 2 * B ^ 2) + 2.8e-8) * g with hρd
  have hρ : ρ ≤ 300 := by
    have := mul_le_mul_of_nonneg_left g1 (show 0 ≤ 6.7e-7 * (1 + 2 * B ^ 2) + 2.8e-8 by positivity)
    refine this.trans ?_
    norm_num; linarith
  have hVV : V * V ≤ 784 := by nlinarith [abs_mul_abs_self V]
  have eW : V * V + R = W := by rw [hW]; ring
  have hWa : |W| ≤ 2000 := by rw [abs_le]; constructor <;> linarith
  have hηV : η * |V| ≤ η * B := mul_le_mul_of_nonneg_left hVb hη0
  have hηη : η * η ≤ η * (0.067 * B + 1.1e-4) := mul_le_mul_of_nonneg_left hη hη0
  have hηB : η * B ≤ (0.067 * B + 1.1e-4) * B := mul_le_mul_of_nonneg_right hη hA0
  have n3 := near_mulAdd hv' hv' hr' (M := 4000) (by
      rw [eW]
      norm_num at hηV hηη hηB ⊢
      nlinarith) (by norm_num) (le_huge 12 (by norm_num) (by norm_num))
  rw [eW] at n3
  refine n3.mono ?_
  have c1 : η * |V| + |V| * η + η * η ≤ η * (2.067 * B + 1.1e-4) := by
    norm_num at hηV hηη ⊢; nlinarith
  refine (add_le_add (add_le_add c1 le_rfl) le_rfl).trans ?_
  have c2 : 4000 / 2 ^ 51 ≤ 1e-9 * g := by norm_num; linarith
  refine (add_le_add le_rfl c2).trans ?_
  have c3 : B ≤ 1 + B ^ 2 := by nlinarith [_root_.sq_nonneg (B - 1)]
  have c4 : (6.7e-7 * B + 1.1e-9) * (2.067 * B + 1.1e-4) + (6.7e-7 * (1 + 2 * B ^ 2) + 2.8e-8) + 1e-9
      ≤ 8e-7 * (1 + 5 * B ^ 2) := by
    norm_num; nlinarith [_root_.sq_nonneg B]
  have c5 := mul_le_mul_of_nonneg_right c4 (by linarith : 0 ≤ g)
  rw [hηd, hρd]
  linarith

/-- The corrections of a draw in floating-point arithmetic. -/
theorem drawn_fp (L : E.Lib) (A : E.Accurate) {d m c : FP E} {D C δ t e G V W : ℝ} (hd : Near δ d D)
    (hm : m.isFinite) (hc : Ap 20 50 c C) (hδ : δ ≤ 5 * C / 2 ^ 41) (hb : |D| + |m.toR| ≤ 28 * C)
    (ht : t = D / C) (he : e = m.toR / C) (he0 : 0 < e) (hG : G = Phi (e - t) - Phi (-e - t)) (hp : 1e-5 ≤ G)
    (hV : V = (normalPdf (-e - t) - normalPdf (e - t)) / G)
    (hW : W = V ^ 2 + ((e - t) * normalPdf (e - t) - (-e - t) * normalPdf (-e - t)) / G) :
    Near ((6.7e-7 * |V| + 1.1e-9) / G) (vDraw d m c) V ∧
      Near (8e-7 / G * (1 + 5 * (|t| + e) ^ 2)) (wDraw d m c) W ∧
      |V| ≤ 28 ∧ -2000 ≤ W ∧ W ≤ 1 := by
  have hC := hc.2.pos
  have q1 := ratio_near hd hc hδ (by linarith [abs_nonneg m.toR])
  have q2 := ratio_near (near_self hm) hc (by positivity) (by linarith [abs_nonneg D])
  rw [← ht] at q1
  rw [← he] at q2
  have hA : |t| + e ≤ 28 := by
    have : e = |m.toR| / C := by rw [← abs_of_pos he0, he, abs_div, abs_of_pos hC]
    rw [this, ht, abs_div, abs_of_pos hC, ← add_div, div_le_iff₀ hC]
    exact hb
  have hG0 : 0 < G := lt_of_lt_of_le (by norm_num) hp
  have hVb := draw_mean_le (t := t) he0
  have hSb := draw_sq_bounds (t := t) he0
  have hWb := draw_var_bounds (t := t) he0
  rw [← hG] at hVb hSb hWb
  rw [← hV] at hVb hWb
  rw [← hW] at hWb
  set R := ((e - t) * normalPdf (e - t) - (-e - t) * normalPdf (-e - t)) / G with hR
  have hA0 : 0 ≤ |t| + e := by positivity
  have hA2 : (|t| + e) ^ 2 ≤ 784 := by nlinarith
  have hWl : -2000 ≤ W := by
    have := (abs_le.1 hSb).1
    rw [hW]; nlinarith [_root_.sq_nonneg V]
  -- both corrections from the ingredients
  have key : Near ((6.7e-7 * |V| + 1.1e-9) / G) (vDraw d m c) V ∧
      ∃ r : FP E, wDraw d m c = Flt.mulAdd (vDraw d m c) (vDraw d m c) r ∧
        Near ((6.7e-7 * |R| + 2.8e-8) / G) r R := by
    have aq := abs_val q1.1
    have hz := near_of_in (zero_in (E := E))
    have z0 : (0.0 : FP E).toR = 0 := by have := abs_nonpos_iff.1 hz.2; linarith
    have hbt := abs_le.1 (show |t| ≤ 28 - e by linarith)
    by_cases hs : (d / c <? (0.0 : FP E)) = true
    · have hs' := hs
      rw [lt_iff_toR q1.1 hz.1, z0] at hs'
      rw [abs_of_neg hs'] at aq
      have aN : Near (13 / 2 ^ 42) (Flt.abs (d / c)) (-t) := by
        refine ⟨aq.1, ?_⟩
        rw [aq.2, ← abs_neg]
        convert q1.2 using 2
        ring
      have B1 : |e - -t| ≤ 28 := by rw [abs_le]; constructor <;> linarith
      have B2 : |-e - -t| ≤ 28 := by rw [abs_le]; constructor <;> linarith
      have y1 := (near_sub q2 aN (M := 29) (by norm_num at B1 ⊢; linarith) (by norm_num)
        (le_huge 5 (by norm_num) (by norm_num))).mono (δ := 1 / 2 ^ 37) (by norm_num)
      have y2 := (near_sub q2.neg aN (M := 29) (by norm_num at B2 ⊢; linarith) (by norm_num)
        (le_huge 5 (by norm_num) (by norm_num))).mono (δ := 1 / 2 ^ 37) (by norm_num)
      have E1 : e - -t = -(-e - t) := by ring
      have E2 : -e - -t = -(e - t) := by ring
      have EG : Phi (e - -t) - Phi (-e - -t) = G := by rw [E1, E2, Phi_neg, Phi_neg, hG]; ring
      obtain ⟨k1, -, k3, k4⟩ := drawn_core L A y1 y2 B1 B2 (by rw [EG]; exact hp)
      rw [EG] at k3 k4
      have EV : -(normalPdf (-e - -t) - normalPdf (e - -t)) / G = V := by
        rw [E1, E2, normalPdf_neg, normalPdf_neg, hV]; ring
      have EV' : |(normalPdf (-e - -t) - normalPdf (e - -t)) / G| = |V| := by
        rw [← EV, neg_div, abs_neg]
      have ER : ((e - -t) * normalPdf (e - -t) - (-e - -t) * normalPdf (-e - -t)) / G = R := by
        rw [hR, E1, E2, normalPdf_neg, normalPdf_neg]; ring
      rw [EV, EV'] at k3
      rw [ER] at k4
      refine ⟨?_, _, ?_, k4⟩
      · have : vDraw d m c = -(pdf (-(m / c) - Flt.abs (d / c)) (0.0 : FP E) (1.0 : FP E)
            - pdf (m / c - Flt.abs (d / c)) (0.0 : FP E) (1.0 : FP E))
            / (cdf (m / c - Flt.abs (d / c)) (0.0 : FP E) (1.0 : FP E)
              - cdf (-(m / c) - Flt.abs (d / c)) (0.0 : FP E) (1.0 : FP E)) := by
          rw [vDraw]; exact (if_neg k1).trans (if_pos hs)
        rw [this]; exact k3
      · rw [wDraw]; exact if_neg k1
    · have hs' := hs
      rw [lt_iff_toR q1.1 hz.1, z0, not_lt] at hs'
      rw [abs_of_nonneg hs'] at aq
      have aN : Near (13 / 2 ^ 42) (Flt.abs (d / c)) t := ⟨aq.1, by rw [aq.2]; exact q1.2⟩
      have B1 : |e - t| ≤ 28 := by rw [abs_le]; constructor <;> linarith
      have B2 : |-e - t| ≤ 28 := by rw [abs_le]; constructor <;> linarith
      have y1 := (near_sub q2 aN (M := 29) (by norm_num at B1 ⊢; linarith) (by norm_num)
        (le_huge 5 (by norm_num) (by norm_num))).mono (δ := 1 / 2 ^ 37) (by norm_num)
      have y2 := (near_sub q2.neg aN (M := 29) (by norm_num at B2 ⊢; linarith) (by norm_num)
        (le_huge 5 (by norm_num) (by norm_num))).mono (δ := 1 / 2 ^ 37) (by norm_num)
      obtain ⟨k1, k2, -, k4⟩ := drawn_core L A y1 y2 B1 B2 (by rw [← hG]; exact hp)
      rw [← hG] at k2 k4
      rw [← hV] at k2
      refine ⟨?_, _, ?_, k4⟩
      · have : vDraw d m c = (pdf (-(m / c) - Flt.abs (d / c)) (0.0 : FP E) (1.0 : FP E)
            - pdf (m / c - Flt.abs (d / c)) (0.0 : FP E) (1.0 : FP E))
            / (cdf (m / c - Flt.abs (d / c)) (0.0 : FP E) (1.0 : FP E)
              - cdf (-(m / c) - Flt.abs (d / c)) (0.0 : FP E) (1.0 : FP E)) := by
          rw [vDraw]; exact (if_neg k1).trans (if_neg hs)
        rw [this]; exact k2
      · rw [wDraw]; exact if_neg k1
  obtain ⟨hv, r, er, hr⟩ := key
  refine ⟨hv, ?_, hVb.trans hA, hWl, hWb⟩
  rw [er]
  generalize vDraw d m c = v at hv
  have g1 : 1 / G ≤ 100000 := by
    rw [div_le_iff₀ hG0]; norm_num at hp ⊢; linarith
  have g2 : 1 ≤ 1 / G := by
    rw [le_div_iff₀ hG0, one_mul, hG]
    have := Phi_lt_one (e - t); have := Phi_pos (-e - t); linarith
  rw [div_eq_mul_one_div] at hv hr
  rw [div_eq_mul_one_div (8e-7 : ℝ) G]
  exact wDraw_arith hv hr hVb hSb g1 g2 hA0 hA (by rw [hW]) hWl hWb

/-- The variance before a game in floating-point arithmetic. -/
theorem variance_ap (L : E.Lib) {σ τ : FP E} (hσ : Between (1 / 2 ^ 20) (2 ^ 20) σ) (hτ : τ.isFinite)
    (hτb : |τ.toR| ≤ 2 ^ 20) :
    Ap 2 42 (Flt.mulAdd σ σ (Flt.powi τ 2)) (σ.toR ^ 2 + τ.toR ^ 2) := by
  obtain ⟨h1, h2, h3⟩ := hσ
  have hs0 : 0 < σ.toR := lt_of_lt_of_le (by positivity) h2
  have t2 : τ.toR ^ 2 ≤ 2 ^ 40 := by
    have := pow_le_pow_left₀ (abs_nonneg _) hτb 2
    rw [sq_abs, ← pow_mul] at this; exact this
  have s2 : σ.toR ^ 2 ≤ 2 ^ 40 := by
    have := pow_le_pow_left₀ hs0.le h3 2
    rw [← pow_mul] at this; exact this
  have s3 : 1 / 2 ^ 40 ≤ σ.toR ^ 2 := by
    have := pow_le_pow_left₀ (by positivity) h2 2
    rw [div_pow, one_pow, ← pow_mul] at this; exact this
  have t0 := _root_.sq_nonneg τ.toR
  have e : Flt.powi τ 2 = τ * τ := L.powi_two τ
  obtain ⟨s, hs⟩ := mul_fin hτ hτ
  have p900 : (1 : ℝ) / 2 ^ 900 ≤ 1 / 2 ^ 40 :=
    one_div_le_one_div_of_le (by positivity) (pow_le_pow_right₀ (by norm_num) (by norm_num))
  have q900 : (2 : ℝ) ^ 42 ≤ 2 ^ 900 := pow_le_pow_right₀ (by norm_num) (by norm_num)
  set S := σ.toR ^ 2 + τ.toR ^ 2 with hS
  have hS1 : 1 / 2 ^ 40 ≤ S := by linarith
  have hS2 : S ≤ 2 ^ 41 := by rw [hS]; norm_num at s2 t2 ⊢; linarith
  have m1 := round_small (E := E) s (v := τ.toR * τ.toR) (M := S)
    (by rw [← pow_two, abs_of_nonneg t0]; linarith [_root_.sq_nonneg σ.toR]) (p900.trans hS1)
    (hS2.trans ((pow_le_pow_right₀ (by norm_num) (by norm_num)).trans q900))
  rw [← hs, ← e] at m1
  have m2 := small_mulAdd (near_self h1) (near_self h1) m1 (M := 2 * S) (by
      rw [← pow_two, ← pow_two, ← hS, abs_of_pos (lt_of_lt_of_le (by positivity) hS1)]
      norm_num at hS1 ⊢; linarith) (p900.trans (by linarith [hS1, (by positivity : (0 : ℝ) < 1 / 2 ^ 40)])) (le_trans (by
        norm_num at hS2 ⊢; linarith) q900)
  rw [show σ.toR * σ.toR + τ.toR * τ.toR = S by rw [hS]; ring] at m2
  have hSp : 0 < S := lt_of_lt_of_le (by positivity) hS1
  refine ⟨Rel.of_near hSp (m2.mono ?_), ?_, ?_⟩
  · norm_num; linarith
  · norm_num at hS1 ⊢; linarith
  · norm_num at hS2 ⊢; linarith

/-- A new rating in floating-point arithmetic. -/
theorem rating_fp {r σ v c τ m : FP E} {S C κ V η : ℝ} (hS : Ap 2 42 (Flt.mulAdd σ σ (Flt.powi τ 2)) S)
    (hc : Ap 20 50 c C) (hm : Near 0 m κ) (hκ : |κ| = 1) (hv : Near η v V) (hη : η ≤ 1) (hV : |V| ≤ 64)
    (hr : r.isFinite) (hr1 : |r.toR| ≤ 2 ^ 40) :
    Near (S / C * η + (|r.toR| + S / C) / 2 ^ 39) (newRating r σ v c τ m) (r.toR + κ * (S / C) * V) := by
  have hη0 : 0 ≤ η := (abs_nonneg _).trans hv.2
  have k1 := hS.div hc (by norm_num) (by norm_num) (by norm_num)
  rw [newRating]
  generalize Flt.mulAdd σ σ (Flt.powi τ 2) / c = x at k1 ⊢
  set K := S / C
  have hK := k1.2.pos
  have b1 := k1.2.1
  have b2 := k1.2.2
  have p900 : (1 : ℝ) / 2 ^ 900 ≤ 1 / 2 ^ (42 + 50) :=
    one_div_le_one_div_of_le (by positivity) (pow_le_pow_right₀ (by norm_num) (by norm_num))
  have q900 : (2 : ℝ) ^ 120 ≤ 2 ^ 900 := pow_le_pow_right₀ (by norm_num) (by norm_num)
  have n1 := k1.1.near hK.le
  have hκK : |κ * K| = K := by rw [abs_mul, hκ, one_mul, abs_of_pos hK]
  have n2 := (small_mul hm n1 (M := 2 * K) (by rw [hκK, hκ]; norm_num; linarith)
    (p900.trans (by linarith)) (le_trans (by norm_num at b2 ⊢; linarith) q900)).mono
    (δ := 24 / 2 ^ 50 * K) (by rw [hκ]; norm_num; linarith)
  have hKV : K * |V| ≤ K * 64 := mul_le_mul_of_nonneg_left hV hK.le
  have hKη : K * η ≤ K * 1 := mul_le_mul_of_nonneg_left hη hK.le
  have hKη0 : 0 ≤ K * η := by positivity
  have hKV0 : 0 ≤ K * |V| := by positivity
  have hb : |κ * K * V + r.toR| ≤ K * 64 + |r.toR| := by
    refine (abs_add_le _ _).trans ?_
    rw [abs_mul, hκK]; linarith
  have n3 := small_mulAdd n2 hv (near_self hr) (M := |r.toR| + K * 70) (by
      rw [hκK]
      norm_num at hKV hKη hKη0 ⊢
      nlinarith) (p900.trans (by have := abs_nonneg r.toR; linarith)) (le_trans (by norm_num at b2 hr1 ⊢; linarith) q900)
  rw [hκK] at n3
  rw [show r.toR + κ * K * V = κ * K * V + r.toR by ring]
  refine n3.mono ?_
  have := abs_nonneg r.toR
  norm_num at hKV hKη hKη0 ⊢
  nlinarith

/-- A new uncertainty in floating-point arithmetic. -/
theorem uncertainty_fp (L : E.Lib) {σ c w τ : FP E} {S C W ω : ℝ}
    (hS : Ap 2 42 (Flt.mulAdd σ σ (Flt.powi τ 2)) S) (hc : Ap 20 50 c C) (hSC : S ≤ C ^ 2)
    (hw : Near ω w W) (hω : ω ≤ 1) (hW : |W| ≤ 2 ^ 11) (hq : ω + 1 / 2 ^ 32 ≤ 1 - W * (S / C ^ 2)) :
    (newUncertainty σ c w τ).isFinite ∧ 0 < (newUncertainty σ c w τ).toR ∧
      |(newUncertainty σ c w τ).toR ^ 2 - S * (1 - W * (S / C ^ 2))| ≤ (ω + 1 / 2 ^ 32) * S := by
  have hω0 : 0 ≤ ω := (abs_nonneg _).trans hw.2
  have k1 := hS.div (hc.sq L (by norm_num) (by norm_num)) (by norm_num) (by norm_num) (by norm_num)
  rw [newUncertainty]
  have hR1 : S / C ^ 2 ≤ 1 := (div_le_one (by have := hc.2.pos; positivity)).2 hSC
  generalize Flt.mulAdd σ σ (Flt.powi τ 2) / Flt.powi c 2 = x at k1 ⊢
  generalize Flt.mulAdd σ σ (Flt.powi τ 2) = y at hS ⊢
  set R := S / C ^ 2
  have hR := k1.2.pos
  have n1 := ((k1.1.near hR.le).mono (δ := 44 / 2 ^ 50) (by norm_num; linarith)).neg
  have hS0 := hS.2.pos
  have hWR : |W * -R| ≤ 2 ^ 11 := by
    rw [abs_mul, abs_neg, abs_of_pos hR]
    nlinarith [abs_nonneg W]
  have hωR : ω * R ≤ ω := mul_le_of_le_one_right hω0 hR1
  have n2 := (near_mulAdd hw n1 (near_of_in (one_in (E := E))) (M := 2 ^ 12) (by
      have := abs_add_le (W * -R) 1
      rw [abs_one] at this
      rw [abs_neg, abs_of_pos hR]
      generalize |W * -R + 1| = g at this ⊢
      generalize |W * -R| = g' at this hWR
      norm_num; linarith) (by norm_num) (le_huge 12 (by norm_num) (by norm_num))).mono
    (δ := ω + 1 / 2 ^ 33) (by
      rw [abs_neg, abs_of_pos hR]
      norm_num; linarith)
  rw [show W * -R + 1 = 1 - W * R by ring] at n2
  generalize Flt.mulAdd w (-x) (1.0 : FP E) = z at n2 ⊢
  set q := 1 - W * R with hqd
  have hz := abs_le.1 n2.2
  have hz0 : 1 / 2 ^ 33 ≤ z.toR := by norm_num at hq hz ⊢; linarith [hz.1]
  have hWR' := abs_le.1 hWR
  have hz1 : z.toR ≤ 2 ^ 12 := by norm_num at hz ⊢; linarith [hz.2]
  obtain ⟨fy, α, hα, ey⟩ := hS.1
  have hα' := abs_le.1 hα
  have hy0 : 0 < y.toR := (hS.1.pos (by norm_num) hS0).1
  have hy1 := (hS.1.pos (by norm_num) hS0).2
  obtain ⟨s, hs⟩ := mul_fin fy n2.1
  have b1 := hS.2.1
  have b2 := hS.2.2
  have hprod0 : 0 < y.toR * z.toR := mul_pos hy0 (lt_of_lt_of_le (by positivity) hz0)
  have hlow : (1 : ℝ) / 2 ^ 84 ≤ y.toR * z.toR := by
    have := mul_le_mul hy1.1 hz0 (by positivity) hy0.le
    refine le_trans ?_ this
    norm_num at b1 ⊢; linarith
  have hupp : y.toR * z.toR ≤ 2 ^ 60 := by
    have := mul_le_mul hy1.2 hz1 (lt_of_lt_of_le (by positivity) hz0).le (by positivity)
    refine this.trans ?_
    norm_num at b2 ⊢; linarith
  have p1000 : (1 : ℝ) / 2 ^ 1000 ≤ 1 / 2 ^ 90 :=
    one_div_le_one_div_of_le (by positivity) (pow_le_pow_right₀ (by norm_num) (by norm_num))
  obtain ⟨k1, k2⟩ := round_rel (E := E) s (x := y.toR * z.toR)
    (by rw [abs_of_pos hprod0]; refine p1000.trans (le_trans (by norm_num) hlow))
    (by rw [abs_of_pos hprod0]; exact le_huge 60 hupp (by norm_num))
  rw [abs_of_pos hprod0] at k2
  rw [← hs] at k1 k2
  have hzS : |y.toR * z.toR - S * q| ≤ (ω + 1 / 2 ^ 33 + 2 ^ 13 / 2 ^ 50) * S := by
    have e : y.toR * z.toR - S * q = S * (α * z.toR) + S * (z.toR - q) := by rw [ey]; ring
    rw [e]
    refine (abs_add_le _ _).trans ?_
    rw [abs_mul S, abs_mul S, abs_of_pos hS0, abs_mul]
    have h1 : |α| * |z.toR| ≤ 2 / 2 ^ 50 * 2 ^ 12 := by
      refine mul_le_mul hα ?_ (abs_nonneg _) (by positivity)
      rw [abs_of_pos (lt_of_lt_of_le (by positivity) hz0)]; exact hz1
    have h2 := mul_le_mul_of_nonneg_left h1 hS0.le
    have h3 := mul_le_mul_of_nonneg_left n2.2 hS0.le
    norm_num at h2 h3 ⊢
    linarith
  have hpb : y.toR * z.toR ≤ 2 ^ 13 * S := by
    refine (mul_le_mul hy1.2 hz1 (lt_of_lt_of_le (by positivity) hz0).le (by positivity)).trans ?_
    norm_num; linarith
  generalize y * z = p at k1 k2 ⊢
  generalize y.toR * z.toR = g at *
  have k3 := abs_le.1 k2
  have hp0 : g / 2 ≤ p.toR := by norm_num at k3 ⊢; linarith [k3.1]
  have hp1 : p.toR ≤ 2 * g := by norm_num at k3 ⊢; linarith [k3.2]
  have hpp : 0 < p.toR := by linarith
  obtain ⟨s', hs'⟩ := sqrt_fin k1 hpp.le
  have hr0 : 0 < √p.toR := Real.sqrt_pos.2 hpp
  have hrsq : √p.toR ^ 2 = p.toR := Real.sq_sqrt hpp.le
  have hr1 : 1 / 2 ^ 90 ≤ √p.toR := by
    refine Real.le_sqrt_of_sq_le ?_
    have : ((1 : ℝ) / 2 ^ 90) ^ 2 = 1 / 2 ^ 90 * (1 / 2 ^ 90) := by ring
    rw [this]
    norm_num at hlow hp0 ⊢; linarith
  have hr2 : √p.toR ≤ 2 ^ 60 := by
    rw [Real.sqrt_le_left (by positivity)]
    norm_num at hupp hp1 ⊢; linarith
  obtain ⟨l1, l2⟩ := round_rel (E := E) s' (x := √p.toR) (by rw [abs_of_pos hr0]; exact p1000.trans hr1)
    (by rw [abs_of_pos hr0]; exact le_huge 60 hr2 (by norm_num))
  rw [abs_of_pos hr0] at l2
  rw [hs']
  refine ⟨l1, ?_⟩
  generalize FP.toR (E := E) (E.round s' √p.toR) = u at l2
  have l3 := abs_le.1 l2
  have hu0 : 0 < u := by norm_num at l3 ⊢; linarith [l3.1]
  refine ⟨hu0, ?_⟩
  have hu : |u ^ 2 - p.toR| ≤ p.toR / 2 ^ 49 := by
    have e : u ^ 2 - p.toR = (u - √p.toR) * (u + √p.toR) := by
      linear_combination hrsq
    rw [e, abs_mul, abs_of_pos (by linarith : 0 < u + √p.toR)]
    have h1 : u + √p.toR ≤ 3 * √p.toR := by norm_num at l3 ⊢; linarith [l3.2]
    calc _ ≤ √p.toR / 2 ^ 51 * (3 * √p.toR) := mul_le_mul l2 h1 (by linarith) (by positivity)
      _ = 3 / 2 ^ 51 * √p.toR ^ 2 := by ring
      _ = 3 / 2 ^ 51 * p.toR := by rw [hrsq]
      _ ≤ _ := by norm_num; linarith
  have t1 := abs_sub_le (u ^ 2) p.toR (S * q)
  have t2 := abs_sub_le p.toR g (S * q)
  norm_num at hu k2 hzS hpb t1 t2 hp1 ⊢
  linarith

/-- The exact variance correction of a win is not negative. -/
theorem mills_sq_nonneg (u : ℝ) : 0 ≤ normalPdf u / Phi u * (normalPdf u / Phi u + u) := by
  have hP := Phi_pos u
  have h0 := mills_pos u
  refine mul_nonneg h0.le ?_
  rcases le_or_gt 0 u with h | h
  · linarith
  · have := mills_ge (z := -u) (by linarith)
    rw [neg_neg, normalPdf_neg] at this
    have h2 : -u ≤ normalPdf u / Phi u := by rw [le_div_iff₀ hP]; exact this
    linarith

/-- The update of one player in floating-point arithmetic, for given corrections. -/
theorem update_fp (L : E.Lib) {r σ v w c τ m : FP E} {β C κ V W η ω S : ℝ}
    (hσ : Between (1 / 2 ^ 20) (2 ^ 20) σ) (hβ : 0 < β) (hβ2 : β ≤ 2 ^ 20) (hσβ : σ.toR ≤ 16 * β)
    (hτ : τ.isFinite) (hτβ : τ.toR ^ 2 ≤ β ^ 2) (hc : Ap 20 50 c C) (hC : σ.toR ^ 2 + 2 * β ^ 2 ≤ C ^ 2)
    (hr : r.isFinite) (hr1 : |r.toR| ≤ 2 ^ 40) (hm : Near 0 m κ) (hκ : |κ| = 1) (hv : Near η v V)
    (hη : η ≤ 1) (hV : |V| ≤ 64) (hw : Near ω w W) (hW0 : -2000 ≤ W) (hW1 : W ≤ 1) (hω : ω ≤ 1 / 300)
    (hS : S = σ.toR ^ 2 + τ.toR ^ 2) :
    Near (S / C * η + (|r.toR| + σ.toR + β) / 2 ^ 39) (newRating r σ v c τ m) (r.toR + κ * (S / C) * V) ∧
    S / C ≤ σ.toR + β ∧
    (newUncertainty σ c w τ).isFinite ∧ 0 < (newUncertainty σ c w τ).toR ∧
      |(newUncertainty σ c w τ).toR ^ 2 - S * (1 - W * (S / C ^ 2))| ≤ (ω + 1 / 2 ^ 32) * S := by
  have hs0 : 0 < σ.toR := lt_of_lt_of_le (by positivity) hσ.2.1
  have hτb : |τ.toR| ≤ 2 ^ 20 := (abs_le_of_sq_le_sq hτβ hβ.le).trans hβ2
  have hva := variance_ap L hσ hτ hτb
  rw [← hS] at hva
  have hC0 := hc.2.pos
  have hS0 := hva.2.pos
  have hβ0 : 0 < β ^ 2 := by positivity
  have hSC : S ≤ C ^ 2 := by rw [hS]; linarith
  have hSs : S ≤ (σ.toR + β) ^ 2 := by rw [hS]; nlinarith
  have hK : S / C ≤ σ.toR + β := by
    rw [div_le_iff₀ hC0]
    refine le_of_sq_le_sq ?_ (by positivity)
    rw [mul_pow]
    calc S ^ 2 = S * S := by ring
      _ ≤ _ := mul_le_mul hSs hSC hS0.le (by positivity)
  have hK0 : 0 < S / C := by positivity
  refine ⟨(rating_fp hva hc hm hκ hv hη hV hr hr1).mono ?_, hK, uncertainty_fp L hva hc hSC hw ?_ ?_ ?_⟩
  · norm_num; linarith
  · norm_num at hω ⊢; linarith
  · rw [abs_le]; constructor <;> norm_num <;> linarith
  · have hR : S / C ^ 2 ≤ 257 / 258 := by
      rw [div_le_div_iff₀ (by positivity) (by norm_num), hS]
      nlinarith
    have hR0 : 0 ≤ S / C ^ 2 := by positivity
    have := mul_le_mul_of_nonneg_right hW1 hR0
    norm_num at this hω hR ⊢
    linarith

end TrueSkill
end Skillratings
