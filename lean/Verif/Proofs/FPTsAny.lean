import Verif.Proofs.FPTsFar
/-
Bounds of the corrections of decided TrueSkill games in floating-point arithmetic, for leads of any size.
-/

namespace Skillratings
open FP FPVal Spec
variable {E : FloatEnv}

namespace TrueSkill

/-- Usable corrections of a game whose lead was `U` standard deviations. -/
structure Usable (U : ℝ) (v w : FP E) : Prop where
  v : Between 0 (1.000001 * max 0 (-U) + 1.1) v
  w : Between 0 (513 / 512) w

theorem tiny_lt {n : FP E} (hn : Between 0 (1 / 2 ^ 550) n) :
    (n <? (2.222758749e-162 : FP E)) = true := by
  have ht := tiny_near (E := E)
  rw [lt_iff_toR hn.1 ht.1]
  have h2 := abs_le.1 ht.2
  have h3 : (1 : ℝ) / 2 ^ 550 ≤ 1e-163 := by
    have e : (2 : ℝ) ^ 550 = (2 ^ 55) ^ 10 := by rw [← pow_mul]
    rw [e]
    have : (3.6e16 : ℝ) ^ 10 ≤ (2 ^ 55) ^ 10 := pow_le_pow_left₀ (by norm_num) (by norm_num) 10
    exact (one_div_le_one_div_of_le (by norm_num) this).trans (by norm_num)
  have h4 := hn.2.2
  norm_num at h2 h3 h4 ⊢; linarith [h2.1]

theorem w_flag (q : FP E) : Between (E := E) 0 (513 / 512) (if (q <? (0.0 : FP E)) = true then (1.0 : FP E) else (0.0 : FP E)) := by
  obtain ⟨ho, o1⟩ := one_eq (E := E)
  obtain ⟨hz, z0⟩ := zero_eq (E := E)
  split
  · exact ⟨ho, by rw [o1]; norm_num, by rw [o1]; norm_num⟩
  · exact ⟨hz, by rw [z0], by rw [z0]; norm_num⟩

/-- The corrections of a decided game, whatever the lead. -/
theorem decided_any (L : E.Lib) (A : E.Accurate) (X : E.Fading) {d m c : FP E} {C U : ℝ} (hd : d.isFinite)
    (hm : m.isFinite) (hc : Ap 20 50 c C) (hb : |d.toR| ≤ 2 ^ 50 * C) (hb' : |m.toR| ≤ 11 * C)
    (hU : U = (d.toR - m.toR) / C) : Usable U (vNonDraw d m c) (wNonDraw d m c) := by
  have hC := hc.2.pos
  set Q := d.toR / C with hQ
  set G := m.toR / C with hG
  have hUQ : U = Q - G := by rw [hU, sub_div]
  have hQb : |Q| ≤ 2 ^ 50 := by rw [hQ, abs_div, abs_of_pos hC, div_le_iff₀ hC]; exact hb
  have hGb : |G| ≤ 11 := by rw [hG, abs_div, abs_of_pos hC, div_le_iff₀ hC]; exact hb'
  have Q0 := abs_nonneg Q
  have q1 := quotient_wide hd hc.1 hC (M := |Q| + 1) (by rw [← abs_of_pos hC, ← abs_div]; linarith)
    (by linarith) (by norm_num at hQb ⊢; linarith) (by norm_num)
  have q2 := quotient_wide hm hc.1 hC (M := 11) (by rw [← abs_of_pos hC, ← abs_div]; exact hGb)
    (by norm_num) (by norm_num) (by norm_num)
  rw [← hQ] at q1
  rw [← hG] at q2
  have hUb : |U| ≤ |Q| + 11 := by rw [hUQ]; exact (abs_sub _ _).trans (by linarith)
  have hQU : |Q| ≤ |U| + 11 := by
    have : Q = U + G := by rw [hUQ]; ring
    rw [this]; exact (abs_add_le _ _).trans (by linarith)
  have U0 := abs_nonneg U
  have y1 := (near_sub q1 q2 (M := 2 * |Q| + 20) (by rw [← hUQ]; norm_num; linarith) (by linarith)
    (le_huge 60 (by norm_num at hQb ⊢; linarith) (by norm_num))).mono (δ := 27 * (|U| + 30) / 2 ^ 50)
      (by norm_num; linarith)
  rw [← hUQ] at y1
  have s1 := (near_add q1.neg q2 (M := 2 * |Q| + 20) (by
      rw [show -Q + G = -U by rw [hUQ]; ring, abs_neg]; norm_num; linarith) (by linarith)
    (le_huge 60 (by norm_num at hQb ⊢; linarith) (by norm_num))).mono (δ := 27 * (|U| + 30) / 2 ^ 50)
      (by norm_num; linarith)
  rw [show -Q + G = -U by rw [hUQ]; ring] at s1
  have hy := abs_le.1 y1.2
  have hya : |(d / c - m / c).toR| ≤ 2 ^ 80 := by
    have := y1.abs_le
    norm_num at this hQb ⊢; linarith
  -- a hopeless position
  have behind : (cdf (d / c - m / c) (0.0 : FP E) (1.0 : FP E) <? (2.222758749e-162 : FP E)) = true →
      U ≤ -27 → Usable U (vNonDraw d m c) (wNonDraw d m c) := by
    intro ht hu
    have ev : vNonDraw d m c = -(d / c) + m / c := by rw [vNonDraw]; exact if_pos ht
    have ew : wNonDraw d m c = if (d / c <? (0.0 : FP E)) = true then (1.0 : FP E) else (0.0 : FP E) := by
      rw [wNonDraw]; exact if_pos ht
    rw [ev, ew]
    have hs := abs_le.1 s1.2
    rw [abs_of_nonpos (by linarith : U ≤ 0)] at hs
    refine ⟨⟨s1.1, ?_, ?_⟩, w_flag _⟩
    · norm_num at hs ⊢; linarith [hs.1]
    · rw [max_eq_right (by linarith)]
      norm_num at hs ⊢; linarith [hs.2]
  rcases le_or_gt (d / c - m / c).toR (-28.4) with h1 | h1
  · refine behind (tiny_lt ((cdf_faint X y1.1 hya).1 h1)) ?_
    rcases le_or_gt U 0 with hu | hu
    · rw [abs_of_nonpos hu] at hy; norm_num at hy h1 ⊢; linarith [hy.1]
    · rw [abs_of_pos hu] at hy; norm_num at hy h1 ⊢; linarith [hy.1]
  rcases le_or_gt 28.4 (d / c - m / c).toR with h2 | h2
  · -- far ahead
    have hu : 28 ≤ U := by
      rcases le_or_gt U 0 with hu | hu
      · rw [abs_of_nonpos hu] at hy; norm_num at hy h2 ⊢; linarith [hy.2]
      · rw [abs_of_pos hu] at hy; norm_num at hy h2 ⊢; linarith [hy.2]
    have hn := (cdf_faint X y1.1 hya).2 h2
    have hp := pdf_faint L X y1.1 (h2.trans (le_abs_self _)) hya
    have ht := tiny_near (E := E)
    have hlt : ¬ (cdf (d / c - m / c) (0.0 : FP E) (1.0 : FP E) <? (2.222758749e-162 : FP E)) = true := by
      rw [lt_iff_toR hn.1 ht.1, not_lt]
      have h2 := abs_le.1 ht.2
      have h3 := hn.2.1
      norm_num at h2 h3 ⊢
      linarith [h2.2]
    have ev : vNonDraw d m c = pdf (d / c - m / c) (0.0 : FP E) (1.0 : FP E)
        / cdf (d / c - m / c) (0.0 : FP E) (1.0 : FP E) := by
      rw [vNonDraw]; exact if_neg hlt
    have ew : wNonDraw d m c = vNonDraw d m c * (vNonDraw d m c + d / c - m / c) := by
      rw [wNonDraw]; exact if_neg hlt
    have e549 : (1 : ℝ) / 2 ^ 549 = 1 / 2 ^ 550 / (1 / 2) := by
      rw [pow_succ (2 : ℝ) 549]; field_simp
    have hv : Between 0 (1 / 2 ^ 549) (vNonDraw d m c) := by
      rw [ev]
      obtain ⟨n1, n2, n3⟩ := hn
      obtain ⟨p1, p2, p3⟩ := hp
      obtain ⟨s, hs⟩ := div_fin p1 n1 (by linarith)
      have hI : In (E := E) ((0 : ℝ) : EReal) ((1 / 2 ^ 549 : ℝ) : EReal)
          (pdf (d / c - m / c) (0.0 : FP E) (1.0 : FP E) / cdf (d / c - m / c) (0.0 : FP E) (1.0 : FP E)) := by
        rw [hs]
        refine In.of_round _ SRep.zero (SRep.inv_two_pow 549 (by norm_num)) (by positivity) ?_
        rw [e549]
        exact div_le_div₀ (by positivity) p3 (by norm_num) n2
      exact ⟨hI.finite, hI.toR⟩
    have k549 : (1 : ℝ) / 2 ^ 549 ≤ 1 / 2 ^ 60 :=
      one_div_le_one_div_of_le (by positivity) (pow_le_pow_right₀ (by norm_num) (by norm_num))
    refine ⟨⟨hv.1, hv.2.1, ?_⟩, ?_⟩
    · have := hv.2.2.trans k549
      rw [max_eq_left (by linarith : -U ≤ 0)]
      norm_num at this ⊢; linarith
    · rw [ew]
      have vn : Near (1 / 2 ^ 60) (vNonDraw d m c) 0 :=
        ⟨hv.1, by rw [sub_zero, abs_of_nonneg hv.2.1]; exact hv.2.2.trans k549⟩
      have a1 := near_add vn q1 (M := 2 * |Q| + 20) (by rw [zero_add]; norm_num; linarith) (by linarith)
        (le_huge 60 (by norm_num at hQb ⊢; linarith) (by norm_num))
      rw [zero_add] at a1
      have a2 := (near_sub a1 q2 (M := 3 * |Q| + 40) (by rw [← hUQ]; norm_num; linarith) (by linarith)
        (le_huge 60 (by norm_num at hQb ⊢; linarith) (by norm_num))).mono (δ := 40 * (|U| + 60) / 2 ^ 50)
        (by norm_num; linarith)
      rw [← hUQ, abs_of_pos (by linarith : 0 < U)] at a2
      have ha := abs_le.1 a2.2
      obtain ⟨s, hs⟩ := mul_fin hv.1 a2.1
      have z1 : 0 ≤ (vNonDraw d m c + d / c - m / c).toR := by norm_num at ha ⊢; linarith [ha.1]
      have z2 : (vNonDraw d m c + d / c - m / c).toR ≤ 2 ^ 60 := by
        rw [abs_of_pos (by linarith : 0 < U)] at hUb
        norm_num at ha hQb ⊢; linarith [ha.2]
      have hI : In (E := E) ((0 : ℝ) : EReal) ((1 : ℝ) : EReal)
          (vNonDraw d m c * (vNonDraw d m c + d / c - m / c)) := by
        rw [hs]
        refine In.of_round _ SRep.zero SRep.one (mul_nonneg hv.2.1 z1) ?_
        calc _ ≤ 1 / 2 ^ 60 * 2 ^ 60 := mul_le_mul (hv.2.2.trans k549) z2 z1 (by positivity)
          _ = 1 := by norm_num
      exact ⟨hI.finite, hI.toR.1, hI.toR.2.trans (by norm_num)⟩
  · -- the middle
    have hu : |U| ≤ 28.5 := by
      rcases le_or_gt U 0 with hu | hu
      · rw [abs_of_nonpos hu] at hy ⊢; norm_num at hy h1 h2 ⊢; linarith [hy.2]
      · rw [abs_of_pos hu] at hy ⊢; norm_num at hy h1 h2 ⊢; linarith [hy.1]
    have hQ33 : |Q| ≤ 40 := by norm_num at hu ⊢; linarith
    have hU28 : |U| ≤ 28.8 := hu.trans (by norm_num)
    have y2 := y1.mono (δ := 1 / 2 ^ 36) (by norm_num at hu ⊢; linarith)
    obtain ⟨n1, n2, -⟩ := cdf_fp A y2 le_rfl hU28
    have ht := tiny_near (E := E)
    by_cases hlt : (cdf (d / c - m / c) (0.0 : FP E) (1.0 : FP E) <? (2.222758749e-162 : FP E)) = true
    · refine behind hlt ?_
      by_contra hn
      have hp := Phi_far (not_le.1 hn).le
      rw [lt_iff_toR n1 ht.1] at hlt
      have h2 := abs_le.1 ht.2
      have h3 := abs_le.1 n2
      norm_num at h2 h3 hp hlt
      linarith [h2.2, h3.1]
    · have hv := mills_fp L A y2 le_rfl hU28
      set V := normalPdf U / Phi U with hV
      have hV0 : 0 < V := mills_pos U
      have hV1 : V ≤ |U| + 1 := mills_le U
      have hV2 := mills_gap (U := U) (by have := neg_le_of_abs_le hu; norm_num at this ⊢; linarith)
      rw [← hV] at hV2
      have hV3 : V * (V + U) ≤ 1 := mills_sq_le U
      have ev : vNonDraw d m c = pdf (d / c - m / c) (0.0 : FP E) (1.0 : FP E)
          / cdf (d / c - m / c) (0.0 : FP E) (1.0 : FP E) := by
        rw [vNonDraw]; exact if_neg hlt
      rw [← ev] at hv
      have ew : wNonDraw d m c = vNonDraw d m c * (vNonDraw d m c + d / c - m / c) := by
        rw [wNonDraw]; exact if_neg hlt
      rw [ew]
      generalize vNonDraw d m c = v at hv ⊢
      have hvb := abs_le.1 hv.2
      have v0 : 0 ≤ v.toR := by norm_num at hvb ⊢; linarith [hvb.1]
      have v1 : v.toR ≤ (1 + 6.2e-7) * V := by norm_num at hvb ⊢; linarith [hvb.2]
      have hVm : V ≤ max 0 (-U) + 1 := by
        rcases le_or_gt U 0 with h | h
        · rw [max_eq_right (by linarith)]; rw [abs_of_nonpos h] at hV1; exact hV1
        · rw [max_eq_left (by linarith), zero_add, hV, div_le_one (Phi_pos U)]
          have h3 : 1 / 2 ≤ Phi U := Phi_zero ▸ Phi_strictMono.monotone h.le
          have h4 := pdf_le U
          norm_num at h4; linarith
      have hm0 : 0 ≤ max 0 (-U) := le_max_left _ _
      refine ⟨⟨hv.1, v0, ?_⟩, ?_⟩
      · norm_num at v1 ⊢; linarith
      · have hV30 : V ≤ 29.5 := by norm_num at hu ⊢; linarith
        have b1 : |V + Q| ≤ 70 := (abs_add_le _ _).trans (by rw [abs_of_pos hV0]; norm_num at hV30 ⊢; linarith)
        have a1 := near_add hv q1 (M := 80) (by norm_num at hV30 b1 ⊢; linarith) (by norm_num)
          (le_huge 7 (by norm_num) (by norm_num))
        have e1 : V + Q - G = V + U := by rw [hUQ]; ring
        have b2 : |V + U| ≤ 60 := (abs_add_le _ _).trans (by rw [abs_of_pos hV0]; norm_num at hV30 hu ⊢; linarith)
        have a2 := (near_sub a1 q2 (M := 80) (by rw [e1]; norm_num at hV30 b2 ⊢; linarith) (by norm_num)
          (le_huge 7 (by norm_num) (by norm_num))).mono (δ := 1.85e-5) (by norm_num at hV30 ⊢; linarith)
        rw [e1] at a2
        have ha := abs_le.1 a2.2
        obtain ⟨s, hs⟩ := mul_fin hv.1 a2.1
        have z1 : 0 ≤ (v + d / c - m / c).toR := by norm_num at ha hV2 ⊢; linarith [ha.1]
        have z2 : (v + d / c - m / c).toR ≤ V + U + 1.85e-5 := by linarith [ha.2]
        have hI : In (E := E) ((0 : ℝ) : EReal) ((513 / 512 : ℝ) : EReal) (v * (v + d / c - m / c)) := by
          rw [hs]
          have r1 : SRep (513 / 512 : ℝ) := by
            have := SRep.scale (n := 513) (k := -9) (by norm_num) (by norm_num) (by norm_num)
            have e : (513 / 512 : ℝ) = ((513 : ℕ) : ℝ) * (2 : ℝ) ^ (-9 : ℤ) := by norm_num
            rw [e]; exact this
          refine In.of_round _ SRep.zero r1 (mul_nonneg v0 z1) ?_
          calc v.toR * (v + d / c - m / c).toR ≤ (1 + 6.2e-7) * V * (V + U + 1.85e-5) :=
                mul_le_mul v1 z2 z1 (by positivity)
            _ = (1 + 6.2e-7) * (V * (V + U)) + (1 + 6.2e-7) * 1.85e-5 * V := by ring
            _ ≤ (1 + 6.2e-7) * 1 + (1 + 6.2e-7) * 1.85e-5 * 29.5 :=
                add_le_add (mul_le_mul_of_nonneg_left hV3 (by norm_num))
                  (mul_le_mul_of_nonneg_left hV30 (by norm_num))
            _ ≤ _ := by norm_num
        exact ⟨hI.finite, hI.toR⟩

end TrueSkill
end Skillratings
