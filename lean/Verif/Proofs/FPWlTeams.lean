import Verif.Props.FloatAccuracyWengLin
import Verif.Props.FloatAccuracyTrueSkill
/-
The error of Weng-Lin games of teams: sums over a team, the comparison of two teams, sums over
the other teams and the update of a member.
-/

namespace Skillratings
open FP FPVal Spec
variable {E : FloatEnv}

namespace FP
variable {x y z : FP E} {a b c k l m : ℝ} {n n' : ℕ}

/-- An approximated number over an approximated one. -/
theorem near_quotient_of {r : FP E} {R C M τ : ℝ} (hr : Near (τ / 2 ^ 50 * C) r R) (hc : Rel k y C)
    (hC : 0 < C) (hM : |R| / C ≤ M) (h1 : 1 ≤ M) (h2 : M ≤ 2 ^ 19) (hk : k ≤ 2 ^ 10) (hτ : τ ≤ 2 ^ 20) :
    Near ((τ + (M + 1) * (k + 2)) / 2 ^ 50) (r / y) (R / C) := by
  have hd := hr.2
  have hτ1 : τ / 2 ^ 50 ≤ 1 := by norm_num at hτ ⊢; linarith
  have hq : |r.toR / C - R / C| ≤ τ / 2 ^ 50 := by
    rw [← sub_div, abs_div, abs_of_pos hC, div_le_iff₀ hC]; exact hd
  have hM' : |r.toR| / C ≤ M + 1 := by
    have : |r.toR| ≤ |R| + C := by
      have := hr.abs_le
      have := mul_le_of_le_one_left hC.le hτ1
      linarith
    calc _ ≤ (|R| + C) / C := by gcongr
      _ = |R| / C + 1 := by rw [add_div, div_self hC.ne']
      _ ≤ _ := by linarith
  have h := near_quotient hr.1 hc hC hM' (by linarith) (by norm_num at h2 ⊢; linarith) hk
  refine ⟨h.1, ?_⟩
  have := abs_sub_le (r / y : FP E).toR (r.toR / C) (R / C)
  calc _ ≤ (M + 1) * (k + 2) / 2 ^ 50 + τ / 2 ^ 50 := this.trans (add_le_add h.2 hq)
    _ = _ := by ring

/-- Two sums in one loop. -/
theorem near_foldl_pair {α : Type} (l : List α) (P Q : α → FP E) (p q : α → ℝ) {D e₁ e₂ : ℝ} {s t : FP E}
    (hs : Near 0 s 0) (ht : Near 0 t 0)
    (hD1 : 1 / 2 ^ 800 ≤ D) (hD2 : D ≤ 2 ^ 800) (he₁ : e₁ ≤ 1 / 4) (he₂ : e₂ ≤ 1 / 4) (hl : l.length ≤ 64)
    (h : ∀ x ∈ l, (Near (D * e₁) (P x) (p x) ∧ |p x| ≤ D) ∧ Near e₂ (Q x) (q x) ∧ 0 ≤ q x ∧ q x ≤ 1 / 4) :
    let X := l.foldl (fun acc x => (acc.1 + P x, acc.2 + Q x)) (s, t)
    let Y := l.foldl (fun acc x => (acc.1 + p x, acc.2 + q x)) ((0 : ℝ), (0 : ℝ))
    (Near (l.length * (D * (e₁ + 64 / 2 ^ 50))) X.1 Y.1 ∧ |Y.1| ≤ l.length * D) ∧
      Near (l.length * (e₂ + 64 / 2 ^ 50)) X.2 Y.2 ∧ 0 ≤ Y.2 ∧ Y.2 ≤ l.length * (1 / 4) := by
  intro X Y
  have hD0 : 0 < D := lt_of_lt_of_le (by positivity) hD1
  have key : ∀ (l : List α) (acc : FP E × FP E) (A : ℝ × ℝ) (k : ℕ), k + l.length ≤ 64 →
      (∀ x ∈ l, (Near (D * e₁) (P x) (p x) ∧ |p x| ≤ D) ∧ Near e₂ (Q x) (q x) ∧ 0 ≤ q x ∧ q x ≤ 1 / 4) →
      (Near (k * (D * (e₁ + 64 / 2 ^ 50))) acc.1 A.1 ∧ |A.1| ≤ k * D) →
      (Near (k * (e₂ + 64 / 2 ^ 50)) acc.2 A.2 ∧ 0 ≤ A.2 ∧ A.2 ≤ k * (1 / 4)) →
      let X := l.foldl (fun acc x => (acc.1 + P x, acc.2 + Q x)) acc
      let Y := l.foldl (fun acc x => (acc.1 + p x, acc.2 + q x)) A
      (Near ((k + l.length : ℕ) * (D * (e₁ + 64 / 2 ^ 50))) X.1 Y.1 ∧ |Y.1| ≤ (k + l.length : ℕ) * D) ∧
        Near ((k + l.length : ℕ) * (e₂ + 64 / 2 ^ 50)) X.2 Y.2 ∧ 0 ≤ Y.2 ∧
          Y.2 ≤ (k + l.length : ℕ) * (1 / 4) := by
    intro l
    induction l with
    | nil => intro acc A k _ _ h1 h2; exact ⟨h1, h2⟩
    | cons r l ih =>
      intro acc A k hk hl h1 h2
      obtain ⟨⟨r1, r2⟩, r3, r4, r5⟩ := hl r (by simp)
      have hk' : (k : ℝ) + 1 ≤ 64 := by
        have : k + 1 ≤ 64 := by simp only [List.length_cons] at hk; omega
        exact_mod_cast this
      have k0 : (0 : ℝ) ≤ k := Nat.cast_nonneg k
      have e1 : |A.1 + p r| ≤ (k + 1) * D := (abs_add_le _ _).trans (by linarith [h1.2])
      have u1 : (e₁ + 64 / 2 ^ 50) ≤ 1 / 3 := by norm_num at he₁ ⊢; linarith
      have u2 : (e₂ + 64 / 2 ^ 50) ≤ 1 / 3 := by norm_num at he₂ ⊢; linarith
      have kD : (k + 1) * D ≤ 64 * D := mul_le_mul_of_nonneg_right hk' hD0.le
      have kDu : (k : ℝ) * (D * (e₁ + 64 / 2 ^ 50)) ≤ k * D * (1 / 3) := by
        rw [← mul_assoc]; exact mul_le_mul_of_nonneg_left u1 (by positivity)
      have ku : (k : ℝ) * (e₂ + 64 / 2 ^ 50) ≤ k * (1 / 3) := mul_le_mul_of_nonneg_left u2 k0
      have De : D * e₁ ≤ D * (1 / 4) := mul_le_mul_of_nonneg_left he₁ hD0.le
      have big : (128 : ℝ) * 2 ^ 800 ≤ 2 ^ 900 := by
        rw [show (128 : ℝ) = 2 ^ 7 by norm_num, ← pow_add]
        exact pow_le_pow_right₀ (by norm_num) (by norm_num)
      have sml : (1 : ℝ) / 2 ^ 900 ≤ 1 / 2 ^ 800 :=
        one_div_le_one_div_of_le (by positivity) (pow_le_pow_right₀ (by norm_num) (by norm_num))
      have s1 := (small_add h1.1 r1 (M := 128 * D) (by linarith)
        (sml.trans (hD1.trans (le_mul_of_one_le_left hD0.le (by norm_num))))
        ((mul_le_mul_of_nonneg_left hD2 (by norm_num)).trans big)).mono (δ := ((k + 1 : ℕ) : ℝ) * (D * (e₁ + 64 / 2 ^ 50))) (by
          push_cast; clear big sml hD1 hD2; norm_num; linarith)
      have s2 := (near_add h2.1 r3 (M := 128) (by
          rw [abs_of_nonneg (by linarith [h2.2.1])]; linarith [h2.2.2])
        (by norm_num) (le_huge 7 (by norm_num) (by norm_num))).mono
          (δ := ((k + 1 : ℕ) : ℝ) * (e₂ + 64 / 2 ^ 50)) (by
          push_cast; clear big sml hD1 hD2; norm_num; linarith)
      have := ih (acc.1 + P r, acc.2 + Q r) (A.1 + p r, A.2 + q r) (k + 1)
        (by simp only [List.length_cons] at hk; omega)
        (fun r' hr' => hl r' (List.mem_cons_of_mem _ hr')) ⟨s1, by push_cast; exact e1⟩
        ⟨s2, by linarith [h2.2.1], by push_cast; linarith [h2.2.2]⟩
      rw [show k + 1 + l.length = k + (r :: l).length by simp only [List.length_cons]; omega] at this
      exact this
  have := key l (s, t) (0, 0) 0 (by omega) h ⟨by simpa using hs, by simp⟩ ⟨by simpa using ht, by simp, by simp⟩
  simpa only [zero_add] using this

end FP

namespace WengLin

/-- A team of 1 to 32 players with uncertainties between `2 ^ -20` and `2 ^ 20` and ratings of at most
64 times `beta`, whose ratings sum up to at most 250 times `beta`. -/
def WlTeam (c : WengLinConfig (FP E)) (t : List (WengLinRating (FP E))) : Prop :=
  t ≠ [] ∧ t.length ≤ 32 ∧
    (∀ p ∈ t, p.rating.isFinite ∧ |p.rating.toR| ≤ 64 * c.beta.toR ∧
      Between (1 / 2 ^ 20) (2 ^ 20) p.uncertainty) ∧
    |(t.map fun p => p.rating.toR).sum| ≤ 250 * c.beta.toR

/-- What is known of the sums over a team. -/
def Summed (β : ℝ) (r u : FP E) (s : WlSide) : Prop :=
  Near (33792 / 2 ^ 50 * β) r s.μ ∧ |s.μ| ≤ 250 * β ∧ Ap 33 46 u s.v

theorem side_exact (t : List (WengLinRating (FP E))) :
    side (t.map wlExact) = ⟨(t.map fun p => p.rating.toR).sum, (t.map fun p => p.uncertainty.toR ^ 2).sum⟩ := by
  rw [side, List.map_map, List.map_map]; rfl

theorem summed_team (L : E.Lib) {c : WengLinConfig (FP E)} (hc : WlUsualConfig c)
    {t : List (WengLinRating (FP E))} (ht : WlTeam c t) :
    Summed c.beta.toR (teamRating t) (teamUncertaintySq t) (side (t.map wlExact)) := by
  obtain ⟨h1, h2, h3, h4⟩ := ht
  have b1 := hc.1.2.1
  have b2 := hc.1.2.2
  have b0 : 0 < c.beta.toR := lt_of_lt_of_le (by norm_num) b1
  rw [side_exact]
  refine ⟨?_, h4, ?_⟩
  · have low : (1 : ℝ) / 2 ^ 800 ≤ 1 / 2 ^ 20 :=
      one_div_le_one_div_of_le (by positivity) (pow_le_pow_right₀ (by norm_num) (by norm_num))
    have up : (2 : ℝ) ^ 30 ≤ 2 ^ 800 := pow_le_pow_right₀ (by norm_num) (by norm_num)
    have := (TrueSkill.near_sum_of t (fun p => p.rating) (M := 64 * c.beta.toR) (by linarith)
      (le_trans (by norm_num at b2 ⊢; linarith) up) 32 h2 (by norm_num) (fun p hp => ⟨(h3 p hp).1, (h3 p hp).2.1⟩)).1
    refine this.mono ?_
    have hl : (t.length : ℝ) ≤ 32 := by exact_mod_cast h2
    clear low up this
    calc (t.length : ℝ) * _ ≤ 32 * (((32 : ℕ) + 1) * (64 * c.beta.toR) / 2 ^ 51) :=
          mul_le_mul_of_nonneg_right hl (by positivity)
      _ ≤ _ := by norm_num; linarith
  · have := TrueSkill.sum_ap t (fun p => Flt.powi p.uncertainty 2) (fun p => p.uncertainty.toR ^ 2) (k := 1)
      (n := 40) (m := 5) (by norm_num) (by norm_num) h1 (by simpa using h2) (by norm_num)
      (fun p hp => ((FP.Spec.Between.ap' (h3 p hp).2.2).sq L (by norm_num) (by norm_num)).mono (by norm_num) (by norm_num))
    refine this.mono ?_ (by norm_num)
    have hl : (t.length : ℝ) ≤ 32 := by exact_mod_cast h2
    linarith

theorem pair_near (L : E.Lib) (A : E.Accurate) {c : WengLinConfig (FP E)} (hc : WlUsualConfig c)
    {r u r' u' : FP E} {s s' : WlSide} (h : Summed c.beta.toR r u s) (h' : Summed c.beta.toR r' u' s') :
    let C := wlC c.beta.toR s.v s'.v
    let cc := Flt.sqrt (Flt.mulAdd (2.0 : FP E) (Flt.powi c.beta 2) (u + u'))
    Ap 37 50 cc C ∧ √s.v ≤ C ∧ √s'.v ≤ C ∧
    Near (131000 / 2 ^ 50) (pValue r r' cc).1 (wlP C s.μ s'.μ) ∧
    Near (131001 / 2 ^ 50) (pValue r r' cc).2 (1 - wlP C s.μ s'.μ) := by
  intro C cc
  have hβ := FP.Spec.Between.ap' hc.1
  have h2 : Ap 0 1 (2.0 : FP E) 2 := ⟨lit_rel (lit_in (E := E) (m := 20) (s := true) (e := 1) (v := 2)
    (by norm_num) (SRep.ofNat 2 (by norm_num))), by norm_num, by norm_num⟩
  have s1 := h.2.2.add h'.2.2 (by norm_num) (by norm_num)
  have s2 := h2.mulAdd ((hβ.sq L (by norm_num) (by norm_num)).mono (k' := 34) (n' := 46) (by norm_num) (by norm_num))
    (s1.mono (k' := 34) (n' := 47) (by norm_num) (by norm_num)) (by norm_num) (by norm_num) (by norm_num) (by norm_num)
  have s3 := s2.sqrt (by norm_num) (by norm_num)
  have e : C = √(2 * c.beta.toR ^ 2 + (s.v + s'.v)) := by
    change √_ = √_
    congr 1; ring
  have hβ0 := hβ.2.pos
  have v0 := h.2.2.2.pos
  have v0' := h'.2.2.2.pos
  have hC0 : 0 < C := by rw [e]; exact s3.2.pos
  have hC2 : C ^ 2 = s.v + s'.v + 2 * c.beta.toR ^ 2 := Real.sq_sqrt (by positivity)
  have hCβ : 7 / 5 * c.beta.toR ≤ C := by
    by_contra h
    nlinarith
  have hcc : Ap 37 50 cc C := by rw [e]; exact s3.mono (by norm_num) (by norm_num)
  have hsq : ∀ v w : ℝ, 0 < v → 0 < w → C ^ 2 = v + w + 2 * c.beta.toR ^ 2 → √v ≤ C := by
    intro v w hv hw hh
    rw [Real.sqrt_le_iff]
    exact ⟨hC0.le, by rw [hh]; linarith [_root_.sq_nonneg c.beta.toR]⟩
  have q : ∀ x : ℝ, |x| ≤ 250 * c.beta.toR → |x| / C ≤ 180 := by
    intro x hx; rw [div_le_iff₀ hC0]; linarith
  have bound : ∀ x : ℝ, |x| ≤ 250 * c.beta.toR → |x / C| ≤ 200 := by
    intro x hx; rw [abs_div, abs_of_pos hC0]; linarith [q x hx]
  have m : ∀ {r : FP E} {R : ℝ}, Near (33792 / 2 ^ 50 * c.beta.toR) r R → Near (24200 / 2 ^ 50 * C) r R := by
    intro r R hr
    refine hr.mono ?_
    norm_num; linarith
  have t1 := near_quotient_of (m h.1) hcc.1 hC0 (q _ h.2.1) (by norm_num) (by norm_num) (by norm_num) (by norm_num)
  have t2 := near_quotient_of (m h'.1) hcc.1 hC0 (q _ h'.2.1) (by norm_num) (by norm_num) (by norm_num) (by norm_num)
  have e1 := exp_ap A t1 (bound _ h.2.1) (by norm_num)
  have e2 := exp_ap A t2 (bound _ h'.2.1) (by norm_num)
  have p := e1.div (e1.add e2 (by norm_num) (by norm_num)) (by norm_num) (by norm_num) (by norm_num)
  have h01 : 0 ≤ wlP C s.μ s'.μ ∧ wlP C s.μ s'.μ ≤ 1 :=
    ⟨(wlP_pos _ _ _).le, (wlP_lt_one _ _ _).le⟩
  have n1 : Near (131000 / 2 ^ 50) (pValue r r' cc).1 (wlP C s.μ s'.μ) := by
    refine (p.1.near p.2.pos.le).mono ?_
    refine (mul_le_of_le_one_right (by positivity) h01.2).trans (by norm_num)
  refine ⟨hcc, hsq _ _ v0 v0' hC2, hsq _ _ v0' v0 (by rw [hC2]; ring), n1, ?_⟩
  refine (near_sub (near_of_in one_in) n1 (M := 1 + 1 / 2 ^ 20) ?_ (by norm_num) ?_).mono (by norm_num)
  · rw [abs_of_nonneg (by linarith [h01.2])]; norm_num; linarith [h01.1]
  · exact le_huge 1 (by norm_num) (by norm_num)

theorem smallDelta_near {u c p s : FP E} {v C P S : ℝ} (hu : Ap 33 46 u v) (hc : Ap 37 50 c C) (hvC : √v ≤ C)
    (hp : Near (131001 / 2 ^ 50) p P) (hP : 0 ≤ P ∧ P ≤ 1) (hs : Near 0 s S) (hS : 0 ≤ S ∧ S ≤ 1) :
    Near (√v * (131100 / 2 ^ 50)) (smallDelta u c p s) (v / C * (S - P)) ∧ |v / C * (S - P)| ≤ √v := by
  have k := hu.div hc (by norm_num) (by norm_num) (by norm_num)
  have v0 := hu.2.pos
  have C0 := hc.2.pos
  have D0 : 0 < √v := Real.sqrt_pos.2 v0
  have hD := hu.2.sqrt
  have hW : v / C ≤ √v := by
    rw [div_le_iff₀ C0]
    calc v = √v * √v := (Real.mul_self_sqrt v0.le).symm
      _ ≤ _ := mul_le_mul_of_nonneg_left hvC D0.le
  set W := v / C with hWd
  have W0 : 0 < W := k.2.pos
  have hSP : |S - P| ≤ 1 := by rw [abs_le]; constructor <;> linarith [hS.1, hS.2, hP.1, hP.2]
  have hWS : |W * (S - P)| ≤ W := by
    rw [abs_mul, abs_of_pos W0]; exact mul_le_of_le_one_right W0.le hSP
  refine ⟨?_, hWS.trans hW⟩
  have k1 : Near (W * (71 / 2 ^ 50)) (u / c) W := (k.1.near W0.le).mono (by
    rw [mul_comm W]; gcongr; norm_num)
  have d1 := (near_sub hs hp (M := 1 + 1 / 2 ^ 20) (by norm_num at hSP ⊢; linarith) (by norm_num)
    (le_huge 1 (by norm_num) (by norm_num))).mono (δ := 131002 / 2 ^ 50) (by norm_num)
  have b1 : W * (71 / 2 ^ 50) * |S - P| ≤ W * (71 / 2 ^ 50) := mul_le_of_le_one_right (by positivity) hSP
  have low : (1 : ℝ) / 2 ^ 900 ≤ 1 / 2 ^ 46 :=
    one_div_le_one_div_of_le (by positivity) (pow_le_pow_right₀ (by norm_num) (by norm_num))
  have up : (2 : ℝ) ^ 47 ≤ 2 ^ 900 := pow_le_pow_right₀ (by norm_num) (by norm_num)
  have hD1 := hD.1
  have hD2 := hD.2
  refine (small_mul k1 d1 (M := 2 * √v) ?_ (low.trans (by linarith)) (le_trans (by norm_num at hD2 ⊢; linarith) up)).mono ?_
  · rw [abs_of_pos W0]
    clear low up
    generalize |W * (S - P)| = z at *
    norm_num at b1 ⊢
    linarith
  · rw [abs_of_pos W0]
    clear low up
    norm_num at b1 ⊢
    linarith

theorem eta_near (L : E.Lib) {u c p : FP E} {v C P : ℝ} (hu : Ap 33 46 u v) (hc : Ap 37 50 c C) (hvC : √v ≤ C)
    (hp : Near (131001 / 2 ^ 50) p P) (hP : 0 ≤ P ∧ P ≤ 1) :
    Near (262300 / 2 ^ 50) (eta u c p (gamma u c)) ((√v / C) ^ 3 * P * (1 - P)) ∧
      0 ≤ (√v / C) ^ 3 * P * (1 - P) ∧ (√v / C) ^ 3 * P * (1 - P) ≤ 1 / 4 := by
  have v0 := hu.2.pos
  have C0 := hc.2.pos
  have D0 : 0 < √v := Real.sqrt_pos.2 v0
  have k := (((hu.sqrt (by norm_num) (by norm_num)).div hc (by norm_num) (by norm_num) (by norm_num)).mul hu
    (by norm_num) (by norm_num) (by norm_num)).div (hc.sq L (by norm_num) (by norm_num)) (by norm_num) (by norm_num)
    (by norm_num)
  have e : √v / C * v / C ^ 2 = (√v / C) ^ 3 := by
    conv_lhs => rw [show √v / C * v = √v / C * √v ^ 2 by rw [Real.sq_sqrt v0.le]]
    ring
  rw [e] at k
  have x1 : √v / C ≤ 1 := (div_le_one C0).2 hvC
  have x0 : 0 < √v / C := by positivity
  set W := (√v / C) ^ 3 with hW
  have W0 : 0 < W := by positivity
  have W1 : W ≤ 1 := pow_le_one₀ x0.le x1
  have hPP : 0 ≤ P * (1 - P) := mul_nonneg hP.1 (by linarith [hP.2])
  have hPP' : P * (1 - P) ≤ 1 / 4 := by nlinarith [_root_.sq_nonneg (P - 1 / 2)]
  have hη : 0 ≤ W * P * (1 - P) ∧ W * P * (1 - P) ≤ 1 / 4 := by
    rw [mul_assoc]
    exact ⟨mul_nonneg W0.le hPP, by nlinarith⟩
  refine ⟨?_, hη⟩
  have k1 : Near (182 / 2 ^ 50) _ W := (k.1.near W0.le).mono (by
    refine (mul_le_of_le_one_right (by positivity) W1).trans (by norm_num))
  have hWP : 0 ≤ W * P ∧ W * P ≤ 1 := ⟨mul_nonneg W0.le hP.1, by nlinarith [hP.1, hP.2]⟩
  have k2 := (near_mul k1 hp (M := 1 + 1 / 2 ^ 20) (by
      rw [abs_of_nonneg hWP.1, abs_of_nonneg hP.1, abs_of_pos W0]
      have := hP.2
      have := hWP.2
      clear hW k k1
      generalize W * P = z at *
      norm_num at *; linarith) (by norm_num) (le_huge 1 (by norm_num) (by norm_num))).mono (δ := 131185 / 2 ^ 50) (by
      rw [abs_of_nonneg hP.1, abs_of_pos W0]
      have := hP.2
      clear hW k k1
      norm_num at *; linarith)
  have d : Near (131002 / 2 ^ 50) ((1.0 : FP E) - p) (1 - P) := by
    refine (near_sub (near_of_in one_in) hp (M := 1 + 1 / 2 ^ 20) ?_ (by norm_num)
      (le_huge 1 (by norm_num) (by norm_num))).mono (by norm_num)
    rw [abs_of_nonneg (by linarith [hP.2])]; norm_num; linarith [hP.1]
  have h1P : 0 ≤ 1 - P := by linarith [hP.2]
  refine (near_mul k2 d (M := 1 + 1 / 2 ^ 20) ?_ (by norm_num) (le_huge 1 (by norm_num) (by norm_num))).mono ?_
  · rw [abs_of_nonneg hη.1, abs_of_nonneg h1P, abs_of_nonneg hWP.1]
    have h1 := hη.2
    have h2 := hWP.2
    have h3 := hP.1
    clear hW k k1 hη
    generalize W * P * (1 - P) = z at *
    generalize W * P = z at *
    norm_num at *; linarith
  · rw [abs_of_nonneg h1P, abs_of_nonneg hWP.1]
    have h2 := hWP.2
    have h3 := hP.1
    clear hW k k1 hη
    generalize W * P = z at *
    norm_num at *; linarith

theorem sqrt_diff {x X κ ε : ℝ} (hx : 0 ≤ x) (hκ : 0 < κ) (hX : κ ≤ X) (h : |x - X| ≤ ε) :
    |√x - √X| ≤ ε / √κ := by
  have hX0 : 0 < X := lt_of_lt_of_le hκ hX
  have s0 := Real.sqrt_pos.2 hκ
  rw [le_div_iff₀ s0]
  refine le_trans ?_ h
  have e : x - X = (√x - √X) * (√x + √X) := by
    rw [show (√x - √X) * (√x + √X) = √x ^ 2 - √X ^ 2 by ring, Real.sq_sqrt hx, Real.sq_sqrt hX0.le]
  rw [e, abs_mul, abs_of_nonneg (a := √x + √X) (by positivity)]
  refine mul_le_mul_of_nonneg_left ?_ (abs_nonneg _)
  have := Real.sqrt_le_sqrt hX
  linarith [Real.sqrt_nonneg x]

theorem member_near (L : E.Lib) {r σ u Ω Δ tol : FP E} {v O Dl w κ : ℝ} (hr : r.isFinite)
    (hr1 : |r.toR| ≤ 2 ^ 30) (hσ : Between (1 / 2 ^ 20) (2 ^ 20) σ) (hu : Ap 33 46 u v) (hσv : σ.toR ^ 2 ≤ v)
    (hw : 1 ≤ w) (hw' : w ≤ 64) (hΩ : Near (w * (√v * (131200 / 2 ^ 50))) Ω O) (hO : |O| ≤ w * √v)
    (hΔ : Near (w * (262400 / 2 ^ 50)) Δ Dl) (hDl : 0 ≤ Dl) (hDl' : Dl ≤ w * (1 / 4)) (ht : Within 1 tol)
    (hκ : 1 / 2 ^ 20 ≤ κ) (hκ1 : κ ≤ 1) (hX : κ ≤ max (1 - σ.toR ^ 2 / v * Dl) tol.toR) :
    Near ((|r.toR| + w * σ.toR) / 2 ^ 32) (newRatingTeams r (Flt.powi σ 2) u Ω)
      (wlRating r.toR (σ.toR ^ 2) v O) ∧
    Near (w * σ.toR / (2 ^ 31 * √κ)) (newUncertaintyTeams (Flt.powi σ 2) u tol Δ)
      (wlUncertainty (σ.toR ^ 2) v Dl tol.toR) := by
  have hσ' := FP.Spec.Between.ap' hσ
  have σ0 := hσ'.2.pos
  have σ1 := hσ.2.1
  have σ2 := hσ.2.2
  have v0 := hu.2.pos
  have D0 : 0 < √v := Real.sqrt_pos.2 v0
  have hs := hσ'.sq L (by norm_num) (by norm_num)
  have k := hs.div hu (by norm_num) (by norm_num) (by norm_num)
  set ρ := σ.toR ^ 2 / v with hρ
  have ρ0 : 0 < ρ := k.2.pos
  have ρ1 : ρ ≤ 1 := (div_le_one v0).2 hσv
  have hσD : σ.toR ≤ √v := Real.le_sqrt_of_sq_le hσv
  have hρD : ρ * √v ≤ σ.toR := by
    rw [hρ, div_mul_eq_mul_div, div_le_iff₀ v0]
    have : √v * √v = v := Real.mul_self_sqrt v0.le
    calc σ.toR ^ 2 * √v = σ.toR * (σ.toR * √v) := by ring
      _ ≤ σ.toR * (√v * √v) := by gcongr
      _ = _ := by rw [this]
  have w0 : 0 < w := by linarith
  have k1 : Near (ρ * (35 / 2 ^ 50)) (Flt.powi σ 2 / u) ρ := (k.1.near ρ0.le).mono (by
    rw [mul_comm ρ]; gcongr; norm_num)
  have wσ : σ.toR ≤ w * σ.toR := le_mul_of_one_le_left σ0.le hw
  have wσ' : w * σ.toR ≤ 64 * σ.toR := mul_le_mul_of_nonneg_right hw' σ0.le
  refine ⟨?_, ?_⟩
  · have p900 : (1 : ℝ) / 2 ^ 900 ≤ 1 / 2 ^ 20 :=
      one_div_le_one_div_of_le (by positivity) (pow_le_pow_right₀ (by norm_num) (by norm_num))
    have q900 : (2 : ℝ) ^ 40 ≤ 2 ^ 900 := pow_le_pow_right₀ (by norm_num) (by norm_num)
    have hρO : |ρ * O| ≤ w * σ.toR := by
      rw [abs_mul, abs_of_pos ρ0]
      calc ρ * |O| ≤ ρ * (w * √v) := mul_le_mul_of_nonneg_left hO ρ0.le
        _ = w * (ρ * √v) := by ring
        _ ≤ _ := mul_le_mul_of_nonneg_left hρD w0.le
    have b1 : ρ * (35 / 2 ^ 50) * |O| ≤ w * σ.toR * (35 / 2 ^ 50) := by
      rw [abs_mul, abs_of_pos ρ0] at hρO
      calc _ = ρ * |O| * (35 / 2 ^ 50) := by ring
        _ ≤ _ := mul_le_mul_of_nonneg_right hρO (by positivity)
    have b2 : |ρ| * (w * (√v * (131200 / 2 ^ 50))) ≤ w * σ.toR * (131200 / 2 ^ 50) := by
      rw [abs_of_pos ρ0]
      calc _ = w * (ρ * √v) * (131200 / 2 ^ 50) := by ring
        _ ≤ _ := by gcongr
    have b3 : ρ * (35 / 2 ^ 50) * (w * (√v * (131200 / 2 ^ 50))) ≤ w * σ.toR * (1 / 2 ^ 50) := by
      calc _ = w * (ρ * √v) * (35 / 2 ^ 50 * (131200 / 2 ^ 50)) := by ring
        _ ≤ w * σ.toR * (35 / 2 ^ 50 * (131200 / 2 ^ 50)) := by gcongr
        _ ≤ _ := mul_le_mul_of_nonneg_left (by norm_num) (by positivity)
    have hsum := (abs_add_le (ρ * O) r.toR)
    have hr0 := abs_nonneg r.toR
    rw [wlRating, ← hρ, add_comm r.toR]
    have errs := add_le_add (add_le_add b1 b2) b3
    generalize hz : ρ * (35 / 2 ^ 50) * |O| + |ρ| * (w * (√v * (131200 / 2 ^ 50)))
      + ρ * (35 / 2 ^ 50) * (w * (√v * (131200 / 2 ^ 50))) = z at errs
    generalize hy : w * σ.toR = y at *
    refine (small_mulAdd k1 hΩ (near_self hr) (M := 2 * (|r.toR| + y)) ?_ ?_ ?_).mono ?_
    · rw [hz]
      have hs2 : |ρ * O + r.toR| ≤ y + |r.toR| := hsum.trans (by linarith)
      generalize |ρ * O + r.toR| = q at *
      generalize |r.toR| = q at *
      clear p900 q900 b1 b2 b3 hρO hsum
      norm_num at errs ⊢
      linarith
    · exact p900.trans (by linarith)
    · refine le_trans ?_ q900
      clear p900 q900
      norm_num at hr1 σ2 ⊢; linarith
    · rw [hz]
      clear p900 q900 b1 b2 b3 hρO hsum
      generalize |r.toR| = q at *
      norm_num at errs ⊢
      linarith
  · have nΔ := hΔ.neg
    have hρΔ : |ρ * -Dl| ≤ w * (1 / 4) := by
      rw [mul_neg, abs_neg, abs_of_nonneg (mul_nonneg ρ0.le hDl)]
      exact (mul_le_of_le_one_left hDl ρ1).trans hDl'
    have c1 : ρ * (35 / 2 ^ 50) * |-Dl| ≤ w * (1 / 4) * (35 / 2 ^ 50) := by
      rw [abs_mul, abs_of_pos ρ0] at hρΔ
      calc _ = ρ * |-Dl| * (35 / 2 ^ 50) := by ring
        _ ≤ _ := mul_le_mul_of_nonneg_right hρΔ (by positivity)
    have c2 : |ρ| * (w * (262400 / 2 ^ 50)) ≤ w * (262400 / 2 ^ 50) := by
      rw [abs_of_pos ρ0]; exact mul_le_of_le_one_left (by positivity) ρ1
    have c3 : ρ * (35 / 2 ^ 50) * (w * (262400 / 2 ^ 50)) ≤ w * (1 / 2 ^ 50) := by
      calc _ ≤ 1 * (35 / 2 ^ 50) * (w * (262400 / 2 ^ 50)) := by gcongr
        _ = w * (1 * (35 / 2 ^ 50) * (262400 / 2 ^ 50)) := by ring
        _ ≤ _ := mul_le_mul_of_nonneg_left (by norm_num) w0.le
    have errs := add_le_add (add_le_add c1 c2) c3
    generalize hz : ρ * (35 / 2 ^ 50) * |-Dl| + |ρ| * (w * (262400 / 2 ^ 50))
      + ρ * (35 / 2 ^ 50) * (w * (262400 / 2 ^ 50)) = z at errs
    have t0 : |ρ * -Dl + 1| ≤ w * (1 / 4) + 1 := (abs_add_le _ _).trans (by rw [abs_one]; linarith)
    have m1 := (small_mulAdd k1 nΔ (near_of_in (one_in (E := E))) (M := 2 * w) (by
        rw [hz]; clear c1 c2 c3 hz
        generalize |ρ * -Dl + 1| = q at *
        norm_num at errs ⊢; linarith) (by
        have : (1 : ℝ) / 2 ^ 900 ≤ 1 / 2 ^ 0 :=
          one_div_le_one_div_of_le (by positivity) (pow_le_pow_right₀ (by norm_num) (by norm_num))
        rw [pow_zero, div_one] at this
        linarith) (le_trans (show 2 * w ≤ 2 ^ 7 by norm_num; linarith) (pow_le_pow_right₀ (by norm_num) (by norm_num)))).mono
        (δ := w * (262450 / 2 ^ 50)) (by
        rw [hz]; clear c1 c2 c3 hz
        norm_num at errs ⊢; linarith)
    have m2 := near_max m1 ht.1
    have eX : max (ρ * -Dl + 1) tol.toR = max (1 - ρ * Dl) tol.toR := by congr 1; ring
    rw [eX] at m2
    rw [wlUncertainty, newUncertaintyTeams, ← hρ]
    set X := max (1 - ρ * Dl) tol.toR with hXd
    set x := Flt.fmax (Flt.mulAdd (Flt.powi σ 2 / u) (-Δ) (1.0 : FP E)) tol with hx
    change Near _ (Flt.sqrt (Flt.powi σ 2 * x)) _
    have X1 : X ≤ 1 := max_le (by linarith [mul_nonneg ρ0.le hDl]) (le_of_abs_le ht.2)
    have hd := abs_le.1 m2.2
    have wz : w * (262450 / 2 ^ 50) ≤ 1 / 2 ^ 25 := by norm_num; linarith
    have x0 : 1 / 2 ^ 21 ≤ x.toR := by
      have h1 := hd.1
      norm_num at h1 hκ wz ⊢
      linarith
    have x1 : x.toR ≤ 1 + 1 / 2 ^ 25 := by linarith [hd.2]
    have hxp : 0 < x.toR := lt_of_lt_of_le (by norm_num) x0
    have ax : Ap 0 21 x x.toR := ⟨Rel.exact m2.1, x0, x1.trans (by norm_num)⟩
    have q := (hs.mul ax (by norm_num) (by norm_num) (by norm_num)).sqrt (by norm_num) (by norm_num)
    have es : ∀ y : ℝ, √(σ.toR ^ 2 * y) = σ.toR * √y := by
      intro y
      rw [Real.sqrt_mul (_root_.sq_nonneg _), Real.sqrt_sq σ0.le]
    have q1 := q.1.near q.2.pos.le
    rw [es] at q1 ⊢
    have κ0 : 0 < κ := lt_of_lt_of_le (by norm_num) hκ
    have sd := sqrt_diff hxp.le κ0 hX m2.2
    have sκ0 := Real.sqrt_pos.2 κ0
    have sκ1 : √κ ≤ 1 := by rw [Real.sqrt_le_one]; exact hκ1
    have sx : √x.toR ≤ 2 := by
      rw [Real.sqrt_le_iff]; norm_num at x1 ⊢; linarith
    refine ⟨q1.1, ?_⟩
    have h1 := abs_sub_le (Flt.sqrt (Flt.powi σ 2 * x) : FP E).toR (σ.toR * √x.toR) (σ.toR * √X)
    have h2 : |σ.toR * √x.toR - σ.toR * √X| ≤ σ.toR * (w * (262450 / 2 ^ 50) / √κ) := by
      rw [← mul_sub, abs_mul, abs_of_pos σ0]; exact mul_le_mul_of_nonneg_left sd σ0.le
    have h3 := q1.2
    have h4 : (2 * 0 + 1 + 0 + 1 + 1) / 2 ^ 50 * (σ.toR * √x.toR) ≤ σ.toR * (w * (8 / 2 ^ 50) / √κ) := by
      have : (1 : ℝ) ≤ w / √κ := by rw [le_div_iff₀ sκ0]; linarith
      calc _ ≤ (2 * 0 + 1 + 0 + 1 + 1) / 2 ^ 50 * (σ.toR * 2) := by gcongr
        _ ≤ σ.toR * (1 * (8 / 2 ^ 50)) := by norm_num; linarith
        _ ≤ σ.toR * (w / √κ * (8 / 2 ^ 50)) := by gcongr
        _ = _ := by ring
    refine h1.trans ((add_le_add (h3.trans h4) h2).trans ?_)
    rw [show w * σ.toR / (2 ^ 31 * √κ) = σ.toR * (w / √κ) * (1 / 2 ^ 31) by field_simp]
    rw [show σ.toR * (w * (8 / 2 ^ 50) / √κ) + σ.toR * (w * (262450 / 2 ^ 50) / √κ)
      = σ.toR * (w / √κ) * (8 / 2 ^ 50 + 262450 / 2 ^ 50) by ring]
    exact mul_le_mul_of_nonneg_left (by norm_num) (by positivity)

end WengLin
end Skillratings
