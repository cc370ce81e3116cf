import Verif.Proofs.FPAverage
import Verif.Proofs.Uscf
/-
C129 for USCF: double precision stays close to exact arithmetic.
-/

namespace Skillratings
open FP FPVal Spec
variable {E : FloatEnv}

/-- The same player in exact arithmetic. -/
noncomputable def uscfExact (a : Uscf.USCFRating (FP E)) : Uscf.USCFRating ℝ := ⟨a.rating.toR, a.games⟩

/-- A player with a rating of magnitude at most `2 ^ 14` and less than `2 ^ 52` games. -/
def UscfUsual (a : Uscf.USCFRating (FP E)) : Prop := Within (2 ^ 14) a.rating ∧ a.games < 2 ^ 52

theorem uscf_score_near (A : E.Accurate) {x y : FP E} (hx : Within (2 ^ 14) x) (hy : Within (2 ^ 14) y) :
    Near (1 / 2 ^ 39) (Uscf.eValue x y) (Uscf.eValue x.toR y.toR) := by
  have h400 := near_of_in (lit_in (E := E) (m := 4000) (s := true) (e := 1) (v := 400) (by norm_num)
    (SRep.ofNat 400 (by norm_num)))
  have hx2 := hx.2
  have hy2 := hy.2
  have hsub : |x.toR - y.toR| ≤ 2 ^ 15 := by
    refine (abs_sub _ _).trans ?_
    norm_num at hx2 hy2 ⊢; linarith
  have h1 := (near_sub hx.near hy.near (M := 2 ^ 15 + 1) (by linarith) (by norm_num)
    (le_huge 16 (by norm_num) (by norm_num))).neg
  have hb : (|-(x.toR - y.toR)| + (0 + 0 + (2 ^ 15 + 1) / 2 ^ 51)) / 400 ≤ 128 := by
    rw [abs_neg, div_le_iff₀ (by norm_num)]
    norm_num at hsub ⊢; linarith
  have h2 := (near_div_const h1 h400 (by norm_num) hb (by norm_num)
    (le_huge 7 (by norm_num) (by norm_num))).mono (δ := 1 / 2 ^ 43) (by norm_num)
  have hz : |-(x.toR - y.toR) / 400| ≤ 200 := by
    rw [abs_div, abs_neg, abs_of_pos (by norm_num : (0 : ℝ) < 400), div_le_iff₀ (by norm_num)]
    norm_num at hsub ⊢; linarith
  have h10 : (10.0 : FP E).toE = ((10 : ℝ) : EReal) := le_antisymm ten_in.2.2 ten_in.2.1
  have hp := A.powf_ten (10.0 : FP E) _ h10 h2.1 (by
    have := h2.abs_le
    norm_num at this hz ⊢; linarith)
  obtain ⟨s, e⟩ := add_fin (E := E) (y := (1.0 : FP E)) hp.1 one_in.finite
  have h1R : (1.0 : FP E).toR = 1 := le_antisymm one_in.toR.2 one_in.toR.1
  rw [h1R, add_comm _ (1 : ℝ)] at e
  have h := near_logistic_core h2 (by norm_num) hz hp ⟨s, e⟩
  rw [one_div (1 + _), inv_one_add_pow, show -(Real.log 10 * (-(x.toR - y.toR) / 400))
    = Real.log 10 / 400 * (x.toR - y.toR) by ring] at h
  rw [Uscf.eValue_real]
  exact h.mono (by norm_num)

theorem uscf_score01 (r s : ℝ) : 0 ≤ Uscf.eValue r s ∧ Uscf.eValue r s ≤ 1 := by
  rw [Uscf.eValue_real]; exact sig01 _

/-- USCF, expected scores. -/
theorem C129_uscf_expected (A : E.Accurate) (a b : Uscf.USCFRating (FP E))
    (ha : UscfUsual a) (hb : UscfUsual b) :
    Near (1 / 2 ^ 38) (Uscf.expectedScore a b).1 (Uscf.expectedScore (uscfExact a) (uscfExact b)).1 ∧
    Near (1 / 2 ^ 38) (Uscf.expectedScore a b).2 (Uscf.expectedScore (uscfExact a) (uscfExact b)).2 := by
  have he := uscf_score_near A ha.1 hb.1
  have he2 := one_sub_near he (uscf_score01 _ _)
  refine ⟨he.mono (by norm_num), ?_⟩
  have e : (Uscf.expectedScore (uscfExact a) (uscfExact b)).2
      = 1 - Uscf.eValue a.rating.toR b.rating.toR := by simp only [Uscf.expectedScore, uscfExact, flt]
  rw [e]
  exact he2.mono (by norm_num)

/-- USCF, expected scores of a rating period, opponent by opponent. -/
theorem C129_uscf_expected_period (A : E.Accurate) (p : Uscf.USCFRating (FP E))
    (os : List (Uscf.USCFRating (FP E))) (hp : UscfUsual p) (ho : ∀ o ∈ os, UscfUsual o) :
    List.Forall₂ (Near (1 / 2 ^ 38)) (Uscf.expectedScoreRatingPeriod p os)
      (Uscf.expectedScoreRatingPeriod (uscfExact p) (os.map uscfExact)) := by
  induction os with
  | nil => exact List.Forall₂.nil
  | cons o os ih =>
    refine List.Forall₂.cons ?_ (ih fun x hx => ho x (List.mem_cons_of_mem _ hx))
    exact (C129_uscf_expected A p o hp (ho o List.mem_cons_self)).1

/-- The effective number of games. -/
theorem uscf_effective_ap (L : E.Lib) {r : FP E} {g : ℕ} (hr : Within (2 ^ 14) r) (hg : g < 2 ^ 53)
    (h0 : 0 < g) : Ap 12 14 (Uscf.effectiveGameNumber r g) (uscfEffective r.toR g) := by
  have h50 := lit_in (E := E) (m := 500) (s := true) (e := 1) (v := 50) (by norm_num)
    (SRep.ofNat 50 (by norm_num))
  have r50 := lit_rel h50
  have hg1 : (1 : ℝ) ≤ g := by exact_mod_cast h0
  have rg : Rel 0 (Flt.ofNat g : FP E) g :=
    Rel.of_eq (ofNat_in hg).finite (le_antisymm (ofNat_in (E := E) hg).toR.2 (ofNat_in (E := E) hg).toR.1)
  have rm := rel_cap rg r50 (by linarith) (by norm_num) (by norm_num)
  have h2355 := lit_in (E := E) (m := 23550) (s := true) (e := 1) (v := 2355) (by norm_num)
    (SRep.ofNat 2355 (by norm_num))
  have e2355 : FP.toR (2355.0 : FP E) = 2355 := le_antisymm h2355.toR.2 h2355.toR.1
  have hlt : (r <? 2355.0) = true ↔ r.toR < 2355 := by rw [lt_iff_toR hr.1 h2355.finite, e2355]
  have hr2 := abs_le.1 hr.2
  have main : Ap 12 14 (if r <? 2355.0 then
      50.0 / Flt.sqrt (Flt.mulAdd 0.00000739 (Flt.powi (2569.0 - r) 2) 0.662) else 50.0 : FP E)
      (if r.toR < 2355 then 50 / √(0.662 + 0.00000739 * (2569 - r.toR) ^ 2) else 50) := by
    by_cases h : r.toR < 2355
    · rw [if_pos (hlt.2 h), if_pos h]
      have h2569 := lit_in (E := E) (m := 25690) (s := true) (e := 1) (v := 2569) (by norm_num)
        (SRep.ofNat 2569 (by norm_num))
      have e2569 : FP.toR (2569.0 : FP E) = 2569 := le_antisymm h2569.toR.2 h2569.toR.1
      have md : Mid 15 (2569 - r.toR) := ⟨by norm_num; linarith, by norm_num at hr2 ⊢; linarith [hr2.1]⟩
      have d1 : Ap 1 15 ((2569.0 : FP E) - r) (2569 - r.toR) := by
        refine ⟨?_, md⟩
        obtain ⟨s, e⟩ := sub_fin (E := E) h2569.finite hr.1
        rw [e, e2569]
        have m := md.mono (show 15 ≤ 900 by norm_num)
        exact (rel_round (E := E) (k := 0) (d := 0) md.pos m.1 m.2 (by simp) (by norm_num) (by ring)).mono
          (by norm_num)
      have d2 := d1.sq L (by norm_num) (by norm_num)
      have c1 : Ap 1 18 (0.00000739 : FP E) (0.00000739 : ℝ) :=
        lit_ap (m := 739) (s := true) (e := 8) rfl ⟨by norm_num, by norm_num⟩ (by norm_num)
      have c2 : Ap 1 48 (0.662 : FP E) (0.662 : ℝ) :=
        lit_ap (m := 662) (s := true) (e := 3) rfl ⟨by norm_num, by norm_num⟩ (by norm_num)
      have d3 := c1.mulAdd d2 c2 (by norm_num) (by norm_num) (by norm_num) (by norm_num)
      have d4 := d3.sqrt (by norm_num) (by norm_num)
      have a50 : Ap 0 6 (50.0 : FP E) 50 := ⟨r50, by norm_num, by norm_num⟩
      have d5 := a50.div d4 (by norm_num) (by norm_num) (by norm_num)
      rw [add_comm (0.662 : ℝ)]
      refine ⟨d5.1.mono (by norm_num), ?_, ?_⟩
      · rw [le_div_iff₀ d4.2.pos]
        have : √(0.00000739 * (2569 - r.toR) ^ 2 + 0.662) ≤ 2 ^ 15 := by
          rw [Real.sqrt_le_iff]
          refine ⟨by norm_num, ?_⟩
          have := md.pos
          have h3 := md.2
          norm_num at h3 ⊢
          nlinarith
        norm_num at this ⊢; linarith
      · rw [div_le_iff₀ d4.2.pos]
        have : 1 / 2 ≤ √(0.00000739 * (2569 - r.toR) ^ 2 + 0.662) := by
          refine Real.le_sqrt_of_sq_le ?_
          have := _root_.sq_nonneg (2569 - r.toR)
          norm_num
          linarith
        norm_num at this ⊢; linarith
    · rw [if_neg (fun h' => h (hlt.1 h')), if_neg h]
      exact ⟨r50.mono (by norm_num), by norm_num, by norm_num⟩
  refine ⟨rel_cap main.1 rm main.2.pos (lt_min (by linarith) (by norm_num)) (by norm_num), ?_, ?_⟩
  · exact le_min main.2.1 (le_min (by norm_num; linarith) (by norm_num))
  · exact (min_le_left _ _).trans main.2.2

/-- The K factor. -/
theorem uscf_factor_rel (L : E.Lib) {r : FP E} {g m : ℕ} (hr : Within (2 ^ 14) r) (hg : g < 2 ^ 53)
    (h0 : 0 < g) (hm : 0 < m) (hm' : m ≤ 2 ^ 10) :
    Rel 16 ((800.0 : FP E) / (Uscf.effectiveGameNumber r g + Flt.ofNat m)) (uscfK r.toR g m) ∧
      0 < uscfK r.toR g m ∧ uscfK r.toR g m ≤ 800 / m := by
  have he := uscf_effective_ap L hr hg h0
  have hm1 : (1 : ℝ) ≤ m := by exact_mod_cast hm
  have hm2 : (m : ℝ) ≤ 2 ^ 10 := by exact_mod_cast hm'
  have hb : m < 2 ^ 53 := lt_of_le_of_lt hm' (by norm_num)
  have am : Ap 12 14 (Flt.ofNat m : FP E) m := by
    refine ⟨(Rel.of_eq (ofNat_in hb).finite
      (le_antisymm (ofNat_in (E := E) hb).toR.2 (ofNat_in (E := E) hb).toR.1)).mono (by norm_num), ?_, ?_⟩
    · norm_num; linarith
    · norm_num at hm2 ⊢; linarith
  have h800 : Ap 0 10 (800.0 : FP E) 800 :=
    ⟨lit_rel (lit_in (E := E) (m := 8000) (s := true) (e := 1) (v := 800) (by norm_num)
      (SRep.ofNat 800 (by norm_num))), by norm_num, by norm_num⟩
  have hs := he.add am (by norm_num) (by norm_num)
  have hk := h800.div hs (by norm_num) (by norm_num) (by norm_num)
  refine ⟨hk.1.mono (by norm_num), hk.2.pos, ?_⟩
  exact div_le_div_of_nonneg_left (by norm_num) (by linarith) (by linarith [he.2.pos])

/-- The new rating of an established player. -/
theorem uscf_established_near (L : E.Lib) {r s e t : FP E} {g m : ℕ} {S X : ℝ} (hr : Within (2 ^ 14) r)
    (hg : g < 2 ^ 53) (h0 : 0 < g) (hm : 0 < m) (hm' : m ≤ 2 ^ 10)
    (hd : Near (m * (1 / 2 ^ 37)) (s - e) (S - X)) (hSX : |S - X| ≤ m) (ht : Within (2 ^ 10) t) :
    Near (1 / 2 ^ 26) (Uscf.newRating r g m s e ⟨t⟩) (Uscf.newRating r.toR g m S X ⟨t.toR⟩) := by
  obtain ⟨k1, k0, k2⟩ := uscf_factor_rel L hr hg h0 hm hm'
  have hm1 : (1 : ℝ) ≤ m := by exact_mod_cast hm
  have hm0 : (0 : ℝ) < m := by linarith
  set K := uscfK r.toR g m with hK
  have kn : Near (16 / 2 ^ 50 * (800 / m)) ((800.0 : FP E) / (Uscf.effectiveGameNumber r g + Flt.ofNat m)) K :=
    (k1.near k0.le).mono (mul_le_mul_of_nonneg_left k2 (by norm_num))
  have e1 : (16 : ℝ) / 2 ^ 50 * (800 / m) * |S - X| ≤ 16 / 2 ^ 50 * 800 := by
    calc (16 : ℝ) / 2 ^ 50 * (800 / m) * |S - X| ≤ 16 / 2 ^ 50 * (800 / m) * m :=
          mul_le_mul_of_nonneg_left hSX (by positivity)
      _ = _ := by field_simp
  have e2 : |K| * (m * (1 / 2 ^ 37)) ≤ 800 / 2 ^ 37 := by
    rw [abs_of_pos k0]
    calc K * (m * (1 / 2 ^ 37)) ≤ 800 / m * (m * (1 / 2 ^ 37)) :=
          mul_le_mul_of_nonneg_right k2 (by positivity)
      _ = _ := by field_simp
  have e3 : (16 : ℝ) / 2 ^ 50 * (800 / m) * (m * (1 / 2 ^ 37)) ≤ 1 / 2 ^ 70 := by
    have : (16 : ℝ) / 2 ^ 50 * (800 / m) * (m * (1 / 2 ^ 37)) = 16 / 2 ^ 50 * 800 * (1 / 2 ^ 37) := by
      field_simp
    rw [this]; norm_num
  have e4 : |K * (S - X)| ≤ 800 := by
    rw [abs_mul, abs_of_pos k0]
    calc K * |S - X| ≤ 800 / m * m := mul_le_mul k2 hSX (abs_nonneg _) (by positivity)
      _ = _ := by field_simp
  have hr2 := hr.2
  have hsum := abs_add_le (K * (S - X)) r.toR
  have step := (near_mulAdd kn hd hr.near (M := 2 ^ 15) (by
      norm_num at e1 e2 e3 e4 hr2 hsum ⊢
      linarith) (by norm_num) (le_huge 15 (by norm_num) (by norm_num))).mono (δ := 1 / 2 ^ 27 - 1 / 2 ^ 30) (by
      norm_num at e1 e2 e3 ⊢
      linarith)
  have kse := (near_mul kn hd (M := 2 ^ 10) (by
      norm_num at e1 e2 e3 e4 ⊢
      linarith) (by norm_num) (le_huge 10 (by norm_num) (by norm_num))).mono (δ := 1 / 2 ^ 27 - 1 / 2 ^ 30) (by
      norm_num at e1 e2 e3 ⊢
      linarith)
  -- the bonus
  have bonus : Near (1 / 2 ^ 27 - 1 / 2 ^ 31)
      (Uscf.getBoostValue m ((800.0 : FP E) / (Uscf.effectiveGameNumber r g + Flt.ofNat m)) e s t)
      (uscfBonus m (K * (S - X)) (t.toR * √(min m 4 : ℕ))) ∧
      |uscfBonus m (K * (S - X)) (t.toR * √(min m 4 : ℕ))| ≤ 2 ^ 12 := by
    unfold Uscf.getBoostValue uscfBonus
    by_cases h3 : m < 3
    · rw [if_pos h3, if_pos h3]
      exact ⟨(near_of_in (lit_in (E := E) (m := 0) (s := true) (e := 1) (v := 0) (by norm_num) SRep.zero)).mono
        (by norm_num), by norm_num⟩
    · rw [if_neg h3, if_neg h3]
      have c1 : 3 ≤ min m 4 := by omega
      have c2 : min m 4 ≤ 4 := by omega
      have c1' : (3 : ℝ) ≤ ((min m 4 : ℕ) : ℝ) := by exact_mod_cast c1
      have c2' : ((min m 4 : ℕ) : ℝ) ≤ 4 := by exact_mod_cast c2
      have hb : min m 4 < 2 ^ 53 := lt_of_le_of_lt c2 (by norm_num)
      have ac : Ap 0 2 (Flt.ofNat (min m 4) : FP E) ((min m 4 : ℕ) : ℝ) := by
        refine ⟨Rel.of_eq (ofNat_in hb).finite
          (le_antisymm (ofNat_in (E := E) hb).toR.2 (ofNat_in (E := E) hb).toR.1), ?_, ?_⟩
        · exact le_trans (by norm_num) c1'
        · exact c2'.trans (by norm_num)
      have aq := ac.sqrt (by norm_num) (by norm_num)
      have q2 : √((min m 4 : ℕ) : ℝ) ≤ 2 := by
        rw [Real.sqrt_le_iff]; exact ⟨by norm_num, by linarith⟩
      have q0 := Real.sqrt_nonneg ((min m 4 : ℕ) : ℝ)
      have nq : Near (2 / 2 ^ 50) (Flt.sqrt (Flt.ofNat (min m 4) : FP E)) √((min m 4 : ℕ) : ℝ) :=
        (aq.1.near q0).mono ((mul_le_mul_of_nonneg_left q2 (by norm_num)).trans (by norm_num))
      have ht2 := ht.2
      clear_value K
      generalize √((min m 4 : ℕ) : ℝ) = Q at *
      generalize Flt.sqrt (Flt.ofNat (min m 4) : FP E) = q at *
      have b1 : |t.toR * Q| ≤ 2 ^ 11 := by
        rw [abs_mul, abs_of_nonneg q0]
        calc |t.toR| * Q ≤ 2 ^ 10 * 2 := mul_le_mul ht2 q2 q0 (by norm_num)
          _ = _ := by norm_num
      have b2 : |t.toR| * (2 / 2 ^ 50) ≤ 2 ^ 10 * (2 / 2 ^ 50) := mul_le_mul_of_nonneg_right ht2 (by norm_num)
      have tm := (near_mul ht.near nq (M := 2 ^ 12) (by
        norm_num at b1 b2 ⊢; linarith) (by norm_num) (le_huge 12 (by norm_num) (by norm_num))).mono
          (δ := 1 / 2 ^ 37) (by norm_num at b2 ⊢; linarith)
      have hdiff : |K * (S - X) - t.toR * Q| ≤ 800 + 2 ^ 11 :=
        (abs_sub _ _).trans (add_le_add e4 b1)
      refine ⟨(excess_near kse tm (M := 2 ^ 12) (by norm_num at hdiff ⊢; linarith) (by norm_num)
        (le_huge 12 (by norm_num) (by norm_num))).mono (by norm_num), ?_⟩
      rw [abs_of_nonneg (le_max_left _ _)]
      exact max_le (by norm_num) ((le_abs_self _).trans (hdiff.trans (by norm_num)))
  obtain ⟨w1, w2⟩ := bonus
  rw [Uscf.newRating_real, ← hK, show r.toR + K * (S - X) = K * (S - X) + r.toR by ring]
  have hfin := abs_add_le (K * (S - X) + r.toR) (uscfBonus m (K * (S - X)) (t.toR * √(min m 4 : ℕ)))
  change Near _ (Flt.mulAdd _ (s - e) r + _) _
  exact (near_add step w1 (M := 2 ^ 16) (by
    norm_num at e4 hr2 hsum hfin w2 ⊢
    linarith) (by norm_num) (le_huge 16 (by norm_num) (by norm_num))).mono (by norm_num)

theorem ofInt_near {n : ℤ} (h : |n| < 2 ^ 53) : Near 0 (Flt.ofInt n : FP E) n := by
  have hs : SRep (n : ℝ) := by
    rcases le_total 0 n with h0 | h0
    · lift n to ℕ using h0
      have : n < 2 ^ 53 := by rw [abs_of_nonneg (by positivity)] at h; exact_mod_cast h
      simpa using SRep.nat this
    · obtain ⟨k, hk⟩ := Int.exists_eq_neg_ofNat h0
      subst hk
      have : k < 2 ^ 53 := by rw [abs_neg, abs_of_nonneg (by positivity)] at h; exact_mod_cast h
      simpa using (SRep.nat this).neg
  exact near_of_in (In.of_round false hs hs le_rfl le_rfl)

/-- The new rating of a provisional player. -/
theorem uscf_provisional_near {r p : FP E} {g m : ℕ} {w l : ℤ} {P : ℝ} (hr : Within (2 ^ 14) r) (hg : g ≤ 8)
    (hm : 0 < m) (hm' : m ≤ 2 ^ 10) (hp : Near (1 / 2 ^ 25) p P) (hP : |P| ≤ 2 ^ 14) (hw : |w - l| ≤ m) :
    Near (1 / 2 ^ 24) (Uscf.newRatingProvisional r g m p w l) (Uscf.newRatingProvisional r.toR g m P w l) := by
  have hm1 : (1 : ℝ) ≤ m := by exact_mod_cast hm
  have hm2 : (m : ℝ) ≤ 1024 := by exact_mod_cast hm'
  have hg0 : (0 : ℝ) ≤ g := Nat.cast_nonneg g
  have hg2 : (g : ℝ) ≤ 8 := by exact_mod_cast hg
  have hw2 : |((w - l : ℤ) : ℝ)| ≤ m := by exact_mod_cast hw
  have h400 := near_of_in (lit_in (E := E) (m := 4000) (s := true) (e := 1) (v := 400) (by norm_num)
    (SRep.ofNat 400 (by norm_num)))
  have nw : Near 0 (Flt.ofInt (w - l) : FP E) ((w - l : ℤ) : ℝ) :=
    ofInt_near (lt_of_le_of_lt hw (by
      have : (m : ℤ) ≤ 2 ^ 10 := by exact_mod_cast hm'
      linarith))
  have hr2 := hr.2
  have c1 : |(m : ℝ) * P| ≤ m * 2 ^ 14 := by
    rw [abs_mul, abs_of_pos (by linarith : (0 : ℝ) < m)]
    exact mul_le_mul_of_nonneg_left hP (by linarith)
  have n1 := (near_mul (ofNat_near (E := E) (n := m) (by norm_num at hm' ⊢; omega)) hp (M := m * (2 ^ 14 + 1)) (by
    rw [abs_of_pos (by linarith : (0 : ℝ) < m)]
    norm_num at c1 ⊢; linarith) (by linarith) (le_huge 25 (by norm_num; linarith) (by norm_num))).mono
      (δ := m * (1 / 2 ^ 25 + 1 / 2 ^ 36)) (by
        rw [abs_of_pos (by linarith : (0 : ℝ) < m)]
        norm_num; linarith)
  have c2 : |(g : ℝ) * r.toR| ≤ 8 * 2 ^ 14 := by
    rw [abs_mul, abs_of_nonneg hg0]
    exact mul_le_mul hg2 hr2 (abs_nonneg _) (by norm_num)
  have s1 := abs_add_le ((g : ℝ) * r.toR) (m * P)
  have n2 := (near_mulAdd (ofNat_near (E := E) (n := g) (by omega)) hr.near n1 (M := (m + 8) * (2 ^ 14 + 1)) (by
    norm_num at c1 c2 s1 ⊢
    linarith) (by linarith) (le_huge 25 (by norm_num; linarith) (by norm_num))).mono
      (δ := m * (1 / 2 ^ 25 + 1 / 2 ^ 32)) (by
        norm_num; linarith)
  have c3 : |((w - l : ℤ) : ℝ) * 400| ≤ m * 400 := by
    rw [abs_mul, abs_of_pos (by norm_num : (0 : ℝ) < 400)]
    exact mul_le_mul_of_nonneg_right hw2 (by norm_num)
  have s2 := abs_add_le (((w - l : ℤ) : ℝ) * 400) (g * r.toR + m * P)
  have n3 := (near_mulAdd nw h400 n2 (M := (m + 8) * (2 ^ 14 + 401)) (by
    norm_num at c1 c2 c3 s1 s2 ⊢
    linarith) (by linarith) (le_huge 25 (by norm_num; linarith) (by norm_num))).mono
      (δ := m * (1 / 2 ^ 25 + 1 / 2 ^ 31)) (by
        norm_num; linarith)
  have hgm : (0 : ℝ) < ((g + m : ℕ) : ℝ) := by push_cast; linarith
  have hgm' : (m : ℝ) ≤ ((g + m : ℕ) : ℝ) := by push_cast; linarith
  have hgm2 : ((m : ℝ) + 8) ≤ 9 * ((g + m : ℕ) : ℝ) := by push_cast; linarith
  have n4 := near_div_const n3 (ofNat_near (E := E) (n := g + m) (by norm_num at hm' ⊢; omega)) hgm
    (M := 2 ^ 18) (by
      rw [div_le_iff₀ hgm]
      norm_num at c1 c2 c3 s1 s2 ⊢
      push_cast at hgm2 hgm' ⊢
      linarith) (by norm_num) (le_huge 18 (by norm_num) (by norm_num))
  have e : Uscf.newRatingProvisional r.toR g m P w l
      = (((w - l : ℤ) : ℝ) * 400 + (g * r.toR + m * P)) / ((g + m : ℕ) : ℝ) := by
    rw [Uscf.provisional_real, uscfProvisional]
    push_cast
    congr 1; ring
  rw [e]
  refine n4.mono ?_
  have : (m : ℝ) * (1 / 2 ^ 25 + 1 / 2 ^ 31) / ((g + m : ℕ) : ℝ) ≤ 1 / 2 ^ 25 + 1 / 2 ^ 31 := by
    rw [div_le_iff₀ hgm, mul_comm]
    exact mul_le_mul_of_nonneg_left hgm' (by norm_num)
  refine (add_le_add_left this _).trans ?_
  norm_num

/-- USCF, one game: the new ratings are within `2 ^ -24` of the exact formulas applied to the same
players, and the games are counted. -/
theorem C129_uscf_game (L : E.Lib) (A : E.Accurate) (a b : Uscf.USCFRating (FP E)) (o : Outcomes)
    (c : Uscf.USCFConfig (FP E)) (ha : UscfUsual a) (hb : UscfUsual b) (hc : Within (2 ^ 10) c.t) :
    let x := Uscf.uscf a b o c
    let y := Uscf.uscf (uscfExact a) (uscfExact b) o ⟨c.t.toR⟩
    (Near (1 / 2 ^ 24) x.1.rating y.1.rating ∧ x.1.games = y.1.games) ∧
    (Near (1 / 2 ^ 24) x.2.rating y.2.rating ∧ x.2.games = y.2.games) := by
  intro x y
  have h100 := lit_in (E := E) (m := 1000) (s := true) (e := 1) (v := 100) (by norm_num)
    (SRep.ofNat 100 (by norm_num))
  have e100 : FP.toR (100.0 : FP E) = 100 := le_antisymm h100.toR.2 h100.toR.1
  have half : ∀ (a b : Uscf.USCFRating (FP E)) (s : FP E) (v : ℝ) (w l : ℤ), UscfUsual a → UscfUsual b →
      Near 0 s v → 0 ≤ v ∧ v ≤ 1 → |w - l| ≤ 1 →
      Near (1 / 2 ^ 24) (Flt.fmax (if a.games ≤ 8 then
          Uscf.newRatingProvisional a.rating a.games 1 b.rating w l
        else Uscf.newRating a.rating a.games 1 s (Uscf.eValue a.rating b.rating) c) (100.0 : FP E))
        (max (if a.games ≤ 8 then
          Uscf.newRatingProvisional a.rating.toR a.games 1 b.rating.toR w l
        else Uscf.newRating a.rating.toR a.games 1 v (Uscf.eValue a.rating.toR b.rating.toR) ⟨c.t.toR⟩) 100) := by
    intro a b s v w l ha hb hs hv hw
    rw [← e100]
    refine near_max ?_ h100.finite
    by_cases h8 : a.games ≤ 8
    · rw [if_pos h8, if_pos h8]
      exact uscf_provisional_near ha.1 h8 one_pos (by norm_num) (hb.1.near.mono (by norm_num)) hb.1.2 (by simpa using hw)
    · rw [if_neg h8, if_neg h8]
      have he := uscf_score_near A ha.1 hb.1
      have e01 := uscf_score01 a.rating.toR b.rating.toR
      have hvp : |v - Uscf.eValue a.rating.toR b.rating.toR| ≤ 1 := by
        rw [abs_le]; constructor <;> linarith [hv.1, hv.2, e01.1, e01.2]
      have hd := near_sub hs he (M := 2) (by norm_num at hvp ⊢; linarith) (by norm_num)
        (le_huge 1 (by norm_num) (by norm_num))
      exact (uscf_established_near L (t := c.t) ha.1 (lt_trans ha.2 (by norm_num)) (by omega) one_pos (by norm_num)
        (hd.mono (by norm_num)) (by simpa using hvp) hc).mono (by norm_num)
  have hs1 := near_of_in (points_in (E := E) o)
  have hs2 := near_of_in (points_in' (E := E) o)
  rw [pointsR_eq] at hs1 hs2
  have g1 := half a b _ _ (Uscf.fromBool (o = .WIN)) (Uscf.fromBool (o = .LOSS)) ha hb hs1
    ⟨points_nonneg o, points_le_one o⟩ (by cases o <;> simp [Uscf.fromBool])
  have g2 := half b a _ _ (Uscf.fromBool (o = .LOSS)) (Uscf.fromBool (o = .WIN)) hb ha hs2
    ⟨by linarith [points_le_one o], by linarith [points_nonneg o]⟩ (by cases o <;> simp [Uscf.fromBool])
  refine ⟨⟨?_, rfl⟩, ?_, rfl⟩
  · have e : y.1.rating = _ := rfl
    simp only [y, Uscf.uscf, uscfExact, toChessPoints_real]
    simp only [flt]
    exact g1
  · simp only [y, Uscf.uscf, uscfExact, toChessPoints_real]
    simp only [flt]
    exact g2

/-- USCF, a rating period of at most 1024 games: the new rating is within `2 ^ -24` of the exact one,
however many games there are. -/
theorem C129_uscf_period (L : E.Lib) (A : E.Accurate) (p : Uscf.USCFRating (FP E))
    (rs : List (Uscf.USCFRating (FP E) × Outcomes)) (c : Uscf.USCFConfig (FP E)) (hp : UscfUsual p)
    (hr : ∀ r ∈ rs, UscfUsual r.1) (hn : rs.length ≤ 2 ^ 10) (hc : Within (2 ^ 10) c.t) :
    let x := Uscf.uscfRatingPeriod p rs c
    let y := Uscf.uscfRatingPeriod (uscfExact p) (rs.map fun r => (uscfExact r.1, r.2)) ⟨c.t.toR⟩
    Near (1 / 2 ^ 24) x.rating y.rating ∧ x.games = y.games := by
  intro x y
  by_cases hne : rs = []
  · subst hne
    exact ⟨hp.1.near.mono (by norm_num), rfl⟩
  have he : rs.isEmpty = false := by simpa [List.isEmpty_iff] using hne
  have he' : (rs.map fun r => (uscfExact r.1, r.2)).isEmpty = false := by simpa [List.isEmpty_iff] using hne
  have hlen : 0 < rs.length := List.length_pos_iff.2 hne
  change Near _ (Uscf.uscfRatingPeriod p rs c).rating (Uscf.uscfRatingPeriod (uscfExact p)
      (rs.map fun r => (uscfExact r.1, r.2)) ⟨c.t.toR⟩).rating ∧ (Uscf.uscfRatingPeriod p rs c).games =
        (Uscf.uscfRatingPeriod (uscfExact p) (rs.map fun r => (uscfExact r.1, r.2)) ⟨c.t.toR⟩).games
  by_cases h8 : p.games ≤ 8
  · have h8' : (uscfExact p).games ≤ 8 := h8
    simp only [Uscf.uscfRatingPeriod, he, he', Bool.false_eq_true, if_false, if_pos h8, if_pos h8', List.length_map,
      List.map_map, Function.comp_def]
    refine ⟨?_, rfl⟩
    obtain ⟨a1, a2⟩ := average_near (E := E) rs (fun r => r.1.rating) hn hne (fun r h => (hr r h).1)
    simp only [Flt.sum_real, flt]
    refine uscf_provisional_near hp.1 h8 hlen hn a1 a2 ?_
    rw [Uscf.sum_fromBool, Uscf.sum_fromBool]
    have w1 := List.countP_le_length (l := rs) (p := fun r => decide (r.2 = Outcomes.WIN))
    have w2 := List.countP_le_length (l := rs) (p := fun r => decide (r.2 = Outcomes.LOSS))
    rw [abs_le]
    constructor <;> omega
  · have h8' : ¬ (uscfExact p).games ≤ 8 := h8
    simp only [Uscf.uscfRatingPeriod, he, he', Bool.false_eq_true, if_false, if_neg h8, if_neg h8', List.length_map,
      List.map_map, Function.comp_def]
    refine ⟨?_, rfl⟩
    obtain ⟨s1, s2⟩ := near_sum rs (fun r => (r.2.toChessPoints : FP E)) (fun r => points r.2) (ε := 0)
      le_rfl (by norm_num) hn (fun r _ => ⟨by
        have := near_of_in (points_in (E := E) r.2)
        rwa [pointsR_eq] at this, by
        rw [abs_of_nonneg (points_nonneg _)]; exact points_le_one _⟩)
    obtain ⟨e1, e2⟩ := near_sum rs (fun r => Uscf.eValue p.rating r.1.rating)
      (fun r => Uscf.eValue p.rating.toR r.1.rating.toR) (ε := 1 / 2 ^ 39)
      (by norm_num) (by norm_num) hn (fun r h => ⟨uscf_score_near A hp.1 (hr r h).1, by
        have := uscf_score01 p.rating.toR r.1.rating.toR
        rw [abs_of_nonneg this.1]; exact this.2⟩)
    have b1 := sum_limits rs (fun r => points r.2) (lo := 0) (hi := 1) (fun r _ => ⟨points_nonneg _, points_le_one _⟩)
    have b2 := sum_limits rs (fun r => Uscf.eValue p.rating.toR r.1.rating.toR) (lo := 0) (hi := 1)
      (fun r _ => uscf_score01 _ _)
    have hSX : |(rs.map fun r => points r.2).sum - (rs.map fun r => Uscf.eValue p.rating.toR r.1.rating.toR).sum|
        ≤ rs.length := by
      rw [abs_le]; constructor <;> linarith [b1.1, b1.2, b2.1, b2.2]
    have n1 : (1 : ℝ) ≤ rs.length := by exact_mod_cast hlen
    have n2 : (rs.length : ℝ) ≤ 1024 := by exact_mod_cast hn
    have hd := near_sub s1 e1 (M := 2 * rs.length) (by norm_num at hSX ⊢; linarith) (by linarith)
      (le_huge 11 (by norm_num; linarith) (by norm_num))
    have := uscf_established_near L (t := c.t) hp.1 (lt_trans hp.2 (by norm_num)) (g := p.games) (by omega) hlen hn
      (hd.mono (by norm_num; linarith)) hSX hc
    simp only [toChessPoints_real, Flt.sum_real]
    exact this.mono (by norm_num)

/-! ### Double precision -/

theorem usual_uscf : UscfUsual (E := ieee) ⟨1500.0, 20⟩ ∧ UscfUsual (E := ieee) ⟨1400.0, 4⟩ :=
  ⟨⟨lit_usual (v := 1500) (by norm_num) (SRep.ofNat 1500 (by norm_num)) (by norm_num), by norm_num⟩,
    lit_usual (v := 1400) (by norm_num) (SRep.ofNat 1400 (by norm_num)) (by norm_num), by norm_num⟩

theorem usual_threshold : Within (E := ieee) (2 ^ 10) (14.0 : FP ieee) :=
  lit_usual (v := 14) (by norm_num) (SRep.ofNat 14 (by norm_num)) (by norm_num)

/-- A win of an established player with rating 1500 against a provisional one with rating 1400. -/
example : Near (1 / 2 ^ 24)
    (Uscf.uscf (F := FP ieee) ⟨1500.0, 20⟩ ⟨1400.0, 4⟩ .WIN ⟨14.0⟩).2.rating
    (Uscf.uscf (uscfExact (E := ieee) ⟨1500.0, 20⟩) (uscfExact (E := ieee) ⟨1400.0, 4⟩) .WIN
      ⟨(14.0 : FP ieee).toR⟩).2.rating :=
  (C129_uscf_game ieee_lib ieee_accurate _ _ .WIN ⟨14.0⟩ usual_uscf.1 usual_uscf.2 usual_threshold).2.1

/-- A period of three wins, which earns a bonus. -/
example : Near (1 / 2 ^ 24)
    (Uscf.uscfRatingPeriod (F := FP ieee) ⟨1500.0, 20⟩ (List.replicate 3 (⟨1400.0, 4⟩, .WIN)) ⟨14.0⟩).rating
    (Uscf.uscfRatingPeriod (uscfExact (E := ieee) ⟨1500.0, 20⟩)
      ((List.replicate 3 ((⟨1400.0, 4⟩ : Uscf.USCFRating (FP ieee)), Outcomes.WIN)).map
        fun r => (uscfExact r.1, r.2)) ⟨(14.0 : FP ieee).toR⟩).rating :=
  (C129_uscf_period ieee_lib ieee_accurate _ _ ⟨14.0⟩ usual_uscf.1 (by
    intro r hr
    rw [List.eq_of_mem_replicate hr]
    exact usual_uscf.2) (by simp) usual_threshold).1

example : Near (1 / 2 ^ 38) (Uscf.expectedScore (F := FP ieee) ⟨1500.0, 20⟩ ⟨1400.0, 4⟩).1
    (Uscf.expectedScore (uscfExact (E := ieee) ⟨1500.0, 20⟩) (uscfExact (E := ieee) ⟨1400.0, 4⟩)).1 :=
  (C129_uscf_expected ieee_accurate _ _ usual_uscf.1 usual_uscf.2).1

end Skillratings
