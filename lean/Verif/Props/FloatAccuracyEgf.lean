import Verif.Proofs.FPEgf
import Verif.Props.Egf
/-
C131: EGF in double precision stays close to exact arithmetic.
-/

namespace Skillratings
open FP FPVal Spec
variable {E : FloatEnv}

/-- The same player in exact arithmetic. -/
noncomputable def egfExact (a : Egf.EGFRating (FP E)) : Egf.EGFRating ℝ := ⟨a.rating.toR⟩

/-- The same configuration in exact arithmetic. -/
noncomputable def egfConfigExact (c : Egf.EGFConfig (FP E)) : Egf.EGFConfig ℝ := ⟨c.handicap.toR⟩

/-- A rating between -1000 and 3200. -/
def EgfUsual (a : Egf.EGFRating (FP E)) : Prop := a.rating.isFinite ∧ -1000 ≤ a.rating.toR ∧ a.rating.toR ≤ 3200

/-- A handicap of at most 64 stones that raises no player above 3200. -/
def HandicapUsual (a b : Egf.EGFRating (FP E)) (c : Egf.EGFConfig (FP E)) : Prop :=
  Within 64 c.handicap ∧ egfFirst a.rating.toR c.handicap.toR ≤ 3200 ∧ egfSecond b.rating.toR c.handicap.toR ≤ 3200

theorem sign_toR {h : FP E} (hf : h.isFinite) :
    (Flt.isSignNegative h = true → h.toR ≤ 0) ∧ (Flt.isSignNegative h = false → 0 ≤ h.toR) := by
  change (FPVal.sign h = true → FPVal.toR h ≤ 0) ∧ (FPVal.sign h = false → 0 ≤ FPVal.toR h)
  cases h with
  | nan => exact hf.elim
  | inf => exact hf.elim
  | fin s m =>
    have := m.2.nonneg
    cases s
    · simpa [FPVal.sign, FPVal.toR, signed] using this
    · simpa [FPVal.sign, FPVal.toR, signed] using this

theorem egfStones_zero : egfStones 0 = 0 := by simp [egfStones]

/-- The strengths of both players. -/
theorem egf_betas_near (W : E.LogWide) (a b : Egf.EGFRating (FP E)) (c : Egf.EGFConfig (FP E))
    (ha : EgfUsual a) (hb : EgfUsual b) (hc : HandicapUsual a b c) :
    Near (1 / 2 ^ 36) (Egf.beta a.rating (if Flt.isSignNegative c.handicap = true then Flt.abs c.handicap else 0.0))
      (egfBeta (egfFirst a.rating.toR c.handicap.toR)) ∧
    Near (1 / 2 ^ 36) (Egf.beta b.rating (if Flt.isSignNegative c.handicap = true then 0.0 else Flt.abs c.handicap))
      (egfBeta (egfSecond b.rating.toR c.handicap.toR)) := by
  obtain ⟨⟨hf, h64⟩, s1, s2⟩ := hc
  have habs := near_abs (near_self hf)
  have l0 : Near 0 (0.0 : FP E) 0 := lit_exact (by norm_num) SRep.zero
  obtain ⟨t1, t2⟩ := sign_toR hf
  have hz : ∀ {r : FP E}, r.isFinite → -1000 ≤ r.toR → r.toR ≤ 3200 →
      Near (1 / 2 ^ 36) (Egf.beta r (0.0 : FP E)) (egfBeta r.toR) := by
    intro r h1 h2 h3
    have := egf_beta_near W h1 h2 l0.1 (by rw [l0.eq]) (by rw [l0.eq]; norm_num)
      (by rw [l0.eq, egfStones_zero]; linarith)
    rwa [l0.eq, egfStones_zero, add_zero] at this
  have hs : ∀ {r : FP E}, r.isFinite → -1000 ≤ r.toR → r.toR + egfStones |c.handicap.toR| ≤ 3200 →
      Near (1 / 2 ^ 36) (Egf.beta r (Flt.abs c.handicap)) (egfBeta (r.toR + egfStones |c.handicap.toR|)) := by
    intro r h1 h2 h3
    have := egf_beta_near W h1 h2 habs.1 (by rw [habs.eq]; positivity) (by rw [habs.eq]; exact h64)
      (by rw [habs.eq]; exact h3)
    rwa [habs.eq] at this
  cases hsgn : Flt.isSignNegative c.handicap with
  | true =>
    have hn := t1 hsgn
    have e1 : egfFirst a.rating.toR c.handicap.toR = a.rating.toR + egfStones |c.handicap.toR| := by
      unfold egfFirst
      rw [abs_of_nonpos hn]
      split_ifs with h
      · rfl
      · rw [le_antisymm hn (not_lt.1 h)]; simp [egfStones]
    have e2 : egfSecond b.rating.toR c.handicap.toR = b.rating.toR := by
      unfold egfSecond
      split_ifs with h
      · rfl
      · rw [le_antisymm hn (not_lt.1 h)]; simp [egfStones]
    rw [if_pos rfl, if_pos rfl]
    rw [e1] at s1 ⊢
    rw [e2] at s2 ⊢
    exact ⟨hs ha.1 ha.2.1 s1, hz hb.1 hb.2.1 s2⟩
  | false =>
    have hn := t2 hsgn
    have e1 : egfFirst a.rating.toR c.handicap.toR = a.rating.toR := by
      unfold egfFirst
      rw [if_neg (not_lt.2 hn)]
    have e2 : egfSecond b.rating.toR c.handicap.toR = b.rating.toR + egfStones |c.handicap.toR| := by
      unfold egfSecond
      rw [if_neg (not_lt.2 hn), abs_of_nonneg hn]
    rw [if_neg (by simp), if_neg (by simp)]
    rw [e1] at s1 ⊢
    rw [e2] at s2 ⊢
    exact ⟨hz ha.1 ha.2.1 s1, hs hb.1 hb.2.1 s2⟩

theorem egf_strengths {a b : Egf.EGFRating (FP E)} {c : Egf.EGFConfig (FP E)}
    (ha : EgfUsual a) (hb : EgfUsual b) (hc : HandicapUsual a b c) :
    |egfBeta (egfFirst a.rating.toR c.handicap.toR)| ≤ 64 ∧ |egfBeta (egfSecond b.rating.toR c.handicap.toR)| ≤ 64 := by
  have hs : ∀ h, 0 ≤ h → -50 ≤ egfStones h := by
    intro h h0; unfold egfStones; split_ifs <;> linarith
  obtain ⟨-, s1, s2⟩ := hc
  constructor
  · refine egfBeta_bounds ?_ (by linarith)
    unfold egfFirst
    split_ifs with h
    · have := hs (-c.handicap.toR) (by linarith)
      linarith [ha.2.1]
    · linarith [ha.2.1]
  · refine egfBeta_bounds ?_ (by linarith)
    unfold egfSecond
    split_ifs with h
    · linarith [hb.2.1]
    · have := hs c.handicap.toR (by linarith)
      linarith [hb.2.1]

/-- The logistic function of a difference of two approximated numbers. -/
theorem egf_logistic (A : E.Accurate) {x y : FP E} {X Y : ℝ} (hx : Near (1 / 2 ^ 36) x X) (hy : Near (1 / 2 ^ 36) y Y)
    (hX : |X| ≤ 64) (hY : |Y| ≤ 64) :
    Near (1 / 2 ^ 32) (Flt.recip ((1.0 : FP E) + Flt.exp (y - x))) (Real.sigmoid (X - Y)) := by
  have hd : |Y - X| ≤ 128 := (abs_sub _ _).trans (by linarith)
  have d := near_sub hy hx (M := 2 ^ 8) (by generalize |Y - X| = z at *; norm_num; linarith) (by norm_num)
    (le_huge 8 (by norm_num) (by norm_num))
  have he := exp_ap A (d.mono (δ := 2 ^ 16 / 2 ^ 50) (by norm_num)) (by linarith) (by norm_num)
  have h1 := (one_ap (E := E)).mono (k' := 2 * 2 ^ 16 + 2) (n' := 300) (by norm_num) (by norm_num)
  have hs := (h1.add he (by norm_num) (by norm_num)).recip (by norm_num) (by norm_num)
  have e : 1 / (1 + Real.exp (Y - X)) = Real.sigmoid (X - Y) := by
    rw [Real.sigmoid_def, one_div, neg_sub]
  rw [e] at hs
  have hle := (sig01 (X - Y)).2
  refine (hs.near (b := 2 * 2 ^ 16 + 2 + 1 + 1) ?_).mono (by norm_num)
  have := mul_le_mul_of_nonneg_left hle (by norm_num : (0 : ℝ) ≤ 2 * 2 ^ 16 + 2 + 1 + 1)
  linarith

theorem egf_score_near (A : E.Accurate) (W : E.LogWide) (a b : Egf.EGFRating (FP E)) (c : Egf.EGFConfig (FP E))
    (ha : EgfUsual a) (hb : EgfUsual b) (hc : HandicapUsual a b c) :
    Near (1 / 2 ^ 32) (Egf.expectedScore a b c).1 (Egf.expectedScore (egfExact a) (egfExact b) (egfConfigExact c)).1 := by
  obtain ⟨n1, n2⟩ := egf_betas_near W a b c ha hb hc
  obtain ⟨b1, b2⟩ := egf_strengths ha hb hc
  have h := egf_logistic A n1 n2 b1 b2
  rw [Egf.expectedScore_real]
  have e : (Egf.expectedScore a b c).1 = Flt.recip ((1.0 : FP E) + Flt.exp
      (Egf.beta b.rating (if Flt.isSignNegative c.handicap = true then 0.0 else Flt.abs c.handicap)
        - Egf.beta a.rating (if Flt.isSignNegative c.handicap = true then Flt.abs c.handicap else 0.0))) := by
    unfold Egf.expectedScore
    cases Flt.isSignNegative c.handicap <;> rfl
  rw [e]
  exact h

/-- EGF, expected scores: within `2⁻³¹` of the exact formulas. -/
theorem C131_egf_expected (A : E.Accurate) (W : E.LogWide) (a b : Egf.EGFRating (FP E)) (c : Egf.EGFConfig (FP E))
    (ha : EgfUsual a) (hb : EgfUsual b) (hc : HandicapUsual a b c) :
    Near (1 / 2 ^ 31) (Egf.expectedScore a b c).1 (Egf.expectedScore (egfExact a) (egfExact b) (egfConfigExact c)).1 ∧
    Near (1 / 2 ^ 31) (Egf.expectedScore a b c).2 (Egf.expectedScore (egfExact a) (egfExact b) (egfConfigExact c)).2 := by
  have h := egf_score_near A W a b c ha hb hc
  refine ⟨h.mono (by norm_num), ?_⟩
  have e1 : (Egf.expectedScore a b c).2 = (1.0 : FP E) - (Egf.expectedScore a b c).1 := rfl
  have e2 : (Egf.expectedScore (egfExact a) (egfExact b) (egfConfigExact c)).2
      = 1 - (Egf.expectedScore (egfExact a) (egfExact b) (egfConfigExact c)).1 := by
    rw [Egf.expectedScore_real]
  rw [e1, e2]
  have hp : 0 ≤ (Egf.expectedScore (egfExact a) (egfExact b) (egfConfigExact c)).1 ∧
      (Egf.expectedScore (egfExact a) (egfExact b) (egfConfigExact c)).1 ≤ 1 := by
    rw [Egf.expectedScore_real]; exact sig01 _
  refine (near_sub (near_of_in one_in) h (M := 2) ?_ (by norm_num) (le_huge 1 (by norm_num) (by norm_num))).mono
    (by norm_num)
  rw [abs_of_nonneg (by linarith)]; norm_num; linarith

/-- The update of one player. -/
theorem egf_update_near (A : E.Accurate) (F : E.Faithful) {r s e : FP E} {v p : ℝ} (hr : r.isFinite) (h1 : -1000 ≤ r.toR)
    (h2 : r.toR ≤ 3200) (hs : Near 0 s v) (hv : 0 ≤ v ∧ v ≤ 1) (he : Near (1 / 2 ^ 31) e p) (hp : 0 ≤ p ∧ p ≤ 1) :
    Near (1 / 2 ^ 22) (Egf.newRating r (Egf.con r) s e (Egf.bonus r)) (egfRating r.toR v p) := by
  have hc := egf_con_near F hr h1 (by linarith)
  have hb := egf_bonus_near A F hr h1 (by linarith)
  obtain ⟨c0, c1⟩ := egfCon_bounds h1 (by linarith)
  obtain ⟨b0, b1⟩ := egfBonus_bounds h1
  have hvp : |v - p| ≤ 1 := by rw [abs_le]; constructor <;> linarith
  have d := (near_sub hs he (M := 2) (by norm_num; linarith) (by norm_num) (le_huge 1 (by norm_num) (by norm_num))).mono
    (δ := 1 / 2 ^ 31 + 1 / 2 ^ 49) (by norm_num)
  have hrr : |r.toR| ≤ 3200 := by rw [abs_le]; constructor <;> linarith
  unfold Egf.newRating egfRating
  have l900 := (egf_lit (E := E) (m := 9000) (v := 900) (by norm_num) (by norm_num)).neg
  push_cast at l900
  generalize hC : egfCon r.toR = C at *
  generalize hB : egfBonus r.toR = B at *
  generalize hD : v - p = D at *
  have hCD : |C * D| ≤ 2 ^ 8 := by
    rw [abs_mul, abs_of_pos c0]
    calc C * |D| ≤ 2 ^ 8 * 1 := mul_le_mul c1 hvp (abs_nonneg _) (by norm_num)
      _ = 2 ^ 8 := by ring
  have hsum : |C * D + r.toR| ≤ 3456 := (abs_add_le _ _).trans (by norm_num at hCD ⊢; linarith)
  have hm0 : 1 / 2 ^ 35 * |D| + |C| * (1 / 2 ^ 31 + 1 / 2 ^ 49) + 1 / 2 ^ 35 * (1 / 2 ^ 31 + 1 / 2 ^ 49) + 0
      ≤ 1 / 2 ^ 23 + 1 / 2 ^ 34 := by
    rw [abs_of_pos c0]
    norm_num at c1 hvp ⊢
    linarith
  have m := near_mulAdd hc d (near_self hr) (M := 2 ^ 12)
    (by
      refine (add_le_add hsum hm0).trans (by norm_num)) (by norm_num)
    (le_huge 12 (by norm_num) (by norm_num))
  have m' := m.mono (δ := 1 / 2 ^ 23 + 1 / 2 ^ 33) (by refine (add_le_add hm0 le_rfl).trans (by norm_num))
  have hs2 : |C * D + r.toR + B| ≤ 3465 := by
    refine (abs_add_le _ _).trans ?_
    rw [abs_of_pos b0]; linarith
  have t := (near_add m' hb (M := 2 ^ 12) (by norm_num at hs2 ⊢; linarith) (by norm_num)
    (le_huge 12 (by norm_num) (by norm_num))).mono (δ := 1 / 2 ^ 22) (by norm_num)
  have t2 := near_max t l900.1
  rw [l900.eq] at t2
  rw [show r.toR + C * D + B = C * D + r.toR + B by ring]
  exact t2

theorem egf_expected01 (a b : Egf.EGFRating ℝ) (c : Egf.EGFConfig ℝ) :
    (0 ≤ (Egf.expectedScore a b c).1 ∧ (Egf.expectedScore a b c).1 ≤ 1) ∧
    (0 ≤ (Egf.expectedScore a b c).2 ∧ (Egf.expectedScore a b c).2 ≤ 1) := by
  rw [Egf.expectedScore_real]
  obtain ⟨h1, h2⟩ := sig01 (egfBeta (egfFirst a.rating c.handicap) - egfBeta (egfSecond b.rating c.handicap))
  exact ⟨⟨h1, h2⟩, by dsimp only; linarith, by dsimp only; linarith⟩

/-- EGF, one game: both new ratings are within `2⁻²²` of the exact formulas applied to the same ratings. -/
theorem C131_egf_game (A : E.Accurate) (F : E.Faithful) (W : E.LogWide) (a b : Egf.EGFRating (FP E)) (o : Outcomes)
    (c : Egf.EGFConfig (FP E)) (ha : EgfUsual a) (hb : EgfUsual b) (hc : HandicapUsual a b c) :
    Near (1 / 2 ^ 22) (Egf.egf a b o c).1.rating (Egf.egf (egfExact a) (egfExact b) o (egfConfigExact c)).1.rating ∧
    Near (1 / 2 ^ 22) (Egf.egf a b o c).2.rating (Egf.egf (egfExact a) (egfExact b) o (egfConfigExact c)).2.rating := by
  obtain ⟨e1, e2⟩ := C131_egf_expected A W a b c ha hb hc
  obtain ⟨p1, p2⟩ := egf_expected01 (egfExact a) (egfExact b) (egfConfigExact c)
  have hs := near_of_in (points_in (E := E) o)
  rw [pointsR_eq] at hs
  have hs' : Near 0 ((1.0 : FP E) - o.toChessPoints) (1 - points o) := by
    have := near_of_in (points_in' (E := E) o)
    rw [pointsR_eq] at this
    exact this
  have q0 := points_nonneg o
  have q1 := points_le_one o
  rw [Egf.egf_real]
  exact ⟨egf_update_near A F ha.1 ha.2.1 ha.2.2 hs ⟨q0, q1⟩ e1 p1,
    egf_update_near A F hb.1 hb.2.1 hb.2.2 hs' ⟨by linarith, by linarith⟩ e2 p2⟩

/-- EGF, expected scores of a rating period. -/
theorem C131_egf_expected_period (A : E.Accurate) (W : E.LogWide) (a : Egf.EGFRating (FP E))
    (os : List (Egf.EGFRating (FP E) × Egf.EGFConfig (FP E))) (ha : EgfUsual a)
    (ho : ∀ o ∈ os, EgfUsual o.1 ∧ HandicapUsual a o.1 o.2) :
    List.Forall₂ (Near (1 / 2 ^ 31)) (Egf.expectedScoreRatingPeriod a os)
      (Egf.expectedScoreRatingPeriod (egfExact a) (os.map fun o => (egfExact o.1, egfConfigExact o.2))) := by
  have e : ∀ {F : Type} [Flt F] (p : Egf.EGFRating F) (l : List (Egf.EGFRating F × Egf.EGFConfig F)),
      Egf.expectedScoreRatingPeriod p l = l.map fun o => (Egf.expectedScore p o.1 o.2).1 := by
    intro F _ p l
    simp only [Egf.expectedScoreRatingPeriod, Egf.expectedScore]
  rw [e, e, List.map_map, List.forall₂_map_left_iff, List.forall₂_map_right_iff, List.forall₂_same]
  intro o h
  exact (C131_egf_expected A W a o.1 o.2 ha (ho o h).1 (ho o h).2).1

/-- EGF, rating period of at most 1024 games: an error of at most `2⁻²¹` per game (and one more). -/
theorem C131_egf_period (A : E.Accurate) (F : E.Faithful) (W : E.LogWide) (a : Egf.EGFRating (FP E))
    (rs : List (Egf.EGFRating (FP E) × Outcomes × Egf.EGFConfig (FP E))) (ha : EgfUsual a) (hn : rs.length ≤ 2 ^ 10)
    (hr : ∀ r ∈ rs, EgfUsual r.1 ∧ HandicapUsual a r.1 r.2.2) :
    Near ((rs.length + 1) / 2 ^ 21) (Egf.egfRatingPeriod a rs).rating
      (Egf.egfRatingPeriod (egfExact a) (rs.map fun r => (egfExact r.1, r.2.1, egfConfigExact r.2.2))).rating := by
  have hc := egfCon_bounds ha.2.1 (by linarith [ha.2.2])
  have hb := egfBonus_bounds ha.2.1
  have hterm : ∀ r ∈ rs, Near (1 / 2 ^ 22 + 1 / 2 ^ 38)
      (Egf.newRating a.rating (Egf.con a.rating) r.2.1.toChessPoints (Egf.expectedScore a r.1 r.2.2).1
        (Egf.bonus a.rating) - a.rating)
      (egfRating a.rating.toR (points r.2.1)
        (Egf.expectedScore (egfExact a) (egfExact r.1) (egfConfigExact r.2.2)).1 - a.rating.toR) ∧
      |egfRating a.rating.toR (points r.2.1)
        (Egf.expectedScore (egfExact a) (egfExact r.1) (egfConfigExact r.2.2)).1 - a.rating.toR| ≤ 2 ^ 9 := by
    intro r h
    obtain ⟨hu, hh⟩ := hr r h
    have e := (C131_egf_expected A W a r.1 r.2.2 ha hu hh).1
    have p1 := (egf_expected01 (egfExact a) (egfExact r.1) (egfConfigExact r.2.2)).1
    have hs := near_of_in (points_in (E := E) r.2.1)
    rw [pointsR_eq] at hs
    have q0 := points_nonneg r.2.1
    have q1 := points_le_one r.2.1
    have u := egf_update_near A F ha.1 ha.2.1 ha.2.2 hs ⟨q0, q1⟩ e p1
    generalize (Egf.expectedScore (egfExact a) (egfExact r.1) (egfConfigExact r.2.2)).1 = P at *
    generalize points r.2.1 = V at *
    have hB : |egfRating a.rating.toR V P - a.rating.toR| ≤ 2 ^ 9 := by
      have hm1 : egfCon a.rating.toR * (V - P) ≤ 2 ^ 8 := by
        calc egfCon a.rating.toR * (V - P) ≤ egfCon a.rating.toR * 1 :=
              mul_le_mul_of_nonneg_left (by linarith) hc.1.le
          _ ≤ 2 ^ 8 := by linarith [hc.2]
      have hm2 : -2 ^ 8 ≤ egfCon a.rating.toR * (V - P) := by
        calc (-2 ^ 8 : ℝ) ≤ egfCon a.rating.toR * (-1) := by linarith [hc.2]
          _ ≤ _ := mul_le_mul_of_nonneg_left (by linarith) hc.1.le
      unfold egfRating
      rw [abs_le]
      have hl := le_max_left (a.rating.toR + egfCon a.rating.toR * (V - P) + egfBonus a.rating.toR) (-900)
      have hu : max (a.rating.toR + egfCon a.rating.toR * (V - P) + egfBonus a.rating.toR) (-900)
          ≤ a.rating.toR + 2 ^ 9 := max_le (by norm_num at hm1 ⊢; linarith [hb.2]) (by norm_num; linarith [ha.2.1])
      constructor
      · norm_num at hm2 ⊢; linarith [hb.1]
      · linarith
    refine ⟨(near_sub u (near_self ha.1) (M := 2 ^ 10) ?_ (by norm_num) (le_huge 10 (by norm_num) (by norm_num))).mono
      (by norm_num), hB⟩
    generalize |egfRating a.rating.toR V P - a.rating.toR| = z at *
    norm_num at hB ⊢; linarith
  have l0 : Near 0 (0.0 : FP E) 0 := lit_exact (by norm_num) SRep.zero
  obtain ⟨s1, s2⟩ := near_foldl_big (E := E) rs
    (fun r => Egf.newRating a.rating (Egf.con a.rating) r.2.1.toChessPoints (Egf.expectedScore a r.1 r.2.2).1
        (Egf.bonus a.rating) - a.rating)
    (fun r => egfRating a.rating.toR (points r.2.1)
        (Egf.expectedScore (egfExact a) (egfExact r.1) (egfConfigExact r.2.2)).1 - a.rating.toR)
    (B := 2 ^ 9) (ε := 1 / 2 ^ 22 + 1 / 2 ^ 38) (by norm_num) (by norm_num) (by norm_num) (by norm_num) l0 hn hterm
  rw [Egf.egfRatingPeriod_real, List.map_map]
  rw [List.foldl_map] at s1
  have n0 : (0 : ℝ) ≤ rs.length := Nat.cast_nonneg _
  have n1 : (rs.length : ℝ) ≤ 1024 := by exact_mod_cast hn
  have ha' : |a.rating.toR| ≤ 3200 := by rw [abs_le]; constructor <;> linarith [ha.2.1, ha.2.2]
  generalize hS : (rs.map fun r => egfRating a.rating.toR (points r.2.1)
        (Egf.expectedScore (egfExact a) (egfExact r.1) (egfConfigExact r.2.2)).1 - a.rating.toR).sum = S at s1 s2
  have hsum : |a.rating.toR + S| ≤ 3200 + 1024 * 2 ^ 9 :=
    (abs_add_le _ _).trans (by norm_num at s2 ⊢; linarith)
  have t := near_add (near_self ha.1) s1 (M := 2 ^ 20) (by norm_num at hsum ⊢; linarith) (by norm_num)
    (le_huge 20 (by norm_num) (by norm_num))
  have t' := t.mono (δ := (rs.length + 1) / 2 ^ 21) (by norm_num; linarith)
  rw [← hS] at t'
  exact t'

/-- Players of 1500 and 2300 points with five stones meet the hypotheses. -/
example : EgfUsual (E := ieee) ⟨1500.0⟩ ∧ EgfUsual (E := ieee) ⟨2300.0⟩ ∧
    HandicapUsual (E := ieee) ⟨1500.0⟩ ⟨2300.0⟩ ⟨-(5.0)⟩ := by
  have h1 := egf_lit (E := ieee) (m := 15000) (v := 1500) (by norm_num) (by norm_num)
  have h2 := egf_lit (E := ieee) (m := 23000) (v := 2300) (by norm_num) (by norm_num)
  have h3 := (egf_lit (E := ieee) (m := 50) (v := 5) (by norm_num) (by norm_num)).neg
  push_cast at h1 h2 h3
  refine ⟨⟨h1.1, ?_, ?_⟩, ⟨h2.1, ?_, ?_⟩, ⟨h3.1, ?_⟩, ?_, ?_⟩
  · rw [h1.eq]; norm_num
  · rw [h1.eq]; norm_num
  · rw [h2.eq]; norm_num
  · rw [h2.eq]; norm_num
  · rw [h3.eq]; norm_num
  · rw [h1.eq, h3.eq]; norm_num [egfFirst, egfStones]
  · rw [h2.eq, h3.eq]; norm_num [egfSecond, egfStones]

end Skillratings
