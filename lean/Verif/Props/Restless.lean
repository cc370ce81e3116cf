import Verif.Proofs.ChainBounds
import Verif.Props.Dwz
import Verif.Props.EloLearning
import Verif.Props.Floors
import Verif.Props.GlickoBoost
import Verif.Props.Seats
import Verif.Props.TrueSkill
import Verif.Props.Uscf
/-
C143: in endless games without draws the ratings of DWZ, USCF, Glicko-Boost and TrueSkill never settle.
The player may sit on either side of each game; `o n` is the result as the player sees it.
-/
namespace Skillratings
open Spec Filter
open Real (sigmoid sigmoid_pos sigmoid_lt_one)
open scoped Topology

/-! ### DWZ -/

theorem Dwz.eValue_le (r : ℝ) (age : ℕ) (s e : ℝ) (i : ℕ) : Dwz.eValue r age s e i ≤ 150 := by
  rw [Dwz.eValue_real]
  dsimp only
  generalize (if age < 20 ∧ e ≤ s then r / 2000 else 1 : ℝ)
    * ((r / 1000) ^ 4 + if age ≤ 20 then 5 else if age ≤ 25 then 10 else 15)
    + (if r < 1300 ∧ s ≤ e then Real.exp ((1300 - r) / 150) - 1 else 0) = x
  have := min_le_left (30 : ℝ) (5 * i)
  split_ifs <;> linarith

theorem C143_dwz (a b : ℕ → Dwz.DWZRating ℝ) (o : ℕ → Outcomes) (D : ℝ)
    (hD : ∀ n, |(b n).rating| ≤ D) (ho : ∀ n, o n ≠ .DRAW)
    (hseat : ∀ n, a (n + 1) = (Dwz.dwz (a n) (b n) (o n)).1 ∨
      a (n + 1) = (Dwz.dwz (b n) (a n) (mirror (o n))).2) (r : ℝ) :
    ¬ Tendsto (fun n => (a n).rating) atTop (𝓝 r) := by
  have hstep : ∀ n, a (n + 1) = (Dwz.dwz (a n) (b n) (o n)).1 := fun n =>
    (hseat n).elim id fun h => by rw [h, C108_dwz_seats]; rfl
  have hl := log_ten_pos
  refine restless (α := Real.log 10 / 400) (κ := 800 / 151) (k := fun n => 800 / (Dwz.eValue
    (a n).rating (a n).age (points (o n)) (Dwz.expectedScore (a n) (b n)).1 (a n).index + 1))
    (by norm_num) (by positivity) (fun n => ?_) (fun _ => Real.log 10 / 400)
    (fun _ => ⟨by positivity, le_rfl⟩) (fun n => ?_) ho hD r
  · have h1 := Dwz.eValue_nonneg (a n).rating (a n).age (points (o n))
      (Dwz.expectedScore (a n) (b n)).1 (a n).index
    have h2 := Dwz.eValue_le (a n).rating (a n).age (points (o n))
      (Dwz.expectedScore (a n) (b n)).1 (a n).index
    exact div_le_div_of_nonneg_left (by norm_num) (by linarith) (by linarith)
  · rw [hstep, Dwz.dwz_fst_real, Dwz.expectedScore_real]
    ring

/-! ### USCF -/

theorem Uscf.established (p b : Uscf.USCFRating ℝ) (o : Outcomes) (c : Uscf.USCFConfig ℝ)
    (h : 8 < p.games) : (Uscf.uscf p b o c).1.rating = max (p.rating + uscfK p.rating p.games 1
      * (points o - sigmoid (Real.log 10 / 400 * (p.rating - b.rating)))) 100 := by
  have h' : ¬ p.games ≤ 8 := by omega
  simp only [Uscf.uscf, h', if_false, Uscf.newRating_real, Uscf.eValue_real, flt, uscfBonus]
  norm_num

/-- The floor is the only exception: a rating may settle at 100. -/
theorem C143_uscf (a b : ℕ → Uscf.USCFRating ℝ) (o : ℕ → Outcomes) (c : Uscf.USCFConfig ℝ) (D : ℝ)
    (hD : ∀ n, |(b n).rating| ≤ D) (ho : ∀ n, o n ≠ .DRAW)
    (hseat : ∀ n, a (n + 1) = (Uscf.uscf (a n) (b n) (o n) c).1 ∨
      a (n + 1) = (Uscf.uscf (b n) (a n) (mirror (o n)) c).2) (r : ℝ) (hr : r ≠ 100) :
    ¬ Tendsto (fun n => (a n).rating) atTop (𝓝 r) := by
  have hstep : ∀ n, a (n + 1) = (Uscf.uscf (a n) (b n) (o n) c).1 := fun n =>
    (hseat n).elim id fun h => by rw [h, C108_uscf_seats]; rfl
  intro h
  have hl := log_ten_pos
  have h100 : ∀ n, 100 ≤ (a (n + 1)).rating := fun n => by
    rw [hstep]; exact (Uscf.C52_uscf_floor _ _ _ _).1
  have hr' : 100 < r := lt_of_le_of_ne
    (ge_of_tendsto' (h.comp (tendsto_add_atTop_nat 1)) h100) (Ne.symm hr)
  obtain ⟨N, hN⟩ := eventually_atTop.1 (h.eventually_const_lt hr')
  have hgames : ∀ n, n ≤ (a n).games := by
    intro n
    induction n with
    | zero => exact Nat.zero_le _
    | succ n ih =>
      rw [hstep]
      simp only [Uscf.uscf]
      omega
  refine restless (x := fun n => (a (n + (N + 9))).rating) (y := fun n => (b (n + (N + 9))).rating)
    (o := fun n => o (n + (N + 9))) (α := Real.log 10 / 400) (κ := 800 / 51)
    (k := fun n => uscfK (a (n + (N + 9))).rating (a (n + (N + 9))).games 1)
    (by norm_num) (by positivity) (fun n => ?_) (fun _ => Real.log 10 / 400)
    (fun _ => ⟨by positivity, le_rfl⟩) (fun n => ?_) (fun n => ho _) (fun n => hD _) r
    (h.comp (tendsto_add_atTop_nat (N + 9)))
  · have h1 := Uscf.uscfEffective_nonneg (a (n + (N + 9))).rating (a (n + (N + 9))).games
    have h2 := (Uscf.uscfEffective_le (a (n + (N + 9))).rating (a (n + (N + 9))).games).trans
      (min_le_right _ _)
    rw [uscfK]
    push_cast
    exact div_le_div_of_nonneg_left (by norm_num) (by linarith) (by linarith)
  · have h1 := hN (n + (N + 9) + 1) (by omega)
    have h2 := hgames (n + (N + 9))
    rw [show n + 1 + (N + 9) = n + (N + 9) + 1 by omega, hstep,
      Uscf.established _ _ _ _ (by omega)]
    rw [hstep, Uscf.established _ _ _ _ (by omega)] at h1
    refine max_eq_left ?_
    by_contra h3
    rw [max_eq_right (not_le.1 h3).le] at h1
    exact lt_irrefl _ h1

/-- The exception is real: a losing streak at the floor leaves the rating at 100 for ever. -/
theorem C143_uscf_at_floor (a b : ℕ → Uscf.USCFRating ℝ) (c : Uscf.USCFConfig ℝ)
    (h : 8 < (a 0).games) (h0 : (a 0).rating = 100)
    (hseat : ∀ n, a (n + 1) = (Uscf.uscf (a n) (b n) .LOSS c).1 ∨
      a (n + 1) = (Uscf.uscf (b n) (a n) .WIN c).2) (n : ℕ) : (a n).rating = 100 := by
  have hstep : ∀ n, a (n + 1) = (Uscf.uscf (a n) (b n) .LOSS c).1 := fun n =>
    (hseat n).elim id fun h => by
      rw [h, show Outcomes.WIN = mirror .LOSS from rfl, C108_uscf_seats]; rfl
  have key : ∀ n, 8 < (a n).games ∧ (a n).rating = 100 := by
    intro n
    induction n with
    | zero => exact ⟨h, h0⟩
    | succ n ih =>
      obtain ⟨h, hp⟩ := ih
      refine ⟨by rw [hstep]; simp only [Uscf.uscf]; omega, ?_⟩
      rw [hstep, Uscf.established _ _ _ _ h, hp]
      refine max_eq_right ?_
      have h1 : 0 ≤ uscfK 100 (a n).games 1 := by
        have := Uscf.uscfEffective_nonneg 100 (a n).games
        rw [uscfK]; positivity
      have h2 := mul_nonneg h1 (sigmoid_pos (Real.log 10 / 400 * (100 - (b n).rating))).le
      simp only [points]
      linarith
  exact (key n).2

/-! ### Glicko-Boost -/

theorem C143_glicko_boost (a b : ℕ → GlickoBoost.GlickoBoostRating ℝ) (o : ℕ → Outcomes)
    (c : GlickoBoost.GlickoBoostConfig ℝ) (hb0 : 0 ≤ c.b.1) (hb1 : 0 ≤ c.b.2) (D S : ℝ)
    (hD : ∀ n, |(b n).rating| ≤ D) (hS : ∀ n, |(b n).deviation| ≤ S) (ho : ∀ n, o n ≠ .DRAW)
    (hseat : ∀ n, a (n + 1) = (GlickoBoost.glickoBoost (a n) (b n) (o n) c).1 ∨
      a (n + 1) = (GlickoBoost.glickoBoost (b n) (a n) (mirror (o n)) c).2) (r : ℝ) :
    ¬ Tendsto (fun n => (a n).rating) atTop (𝓝 r) := by
  intro h
  obtain ⟨L, hL⟩ := h.abs.bddAbove_range
  have hL' : ∀ n, |(a n).rating| ≤ L := fun n => hL ⟨n, rfl⟩
  have hq := glickoQ_pos
  have hg := glickoG_pos S
  set P := GlickoBoost.params c with hP
  have hside : ∀ n, ∃ w : Bool, a (n + 1) = GlickoBoost.updated P (a n).rating (a n).deviation
      [GlickoBoost.game (b n, o n, w)] := fun n => (hseat n).elim
    (fun h => ⟨true, by rw [h, GlickoBoost.glickoBoost_real]⟩)
    (fun h => ⟨false, by
      have e : mirror (mirror (o n)) = o n := by cases o n <;> rfl
      rw [h, GlickoBoost.glickoBoost_real, e]⟩)
  choose w hw using hside
  set X : ℕ → List StickoGame := fun n => [GlickoBoost.game (b n, o n, w n)] with hX
  have hstep' : ∀ n, a (n + 1) = GlickoBoost.updated P (a n).rating (a n).deviation (X n) := hw
  have hinfo0 : ∀ n, 0 ≤ boostInfo P (a n).rating (X n) := fun n =>
    GlickoBoost.boostInfo_nonneg _ _ _
  have hinfo : ∀ n, boostInfo P (a n).rating (X n) ≤ (Real.log 10 / 400) ^ 2 / 4 := by
    intro n
    refine le_trans (le_of_eq ?_) (info_le ((a n).rating + P.eta * colour (w n)) (b n).rating
      (b n).deviation)
    simp only [hX, boostInfo, boostVar, boostE, glickoInfo, GlickoBoost.game, List.map_cons,
      List.map_nil, List.sum_cons, List.sum_nil, add_zero]
    ring
  -- the deviation after a game has a floor
  set E := |P.a0| + |P.a1| * 350 + |P.a2| * 350 * (L / 1000) + |P.a3| * (L / 1000)
    + |P.a4| * (L / 1000) ^ 2 with hE
  set f := min (Real.exp (-E)) (350 ^ 2) with hf
  have hf0 : 0 < f := lt_min (Real.exp_pos _) (by norm_num)
  have hrd : ∀ n, f ≤ (a (n + 1)).deviation ^ 2 := by
    intro n
    have hr1 : (a (n + 1)).rating = boostRating P (a n).rating (a n).deviation (X n) := by
      rw [hstep']; rfl
    have hd1 : (a (n + 1)).deviation = boostEnd P (boostRd1 P (a n).rating (a n).deviation (X n))
        (a (n + 1)).rating := by rw [hr1, hstep']; rfl
    have h1 : 0 ≤ boostRd1 P (a n).rating (a n).deviation (X n) :=
      _root_.le_min (Real.sqrt_nonneg _) (by norm_num)
    have h2 : boostRd1 P (a n).rating (a n).deviation (X n) ≤ 350 := min_le_right _ _
    rw [hd1, boostEnd]
    set d := boostRd1 P (a n).rating (a n).deviation (X n)
    set x := (a (n + 1)).rating / 1000 with hx
    have hxL : |x| ≤ L / 1000 := by
      rw [hx, abs_div, abs_of_pos (by norm_num : (0 : ℝ) < 1000)]
      exact div_le_div_of_nonneg_right (hL' _) (by norm_num)
    have hda : |d| ≤ 350 := by rw [abs_of_nonneg h1]; exact h2
    have h3 : -E ≤ P.a0 + P.a1 * d + P.a2 * d * x + P.a3 * x + P.a4 * x ^ 2 := by
      have e0 := neg_abs_le P.a0
      have e1 : -(|P.a1| * 350) ≤ P.a1 * d := by
        refine (neg_le_neg ?_).trans (neg_abs_le _)
        rw [abs_mul]; exact mul_le_mul_of_nonneg_left hda (abs_nonneg _)
      have e2 : -(|P.a2| * 350 * (L / 1000)) ≤ P.a2 * d * x := by
        refine (neg_le_neg ?_).trans (neg_abs_le _)
        rw [abs_mul, abs_mul]
        exact mul_le_mul (mul_le_mul_of_nonneg_left hda (abs_nonneg _)) hxL (abs_nonneg _)
          (by positivity)
      have e3 : -(|P.a3| * (L / 1000)) ≤ P.a3 * x := by
        refine (neg_le_neg ?_).trans (neg_abs_le _)
        rw [abs_mul]; exact mul_le_mul_of_nonneg_left hxL (abs_nonneg _)
      have e4 : -(|P.a4| * (L / 1000) ^ 2) ≤ P.a4 * x ^ 2 := by
        refine (neg_le_neg ?_).trans (neg_abs_le _)
        rw [abs_mul, abs_pow]
        exact mul_le_mul_of_nonneg_left (pow_le_pow_left₀ (abs_nonneg _) hxL 2) (abs_nonneg _)
      simp only [hE]
      linarith
    have h4 := Real.exp_le_exp.2 h3
    rcases min_choice √(d ^ 2 + Real.exp (P.a0 + P.a1 * d + P.a2 * d * x + P.a3 * x
      + P.a4 * x ^ 2)) 350 with h5 | h5
    · rw [h5, Real.sq_sqrt (by positivity)]
      have := min_le_left (Real.exp (-E)) (350 ^ 2)
      have := sq_nonneg d
      linarith
    · rw [h5]; exact min_le_right _ _
  -- so each game counts
  set J := (Real.log 10 / 400) ^ 2 / 4 with hJ
  have hJ0 : 0 ≤ J := by positivity
  set v := posterior (posterior f J) J with hv
  have hv1 : 0 < posterior f J := posterior_pos hf0 hJ0
  have hv0 : 0 < v := posterior_pos hv1 hJ0
  have hpost : ∀ n, min v (350 ^ 2)
      ≤ boostRd1 P (a (n + 1)).rating (a (n + 1)).deviation (X (n + 1)) ^ 2 := by
    intro n
    have h1 : posterior f J ≤ boostPre P (a (n + 1)).rating (a (n + 1)).deviation (X (n + 1)) ^ 2 := by
      have h2 : posterior f J ≤ posterior ((a (n + 1)).deviation ^ 2)
          (boostInfo P (a (n + 1)).rating (X (n + 1))) :=
        posterior_mono hf0 (hrd n) (hinfo0 _) (hinfo _)
      rw [boostPre]
      split_ifs with hz
      · set w := posterior ((a (n + 1)).deviation ^ 2) (boostInfo P (a (n + 1)).rating (X (n + 1)))
        have hw : 0 ≤ w := hv1.le.trans h2
        have h3 : √w ≤ (1 + (boostZ P (a (n + 1)).rating (X (n + 1)) - P.k) * P.b0) * √w + P.b1 := by
          have h4 : 0 ≤ (boostZ P (a (n + 1)).rating (X (n + 1)) - P.k) * P.b0 * √w :=
            mul_nonneg (mul_nonneg (sub_nonneg.2 hz.1.le) hb0) (Real.sqrt_nonneg _)
          have h5 : 0 ≤ P.b1 := hb1
          linarith
        refine h2.trans ?_
        rw [← Real.sq_sqrt hw]
        rw [Real.sqrt_sq (Real.sqrt_nonneg w)]
        exact pow_le_pow_left₀ (Real.sqrt_nonneg _) h3 2
      · refine le_trans ?_ (hrd n)
        rw [posterior_eq]
        refine inv_le_of_inv_le₀ hf0 ?_
        linarith
    rw [boostRd1]
    rcases min_choice √(posterior (boostPre P (a (n + 1)).rating (a (n + 1)).deviation
      (X (n + 1)) ^ 2) (boostInfo P (a (n + 1)).rating (X (n + 1)))) 350 with h5 | h5
    · have h6 : v ≤ posterior (boostPre P (a (n + 1)).rating (a (n + 1)).deviation
          (X (n + 1)) ^ 2) (boostInfo P (a (n + 1)).rating (X (n + 1))) :=
        posterior_mono hv1 h1 (hinfo0 _) (hinfo _)
      rw [h5, Real.sq_sqrt (hv0.le.trans h6)]
      exact (min_le_left _ _).trans h6
    · rw [h5]; exact min_le_right _ _
  have hm0 : 0 < min v (350 ^ 2) := lt_min hv0 (by norm_num)
  refine restless (x := fun n => (a (n + 1)).rating) (y := fun n => (b (n + 1)).rating - c.eta * colour (w (n + 1)))
    (o := fun n => o (n + 1)) (α := glickoQ) (κ := glickoQ * min v (350 ^ 2) * glickoG S)
    (k := fun n => glickoQ * boostRd1 P (a (n + 1)).rating (a (n + 1)).deviation (X (n + 1)) ^ 2
      * glickoG (b (n + 1)).deviation)
    (by positivity) hq (fun n => ?_) (fun n => glickoQ * glickoG (b (n + 1)).deviation)
    (fun n => ⟨by have := glickoG_pos (b (n + 1)).deviation; positivity,
      mul_le_of_le_one_right hq.le (glickoG_le_one _)⟩) (fun n => ?_) (fun n => ho _)
    (D := D + |c.eta|) (fun n => (abs_sub _ _).trans (by
      have : |c.eta * colour (w (n + 1))| = |c.eta| := by
        cases w (n + 1) <;> simp [colour]
      linarith [hD (n + 1)])) r
    (h.comp (tendsto_add_atTop_nat 1))
  · have h1 := hpost n
    have h2 := Glicko.glickoG_antitone (hS (n + 1))
    have h3 := hm0.trans_le h1
    gcongr
  · have e : (a (n + 1 + 1)).rating
        = boostRating P (a (n + 1)).rating (a (n + 1)).deviation (X (n + 1)) := by rw [hstep']; rfl
    rw [e, boostRating]
    simp only [hX, boostDelta, boostE, GlickoBoost.game, List.map_cons, List.map_nil, List.sum_cons,
      List.sum_nil, add_zero, glickoE_eq]
    have e2 : glickoQ * (glickoG (b (n + 1)).deviation
        * ((a (n + 1)).rating + P.eta * colour (w (n + 1)) - (b (n + 1)).rating))
        = glickoQ * glickoG (b (n + 1)).deviation
          * ((a (n + 1)).rating - ((b (n + 1)).rating - c.eta * colour (w (n + 1)))) := by
      simp only [hP, GlickoBoost.params]; ring
    rw [e2]
    ring

/-! ### TrueSkill -/

/-- A decided game moves the rating by at least this much. -/
theorem tsVWin_lower {t ε X : ℝ} (h : |t - ε| ≤ X) : Real.exp (-X ^ 2 / 2) / √(2 * Real.pi) ≤ tsVWin t ε := by
  have hs : 1 ≤ √(2 * Real.pi) := by
    rw [Real.one_le_sqrt]; linarith [Real.pi_gt_three]
  have hX : (t - ε) ^ 2 ≤ X ^ 2 := sq_le_sq' (neg_le_of_abs_le h) (le_of_abs_le h)
  rw [tsVWin]
  split_ifs with h1
  · have h2 : t - ε < -26 := by
      by_contra h3
      exact absurd h1 (not_lt.2 (TrueSkill.cdf_ge_tiny (not_lt.1 h3)))
    have h3 : Real.exp (-X ^ 2 / 2) ≤ 1 := Real.exp_le_one_iff.2 (by nlinarith [sq_nonneg X])
    have h4 : Real.exp (-X ^ 2 / 2) / √(2 * Real.pi) ≤ 1 := by
      rw [div_le_one (by linarith)]; linarith
    linarith
  · have h2 := TrueSkill.normalCdf_pos (t - ε)
    have h3 := TrueSkill.normalCdf_lt_one (t - ε)
    have h4 : Real.exp (-X ^ 2 / 2) / √(2 * Real.pi) ≤ normalPdf (t - ε) := by
      rw [normalPdf]
      refine div_le_div_of_nonneg_right (Real.exp_le_exp.2 ?_) (Real.sqrt_nonneg _)
      linarith
    refine h4.trans ?_
    rw [le_div_iff₀ h2]
    have : 0 ≤ normalPdf (t - ε) := by rw [normalPdf]; positivity
    nlinarith

/-- With a dynamics factor other than 0 a TrueSkill rating never settles. -/
theorem C143_trueskill (a b : ℕ → TrueSkill.TrueSkillRating ℝ) (o : ℕ → Outcomes)
    (c : TrueSkill.TrueSkillConfig ℝ) (hτ : c.dynamicsFactor ≠ 0) (hβ : c.beta ≠ 0) (D S : ℝ)
    (hD : ∀ n, |(b n).rating| ≤ D) (hS : ∀ n, |(b n).uncertainty| ≤ S) (ho : ∀ n, o n ≠ .DRAW)
    (hseat : ∀ n, a (n + 1) = (TrueSkill.trueskill (a n) (b n) (o n) c).1 ∨
      a (n + 1) = (TrueSkill.trueskill (b n) (a n) (mirror (o n)) c).2) (r : ℝ) :
    ¬ Tendsto (fun n => (a n).rating) atTop (𝓝 r) := by
  have hstep : ∀ n, a (n + 1) = (TrueSkill.trueskill (a n) (b n) (o n) c).1 := fun n =>
    (hseat n).elim id fun h => by
      obtain ⟨hV, hW⟩ := TrueSkill.matchV_mirror c (o n) (TrueSkill.solo (a n))
        (TrueSkill.solo (b n)) (.inl (ho n))
      rw [h, TrueSkill.trueskill_real, TrueSkill.trueskill_real, hV, hW,
        TrueSkill.tsC_comm _ (TrueSkill.solo (b n)), neg_neg]
  intro h
  obtain ⟨L, hL⟩ := h.abs.bddAbove_range
  have hL' : ∀ n, |(a n).rating| ≤ L := fun n => hL ⟨n, rfl⟩
  have h0 : Tendsto (fun n => |(a (n + 1)).rating - (a n).rating|) atTop (𝓝 0) := by
    have := ((h.comp (tendsto_add_atTop_nat 1)).sub h).abs
    simpa using this
  set m := tsMargin c.drawProbability c.beta (1 + 1) with hm
  set X := (L + D + |m|) / |c.beta| with hX
  set Q := 1 + 2 * c.beta ^ 2 + S ^ 2 with hQ
  have hQ0 : 0 < Q := by positivity
  set δ := min (c.dynamicsFactor ^ 2) 1 / √Q * (Real.exp (-X ^ 2 / 2) / √(2 * Real.pi)) with hδ
  have hτ2 : 0 < c.dynamicsFactor ^ 2 := by positivity
  have hmin : 0 < min (c.dynamicsFactor ^ 2) 1 := lt_min hτ2 one_pos
  have hδ0 : 0 < δ := by
    have := Real.pi_pos
    positivity
  have hge : ∀ n, δ ≤ |(a (n + 1)).rating - (a n).rating| := by
    intro n
    set C := tsC c.beta (TrueSkill.solo (a n)) (TrueSkill.solo (b n)) with hC
    have hC2 : C ^ 2 = 2 * c.beta ^ 2 + (a n).uncertainty ^ 2 + (b n).uncertainty ^ 2 := by
      rw [hC, tsC, Real.sq_sqrt (by simp only [TrueSkill.solo]; positivity)]
      simp only [TrueSkill.solo]; push_cast; ring
    have hCβ : |c.beta| ≤ C := by
      refine abs_le_of_sq_le_sq (b := C) ?_ (Real.sqrt_nonneg _)
      rw [hC2]
      nlinarith [sq_nonneg c.beta, sq_nonneg (a n).uncertainty, sq_nonneg (b n).uncertainty]
    have hβ0 : 0 < |c.beta| := abs_pos.2 hβ
    have hC0 : 0 < C := hβ0.trans_le hCβ
    -- the factor
    have hfac : min (c.dynamicsFactor ^ 2) 1 / √Q
        ≤ ((a n).uncertainty ^ 2 + c.dynamicsFactor ^ 2) / C := by
      set u := (a n).uncertainty ^ 2 with hu
      have hu0 : 0 ≤ u := sq_nonneg _
      have hb2 : (b n).uncertainty ^ 2 ≤ S ^ 2 := by
        rw [← sq_abs]; exact pow_le_pow_left₀ (abs_nonneg _) (hS n) 2
      have hCle : C ≤ √Q * √(1 + u) := by
        rw [← Real.sqrt_mul hQ0.le]
        refine Real.le_sqrt_of_sq_le ?_
        rw [hC2]
        have : 0 ≤ Q * u := by positivity
        nlinarith [sq_nonneg c.beta, sq_nonneg S]
      have hsu : √(1 + u) ≤ 1 + u := by
        rw [Real.sqrt_le_left (by linarith)]; nlinarith
      have hnum : min (c.dynamicsFactor ^ 2) 1 * √(1 + u) ≤ u + c.dynamicsFactor ^ 2 := by
        have h1 := mul_le_mul_of_nonneg_left hsu hmin.le
        have h2 := min_le_left (c.dynamicsFactor ^ 2) 1
        have h3 := mul_le_mul_of_nonneg_right (min_le_right (c.dynamicsFactor ^ 2) 1) hu0
        linarith
      rw [div_le_div_iff₀ (Real.sqrt_pos.2 hQ0) hC0]
      calc _ ≤ min (c.dynamicsFactor ^ 2) 1 * (√Q * √(1 + u)) :=
            mul_le_mul_of_nonneg_left hCle hmin.le
        _ = min (c.dynamicsFactor ^ 2) 1 * √(1 + u) * √Q := by ring
        _ ≤ _ := mul_le_mul_of_nonneg_right hnum (Real.sqrt_nonneg _)
    have hfac0 : 0 ≤ min (c.dynamicsFactor ^ 2) 1 / √Q := by positivity
    -- the correction
    have harg : ∀ x : ℝ, |x| ≤ L + D → |x / C - m / C| ≤ X := by
      intro x hx
      rw [← sub_div, abs_div, abs_of_pos hC0, hX]
      have h1 : |x - m| ≤ L + D + |m| := (abs_sub _ _).trans (by linarith)
      exact div_le_div₀ ((abs_nonneg _).trans h1) h1 hβ0 hCβ
    have hdiff : |(a n).rating - (b n).rating| ≤ L + D :=
      (abs_sub _ _).trans (add_le_add (hL' n) (hD n))
    have hV : Real.exp (-X ^ 2 / 2) / √(2 * Real.pi)
        ≤ |TrueSkill.matchV c (o n) (TrueSkill.solo (a n)) (TrueSkill.solo (b n))| := by
      have hho := ho n
      rw [TrueSkill.matchV]
      cases hoo : o n
      · exact (tsVWin_lower (harg _ hdiff)).trans (le_abs_self _)
      · simp only [corrV]
        rw [abs_neg, ← neg_div]
        refine (tsVWin_lower (harg _ ?_)).trans (le_abs_self _)
        rw [abs_neg]
        exact hdiff
      · exact absurd hoo hho
    have e : (a (n + 1)).rating - (a n).rating
        = ((a n).uncertainty ^ 2 + c.dynamicsFactor ^ 2) / C
          * TrueSkill.matchV c (o n) (TrueSkill.solo (a n)) (TrueSkill.solo (b n)) := by
      rw [hstep, TrueSkill.trueskill_real]
      simp only [TrueSkill.upd, tsRating, ← hC]
      ring
    rw [e, abs_mul, abs_of_nonneg (hfac0.trans hfac)]
    exact mul_le_mul hfac hV (by positivity) (hfac0.trans hfac)
  have := ge_of_tendsto' h0 hge
  linarith

/-! ### Endless games -/

/-- Wins and losses in turn, in all four systems, with the default configurations and first ratings. -/
example (r : ℝ) (hr : r ≠ 100) : ∃ o : ℕ → Outcomes, (∀ n, o n ≠ .DRAW) ∧
    (∃ a : ℕ → Dwz.DWZRating ℝ, a 0 = ⟨1500, 10, 30⟩ ∧
      (∀ n, a (n + 1) = (Dwz.dwz (a n) ⟨1400, 30, 40⟩ (o n)).1) ∧
      ¬ Tendsto (fun n => (a n).rating) atTop (𝓝 r)) ∧
    (∃ a : ℕ → Uscf.USCFRating ℝ, a 0 = .new 26 ∧
      (∀ n, a (n + 1) = (Uscf.uscf (a n) ⟨1400, 30⟩ (o n) .new).1) ∧
      ¬ Tendsto (fun n => (a n).rating) atTop (𝓝 r)) ∧
    (∃ a : ℕ → GlickoBoost.GlickoBoostRating ℝ, a 0 = .new ∧
      (∀ n, a (n + 1) = (GlickoBoost.glickoBoost (a n) ⟨1400, 30⟩ (o n) .new).1) ∧
      ¬ Tendsto (fun n => (a n).rating) atTop (𝓝 r)) ∧
    (∃ a : ℕ → TrueSkill.TrueSkillRating ℝ, a 0 = ⟨25, 25 / 3⟩ ∧
      (∀ n, a (n + 1) = (TrueSkill.trueskill (a n) ⟨27, 1⟩ (o n) .new).1) ∧
      ¬ Tendsto (fun n => (a n).rating) atTop (𝓝 r)) := by
  let o : ℕ → Outcomes := fun n => if n % 2 = 0 then .WIN else .LOSS
  have ho : ∀ n, o n ≠ .DRAW := fun n => by dsimp only [o]; split_ifs <;> simp
  refine ⟨o, ho,
    ⟨fun n => Nat.rec ⟨1500, 10, 30⟩ (fun n x => (Dwz.dwz x ⟨1400, 30, 40⟩ (o n)).1) n, rfl,
      fun n => rfl, C143_dwz _ (fun _ => ⟨1400, 30, 40⟩) o 1400 (fun _ => by norm_num) ho
        (fun n => .inl rfl) r⟩,
    ⟨fun n => Nat.rec (.new 26) (fun n x => (Uscf.uscf x ⟨1400, 30⟩ (o n) .new).1) n, rfl,
      fun n => rfl, C143_uscf _ (fun _ => ⟨1400, 30⟩) o .new 1400 (fun _ => by norm_num) ho
        (fun n => .inl rfl) r hr⟩,
    ⟨fun n => Nat.rec .new (fun n x => (GlickoBoost.glickoBoost x ⟨1400, 30⟩ (o n) .new).1) n, rfl,
      fun n => rfl, C143_glicko_boost _ (fun _ => ⟨1400, 30⟩) o .new ?_ ?_ 1400 30
        (fun _ => by norm_num) (fun _ => by norm_num) ho (fun n => .inl rfl) r⟩,
    ⟨fun n => Nat.rec ⟨25, 25 / 3⟩ (fun n x => (TrueSkill.trueskill x ⟨27, 1⟩ (o n) .new).1) n, rfl,
      fun n => rfl, C143_trueskill _ (fun _ => ⟨27, 1⟩) o .new ?_ ?_ 27 1
        (fun _ => by norm_num) (fun _ => by norm_num) ho (fun n => .inl rfl) r⟩⟩
  · simp only [GlickoBoost.GlickoBoostConfig.new, flt]; norm_num
  · simp only [GlickoBoost.GlickoBoostConfig.new, flt]; norm_num
  · simp only [TrueSkill.TrueSkillConfig.new, flt]; norm_num
  · simp only [TrueSkill.TrueSkillConfig.new, flt]; norm_num

/-- A losing streak at the floor exists. -/
example : ∃ a : ℕ → Uscf.USCFRating ℝ, a 0 = ⟨100, 12⟩ ∧
    ∀ n, a (n + 1) = (Uscf.uscf (a n) ⟨1400, 30⟩ .LOSS .new).1 ∧ (a n).rating = 100 := by
  let a : ℕ → Uscf.USCFRating ℝ := fun n =>
    Nat.rec ⟨100, 12⟩ (fun _ x => (Uscf.uscf x ⟨1400, 30⟩ .LOSS .new).1) n
  exact ⟨a, rfl, fun n => ⟨rfl, C143_uscf_at_floor a (fun _ => ⟨1400, 30⟩) .new (by simp [a])
    rfl (fun n => .inl rfl) n⟩⟩

end Skillratings
