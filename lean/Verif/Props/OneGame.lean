import Mathlib.Topology.Order.MonotoneConvergence
import Verif.Props.Upsets
import Verif.Props.WengLin
import Verif.Props.TrueSkill
import Verif.Proofs.DrawV
/-
C151: how much a rating can change in a single game.  `IsLUB (Set.range f) B`: the values of `f` come as
close to `B` as one likes, and none is larger.
-/
namespace Skillratings
open Spec Real Filter Topology

/-- The gains `f x` against opponents rated `x` stay below `B` and come arbitrarily close to it. -/
structure SharpAbove (f : ℝ → ℝ) (B : ℝ) : Prop where
  lub : IsLUB (Set.range f) B
  below : ∀ x, f x < B

structure SharpBelow (f : ℝ → ℝ) (B : ℝ) : Prop where
  glb : IsGLB (Set.range f) B
  above : ∀ x, B < f x

theorem expected_far_above {s : ℝ} (hs : 0 < s) (r : ℝ) :
    Tendsto (fun x => sigmoid (s * (r - x))) atTop (𝓝 0) := by
  refine tendsto_sigmoid_atBot.comp (Tendsto.const_mul_atBot hs ?_)
  exact tendsto_atBot_add_const_left _ r tendsto_neg_atTop_atBot

theorem expected_far_below {s : ℝ} (hs : 0 < s) (r : ℝ) :
    Tendsto (fun x => sigmoid (s * (r - x))) atBot (𝓝 1) := by
  refine tendsto_sigmoid_atTop.comp (Tendsto.const_mul_atTop hs ?_)
  exact tendsto_atTop_add_const_left _ r tendsto_neg_atBot_atTop

theorem sharp_win {K s : ℝ} (hK : 0 < K) (hs : 0 < s) (r : ℝ) :
    SharpAbove (fun x => K * (1 - sigmoid (s * (r - x)))) K := by
  refine ⟨isLUB_of_tendsto_atTop (fun x y h => ?_) ?_, fun x => ?_⟩
  · have : sigmoid (s * (r - y)) ≤ sigmoid (s * (r - x)) := sigmoid_le_iff.2 (by gcongr)
    gcongr
  · simpa using ((expected_far_above hs r).const_sub 1).const_mul K
  · have := sigmoid_pos (s * (r - x)); nlinarith

theorem sharp_loss {K s : ℝ} (hK : 0 < K) (hs : 0 < s) (r : ℝ) :
    SharpBelow (fun x => K * (0 - sigmoid (s * (r - x)))) (-K) := by
  refine ⟨isGLB_of_tendsto_atBot (fun x y h => ?_) ?_, fun x => ?_⟩
  · have : sigmoid (s * (r - y)) ≤ sigmoid (s * (r - x)) := sigmoid_le_iff.2 (by gcongr)
    gcongr
  · simpa using ((expected_far_below hs r).const_sub 0).const_mul K
  · have := sigmoid_lt_one (s * (r - x)); nlinarith

/-! ### Bounded: Elo, FIFA, DWZ, USCF, Glicko, Weng-Lin -/

theorem C151_elo (a : Elo.EloRating ℝ) (c : Elo.EloConfig ℝ) (hk : 0 < c.k) :
    SharpAbove (fun x => (Elo.elo a ⟨x⟩ .WIN c).1.rating - a.rating) c.k ∧
    SharpBelow (fun x => (Elo.elo a ⟨x⟩ .LOSS c).1.rating - a.rating) (-c.k) := by
  have hl := log_ten_pos
  simp only [Elo.elo_real, points, add_sub_cancel_right]
  exact ⟨sharp_win hk (by positivity) _, sharp_loss hk (by positivity) _⟩

/-- In a knockout game nobody loses points, after a penalty shootout the winner gets at most three quarters. -/
theorem C151_fifa (a : Fifa.FifaRating ℝ) (c : Fifa.FifaConfig ℝ) (hi : 0 < c.importance)
    (hp : c.penalties = false) :
    SharpAbove (fun x => (Fifa.fifa a ⟨x⟩ .WIN c).1.rating - a.rating) c.importance ∧
    (c.knockout = false →
      SharpBelow (fun x => (Fifa.fifa a ⟨x⟩ .LOSS c).1.rating - a.rating) (-c.importance)) := by
  have hl := log_ten_pos
  have hg : ∀ x, Fifa.guarded c a.rating
      (c.importance * (1 - sigmoid (log 10 / 600 * (a.rating - x))) + a.rating) - a.rating
      = c.importance * (1 - sigmoid (log 10 / 600 * (a.rating - x))) := fun x => by
    have : 0 ≤ c.importance * (1 - sigmoid (log 10 / 600 * (a.rating - x))) :=
      mul_nonneg hi.le (sub_nonneg.2 (sigmoid_lt_one _).le)
    unfold Fifa.guarded
    split_ifs
    · rw [max_eq_right (by linarith)]; ring
    · ring
  simp only [Fifa.fifa_real, Fifa.credit, hp, points]
  refine ⟨?_, fun hk => ?_⟩
  · simp only [Bool.false_eq_true, if_false, hg]
    exact sharp_win hi (by positivity) _
  · simp only [Bool.false_eq_true, if_false, Fifa.guarded, hk, add_sub_cancel_right]
    exact sharp_loss hi (by positivity) _

/-- A DWZ player gains less than 800 divided by one more than the development coefficient of a game won
against all expectation. -/
theorem C151_dwz (a : Dwz.DWZRating ℝ) (hi : 1 ≤ a.index) (i n : ℕ) :
    SharpAbove (fun x => (Dwz.dwz a ⟨x, i, n⟩ .WIN).1.rating - a.rating)
      (800 / (dwzCoefficient a.rating a.age 1 0 a.index + 1)) ∧
    SharpBelow (fun x => (Dwz.dwz a ⟨x, i, n⟩ .LOSS).1.rating - a.rating)
      (-(800 / (dwzCoefficient a.rating a.age 0 1 a.index + 1))) := by
  have hl := log_ten_pos
  have hpos : ∀ s e, 0 < dwzCoefficient a.rating a.age s e a.index + 1 := fun s e => by
    rw [← Dwz.eValue_spec _ _ _ _ _ hi]
    linarith [Dwz.eValue_nonneg a.rating a.age s e a.index]
  have e1 : ∀ x : ℝ, dwzCoefficient a.rating a.age 1 (sigmoid (log 10 / 400 * (a.rating - x))) a.index
      = dwzCoefficient a.rating a.age 1 0 a.index := fun x => by
    have h := sigmoid_lt_one (log 10 / 400 * (a.rating - x))
    simp only [dwzCoefficient, h.le, zero_le_one, not_le.2 h, not_le.2 one_pos]
  have e0 : ∀ x : ℝ, dwzCoefficient a.rating a.age 0 (sigmoid (log 10 / 400 * (a.rating - x))) a.index
      = dwzCoefficient a.rating a.age 0 1 a.index := fun x => by
    have h := sigmoid_pos (log 10 / 400 * (a.rating - x))
    simp only [dwzCoefficient, h.le, zero_le_one, not_le.2 h, not_le.2 one_pos]
  simp only [Dwz.dwz_fst_real, Dwz.expectedScore_real, points, Dwz.eValue_spec _ _ _ _ _ hi, e1, e0,
    add_sub_cancel_right]
  exact ⟨sharp_win (div_pos (by norm_num) (hpos _ _)) (by positivity) _,
    sharp_loss (div_pos (by norm_num) (hpos _ _)) (by positivity) _⟩

/-- Established players. -/
theorem C151_uscf (a : Uscf.USCFRating ℝ) (c : Uscf.USCFConfig ℝ) (h9 : 9 ≤ a.games)
    (h100 : 100 ≤ a.rating) (n : ℕ) :
    SharpAbove (fun x => (Uscf.uscf a ⟨x, n⟩ .WIN c).1.rating - a.rating)
      (800 / (uscfEffective a.rating a.games + 1)) := by
  have hl := log_ten_pos
  have hN := Uscf.uscfEffective_pos a.rating (show 0 < a.games by omega)
  have hK : uscfK a.rating a.games 1 = 800 / (uscfEffective a.rating a.games + 1) := by simp [uscfK]
  have e : ∀ x, (Uscf.uscf a ⟨x, n⟩ .WIN c).1.rating - a.rating
      = 800 / (uscfEffective a.rating a.games + 1) * (1 - sigmoid (log 10 / 400 * (a.rating - x))) := by
    intro x
    rw [Uscf.C54_uscf_established a _ _ c h9, Uscf.logisticExpected_eq, hK, points, max_eq_left]
    · ring
    · have := mul_nonneg (show 0 ≤ 800 / (uscfEffective a.rating a.games + 1) by positivity)
        (sub_nonneg.2 (sigmoid_lt_one (log 10 / 400 * (a.rating - x))).le)
      linarith
  simp only [e]
  exact sharp_win (by positivity) (by positivity) _

/-- With Glicko the bound depends on the square of the deviation at the start of the game. -/
theorem C151_glicko (a : Glicko.GlickoRating ℝ) (d : ℝ) (c : Glicko.GlickoConfig ℝ)
    (ha : 0 < a.deviation) :
    SharpAbove (fun x => (Glicko.glicko a ⟨x, d⟩ .WIN c).1.rating - a.rating)
      (glickoQ * glickoG d * (min √(a.deviation ^ 2 + c.c ^ 2) 350) ^ 2) ∧
    SharpBelow (fun x => (Glicko.glicko a ⟨x, d⟩ .LOSS c).1.rating - a.rating)
      (-(glickoQ * glickoG d * (min √(a.deviation ^ 2 + c.c ^ 2) 350) ^ 2)) := by
  have hq := glickoQ_pos
  have hg := glickoG_pos d
  have ho : 0 < glickoOnset a.deviation c.c := glickoOnset_pos c.c ha
  have eo : min √(a.deviation ^ 2 + c.c ^ 2) 350 = glickoOnset a.deviation c.c := rfl
  rw [eo]
  set v := glickoOnset a.deviation c.c ^ 2 with hv
  have v0 : 0 < v := by positivity
  have eE : ∀ x, glickoE a.rating x d = sigmoid (glickoQ * glickoG d * (a.rating - x)) := fun x => by
    rw [glickoE_eq, mul_assoc]
  have form : ∀ o x, (Glicko.glicko a ⟨x, d⟩ o c).1.rating - a.rating
      = glickoQ * posterior v (glickoInfo a.rating x d) * (glickoG d * (points o - glickoE a.rating x d)) := by
    intro o x
    rw [Glicko.glicko_real]; simp only [Glicko.rated]; ring
  have lim : ∀ (l : Filter ℝ) (e : ℝ), Tendsto (fun x => glickoE a.rating x d) l (𝓝 e) → e * (1 - e) = 0 →
      ∀ o, Tendsto (fun x => (Glicko.glicko a ⟨x, d⟩ o c).1.rating - a.rating) l
        (𝓝 (glickoQ * v * (glickoG d * (points o - e)))) := by
    intro l e he h0 o
    have hi : Tendsto (fun x => glickoInfo a.rating x d) l (𝓝 0) := by
      have := (he.const_mul (glickoQ ^ 2 * glickoG d ^ 2)).mul (he.const_sub 1)
      rw [mul_assoc, h0, mul_zero] at this
      exact this
    have hp : Tendsto (fun x => posterior v (glickoInfo a.rating x d)) l (𝓝 v) := by
      have := (tendsto_const_nhds (x := (1 : ℝ))).div (hi.const_add (1 / v)) (by positivity)
      rw [add_zero, one_div_one_div] at this
      exact this
    simp only [form]
    exact (hp.const_mul glickoQ).mul ((he.const_sub _).const_mul _)
  have mono : ∀ o, StrictMono (fun x => (Glicko.glicko a ⟨x, d⟩ o c).1.rating - a.rating) := fun o x y h => by
    have := (C93_glicko_opponent a ⟨x, d⟩ ⟨y, d⟩ o c ha h rfl).1
    dsimp only; linarith
  constructor
  · have t := lim atTop 0 (by simp only [eE]; exact expected_far_above (by positivity) _) (by ring) .WIN
    have e : glickoQ * v * (glickoG d * (points .WIN - 0)) = glickoQ * glickoG d * v := by
      rw [points]; ring
    rw [e] at t
    have l := isLUB_of_tendsto_atTop (mono .WIN).monotone t
    exact ⟨l, fun x => (mono .WIN (lt_add_one x)).trans_le (l.1 ⟨_, rfl⟩)⟩
  · have t := lim atBot 1 (by simp only [eE]; exact expected_far_below (by positivity) _) (by ring) .LOSS
    have e : glickoQ * v * (glickoG d * (points .LOSS - 1)) = -(glickoQ * glickoG d * v) := by
      rw [points]; ring
    rw [e] at t
    have l := isGLB_of_tendsto_atBot (mono .LOSS).monotone t
    exact ⟨l, fun x => (l.1 ⟨_, rfl⟩).trans_lt (mono .LOSS (sub_one_lt x))⟩

theorem C151_wengLin (a : WengLin.WengLinRating ℝ) (u : ℝ) (c : WengLin.WengLinConfig ℝ)
    (ha : 0 < a.uncertainty) :
    SharpAbove (fun x => (WengLin.wengLin a ⟨x, u⟩ .WIN c).1.rating - a.rating)
      (a.uncertainty ^ 2 / √(a.uncertainty ^ 2 + u ^ 2 + 2 * c.beta ^ 2)) ∧
    SharpBelow (fun x => (WengLin.wengLin a ⟨x, u⟩ .LOSS c).1.rating - a.rating)
      (-(a.uncertainty ^ 2 / √(a.uncertainty ^ 2 + u ^ 2 + 2 * c.beta ^ 2))) := by
  have hC : 0 < √(a.uncertainty ^ 2 + u ^ 2 + 2 * c.beta ^ 2) := Real.sqrt_pos.2 (by positivity)
  simp only [WengLin.wengLin_real, WengLin.wlP_eq, wlC, points, add_sub_cancel_left, div_eq_inv_mul _
    (√(a.uncertainty ^ 2 + u ^ 2 + 2 * c.beta ^ 2))]
  exact ⟨sharp_win (by positivity) (inv_pos.2 hC) _, sharp_loss (by positivity) (inv_pos.2 hC) _⟩

theorem SharpAbove.add_const {f : ℝ → ℝ} {B : ℝ} (h : SharpAbove f B) (b : ℝ) :
    SharpAbove (fun x => f x + b) (B + b) := by
  refine ⟨⟨?_, fun u hu => ?_⟩, fun x => add_lt_add_left (h.below x) b⟩
  · rintro _ ⟨x, rfl⟩
    exact add_le_add_left (h.below x).le b
  · have : B ≤ u - b := h.lub.2 (by
      rintro _ ⟨x, rfl⟩
      have := hu ⟨x, rfl⟩
      dsimp only at this
      linarith)
    linarith

/-- EGF, even games against opponents below the ceiling. -/
theorem C151_egf (a : Egf.EGFRating ℝ) (h9 : -900 ≤ a.rating) (hc : a.rating < 3300) :
    IsLUB ((fun x => (Egf.egf a ⟨x⟩ .WIN ⟨0⟩).1.rating - a.rating) '' Set.Iio 3300)
      (egfCon a.rating + egfBonus a.rating) ∧
    ∀ x < 3300, (Egf.egf a ⟨x⟩ .WIN ⟨0⟩).1.rating - a.rating < egfCon a.rating + egfBonus a.rating := by
  have hcon : 0 < egfCon a.rating := by
    unfold egfCon
    exact Real.rpow_pos_of_pos (by linarith) _
  have hb := Egf.egfBonus_pos a.rating
  set g := fun x => (Egf.egf a ⟨x⟩ .WIN ⟨0⟩).1.rating - a.rating with hg
  have e : ∀ y : ℝ, g (3300 - exp (-y))
      = egfCon a.rating * (1 - sigmoid (7 * (egfBeta a.rating / 7 - y))) + egfBonus a.rating := by
    intro y
    have e1 : egfBeta a.rating - egfBeta (3300 - exp (-y)) = 7 * (egfBeta a.rating / 7 - y) := by
      simp only [egfBeta, sub_sub_cancel, log_exp]; ring
    simp only [hg, Egf.egf_real, Egf.expectedScore_real, egfRating, egfFirst, egfSecond, egfStones, points]
    norm_num
    rw [e1, max_eq_left]
    · ring
    · have := mul_nonneg hcon.le (sub_nonneg.2 (sigmoid_lt_one (7 * (egfBeta a.rating / 7 - y))).le)
      linarith
  have sh := (sharp_win hcon (by norm_num : (0 : ℝ) < 7) (egfBeta a.rating / 7)).add_const
    (egfBonus a.rating)
  have hx : ∀ x < (3300 : ℝ), x = 3300 - exp (-(-log (3300 - x))) := fun x hx => by
    rw [neg_neg, exp_log (by linarith)]; ring
  have him : g '' Set.Iio 3300 = Set.range fun y => g (3300 - exp (-y)) := by
    ext z
    constructor
    · rintro ⟨x, hx', rfl⟩
      exact ⟨-log (3300 - x), by dsimp only; rw [← hx x hx']⟩
    · rintro ⟨y, rfl⟩
      exact ⟨_, by simp only [Set.mem_Iio]; linarith [exp_pos (-y)], rfl⟩
  constructor
  · rw [him]; simp only [e]; exact sh.lub
  · intro x h
    have := sh.below (-log (3300 - x))
    rw [← e, ← hx x h] at this
    exact this

/-! ### Unbounded: Ingo, USCF newcomers, TrueSkill -/

/-- Ingo (lower is better): against a strong enough opponent any result, even a loss, improves the rating by
as much as one likes. -/
theorem C151_ingo (a : Ingo.IngoRating ℝ) (n : ℕ) (o : Outcomes) (B : ℝ) :
    ∃ x, B < a.rating - (Ingo.ingo a ⟨x, n⟩ o).1.rating := by
  have hd := Ingo.development_pos a.age
  refine ⟨a.rating - (B + 1) * (1 + Ingo.development a.age) - 50, ?_⟩
  rw [(Ingo.C24_ingo_formula a _ o).1, lt_sub_comm, div_lt_iff₀ (by positivity)]
  have := points_nonneg o
  simp only [Ingo.perf]
  nlinarith

/-- The same for USCF players with at most eight games. -/
theorem C151_uscf_provisional (a : Uscf.USCFRating ℝ) (h8 : a.games ≤ 8) (n : ℕ) (o : Outcomes)
    (c : Uscf.USCFConfig ℝ) (B : ℝ) : ∃ x, B < (Uscf.uscf a ⟨x, n⟩ o c).1.rating - a.rating := by
  refine ⟨(B + a.rating + 1) * (a.games + 1) - a.games * a.rating + 400, ?_⟩
  rw [Uscf.C54_uscf_provisional a _ o c h8, lt_sub_iff_add_lt]
  refine lt_max_of_lt_left ?_
  rw [lt_div_iff₀ (by positivity)]
  have : -1 ≤ Uscf.balance o := by cases o <;> simp [Uscf.balance]
  have : (0 : ℝ) ≤ a.games := Nat.cast_nonneg _
  dsimp only
  linarith

/-- TrueSkill: a win against a strong enough opponent. -/
theorem C151_trueskill (a : TrueSkill.TrueSkillRating ℝ) (ha : 0 < a.uncertainty) (u : ℝ)
    (c : TrueSkill.TrueSkillConfig ℝ) (B : ℝ) :
    ∃ x, B < (TrueSkill.trueskill a ⟨x, u⟩ .WIN c).1.rating - a.rating := by
  set C := tsC c.beta (TrueSkill.solo a) (TrueSkill.solo ⟨0, u⟩) with hC
  have C0 : 0 < C := TrueSkill.tsC_pos (sq_nonneg _) (sq_nonneg _) (.inl (by
    simp only [TrueSkill.solo]; positivity))
  have eC : ∀ x, tsC c.beta (TrueSkill.solo a) (TrueSkill.solo ⟨x, u⟩) = C := fun x => rfl
  set ε := tsMargin c.drawProbability c.beta (1 + 1) / C with hε
  set S := a.uncertainty ^ 2 + c.dynamicsFactor ^ 2 with hS
  have S0 : 0 < S := by positivity
  set y := max 30 ((|B| + 1) * C / S) with hy
  refine ⟨a.rating + C * (y - ε), ?_⟩
  have ht : (a.rating - (a.rating + C * (y - ε))) / C = ε - y := by field_simp; ring
  have hV : TrueSkill.matchV c .WIN (TrueSkill.solo a) (TrueSkill.solo ⟨a.rating + C * (y - ε), u⟩) = y := by
    have h : normalCdf (-y) < tsTiny := by
      by_contra h
      have h1 := TrueSkill.cdf_tiny_le (not_lt.1 h)
      have h2 : 30 ≤ y := le_max_left _ _
      linarith
    simp only [TrueSkill.matchV, corrV, eC]
    simp only [TrueSkill.solo, ht, ← hε]
    rw [tsVWin, show ε - y - ε = -y by ring, if_pos h]; ring
  rw [TrueSkill.trueskill_real, hV, eC]
  simp only [TrueSkill.upd, tsRating, ← hS, add_sub_cancel_left]
  have h1 : (|B| + 1) * C / S ≤ y := le_max_right _ _
  calc B < |B| + 1 := by linarith [le_abs_self B]
    _ = S / C * ((|B| + 1) * C / S) := by field_simp
    _ ≤ S / C * y := by gcongr

/-! Concrete cases. -/
/-- A newcomer with the default deviation gains less than 706 points, but with a win against a well-known
player of sufficient strength more than any smaller number than that supremum. -/
example : SharpAbove (fun x => (Glicko.glicko (⟨1500, 350⟩ : Glicko.GlickoRating ℝ) ⟨x, 0⟩ .WIN ⟨63.2⟩).1.rating
    - 1500) (glickoQ * glickoG 0 * (min √(350 ^ 2 + 63.2 ^ 2) 350) ^ 2) :=
  (C151_glicko ⟨1500, 350⟩ 0 ⟨63.2⟩ (by norm_num)).1
example : SharpAbove (fun x => (Elo.elo (⟨1200⟩ : Elo.EloRating ℝ) ⟨x⟩ .WIN ⟨32⟩).1.rating - 1200) 32 :=
  (C151_elo ⟨1200⟩ ⟨32⟩ (by norm_num)).1
/-- A loss against a strong player improves an Ingo rating by more than 1000. -/
example : ∃ x, 1000 < 230 - (Ingo.ingo (⟨230, 30⟩ : Ingo.IngoRating ℝ) ⟨x, 30⟩ .LOSS).1.rating :=
  C151_ingo ⟨230, 30⟩ 30 .LOSS 1000
example (c : TrueSkill.TrueSkillConfig ℝ) :
    ∃ x, 1000 < (TrueSkill.trueskill (⟨25, 8⟩ : TrueSkill.TrueSkillRating ℝ) ⟨x, 1⟩ .WIN c).1.rating - 25 :=
  C151_trueskill ⟨25, 8⟩ (by norm_num) 1 c 1000
example : ∀ x < 3300, (Egf.egf (⟨2000⟩ : Egf.EGFRating ℝ) ⟨x⟩ .WIN ⟨0⟩).1.rating - 2000
    < egfCon 2000 + egfBonus 2000 := (C151_egf ⟨2000⟩ (by norm_num) (by norm_num)).2

end Skillratings
