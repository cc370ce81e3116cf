import Verif.Props.FloatBayesTeams
import Verif.Props.FloatEven
/-
C164 for TrueSkill: a draw between equally rated players changes no rating, in floating point.
-/
namespace Skillratings
open FP FPVal Spec
variable {E : FloatEnv}

namespace Is

theorem sub_zero {x y : FP E} {v : ℝ} (hx : Is x v) (hy : Is y 0) : Is (x - y) v :=
  let h := sub_zero_val hx.1 hy.1 hy.2
  ⟨h.1, h.2.trans hx.2⟩

theorem zero : Is (0.0 : FP E) 0 := by
  have := zero_in (E := E)
  exact iff_in.2 (by simpa using this)

theorem div_one {x y : FP E} {v : ℝ} (hx : Is x v) (hy : Is y 1) : Is (x / y) v := by
  obtain ⟨s, hs⟩ := div_fin hx.1 hy.1 (by rw [hy.2]; norm_num)
  have := isFinite.srep hx.1
  rw [hs, hx.2, hy.2, _root_.div_one]
  exact round (hx.2 ▸ this)

theorem abs {x : FP E} {v : ℝ} (hx : Is x v) : Is (Flt.abs x) |v| :=
  ⟨(abs_val hx.1).1, by rw [(abs_val hx.1).2, hx.2]⟩

end Is

namespace TrueSkill

/-- The bell curve is symmetric, bit for bit. -/
theorem pdf_even (L : E.Lib) {x y : FP E} {v : ℝ} (hx : Is x v) (hy : Is y (-v)) (hv : v ≠ 0) :
    pdf x (0.0 : FP E) (1.0 : FP E) = pdf y (0.0 : FP E) (1.0 : FP E) := by
  have h1 : Is (Flt.abs (1.0 : FP E)) 1 := by simpa using Is.one.abs (E := E)
  have ux := (hx.sub_zero Is.zero).div_one h1
  have uy := (hy.sub_zero Is.zero).div_one h1
  rw [pdf, pdf, powi_two' L, powi_two' L]
  obtain ⟨s, hs⟩ := mul_fin ux.1 ux.1
  obtain ⟨t, ht⟩ := mul_fin uy.1 uy.1
  rw [ux.2] at hs
  rw [uy.2, neg_mul_neg] at ht
  have e : E.round s (v * v) = E.round t (v * v) := by
    simp [FloatEnv.round, hv]
  rw [hs, ht, e]

/-- The correction of a draw between equals is zero. -/
theorem vDraw_zero (L : E.Lib) (A : E.Accurate) {d m c : FP E} {C : ℝ} (hd : Is d 0) (hm : m.isFinite)
    (hc : Ap 20 50 c C) (h1 : C ≤ 100 * m.toR) (h2 : m.toR ≤ 28 * C) : Is (vDraw d m c) 0 := by
  have hC := hc.2.pos
  have q2 := ratio_near (near_self hm) hc (by positivity) (by rw [abs_of_pos (by linarith)]; exact h2)
  have e1 : 0.01 ≤ m.toR / C := by rw [le_div_iff₀ hC]; norm_num; linarith
  have e2 : m.toR / C ≤ 28 := by rwa [div_le_iff₀ hC]
  set e := m.toR / C
  have c0 : c.toR ≠ 0 := by
    have := abs_le.1 (hc.1.near hC.le).2
    norm_num at this
    have := this.1
    intro h
    rw [h] at this
    linarith
  have q1 := hd.zero_div hc.1.1 c0
  have aq : Is (Flt.abs (d / c)) 0 := by simpa using q1.abs
  have ym : Is (m / c) (m / c).toR := ⟨q2.1, rfl⟩
  have y1 := ym.sub_zero aq
  have y2 := ym.neg.sub_zero aq
  have hy0 : (m / c).toR ≠ 0 := by
    have := (abs_le.1 q2.2).1
    intro h
    rw [h] at this
    norm_num at this e1; linarith
  have n1 : Near (1 / 2 ^ 37) (m / c - Flt.abs (d / c)) e := by
    refine ⟨y1.1, ?_⟩
    rw [y1.2]; exact q2.2.trans (by norm_num)
  have n2 : Near (1 / 2 ^ 37) (-(m / c) - Flt.abs (d / c)) (-e) := by
    refine ⟨y2.1, ?_⟩
    rw [y2.2, ← abs_neg]
    refine le_trans (le_of_eq ?_) (q2.2.trans (by norm_num))
    congr 1; ring
  have hG := window_ge (a := -e) (b := e) (by norm_num at e1; linarith) (by norm_num at e1; linarith)
    (by norm_num at e1 ⊢; linarith)
  have he : |e| ≤ 28 := by rw [abs_of_pos (by norm_num at e1; linarith)]; exact e2
  obtain ⟨k1, k2, -, -⟩ := drawn_core L A n1 n2 he (by rwa [abs_neg]) (by norm_num at hG ⊢; linarith)
  have p := pdf_even L y1 y2 hy0
  have pf : (pdf (m / c - Flt.abs (d / c)) (0.0 : FP E) (1.0 : FP E)).isFinite :=
    (pdf_fp L A n1 (by norm_num) (he.trans (by norm_num))).1.1
  have hs : ¬ (d / c <? (0.0 : FP E)) = true := by
    rw [lt_iff_toR q1.1 Is.zero.1, q1.2, Is.zero.2]; exact lt_irrefl _
  have hv : vDraw d m c = (pdf (-(m / c) - Flt.abs (d / c)) (0.0 : FP E) (1.0 : FP E)
      - pdf (m / c - Flt.abs (d / c)) (0.0 : FP E) (1.0 : FP E))
      / (cdf (m / c - Flt.abs (d / c)) (0.0 : FP E) (1.0 : FP E)
        - cdf (-(m / c) - Flt.abs (d / c)) (0.0 : FP E) (1.0 : FP E)) := by
    rw [vDraw, if_neg k1, if_neg hs]
  rw [hv]
  obtain ⟨f₁, -, g₁⟩ := cdf_fp A (n1.mono (δ := 1 / 2 ^ 36) (by norm_num)) le_rfl (he.trans (by norm_num))
  obtain ⟨f₂, -, g₂⟩ := cdf_fp A (n2.mono (δ := 1 / 2 ^ 36) (by norm_num)) le_rfl
    (by rw [abs_neg]; exact he.trans (by norm_num))
  have hn := near_sub (show Near _ _ _ from ⟨f₁, g₁⟩) (show Near _ _ _ from ⟨f₂, g₂⟩) (M := 2) (by
      have := Phi_pos e; have := Phi_lt_one e; have := Phi_pos (-e); have := Phi_lt_one (-e)
      have : |Phi e - Phi (-e)| ≤ 1 := by rw [abs_le]; constructor <;> linarith
      norm_num; linarith) (by norm_num) (le_huge 1 (by norm_num) (by norm_num))
  refine Is.zero_div ?_ hn.1 ?_
  · rw [← p]
    exact Is.sub_self ⟨pf, rfl⟩ ⟨pf, rfl⟩
  · have := (abs_le.1 hn.2).1
    intro h
    rw [h] at this
    norm_num at this hG; linarith

/-- No correction, no change. -/
theorem newRating_same (L : E.Lib) {r σ v c τ m : FP E} {C x k : ℝ} (hσ : Between (1 / 2 ^ 20) (2 ^ 20) σ)
    (hτ : τ.isFinite) (hτ' : |τ.toR| ≤ 2 ^ 20) (hc : Ap 20 50 c C) (hm : Is m k) (hk : |k| = 1)
    (hv : Is v 0) (hr : Is r x) : Is (newRating r σ v c τ m) x := by
  have k1 := (variance_ap L hσ hτ hτ').div hc (by norm_num) (by norm_num) (by norm_num)
  rw [newRating]
  refine Is.mulAdd ?_ hv hr
  obtain ⟨s, hs⟩ := mul_fin hm.1 k1.1.1
  have hx := isFinite.srep k1.1.1
  rw [hs, hm.2]
  rcases (abs_eq zero_le_one).1 hk with rfl | rfl
  · rw [one_mul]; exact (Is.round hx).1
  · rw [neg_one_mul]; exact (Is.round hx.neg).1

/-- The players end as they were rated.  The margin of a draw is between a hundredth and 28 times the
standard deviation of the lead. -/
theorem C164_trueskill (L : E.Lib) (A : E.Accurate) (a b : TrueSkillRating (FP E)) (c : TrueSkillConfig (FP E))
    (hβ : Between (1 / 2 ^ 20) (2 ^ 20) c.beta) (ha : TsUsual a) (hb : TsUsual b)
    (heq : a.rating.toR = b.rating.toR) (hτ : c.dynamicsFactor.isFinite) (hτ' : |c.dynamicsFactor.toR| ≤ 2 ^ 20)
    {ε : ℝ} (hε : IsMargin c ε) (h1 : spread a b c ≤ 100 * ε) (h2 : ε ≤ 28 * spread a b c) :
    ((trueskill a b .DRAW c).1.rating.isFinite ∧ (trueskill a b .DRAW c).1.rating.toR = a.rating.toR) ∧
      ((trueskill a b .DRAW c).2.rating.isFinite ∧ (trueskill a b .DRAW c).2.rating.toR = b.rating.toR) := by
  obtain ⟨hc, -⟩ := spread_ap L hβ ha hb
  have h0 : Is (a.rating - b.rating) 0 := Is.sub_self ⟨ha.1, rfl⟩ ⟨hb.1, heq.symm⟩
  have hv := vDraw_zero L A h0 hε.1 hc (by rwa [hε.2]) (by rwa [hε.2])
  exact ⟨newRating_same L ha.2 hτ hτ' hc Is.one (by norm_num) hv ⟨ha.1, rfl⟩,
    newRating_same L hb.2 hτ hτ' hc Is.one.neg (by norm_num) hv ⟨hb.1, rfl⟩⟩

/-- Rating periods of draws against equals.  The conditions are about the uncertainty the player has by then. -/
theorem C164_trueskill_period (L : E.Lib) (A : E.Accurate) (a : TrueSkillRating (FP E)) (ha : a.rating.isFinite)
    (results : List (TrueSkillRating (FP E) × Outcomes)) (c : TrueSkillConfig (FP E))
    (hβ : Between (1 / 2 ^ 20) (2 ^ 20) c.beta)
    (hτ : c.dynamicsFactor.isFinite) (hτ' : |c.dynamicsFactor.toR| ≤ 2 ^ 20) {ε : ℝ} (hε : IsMargin c ε)
    (h : ∀ before b o after, results = before ++ (b, o) :: after →
      o = .DRAW ∧ TsUsual b ∧ b.rating.toR = a.rating.toR ∧
      Between (1 / 2 ^ 20) (2 ^ 20) (trueskillRatingPeriod a before c).uncertainty ∧
      spread (trueskillRatingPeriod a before c) b c ≤ 100 * ε ∧
      ε ≤ 28 * spread (trueskillRatingPeriod a before c) b c) :
    (trueskillRatingPeriod a results c).rating.isFinite ∧
      (trueskillRatingPeriod a results c).rating.toR = a.rating.toR := by
  induction results using List.reverseRecOn with
  | nil => exact ⟨ha, rfl⟩
  | append_singleton l x ih =>
    have ih := ih fun before b o after e => h before b o (after ++ [x]) (by rw [e]; simp)
    obtain ⟨b, o⟩ := x
    obtain ⟨rfl, hb, hr, hu, h1, h2⟩ := h l b o [] rfl
    have := (C164_trueskill L A (trueskillRatingPeriod a l c) b c hβ ⟨ih.1, hu⟩ hb (ih.2.trans hr.symm) hτ hτ' hε
      h1 h2).1
    have e : trueskillRatingPeriod a (l ++ [(b, .DRAW)]) c = (trueskill (trueskillRatingPeriod a l c) b .DRAW c).1 := by
      simp only [trueskillRatingPeriod, List.foldl_append, List.foldl_cons, List.foldl_nil]
      rfl
    rw [e]
    exact ⟨this.1, this.2.trans ih.2⟩

theorem finite_of_sub_self {x : FP E} (h : (x - x).isFinite) : x.isFinite := by
  cases x with
  | nan => exact h.elim
  | inf s => cases s <;> exact h.elim
  | fin s r => trivial

/-- Two teams of together at most 16 players that list the same ratings. -/
theorem C164_trueskill_two_teams (L : E.Lib) (A : E.Accurate) (s t : List (TrueSkillRating (FP E)))
    (c : TrueSkillConfig (FP E)) (hβ : Between (1 / 2 ^ 20) (2 ^ 20) c.beta)
    (hs : s ≠ []) (ht : t ≠ []) (hn : s.length + t.length ≤ 16)
    (hs' : ∀ a ∈ s, TsMate c a) (ht' : ∀ a ∈ t, TsMate c a) (heq : s.map (·.rating) = t.map (·.rating))
    (hτ : c.dynamicsFactor.isFinite) (hτ' : |c.dynamicsFactor.toR| ≤ 2 ^ 20)
    {ε : ℝ} (hε : IsMarginOf c (s.length + t.length) ε)
    (h1 : tsC c.beta.toR (side (s.map tsExact)) (side (t.map tsExact)) ≤ 100 * ε)
    (h2 : ε ≤ 28 * tsC c.beta.toR (side (s.map tsExact)) (side (t.map tsExact))) :
    List.Forall₂ (fun a a' => a'.rating.isFinite ∧ a'.rating.toR = a.rating.toR) s (trueskillTwoTeams s t .DRAW c).1 ∧
    List.Forall₂ (fun a a' => a'.rating.isFinite ∧ a'.rating.toR = a.rating.toR) t (trueskillTwoTeams s t .DRAW c).2 := by
  obtain ⟨hc, hC2⟩ := team_spread L hβ hs ht hn hs' ht'
  have hcond : ¬ ((s.isEmpty || t.isEmpty) = true) := by simp [List.isEmpty_iff, hs, ht]
  have hC0 := hc.2.pos
  have hμ : (side (s.map tsExact)).μ - (side (t.map tsExact)).μ = 0 := by
    have : (s.map fun a => a.rating.toR) = t.map fun a => a.rating.toR := by
      have := congrArg (List.map fun x : FP E => x.toR) heq
      simpa only [List.map_map, Function.comp_def] using this
    simp only [side, List.map_map, Function.comp_def, tsExact]
    rw [this, sub_self]
  have hCn : ((s.length + t.length : ℕ) : ℝ) * c.beta.toR ^ 2
      ≤ tsC c.beta.toR (side (s.map tsExact)) (side (t.map tsExact)) ^ 2 := by
    have := sq_sum_nonneg s; have := sq_sum_nonneg t
    rw [hC2]; linarith
  have hd := team_delta hβ hs ht hn (fun a ha => (hs' a ha).member) (fun a ha => (ht' a ha).member) hc.2 hCn
    (by rw [hμ, abs_zero]; positivity)
  have e : teamRating s = teamRating t := by rw [teamRating, teamRating, heq]
  have h0 : Is (teamRating s - teamRating t) 0 := by
    have hf := hd.1
    rw [e] at hf ⊢
    exact Is.sub_self ⟨finite_of_sub_self hf, rfl⟩ ⟨finite_of_sub_self hf, rfl⟩
  have hv := vDraw_zero L A h0 hε.1 hc (by rwa [hε.2]) (by rwa [hε.2])
  rw [trueskillTwoTeams, if_neg hcond]
  constructor
  · refine List.forall₂_map_right_iff.2 (List.forall₂_same.2 fun a ha => ?_)
    exact newRating_same L (hs' a ha).member.1.2 hτ hτ' hc Is.one (by norm_num) hv ⟨(hs' a ha).member.1.1, rfl⟩
  · refine List.forall₂_map_right_iff.2 (List.forall₂_same.2 fun a ha => ?_)
    exact newRating_same L (ht' a ha).member.1.2 hτ hτ' hc Is.one.neg (by norm_num) hv ⟨(ht' a ha).member.1.1, rfl⟩

/-- Two players at 25 ± 8 with a draw probability of 0.1. -/
theorem tom_margin : ∃ ε, IsMargin cfg4 ε ∧ spread tom tom cfg4 ≤ 100 * ε ∧ ε ≤ 28 * spread tom tom cfg4 := by
  have i2 := lit_in (E := ieee) (m := 20) (s := true) (e := 1) (v := 2)
    (by norm_num) (SRep.ofNat 2 (by norm_num))
  have e2 : (2.0 : FP ieee).toR = 2 := le_antisymm i2.toR.2 i2.toR.1
  obtain ⟨m1, -, m3⟩ := margin_fp ieee_lib ieee_accurate ieee_logAccurate cfg4_probability.1.1
    cfg4_probability.1.2.1 cfg4_probability.1.2.2 cfg4_usual (N := 2.0)
    ⟨i2.finite, by rw [e2]; norm_num, by rw [e2]; norm_num⟩
  obtain ⟨X, N, P, ε', hP, -, hε', hε0, hb, -⟩ := tom_contest
  rw [sub_self, abs_zero, zero_add] at hb
  have hε := hε'
  rw [hε.2, e2, cfg4_beta, ← pow_two, Real.sq_sqrt (by norm_num)] at m3
  have hp := cfg4_probability.2
  have m3' := abs_le.1 m3
  have hz : 0.079 ≤ ε' / (2 * 4) := by
    by_contra hlt
    rw [not_le] at hlt
    have h1 := erfcExact_strictAnti.antitone hlt.le
    have h2 := (erfc_linear (x := 0.079) (by norm_num)).1
    norm_num at h1 h2 m3' hp
    linarith [m3'.2, hp.1]
  have s0 : (0 : ℝ) < √160 := by positivity
  have s1 : √160 ≤ (13 : ℝ) := by rw [Real.sqrt_le_left (by norm_num)]; norm_num
  rw [tom_spread, div_le_iff₀ s0] at hb
  exact ⟨ε', hε, by rw [tom_spread]; norm_num at hz; linarith, by rw [tom_spread]; linarith⟩

example : (trueskill tom tom .DRAW cfg4).1.rating.toR = 25 := by
  obtain ⟨ε, hε, h1, h2⟩ := tom_margin
  rw [(C164_trueskill ieee_lib ieee_accurate tom tom cfg4 cfg4_usual tom_player.usual tom_player.usual rfl
    cfg4_dynamics.1 (by rw [cfg4_dynamics.2]; norm_num) hε h1 h2).1.2, tom_rating]

example : (trueskillRatingPeriod tom [(tom, .DRAW)] cfg4).rating.toR = 25 := by
  obtain ⟨ε, hε, h1, h2⟩ := tom_margin
  rw [(C164_trueskill_period ieee_lib ieee_accurate tom tom_player.usual.1 _ cfg4 cfg4_usual
    cfg4_dynamics.1 (by rw [cfg4_dynamics.2]; norm_num) hε ?_).2, tom_rating]
  intro before b o after e
  cases before with
  | nil =>
    simp only [List.nil_append, List.cons.injEq, Prod.mk.injEq] at e
    obtain ⟨⟨rfl, rfl⟩, -⟩ := e
    exact ⟨rfl, tom_player.usual, rfl, tom_player.usual.2, h1, h2⟩
  | cons x l => simp at e

/-- Two teams of two. -/
example : List.Forall₂ (fun a a' => a'.rating.isFinite ∧ a'.rating.toR = a.rating.toR) [tom, tom]
    (trueskillTwoTeams [tom, tom] [tom, tom] .DRAW cfg4).2 := by
  obtain ⟨ε, hε, hb, m3⟩ := four_margin
  have hp := cfg4_probability.2
  have m3' := abs_le.1 m3
  have q1 : (1.41 : ℝ) ≤ √2 := by rw [Real.le_sqrt' (by norm_num)]; norm_num
  have hz : 0.079 ≤ ε / (√2 * 8) := by
    by_contra hlt
    rw [not_le] at hlt
    have h1 := erfcExact_strictAnti.antitone hlt.le
    have h2 := (erfc_linear (x := 0.079) (by norm_num)).1
    norm_num at h1 h2 m3' hp
    linarith [m3'.2, hp.1]
  have he1 : 0.88 ≤ ε := by
    rw [le_div_iff₀ (by positivity)] at hz
    norm_num at hz q1 ⊢; linarith
  have s1 : √320 ≤ (18 : ℝ) := by rw [Real.sqrt_le_left (by norm_num)]; norm_num
  have s2 : (17 : ℝ) ≤ √320 := by rw [Real.le_sqrt' (by norm_num)]; norm_num
  have hb' := (abs_le.1 hb).2
  exact (C164_trueskill_two_teams ieee_lib ieee_accurate [tom, tom] [tom, tom] cfg4 cfg4_usual (by simp) (by simp)
    (by simp) (by simp [tom_mate]) (by simp [tom_mate]) rfl cfg4_dynamics.1 (by rw [cfg4_dynamics.2]; norm_num) hε
    (by rw [twos_spread]; norm_num at he1; linarith) (by rw [twos_spread]; linarith)).2

end TrueSkill
end Skillratings
