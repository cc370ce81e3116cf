import Verif.Proofs.FPGlicko2Player
import Verif.Proofs.FPScale
import Verif.Proofs.FPUpdates
import Verif.Proofs.Volatility
/-
C127: in double precision a game of Glicko-2 returns, and its result is close to the exact one.
-/

namespace Skillratings
namespace Glicko2
open FP FPVal Spec
variable {E : FloatEnv}

/-- The opponent of a game and the points, on the internal scale. -/
noncomputable def opponent (b : Glicko2Rating (FP E)) (s : ℝ) : List Glicko2Game :=
  [⟨glicko2Mu b.rating.toR, glicko2Phi b.deviation.toR, s⟩]

/-- The improvement of step 4 is not within a relative distance of `2 ^ -24` of the point where
`Δ² = φ² + v`, at which the code changes its way of starting the iteration. -/
def Decisive (a : Glicko2Rating (FP E)) (xs : List Glicko2Game) : Prop :=
  (glicko2Phi a.deviation.toR ^ 2 + glicko2V (glicko2Mu a.rating.toR) xs) / 2 ^ 24 <
    |glicko2Delta (glicko2Mu a.rating.toR) xs ^ 2 - glicko2Phi a.deviation.toR ^ 2
      - glicko2V (glicko2Mu a.rating.toR) xs|

/-- The difference of the ratings is not too large for the system constant: for `τ = 1/2` it may be
as large as 686 points, for `τ = 6/5` as large as 382 points. -/
def NotTooFar (a b : Glicko2Rating (FP E)) (c : Glicko2Config (FP E)) : Prop :=
  c.tau.toR ^ 2 * Real.exp (|a.rating.toR - b.rating.toR| / glicko2Scale) ≤ 13

theorem pointsR_eq (o : Outcomes) : pointsR o = points o := by cases o <;> rfl

theorem pointsR_mirror (o : Outcomes) : 1 - pointsR o = points (mirror o) := by
  cases o <;> norm_num [pointsR, points, mirror]

theorem points01 (o : Outcomes) : 0 ≤ points o ∧ points o ≤ 1 := by cases o <;> norm_num [points]

/-- Both players. -/
theorem game_close (L : E.Lib) (A : E.Accurate) (P : E.Precise) (S : E.Scales) (W : E.LogWide)
    (a b : Glicko2Rating (FP E)) (o : Outcomes) (c : Glicko2Config (FP E)) (ha : Glicko2Usual a)
    (hb : Glicko2Usual b) (hc : Glicko2Tuned c) (hd : NotTooFar a b c) :
    ∃ a' b', glicko2 a b o c = some (a', b') ∧
      (∃ r rd σ, Glicko2Exact a.rating.toR a.deviation.toR a.volatility.toR c.tau.toR (opponent b (points o)) r rd σ ∧
        Glicko2Close (c.convergenceTolerance.toR + 1 / 2 ^ 17) a' r rd σ ∧
        (Decisive a (opponent b (points o)) → Glicko2Close (c.convergenceTolerance.toR + 1 / 2 ^ 28) a' r rd σ)) ∧
      (∃ r rd σ, Glicko2Exact b.rating.toR b.deviation.toR b.volatility.toR c.tau.toR
          (opponent a (points (mirror o))) r rd σ ∧
        Glicko2Close (c.convergenceTolerance.toR + 1 / 2 ^ 17) b' r rd σ ∧
        (Decisive b (opponent a (points (mirror o))) →
          Glicko2Close (c.convergenceTolerance.toR + 1 / 2 ^ 28) b' r rd σ)) := by
  have hd' : NotTooFar b a c := by rw [NotTooFar, abs_sub_comm]; exact hd
  have i1 := points_in (E := E) o
  have i2 := points_in' (E := E) o
  rw [pointsR_eq] at i1
  rw [pointsR_mirror] at i2
  obtain ⟨r₁, d₁, s₁, y₁, x₁, n₁, f₁, c₁, k₁⟩ := player_returns L A P S W ha hb hc hd i1 (points01 o).1 (points01 o).2
    rfl rfl rfl rfl rfl rfl rfl
  obtain ⟨r₂, d₂, s₂, y₂, x₂, n₂, f₂, c₂, k₂⟩ := player_returns L A P S W hb ha hc hd' i2 (points01 (mirror o)).1
    (points01 (mirror o)).2 rfl rfl rfl rfl rfl rfl rfl
  have t0 := hc.tolerance.2.1
  have t1 := hc.tolerance.2.2
  refine ⟨_, _, by simp only [glicko2, n₁, n₂, Option.bind_eq_bind, Option.bind_some],
    ⟨r₁, d₁, s₁, x₁, f₁ _ ?_ ?_ c₁, fun h => f₁ _ ?_ ?_ (k₁ h)⟩,
    ⟨r₂, d₂, s₂, x₂, f₂ _ ?_ ?_ c₂, fun h => f₂ _ ?_ ?_ (k₂ h)⟩⟩ <;> norm_num at * <;> linarith

/-- The call returns, and both new players are close to the exact result. -/
theorem C127_glicko2_returns (L : E.Lib) (A : E.Accurate) (P : E.Precise) (S : E.Scales) (W : E.LogWide)
    (a b : Glicko2Rating (FP E)) (o : Outcomes) (c : Glicko2Config (FP E)) (ha : Glicko2Usual a)
    (hb : Glicko2Usual b) (hc : Glicko2Tuned c) (hd : NotTooFar a b c) :
    ∃ a' b', glicko2 a b o c = some (a', b') ∧
      (∃ r rd σ, Glicko2Exact a.rating.toR a.deviation.toR a.volatility.toR c.tau.toR (opponent b (points o)) r rd σ ∧
        Glicko2Close (c.convergenceTolerance.toR + 1 / 2 ^ 17) a' r rd σ) ∧
      (∃ r rd σ, Glicko2Exact b.rating.toR b.deviation.toR b.volatility.toR c.tau.toR
          (opponent a (points (mirror o))) r rd σ ∧
        Glicko2Close (c.convergenceTolerance.toR + 1 / 2 ^ 17) b' r rd σ) := by
  obtain ⟨a', b', h, ⟨r, rd, σ, x, y, -⟩, ⟨r', rd', σ', x', y', -⟩⟩ := game_close L A P S W a b o c ha hb hc hd
  exact ⟨a', b', h, ⟨r, rd, σ, x, y⟩, ⟨r', rd', σ', x', y'⟩⟩

/-- Away from the point where the code changes its way of starting, the error is the tolerance the
caller asked for. -/
theorem C127_glicko2_precise (L : E.Lib) (A : E.Accurate) (P : E.Precise) (S : E.Scales) (W : E.LogWide)
    (a b a' b' : Glicko2Rating (FP E)) (o : Outcomes) (c : Glicko2Config (FP E)) (ha : Glicko2Usual a)
    (hb : Glicko2Usual b) (hc : Glicko2Tuned c) (hd : NotTooFar a b c) (h : glicko2 a b o c = some (a', b')) :
    (Decisive a (opponent b (points o)) →
      ∃ r rd σ, Glicko2Exact a.rating.toR a.deviation.toR a.volatility.toR c.tau.toR (opponent b (points o)) r rd σ ∧
        Glicko2Close (c.convergenceTolerance.toR + 1 / 2 ^ 28) a' r rd σ) ∧
    (Decisive b (opponent a (points (mirror o))) →
      ∃ r rd σ, Glicko2Exact b.rating.toR b.deviation.toR b.volatility.toR c.tau.toR
          (opponent a (points (mirror o))) r rd σ ∧
        Glicko2Close (c.convergenceTolerance.toR + 1 / 2 ^ 28) b' r rd σ) := by
  obtain ⟨a₁, b₁, h', ⟨r, rd, σ, x, -, y⟩, ⟨r', rd', σ', x', -, y'⟩⟩ := game_close L A P S W a b o c ha hb hc hd
  obtain ⟨rfl, rfl⟩ := Prod.mk.inj (Option.some.inj (h.symm.trans h'))
  exact ⟨fun k => ⟨r, rd, σ, x, y k⟩, fun k => ⟨r', rd', σ', x', y' k⟩⟩

/-- The exact result is unique. -/
theorem C127_glicko2_exact_unique (a b : Glicko2Rating (FP E)) (s : ℝ) (c : Glicko2Config (FP E))
    (hb : Glicko2Usual b) (hc : Glicko2Tuned c) (hd : NotTooFar a b c) (s0 : 0 ≤ s) (s1 : s ≤ 1)
    (r rd σ r' rd' σ' : ℝ)
    (h : Glicko2Exact a.rating.toR a.deviation.toR a.volatility.toR c.tau.toR (opponent b s) r rd σ)
    (h' : Glicko2Exact a.rating.toR a.deviation.toR a.volatility.toR c.tau.toR (opponent b s) r' rd' σ') :
    r = r' ∧ rd = rd' ∧ σ = σ' := by
  have hsc : 0 < glicko2Scale := (scale_ap (E := E)).2.pos
  have eD : |a.rating.toR - b.rating.toR| / glicko2Scale = |(a.rating.toR - b.rating.toR) / glicko2Scale| := by
    rw [abs_div, abs_of_pos hsc]
  rw [NotTooFar, eD] at hd
  have eμ : glicko2Mu a.rating.toR - glicko2Mu b.rating.toR = (a.rating.toR - b.rating.toR) / glicko2Scale := by
    rw [glicko2Mu, glicko2Mu]; ring
  have b34 := (phi_le (le_trans (by norm_num) hb.deviation.2.1) hb.deviation.2.2).1
  have g01 := g2_ge b34
  have hG1 := g2_le (glicko2Phi b.deviation.toR)
  have hG0 := g2_pos (glicko2Phi b.deviation.toR)
  obtain ⟨y1, y2, -⟩ := odds_range hc.tau.2.1 hd
  obtain ⟨o1, o2⟩ := odds_between (D := (a.rating.toR - b.rating.toR) / glicko2Scale) hG0 hG1
  have hdel := delta_bound o1 o2 y1 y2 hG0 s0 s1
  have hvb := v_bound o1 o2 y1 y2 g01.1 g01.2
  have hV : glicko2V (glicko2Mu a.rating.toR) (opponent b s) = _ := single_V _ _
  have hgain : glicko2Gain (glicko2Mu a.rating.toR) (opponent b s) = _ := single_gain _ _
  simp only [eμ] at hV hgain
  rw [← hgain, ← hV] at hdel
  rw [← hV] at hvb
  have hτ : 0 < c.tau.toR := lt_of_lt_of_le (by norm_num) hc.tau.2.1
  have hσ : σ = σ' := by
    have hu := (F_unique (glicko2Delta (glicko2Mu a.rating.toR) (opponent b s)) (glicko2Phi a.deviation.toR)
      (glicko2V (glicko2Mu a.rating.toR) (opponent b s)) a.volatility.toR (by linarith [hvb.1]) hτ (by
        refine (show glicko2Delta (glicko2Mu a.rating.toR) (opponent b s) ^ 2 ≤ _ from hdel).trans ?_
        have hv0 : 0 < glicko2V (glicko2Mu a.rating.toR) (opponent b s) := by linarith [hvb.1]
        generalize glicko2V (glicko2Mu a.rating.toR) (opponent b s) = v at *
        have h1 : Real.exp |(a.rating.toR - b.rating.toR) / glicko2Scale| ≤ 1 + 27 / (2 * c.tau.toR ^ 2) := by
          have : Real.exp |(a.rating.toR - b.rating.toR) / glicko2Scale| ≤ 13 / c.tau.toR ^ 2 := by
            rw [le_div_iff₀ (by positivity)]; linarith
          refine this.trans ?_
          rw [div_le_iff₀ (by positivity)]
          field_simp
          nlinarith
        have h2 : 0 ≤ glicko2Phi a.deviation.toR ^ 2 := by positivity
        have h3 : 0 < 1 + 27 / (2 * c.tau.toR ^ 2) := by positivity
        nlinarith)).injective (h.volatility.trans h'.volatility.symm)
    have h1 := h.pos
    have h2 := h'.pos
    have := Real.log_injOn_pos (Set.mem_Ioi.2 (pow_pos h1 2)) (Set.mem_Ioi.2 (pow_pos h2 2)) hu
    exact (pow_left_inj₀ h1.le h2.le (by norm_num)).1 this
  subst hσ
  exact ⟨h.rating.trans h'.rating.symm, h.deviation.trans h'.deviation.symm, rfl⟩

theorem close_mono {η η' : ℝ} {p : Glicko2Rating (FP E)} {r rd σ : ℝ} (h : Glicko2Close η p r rd σ) (h0 : 0 < σ)
    (hη : η ≤ η') : Glicko2Close η' p r rd σ :=
  ⟨h.rating.mono (by linarith), h.deviation.mono (by linarith),
    h.volatility.mono (mul_le_mul_of_nonneg_right hη h0.le)⟩

/-- The default configuration. -/
theorem default_tuned : Glicko2Tuned (Glicko2Config.new : Glicko2Config (FP E)) := by
  have h1 := lit_in (E := E) (m := 5) (s := true) (e := 1) (v := 1 / 2) (by norm_num) SRep.half
  have h2 := lit_ap (E := E) (m := 1) (s := true) (e := 6) (v := 1 / 1000000) (n := 20) (by norm_num)
    ⟨by norm_num, by norm_num⟩ (by norm_num)
  refine ⟨⟨h1.finite, le_trans (by norm_num) h1.toR.1, h1.toR.2.trans (by norm_num)⟩, ?_⟩
  have h3 := h2.1.near (by norm_num)
  have h4 := abs_le.1 h3.2
  refine ⟨h3.1, ?_⟩
  change 1 / 2 ^ 21 ≤ (OfScientific.ofScientific 1 true 6 : FP E).toR ∧
    (OfScientific.ofScientific 1 true 6 : FP E).toR ≤ 1
  generalize (OfScientific.ofScientific 1 true 6 : FP E).toR = z at *
  constructor <;> norm_num at * <;> linarith

theorem default_tau : (Glicko2Config.new : Glicko2Config (FP E)).tau.toR = 1 / 2 := by
  have h1 := lit_in (E := E) (m := 5) (s := true) (e := 1) (v := 1 / 2) (by norm_num) SRep.half
  exact le_antisymm h1.toR.2 h1.toR.1

theorem default_tolerance : (Glicko2Config.new : Glicko2Config (FP E)).convergenceTolerance.toR ≤ 11 / 10000000 := by
  have h2 := lit_ap (E := E) (m := 1) (s := true) (e := 6) (v := 1 / 1000000) (n := 20) (by norm_num)
    ⟨by norm_num, by norm_num⟩ (by norm_num)
  have h4 := abs_le.1 (h2.1.near (by norm_num)).2
  change (OfScientific.ofScientific 1 true 6 : FP E).toR ≤ _
  generalize (OfScientific.ofScientific 1 true 6 : FP E).toR = z at *
  norm_num at *
  linarith

theorem default_near {a b : Glicko2Rating (FP E)} (h : |a.rating.toR - b.rating.toR| ≤ 680) :
    NotTooFar a b Glicko2Config.new := by
  rw [NotTooFar, default_tau]
  have h1 : |a.rating.toR - b.rating.toR| / glicko2Scale ≤ 4 - 85 / 1000 := by
    rw [scale_eq, div_le_iff₀ (by norm_num)]
    linarith
  have h2 := Real.exp_le_exp.2 h1
  have h3 : Real.exp (4 - 85 / 1000) ≤ 52 := by
    rw [Real.exp_sub, div_le_iff₀ (Real.exp_pos _)]
    have h4 := Real.add_one_le_exp (85 / 1000 : ℝ)
    have h5 : Real.exp 4 ≤ 2.7182818286 ^ 4 := by
      rw [show (4 : ℝ) = ((4 : ℕ) : ℝ) * 1 by norm_num, Real.exp_nat_mul]
      exact pow_le_pow_left₀ (Real.exp_pos 1).le Real.exp_one_lt_d9.le 4
    norm_num at h5
    linarith
  linarith

/-- With the default configuration: two players no more than 680 points apart.  The new ratings are
exact up to 0.0001, the deviations up to 0.0005 and the volatilities up to a relative 0.000009. -/
theorem C127_glicko2_default (L : E.Lib) (A : E.Accurate) (P : E.Precise) (S : E.Scales) (W : E.LogWide)
    (a b : Glicko2Rating (FP E)) (o : Outcomes) (ha : Glicko2Usual a) (hb : Glicko2Usual b)
    (hd : |a.rating.toR - b.rating.toR| ≤ 680) :
    ∃ a' b', glicko2 a b o Glicko2Config.new = some (a', b') ∧
      (∃ r rd σ, Glicko2Exact a.rating.toR a.deviation.toR a.volatility.toR (1 / 2) (opponent b (points o)) r rd σ ∧
        Glicko2Close (9 / 1000000) a' r rd σ) ∧
      (∃ r rd σ, Glicko2Exact b.rating.toR b.deviation.toR b.volatility.toR (1 / 2)
          (opponent a (points (mirror o))) r rd σ ∧ Glicko2Close (9 / 1000000) b' r rd σ) := by
  obtain ⟨a', b', h, ⟨r, rd, σ, x, y⟩, ⟨r', rd', σ', x', y'⟩⟩ :=
    C127_glicko2_returns L A P S W a b o Glicko2Config.new ha hb default_tuned (default_near hd)
  have ht := default_tolerance (E := E)
  rw [default_tau] at x x'
  refine ⟨a', b', h, ⟨r, rd, σ, x, close_mono y x.pos ?_⟩, ⟨r', rd', σ', x', close_mono y' x'.pos ?_⟩⟩ <;>
    norm_num at * <;> linarith

/-- The default player. -/
theorem new_usual : Glicko2Usual (Glicko2Rating.new : Glicko2Rating (FP E)) := by
  have h1 := lit_in (E := E) (m := 15000) (s := true) (e := 1) (v := 1500) (by norm_num)
      (SRep.ofNat 1500 (by norm_num))
  have h2 := lit_in (E := E) (m := 3500) (s := true) (e := 1) (v := 350) (by norm_num)
      (SRep.ofNat 350 (by norm_num))
  have h3 := lit_ap (E := E) (m := 6) (s := true) (e := 2) (v := 6 / 100) (n := 5) (by norm_num)
    ⟨by norm_num, by norm_num⟩ (by norm_num)
  have n3 := h3.1.near (by norm_num)
  have a3 := abs_le.1 n3.2
  refine ⟨⟨h1.finite, ?_⟩, ⟨h2.finite, le_trans (by norm_num) h2.toR.1, h2.toR.2.trans (by norm_num)⟩, n3.1, ?_⟩
  · have e : (Glicko2Rating.new : Glicko2Rating (FP E)).rating.toR = 1500 := le_antisymm h1.toR.2 h1.toR.1
    rw [e]; norm_num
  · change 1 / 10000 ≤ (OfScientific.ofScientific 6 true 2 : FP E).toR ∧
      (OfScientific.ofScientific 6 true 2 : FP E).toR ≤ 99 / 1000
    generalize (OfScientific.ofScientific 6 true 2 : FP E).toR = z at *
    constructor <;> norm_num at * <;> linarith

/-- Two new players, in IEEE arithmetic. -/
example (o : Outcomes) : ∃ r, glicko2 (Glicko2Rating.new : Glicko2Rating (FP ieee)) Glicko2Rating.new o
    Glicko2Config.new = some r := by
  obtain ⟨a', b', h, -⟩ := C127_glicko2_default ieee_lib ieee_accurate ieee_precise ieee_scales ieee_logWide
    (Glicko2Rating.new : Glicko2Rating (FP ieee)) Glicko2Rating.new o new_usual new_usual (by simp)
  exact ⟨_, h⟩

/-- A game between two new players is decisive. -/
example : Decisive (Glicko2Rating.new : Glicko2Rating (FP E)) (opponent (Glicko2Rating.new : Glicko2Rating (FP E)) 1) := by
  have h2 := lit_in (E := E) (m := 3500) (s := true) (e := 1) (v := 350) (by norm_num)
      (SRep.ofNat 350 (by norm_num))
  have e : (Glicko2Rating.new : Glicko2Rating (FP E)).deviation.toR = 350 := le_antisymm h2.toR.2 h2.toR.1
  rw [Decisive, opponent, glicko2Delta, single_V, single_gain, e]
  simp only [sub_self, mul_zero, neg_zero, Real.exp_zero]
  have hφ : 4 ≤ glicko2Phi 350 ^ 2 ∧ glicko2Phi 350 ^ 2 ≤ 34 := by
    rw [glicko2Phi, scale_eq]; norm_num
  have hg := g2_ge hφ.2
  generalize glicko2G (glicko2Phi 350) = g at *
  have hg0 : g ≠ 0 := by
    rintro rfl; norm_num at hg
  have e1 : (1 / (g ^ 2 * (1 / (1 + 1)) * (1 - 1 / (1 + 1))) * (g * (1 - 1 / (1 + 1)))) ^ 2 - glicko2Phi 350 ^ 2 -
      1 / (g ^ 2 * (1 / (1 + 1)) * (1 - 1 / (1 + 1))) = - glicko2Phi 350 ^ 2 := by
    field_simp; ring
  have e2 : 1 / (g ^ 2 * (1 / (1 + 1)) * (1 - 1 / (1 + 1))) = 4 / g ^ 2 := by field_simp; ring
  rw [e1, e2, abs_neg, abs_of_nonneg (by linarith)]
  have h4 : 4 / g ^ 2 ≤ 48 := by rw [div_le_iff₀ (by linarith)]; linarith
  rw [div_lt_iff₀ (by norm_num)]
  norm_num
  linarith

end Glicko2
end Skillratings
