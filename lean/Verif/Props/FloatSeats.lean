import Verif.Proofs.FPBounds
import Verif.Proofs.FPError
import Verif.Spec.Accuracy
import Verif.Model.Elo
import Verif.Model.Glicko
import Verif.Model.Glicko2
import Verif.Model.GlickoBoost
import Verif.Model.Sticko
import Verif.Model.Uscf
import Verif.Model.TrueSkill
import Verif.Spec.Basic
/-
C162: in floating point, in the systems that compute the two players apart from each other, which
of the two players is passed first does not matter at all: the two results are the same numbers,
bit for bit, for every input, infinities and NaN included.  (C108 is the same over the reals.)
-/
namespace Skillratings
open FP FPVal Spec
variable {E : FloatEnv}

/-- A literal with an exact value. -/
private theorem lit_round {m e : ℕ} {s : Bool} {v : ℝ} (h : (OfScientific.ofScientific m s e : ℝ) = v) :
    (OfScientific.ofScientific m s e : FP E) = E.round false v := by
  subst h; rfl

/-- A difference that has no rounding. -/
private theorem exact_sub {v w : ℝ} (hv : Rep v) (hw : Rep w) (hv0 : 0 < v) :
    (E.sub (E.round false v) (E.round false w) : FPVal) = E.round false (v - w) := by
  have e1 : E.round false v = fin false ⟨v, hv⟩ := by
    have h1 : |v| = v := abs_of_pos hv0
    have := E.mag_rep ⟨v, hv⟩
    simp only [FloatEnv.round, hv0.ne', if_false, h1]
    simp only at this
    rw [this, decide_eq_false (not_lt.2 hv0.le)]
    rfl
  have hw0 : 0 ≤ w := hw.nonneg
  have e2 : E.round false w = fin false ⟨w, hw⟩ := by
    by_cases h : w = 0
    · subst h; simp only [FloatEnv.round, if_true]; rfl
    · have h1 : |w| = w := abs_of_nonneg hw0
      have := E.mag_rep ⟨w, hw⟩
      simp only [FloatEnv.round, h, if_false, h1]
      simp only at this
      rw [this, decide_eq_false (not_lt.2 hw0)]
      rfl
  rw [e1, e2]
  show E.round (false && !false) (signed false v + signed (!false) w) = _
  simp [signed, sub_eq_add_neg]

/-- The points of the opponent, exactly. -/
theorem points_other (o : Outcomes) :
    (1.0 : FP E) - o.toChessPoints = (mirror o).toChessPoints := by
  have r1 : Rep (1 : ℝ) := by simpa using Rep.nat (n := 1) (by norm_num)
  have rh : Rep (1 / 2 : ℝ) := by
    have := SRep.half
    rwa [SRep, abs_of_pos (by norm_num)] at this
  have e1 : (1.0 : FP E) = E.round false 1 := lit_round (by norm_num)
  have eh : (0.5 : FP E) = E.round false (1 / 2) := lit_round (by norm_num)
  have e0 : (0.0 : FP E) = E.round false 0 := lit_round (by norm_num)
  cases o
  · show (1.0 : FP E) - 1.0 = 0.0
    rw [e1, e0]
    exact (exact_sub r1 r1 one_pos).trans (by rw [sub_self])
  · show (1.0 : FP E) - 0.0 = 1.0
    rw [e1, e0]
    exact (exact_sub r1 Rep.zero one_pos).trans (by rw [sub_zero])
  · show (1.0 : FP E) - 0.5 = 0.5
    rw [e1, eh]
    exact (exact_sub r1 rh one_pos).trans (by norm_num)

/-- Two minus signs in a product. -/
theorem mulAdd_neg_neg (a b c : FPVal) : E.mulAdd a.neg b.neg c = E.mulAdd a b c := by
  rcases a with _ | (_ | _) | ⟨_ | _, m⟩ <;> rcases b with _ | (_ | _) | ⟨_ | _, n⟩ <;>
    rcases c with _ | u | ⟨u, o⟩ <;>
    simp [FPVal.neg, FloatEnv.mulAdd, FloatEnv.mul, FloatEnv.add, signed]

theorem mulAdd_neg_swap (a b c : FPVal) : E.mulAdd a.neg b c = E.mulAdd a b.neg c := by
  rcases a with _ | (_ | _) | ⟨_ | _, m⟩ <;> rcases b with _ | (_ | _) | ⟨_ | _, n⟩ <;>
    rcases c with _ | u | ⟨u, o⟩ <;>
    simp [FPVal.neg, FloatEnv.mulAdd, FloatEnv.mul, FloatEnv.add, signed]

private theorem twice (o : Outcomes) : mirror (mirror o) = o := by cases o <;> rfl

theorem C162_glicko (a b : Glicko.GlickoRating (FP E)) (o : Outcomes)
    (c : Glicko.GlickoConfig (FP E)) :
    Glicko.glicko b a (mirror o) c = (Glicko.glicko a b o c).swap := by
  simp only [Glicko.glicko, points_other, twice, Prod.swap]

theorem C162_ingo (a b : Ingo.IngoRating (FP E)) (o : Outcomes) :
    Ingo.ingo b a (mirror o) = (Ingo.ingo a b o).swap := by
  simp only [Ingo.ingo, points_other, twice, Prod.swap]

theorem C162_uscf (a b : Uscf.USCFRating (FP E)) (o : Outcomes) (c : Uscf.USCFConfig (FP E)) :
    Uscf.uscf b a (mirror o) c = (Uscf.uscf a b o c).swap := by
  simp only [Uscf.uscf, points_other, twice, Prod.swap]
  cases o <;> rfl

/-- Glicko-2, where the search for the new volatility may also not end (`none`). -/
theorem C162_glicko2 (a b : Glicko2.Glicko2Rating (FP E)) (o : Outcomes)
    (c : Glicko2.Glicko2Config (FP E)) :
    Glicko2.glicko2 b a (mirror o) c = (Glicko2.glicko2 a b o c).map Prod.swap := by
  simp only [Glicko2.glicko2, points_other, twice]
  generalize Glicko2.newVolatility a.volatility _ _ _ _ _ = x
  generalize Glicko2.newVolatility b.volatility _ _ _ _ _ = y
  cases x <;> cases y <;> rfl

/-- In Sticko the first seat has the advantage `gamma`; passing the players in the other order
means that the other seat has it. -/
theorem C162_sticko (a b : Sticko.StickoRating (FP E)) (o : Outcomes)
    (c : Sticko.StickoConfig (FP E)) :
    Sticko.sticko b a (mirror o) { c with gamma := -c.gamma } = (Sticko.sticko a b o c).swap := by
  have h1 : ∀ g x y : FP E, Sticko.eValue g x y (-c.gamma) 1.0 = Sticko.eValue g x y c.gamma (-1.0) := by
    intro g x y
    have := mulAdd_neg_swap (E := E) c.gamma (1.0 : FP E) (x - y)
    simp only [Sticko.eValue]
    exact congrArg (fun z : FP E => Flt.recip (1.0 + (Flt.powf 10.0 (-g * z / 400.0)))) this
  have h2 : ∀ g x y : FP E, Sticko.eValue g x y (-c.gamma) (-1.0) = Sticko.eValue g x y c.gamma 1.0 := by
    intro g x y
    have := mulAdd_neg_neg (E := E) c.gamma (1.0 : FP E) (x - y)
    simp only [Sticko.eValue]
    exact congrArg (fun z : FP E => Flt.recip (1.0 + (Flt.powf 10.0 (-g * z / 400.0)))) this
  simp only [Sticko.sticko, points_other, twice, h1, h2, Prod.swap]

/-- The same for the advantage `eta` of Glicko-Boost. -/
theorem C162_glickoBoost (a b : GlickoBoost.GlickoBoostRating (FP E)) (o : Outcomes)
    (c : GlickoBoost.GlickoBoostConfig (FP E)) :
    GlickoBoost.glickoBoost b a (mirror o) { c with eta := -c.eta }
      = (GlickoBoost.glickoBoost a b o c).swap := by
  have h1 : ∀ g x y : FP E,
      GlickoBoost.eValue g x y (-c.eta) 1.0 = GlickoBoost.eValue g x y c.eta (-1.0) := by
    intro g x y
    have := (mulAdd_neg_swap (E := E) (1.0 : FP E) c.eta x).symm
    simp only [GlickoBoost.eValue]
    exact congrArg (fun z : FP E => Flt.recip (1.0 + (Flt.powf 10.0 (-g * (z - y) / 400.0)))) this
  have h2 : ∀ g x y : FP E,
      GlickoBoost.eValue g x y (-c.eta) (-1.0) = GlickoBoost.eValue g x y c.eta 1.0 := by
    intro g x y
    have := mulAdd_neg_neg (E := E) (1.0 : FP E) c.eta x
    simp only [GlickoBoost.eValue]
    exact congrArg (fun z : FP E => Flt.recip (1.0 + (Flt.powf 10.0 (-g * (z - y) / 400.0)))) this
  simp only [GlickoBoost.glickoBoost, points_other, twice, h1, h2, Prod.swap]
  rfl

/-- Addition does not depend on the order of the summands. -/
theorem fp_add_comm (x y : FP E) : x + y = y + x := by
  show E.add x y = E.add y x
  rcases x with _ | s | ⟨s, m⟩ <;> rcases y with _ | t | ⟨t, n⟩ <;> simp only [FloatEnv.add]
  · by_cases h : s = t
    · rw [if_pos h, if_pos h.symm, h]
    · rw [if_neg h, if_neg (Ne.symm h)]
  · rw [Bool.and_comm, add_comm]

/-- TrueSkill matches of two teams with a winner; the teams may have any sizes. -/
theorem C162_trueskill_two_teams (s t : List (TrueSkill.TrueSkillRating (FP E))) (o : Outcomes)
    (c : TrueSkill.TrueSkillConfig (FP E)) (ho : o ≠ .DRAW) :
    TrueSkill.trueskillTwoTeams t s (mirror o) c = (TrueSkill.trueskillTwoTeams s t o c).swap := by
  have h1 : TrueSkill.teamUncertaintySq t + TrueSkill.teamUncertaintySq s
      = TrueSkill.teamUncertaintySq s + TrueSkill.teamUncertaintySq t := fp_add_comm _ _
  have h2 : t.length + s.length = s.length + t.length := Nat.add_comm _ _
  simp only [TrueSkill.trueskillTwoTeams, h1, h2, Bool.or_comm t.isEmpty]
  split_ifs
  · rfl
  · cases o
    · rfl
    · rfl
    · exact (ho rfl).elim

/-- TrueSkill games of two players with a winner, if the players have the same uncertainty. -/
theorem C162_trueskill (a b : TrueSkill.TrueSkillRating (FP E)) (o : Outcomes)
    (c : TrueSkill.TrueSkillConfig (FP E)) (hu : a.uncertainty = b.uncertainty) (ho : o ≠ .DRAW) :
    TrueSkill.trueskill b a (mirror o) c = (TrueSkill.trueskill a b o c).swap := by
  simp only [TrueSkill.trueskill, hu]
  cases o
  · rfl
  · rfl
  · exact (ho rfl).elim

/-! ### Elo: the order matters -/

/-- Below one there is a gap. -/
private theorem below_one {m : ℝ} (h : Rep m) (h1 : m < 1) : m ≤ 1 - 1 / 2 ^ 53 := by
  obtain ⟨n, k, hn, -, -, rfl⟩ := h
  rcases le_or_gt 0 k with hk | hk
  · obtain ⟨j, rfl⟩ := Int.eq_ofNat_of_zero_le hk
    have h2 : (1 : ℝ) ≤ 2 ^ (j : ℤ) := by
      rw [zpow_natCast]; exact one_le_pow₀ (by norm_num)
    have h0 : n = 0 := by
      by_contra hne
      have : (1 : ℝ) ≤ n := by exact_mod_cast Nat.one_le_iff_ne_zero.2 hne
      nlinarith
    subst h0; norm_num
  · obtain ⟨j, rfl⟩ : ∃ j : ℕ, k = -(j : ℤ) := ⟨k.natAbs, by omega⟩
    have e : (2 : ℝ) ^ (-(j : ℤ)) = 1 / 2 ^ j := by rw [zpow_neg, zpow_natCast, one_div]
    rw [e] at h1 ⊢
    have hp : (0 : ℝ) < 2 ^ j := by positivity
    rcases le_or_gt j 53 with hj | hj
    · have h3 : (n : ℝ) < 2 ^ j := by
        rw [mul_one_div, div_lt_one hp] at h1; exact h1
      have h4 : n + 1 ≤ 2 ^ j := by exact_mod_cast h3
      have h5 : (n : ℝ) + 1 ≤ 2 ^ j := by exact_mod_cast h4
      have h6 : (1 : ℝ) / 2 ^ 53 ≤ 1 / 2 ^ j :=
        one_div_le_one_div_of_le hp (pow_le_pow_right₀ (by norm_num) hj)
      have h7 : (n : ℝ) * (1 / 2 ^ j) ≤ 1 - 1 / 2 ^ j := by
        rw [mul_one_div, div_le_iff₀ hp, sub_mul, one_div_mul_cancel hp.ne']; linarith
      linarith
    · have h3 : (n : ℝ) ≤ 2 ^ 53 := by exact_mod_cast hn.le
      have h4 : (2 : ℝ) ^ 54 ≤ 2 ^ j := pow_le_pow_right₀ (by norm_num) hj
      have h5 : (n : ℝ) * (1 / 2 ^ j) ≤ 1 / 2 := by
        rw [mul_one_div, div_le_iff₀ hp]; nlinarith
      linarith

private theorem scaled_in {k x z : FP E} {a b lo hi : ℝ} {v : ℝ} (hk : In (E := E) (v : EReal) (v : EReal) k)
    (hv : 0 ≤ v) (hx : In (E := E) (a : EReal) (b : EReal) x)
    (hz : In (E := E) ((0 : ℝ) : EReal) ((0 : ℝ) : EReal) z) (hlo : SRep lo) (hhi : SRep hi)
    (h1 : lo ≤ v * a) (h2 : v * b ≤ hi) :
    In (E := E) (lo : EReal) (hi : EReal) (Flt.mulAdd k x z) := by
  obtain ⟨s, hs⟩ := mulAdd_fin hk.finite hx.finite hz.finite
  have ek : k.toR = v := le_antisymm hk.toR.2 hk.toR.1
  have ez : z.toR = 0 := le_antisymm hz.toR.2 hz.toR.1
  have hx' := hx.toR
  rw [hs, ek, ez, add_zero]
  exact In.of_round s hlo hhi (h1.trans (mul_le_mul_of_nonneg_left hx'.1 hv))
    ((mul_le_mul_of_nonneg_left hx'.2 hv).trans h2)

private theorem near_in {x : FP E} {ε v lo hi : ℝ} (h : Near ε x v) (h1 : lo ≤ v - ε) (h2 : v + ε ≤ hi) :
    In (E := E) (lo : EReal) (hi : EReal) x := by
  have h3 := abs_le.1 h.2
  refine ⟨isFinite.not_nan h.1, ?_, ?_⟩
  · rw [show x.toE = _ from isFinite.toE_eq h.1]
    exact EReal.coe_le_coe_iff.2 (by change lo ≤ x.toR; linarith)
  · rw [show x.toE = _ from isFinite.toE_eq h.1]
    exact EReal.coe_le_coe_iff.2 (by change x.toR ≤ hi; linarith)

/-- In Elo the score of the second player is computed as one minus the score of the first, and the
order of the players does matter: the rating of the player with rating `0` who loses to a player
with rating `10000` depends on who is passed first. -/
theorem C162_elo_not (hE : E.Accurate) :
    Elo.elo { rating := (10000.0 : FP E) } { rating := 0.0 } .WIN { k := 32.0 }
      ≠ (Elo.elo { rating := (0.0 : FP E) } { rating := 10000.0 } .LOSS { k := 32.0 }).swap := by
  intro h
  have h' := congrArg (fun p => p.2.rating) h
  simp only [Elo.elo, Elo.expectedScore, Prod.swap, points_other, mirror] at h'
  have i0 : In (E := E) ((0 : ℝ) : EReal) ((0 : ℝ) : EReal) (0.0 : FP E) := lit_in (by norm_num) SRep.zero
  have r4 : SRep (10000 : ℝ) := SRep.ofNat 10000 (by norm_num)
  have r400 : SRep (400 : ℝ) := SRep.ofNat 400 (by norm_num)
  have r25 : SRep (25 : ℝ) := SRep.ofNat 25 (by norm_num)
  have i4 : In (E := E) ((10000 : ℝ) : EReal) ((10000 : ℝ) : EReal) (10000.0 : FP E) :=
    lit_in (by norm_num) r4
  have i400 : In (E := E) ((400 : ℝ) : EReal) ((400 : ℝ) : EReal) (400.0 : FP E) :=
    lit_in (by norm_num) r400
  have i32 : In (E := E) ((32 : ℝ) : EReal) ((32 : ℝ) : EReal) (32.0 : FP E) :=
    lit_in (by norm_num) (SRep.ofNat 32 (by norm_num))
  have i10 : In (E := E) ((10 : ℝ) : EReal) ((10 : ℝ) : EReal) (10.0 : FP E) :=
    lit_in (by norm_num) (SRep.ofNat 10 (by norm_num))
  have e10 : (10.0 : FP E).toE = ((10 : ℝ) : EReal) := le_antisymm i10.2.2 i10.2.1
  have l0 : (Outcomes.LOSS.toChessPoints : FP E) = 0.0 := rfl
  -- the exponents
  have q : ∀ x y : FP E, ∀ v : ℝ, In (E := E) (v : EReal) (v : EReal) (x - y) → SRep (v / 400) →
      In (E := E) ((v / 400 : ℝ) : EReal) ((v / 400 : ℝ) : EReal) ((x - y) / 400.0) := by
    intro x y v hv hr
    have e4 : (400.0 : FP E).toR = 400 := le_antisymm i400.toR.2 i400.toR.1
    obtain ⟨s, hs⟩ := div_fin hv.finite i400.finite (by rw [e4]; norm_num)
    have ev : (x - y).toR = v := le_antisymm hv.toR.2 hv.toR.1
    rw [hs, ev, e4]
    exact In.of_round s hr hr le_rfl le_rfl
  have p1 := q 10000.0 0.0 10000 (sub_in i4 i0 r4 r4 (by norm_num) (by norm_num))
    (by rw [show (10000 / 400 : ℝ) = 25 by norm_num]; exact r25)
  have p2 := q 0.0 10000.0 (-10000) (sub_in i0 i4 r4.neg r4.neg (by norm_num) (by norm_num))
    (by rw [show (-10000 / 400 : ℝ) = -25 by norm_num]; exact r25.neg)
  rw [show (10000 / 400 : ℝ) = 25 by norm_num] at p1
  rw [show (-10000 / 400 : ℝ) = -25 by norm_num] at p2
  have v1 : ((10000.0 - 0.0 : FP E) / 400.0).toR = 25 := le_antisymm p1.toR.2 p1.toR.1
  have v2 : ((0.0 - 10000.0 : FP E) / 400.0).toR = -25 := le_antisymm p2.toR.2 p2.toR.1
  have w1 := hE.powf_ten 10.0 _ e10 p1.finite (by rw [v1]; norm_num)
  have w2 := hE.powf_ten 10.0 _ e10 p2.finite (by rw [v2]; norm_num)
  rw [v1] at w1
  rw [v2] at w2
  have t1 : (10 : ℝ) ^ (25 : ℝ) = 10 ^ 25 := by exact_mod_cast Real.rpow_natCast 10 25
  have t2 : (10 : ℝ) ^ (-25 : ℝ) = 1 / 10 ^ 25 := by
    rw [Real.rpow_neg (by norm_num), t1, one_div]
  rw [t1] at w1
  rw [t2] at w2
  have y1 : In (E := E) (((2 : ℝ) ^ 80 : ℝ) : EReal) (((2 : ℝ) ^ 85 : ℝ) : EReal)
      (Flt.powf (10.0 : FP E) ((10000.0 - 0.0) / 400.0)) := near_in w1 (by norm_num) (by norm_num)
  have y2 : In (E := E) ((0 : ℝ) : EReal) ((1 / (2 : ℝ) ^ 80 : ℝ) : EReal)
      (Flt.powf (10.0 : FP E) ((0.0 - 10000.0) / 400.0)) := near_in w2 (by norm_num) (by norm_num)
  -- the player as the first one: a small loss
  have c1 := add_in one_in y1 (SRep.two_pow 80 (by norm_num)) (SRep.two_pow 86 (by norm_num))
    (by norm_num) (by norm_num)
  have d1 := recip_bounds c1 (by norm_num) (SRep.inv_two_pow 86 (by norm_num))
    (SRep.inv_two_pow 80 (by norm_num)) (by norm_num) (by norm_num)
  have f1 := sub_in i0 d1 (SRep.inv_two_pow 80 (by norm_num)).neg (SRep.inv_two_pow 86 (by norm_num)).neg
    (by norm_num) (by norm_num)
  have g1 := scaled_in i32 (by norm_num) f1 i0 (SRep.inv_two_pow 75 (by norm_num)).neg
    (SRep.inv_two_pow 81 (by norm_num)).neg (by norm_num) (by norm_num)
  -- the player as the second one: no loss at all or a much larger one
  have r52 : SRep (1 + 1 / 2 ^ 52 : ℝ) := by
    have := SRep.scale (n := 2 ^ 52 + 1) (k := -52) (by norm_num) (by norm_num) (by norm_num)
    convert this using 1; norm_num
  have c2 := add_in one_in y2 SRep.one r52 (by norm_num) (by norm_num)
  have d2 := recip_bounds c2 (by norm_num) SRep.half SRep.one (by norm_num) (by norm_num)
  rw [l0] at h'
  rw [← h'] at g1
  have hg := g1.toR
  generalize Flt.recip ((1.0 : FP E) + Flt.powf 10.0 ((0.0 - 10000.0) / 400.0)) = e at *
  have he := d2.toR
  rcases he.2.eq_or_lt with h1 | h1
  · have d3 : In (E := E) ((1 : ℝ) : EReal) ((1 : ℝ) : EReal) e :=
      ⟨d2.1, by rw [show e.toE = _ from isFinite.toE_eq d2.finite]; exact EReal.coe_le_coe_iff.2 h1.ge, d2.2.2⟩
    have f2 := sub_in one_in d3 SRep.zero SRep.zero (by norm_num) (by norm_num)
    have f3 := sub_in i0 f2 SRep.zero SRep.zero (by norm_num) (by norm_num)
    have g2 := (scaled_in i32 (by norm_num) f3 i0 SRep.zero SRep.zero (by norm_num) (by norm_num)).toR
    norm_num at hg g2
    linarith
  · have hr : Rep e.toR := by
      have := isFinite.srep d2.finite
      rwa [SRep, abs_of_nonneg (by linarith)] at this
    have h2 := below_one hr h1
    have d3 : In (E := E) ((1 / 2 : ℝ) : EReal) ((1 - 1 / 2 ^ 53 : ℝ) : EReal) e :=
      ⟨d2.1, d2.2.1, by rw [show e.toE = _ from isFinite.toE_eq d2.finite]; exact EReal.coe_le_coe_iff.2 h2⟩
    have f2 := sub_in one_in d3 (SRep.inv_two_pow 53 (by norm_num)) SRep.half (by norm_num) (by norm_num)
    have f3 := sub_in i0 f2 SRep.one.neg (SRep.inv_two_pow 53 (by norm_num)).neg (by norm_num) (by norm_num)
    have g2 := (scaled_in i32 (by norm_num) f3 i0 (SRep.ofNat 32 (by norm_num)).neg
      (SRep.inv_two_pow 48 (by norm_num)).neg (by norm_num) (by norm_num)).toR
    norm_num at hg g2
    linarith

/-! ### Examples -/

/-- A game of Glicko seen from both sides, with NaN as a rating. -/
example : Glicko.glicko (⟨FPVal.nan, 50.0⟩ : Glicko.GlickoRating (FP ieee)) ⟨1500.0, 200.0⟩ .LOSS ⟨63.2⟩
    = (Glicko.glicko (⟨1500.0, 200.0⟩ : Glicko.GlickoRating (FP ieee)) ⟨FPVal.nan, 50.0⟩ .WIN ⟨63.2⟩).swap :=
  C162_glicko _ _ .WIN _

example : ieee.Accurate := ieee_accurate

end Skillratings
