import Verif.Proofs.FPTie
import Verif.FPInstance
/-
C103: ties without spread in `trueskill_multi_team`, in floating point.
-/

namespace Skillratings
open FP FPVal
variable {E : FloatEnv}

namespace TrueSkill

/-- **C103.** In every floating-point arithmetic, a tie of two single players in
`trueskill_multi_team` with `beta = 0` gives both players a rating that is not a number, whatever
their ratings and the draw probability. -/
theorem C103_tie_without_spread (L : E.Lib) (a b : TrueSkillRating (FP E)) (r : MultiTeamOutcome)
    (cfg : TrueSkillConfig (FP E)) (hβ : cfg.beta.isFinite) (hβ0 : cfg.beta.toR = 0)
    (hτ : In (E := E) ((0 : ℝ) : EReal) ((2 ^ 10 : ℝ) : EReal) cfg.dynamicsFactor)
    (ha : In (E := E) ((1 / 4 : ℝ) : EReal) ((2 ^ 10 : ℝ) : EReal) a.uncertainty)
    (hb : In (E := E) ((1 / 4 : ℝ) : EReal) ((2 ^ 10 : ℝ) : EReal) b.uncertainty) :
    ∃ a' b' : TrueSkillRating (FP E),
      trueskillMultiTeam [([a], r), ([b], r)] cfg none = .ok (.ok [[a'], [b']]) ∧
      a'.rating.isNaN ∧ b'.rating.isNaN := by
  obtain ⟨va, ga, ha1, ha2, hga⟩ := OneOnOne.prior_ok (μ := a.rating) L ha hτ
  obtain ⟨vb, gb, hb1, hb2, hgb⟩ := OneOnOne.prior_ok (μ := b.rating) L hb hτ
  have hm : ((0.0 : FP E) <? 0.0001) = true := by
    refine lt_iff.2 ⟨zero_in.1, by rw [lit]; exact E.round_not_nan _ _, ?_⟩
    refine lt_of_le_of_lt zero_in.2.2 ?_
    rw [lit]
    refine lt_of_lt_of_le ?_ (E.round_ge false (SRep.inv_two_pow 20 (by norm_num)) ?_)
    · have : (0 : ℝ) < 1 / 2 ^ 20 := by positivity
      exact_mod_cast this
    · norm_num
  have hmargin : ZN (truncFactor cfg.drawProbability cfg.beta 7 0 ([a], r) ([b], r)).drawMargin :=
    mul_zn (Or.inr ⟨hβ, hβ0⟩)
  have hw : (truncFactor cfg.drawProbability cfg.beta 7 0 ([a], r) ([b], r)).wFunc = wDraw :=
    if_pos rfl
  refine ⟨_, _, OneOnOne.multi_eq a b r cfg va ga vb gb ha1 hb1 ha2 hb2 hm _ rfl, ?_⟩
  have hd := OneOnOne.iterLoop_diff (0.0001 : FP E)
    (truncFactor cfg.drawProbability cfg.beta 7 0 ([a], r) ([b], r))
    (fun v => ¬ v.gaussian.pi.isFinite ∧ ¬ v.gaussian.tau.isFinite)
    (fun s => OneOnOne.truncate_nonfin _ hw hmargin _) 9
    (OneOnOne.s3 ga gb cfg.beta 1.0 1.0)
  exact OneOnOne.rating_nan L hβ hβ0 hga hgb
    (fun k hk => OneOnOne.iterLoop_other _ _ rfl _ _ _ hk) hd.1 hd.2

/-- Two players at 25 ± 8 and 30 ± 2 who tie. -/
example : ∃ a' b' : TrueSkillRating (FP ieee),
    trueskillMultiTeam (F := FP ieee) [([⟨25.0, 8.0⟩], ⟨1⟩), ([⟨30.0, 2.0⟩], ⟨1⟩)]
      { drawProbability := 0.1, beta := 0.0, dynamicsFactor := 0.5 } none
      = .ok (.ok [[a'], [b']]) ∧ a'.rating.isNaN ∧ b'.rating.isNaN := by
  have h0 := zero_in (E := ieee)
  refine C103_tie_without_spread ieee_lib _ _ _ _ h0.finite (le_antisymm h0.toR.2 h0.toR.1) ?_ ?_ ?_
  · exact (lit_in (E := ieee) (v := 1 / 2) (by norm_num) SRep.half).mono (by norm_num) (by norm_num)
  · exact (lit_in (E := ieee) (v := 8) (by norm_num) (SRep.ofNat 8 (by norm_num))).mono
      (by norm_num) (by norm_num)
  · exact (lit_in (E := ieee) (v := 2) (by norm_num) (SRep.ofNat 2 (by norm_num))).mono
      (by norm_num) (by norm_num)

end TrueSkill
end Skillratings
