import Verif.Props.FloatMargin
/-
C125 for rating periods: every game of `trueskill_rating_period` in double precision, against Bayes' rule.
-/

namespace Skillratings
open FP FPVal Spec MeasureTheory ProbabilityTheory
variable {E : FloatEnv}

namespace TrueSkill

/-- A further game of a rating period is the game of `trueskill` of the player as they are by then. -/
theorem period_next (a b : TrueSkillRating (FP E)) (rs : List (TrueSkillRating (FP E) × Outcomes)) (o : Outcomes)
    (c : TrueSkillConfig (FP E)) :
    trueskillRatingPeriod a (rs ++ [(b, o)]) c = (trueskill (trueskillRatingPeriod a rs c) b o c).1 := by
  simp only [trueskillRatingPeriod, List.foldl_append, List.foldl_cons, List.foldl_nil]
  rfl

section
variable {Ω : Type*} [MeasurableSpace Ω] {P : Measure Ω} [IsProbabilityMeasure P]

/-- A win or a loss in a rating period: the player after the game is the mean and the standard deviation of
their skill before it given the result. -/
theorem C125_trueskill_period_decided (L : E.Lib) (A : E.Accurate) (a₀ a b : TrueSkillRating (FP E))
    (rs : List (TrueSkillRating (FP E) × Outcomes)) (c : TrueSkillConfig (FP E))
    (hrs : a = trueskillRatingPeriod a₀ rs c) {o : Outcomes} (ho : o ≠ .DRAW)
    (hβ : Between (1 / 2 ^ 20) (2 ^ 20) c.beta) (ha : TsPlayer c a) (hb : TsPlayer c b)
    (hτ : c.dynamicsFactor.isFinite) {f : ℝ} (hf : f ^ 2 + c.dynamicsFactor.toR ^ 2 = c.beta.toR ^ 2)
    {X N : Fin 2 → Ω → ℝ} (h : IsContest P X N ![a.rating.toR, b.rating.toR]
      ![a.uncertainty.toR ^ 2 + c.dynamicsFactor.toR ^ 2, b.uncertainty.toR ^ 2 + c.dynamicsFactor.toR ^ 2] f)
    {ε t : ℝ} (hε : IsMargin c ε) (ht : t = (|a.rating.toR - b.rating.toR| + |ε|) / spread a b c) (ht' : t ≤ 27)
    {H : Set Ω} (hH : H = happened o ε (lead duel X N)) :
    AfterDecision a.rating.toR a.uncertainty.toR c.beta.toR (a.uncertainty.toR ^ 2 + c.dynamicsFactor.toR ^ 2) t
      (∫ ω, X 0 ω ∂P[|H]) (Var[X 0; P[|H]]) (trueskillRatingPeriod a₀ (rs ++ [(b, o)]) c) := by
  rw [period_next, ← hrs]
  exact (C125_trueskill_decided L A a b c ho hβ ha hb hτ hf h hε ht ht' hH).1

/-- A draw in a rating period. -/
theorem C125_trueskill_period_drawn (L : E.Lib) (A : E.Accurate) (a₀ a b : TrueSkillRating (FP E))
    (rs : List (TrueSkillRating (FP E) × Outcomes)) (c : TrueSkillConfig (FP E))
    (hrs : a = trueskillRatingPeriod a₀ rs c) (hβ : Between (1 / 2 ^ 20) (2 ^ 20) c.beta)
    (ha : TsPlayer c a) (hb : TsPlayer c b) (hτ : c.dynamicsFactor.isFinite) {f : ℝ}
    (hf : f ^ 2 + c.dynamicsFactor.toR ^ 2 = c.beta.toR ^ 2) {X N : Fin 2 → Ω → ℝ}
    (h : IsContest P X N ![a.rating.toR, b.rating.toR]
      ![a.uncertainty.toR ^ 2 + c.dynamicsFactor.toR ^ 2, b.uncertainty.toR ^ 2 + c.dynamicsFactor.toR ^ 2] f)
    {ε t : ℝ} (hε : IsMargin c ε) (hε0 : 0 < ε)
    (ht : t = (|a.rating.toR - b.rating.toR| + ε) / spread a b c) (ht' : t ≤ 28)
    {H : Set Ω} (hH : H = happened .DRAW ε (lead duel X N)) (hp : (1 + 5 * t ^ 2) / 4000 ≤ P.real H) :
    AfterDraw a.rating.toR a.uncertainty.toR c.beta.toR (a.uncertainty.toR ^ 2 + c.dynamicsFactor.toR ^ 2) t
      (P.real H) (∫ ω, X 0 ω ∂P[|H]) (Var[X 0; P[|H]]) (trueskillRatingPeriod a₀ (rs ++ [(b, .DRAW)]) c) := by
  rw [period_next, ← hrs]
  exact (C125_trueskill_drawn L A a b c hβ ha hb hτ hf h hε hε0 ht ht' hH hp).1

end

/-! ### The hypotheses are satisfiable -/

example : ∃ (X N : Fin 2 → (Fin 2 ⊕ Fin 2 → ℝ) → ℝ) (P : Measure (Fin 2 ⊕ Fin 2 → ℝ)) (ε t : ℝ)
    (H : Set (Fin 2 ⊕ Fin 2 → ℝ)), IsProbabilityMeasure P ∧ H = happened .LOSS ε (lead duel X N) ∧
    AfterDecision 25 8 4 64 t (∫ ω, X 0 ω ∂P[|H]) (Var[X 0; P[|H]])
      (trueskillRatingPeriod tom ([] ++ [(tom, .LOSS)]) cfg4) := by
  obtain ⟨X, N, P, ε, hP, h, hε, hε0, ht, hp⟩ := tom_contest
  have := C125_trueskill_period_decided ieee_lib ieee_accurate tom tom tom [] cfg4 rfl (o := .LOSS) (by decide)
    cfg4_usual tom_player tom_player cfg4_dynamics.1 (f := cfg4.beta.toR) (by rw [cfg4_dynamics.2]; norm_num) h hε rfl
    (by rw [abs_of_pos hε0]; exact ht.trans (by norm_num)) rfl
  rw [tom_rating, tom_uncertainty, cfg4_beta, cfg4_dynamics.2] at this
  norm_num at this
  exact ⟨X, N, P, ε, _, _, hP, rfl, this⟩

example : ∃ (X N : Fin 2 → (Fin 2 ⊕ Fin 2 → ℝ) → ℝ) (P : Measure (Fin 2 ⊕ Fin 2 → ℝ)) (ε t : ℝ)
    (H : Set (Fin 2 ⊕ Fin 2 → ℝ)), IsProbabilityMeasure P ∧ H = happened .DRAW ε (lead duel X N) ∧
    AfterDraw 25 8 4 64 t (P.real H) (∫ ω, X 0 ω ∂P[|H]) (Var[X 0; P[|H]])
      (trueskillRatingPeriod tom ([] ++ [(tom, .DRAW)]) cfg4) := by
  obtain ⟨X, N, P, ε, hP, h, hε, hε0, ht, hp⟩ := tom_contest
  have := C125_trueskill_period_drawn ieee_lib ieee_accurate tom tom tom [] cfg4 rfl cfg4_usual tom_player
    tom_player cfg4_dynamics.1 (f := cfg4.beta.toR) (by rw [cfg4_dynamics.2]; norm_num) h hε hε0 rfl
    (ht.trans (by norm_num)) rfl hp
  rw [tom_rating, tom_uncertainty, cfg4_beta, cfg4_dynamics.2] at this
  norm_num at this
  exact ⟨X, N, P, ε, _, _, hP, rfl, this⟩

end TrueSkill
end Skillratings
