import Verif.Spec.Basic
/-
Random results: the average effect of a game whose result is only known in distribution.
-/
namespace Skillratings
namespace Spec

/-- The probabilities of the three results of a game. -/
structure Forecast where
  win : ℝ
  draw : ℝ
  loss : ℝ
  win_nonneg : 0 ≤ win
  draw_nonneg : 0 ≤ draw
  loss_nonneg : 0 ≤ loss
  total : win + draw + loss = 1

/-- The average of a quantity that depends on the result. -/
noncomputable def Forecast.average (p : Forecast) (f : Outcomes → ℝ) : ℝ :=
  p.win * f .WIN + p.draw * f .DRAW + p.loss * f .LOSS

/-- `p` gives the first player `e` points on average. -/
def Forecast.Expects (p : Forecast) (e : ℝ) : Prop := p.average points = e

/-- The second list has the same opponents (and further data) as the first one, and in no game
fewer points. -/
def NoWorse {R : Type} (rs rs' : List (R × Outcomes)) : Prop :=
  List.Forall₂ (fun r r' => r.1 = r'.1 ∧ points r.2 ≤ points r'.2) rs rs'

/-- The same for results that carry data behind the outcome. -/
def NoWorse₃ {R γ : Type} (rs rs' : List (R × Outcomes × γ)) : Prop :=
  List.Forall₂ (fun r r' => r.1 = r'.1 ∧ r.2.2 = r'.2.2 ∧ points r.2.1 ≤ points r'.2.1) rs rs'

end Spec
end Skillratings
