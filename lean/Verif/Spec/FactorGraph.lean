import Verif.Spec.TrueSkill
import Verif.Model.TrueSkill.Rating
/-
The weighted TrueSkill update of two teams: Herbrich, Minka and Graepel's factor graph has a
single truncation, so its posterior is given in closed form.
-/
namespace Skillratings
namespace Spec
open Real

/-- A player of a team: mean, variance (dynamics included) and weight. -/
structure FgPlayer where
  μ : ℝ
  s : ℝ
  w : ℝ

/-- The mean of the performance of a team: `Σ w μ`. -/
noncomputable def fgMean (t : List FgPlayer) : ℝ := (t.map fun p => p.w * p.μ).sum

/-- The variance of the performance of a team: `Σ w² (s + β²)`. -/
noncomputable def fgVariance (β : ℝ) (t : List FgPlayer) : ℝ :=
  (t.map fun p => p.w ^ 2 * (p.s + β ^ 2)).sum

/-- The standard deviation of the difference of the performances. -/
noncomputable def fgC (β : ℝ) (a b : List FgPlayer) : ℝ := √(fgVariance β a + fgVariance β b)

/-- The difference of the means and the draw margin, in units of `fgC`. -/
noncomputable def fgT (β : ℝ) (a b : List FgPlayer) : ℝ := (fgMean a - fgMean b) / fgC β a b

@[inherit_doc fgT] noncomputable def fgMargin (p β : ℝ) (a b : List FgPlayer) : ℝ :=
  tsMargin p β (a.length + b.length) / fgC β a b

/-- The posterior of a player, `V` being counted for the team of the player:
mean `μ + w s/c V`, variance `s (1 - W w² s/c²)`. -/
noncomputable def fgUpdate (c V W : ℝ) (p : FgPlayer) : TrueSkill.TrueSkillRating ℝ :=
  ⟨p.μ + p.w * p.s / c * V, √(p.s * (1 - W * (p.w ^ 2 * p.s / c ^ 2)))⟩

/-- The outcome for the first of two teams; the lower rank wins. -/
def outcomeOf (r₁ r₂ : ℕ) : Outcomes :=
  if r₁ < r₂ then .WIN else if r₁ = r₂ then .DRAW else .LOSS

/-- A player of the crate, with a weight, after the dynamics. -/
noncomputable def fgPlayer (τ : ℝ) (p : TrueSkill.TrueSkillRating ℝ) (w : ℝ) : FgPlayer :=
  ⟨p.rating, p.uncertainty ^ 2 + τ ^ 2, w⟩

/-- A team of the crate, with its weights, after the dynamics. -/
noncomputable def fgTeam (τ : ℝ) (t : List (TrueSkill.TrueSkillRating ℝ)) (w : List ℝ) :
    List FgPlayer := List.zipWith (fgPlayer τ) t w

end Spec
end Skillratings
