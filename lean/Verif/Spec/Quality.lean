import Mathlib.LinearAlgebra.Matrix.NonsingularInverse
import Mathlib.Analysis.SpecialFunctions.Exp
import Mathlib.Data.Real.Sqrt
import Verif.Model.TrueSkill.Rating
/-
The published match quality of several teams (Herbrich, Minka, Graepel 2006, with weights;
the formula of /repo/src/trueskill/mod.rs:1056-1114's references): with one row of `A` for every
pair of neighbouring teams,

  exp(-1/2 (Aμ)ᵀ (β² A Aᵀ + A Σ Aᵀ)⁻¹ (Aμ)) · √(det(β² A Aᵀ) / det(β² A Aᵀ + A Σ Aᵀ)).
-/
namespace Skillratings
namespace Spec
open Matrix

/-- A player of a match of several teams. -/
structure QPlayer where
  team : ℕ
  weight : ℝ
  rating : ℝ
  uncertainty : ℝ

/-- The players of one team. -/
noncomputable def qTeam (tw : (List (TrueSkill.TrueSkillRating ℝ) × List ℝ) × ℕ) : List QPlayer :=
  (tw.1.1.zip tw.1.2).map fun x => ⟨tw.2, x.2, x.1.rating, x.1.uncertainty⟩

/-- All the players, team by team. -/
noncomputable def qPlayers (teams : List (List (TrueSkill.TrueSkillRating ℝ)))
    (ws : List (List ℝ)) : List QPlayer := (teams.zip ws).zipIdx.flatMap qTeam

/-- One non-negative weight for every player. -/
def ValidWeights (teams : List (List (TrueSkill.TrueSkillRating ℝ))) (ws : List (List ℝ)) : Prop :=
  List.Forall₂ (fun t w => w.length = t.length ∧ ∀ x ∈ w, 0 ≤ x) teams ws

/-- All the players of the team have weight zero. -/
def ZeroTeam (ws : List (List ℝ)) (i : ℕ) : Prop := ∃ w, ws[i]? = some w ∧ ∀ x ∈ w, x = 0

/-- The contribution of a player to the difference of teams `r` and `r + 1`. -/
noncomputable def QPlayer.coef (p : QPlayer) (r : ℕ) : ℝ :=
  if p.team = r then p.weight else if p.team = r + 1 then -p.weight else 0

/-- The `k` differences of `k + 1` teams. -/
noncomputable def qA (k : ℕ) (P : List QPlayer) : Matrix (Fin k) (Fin P.length) ℝ :=
  fun r p => P[p].coef r

/-- The ratings. -/
noncomputable def qMean (P : List QPlayer) : Fin P.length → ℝ := fun p => P[p].rating

/-- The variances of the ratings. -/
noncomputable def qVariance (P : List QPlayer) : Fin P.length → ℝ := fun p => P[p].uncertainty ^ 2

/-- `β² A Aᵀ` -/
noncomputable def qNoise (k : ℕ) (β : ℝ) (P : List QPlayer) : Matrix (Fin k) (Fin k) ℝ :=
  β ^ 2 • (qA k P * (qA k P)ᵀ)

/-- `β² A Aᵀ + A Σ Aᵀ` -/
noncomputable def qTotal (k : ℕ) (β : ℝ) (P : List QPlayer) : Matrix (Fin k) (Fin k) ℝ :=
  qNoise k β P + qA k P * diagonal (qVariance P) * (qA k P)ᵀ

/-- The match quality. -/
noncomputable def quality (k : ℕ) (β : ℝ) (P : List QPlayer) : ℝ :=
  Real.exp (-(1 / 2) * ((qA k P *ᵥ qMean P) ⬝ᵥ ((qTotal k β P)⁻¹ *ᵥ (qA k P *ᵥ qMean P))))
    * √((qNoise k β P).det / (qTotal k β P).det)

/-- A team: players, each with a weight. -/
abbrev WTeam := List (TrueSkill.TrueSkillRating ℝ × ℝ)

/-- The variance of the performance of a team if the skills were known: `β² Σ w²`. -/
noncomputable def wtNoise (β : ℝ) (x : WTeam) : ℝ :=
  (x.map fun p => β ^ 2 * p.2 ^ 2).sum

/-- The variance of the performance of a team: `Σ w² (β² + σ²)`. -/
noncomputable def wtTotal (β : ℝ) (x : WTeam) : ℝ :=
  (x.map fun p => p.2 ^ 2 * (β ^ 2 + p.1.uncertainty ^ 2)).sum

/-- The mean of the performance of a team: `Σ w μ`. -/
noncomputable def wtMean (x : WTeam) : ℝ := (x.map fun p => p.2 * p.1.rating).sum

/-- The mean of the teams, each with the inverse of its variance. -/
noncomputable def wtAverage (β : ℝ) (L : List WTeam) : ℝ :=
  (L.map fun x => wtMean x / wtTotal β x).sum / (L.map fun x => 1 / wtTotal β x).sum

/-- The match quality without matrices: the likelihood that all the teams perform equally, relative
to teams of equal and known skill. -/
noncomputable def qualityClosed (β : ℝ) (L : List WTeam) : ℝ :=
  Real.exp (-(1 / 2) * (L.map fun x => (wtMean x - wtAverage β L) ^ 2 / wtTotal β x).sum) *
    √((L.map (wtNoise β)).prod * (L.map fun x => 1 / wtNoise β x).sum /
      ((L.map (wtTotal β)).prod * (L.map fun x => 1 / wtTotal β x).sum))

/-- `∏ c · Σ 1/c`, the sum of the products that leave out one factor. -/
noncomputable def leaveOut (c : List ℝ) : ℝ := c.prod * (c.map fun x => 1 / x).sum

/-- A match of three or more teams, no negative weight, and in every team somebody counts. -/
structure Playable (L : List WTeam) : Prop where
  three : 3 ≤ L.length
  nonneg : ∀ t ∈ L, ∀ p ∈ t, 0 ≤ p.2
  counts : ∀ t ∈ L, ∃ p ∈ t, p.2 ≠ 0

end Spec
end Skillratings
