import Verif.Proofs.Logistic
import Verif.Model.Elo
/-
Helper lemmas for the Elo properties.
-/
namespace Skillratings.Elo
open Real

theorem expectedScore_real (a b : EloRating ℝ) :
    expectedScore a b = (sigmoid (log 10 / 400 * (a.rating - b.rating)),
      1 - sigmoid (log 10 / 400 * (a.rating - b.rating))) := by
  simp only [expectedScore, flt, inv_one_add_pow]
  rw [show -(log 10 * ((b.rating - a.rating) / 400)) = log 10 / 400 * (a.rating - b.rating) by
    ring]

theorem elo_real (a b : EloRating ℝ) (o : Outcomes) (c : EloConfig ℝ) :
    elo a b o c =
      (⟨c.k * (Spec.points o - sigmoid (log 10 / 400 * (a.rating - b.rating))) + a.rating⟩,
       ⟨c.k * (1 - Spec.points o - (1 - sigmoid (log 10 / 400 * (a.rating - b.rating))))
          + b.rating⟩) := by
  simp only [elo, expectedScore_real, flt]

end Skillratings.Elo
