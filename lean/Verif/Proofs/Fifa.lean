import Verif.Proofs.Logistic
import Verif.Model.Fifa
/-
Helper lemmas for the FIFA properties.
-/
namespace Skillratings.Fifa
open Real

theorem expectedScore_real (a b : FifaRating ℝ) :
    expectedScore a b = (sigmoid (log 10 / 600 * (a.rating - b.rating)),
      1 - sigmoid (log 10 / 600 * (a.rating - b.rating))) := by
  simp only [expectedScore, flt, inv_one_add_pow]
  rw [show -(log 10 * (-(a.rating - b.rating) / 600)) = log 10 / 600 * (a.rating - b.rating) by
    ring]

/-- The credit of the first team. -/
noncomputable def credit (o : Outcomes) (c : FifaConfig ℝ) : ℝ :=
  if c.penalties then (if o = .WIN then 3 / 4 else 1 / 2) else Spec.points o

/-- The credit of the second team, as the code computes it. -/
noncomputable def credit2 (o : Outcomes) (c : FifaConfig ℝ) : ℝ :=
  if c.penalties then (if o = .WIN then 3 / 4 else 1 / 2) else 1 - Spec.points o

/-- The guard of knockout matches. -/
noncomputable def guarded (c : FifaConfig ℝ) (old new : ℝ) : ℝ :=
  if c.knockout then max old new else new

theorem guarded_eq (c : FifaConfig ℝ) (old new : ℝ) :
    (if (c.knockout && (new <? old)) = true then old else new) = guarded c old new := by
  unfold guarded
  by_cases hk : c.knockout = true
  · by_cases h : new < old
    · simp [hk, h, h.le, flt]
    · simp [hk, h, not_lt.1 h, flt]
  · simp [hk]

theorem fifa_real (a b : FifaRating ℝ) (o : Outcomes) (c : FifaConfig ℝ) :
    fifa a b o c =
      (⟨guarded c a.rating
          (c.importance * (credit o c - sigmoid (log 10 / 600 * (a.rating - b.rating)))
            + a.rating)⟩,
       ⟨guarded c b.rating
          (c.importance * (credit2 o c - (1 - sigmoid (log 10 / 600 * (a.rating - b.rating))))
            + b.rating)⟩) := by
  simp only [fifa, expectedScore_real, guarded_eq, credit, credit2]
  by_cases hp : c.penalties = true <;> simp [hp, flt]

end Skillratings.Fifa
