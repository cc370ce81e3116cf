import Verif.Model.TrueSkill.Rating
/-
The documented meaning of the weight errors, stated on indices.
Documentation: /repo/src/trueskill/weights.rs:5-22 and /repo/src/trueskill/mod.rs:690-760.
-/
namespace Skillratings
namespace Spec
variable {F : Type} [Flt F]

/-- The weights of team `i` are as many as its players, and none of them is negative. -/
def TeamWeightsOk (sizes : List Nat) (ws : List (List F)) (i : Nat) : Prop :=
  ∃ n l, sizes[i]? = some n ∧ ws[i]? = some l ∧ l.length = n ∧
    ∀ w ∈ l, ¬ (w <? (0.0 : F)) = true

/-- `e` is the error that the documentation prescribes: the first problem in reading order. -/
def IsWeightError (sizes : List Nat) (ws : List (List F)) :
    TrueSkill.WeightError → Prop
  | .teamAmount => ws.length ≠ sizes.length
  | .playerAmount i => ws.length = sizes.length ∧ (∀ k < i, TeamWeightsOk sizes ws k) ∧
      ∃ n l, sizes[i]? = some n ∧ ws[i]? = some l ∧ l.length ≠ n
  | .weight i j => ws.length = sizes.length ∧ (∀ k < i, TeamWeightsOk sizes ws k) ∧
      ∃ n l, sizes[i]? = some n ∧ ws[i]? = some l ∧ l.length = n ∧
        (∀ k < j, ∀ w, l[k]? = some w → ¬ (w <? (0.0 : F)) = true) ∧
        ∃ w, l[j]? = some w ∧ (w <? (0.0 : F)) = true

end Spec
end Skillratings
