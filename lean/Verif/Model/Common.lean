import Verif.Flt
/-
Model of /repo/src/lib.rs: outcomes and the rating traits.
-/
namespace Skillratings

/-- `pub enum Outcomes` — src/lib.rs:393-400. -/
inductive Outcomes
  | WIN
  | LOSS
  | DRAW
deriving DecidableEq, Repr

namespace Outcomes
variable {F : Type} [Flt F]

/-- `Outcomes::to_chess_points` — src/lib.rs:407-414. -/
def toChessPoints : Outcomes → F
  | WIN => 1.0
  | DRAW => 0.5
  | LOSS => 0.0

end Outcomes

/-- `pub struct MultiTeamOutcome(usize)` with its derived order — src/lib.rs:425-427.
`usize` is modelled by `Nat`; no arithmetic is done on ranks. -/
structure MultiTeamOutcome where
  val : Nat
deriving DecidableEq, Repr

namespace MultiTeamOutcome

/-- `MultiTeamOutcome::new` — src/lib.rs:433-435. -/
def new (rank : Nat) : MultiTeamOutcome := ⟨rank⟩

/-- `MultiTeamOutcome::rank` — src/lib.rs:440-442. -/
def rank (o : MultiTeamOutcome) : Nat := o.val

/-- `impl From<usize> for MultiTeamOutcome` — src/lib.rs:445-450. -/
def ofUsize (v : Nat) : MultiTeamOutcome := ⟨v⟩

/-- `impl From<MultiTeamOutcome> for usize` — src/lib.rs:452-457. -/
def toUsize (v : MultiTeamOutcome) : Nat := v.val

/-- The derived `Ord::cmp` — src/lib.rs:425 (`#[derive(.., PartialOrd, Ord)]`). -/
def cmp (a b : MultiTeamOutcome) : Ordering := compare a.val b.val

end MultiTeamOutcome

/-- `pub trait Rating` — src/lib.rs:466-475. -/
class Rating (F : outParam Type) (R : Type) where
  rating : R → F
  uncertainty : R → Option F
  new : Option F → Option F → R

/-- `pub trait RatingSystem` — src/lib.rs:481-500.  `S` is the system type (a struct that
stores the configuration).  `M` is the effect of `rate`: `Id` for a function that always
returns, `Option` for a function that may loop forever (`none`). -/
class RatingSystem (F : outParam Type) (S : Type) (R C : outParam Type)
    (M : outParam (Type → Type)) where
  new : C → S
  rate : S → R → R → Outcomes → M (R × R)
  expectedScore : S → R → R → F × F

/-- `pub trait RatingPeriodSystem` — src/lib.rs:506-520. -/
class RatingPeriodSystem (F : outParam Type) (S : Type) (R C : outParam Type)
    (M : outParam (Type → Type)) where
  new : C → S
  rate : S → R → List (R × Outcomes) → M R
  expectedScore : S → R → List R → List F

/-- `pub trait TeamRatingSystem` — src/lib.rs:526-545. -/
class TeamRatingSystem (F : outParam Type) (S : Type) (R C : outParam Type) where
  new : C → S
  rate : S → List R → List R → Outcomes → List R × List R
  expectedScore : S → List R → List R → F × F

/-- `pub trait MultiTeamRatingSystem` — src/lib.rs:551-568.  `M` is the effect of both
methods: `Id`, or a type with an explicit panic value. -/
class MultiTeamRatingSystem (F : outParam Type) (S : Type) (R C : outParam Type)
    (M : outParam (Type → Type)) where
  new : C → S
  rate : S → List (List R × MultiTeamOutcome) → M (List (List R))
  expectedScore : S → List (List R) → M (List F)

end Skillratings
