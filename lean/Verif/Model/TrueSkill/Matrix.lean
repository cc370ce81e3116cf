import Verif.Model.TrueSkill.Rating
/-
Model of /repo/src/trueskill/matrix.rs.

A matrix is a flat row-major list with its dimensions, as in the source.  Indexing is checked:
an index outside the flat vector is `Panic.index`, as in Rust.  The assertions are modelled by
`Except Panic` as well.
-/
namespace Skillratings
namespace TrueSkill
variable {F : Type} [Flt F]

/-- `pub struct Matrix` — src/trueskill/matrix.rs:7-11. -/
structure Matrix (F : Type) where
  data : List F
  rows : Nat
  cols : Nat

/-- `xs[i]`. -/
def index {α : Type} (xs : List α) (i : Nat) : Except Panic α :=
  match xs[i]? with
  | some x => .ok x
  | none => .error .index

namespace Matrix

/-- `Matrix::set` — src/trueskill/matrix.rs:14-16. -/
def set (m : Matrix F) (row col : Nat) (val : F) : Except Panic (Matrix F) :=
  if row * m.cols + col < m.data.length then
    .ok { m with data := m.data.set (row * m.cols + col) val }
  else .error .index

/-- `Matrix::get` — src/trueskill/matrix.rs:18-20. -/
def get (m : Matrix F) (row col : Nat) : Except Panic F := index m.data (row * m.cols + col)

/-- `Matrix::new` — src/trueskill/matrix.rs:22-28. -/
def new (rows cols : Nat) : Matrix F :=
  { data := List.replicate (rows * cols) 0.0, rows, cols }

/-- `Matrix::new_from_data` — src/trueskill/matrix.rs:30-36. -/
def newFromData (data : List F) (rows cols : Nat) : Matrix F := { data, rows, cols }

/-- `for i in 0..rows { for j in 0..cols { body } }` over a mutable matrix, e.g.
src/trueskill/matrix.rs:93-97. -/
def forLoops (rows cols : Nat) (init : Matrix F)
    (body : Matrix F → Nat → Nat → Except Panic (Matrix F)) : Except Panic (Matrix F) :=
  (List.range rows).foldlM (fun m i => (List.range cols).foldlM (fun m j => body m i j) m) init

/-- `let mut sum = 0.0; for k in 0..n { sum += term(k) }`, e.g. src/trueskill/matrix.rs:173-177. -/
def sumLoop (n : Nat) (term : Nat → Except Panic F) : Except Panic F :=
  (List.range n).foldlM (fun sum k => do return sum + (← term k)) (0.0 : F)

/-- `Matrix::new_diagonal` — src/trueskill/matrix.rs:38-46. -/
def newDiagonal (data : List F) : Except Panic (Matrix F) :=
  data.zipIdx.foldlM (fun m vi => m.set vi.2 vi.2 vi.1) (new data.length data.length)

/-- The state of the loop of `create_rotated_a_matrix`: `player_assignments` and
`total_previous_players`. -/
structure RotState (F : Type) where
  assignments : List F
  previous : Nat

/-- The body of the loop of `create_rotated_a_matrix` — src/trueskill/matrix.rs:62-81.
The subtractions do not underflow: the players of two neighbouring teams and of the teams
before them are at most all the players. -/
def rotStep (teams : List (List (TrueSkillRating F))) (weights : List (List F)) (total : Nat)
    (s : RotState F) (col : Nat) : Except Panic (RotState F) := do
  let current ← index teams col
  let currentAssignments ← (List.range current.length).mapM fun i => do
    index (← index weights col) i
  let previous := s.previous + current.length
  let next ← index teams (col + 1)
  let nextAssignments ← (List.range next.length).mapM fun i => do
    return -(← index (← index weights (col + 1)) i)
  let remaining := total - previous - next.length
  return {
    assignments := s.assignments
      ++ List.replicate s.previous 0.0
      ++ currentAssignments
      ++ nextAssignments
      ++ List.replicate remaining 0.0
    previous }

/-- `Matrix::create_rotated_a_matrix` — src/trueskill/matrix.rs:48-88.  Called with at least
one team (`teams.len() - 1` does not underflow). -/
def createRotatedAMatrix (teams : List (List (TrueSkillRating F)))
    (weights : Option (List (List F))) : Except Panic (Except WeightError (Matrix F)) :=
  match getWeights teams weights with
  | .error e => .ok (.error e)
  | .ok teamWeights =>
    let total := (teams.map List.length).sum
    match (List.range (teams.length - 1)).foldlM (rotStep teams teamWeights total)
        { assignments := [], previous := 0 } with
    | .error p => .error p
    | .ok s => .ok (.ok (newFromData s.assignments (teams.length - 1) total))

/-- `Matrix::transpose` — src/trueskill/matrix.rs:90-100. -/
def transpose (m : Matrix F) : Except Panic (Matrix F) :=
  forLoops m.rows m.cols (new m.cols m.rows) fun r i j => do r.set j i (← m.get i j)

/-- `Matrix::minor` — src/trueskill/matrix.rs:119-135. -/
def minor (m : Matrix F) (row col : Nat) : Except Panic (Matrix F) :=
  forLoops m.rows m.cols (new (m.rows - 1) (m.cols - 1)) fun r i j => do
    if i ≠ row ∧ j ≠ col then
      r.set (if i > row then i - 1 else i) (if j > col then j - 1 else j) (← m.get i j)
    else return r

/-- The recursion of `Matrix::determinant` on an `n × n` matrix — src/trueskill/matrix.rs:106-116.
The minors of a square matrix are square, so the assertion at line 104 cannot fail below the
first call.  For `0 × 0` the loop is empty. -/
def det : Nat → Matrix F → Except Panic F
  | 0, _ => .ok 0.0
  | 1, m => m.get 0 0
  | n + 2, m => sumLoop (n + 2) fun i => do
    return (← m.get 0 i) * (← det (n + 1) (← m.minor 0 i)) * Flt.powi (-1.0) (i : Int)

/-- `Matrix::determinant` — src/trueskill/matrix.rs:103-117. -/
def determinant (m : Matrix F) : Except Panic F :=
  if m.rows ≠ m.cols then .error .notSquare else det m.rows m

/-- `Matrix::adjugate` — src/trueskill/matrix.rs:138-152. -/
def adjugate (m : Matrix F) : Except Panic (Matrix F) :=
  forLoops m.rows m.cols (new m.rows m.cols) fun r i j => do
    r.set i j ((← (← m.minor j i).determinant) * Flt.powi (-1.0) ((i + j : Nat) : Int))

/-- `impl Mul<f64> for Matrix` — src/trueskill/matrix.rs:206-220. -/
def scale (m : Matrix F) (x : F) : Except Panic (Matrix F) :=
  forLoops m.rows m.cols (new m.rows m.cols) fun r i j => do r.set i j ((← m.get i j) * x)

/-- `Matrix::inverse` — src/trueskill/matrix.rs:154-161. -/
def inverse (m : Matrix F) : Except Panic (Matrix F) := do
  let d ← m.determinant
  if d ==? 0.0 then .error .notInvertible else (← m.adjugate).scale (Flt.recip d)

/-- `impl Mul for Matrix` — src/trueskill/matrix.rs:164-204. -/
def mul (a b : Matrix F) : Except Panic (Matrix F) :=
  if a.cols = b.rows then
    forLoops a.rows b.cols (new a.rows b.cols) fun r i j => do
      r.set i j (← sumLoop a.cols fun k => do return (← a.get i k) * (← b.get k j))
  else if a.rows = b.cols then
    forLoops a.cols b.rows (new a.cols b.rows) fun r i j => do
      r.set i j (← sumLoop a.rows fun k => do return (← a.get k i) * (← b.get j k))
  else .error .mulDimensions

/-- `impl Add for Matrix` — src/trueskill/matrix.rs:222-245. -/
def add (a b : Matrix F) : Except Panic (Matrix F) :=
  if a.rows ≠ b.rows then .error .addDimensions
  else if a.cols ≠ b.cols then .error .addDimensions
  else forLoops a.rows a.cols (new a.rows a.cols) fun r i j => do
    r.set i j ((← a.get i j) + (← b.get i j))

end Matrix
end TrueSkill
end Skillratings
