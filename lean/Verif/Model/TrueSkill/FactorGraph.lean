import Verif.Model.TrueSkill.Rating
import Verif.Model.TrueSkill.Erf
/-
Model of /repo/src/trueskill/gaussian.rs and /repo/src/trueskill/factor_graph.rs.

The heap of `Rc<RefCell<Variable>>` is a store `VarRef → Variable`.  The four vectors of
variables that `trueskill_multi_team` allocates give the four kinds of references.
A variable's `HashMap<usize, Gaussian>` is a total function from factor ids, initially the
default Gaussian everywhere: every constructor inserts the default message before the
message is read (lines 65, 96-97, 148-151, 246), so `messages[&id]` never panics.
Every `down`/`up` returns the delta of the variable it writes.
-/
namespace Skillratings
namespace TrueSkill
variable {F : Type} [Flt F]

/-- `pub struct Gaussian` — src/trueskill/gaussian.rs:5-8. -/
structure Gaussian (F : Type) where
  pi : F
  tau : F

namespace Gaussian

/-- `#[derive(Default)]` — src/trueskill/gaussian.rs:4. -/
def default : Gaussian F := { pi := 0.0, tau := 0.0 }

/-- `Gaussian::with_mu_sigma` — src/trueskill/gaussian.rs:12-17. -/
def withMuSigma (mu sigma : F) : Except Panic (Gaussian F) :=
  if sigma ==? 0.0 then .error .sigmaZero
  else
    let pi := Flt.powi sigma (-2)
    .ok { pi, tau := pi * mu }

/-- `Gaussian::mu` — src/trueskill/gaussian.rs:23-29. -/
def mu (g : Gaussian F) : F := if g.pi ==? 0.0 then 0.0 else g.tau / g.pi

/-- `Gaussian::sigma` — src/trueskill/gaussian.rs:31-37. -/
def sigma (g : Gaussian F) : F :=
  if g.pi ==? 0.0 then Flt.infinity else Flt.sqrt (Flt.recip g.pi)

/-- `impl Mul for Gaussian` — src/trueskill/gaussian.rs:40-49. -/
instance : Mul (Gaussian F) := ⟨fun a b => { pi := a.pi + b.pi, tau := a.tau + b.tau }⟩

/-- `impl Div for Gaussian` — src/trueskill/gaussian.rs:51-60. -/
instance : Div (Gaussian F) := ⟨fun a b => { pi := a.pi - b.pi, tau := a.tau - b.tau }⟩

end Gaussian

/-- `pub struct Variable` — src/trueskill/factor_graph.rs:8-11. -/
structure Variable (F : Type) where
  gaussian : Gaussian F
  messages : Nat → Gaussian F

namespace Variable

/-- `Variable::new` — src/trueskill/factor_graph.rs:14-19. -/
def new : Variable F := { gaussian := Gaussian.default, messages := fun _ => Gaussian.default }

/-- `Variable::delta` — src/trueskill/factor_graph.rs:46-53. -/
def delta (v : Variable F) (other : Gaussian F) : F :=
  let piDelta := Flt.abs (v.gaussian.pi - other.pi)
  if Flt.isInfinite piDelta then 0.0
  else Flt.fmax (Flt.abs (v.gaussian.tau - other.tau)) (Flt.sqrt piDelta)

/-- `Variable::set` — src/trueskill/factor_graph.rs:21-28. -/
def set (v : Variable F) (val : Gaussian F) : Variable F × F :=
  ({ v with gaussian := val }, v.delta val)

/-- `Variable::update_message` — src/trueskill/factor_graph.rs:30-36. -/
def updateMessage (v : Variable F) (id : Nat) (message : Gaussian F) : Variable F × F :=
  let old := v.messages id
  let v' := { v with messages := fun k => if k = id then message else v.messages k }
  v'.set (v.gaussian / old * message)

/-- `Variable::update_value` — src/trueskill/factor_graph.rs:38-44. -/
def updateValue (v : Variable F) (id : Nat) (val : Gaussian F) : Variable F × F :=
  let old := v.messages id
  let v' := { v with
    messages := fun k => if k = id then val * old / v.gaussian else v.messages k }
  v'.set val

end Variable

/-- A reference to one of the variables allocated at src/trueskill/mod.rs:824-855. -/
inductive VarRef
  | rating (i : Nat)
  | perf (i : Nat)
  | teamPerf (t : Nat)
  | teamDiff (t : Nat)
deriving DecidableEq, Repr

/-- The heap of variables. -/
structure Store (F : Type) where
  get : VarRef → Variable F

instance : CoeFun (Store F) (fun _ => VarRef → Variable F) := ⟨Store.get⟩

/-- Writing a variable and keeping the returned delta. -/
def Store.write (s : Store F) (r : VarRef) (v : Variable F × F) : Store F × F :=
  (⟨fun k => if k = r then v.1 else s k⟩, v.2)

/-- `pub struct PriorFactor` — src/trueskill/factor_graph.rs:56-61. -/
structure PriorFactor (F : Type) where
  id : Nat
  var : VarRef
  val : Gaussian F
  dynamic : F

/-- `PriorFactor::down` — src/trueskill/factor_graph.rs:75-79. -/
def PriorFactor.down (f : PriorFactor F) (s : Store F) : Except Panic (Store F × F) :=
  let sigma := Flt.hypot f.val.sigma f.dynamic
  match Gaussian.withMuSigma f.val.mu sigma with
  | .error e => .error e
  | .ok value => .ok (s.write f.var ((s f.var).updateValue f.id value))

/-- `pub struct LikelihoodFactor` — src/trueskill/factor_graph.rs:82-87. -/
structure LikelihoodFactor (F : Type) where
  id : Nat
  mean : VarRef
  value : VarRef
  variance : F

namespace LikelihoodFactor

/-- `LikelihoodFactor::calc_a` — src/trueskill/factor_graph.rs:129-131. -/
def calcA (f : LikelihoodFactor F) (g : Gaussian F) : F :=
  Flt.recip (Flt.mulAdd f.variance g.pi 1.0)

/-- `LikelihoodFactor::down` — src/trueskill/factor_graph.rs:107-116. -/
def down (f : LikelihoodFactor F) (s : Store F) : Store F × F :=
  let msg := (s f.mean).gaussian / (s f.mean).messages f.id
  let a := f.calcA msg
  s.write f.value ((s f.value).updateMessage f.id { pi := a * msg.pi, tau := a * msg.tau })

/-- `LikelihoodFactor::up` — src/trueskill/factor_graph.rs:118-127. -/
def up (f : LikelihoodFactor F) (s : Store F) : Store F × F :=
  let msg := (s f.value).gaussian / (s f.value).messages f.id
  let a := f.calcA msg
  s.write f.mean ((s f.mean).updateMessage f.id { pi := a * msg.pi, tau := a * msg.tau })

end LikelihoodFactor

/-- `pub struct SumFactor` — src/trueskill/factor_graph.rs:134-139. -/
structure SumFactor (F : Type) where
  id : Nat
  sum : VarRef
  terms : List VarRef
  coeffs : List F

namespace SumFactor

/-- The accumulation of `SumFactor::update`: `(pi_inv, mu)` over the pairs of
`val.gaussian / msg` and `coeff` — src/trueskill/factor_graph.rs:205-220. -/
def accumulate (divs : List (Gaussian F × F)) : F × F :=
  divs.foldl (init := ((0.0 : F), (0.0 : F))) fun acc dc =>
    let (piInv, mu) := acc
    let (div, coeff) := dc
    let mu := mu + coeff * div.mu
    if Flt.isInfinite piInv then (piInv, mu)
    else if div.pi ==? 0.0 then (Flt.infinity, mu)
    else (piInv + Flt.powi coeff 2 / div.pi, mu)

/-- `SumFactor::update` — src/trueskill/factor_graph.rs:198-227. -/
def update (f : SumFactor F) (s : Store F) (var : VarRef) (vals : List VarRef)
    (coeffs : List F) : Store F × F :=
  let divs := vals.map fun val => (s val).gaussian / (s val).messages f.id
  let (piInv, mu) := accumulate (divs.zip coeffs)
  let pi := Flt.recip piInv
  let tau := pi * mu
  s.write var ((s var).updateMessage f.id { pi, tau })

/-- `SumFactor::down` — src/trueskill/factor_graph.rs:161-168. -/
def down (f : SumFactor F) (s : Store F) : Store F × F := f.update s f.sum f.terms f.coeffs

/-- The coefficients of `SumFactor::up` — src/trueskill/factor_graph.rs:171-181. -/
def upCoeffs (coeffs : List F) (index : Nat) : List F :=
  let coeff := coeffs.getD index 0.0
  coeffs.zipIdx.map fun cx =>
    if coeff ==? 0.0 then 0.0
    else if cx.2 = index then Flt.recip coeff
    else -cx.1 / coeff

/-- `SumFactor::up` — src/trueskill/factor_graph.rs:170-191.  Only called with an index in
range. -/
def up (f : SumFactor F) (index : Nat) (s : Store F) : Store F × F :=
  f.update s (f.terms.getD index f.sum) (f.terms.set index f.sum) (upCoeffs f.coeffs index)

end SumFactor

/-- `pub struct TruncateFactor` — src/trueskill/factor_graph.rs:230-236. -/
structure TruncateFactor (F : Type) where
  id : Nat
  var : VarRef
  vFunc : F → F → F → F
  wFunc : F → F → F → F
  drawMargin : F

/-- `TruncateFactor::up` — src/trueskill/factor_graph.rs:257-275. -/
def TruncateFactor.up (f : TruncateFactor F) (s : Store F) : Store F × F :=
  let div := (s f.var).gaussian / (s f.var).messages f.id
  let piSqrt := Flt.sqrt div.pi
  let arg1 := div.tau
  let arg2 := f.drawMargin * div.pi
  let v := f.vFunc arg1 arg2 piSqrt
  let w := f.wFunc arg1 arg2 piSqrt
  let denom := 1.0 - w
  let pi := div.pi / denom
  let tau := Flt.mulAdd piSqrt v div.tau / denom
  s.write f.var ((s f.var).updateValue f.id { pi, tau })

end TrueSkill
end Skillratings
