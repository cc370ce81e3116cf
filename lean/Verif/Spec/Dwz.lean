import Mathlib.Analysis.SpecialFunctions.Exp
import Mathlib.Algebra.Order.Floor.Ring
import Verif.Spec.Basic
/-
The DWZ rules ("Wertungsordnung"), as real formulas.
-/
namespace Skillratings
namespace Spec

/-- The development coefficient: an age term plus the fourth power of the rating, a factor for
young players who do at least as well as expected, a surcharge for weak players who do not do
better than expected; between 5 and 30 (and at most five times the index), or up to 150 with the
surcharge. -/
noncomputable def dwzCoefficient (rating : ℝ) (age : ℕ) (score expected : ℝ) (index : ℕ) : ℝ :=
  let ageTerm : ℝ := if age ≤ 20 then 5 else if age ≤ 25 then 10 else 15
  let youth : ℝ := if age < 20 ∧ expected ≤ score then rating / 2000 else 1
  let surcharge : ℝ :=
    if rating < 1300 ∧ score ≤ expected then Real.exp ((1300 - rating) / 150) - 1 else 0
  let e := youth * ((rating / 1000) ^ 4 + ageTerm) + surcharge
  if surcharge = 0 then max 5 (min e (min 30 (5 * index))) else max 5 (min e 150)

/-- The rating difference of a performance of 0 %, 1 %, ..., 50 % (FIDE handbook B.02, 8.1 a). -/
def performanceTable : List ℤ :=
  [-728, -614, -555, -513, -480, -453, -429, -408, -389, -371,
   -355, -340, -326, -312, -300, -288, -276, -265, -254, -244,
   -234, -224, -214, -205, -196, -187, -178, -170, -161, -153,
   -145, -137, -129, -121, -113, -106, -98, -91, -83, -76,
   -69, -61, -54, -47, -40, -32, -25, -18, -11, -4,
   0]

/-- The rating difference of a performance of `p` percent, continued antisymmetrically. -/
def performanceDifference (p : ℕ) : ℤ :=
  if p ≤ 50 then performanceTable.getD p 0 else -performanceTable.getD (100 - p) 0

/-- The percentage of points scored, rounded to the nearest integer. -/
noncomputable def percent {R : Type} (rs : List (R × Outcomes)) : ℕ :=
  ⌊100 * score rs / rs.length + 1 / 2⌋₊

end Spec
end Skillratings
