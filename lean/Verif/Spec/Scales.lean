import Verif.FP
/-
A property of the rounding: it is the same in every binade.
-/
namespace Skillratings

/-- Rounding commutes with halving, away from underflow and overflow.  Each of the rounding modes
of IEEE 754 has this property. -/
structure FloatEnv.Scales (E : FloatEnv) : Prop where
  half : ∀ (s : Bool) (x : ℝ), 1 / 2 ^ 900 ≤ |x| → |x| ≤ 2 ^ 900 →
    (E.round s (x / 2)).toR = (E.round s x).toR / 2

end Skillratings
