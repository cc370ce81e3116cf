import Verif.Spec.Sticko
/-
Glickman's Glicko-Boost update, as the documentation of src/glicko_boost.rs describes it.
`colour` and the type of a game are shared with `Verif/Spec/Sticko.lean`.
-/
namespace Skillratings
namespace Spec

/-- The parameters of the system. -/
structure BoostParams where
  eta : ℝ
  k : ℝ
  b0 : ℝ
  b1 : ℝ
  a0 : ℝ
  a1 : ℝ
  a2 : ℝ
  a3 : ℝ
  a4 : ℝ

/-- The expected score of a player of rating `r` in a game. -/
noncomputable def boostE (P : BoostParams) (r : ℝ) (x : StickoGame) : ℝ :=
  glickoE (r + P.eta * colour x.first) x.rating x.deviation

/-- The variance of the score in a game: `g² E (1 - E)`. -/
noncomputable def boostVar (P : BoostParams) (r : ℝ) (x : StickoGame) : ℝ :=
  glickoG x.deviation ^ 2 * boostE P r x * (1 - boostE P r x)

/-- The surprise in a game: `g (s - E)`. -/
noncomputable def boostDelta (P : BoostParams) (r : ℝ) (x : StickoGame) : ℝ :=
  glickoG x.deviation * (x.points - boostE P r x)

/-- The standardised performance. -/
noncomputable def boostZ (P : BoostParams) (r : ℝ) (xs : List StickoGame) : ℝ :=
  (xs.map (boostDelta P r)).sum / √(xs.map (boostVar P r)).sum

/-- `1/d²`. -/
noncomputable def boostInfo (P : BoostParams) (r : ℝ) (xs : List StickoGame) : ℝ :=
  glickoQ ^ 2 * (xs.map (boostVar P r)).sum

/-- The deviation that enters the update: the old one, or after an exceptional performance the
boosted one. -/
noncomputable def boostPre (P : BoostParams) (r rd : ℝ) (xs : List StickoGame) : ℝ :=
  open Classical in
  if P.k < boostZ P r xs ∧ P.k ≠ 0 then
    (1 + (boostZ P r xs - P.k) * P.b0) * √(posterior (rd ^ 2) (boostInfo P r xs)) + P.b1
  else rd

/-- The deviation after the games, before the increase at the end of the period. -/
noncomputable def boostRd1 (P : BoostParams) (r rd : ℝ) (xs : List StickoGame) : ℝ :=
  min √(posterior (boostPre P r rd xs ^ 2) (boostInfo P r xs)) 350

/-- The new rating. -/
noncomputable def boostRating (P : BoostParams) (r rd : ℝ) (xs : List StickoGame) : ℝ :=
  r + glickoQ * boostRd1 P r rd xs ^ 2 * (xs.map (boostDelta P r)).sum

/-- The increase of the deviation at the end of a period. -/
noncomputable def boostEnd (P : BoostParams) (rd r : ℝ) : ℝ :=
  min √(rd ^ 2 + Real.exp (P.a0 + P.a1 * rd + P.a2 * rd * (r / 1000) + P.a3 * (r / 1000)
    + P.a4 * (r / 1000) ^ 2)) 350

end Spec
end Skillratings
