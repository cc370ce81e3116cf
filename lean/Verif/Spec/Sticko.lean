import Verif.Spec.Glicko
/-
Stephenson's variant of the Glicko update, as the documentation of src/sticko.rs describes it.
-/
namespace Skillratings
namespace Spec

/-- The parameters of the system. -/
structure StickoParams where
  h : ℝ
  beta : ℝ
  lambda : ℝ
  gamma : ℝ
  c : ℝ

/-- 1 for the player with the first move and -1 for the other one. -/
noncomputable def colour (first : Bool) : ℝ := if first then 1 else -1

/-- One game of a player: the opponent's rating and deviation, the points, who moves first. -/
structure StickoGame where
  rating : ℝ
  deviation : ℝ
  points : ℝ
  first : Bool

/-- The expected score of a player of rating `r` in a game. -/
noncomputable def stickoE (P : StickoParams) (r : ℝ) (x : StickoGame) : ℝ :=
  glickoE (r + P.gamma * colour x.first) x.rating x.deviation

/-- The summand of `1/d²`. -/
noncomputable def stickoInfo (P : StickoParams) (r : ℝ) (x : StickoGame) : ℝ :=
  glickoQ ^ 2 * glickoG x.deviation ^ 2 * stickoE P r x * (1 - stickoE P r x)

/-- The new rating and the new deviation of a player `(r, rd)` after the games `xs`. -/
noncomputable def stickoUpdate (P : StickoParams) (r rd : ℝ) (xs : List StickoGame) : ℝ × ℝ :=
  let pre := glickoOnset rd P.c
  let info := (xs.map (stickoInfo P r)).sum
  let mean := (xs.map StickoGame.rating).sum / xs.length
  (r + glickoQ * posterior (pre ^ 2) info
      * (xs.map fun x => glickoG x.deviation * (x.points - stickoE P r x + P.beta)).sum
      + P.lambda / 100 * (mean - r),
   min √(posterior (pre ^ 2 + P.h * xs.length) info) 350)

end Spec
end Skillratings
