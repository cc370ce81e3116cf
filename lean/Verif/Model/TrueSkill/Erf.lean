import Verif.Flt
/-
Model of /repo/src/trueskill/erf.rs and /repo/src/trueskill/math.rs.
-/
namespace Skillratings
namespace TrueSkill
variable {F : Type} [Flt F]

/-- `erfc` — src/trueskill/erf.rs:10-45. -/
def erfc (x : F) : F :=
  let z := Flt.abs x
  let t := Flt.recip (1.0 + z / 2.0)
  let r := t * Flt.exp (Flt.mulAdd t
    (Flt.mulAdd t
      (Flt.mulAdd t
        (Flt.mulAdd t
          (Flt.mulAdd t
            (Flt.mulAdd t
              (Flt.mulAdd t
                (Flt.mulAdd t
                  (Flt.mulAdd t 0.17087277 (-0.82215223))
                  1.48851587)
                (-1.13520398))
              0.27886807)
            (-0.18628806))
          0.09678418)
        0.37409196)
      1.00002368)
    (Flt.mulAdd (-z) z (-1.26551223)))
  if x <? 0.0 then 2.0 - r else r

/-- One round of the refinement loop of `inverse_erfc` — src/trueskill/erf.rs:68-69. -/
def inverseErfcStep (y x : F) : F :=
  let err := erfc x - y
  x + err / Flt.mulAdd Flt.frac2SqrtPi (Flt.exp (-(Flt.powi x 2))) (-x * err)

/-- `inverse_erfc` — src/trueskill/erf.rs:49-77. -/
def inverseErfc (y : F) : F :=
  if (2.0 : F) <=? y then -100.0
  else if y <=? 0.0 then 100.0
  else
    let zeroPoint := y <? 1.0
    let y := if zeroPoint then y else 2.0 - y
    let t := Flt.sqrt (-2.0 * Flt.ln (y / 2.0))
    let x := -Flt.frac1Sqrt2
      * (Flt.mulAdd t 0.27061 2.30753 / Flt.mulAdd t (Flt.mulAdd t 0.04481 0.99229) 1.0 - t)
    let x := inverseErfcStep y x
    let x := inverseErfcStep y x
    if zeroPoint then x else -x

/-- `cdf` — src/trueskill/erf.rs:80-83. -/
def cdf (x mu sigma : F) : F := 0.5 * erfc (-(x - mu) / (sigma * Flt.sqrt2))

/-- `inverse_cdf` — src/trueskill/erf.rs:86-88. -/
def inverseCdf (x mu sigma : F) : F :=
  Flt.mulAdd (sigma * Flt.sqrt2) (-inverseErfc (2.0 * x)) mu

/-- `pdf` — src/trueskill/erf.rs:91-93. -/
def pdf (x mu sigma : F) : F :=
  Flt.recip (Flt.sqrt (2.0 * Flt.pi) * Flt.abs sigma)
    * Flt.exp (-(Flt.powi ((x - mu) / Flt.abs sigma) 2 / 2.0))

/-- `v_non_draw` — src/trueskill/math.rs:3-14. -/
def vNonDraw (difference drawMargin c : F) : F :=
  let diffC := difference / c
  let drawC := drawMargin / c
  let norm := cdf (diffC - drawC) 0.0 1.0
  if norm <? 2.222758749e-162 then -diffC + drawC
  else pdf (diffC - drawC) 0.0 1.0 / norm

/-- `w_non_draw` — src/trueskill/math.rs:16-32. -/
def wNonDraw (difference drawMargin c : F) : F :=
  let diffC := difference / c
  let drawC := drawMargin / c
  let norm := cdf (diffC - drawC) 0.0 1.0
  if norm <? 2.222758749e-162 then
    if diffC <? 0.0 then 1.0 else 0.0
  else
    let v := vNonDraw difference drawMargin c
    v * (v + diffC - drawC)

/-- `v_draw` — src/trueskill/math.rs:34-55. -/
def vDraw (difference drawMargin c : F) : F :=
  let diffC := difference / c
  let drawC := drawMargin / c
  let diffCAbs := Flt.abs diffC
  let norm := cdf (drawC - diffCAbs) 0.0 1.0 - cdf (-drawC - diffCAbs) 0.0 1.0
  if norm <? 2.222758749e-162 then
    if diffC <? 0.0 then -diffC - drawC else -diffC + drawC
  else
    let x := pdf (-drawC - diffCAbs) 0.0 1.0 - pdf (drawC - diffCAbs) 0.0 1.0
    if diffC <? 0.0 then -x / norm else x / norm

/-- `w_draw` — src/trueskill/math.rs:57-77. -/
def wDraw (difference drawMargin c : F) : F :=
  let diffC := difference / c
  let drawC := drawMargin / c
  let diffCAbs := Flt.abs diffC
  let norm := cdf (drawC - diffCAbs) 0.0 1.0 - cdf (-drawC - diffCAbs) 0.0 1.0
  if norm <? 2.222758749e-162 then 1.0
  else
    let v := vDraw difference drawMargin c
    let p1 := pdf (drawC - diffCAbs) 0.0 1.0
    let p2 := pdf (-drawC - diffCAbs) 0.0 1.0
    Flt.mulAdd v v
      (Flt.mulAdd (drawC - diffCAbs) p1 (-(-drawC - diffCAbs) * p2) / norm)

/-- `new_rating` — src/trueskill/math.rs:79-90. -/
def newRating (rating uncertainty v c dynamicsFactor rankMultiplier : F) : F :=
  let meanMultiplier := Flt.mulAdd uncertainty uncertainty (Flt.powi dynamicsFactor 2) / c
  Flt.mulAdd (rankMultiplier * meanMultiplier) v rating

/-- `new_uncertainty` — src/trueskill/math.rs:92-97. -/
def newUncertainty (uncertainty c w dynamicsFactor : F) : F :=
  let variance := Flt.mulAdd uncertainty uncertainty (Flt.powi dynamicsFactor 2)
  let devMultiplier := variance / Flt.powi c 2
  Flt.sqrt (variance * Flt.mulAdd w (-devMultiplier) 1.0)

end TrueSkill
end Skillratings
