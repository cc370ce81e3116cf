import Verif.Model.Common
/-
Model of /repo/src/glicko_boost.rs.

The expression for the deviation at the end of a rating period occurs four times in the
source, with different variables; it is the helper `endDeviation` here.
The conversions from the other Glicko-like ratings live in `Verif/Model/Convert.lean`.
-/
namespace Skillratings
namespace GlickoBoost
variable {F : Type} [Flt F]

/-- `pub struct GlickoBoostRating` — src/glicko_boost.rs:90-95. -/
structure GlickoBoostRating (F : Type) where
  rating : F
  deviation : F

/-- `GlickoBoostRating::new` / `Default` — src/glicko_boost.rs:100-105, 108-112. -/
def GlickoBoostRating.new : GlickoBoostRating F := { rating := 1500.0, deviation := 350.0 }

/-- `impl Rating for GlickoBoostRating` — src/glicko_boost.rs:114-127. -/
instance : Rating F (GlickoBoostRating F) where
  rating r := r.rating
  uncertainty r := some r.deviation
  new rating uncertainty :=
    { rating := rating.getD 1500.0, deviation := uncertainty.getD 350.0 }

/-- `impl From<(f64, f64)> for GlickoBoostRating` — src/glicko_boost.rs:129-136. -/
def GlickoBoostRating.ofPair (t : F × F) : GlickoBoostRating F :=
  { rating := t.1, deviation := t.2 }

/-- The tuple `alpha` of the configuration — src/glicko_boost.rs:196. -/
structure Alpha (F : Type) where
  a0 : F
  a1 : F
  a2 : F
  a3 : F
  a4 : F

/-- `pub struct GlickoBoostConfig` — src/glicko_boost.rs:171-197. -/
structure GlickoBoostConfig (F : Type) where
  eta : F
  k : F
  b : F × F
  alpha : Alpha F

/-- `GlickoBoostConfig::new` / `Default` — src/glicko_boost.rs:203-216, 219-223. -/
def GlickoBoostConfig.new : GlickoBoostConfig F :=
  { eta := 30.0
    k := 1.96
    b := (0.20139, 17.5)
    alpha := { a0 := 5.83733, a1 := -1.75374e-04, a2 := -7.080124e-05,
               a3 := 0.001733792, a4 := 0.00026706 } }

/-- `boost_rd` — src/glicko_boost.rs:815-819. -/
def boostRd (z deviation : F) (config : GlickoBoostConfig F) : F :=
  Flt.mulAdd (Flt.mulAdd (z - config.k) config.b.1 1.0) deviation config.b.2

/-- `new_deviation` — src/glicko_boost.rs:795-805. -/
def newDeviation (oldDeviation d z : F) (config : GlickoBoostConfig F) : F :=
  if (config.k <? z) && !(config.k ==? 0.0) then
    let afterDeviation :=
      Flt.sqrt (Flt.recip (Flt.recip (Flt.powi oldDeviation 2) + Flt.recip d))
    let preDeviation := boostRd z afterDeviation config
    Flt.fmin (Flt.sqrt (Flt.recip (Flt.recip (Flt.powi preDeviation 2) + Flt.recip d))) 350.0
  else
    Flt.fmin (Flt.sqrt (Flt.recip (Flt.recip (Flt.powi oldDeviation 2) + Flt.recip d))) 350.0

/-- `new_rating` — src/glicko_boost.rs:807-809. -/
def newRating (oldRating deviation score q g e : F) : F :=
  Flt.mulAdd (Flt.powi deviation 2 * q * g) (score - e) oldRating

/-- `z_value` — src/glicko_boost.rs:811-813. -/
def zValue (g e score : F) : F :=
  (g * (score - e)) / Flt.sqrt (Flt.powi g 2 * e * (1.0 - e))

/-- `g_value` — src/glicko_boost.rs:824-828. -/
def gValue (q opponentDeviation : F) : F :=
  Flt.recip (Flt.sqrt
    (1.0 + ((3.0 * Flt.powi q 2 * Flt.powi opponentDeviation 2) / (Flt.powi Flt.pi 2))))

/-- `e_value` — src/glicko_boost.rs:830-833. -/
def eValue (g rating opponentRating advantage colour : F) : F :=
  Flt.recip (1.0 + (Flt.powf 10.0
    (-g * (Flt.mulAdd colour advantage rating - opponentRating) / 400.0)))

/-- `d_value` — src/glicko_boost.rs:835-837. -/
def dValue (q g e : F) : F :=
  Flt.powi (Flt.powi q 2 * Flt.powi g 2 * e * (1.0 - e)) (-1)

/-- The deviation at the end of a period — src/glicko_boost.rs:380-399, 400-419, 554-573 and
739-759 (the same expression, inlined four times in the source). -/
def endDeviation (deviation rating : F) (config : GlickoBoostConfig F) : F :=
  Flt.fmin
    (Flt.sqrt (Flt.mulAdd deviation deviation
      (Flt.exp (Flt.mulAdd config.alpha.a4 (Flt.powi (rating / 1000.0) 2)
        (Flt.mulAdd config.alpha.a3 (rating / 1000.0)
          (Flt.mulAdd (config.alpha.a2 * deviation) (rating / 1000.0)
            (Flt.mulAdd config.alpha.a1 deviation config.alpha.a0)))))))
    350.0

/-- `glicko_boost` — src/glicko_boost.rs:336-431. -/
def glickoBoost (playerOne playerTwo : GlickoBoostRating F) (outcome : Outcomes)
    (config : GlickoBoostConfig F) : GlickoBoostRating F × GlickoBoostRating F :=
  let q : F := Flt.ln 10.0 / 400.0
  let outcome1 : F := outcome.toChessPoints
  let outcome2 := 1.0 - outcome1
  let colour1 : F := 1.0
  let colour2 : F := -1.0
  let g1 := gValue q playerTwo.deviation
  let g2 := gValue q playerOne.deviation
  let e1 := eValue g1 playerOne.rating playerTwo.rating config.eta colour1
  let e2 := eValue g2 playerTwo.rating playerOne.rating config.eta colour2
  let d1 := dValue q g1 e1
  let d2 := dValue q g2 e2
  let z1 := zValue g1 e1 outcome1
  let z2 := zValue g2 e2 outcome2
  let newDeviation1 := newDeviation playerOne.deviation d1 z1 config
  let newDeviation2 := newDeviation playerTwo.deviation d2 z2 config
  let newRating1 := newRating playerOne.rating newDeviation1 outcome1 q g1 e1
  let newRating2 := newRating playerTwo.rating newDeviation2 outcome2 q g2 e2
  let endDeviation1 := endDeviation newDeviation1 newRating1 config
  let endDeviation2 := endDeviation newDeviation2 newRating2 config
  ({ rating := newRating1, deviation := endDeviation1 },
   { rating := newRating2, deviation := endDeviation2 })

/-- `decay_deviation` — src/glicko_boost.rs:735-765. -/
def decayDeviation (player : GlickoBoostRating F) (config : GlickoBoostConfig F) :
    GlickoBoostRating F :=
  { rating := player.rating, deviation := endDeviation player.deviation player.rating config }

/-- `glicko_boost_rating_period` — src/glicko_boost.rs:499-579. -/
def glickoBoostRatingPeriod (player : GlickoBoostRating F)
    (results : List (GlickoBoostRating F × Outcomes × Bool)) (config : GlickoBoostConfig F) :
    GlickoBoostRating F :=
  let q : F := Flt.ln 10.0 / 400.0
  if results.isEmpty then decayDeviation player config
  else
    let dSum := Flt.sum (results.map fun r =>
      let g := gValue q r.1.deviation
      let e := eValue g player.rating r.1.rating config.eta (if r.2.2 then 1.0 else -1.0)
      Flt.powi g 2 * e * (1.0 - e))
    let dSq := Flt.recip (Flt.powi q 2 * dSum)
    let m := Flt.sum (results.map fun r =>
      let g := gValue q r.1.deviation
      let e := eValue g player.rating r.1.rating config.eta (if r.2.2 then 1.0 else -1.0)
      let s : F := r.2.1.toChessPoints
      g * (s - e))
    let z := m / Flt.sqrt dSum
    let newDeviation := newDeviation player.deviation dSq z config
    let newRating := Flt.mulAdd (Flt.powi newDeviation 2 * q) m player.rating
    let endDeviation := endDeviation newDeviation newRating config
    { rating := newRating, deviation := endDeviation }

/-- `expected_score` — src/glicko_boost.rs:614-628. -/
def expectedScore (playerOne playerTwo : GlickoBoostRating F) (config : GlickoBoostConfig F) :
    F × F :=
  let q : F := Flt.ln 10.0 / 400.0
  let g := gValue q (Flt.hypot playerOne.deviation playerTwo.deviation)
  let expOne := Flt.recip (1.0 + Flt.powf 10.0
    (-g * (playerOne.rating + config.eta - playerTwo.rating) / 400.0))
  let expTwo := 1.0 - expOne
  (expOne, expTwo)

/-- `expected_score_rating_period` — src/glicko_boost.rs:697-711.  The colour flag of an
opponent is not read by the code. -/
def expectedScoreRatingPeriod (player : GlickoBoostRating F)
    (opponents : List (GlickoBoostRating F × Bool)) (config : GlickoBoostConfig F) : List F :=
  opponents.map fun o =>
    let q : F := Flt.ln 10.0 / 400.0
    let g := gValue q (Flt.hypot player.deviation o.1.deviation)
    Flt.recip (1.0 + Flt.powf 10.0 (-g * (player.rating + config.eta - o.1.rating) / 400.0))

/-- `confidence_interval` — src/glicko_boost.rs:788-793. -/
def confidenceInterval (player : GlickoBoostRating F) : F × F :=
  (Flt.mulAdd 1.96 (-player.deviation) player.rating,
   Flt.mulAdd 1.96 player.deviation player.rating)

/-- `pub struct GlickoBoost` — src/glicko_boost.rs:226-228. -/
structure GlickoBoost (F : Type) where
  config : GlickoBoostConfig F

/-- `impl RatingSystem for GlickoBoost` — src/glicko_boost.rs:230-254. -/
instance : RatingSystem F (GlickoBoost F) (GlickoBoostRating F) (GlickoBoostConfig F) Id where
  new config := { config }
  rate self playerOne playerTwo outcome := glickoBoost playerOne playerTwo outcome self.config
  expectedScore self playerOne playerTwo := expectedScore playerOne playerTwo self.config

/-- `impl RatingPeriodSystem for GlickoBoost` — src/glicko_boost.rs:256-283. -/
instance : RatingPeriodSystem F (GlickoBoost F) (GlickoBoostRating F) (GlickoBoostConfig F) Id where
  new config := { config }
  rate self player results :=
    glickoBoostRatingPeriod player (results.map fun r => (r.1, r.2, true)) self.config
  expectedScore self player opponents :=
    expectedScoreRatingPeriod player (opponents.map fun o => (o, true)) self.config

end GlickoBoost
end Skillratings
