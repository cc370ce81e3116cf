import Verif.Model.Convert
import Verif.Model.Egf
/-
TESTS, not proofs.  The model is instantiated with Lean's `Float` and run on the inputs of
the crate's own unit tests; the expected numbers are the ones asserted in /repo.  This guards
against transcription errors in the model (a wrong constant, a swapped argument).  No theorem
depends on this file.

`mul_add` is computed with two roundings here, so the comparison is up to a relative 1e-12.
-/
namespace Skillratings.FloatCheck

instance : Flt Float where
  mulAdd a b c := a * b + c
  recip a := 1.0 / a
  powi a n := Float.pow a (Float.ofInt n)
  powf := Float.pow
  exp := Float.exp
  expM1 x := if x.abs < 1e-5 then x + x * x / 2.0 else Float.exp x - 1.0
  ln := Float.log
  ln1p x := Float.log (1.0 + x)
  sqrt := Float.sqrt
  hypot a b := Float.sqrt (a * a + b * b)
  abs := Float.abs
  fmax a b := if a.isNaN then b else if b.isNaN then a else if a < b then b else a
  fmin a b := if a.isNaN then b else if b.isNaN then a else if b < a then b else a
  lt a b := a < b
  le a b := a ≤ b
  feq a b := a == b
  isSignNegative a := a.toBits >>> 63 == 1
  isInfinite := Float.isInf
  infinity := 1.0 / 0.0
  epsilon := 2.220446049250313e-16
  pi := 3.14159265358979323846
  sqrt2 := 1.41421356237309504880
  frac1Sqrt2 := 0.70710678118654752440
  frac2SqrtPi := 1.12837916709551257390
  ofNat := Float.ofNat
  ofInt := Float.ofInt
  roundToInt a := a.round.toInt64.toInt
  sumZero := 0.0

def near (a b : Float) (tol : Float := 1e-12) : Bool := (a - b).abs ≤ tol * (1.0 + b.abs)
def rnd (a : Float) (b : Float) : Bool := a.round == b

open Outcomes

/-! src/elo.rs tests -/
section
open Elo
def e (r : Float) : EloRating Float := ⟨r⟩
#guard near (elo (e 1000) (e 1000) WIN EloConfig.new).1.rating 1016
#guard near (elo (e 1000) (e 1000) WIN EloConfig.new).2.rating 984
#guard near (elo (e 1000) (e 1000) LOSS EloConfig.new).1.rating 984
#guard near (elo (e 1000) (e 1000) DRAW EloConfig.new).2.rating 1000
#guard rnd (elo (e 500) (e 1500) WIN EloConfig.new).1.rating 532
#guard rnd (elo (e 500) (e 1500) WIN EloConfig.new).2.rating 1468
#guard rnd (eloRatingPeriod (EloRating.new) [(EloRating.new, WIN), (EloRating.new, DRAW),
  (EloRating.new, LOSS)] EloConfig.new).rating (999 : Float)
#guard rnd (100 * (expectedScore (e 2251) (e 1934)).1) 86
end

/-! src/dwz.rs tests -/
section
open Dwz
def d (r : Float) (i a : Nat) : DWZRating Float := { rating := r, index := i, age := a }
#guard rnd (dwz (d 1530 22 26) (d 1930 103 39) WIN).1.rating 1564
#guard rnd (dwz (d 1530 22 26) (d 1930 103 39) WIN).2.rating 1906
#guard (dwz (d 1530 22 26) (d 1930 103 39) WIN).2.index == 104
#guard rnd (dwzRatingPeriod (d 1530 17 9)
  [(d 1930 103 39, WIN), (d 1930 92 14, DRAW), (d 1930 103 39, LOSS)]).rating 1619
#guard (dwzRatingPeriod (d 1530 17 9)
  [(d 1930 103 39, WIN), (d 1930 92 14, DRAW), (d 1930 103 39, LOSS)]).index == 18
#guard rnd (dwz (d 3210 143 25) (d 90 1 12) WIN).1.rating 3210
#guard rnd (dwz (d 3210 143 25) (d 90 1 12) WIN).2.rating 90
#guard rnd (dwz (d 2 145 5) (d 1 3 5) LOSS).1.rating (-1)
#guard rnd (dwz (d 2 145 5) (d 1 3 5) LOSS).2.rating 68
#guard rnd (100 * (expectedScore (d 1530 22 26) (d 1930 103 39)).1) 9
#guard match getFirstDwz 26 [(d 1300 23 17, WIN), (d 1540 2 29, DRAW), (d 1200 10 7, LOSS),
    (d 1290 76 55, WIN), (d 1400 103 11, WIN)] with
  | .ok p => near p.rating 1491 && p.index == 1 && p.age == 26
  | .error _ => false
end

/-! src/egf.rs tests -/
section
open Egf
def g (r : Float) : EGFRating Float := ⟨r⟩
def gc (h : Float) : EGFConfig Float := ⟨h⟩
#guard near (expectedScore (g 1000) (g 1300) (gc 0)).1 0.2732225596195188
#guard near (expectedScore (g 1000) (g 1300) (gc 1)).1 0.23947531043217862
#guard near (expectedScore (g 1000) (g 1300) (gc (-1))).1 0.30481324383684405
#guard rnd (egf (g 1000) (g 1300) WIN EGFConfig.new).1.rating 1039
#guard rnd (egf (g 1000) (g 1300) WIN EGFConfig.new).2.rating 1274
#guard rnd (egf (g 0) (g 0) LOSS EGFConfig.new).1.rating (-39)
#guard rnd (egf (g 0) (g 0) LOSS EGFConfig.new).2.rating 50
#guard near (egf (g 240) (g 240) WIN EGFConfig.new).1.rating 284.45757879256087
#guard near (egf (g 240) (g 240) WIN EGFConfig.new).2.rating 205.84242120744173
#guard rnd (egfRatingPeriod (g 0) [(g 20, WIN, gc 0), (g 40, DRAW, gc 0), (g 10, LOSS, gc 0),
  (g (-40), WIN, gc 0)]).rating 69
end

/-! src/fifa.rs tests -/
section
open Fifa
def f (r : Float) : FifaRating Float := ⟨r⟩
def fc (i : Float) (k p : Bool) : FifaConfig Float := ⟨i, k, p⟩
#guard rnd (fifa (f 1300) (f 1500) WIN (fc 25 false false)).1.rating 1317
#guard rnd (fifa (f 1300) (f 1500) WIN (fc 25 false false)).2.rating 1483
#guard rnd (fifaRatingPeriod (FifaRating.new) [(FifaRating.new, WIN, FifaConfig.new),
  (f 1600, DRAW, FifaConfig.new), (f 890, LOSS, fc 60 true true),
  (f 1300, WIN, fc 25 true true)]).rating 1022
#guard near (fifa (f 240) (f 240) WIN FifaConfig.new).1.rating 245
end

/-! src/ingo.rs tests -/
section
open Ingo
def i (r : Float) (a : Nat) : IngoRating Float := { rating := r, age := a }
#guard rnd (ingo (i 130 40) (i 160 40) WIN).1.rating 129
#guard rnd (ingo (i 130 40) (i 160 40) WIN).2.rating 161
#guard rnd (ingo (i 130 40) (i 160 40) LOSS).1.rating 134
#guard rnd (ingo (i 230 7) (i 109 78) DRAW).1.rating 219
#guard rnd (ingo (i 230 7) (i 109 78) DRAW).2.rating 115
#guard rnd (ingoRatingPeriod (i 130 22) [(i 160 40, WIN), (i 160 40, DRAW), (i 55 22, WIN),
  (i 90 40, LOSS)]).rating 124
#guard near (ingo (i 240 26) (i 240 26) WIN).1.rating 237.61904761904762
end

/-! src/glicko.rs tests -/
section
open Glicko
def gl (r d : Float) : GlickoRating Float := ⟨r, d⟩
#guard
  let c : GlickoConfig Float := GlickoConfig.new
  let p := (glicko (gl 1500 200) (gl 1400 30) WIN c).1
  let p := (glicko p (gl 1550 100) LOSS c).1
  let p := (glicko p (gl 1700 300) LOSS c).1
  rnd p.rating 1449 && near p.deviation 171.68447214128557
#guard
  let p := glickoRatingPeriod (gl 1500 189.75183793576284)
    [(gl 1400 30, WIN), (gl 1550 100, LOSS), (gl 1700 300, LOSS)] GlickoConfig.new
  rnd p.rating 1464 && near p.deviation 151.39890244796933
#guard near (decayDeviation (gl 1500 50) GlickoConfig.new).deviation 80.58684756211773
#guard near (expectedScore (gl 1400 40) (gl 1500 150)).1 0.373700405951935
#guard near (glicko (gl 240 90) (gl 240 90) WIN GlickoConfig.new).1.rating 270.6336749577319
#guard rnd (glicko GlickoRating.new (gl 2230 41) DRAW GlickoConfig.new).2.deviation 75
end

/-! src/glicko2.rs tests -/
section
open Glicko2
def g2 (r d v : Float) : Glicko2Rating Float := ⟨r, d, v⟩
#guard
  match glicko2 (g2 1520 350 0.06) (g2 1420 350 0.06) WIN Glicko2Config.new with
  | some (a, b) => rnd a.rating 1653 && rnd a.deviation 292 && rnd b.rating 1287
      && rnd b.deviation 292
  | none => false
#guard
  match glicko2 (g2 1600 350 0.06) (g2 1500 50 0.06) DRAW Glicko2Config.new with
  | some (a, b) => rnd a.rating 1550 && rnd a.deviation 253 && rnd b.rating 1501
      && rnd b.deviation 51
  | none => false
#guard
  match glicko2RatingPeriod (g2 1500 200 0.06)
      [(g2 1400 30 0.06, WIN), (g2 1550 100 0.06, LOSS), (g2 1700 300 0.06, LOSS)]
      Glicko2Config.new with
  | some p => rnd p.rating 1464 && rnd (p.deviation * 100) 15152
      && near p.volatility 0.059995984286488495
  | none => false
#guard rnd (100 * (expectedScore (g2 2000 50 0.06) (g2 1780 150 0.06)).1) 76
#guard rnd (decayDeviation (g2 1250 95 0.06)).deviation 96
end

/-! src/glicko_boost.rs tests -/
section
open GlickoBoost
def gb (r d : Float) : GlickoBoostRating Float := ⟨r, d⟩
#guard
  let (a, b) := glickoBoost (gb 1500 200) (gb 1620 105) WIN GlickoBoostConfig.new
  rnd a.rating 1606 && rnd b.rating 1589 && near a.deviation 177.63463077556548
    && near b.deviation 103.51139458933977
#guard near (boostRd 3.6720287774019216 98.6 GlickoBoostConfig.new) 150.09584788242393
#guard
  let c : GlickoBoostConfig Float := { eta := 0, k := 0, b := (0, 0), alpha := ⟨0, 0, 0, 0, 0⟩ }
  let p := glickoBoostRatingPeriod (gb 1500 200)
    [(gb 1400 30, WIN, true), (gb 1550 100, LOSS, true), (gb 1700 300, LOSS, true)] c
  rnd p.rating 1464 && near p.deviation 151.40220494579904
#guard near (decayDeviation (gb 1302.2 62) GlickoBoostConfig.new).deviation 64.66944420347588
#guard near (expectedScore (gb 1400 40) (gb 1500 150) GlickoBoostConfig.new).1 0.4106056805909471
end

/-! src/sticko.rs tests -/
section
open Sticko
def st (r d : Float) : StickoRating Float := ⟨r, d⟩
def stz : StickoConfig Float := ⟨0, 0, 0, 0, 0⟩
#guard
  let p := (sticko (st 1500 200) (st 1400 30) WIN stz).1
  let p := (sticko p (st 1550 100) LOSS stz).1
  let p := (sticko p (st 1700 300) LOSS stz).1
  rnd p.rating 1464 && near p.deviation 151.2537434317832
#guard near (stickoRatingPeriod (st 1500 200)
    [(st 1400 30, WIN, true), (st 1550 100, LOSS, true), (st 1700 300, LOSS, true)] stz).deviation
    151.39890244796933
#guard
  let (a, b) := sticko (st 2330 200) (st 1800 20) DRAW StickoConfig.new
  rnd a.rating 2220 && rnd a.deviation 195 && rnd b.rating 1812 && rnd b.deviation 23
#guard near (expectedScore (st 1400 40) (st 1500 150) { StickoConfig.new with gamma := 30 }).1
  0.4106056805909471
end

/-! src/uscf.rs tests -/
section
open Uscf
def u (r : Float) (n : Nat) : USCFRating Float := ⟨r, n⟩
#guard near (effectiveGameNumber (1700 : Float) 30) 20.01178674737454
#guard near (effectiveGameNumber (2356 : Float) 51) 50
#guard
  let ne := effectiveGameNumber (1300 : Float) 45
  let k := 800 / (ne + 4)
  let e := Flt.sum ([1250, 1400, 1500, 1550].map (eValue (1300 : Float)))
  near (getBoostValue 4 k e 3.5 12) 70.40244413085996
#guard near (expectedScore (u 1300 30) (u 1250 30)).1 0.5714631174083814
#guard
  let p := uscfRatingPeriod (u 1500 6) [(u 1400 10, WIN), (u 1550 10, LOSS), (u 1650 10, DRAW)]
    USCFConfig.new
  near p.rating 1511.111111111111 && p.games == 9
#guard
  let p := uscfRatingPeriod (u 1300 45)
    [(u 1250 10, WIN), (u 1400 10, DRAW), (u 1500 10, WIN), (u 1550 10, WIN)] { t := 12 }
  near p.rating 1464.80488826172 && p.games == 49
#guard near (uscf (u 1300 32) (u 1200 32) WIN USCFConfig.new).1.rating 1319.0607266129887
end

/-! src/weng_lin.rs tests -/
section
open WengLin
def w (r d : Float) : WengLinRating Float := ⟨r, d⟩
#guard near (wengLin WengLinRating.new WengLinRating.new WIN WengLinConfig.new).1.rating
  (27.63523138347365 : Float)
#guard
  let (a, b) := wengLin (w 42 1.3) WengLinRating.new WIN WengLinConfig.new
  near a.rating 42.026412401802894 && near a.uncertainty 1.2998230532770783
    && near b.rating 23.91467776944046 && near b.uncertainty 8.029022445649298
def wt1 : List (WengLinRating Float) := [WengLinRating.new, w 30 1.2, w 21 6.5]
def wt2 : List (WengLinRating Float) := [WengLinRating.new, w 41 1.4, w 19.2 4.3]
#guard
  let (a, b) := wengLinTwoTeams wt1 wt2 WIN WengLinConfig.new
  (a.zip [27.90444397005724, 30.060226550163108, 22.767063711382825]).all
    (fun x => near x.1.rating x.2)
  && (b.zip [8.160155338979159, 1.3991871499753654, 4.276389807576043]).all
    (fun x => near x.1.uncertainty x.2)
#guard
  match wengLinMultiTeam [(wt1, ⟨1⟩), (wt2, ⟨1⟩)] WengLinConfig.new with
  | [a, b] => (a.zip [25.652558832338293, 30.013531459947366, 21.39701679359462]).all
      (fun x => near x.1.rating x.2)
    && (b.zip [24.347441167661707, 40.98158217951608, 19.026252295536935]).all
      (fun x => near x.1.rating x.2)
  | _ => false
end

/-! src/trueskill tests -/
section
open TrueSkill
def t (r d : Float) : TrueSkillRating Float := ⟨r, d⟩
#guard near (erfc (0.5 : Float)) 0.479500 1e-6
#guard near (inverseErfc (0.5 : Float)) 0.476936 1e-6
#guard near (cdf (5.5 : Float) 12 5) 0.096800 1e-6
#guard near (inverseCdf (0.055 : Float) 12 5) 4.009034 1e-6
#guard near (pdf (2.5 : Float) 0 1) 0.017528 1e-6
#guard
  let (a, b) := trueskill TrueSkillRating.new (t 30 1.2) WIN TrueSkillConfig.new
  rnd (a.rating * 100) 3300 && rnd (a.uncertainty * 100) 597 && rnd (b.rating * 100) 2983
    && rnd (b.uncertainty * 100) 120
#guard
  let (a, b) := trueskill TrueSkillRating.new (t 30 1.2) DRAW TrueSkillConfig.new
  near a.rating 28.282523394245658 && rnd (a.uncertainty * 100) 488
    && near b.rating 29.931612181339364 && rnd (b.uncertainty * 100) 119
#guard
  let p := trueskillRatingPeriod TrueSkillRating.new
    [(t 30 1.2, WIN), (t 12 1.9, DRAW), (t 49 1.2, LOSS)] TrueSkillConfig.new
  rnd (p.rating * 100) 2291 && rnd (p.uncertainty * 100) 430
#guard
  let (a, b) := trueskillTwoTeams [t 20 8, t 25 6] [t 35 7, t 40 5] WIN TrueSkillConfig.new
  (a.zip [29.698800676796665, 30.45603575015631]).all (fun x => near x.1.rating x.2)
  && (b.zip [6.34625027923062, 4.767945180134836]).all (fun x => near x.1.uncertainty x.2)
#guard near (matchQualityTwoTeams [t 20 8, t 25 6] [t 35 7, t 40 5] TrueSkillConfig.new)
  0.08410814541834324
#guard rnd (1000 * matchQuality TrueSkillRating.new TrueSkillRating.new TrueSkillConfig.new)
  (447 : Float)
#guard near (expectedScoreTwoTeams [t 38 3, t 38 3] [t 44 3, t 44 3] TrueSkillConfig.new).1
  0.1212805175474827
#guard
  match matchQualityMultiTeam [[TrueSkillRating.new, TrueSkillRating.new], [t 30 3, t 30 3],
      [t 40 2, t 40 2]] TrueSkillConfig.new none with
  | .ok (.ok q) => near q 0.01753834922394127
  | _ => false
#guard
  match matchQualityMultiTeam [[TrueSkillRating.new, TrueSkillRating.new],
      [t 30 3, t 30 3, t 30 3], [t 40 2, t 40 2]] TrueSkillConfig.new
      (some [[1.0, 0.8], [1.0, 0.1, 0.222], [0.12, 0.99]]) with
  | .ok (.ok q) => near q 0.32589930541219614
  | _ => false
#guard (expectedScoreMultiTeam [[t 38 3, t 38 3], [t 44 3, t 44 3], [t 50 3, t 50 3]]
  TrueSkillConfig.new).zip [0.058904655169257615, 0.3333333333333333, 0.607762011497409]
  |>.all fun x => near x.1 x.2
#guard
  match trueskillMultiTeam [([t 24 2], ⟨1⟩), ([t 24 2], ⟨2⟩)] TrueSkillConfig.new none with
  | .ok (.ok [[a], [b]]) => near a.rating 24.53409125616139 && near b.rating 23.465908743838607
  | _ => false
#guard
  match trueskillMultiTeam [([t 40 4, t 45 3], ⟨0⟩), ([t 20 7, t 19 6, t 30 9, t 10 4], ⟨1⟩),
      ([t 50 5, t 30 2], ⟨1⟩)] TrueSkillConfig.new none with
  | .ok (.ok [a, b, c]) =>
    ((a ++ b ++ c).zip [40.876849177315655, 45.49339409239845, 19.60865092084523,
      18.71246351489054, 29.353112227810637, 9.872175198037164, 48.82983220145531,
      29.812500188902998]).all (fun x => near x.1.rating x.2 1e-10)
    && ((a ++ b ++ c).zip [3.8395275893553698, 2.933671613522051, 6.396044310523896,
      5.624556429622889, 7.673456361986593, 3.8914084259945203, 4.590018525151379,
      1.976314792712798]).all (fun x => near x.1.uncertainty x.2 1e-10)
  | _ => false
end

end Skillratings.FloatCheck
