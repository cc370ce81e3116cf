import Verif.Proofs.FPBoostCore
/-
C133: Glicko-Boost in double precision stays close to exact arithmetic.

The boost is switched on when the standardised performance exceeds a threshold `k`, so the exact update
jumps there.  When the performance is within `2 ^ -30` of the threshold, the computed result is close to
the exact result for a threshold moved by at most `2 ^ -30`; otherwise the threshold is not moved.
-/

namespace Skillratings
open FP FPVal Spec
variable {E : FloatEnv}

/-- The same player in exact arithmetic. -/
noncomputable def boostExact (a : GlickoBoost.GlickoBoostRating (FP E)) : GlickoBoost.GlickoBoostRating ℝ :=
  ⟨a.rating.toR, a.deviation.toR⟩

/-- The threshold `k` may be replaced by `k'` for a performance `z`: the two agree up to `2 ^ -30`, a
disabled boost stays disabled, and they are equal unless the performance is at the threshold. -/
def Spec.ThresholdNear (k k' z : ℝ) : Prop :=
  |k' - k| ≤ 1 / 2 ^ 30 ∧ (k = 0 → k' = 0) ∧ (1 / 2 ^ 30 < |z - k| → k' = k)

/-- The new rating of a period. -/
theorem boost_rating (L : E.Lib) (P : E.Precise) {nd m r : FP E} {δ M n : ℝ} (n1 : 1 ≤ n) (n2 : n ≤ 64)
    (hd : Ap 990000 90 nd δ) (hδ : δ ≤ 350) (hm : Near (n * (1224 / 2 ^ 50)) m M) (hM : |M| ≤ n)
    (hr : Within (2 ^ 13) r) :
    Near (n * (3 / 2 / 2 ^ 20)) (Flt.mulAdd (Flt.powi nd 2 * (Flt.ln (10.0 : FP E) / (400.0 : FP E))) m r)
      (r.toR + glickoQ * δ ^ 2 * M) ∧ |r.toR + glickoQ * δ ^ 2 * M| ≤ 53400 := by
  have δ0 := hd.2.pos
  have w := (hd.sq L (by norm_num) (by norm_num)).mul (q_ap P) (by norm_num) (by norm_num) (by norm_num)
  have S0 := w.2.pos
  have hq := glickoQ_lt
  have hq0 := glickoQ_pos
  have hd2 : δ ^ 2 ≤ 122500 := by nlinarith
  have S1 : δ ^ 2 * glickoQ ≤ 706 := by nlinarith
  set S := δ ^ 2 * glickoQ with hS
  have k1 : Near (1400000000 / 2 ^ 50) (Flt.powi nd 2 * (Flt.ln (10.0 : FP E) / (400.0 : FP E))) S :=
    (w.1.near S0.le).mono ((mul_le_mul_of_nonneg_left S1 (by norm_num)).trans (by norm_num))
  have r2 := hr.2
  have hSM : |S * M| ≤ 706 * n := by
    rw [abs_mul, abs_of_pos S0]; exact mul_le_mul S1 hM (abs_nonneg _) (by norm_num)
  have hsum : |S * M + r.toR| ≤ 706 * n + 2 ^ 13 := (abs_add_le _ _).trans (add_le_add hSM r2)
  have b1 : 1400000000 / 2 ^ 50 * |M| ≤ 1400000000 / 2 ^ 50 * n := mul_le_mul_of_nonneg_left hM (by norm_num)
  have b2 : S * (n * (1224 / 2 ^ 50)) ≤ 706 * (n * (1224 / 2 ^ 50)) := mul_le_mul_of_nonneg_right S1 (by positivity)
  rw [show r.toR + glickoQ * δ ^ 2 * M = S * M + r.toR by rw [hS]; ring]
  refine ⟨(near_mulAdd k1 hm hr.near (M := 2 ^ 16) ?_ (by norm_num) (le_huge 16 (by norm_num) (by norm_num))).mono ?_, ?_⟩
  · rw [abs_of_pos S0]
    generalize |S * M + r.toR| = x at *
    norm_num at hsum b1 b2 ⊢; linarith
  · rw [abs_of_pos S0]
    norm_num at b1 b2 ⊢; linarith
  · norm_num at hsum ⊢; linarith

/-- The new rating of a game. -/
theorem boost_rating_game (L : E.Lib) (P : E.Precise) {nd g t r : FP E} {δ G T : ℝ}
    (hd : Ap 990000 90 nd δ) (hδ : δ ≤ 350) (hg : Ap 15 60 g G) (hG : G ≤ 1) (ht : Near (177 / 2 ^ 50) t T)
    (hT : |T| ≤ 1) (hr : Within (2 ^ 13) r) :
    Near (1 * (3 / 2 / 2 ^ 20)) (Flt.mulAdd (Flt.powi nd 2 * (Flt.ln (10.0 : FP E) / (400.0 : FP E)) * g) t r)
      (r.toR + glickoQ * δ ^ 2 * (G * T)) ∧ |r.toR + glickoQ * δ ^ 2 * (G * T)| ≤ 53400 := by
  have δ0 := hd.2.pos
  have w := ((hd.sq L (by norm_num) (by norm_num)).mul (q_ap P) (by norm_num) (by norm_num) (by norm_num)).mul hg
    (by norm_num) (by norm_num) (by norm_num)
  have S0 := w.2.pos
  have hq := glickoQ_lt
  have hq0 := glickoQ_pos
  have hd2 : δ ^ 2 ≤ 122500 := by nlinarith
  have S1 : δ ^ 2 * glickoQ * G ≤ 706 := by
    have h1 : δ ^ 2 * glickoQ ≤ 706 := by nlinarith
    exact (mul_le_of_le_one_right (by positivity) hG).trans h1
  set S := δ ^ 2 * glickoQ * G with hS
  have k1 : Near (1400000000 / 2 ^ 50) (Flt.powi nd 2 * (Flt.ln (10.0 : FP E) / (400.0 : FP E)) * g) S :=
    (w.1.near S0.le).mono ((mul_le_mul_of_nonneg_left S1 (by norm_num)).trans (by norm_num))
  have r2 := hr.2
  have hST : |S * T| ≤ 706 * 1 := by
    rw [abs_mul, abs_of_pos S0]; exact mul_le_mul S1 hT (abs_nonneg _) (by norm_num)
  have hsum : |S * T + r.toR| ≤ 706 * 1 + 2 ^ 13 := (abs_add_le _ _).trans (add_le_add hST r2)
  have b1 : 1400000000 / 2 ^ 50 * |T| ≤ 1400000000 / 2 ^ 50 * 1 := mul_le_mul_of_nonneg_left hT (by norm_num)
  have b2 : S * (177 / 2 ^ 50) ≤ 706 * (177 / 2 ^ 50) := mul_le_mul_of_nonneg_right S1 (by positivity)
  rw [show r.toR + glickoQ * δ ^ 2 * (G * T) = S * T + r.toR by rw [hS]; ring]
  refine ⟨(near_mulAdd k1 ht hr.near (M := 2 ^ 14) ?_ (by norm_num) (le_huge 16 (by norm_num) (by norm_num))).mono ?_, ?_⟩
  · rw [abs_of_pos S0]
    generalize |S * T + r.toR| = x at *
    norm_num at hsum b1 b2 ⊢; linarith
  · rw [abs_of_pos S0]
    norm_num at b1 b2 ⊢; linarith
  · norm_num at hsum ⊢; linarith

/-- The update from the information and the standardised performance. -/
theorem boost_core (L : E.Lib) (A : E.Accurate) {r old w z : FP E} {xs : List StickoGame} {n : ℝ}
    {c : GlickoBoost.GlickoBoostConfig (FP E)} {newR : FP E → FP E} (n1 : 1 ≤ n) (n2 : n ≤ 64)
    (ho : Between (1 / 2 ^ 10) 350 old) (hc : BoostConfigUsual c)
    (hw : Ap 18200 28 w (boostInfo (GlickoBoost.params (boostExactConfig c)) r.toR xs)) (hz : z.isFinite)
    (hzZ : |z.toR - boostZ (GlickoBoost.params (boostExactConfig c)) r.toR xs|
      ≤ (18200 * |boostZ (GlickoBoost.params (boostExactConfig c)) r.toR xs| + 160000) / 2 ^ 50)
    (hZ : |boostZ (GlickoBoost.params (boostExactConfig c)) r.toR xs| ≤ 123)
    (hnew : ∀ (nd : FP E) (δ : ℝ), Ap 990000 90 nd δ → δ ≤ 350 →
      Near (n * (3 / 2 / 2 ^ 20)) (newR nd) (r.toR + glickoQ * δ ^ 2
        * (xs.map (boostDelta (GlickoBoost.params (boostExactConfig c)) r.toR)).sum) ∧
      |r.toR + glickoQ * δ ^ 2 * (xs.map (boostDelta (GlickoBoost.params (boostExactConfig c)) r.toR)).sum| ≤ 53400) :
    ∃ k' : ℝ, ThresholdNear c.k.toR k' (boostZ (GlickoBoost.params (boostExactConfig c)) r.toR xs) ∧
      (let nd := GlickoBoost.newDeviation old (Flt.recip w) z c
       let u := GlickoBoost.updated (GlickoBoost.params (boostExactAt c k')) r.toR old.toR xs
       Near (n / 2 ^ 19) (newR nd) u.rating ∧
       Near (1 / 2 ^ 14) (GlickoBoost.endDeviation nd (newR nd) c) u.deviation) := by
  obtain ⟨k', h1, h2, h3, h4⟩ := boost_deviation L ho hw hz hzZ hZ hc
  refine ⟨k', ⟨h1, h2, h3⟩, ?_⟩
  intro nd u
  change Ap 990000 90 nd (boostRd1 (GlickoBoost.params (boostExactAt c k')) r.toR old.toR xs) at h4
  set δ := boostRd1 (GlickoBoost.params (boostExactAt c k')) r.toR old.toR xs with hδ
  have hδ1 : δ ≤ 350 := min_le_right _ _
  obtain ⟨r1, r2⟩ := hnew nd δ h4 hδ1
  change Near _ (newR nd) (boostRating (GlickoBoost.params (boostExactAt c k')) r.toR old.toR xs) at r1
  change |boostRating (GlickoBoost.params (boostExactAt c k')) r.toR old.toR xs| ≤ 53400 at r2
  refine ⟨r1.mono (by norm_num; linarith), ?_⟩
  refine (boost_end_near L A hc h4 hδ1 le_rfl r1 r2 (by norm_num; linarith) (τ := 2 ^ 26) (by norm_num) le_rfl (by
    norm_num; linarith)).mono (by norm_num)

theorem boost_half (L : E.Lib) (A : E.Accurate) (P : E.Precise) {a b : GlickoBoost.GlickoBoostRating (FP E)}
    {c : GlickoBoost.GlickoBoostConfig (FP E)} {col s : FP E} {f : Bool} {v : ℝ} (ha : BoostUsual a)
    (hb : BoostUsual b) (hc : BoostConfigUsual c) (hcol : Near 0 col (colour f)) (hs : Near 0 s v)
    (hv : 0 ≤ v ∧ v ≤ 1) (hD : |a.rating.toR + c.eta.toR * colour f - b.rating.toR| ≤ 800) :
    let q : FP E := Flt.ln (10.0 : FP E) / (400.0 : FP E)
    let g := GlickoBoost.gValue q b.deviation
    let e := GlickoBoost.eValue g a.rating b.rating c.eta col
    let xs : List StickoGame := [⟨b.rating.toR, b.deviation.toR, v, f⟩]
    let nd := GlickoBoost.newDeviation a.deviation (GlickoBoost.dValue q g e) (GlickoBoost.zValue g e s) c
    let nr := GlickoBoost.newRating a.rating nd s q g e
    ∃ k' : ℝ, ThresholdNear c.k.toR k' (boostZ (GlickoBoost.params (boostExactConfig c)) a.rating.toR xs) ∧
      Near (1 / 2 ^ 19) nr
        (GlickoBoost.updated (GlickoBoost.params (boostExactAt c k')) a.rating.toR a.deviation.toR xs).rating ∧
      Near (1 / 2 ^ 14) (GlickoBoost.endDeviation nd nr c)
        (GlickoBoost.updated (GlickoBoost.params (boostExactAt c k')) a.rating.toR a.deviation.toR xs).deviation := by
  intro q g e xs nd nr
  have hκ : |colour f| = 1 := by cases f <;> simp [colour]
  obtain ⟨h1, h2, h3, h4, h5⟩ := boost_parts L A P ha.1 hb hc.eta hcol hκ hD
  obtain ⟨v1, v2, v3⟩ := boost_var L A P ha.1 hb hc.eta hcol hκ hD
  obtain ⟨⟨d1, d2⟩, d3, d4⟩ := boost_delta L A P ha.1 hb hc.eta hcol hκ hD hs hv
  have g01 := glickoG01 b.deviation.toR
  set p := glickoE (a.rating.toR + c.eta.toR * colour f) b.rating.toR b.deviation.toR with hp
  have eV : (xs.map (boostVar (GlickoBoost.params (boostExactConfig c)) a.rating.toR)).sum
      = glickoG b.deviation.toR ^ 2 * p * (1 - p) := by
    simp [xs, boostVar, boostE, GlickoBoost.params, boostExactConfig, hp]
  have eD : (xs.map (boostDelta (GlickoBoost.params (boostExactConfig c)) a.rating.toR)).sum
      = glickoG b.deviation.toR * (v - p) := by
    simp [xs, boostDelta, boostE, GlickoBoost.params, boostExactConfig, hp]
  obtain ⟨z1, z2, z3⟩ := boost_z (n := 1) le_rfl (by norm_num) (d3.mono (by norm_num)) d4 (v1.1.mono (by norm_num))
    (by linarith) v3
  have w : Ap 18200 28 (Flt.powi q 2 * Flt.powi g 2 * e * ((1.0 : FP E) - e))
      (glickoQ ^ 2 * (glickoG b.deviation.toR ^ 2 * p * (1 - p))) := by
    have w1 := ((((Ap.sq L (q_ap P) (by norm_num) (by norm_num)).mul (h1.sq L (by norm_num) (by norm_num))
      (by norm_num) (by norm_num) (by norm_num)).mul h2 (by norm_num) (by norm_num) (by norm_num))).mul h3
      (by norm_num) (by norm_num) (by norm_num)
    refine ⟨?_, ((q_ap (E := E) P).2.sq.mul v1.2)⟩
    rw [show glickoQ ^ 2 * (glickoG b.deviation.toR ^ 2 * p * (1 - p))
      = glickoQ ^ 2 * glickoG b.deviation.toR ^ 2 * p * (1 - p) by ring]
    exact w1.1.mono (by norm_num)
  have hd : GlickoBoost.dValue q g e = Flt.recip (Flt.powi q 2 * Flt.powi g 2 * e * ((1.0 : FP E) - e)) :=
    powi_neg_one' L _
  have := boost_core L A (r := a.rating) (old := a.deviation) (xs := xs) (n := 1) (c := c)
    (z := GlickoBoost.zValue g e s) (w := Flt.powi q 2 * Flt.powi g 2 * e * ((1.0 : FP E) - e))
    (newR := fun d => GlickoBoost.newRating a.rating d s q g e) le_rfl (by norm_num) ha.2 hc
    (by rw [boostInfo, eV]; exact w) z1 (by rw [boostZ, eV, eD]; exact z2) (by rw [boostZ, eV, eD]; exact z3)
    (by
      intro d δ hd1 hd2
      rw [eD]
      exact boost_rating_game L P hd1 hd2 h1 g01.2 d1 d2 ha.1)
  rw [← hd] at this
  exact this

/-- Glicko-Boost, one game between players whose ratings, including the advantage, are at most 800 points
apart: the new ratings are within `2 ^ -19` and the new deviations within `2 ^ -14` of the exact formulas
applied to the same players and parameters, up to a threshold moved by at most `2 ^ -30` for a performance
at the threshold. -/
theorem C133_boost_game (L : E.Lib) (A : E.Accurate) (P : E.Precise)
    (a b : GlickoBoost.GlickoBoostRating (FP E)) (o : Outcomes) (c : GlickoBoost.GlickoBoostConfig (FP E))
    (ha : BoostUsual a) (hb : BoostUsual b) (hc : BoostConfigUsual c)
    (hD : |a.rating.toR + c.eta.toR - b.rating.toR| ≤ 800) :
    let x := GlickoBoost.glickoBoost a b o c
    let y := fun k => GlickoBoost.glickoBoost (boostExact a) (boostExact b) o (boostExactAt c k)
    let Q := GlickoBoost.params (boostExactConfig c)
    (∃ k1, ThresholdNear c.k.toR k1
        (boostZ Q a.rating.toR [⟨b.rating.toR, b.deviation.toR, points o, true⟩]) ∧
      Near (1 / 2 ^ 19) x.1.rating (y k1).1.rating ∧ Near (1 / 2 ^ 14) x.1.deviation (y k1).1.deviation) ∧
    (∃ k2, ThresholdNear c.k.toR k2
        (boostZ Q b.rating.toR [⟨a.rating.toR, a.deviation.toR, 1 - points o, false⟩]) ∧
      Near (1 / 2 ^ 19) x.2.rating (y k2).2.rating ∧ Near (1 / 2 ^ 14) x.2.deviation (y k2).2.deviation) := by
  intro x y Q
  have hs1 := near_of_in (points_in (E := E) o)
  have hs2 := near_of_in (points_in' (E := E) o)
  rw [pointsR_eq] at hs1 hs2
  have c1 := (colour_near (E := E) true).1
  have c2 := (colour_near (E := E) false).1
  simp only [if_true, Bool.false_eq_true, if_false] at c1 c2
  have D1 : |a.rating.toR + c.eta.toR * colour true - b.rating.toR| ≤ 800 := by simpa [colour] using hD
  have D2 : |b.rating.toR + c.eta.toR * colour false - a.rating.toR| ≤ 800 := by
    rw [abs_sub_comm] at hD
    refine le_trans (le_of_eq ?_) hD
    congr 1
    simp [colour]; ring
  obtain ⟨k1, t1, n1, n2⟩ := boost_half L A P ha hb hc c1 hs1 ⟨points_nonneg o, points_le_one o⟩ D1
  obtain ⟨k2, t2, m1, m2⟩ := boost_half L A P hb ha hc c2 hs2
    ⟨by linarith [points_le_one o], by linarith [points_nonneg o]⟩ D2
  refine ⟨⟨k1, t1, ?_⟩, ⟨k2, t2, ?_⟩⟩
  · have e : y k1 = _ := GlickoBoost.glickoBoost_real _ _ _ _
    rw [e]
    exact ⟨n1, n2⟩
  · have e : y k2 = _ := GlickoBoost.glickoBoost_real _ _ _ _
    rw [e]
    simp only [GlickoBoost.game, points_mirror]
    exact ⟨m1, m2⟩

/-- Glicko-Boost, a rating period of at most 64 games against opponents at most 800 points away: the new
rating is within `n / 2 ^ 19` and the new deviation within `2 ^ -14` of the exact formulas, up to a threshold
moved by at most `2 ^ -30` for a performance at the threshold. -/
theorem C133_boost_period (L : E.Lib) (A : E.Accurate) (P : E.Precise)
    (p : GlickoBoost.GlickoBoostRating (FP E)) (rs : List (GlickoBoost.GlickoBoostRating (FP E) × Outcomes × Bool))
    (c : GlickoBoost.GlickoBoostConfig (FP E)) (hp : BoostUsual p) (hr : ∀ r ∈ rs, BoostUsual r.1)
    (hD : ∀ r ∈ rs, |p.rating.toR + c.eta.toR * colour r.2.2 - r.1.rating.toR| ≤ 800)
    (hc : BoostConfigUsual c) (hn : rs.length ≤ 64) (hne : rs ≠ []) :
    let x := GlickoBoost.glickoBoostRatingPeriod p rs c
    let y := fun k => GlickoBoost.glickoBoostRatingPeriod (boostExact p) (rs.map fun r => (boostExact r.1, r.2))
      (boostExactAt c k)
    ∃ k', ThresholdNear c.k.toR k' (boostZ (GlickoBoost.params (boostExactConfig c)) p.rating.toR
        (rs.map fun r => ⟨r.1.rating.toR, r.1.deviation.toR, points r.2.1, r.2.2⟩)) ∧
      Near (rs.length / 2 ^ 19) x.rating (y k').rating ∧ Near (1 / 2 ^ 14) x.deviation (y k').deviation := by
  intro x y
  have he : rs.isEmpty = false := by simpa [List.isEmpty_iff] using hne
  have hn1 : (1 : ℝ) ≤ rs.length := by
    exact_mod_cast Nat.one_le_iff_ne_zero.2 (by simpa using hne)
  have hn2 : (rs.length : ℝ) ≤ 64 := by exact_mod_cast hn
  set q : FP E := Flt.ln (10.0 : FP E) / (400.0 : FP E) with hq
  set xs : List StickoGame := rs.map fun r => ⟨r.1.rating.toR, r.1.deviation.toR, points r.2.1, r.2.2⟩ with hxs
  set Q := GlickoBoost.params (boostExactConfig c) with hQ
  -- the sums
  have V := fun r (h : r ∈ rs) => boost_var L A P hp.1 (hr r h) hc.eta (colour_near (E := E) r.2.2).1
    (colour_near (E := E) r.2.2).2 (hD r h)
  have D := fun r (h : r ∈ rs) => boost_delta L A P hp.1 (hr r h) hc.eta (colour_near (E := E) r.2.2).1
    (colour_near (E := E) r.2.2).2 (hD r h) (pointsR_eq r.2.1 ▸ near_of_in (points_in (E := E) r.2.1))
    ⟨points_nonneg r.2.1, points_le_one r.2.1⟩
  have eV : (xs.map (boostVar Q p.rating.toR)).sum = (rs.map fun r => glickoG r.1.deviation.toR ^ 2
      * glickoE (p.rating.toR + c.eta.toR * colour r.2.2) r.1.rating.toR r.1.deviation.toR
      * (1 - glickoE (p.rating.toR + c.eta.toR * colour r.2.2) r.1.rating.toR r.1.deviation.toR)).sum := by
    rw [hxs, List.map_map]; rfl
  have eD : (xs.map (boostDelta Q p.rating.toR)).sum = (rs.map fun r => glickoG r.1.deviation.toR
      * (points r.2.1 - glickoE (p.rating.toR + c.eta.toR * colour r.2.2) r.1.rating.toR r.1.deviation.toR)).sum := by
    rw [hxs, List.map_map]; rfl
  have s1 := rel_sum_pos rs
    (fun r => Flt.powi (GlickoBoost.gValue q r.1.deviation) 2
      * GlickoBoost.eValue (GlickoBoost.gValue q r.1.deviation) p.rating r.1.rating c.eta (if r.2.2 then 1.0 else -1.0)
      * ((1.0 : FP E) - GlickoBoost.eValue (GlickoBoost.gValue q r.1.deviation) p.rating r.1.rating c.eta
        (if r.2.2 then 1.0 else -1.0)))
    (fun r => glickoG r.1.deviation.toR ^ 2
      * glickoE (p.rating.toR + c.eta.toR * colour r.2.2) r.1.rating.toR r.1.deviation.toR
      * (1 - glickoE (p.rating.toR + c.eta.toR * colour r.2.2) r.1.rating.toR r.1.deviation.toR))
    hne (by norm_num; linarith) (by norm_num) (fun r h => (V r h).1)
  obtain ⟨m1, m2⟩ := near_sum rs
    (fun r => GlickoBoost.gValue q r.1.deviation * (r.2.1.toChessPoints
      - GlickoBoost.eValue (GlickoBoost.gValue q r.1.deviation) p.rating r.1.rating c.eta
        (if r.2.2 then 1.0 else -1.0)))
    (fun r => glickoG r.1.deviation.toR
      * (points r.2.1 - glickoE (p.rating.toR + c.eta.toR * colour r.2.2) r.1.rating.toR r.1.deviation.toR))
    (ε := 200 / 2 ^ 50) (by norm_num) (by norm_num) (by omega)
    (fun r h => ⟨(D r h).2.1, (D r h).2.2⟩)
  obtain ⟨l1, l2⟩ := sum_limits rs (fun r => glickoG r.1.deviation.toR ^ 2
      * glickoE (p.rating.toR + c.eta.toR * colour r.2.2) r.1.rating.toR r.1.deviation.toR
      * (1 - glickoE (p.rating.toR + c.eta.toR * colour r.2.2) r.1.rating.toR r.1.deviation.toR))
    (fun r h => ⟨(V r h).2.1, (V r h).2.2⟩)
  rw [← eV] at s1 l1 l2
  rw [← eD] at m1 m2
  set dSum := Flt.sum (rs.map fun r => Flt.powi (GlickoBoost.gValue q r.1.deviation) 2
      * GlickoBoost.eValue (GlickoBoost.gValue q r.1.deviation) p.rating r.1.rating c.eta (if r.2.2 then 1.0 else -1.0)
      * ((1.0 : FP E) - GlickoBoost.eValue (GlickoBoost.gValue q r.1.deviation) p.rating r.1.rating c.eta
        (if r.2.2 then 1.0 else -1.0))) with hdS
  set m := Flt.sum (rs.map fun r => GlickoBoost.gValue q r.1.deviation * (r.2.1.toChessPoints
      - GlickoBoost.eValue (GlickoBoost.gValue q r.1.deviation) p.rating r.1.rating c.eta
        (if r.2.2 then 1.0 else -1.0))) with hmS
  have m3 : Near (rs.length * (1224 / 2 ^ 50)) m (xs.map (boostDelta Q p.rating.toR)).sum :=
    m1.mono (mul_le_mul_of_nonneg_left (by norm_num) (by linarith))
  have s2 : Rel 18160 dSum (xs.map (boostVar Q p.rating.toR)).sum := s1.mono (by linarith)
  obtain ⟨z1, z2, z3⟩ := boost_z hn1 hn2 m3 m2 s2 l1 (by linarith)
  have w : Ap 18200 28 (Flt.powi q 2 * dSum) (boostInfo Q p.rating.toR xs) := by
    have hm : Mid 8 (xs.map (boostVar Q p.rating.toR)).sum := ⟨by norm_num; linarith, by norm_num; linarith⟩
    exact ((Ap.sq L (q_ap P) (by norm_num) (by norm_num)).mul (show Ap 18160 8 dSum _ from ⟨s2, hm⟩) (by norm_num)
      (by norm_num) (by norm_num)).mono (by norm_num) (by norm_num)
  obtain ⟨k', t, c1, c2⟩ := boost_core L A (r := p.rating) (old := p.deviation) (xs := xs) (n := rs.length) (c := c)
    (z := m / Flt.sqrt dSum) (w := Flt.powi q 2 * dSum)
    (newR := fun d => Flt.mulAdd (Flt.powi d 2 * q) m p.rating) hn1 hn2 hp.2 hc w z1 z2 z3
    (fun d δ hd1 hd2 => boost_rating L P hn1 hn2 hd1 hd2 m3 m2 hp.1)
  refine ⟨k', t, ?_⟩
  have ey : y k' = _ := GlickoBoost.period_real _ _ _ (by simpa using hne)
  have ex : x = ⟨Flt.mulAdd (Flt.powi (GlickoBoost.newDeviation p.deviation (Flt.recip (Flt.powi q 2 * dSum))
      (m / Flt.sqrt dSum) c) 2 * q) m p.rating, GlickoBoost.endDeviation
      (GlickoBoost.newDeviation p.deviation (Flt.recip (Flt.powi q 2 * dSum)) (m / Flt.sqrt dSum) c)
      (Flt.mulAdd (Flt.powi (GlickoBoost.newDeviation p.deviation (Flt.recip (Flt.powi q 2 * dSum))
      (m / Flt.sqrt dSum) c) 2 * q) m p.rating) c⟩ := by
    simp only [x, GlickoBoost.glickoBoostRatingPeriod, he, Bool.false_eq_true, if_false]
    rfl
  have exs : (rs.map fun r => (boostExact r.1, r.2)).map GlickoBoost.game = xs := by
    rw [List.map_map]; rfl
  rw [ey, exs, ex]
  exact ⟨c1, c2⟩

/-- Glicko-Boost, a period without games: the rating is unchanged and the new deviation is within `2 ^ -30` of
the exact formula. -/
theorem C133_boost_decay (L : E.Lib) (A : E.Accurate) (p : GlickoBoost.GlickoBoostRating (FP E))
    (c : GlickoBoost.GlickoBoostConfig (FP E)) (hp : BoostUsual p) (hc : BoostConfigUsual c) :
    (GlickoBoost.decayDeviation p c).rating = p.rating ∧
    (GlickoBoost.glickoBoostRatingPeriod p [] c).rating = p.rating ∧
    Near (1 / 2 ^ 30) (GlickoBoost.decayDeviation p c).deviation
      (GlickoBoost.decayDeviation (boostExact p) (boostExactConfig c)).deviation ∧
    Near (1 / 2 ^ 30) (GlickoBoost.glickoBoostRatingPeriod p [] c).deviation
      (GlickoBoost.glickoBoostRatingPeriod (boostExact p) [] (boostExactConfig c)).deviation := by
  have key : Near (1 / 2 ^ 30) (GlickoBoost.decayDeviation p c).deviation
      (GlickoBoost.decayDeviation (boostExact p) (boostExactConfig c)).deviation := by
    rw [GlickoBoost.decay_real]
    have r2 := hp.1.2
    exact (boost_end_near L A (k := c.k.toR) (τ := 150) hc (show Ap 0 90 p.deviation p.deviation.toR from
      ⟨Rel.exact hp.2.1, (show Mid 10 p.deviation.toR from ⟨hp.2.2.1, hp.2.2.2.trans (by norm_num)⟩).mono (by norm_num)⟩)
      hp.2.2.2 (by norm_num) hp.1.near (r2.trans (by norm_num)) (by norm_num) (by norm_num) (by norm_num)
      (by norm_num)).mono (by norm_num)
  exact ⟨rfl, rfl, key, key⟩

theorem usual_boost_sticko {a : GlickoBoost.GlickoBoostRating (FP E)} (h : BoostUsual a) :
    StickoUsual (⟨a.rating, a.deviation⟩ : Sticko.StickoRating (FP E)) :=
  ⟨h.1, h.2.1, h.2.2.1, h.2.2.2.trans (by norm_num)⟩

/-- Glicko-Boost, expected scores of a game: within `2 ^ -34` of the exact formulas. -/
theorem C133_boost_expected (L : E.Lib) (A : E.Accurate) (P : E.Precise)
    (a b : GlickoBoost.GlickoBoostRating (FP E)) (c : GlickoBoost.GlickoBoostConfig (FP E)) (ha : BoostUsual a)
    (hb : BoostUsual b) (hc : Within (2 ^ 13) c.eta) :
    Near (1 / 2 ^ 34) (GlickoBoost.expectedScore a b c).1
      (GlickoBoost.expectedScore (boostExact a) (boostExact b) (boostExactConfig c)).1 ∧
    Near (1 / 2 ^ 34) (GlickoBoost.expectedScore a b c).2
      (GlickoBoost.expectedScore (boostExact a) (boostExact b) (boostExactConfig c)).2 := by
  have he := sticko_expected_near L A P (usual_boost_sticko ha) (usual_boost_sticko hb) hc.near hc.2
  rw [GlickoBoost.expectedScore_real]
  exact ⟨he.mono (by norm_num), (compl_near he (glickoE01 _ _ _)).mono (by norm_num)⟩

/-- Glicko-Boost, expected scores of a rating period, opponent by opponent. -/
theorem C133_boost_expected_period (L : E.Lib) (A : E.Accurate) (P : E.Precise)
    (p : GlickoBoost.GlickoBoostRating (FP E)) (os : List (GlickoBoost.GlickoBoostRating (FP E) × Bool))
    (c : GlickoBoost.GlickoBoostConfig (FP E)) (hp : BoostUsual p) (ho : ∀ o ∈ os, BoostUsual o.1)
    (hc : Within (2 ^ 13) c.eta) :
    List.Forall₂ (Near (1 / 2 ^ 34)) (GlickoBoost.expectedScoreRatingPeriod p os c)
      (GlickoBoost.expectedScoreRatingPeriod (boostExact p) (os.map fun o => (boostExact o.1, o.2))
        (boostExactConfig c)) := by
  induction os with
  | nil => exact List.Forall₂.nil
  | cons o os ih =>
    refine List.Forall₂.cons ?_ (ih fun x hx => ho x (List.mem_cons_of_mem _ hx))
    exact (C133_boost_expected L A P p o.1 c hp (ho o List.mem_cons_self) hc).1

/-- Glicko-Boost, the ends of the confidence interval: within `2 ^ -35` of the exact ones. -/
theorem C133_boost_interval (p : GlickoBoost.GlickoBoostRating (FP E)) (hp : BoostUsual p) :
    Near (1 / 2 ^ 35) (GlickoBoost.confidenceInterval p).1 (GlickoBoost.confidenceInterval (boostExact p)).1 ∧
    Near (1 / 2 ^ 35) (GlickoBoost.confidenceInterval p).2 (GlickoBoost.confidenceInterval (boostExact p)).2 :=
  C123_glicko_interval ⟨p.rating, p.deviation⟩
    ⟨within_mono hp.1 (by norm_num), hp.2.1, hp.2.2.1, hp.2.2.2.trans (by norm_num)⟩

/-! ### Double precision -/

theorem usual_boost : BoostUsual (E := ieee) ⟨1500.0, 200.0⟩ ∧ BoostUsual (E := ieee) ⟨1400.0, 30.0⟩ := by
  obtain ⟨h1, h2⟩ := usual_sticko
  have d1 := lit_in (E := ieee) (m := 2000) (s := true) (e := 1) (v := 200) (by norm_num)
    (SRep.ofNat 200 (by norm_num))
  have d2 := lit_in (E := ieee) (m := 300) (s := true) (e := 1) (v := 30) (by norm_num)
    (SRep.ofNat 30 (by norm_num))
  exact ⟨⟨h1.1, d1.finite, h1.2.2.1, d1.toR.2.trans (by norm_num)⟩,
    ⟨h2.1, d2.finite, h2.2.2.1, d2.toR.2.trans (by norm_num)⟩⟩

/-- The parameters of `GlickoBoostConfig::new`. -/
theorem usual_boost_config : BoostConfigUsual (E := ieee) GlickoBoost.GlickoBoostConfig.new := by
  have lit : ∀ (m : ℕ) (s : Bool) (e : ℕ) (v : ℝ), (OfScientific.ofScientific m s e : ℝ) = v → |v| ≤ 64 →
      Near (E := ieee) (64 / 2 ^ 51) (OfScientific.ofScientific m s e : FP ieee) v := by
    intro m s e v h hv
    subst h
    exact round_abs false hv (by norm_num) (le_huge 6 (by norm_num) (by norm_num))
  have within : ∀ {x : FP ieee} {v B : ℝ}, Near (E := ieee) (64 / 2 ^ 51) x v → |v| + 64 / 2 ^ 51 ≤ B → Within B x := by
    intro x v B h hB
    exact ⟨h.1, h.abs_le.trans hB⟩
  have between : ∀ {x : FP ieee} {v B : ℝ}, Near (E := ieee) (64 / 2 ^ 51) x v → 64 / 2 ^ 51 ≤ v →
      v + 64 / 2 ^ 51 ≤ B → Between 0 B x := by
    intro x v B h h0 hB
    have := abs_le.1 h.2
    exact ⟨h.1, by linarith [this.1], by linarith [this.2]⟩
  refine ⟨?_, ?_, ?_, ?_, ?_, ?_, ?_, ?_, ?_⟩
  · exact within (lit 300 true 1 30 (by norm_num) (by norm_num)) (by norm_num)
  · exact within (lit 196 true 2 1.96 (by norm_num) (by norm_num)) (by norm_num)
  · exact between (lit 20139 true 5 0.20139 (by norm_num) (by norm_num)) (by norm_num) (by norm_num)
  · exact between (lit 175 true 1 17.5 (by norm_num) (by norm_num)) (by norm_num) (by norm_num)
  · exact within (lit 583733 true 5 5.83733 (by norm_num) (by norm_num)) (by norm_num)
  · exact within (lit 175374 true 9 1.75374e-4 (by norm_num) (by norm_num)).neg (by norm_num)
  · exact within (lit 7080124 true 11 7.080124e-5 (by norm_num) (by norm_num)).neg (by norm_num)
  · exact within (lit 1733792 true 9 0.001733792 (by norm_num) (by norm_num)) (by norm_num)
  · exact within (lit 26706 true 8 0.00026706 (by norm_num) (by norm_num)) (by norm_num)

theorem usual_boost_gap (f : Bool) : |(1500.0 : FP ieee).toR
    + (GlickoBoost.GlickoBoostConfig.new (F := FP ieee)).eta.toR * colour f - (1400.0 : FP ieee).toR| ≤ 800 := by
  have h1 := (lit_in (E := ieee) (m := 15000) (s := true) (e := 1) (v := 1500) (by norm_num)
    (SRep.ofNat 1500 (by norm_num))).toR
  have h2 := (lit_in (E := ieee) (m := 14000) (s := true) (e := 1) (v := 1400) (by norm_num)
    (SRep.ofNat 1400 (by norm_num))).toR
  have h3 := (lit_in (E := ieee) (m := 300) (s := true) (e := 1) (v := 30) (by norm_num)
    (SRep.ofNat 30 (by norm_num))).toR
  rw [show (1500.0 : FP ieee).toR = 1500 from le_antisymm h1.2 h1.1,
    show (1400.0 : FP ieee).toR = 1400 from le_antisymm h2.2 h2.1,
    show (GlickoBoost.GlickoBoostConfig.new (F := FP ieee)).eta.toR = 30 from le_antisymm h3.2 h3.1]
  cases f <;> norm_num [colour] <;> rw [abs_le] <;> constructor <;> norm_num

/-- A win of the first player in double precision, with the default parameters. -/
example : ∃ k, |k - (GlickoBoost.GlickoBoostConfig.new (F := FP ieee)).k.toR| ≤ 1 / 2 ^ 30 ∧
    Near (1 / 2 ^ 19)
      (GlickoBoost.glickoBoost (F := FP ieee) ⟨1500.0, 200.0⟩ ⟨1400.0, 30.0⟩ .WIN GlickoBoost.GlickoBoostConfig.new).1.rating
      (GlickoBoost.glickoBoost (boostExact (E := ieee) ⟨1500.0, 200.0⟩) (boostExact (E := ieee) ⟨1400.0, 30.0⟩) .WIN
        (boostExactAt (E := ieee) GlickoBoost.GlickoBoostConfig.new k)).1.rating := by
  obtain ⟨k, h1, h2, -⟩ := (C133_boost_game ieee_lib ieee_accurate ieee_precise _ _ .WIN _ usual_boost.1 usual_boost.2
    usual_boost_config (by simpa [colour] using usual_boost_gap true)).1
  exact ⟨k, h1.1, h2⟩

/-- A period of two games. -/
example : ∃ k, |k - (GlickoBoost.GlickoBoostConfig.new (F := FP ieee)).k.toR| ≤ 1 / 2 ^ 30 ∧
    Near (2 / 2 ^ 19)
      (GlickoBoost.glickoBoostRatingPeriod (F := FP ieee) ⟨1500.0, 200.0⟩
        [(⟨1400.0, 30.0⟩, .WIN, true), (⟨1400.0, 30.0⟩, .LOSS, false)] GlickoBoost.GlickoBoostConfig.new).rating
      (GlickoBoost.glickoBoostRatingPeriod (boostExact (E := ieee) ⟨1500.0, 200.0⟩)
        [(boostExact (E := ieee) ⟨1400.0, 30.0⟩, .WIN, true), (boostExact (E := ieee) ⟨1400.0, 30.0⟩, .LOSS, false)]
        (boostExactAt (E := ieee) GlickoBoost.GlickoBoostConfig.new k)).rating := by
  obtain ⟨k, h1, h2, -⟩ := C133_boost_period ieee_lib ieee_accurate ieee_precise _
    [(⟨1400.0, 30.0⟩, .WIN, true), (⟨1400.0, 30.0⟩, .LOSS, false)] GlickoBoost.GlickoBoostConfig.new usual_boost.1
    (by intro r hr; simp at hr; rcases hr with rfl | rfl <;> exact usual_boost.2)
    (by intro r hr; simp at hr; rcases hr with rfl | rfl <;> exact usual_boost_gap _)
    usual_boost_config (by simp) (by simp)
  exact ⟨k, h1.1, by simpa using h2⟩

end Skillratings
