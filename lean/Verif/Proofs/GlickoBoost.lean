import Verif.Proofs.GlickoCommon
import Verif.Model.GlickoBoost
import Verif.Spec.GlickoBoost
/-
Helper lemmas for the Glicko-Boost properties.
-/
namespace Skillratings.GlickoBoost
open Real Spec

/-- The configuration as parameters of the specification. -/
def params (c : GlickoBoostConfig ℝ) : BoostParams :=
  ⟨c.eta, c.k, c.b.1, c.b.2, c.alpha.a0, c.alpha.a1, c.alpha.a2, c.alpha.a3, c.alpha.a4⟩

/-- A result as a game of the specification. -/
noncomputable def game (r : GlickoBoostRating ℝ × Outcomes × Bool) : StickoGame :=
  ⟨r.1.rating, r.1.deviation, points r.2.1, r.2.2⟩

/-- The new player according to the specification. -/
noncomputable def updated (P : BoostParams) (r rd : ℝ) (xs : List StickoGame) :
    GlickoBoostRating ℝ :=
  ⟨boostRating P r rd xs, boostEnd P (boostRd1 P r rd xs) (boostRating P r rd xs)⟩

theorem q_real : (Flt.ln (10.0 : ℝ) / 400.0 : ℝ) = glickoQ := by
  simp only [flt, glickoQ]

theorem gValue_real (rd : ℝ) : gValue glickoQ rd = glickoG rd := by
  simp only [gValue, flt, glickoG, one_div]

theorem eValue_real (r rj rdj a c : ℝ) :
    eValue (glickoG rdj) r rj a c = glickoE (r + a * c) rj rdj := by
  simp only [eValue, flt, glickoE, one_div]
  congr 3; ring

theorem colour_real (b : Bool) : (if b then 1.0 else -1.0 : ℝ) = colour b := by
  cases b <;> norm_num [colour]

theorem endDeviation_real (rd r : ℝ) (c : GlickoBoostConfig ℝ) :
    endDeviation rd r c = boostEnd (params c) rd r := by
  simp only [endDeviation, flt, boostEnd, params]
  congr 3
  · ring
  · congr 1; ring

theorem newDeviation_real (rd i z : ℝ) (c : GlickoBoostConfig ℝ) :
    newDeviation rd i⁻¹ z c = min √(posterior
      ((open Classical in if c.k < z ∧ c.k ≠ 0 then
        (1 + (z - c.k) * c.b.1) * √(posterior (rd ^ 2) i) + c.b.2 else rd) ^ 2) i) 350 := by
  by_cases h : c.k < z ∧ c.k ≠ 0
  · have hb : ((c.k <? z) && !(c.k ==? (0.0 : ℝ))) = true := by
      simp only [Bool.and_eq_true, Bool.not_eq_true', flt]; exact h
    rw [newDeviation, if_pos hb, if_pos h]
    simp only [boostRd, flt, inv_inv, posterior_eq]
    congr 7; ring
  · have hb : ¬ ((c.k <? z) && !(c.k ==? (0.0 : ℝ))) = true := by
      simp only [Bool.and_eq_true, Bool.not_eq_true', flt]; exact h
    rw [newDeviation, if_neg hb, if_neg h]
    simp only [flt, inv_inv, posterior_eq]

theorem boostVar_pos (P : BoostParams) (r : ℝ) (x : StickoGame) : 0 < boostVar P r x := by
  have h1 : 0 < boostE P r x := glickoE_pos _ _ _
  have h2 : 0 < 1 - boostE P r x := sub_pos.2 (glickoE_lt_one _ _ _)
  have h4 := glickoG_pos x.deviation
  unfold boostVar; positivity

theorem boostInfo_nonneg (P : BoostParams) (r : ℝ) (xs : List StickoGame) :
    0 ≤ boostInfo P r xs := by
  apply mul_nonneg (sq_nonneg _)
  apply List.sum_nonneg
  intro y hy
  obtain ⟨x, -, rfl⟩ := List.mem_map.1 hy
  exact (boostVar_pos P r x).le

theorem period_real (p : GlickoBoostRating ℝ) (rs : List (GlickoBoostRating ℝ × Outcomes × Bool))
    (c : GlickoBoostConfig ℝ) (h : rs ≠ []) :
    glickoBoostRatingPeriod p rs c = updated (params c) p.rating p.deviation (rs.map game) := by
  have he : rs.isEmpty = false := by simpa [List.isEmpty_iff] using h
  have e1 : (rs.map fun r => glickoG r.1.deviation ^ 2
      * glickoE (p.rating + c.eta * colour r.2.2) r.1.rating r.1.deviation
      * (1 - glickoE (p.rating + c.eta * colour r.2.2) r.1.rating r.1.deviation)).sum
      = ((rs.map game).map (boostVar (params c) p.rating)).sum := by
    rw [List.map_map]; rfl
  have e2 : (rs.map fun r => glickoG r.1.deviation * (points r.2.1
      - glickoE (p.rating + c.eta * colour r.2.2) r.1.rating r.1.deviation)).sum
      = ((rs.map game).map (boostDelta (params c) p.rating)).sum := by
    rw [List.map_map]; rfl
  simp only [glickoBoostRatingPeriod, he, q_real, gValue_real, eValue_real,
    toChessPoints_real, Flt.sum_real, colour_real]
  simp only [Flt.powi_two, Flt.lit_1, e1, e2, Flt.recip_real,
    Flt.sqrt_real, newDeviation_real, endDeviation_real, Flt.mulAdd_real, Bool.false_eq_true,
    if_false]
  have e3 : ∀ x y z : ℝ, x * glickoQ * y + z = z + glickoQ * x * y := fun x y z => by ring
  rw [e3]
  rfl

theorem zValue_real (P : BoostParams) (r : ℝ) (x : StickoGame) :
    zValue (glickoG x.deviation) (boostE P r x) x.points = boostZ P r [x] := by
  simp only [zValue, flt, boostZ, List.map_cons, List.map_nil, List.sum_cons, List.sum_nil,
    add_zero, boostDelta, boostVar]

theorem dValue_real (P : BoostParams) (r : ℝ) (x : StickoGame) :
    dValue glickoQ (glickoG x.deviation) (boostE P r x) = (boostInfo P r [x])⁻¹ := by
  simp only [dValue, flt, boostInfo, List.map_cons, List.map_nil, List.sum_cons, List.sum_nil,
    add_zero, boostVar, mul_assoc]

/-- One side of a game. -/
theorem side_real (c : GlickoBoostConfig ℝ) (r rd : ℝ) (x : StickoGame) :
    (let g := gValue glickoQ x.deviation
     let e := eValue g r x.rating c.eta (colour x.first)
     let d := newDeviation rd (dValue glickoQ g e) (zValue g e x.points) c
     let r' := newRating r d x.points glickoQ g e
     (⟨r', endDeviation d r' c⟩ : GlickoBoostRating ℝ)) = updated (params c) r rd [x] := by
  have e1 : glickoE (r + c.eta * colour x.first) x.rating x.deviation = boostE (params c) r x := rfl
  have e3 : ∀ d : ℝ, newRating r d x.points glickoQ (glickoG x.deviation) (boostE (params c) r x)
      = r + glickoQ * d ^ 2 * (([x].map (boostDelta (params c) r)).sum) := by
    intro d
    simp only [newRating, flt, List.map_cons, List.map_nil, List.sum_cons, List.sum_nil, add_zero,
      boostDelta]
    ring
  simp only [gValue_real, eValue_real, e1, zValue_real, dValue_real, newDeviation_real, e3,
    endDeviation_real]
  rfl

theorem glickoBoost_real (a b : GlickoBoostRating ℝ) (o : Outcomes) (c : GlickoBoostConfig ℝ) :
    glickoBoost a b o c =
      (updated (params c) a.rating a.deviation [game (b, o, true)],
       updated (params c) b.rating b.deviation [game (a, mirror o, false)]) := by
  rw [← side_real, ← side_real]
  have h1 : (1.0 : ℝ) = colour true := by norm_num [colour]
  have h2 : (-1.0 : ℝ) = colour false := by norm_num [colour]
  have h3 : colour true - points o = points (mirror o) := by
    rw [points_mirror]; simp [colour]
  simp only [glickoBoost, q_real, toChessPoints_real, h1, h3, game]
  have h4 : -colour true = colour false := by simp [colour]
  rw [h4]

theorem expectedScore_real (a b : GlickoBoostRating ℝ) (c : GlickoBoostConfig ℝ) :
    expectedScore a b c =
      (glickoE (a.rating + c.eta) b.rating √(a.deviation ^ 2 + b.deviation ^ 2),
       1 - glickoE (a.rating + c.eta) b.rating √(a.deviation ^ 2 + b.deviation ^ 2)) := by
  simp only [expectedScore, q_real, gValue_real]
  simp only [flt, glickoE, one_div]
  rw [neg_mul, neg_div]

theorem decay_real (p : GlickoBoostRating ℝ) (c : GlickoBoostConfig ℝ) :
    decayDeviation p c = ⟨p.rating, boostEnd (params c) p.deviation p.rating⟩ := by
  simp only [decayDeviation, endDeviation_real]

theorem boostEnd_pos (P : BoostParams) (rd r : ℝ) : 0 < boostEnd P rd r := by
  apply lt_min _ (by norm_num)
  apply Real.sqrt_pos.2
  have := Real.exp_pos (P.a0 + P.a1 * rd + P.a2 * rd * (r / 1000) + P.a3 * (r / 1000)
    + P.a4 * (r / 1000) ^ 2)
  positivity

theorem boostEnd_le (P : BoostParams) (rd r : ℝ) : boostEnd P rd r ≤ 350 := min_le_right _ _

theorem le_boostEnd (P : BoostParams) {rd : ℝ} (r : ℝ) (h : rd ≤ 350) : rd ≤ boostEnd P rd r := by
  apply le_min _ h
  apply Real.le_sqrt_of_sq_le
  linarith [Real.exp_pos (P.a0 + P.a1 * rd + P.a2 * rd * (r / 1000) + P.a3 * (r / 1000)
    + P.a4 * (r / 1000) ^ 2)]

theorem boostPre_pos (P : BoostParams) (r : ℝ) {rd : ℝ} (xs : List StickoGame) (h : 0 < rd)
    (h0 : 0 ≤ P.b0) (h1 : 0 ≤ P.b1) : 0 < boostPre P r rd xs := by
  unfold boostPre
  split_ifs with hz
  · have h2 : 0 < √(posterior (rd ^ 2) (boostInfo P r xs)) :=
      Real.sqrt_pos.2 (posterior_pos (by positivity) (boostInfo_nonneg _ _ _))
    have h3 : 0 < boostZ P r xs - P.k := sub_pos.2 hz.1
    positivity
  · exact h

theorem boostRd1_pos (P : BoostParams) (r : ℝ) {rd : ℝ} (xs : List StickoGame) (h : 0 < rd)
    (h0 : 0 ≤ P.b0) (h1 : 0 ≤ P.b1) : 0 < boostRd1 P r rd xs := by
  have := boostPre_pos P r xs h h0 h1
  apply lt_min _ (by norm_num)
  exact Real.sqrt_pos.2 (posterior_pos (by positivity) (boostInfo_nonneg _ _ _))

end Skillratings.GlickoBoost
