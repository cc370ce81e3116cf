import Verif.Proofs.GlickoCommon
import Verif.Model.Glicko
/-
Helper lemmas for the Glicko properties.
-/
namespace Skillratings.Glicko
open Real Spec

theorem q_real : (Flt.ln (10.0 : ℝ) / 400.0 : ℝ) = glickoQ := by
  simp only [flt, glickoQ]

theorem gValue_real (rd : ℝ) : gValue glickoQ rd = glickoG rd := by
  simp only [gValue, flt, glickoG, one_div]

theorem eValue_real (r rj rdj : ℝ) : eValue (glickoG rdj) r rj = glickoE r rj rdj := by
  simp only [eValue, flt, glickoE, one_div]
  congr 3; ring

theorem dValue_real (r rj rdj : ℝ) :
    dValue glickoQ (glickoG rdj) (glickoE r rj rdj) = (glickoInfo r rj rdj)⁻¹ := by
  simp only [dValue, flt, glickoInfo]

theorem onset_real (rd c : ℝ) :
    Flt.fmin (Flt.hypot rd c) 350.0 = glickoOnset rd c := by
  simp only [flt, glickoOnset]

theorem newRating_real (r pre s g e i : ℝ) :
    newRating r pre s glickoQ g e i⁻¹ = r + glickoQ * posterior (pre ^ 2) i * (g * (s - e)) := by
  simp only [newRating, flt, inv_inv, posterior_eq]
  ring

theorem newDeviation_real (pre i : ℝ) : newDeviation pre i⁻¹ = √(posterior (pre ^ 2) i) := by
  simp only [newDeviation, flt, inv_inv, posterior_eq]

/-- The new rating of a player `(r, rd)` after one game against `(rj, rdj)`. -/
noncomputable def rated (r rd rj rdj s c : ℝ) : GlickoRating ℝ where
  rating := r + glickoQ * posterior (glickoOnset rd c ^ 2) (glickoInfo r rj rdj)
    * (glickoG rdj * (s - glickoE r rj rdj))
  deviation := √(posterior (glickoOnset rd c ^ 2) (glickoInfo r rj rdj))

theorem glicko_real (a b : GlickoRating ℝ) (o : Outcomes) (c : GlickoConfig ℝ) :
    glicko a b o c =
      (rated a.rating a.deviation b.rating b.deviation (points o) c.c,
       rated b.rating b.deviation a.rating a.deviation (1 - points o) c.c) := by
  simp only [glicko, q_real, gValue_real, eValue_real, dValue_real, onset_real, newRating_real,
    newDeviation_real, rated, toChessPoints_real, Flt.lit_1]

theorem period_real (p : GlickoRating ℝ) (rs : List (GlickoRating ℝ × Outcomes))
    (c : GlickoConfig ℝ) (h : rs ≠ []) :
    glickoRatingPeriod p rs c =
      let info := (rs.map fun r => glickoInfo p.rating r.1.rating r.1.deviation).sum
      let v := posterior (glickoOnset p.deviation c.c ^ 2) info
      ⟨p.rating + glickoQ * v * (rs.map fun r => glickoG r.1.deviation
          * (points r.2 - glickoE p.rating r.1.rating r.1.deviation)).sum, √v⟩ := by
  have he : rs.isEmpty = false := by simpa [List.isEmpty_iff] using h
  simp only [glickoRatingPeriod, he, q_real, gValue_real, eValue_real, onset_real,
    toChessPoints_real, Flt.sum_real]
  have e : glickoQ ^ 2 * (rs.map fun r => glickoG r.1.deviation ^ 2
      * glickoE p.rating r.1.rating r.1.deviation
      * (1 - glickoE p.rating r.1.rating r.1.deviation)).sum
      = (rs.map fun r => glickoInfo p.rating r.1.rating r.1.deviation).sum := by
    rw [List_sum_mul_left]
    simp only [glickoInfo, mul_assoc]
  simp only [flt, e, inv_inv, posterior_eq, Bool.false_eq_true, if_false]
  congr 1
  ring

theorem rated_deviation_pos (r : ℝ) {rd : ℝ} (rj rdj s c : ℝ) (h : 0 < rd) :
    0 < (rated r rd rj rdj s c).deviation := by
  have h1 := glickoOnset_pos c h
  exact Real.sqrt_pos.2 (posterior_pos (by positivity) (glickoInfo_pos _ _ _).le)

theorem rated_deviation_lt (r : ℝ) {rd : ℝ} (rj rdj s c : ℝ) (h : 0 < rd) :
    (rated r rd rj rdj s c).deviation < glickoOnset rd c := by
  have h1 := glickoOnset_pos c h
  have h2 := posterior_lt (v := glickoOnset rd c ^ 2) (by positivity) (glickoInfo_pos r rj rdj)
  calc √(posterior (glickoOnset rd c ^ 2) (glickoInfo r rj rdj))
      < √(glickoOnset rd c ^ 2) :=
        Real.sqrt_lt_sqrt (posterior_pos (by positivity) (glickoInfo_pos _ _ _).le).le h2
    _ = glickoOnset rd c := Real.sqrt_sq h1.le

/-- The factor in front of `g (s - E)`. -/
theorem rated_change (r : ℝ) {rd : ℝ} (rj rdj s c : ℝ) (h : 0 < rd) :
    ∃ k, 0 < k ∧ k ≤ glickoQ * 350 ^ 2 ∧
      (rated r rd rj rdj s c).rating = r + k * (s - glickoE r rj rdj) := by
  have h1 := glickoOnset_pos c h
  have h2 := glickoG_pos rdj
  have h3 := glickoQ_pos
  have h4 : 0 < posterior (glickoOnset rd c ^ 2) (glickoInfo r rj rdj) :=
    posterior_pos (by positivity) (glickoInfo_pos _ _ _).le
  have h5 : posterior (glickoOnset rd c ^ 2) (glickoInfo r rj rdj) ≤ 350 ^ 2 :=
    (posterior_le (by positivity) (glickoInfo_pos _ _ _).le).trans
      (pow_le_pow_left₀ h1.le (glickoOnset_le rd c) 2)
  refine ⟨glickoQ * posterior (glickoOnset rd c ^ 2) (glickoInfo r rj rdj) * glickoG rdj,
    by positivity, ?_, by simp only [rated]; ring⟩
  have h6 := glickoG_le_one rdj
  calc glickoQ * posterior (glickoOnset rd c ^ 2) (glickoInfo r rj rdj) * glickoG rdj
      ≤ glickoQ * 350 ^ 2 * 1 := by gcongr
    _ = _ := by ring

theorem expectedScore_real (a b : GlickoRating ℝ) :
    expectedScore a b =
      (glickoE a.rating b.rating √(a.deviation ^ 2 + b.deviation ^ 2),
       1 - glickoE a.rating b.rating √(a.deviation ^ 2 + b.deviation ^ 2)) := by
  simp only [expectedScore, q_real, gValue_real]
  simp only [flt, glickoE, one_div]
  rw [show -glickoG √(a.deviation ^ 2 + b.deviation ^ 2) * (a.rating - b.rating) / 400
    = -(glickoG √(a.deviation ^ 2 + b.deviation ^ 2) * (a.rating - b.rating) / 400) by ring]

end Skillratings.Glicko
