import Verif.Proofs.GlickoCommon
import Verif.Model.Sticko
import Verif.Spec.Sticko
/-
Helper lemmas for the Sticko properties.
-/
namespace Skillratings.Sticko
open Real Spec

/-- The configuration as parameters of the specification. -/
def params (c : StickoConfig ℝ) : StickoParams := ⟨c.h, c.beta, c.lambda, c.gamma, c.c⟩

/-- A result as a game of the specification. -/
noncomputable def game (r : StickoRating ℝ × Outcomes × Bool) : StickoGame :=
  ⟨r.1.rating, r.1.deviation, points r.2.1, r.2.2⟩

theorem q_real : (Flt.ln (10.0 : ℝ) / 400.0 : ℝ) = glickoQ := by
  simp only [flt, glickoQ]

theorem gValue_real (rd : ℝ) : gValue glickoQ rd = glickoG rd := by
  simp only [gValue, flt, glickoG, one_div]

theorem eValue_real (r rj rdj a c : ℝ) :
    eValue (glickoG rdj) r rj a c = glickoE (r + a * c) rj rdj := by
  simp only [eValue, flt, glickoE, one_div]
  congr 3; ring

theorem onset_real (rd c : ℝ) :
    Flt.fmin (Flt.hypot rd c) 350.0 = glickoOnset rd c := by
  simp only [flt, glickoOnset]

theorem colour_real (b : Bool) : (if b then 1.0 else -1.0 : ℝ) = colour b := by
  cases b <;> norm_num [colour]

theorem stickoE_pos (P : StickoParams) (r : ℝ) (x : StickoGame) : 0 < stickoE P r x :=
  glickoE_pos _ _ _

theorem stickoE_lt_one (P : StickoParams) (r : ℝ) (x : StickoGame) : stickoE P r x < 1 :=
  glickoE_lt_one _ _ _

theorem stickoInfo_pos (P : StickoParams) (r : ℝ) (x : StickoGame) : 0 < stickoInfo P r x :=
  glickoInfo_pos _ _ _

theorem period_real (p : StickoRating ℝ) (rs : List (StickoRating ℝ × Outcomes × Bool))
    (c : StickoConfig ℝ) (h : rs ≠ []) :
    stickoRatingPeriod p rs c =
      ⟨(stickoUpdate (params c) p.rating p.deviation (rs.map game)).1,
       (stickoUpdate (params c) p.rating p.deviation (rs.map game)).2⟩ := by
  have he : rs.isEmpty = false := by simpa [List.isEmpty_iff] using h
  simp only [stickoRatingPeriod, he, q_real, gValue_real, eValue_real, onset_real,
    toChessPoints_real, Flt.sum_real, colour_real]
  have e : glickoQ ^ 2 * (rs.map fun r => glickoG r.1.deviation ^ 2
      * glickoE (p.rating + c.gamma * colour r.2.2) r.1.rating r.1.deviation
      * (1 - glickoE (p.rating + c.gamma * colour r.2.2) r.1.rating r.1.deviation)).sum
      = ((rs.map game).map (stickoInfo (params c) p.rating)).sum := by
    rw [List_sum_mul_left, List.map_map]
    congr 2
    funext r
    simp only [Function.comp, stickoInfo, stickoE, game, params, mul_assoc]
  simp only [flt, e, inv_inv, Bool.false_eq_true, if_false, stickoUpdate, posterior_eq,
    List.length_map]
  congr 1
  · simp only [List.map_map, Function.comp_def, stickoE, game, params]
    ring
  · simp only [params]
    congr 5; ring

/-- The game of the first player and that of the second player. -/
theorem sticko_real (a b : StickoRating ℝ) (o : Outcomes) (c : StickoConfig ℝ) :
    sticko a b o c =
      (⟨(stickoUpdate (params c) a.rating a.deviation [game (b, o, true)]).1,
        (stickoUpdate (params c) a.rating a.deviation [game (b, o, true)]).2⟩,
       ⟨(stickoUpdate (params c) b.rating b.deviation [game (a, mirror o, false)]).1,
        (stickoUpdate (params c) b.rating b.deviation [game (a, mirror o, false)]).2⟩) := by
  simp only [sticko, q_real, gValue_real, eValue_real, onset_real, toChessPoints_real, newRating,
    newDeviation, dValue]
  simp only [flt, inv_inv, stickoUpdate, posterior_eq, List.map_cons, List.map_nil, List.sum_cons,
    List.sum_nil, List.length_singleton, stickoInfo, stickoE, game, params, colour, points_mirror,
    add_zero, Nat.cast_one, mul_one, div_one, if_true, Bool.false_eq_true, if_false]
  rw [Prod.mk.injEq]
  constructor
  · congr 1
    · ring
    · congr 5; ring
  · congr 1
    · ring
    · congr 5; ring

theorem expectedScore_real (a b : StickoRating ℝ) (c : StickoConfig ℝ) :
    expectedScore a b c =
      (glickoE (a.rating + c.gamma) b.rating √(a.deviation ^ 2 + b.deviation ^ 2),
       1 - glickoE (a.rating + c.gamma) b.rating √(a.deviation ^ 2 + b.deviation ^ 2)) := by
  simp only [expectedScore, q_real, gValue_real]
  simp only [flt, glickoE, one_div]
  rw [neg_mul, neg_div]

theorem decay_real (p : StickoRating ℝ) (c : StickoConfig ℝ) :
    decayDeviation p c = ⟨p.rating, glickoOnset p.deviation c.c⟩ := by
  simp only [decayDeviation, onset_real]

/-- The new deviation is in range. -/
theorem update_deviation (P : StickoParams) (r rd : ℝ) (xs : List StickoGame) (hrd : 0 < rd)
    (hh : 0 ≤ P.h) :
    0 < (stickoUpdate P r rd xs).2 ∧ (stickoUpdate P r rd xs).2 ≤ 350 := by
  refine ⟨lt_min (Real.sqrt_pos.2 (posterior_pos ?_ ?_)) (by norm_num), min_le_right _ _⟩
  · have := glickoOnset_pos P.c hrd
    positivity
  · apply List.sum_nonneg
    intro y hy
    obtain ⟨x, -, rfl⟩ := List.mem_map.1 hy
    exact (stickoInfo_pos P r x).le

end Skillratings.Sticko
