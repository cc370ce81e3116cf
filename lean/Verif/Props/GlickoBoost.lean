import Verif.Proofs.GlickoBoost
import Verif.Proofs.Glicko
/-
Properties of /repo/src/glicko_boost.rs: C34, C41 - C46, C86.
-/
namespace Skillratings.GlickoBoost
open Real Spec

/-! ### C86: the published update -/

theorem C86_glickoBoost_period_formula (p : GlickoBoostRating ℝ)
    (rs : List (GlickoBoostRating ℝ × Outcomes × Bool)) (c : GlickoBoostConfig ℝ) (h : rs ≠ []) :
    let P : BoostParams := ⟨c.eta, c.k, c.b.1, c.b.2, c.alpha.a0, c.alpha.a1, c.alpha.a2,
      c.alpha.a3, c.alpha.a4⟩
    let xs : List StickoGame :=
      rs.map fun r => ⟨r.1.rating, r.1.deviation, points r.2.1, r.2.2⟩
    (glickoBoostRatingPeriod p rs c).rating = boostRating P p.rating p.deviation xs ∧
      (glickoBoostRatingPeriod p rs c).deviation =
        boostEnd P (boostRd1 P p.rating p.deviation xs) (boostRating P p.rating p.deviation xs) := by
  rw [period_real p rs c h]
  exact ⟨rfl, rfl⟩

theorem C86_glickoBoost_formula (a b : GlickoBoostRating ℝ) (o : Outcomes)
    (c : GlickoBoostConfig ℝ) :
    let P : BoostParams := ⟨c.eta, c.k, c.b.1, c.b.2, c.alpha.a0, c.alpha.a1, c.alpha.a2,
      c.alpha.a3, c.alpha.a4⟩
    let xs : List StickoGame := [⟨b.rating, b.deviation, points o, true⟩]
    let ys : List StickoGame := [⟨a.rating, a.deviation, points (mirror o), false⟩]
    (glickoBoost a b o c).1.rating = boostRating P a.rating a.deviation xs ∧
      (glickoBoost a b o c).1.deviation =
        boostEnd P (boostRd1 P a.rating a.deviation xs) (boostRating P a.rating a.deviation xs) ∧
      (glickoBoost a b o c).2.rating = boostRating P b.rating b.deviation ys ∧
      (glickoBoost a b o c).2.deviation =
        boostEnd P (boostRd1 P b.rating b.deviation ys) (boostRating P b.rating b.deviation ys) := by
  rw [glickoBoost_real]
  exact ⟨rfl, rfl, rfl, rfl⟩

theorem C86_glickoBoost_decay_formula (p : GlickoBoostRating ℝ) (c : GlickoBoostConfig ℝ) :
    (decayDeviation p c).rating = p.rating ∧ (decayDeviation p c).deviation =
      min √(p.deviation ^ 2 + exp (c.alpha.a0 + c.alpha.a1 * p.deviation
        + c.alpha.a2 * p.deviation * (p.rating / 1000) + c.alpha.a3 * (p.rating / 1000)
        + c.alpha.a4 * (p.rating / 1000) ^ 2)) 350 := by
  rw [decay_real]
  exact ⟨rfl, rfl⟩

/-- Equal players without advantage who draw keep their rating. -/
example (k rd : ℝ) (b : ℝ × ℝ) (α : Alpha ℝ) : (glickoBoost (⟨1500, rd⟩ : GlickoBoostRating ℝ)
    ⟨1500, rd⟩ .DRAW ⟨0, k, b, α⟩).1.rating = 1500 := by
  rw [(C86_glickoBoost_formula _ _ _ _).1]
  simp only [boostRating, List.map_cons, List.map_nil, List.sum_cons, List.sum_nil, boostDelta,
    boostE, glickoE, points]
  norm_num

/-! ### C41: expected scores -/

theorem C41_glickoBoost_expected_formula (a b : GlickoBoostRating ℝ) (c : GlickoBoostConfig ℝ) :
    (expectedScore a b c).1 =
      glickoE (a.rating + c.eta) b.rating √(a.deviation ^ 2 + b.deviation ^ 2) := by
  rw [expectedScore_real]

theorem C41_glickoBoost_expected_probability (a b : GlickoBoostRating ℝ)
    (c : GlickoBoostConfig ℝ) : ProbabilityPair (expectedScore a b c) := by
  rw [expectedScore_real, glickoE_eq]; exact probabilityPair_sigmoid _

theorem C41_glickoBoost_expected_swap (a b : GlickoBoostRating ℝ) (c : GlickoBoostConfig ℝ) :
    expectedScore b a { c with eta := -c.eta } =
      ((expectedScore a b c).2, (expectedScore a b c).1) := by
  have h : ∀ g : ℝ, glickoQ * (g * (b.rating + -c.eta - a.rating))
      = -(glickoQ * (g * (a.rating + c.eta - b.rating))) := fun g => by ring
  simp [expectedScore_real, glickoE_eq, h, sigmoid_neg, add_comm (b.deviation ^ 2)]

theorem C41_glickoBoost_expected_mono (a b : GlickoBoostRating ℝ) (c : GlickoBoostConfig ℝ)
    (x : ℝ) :
    (a.rating < x → (expectedScore a b c).1 < (expectedScore { a with rating := x } b c).1) ∧
    (b.rating < x → (expectedScore a { b with rating := x } c).1 < (expectedScore a b c).1) ∧
    (c.eta < x → (expectedScore a b c).1 < (expectedScore a b { c with eta := x }).1) := by
  simp only [expectedScore_real, glickoE_eq, sigmoid_lt_iff]
  have := glickoQ_pos
  have := glickoG_pos √(a.deviation ^ 2 + b.deviation ^ 2)
  refine ⟨fun h => ?_, fun h => ?_, fun h => ?_⟩ <;> gcongr

/-! ### C42: the colour flag of the list variant

Full statement: for every opponent `o`, the entry is `(expectedScore p o.1 c).1` if `o.2` and
`(expectedScore o.1 p c).2` (the player sits in the second seat) otherwise. -/

/-- The documented value holds for games with the advantage. -/
theorem C42_glickoBoost_expected_list_partial {F : Type} [Flt F] (p : GlickoBoostRating F)
    (os : List (GlickoBoostRating F × Bool)) (c : GlickoBoostConfig F) (h : ∀ o ∈ os, o.2 = true) :
    expectedScoreRatingPeriod p os c =
      os.map fun o => if o.2 then (expectedScore p o.1 c).1 else (expectedScore o.1 p c).2 := by
  rw [expectedScoreRatingPeriod]
  apply List.map_congr_left
  intro o ho
  rw [if_pos (h o ho)]
  rfl

/-- The flag is not read. -/
theorem C42_glickoBoost_expected_list_ignores {F : Type} [Flt F] (p : GlickoBoostRating F)
    (os : List (GlickoBoostRating F × Bool)) (c : GlickoBoostConfig F) :
    expectedScoreRatingPeriod p os c = os.map fun o => (expectedScore p o.1 c).1 := rfl

/-- Without the advantage the player is overestimated, for every `eta > 0`. -/
theorem C42_glickoBoost_expected_list_wrong (p b : GlickoBoostRating ℝ)
    (c : GlickoBoostConfig ℝ) (h : 0 < c.eta) :
    ∃ e, expectedScoreRatingPeriod p [(b, false)] c = [e] ∧ (expectedScore b p c).2 < e := by
  refine ⟨_, C42_glickoBoost_expected_list_ignores _ _ _, ?_⟩
  have hs := C41_glickoBoost_expected_swap b p c
  have h2 : (expectedScore b p c).2 = (expectedScore p b { c with eta := -c.eta }).1 := by rw [hs]
  rw [h2]
  exact (C41_glickoBoost_expected_mono p b { c with eta := -c.eta } c.eta).2.2 (by
    change -c.eta < c.eta; linarith)

example : 0 < (GlickoBoostConfig.new : GlickoBoostConfig ℝ).eta := by
  norm_num [GlickoBoostConfig.new]

/-! ### C43: deviations stay in range -/

/-- What can happen to a player. -/
inductive Event
  | first (opponent : GlickoBoostRating ℝ) (outcome : Outcomes) (config : GlickoBoostConfig ℝ)
  | second (opponent : GlickoBoostRating ℝ) (outcome : Outcomes) (config : GlickoBoostConfig ℝ)
  | period (results : List (GlickoBoostRating ℝ × Outcomes × Bool))
      (config : GlickoBoostConfig ℝ)
  | decay (config : GlickoBoostConfig ℝ)

/-- The player after an event. -/
noncomputable def Event.apply (p : GlickoBoostRating ℝ) : Event → GlickoBoostRating ℝ
  | .first b o c => (glickoBoost p b o c).1
  | .second a o c => (glickoBoost a p o c).2
  | .period rs c => glickoBoostRatingPeriod p rs c
  | .decay c => decayDeviation p c

theorem C43_glickoBoost_event (p : GlickoBoostRating ℝ) (e : Event) :
    0 < (e.apply p).deviation ∧ (e.apply p).deviation ≤ 350 := by
  cases e with
  | first b o c =>
    simp only [Event.apply, glickoBoost_real]
    exact ⟨boostEnd_pos _ _ _, boostEnd_le _ _ _⟩
  | second a o c =>
    simp only [Event.apply, glickoBoost_real]
    exact ⟨boostEnd_pos _ _ _, boostEnd_le _ _ _⟩
  | period rs c =>
    by_cases hr : rs = []
    · subst hr
      change 0 < (decayDeviation p c).deviation ∧ (decayDeviation p c).deviation ≤ 350
      rw [decay_real]
      exact ⟨boostEnd_pos _ _ _, boostEnd_le _ _ _⟩
    · simp only [Event.apply, period_real p rs c hr]
      exact ⟨boostEnd_pos _ _ _, boostEnd_le _ _ _⟩
  | decay c =>
    simp only [Event.apply, decay_real]
    exact ⟨boostEnd_pos _ _ _, boostEnd_le _ _ _⟩

theorem C43_glickoBoost_history (p : GlickoBoostRating ℝ) (es : List Event)
    (h : 0 < p.deviation ∧ p.deviation ≤ 350) :
    0 < (es.foldl Event.apply p).deviation ∧ (es.foldl Event.apply p).deviation ≤ 350 := by
  induction es generalizing p with
  | nil => exact h
  | cons e es ih => exact ih _ (C43_glickoBoost_event p e)

theorem C43_glickoBoost_decay_mono (p : GlickoBoostRating ℝ) (c : GlickoBoostConfig ℝ)
    (h : p.deviation ≤ 350) : p.deviation ≤ (decayDeviation p c).deviation := by
  rw [decay_real]; exact le_boostEnd _ _ h

example : 0 < (⟨1500, 50⟩ : GlickoBoostRating ℝ).deviation ∧
    (⟨1500, 50⟩ : GlickoBoostRating ℝ).deviation ≤ 350 := by norm_num

/-! ### C44: direction -/

theorem C44_glickoBoost_win (a b : GlickoBoostRating ℝ) (c : GlickoBoostConfig ℝ)
    (ha : 0 < a.deviation) (hb : 0 < b.deviation) (h0 : 0 ≤ c.b.1) (h1 : 0 ≤ c.b.2) :
    a.rating < (glickoBoost a b .WIN c).1.rating ∧
      (glickoBoost a b .WIN c).2.rating < b.rating := by
  rw [glickoBoost_real]
  have k1 := boostRd1_pos (params c) a.rating [game (b, .WIN, true)] ha h0 h1
  have k2 := boostRd1_pos (params c) b.rating [game (a, mirror .WIN, false)] hb h0 h1
  have g1 := glickoG_pos b.deviation
  have g2 := glickoG_pos a.deviation
  have hq := glickoQ_pos
  have e1 : boostE (params c) a.rating (game (b, .WIN, true)) < 1 := glickoE_lt_one _ _ _
  have e2 : 0 < boostE (params c) b.rating (game (a, mirror .WIN, false)) := glickoE_pos _ _ _
  simp only [updated, boostRating, List.map_cons, List.map_nil, List.sum_cons, List.sum_nil,
    add_zero]
  constructor
  · apply lt_add_of_pos_right
    exact mul_pos (by positivity) (mul_pos g1 (by simp only [game, points] at e1 ⊢; linarith))
  · apply add_lt_of_neg_right
    exact mul_neg_of_pos_of_neg (by positivity) (mul_neg_of_pos_of_neg g2 (by
      simp only [game, points, mirror] at e2 ⊢; linarith))

theorem C44_glickoBoost_loss (a b : GlickoBoostRating ℝ) (c : GlickoBoostConfig ℝ)
    (ha : 0 < a.deviation) (hb : 0 < b.deviation) (h0 : 0 ≤ c.b.1) (h1 : 0 ≤ c.b.2) :
    (glickoBoost a b .LOSS c).1.rating < a.rating ∧
      b.rating < (glickoBoost a b .LOSS c).2.rating := by
  rw [glickoBoost_real]
  have k1 := boostRd1_pos (params c) a.rating [game (b, .LOSS, true)] ha h0 h1
  have k2 := boostRd1_pos (params c) b.rating [game (a, mirror .LOSS, false)] hb h0 h1
  have g1 := glickoG_pos b.deviation
  have g2 := glickoG_pos a.deviation
  have hq := glickoQ_pos
  have e1 : 0 < boostE (params c) a.rating (game (b, .LOSS, true)) := glickoE_pos _ _ _
  have e2 : boostE (params c) b.rating (game (a, mirror .LOSS, false)) < 1 := glickoE_lt_one _ _ _
  simp only [updated, boostRating, List.map_cons, List.map_nil, List.sum_cons, List.sum_nil,
    add_zero]
  constructor
  · apply add_lt_of_neg_right
    exact mul_neg_of_pos_of_neg (by positivity) (mul_neg_of_pos_of_neg g1 (by
      simp only [game, points] at e1 ⊢; linarith))
  · apply lt_add_of_pos_right
    exact mul_pos (by positivity) (mul_pos g2 (by
      simp only [game, points, mirror] at e2 ⊢; linarith))

/-- Unless the performance is exceptional the deviation before the final increase is the one of
Glicko (with `c = 0`). -/
theorem C44_glickoBoost_ordinary (a b : GlickoBoostRating ℝ) (o : Outcomes)
    (c : GlickoBoostConfig ℝ) (ha : 0 < a.deviation) (ha' : a.deviation ≤ 350)
    (hz : c.k = 0 ∨ boostZ ⟨c.eta, c.k, c.b.1, c.b.2, c.alpha.a0, c.alpha.a1, c.alpha.a2,
      c.alpha.a3, c.alpha.a4⟩ a.rating [⟨b.rating, b.deviation, points o, true⟩] ≤ c.k) :
    let v := posterior (a.deviation ^ 2) (glickoInfo (a.rating + c.eta) b.rating b.deviation)
    (glickoBoost a b o c).1.rating = a.rating + glickoQ * v
        * (glickoG b.deviation * (points o - glickoE (a.rating + c.eta) b.rating b.deviation)) ∧
      (glickoBoost a b o c).1.deviation =
        boostEnd ⟨c.eta, c.k, c.b.1, c.b.2, c.alpha.a0, c.alpha.a1, c.alpha.a2, c.alpha.a3,
          c.alpha.a4⟩ √v (glickoBoost a b o c).1.rating := by
  intro v
  set P : BoostParams := ⟨c.eta, c.k, c.b.1, c.b.2, c.alpha.a0, c.alpha.a1, c.alpha.a2,
      c.alpha.a3, c.alpha.a4⟩ with hP
  set x : StickoGame := ⟨b.rating, b.deviation, points o, true⟩ with hx
  have hpre : boostPre P a.rating a.deviation [x] = a.deviation := by
    unfold boostPre
    rw [if_neg]
    rintro ⟨h1, h2⟩
    rcases hz with hz | hz
    · exact h2 hz
    · exact absurd h1 (not_lt.2 hz)
  have hE : boostE P a.rating x = glickoE (a.rating + c.eta) b.rating b.deviation := by
    simp [boostE, hP, hx, colour]
  have hinfo : boostInfo P a.rating [x] = glickoInfo (a.rating + c.eta) b.rating b.deviation := by
    change glickoQ ^ 2 * (glickoG b.deviation ^ 2 * boostE P a.rating x
      * (1 - boostE P a.rating x) + 0) = glickoInfo (a.rating + c.eta) b.rating b.deviation
    rw [hE, glickoInfo]; ring
  have hvpos : 0 < v := posterior_pos (by positivity) (glickoInfo_pos _ _ _).le
  have hvle : √v ≤ 350 := by
    apply (Real.sqrt_le_sqrt (posterior_le (by positivity) (glickoInfo_pos _ _ _).le)).trans
    rw [Real.sqrt_sq ha.le]; exact ha'
  have hrd : boostRd1 P a.rating a.deviation [x] = √v := by
    rw [boostRd1, hpre, hinfo]; exact min_eq_left hvle
  have hf := C86_glickoBoost_formula a b o c
  have hr : (glickoBoost a b o c).1.rating = boostRating P a.rating a.deviation [x] := hf.1
  constructor
  · rw [hr, boostRating, hrd, Real.sq_sqrt hvpos.le]
    simp only [List.map_cons, List.map_nil, List.sum_cons, List.sum_nil, add_zero, boostDelta, hE]
    rfl
  · rw [hr, ← hrd]; exact hf.2.1

/-- After an exceptional performance the boosted deviation takes the place of the old one. -/
theorem C44_glickoBoost_exceptional (a b : GlickoBoostRating ℝ) (o : Outcomes)
    (c : GlickoBoostConfig ℝ) (hk : c.k ≠ 0)
    (hz : c.k < boostZ ⟨c.eta, c.k, c.b.1, c.b.2, c.alpha.a0, c.alpha.a1, c.alpha.a2,
      c.alpha.a3, c.alpha.a4⟩ a.rating [⟨b.rating, b.deviation, points o, true⟩]) :
    let z := boostZ ⟨c.eta, c.k, c.b.1, c.b.2, c.alpha.a0, c.alpha.a1, c.alpha.a2,
      c.alpha.a3, c.alpha.a4⟩ a.rating [⟨b.rating, b.deviation, points o, true⟩]
    let i := glickoInfo (a.rating + c.eta) b.rating b.deviation
    let boosted := (1 + (z - c.k) * c.b.1) * √(posterior (a.deviation ^ 2) i) + c.b.2
    let rd := min √(posterior (boosted ^ 2) i) 350
    (glickoBoost a b o c).1.rating = a.rating + glickoQ * rd ^ 2
        * (glickoG b.deviation * (points o - glickoE (a.rating + c.eta) b.rating b.deviation)) ∧
      (glickoBoost a b o c).1.deviation =
        boostEnd ⟨c.eta, c.k, c.b.1, c.b.2, c.alpha.a0, c.alpha.a1, c.alpha.a2, c.alpha.a3,
          c.alpha.a4⟩ rd (glickoBoost a b o c).1.rating := by
  intro z i boosted rd
  set P : BoostParams := ⟨c.eta, c.k, c.b.1, c.b.2, c.alpha.a0, c.alpha.a1, c.alpha.a2,
      c.alpha.a3, c.alpha.a4⟩ with hP
  set x : StickoGame := ⟨b.rating, b.deviation, points o, true⟩ with hx
  have hE : boostE P a.rating x = glickoE (a.rating + c.eta) b.rating b.deviation := by
    simp [boostE, hP, hx, colour]
  have hinfo : boostInfo P a.rating [x] = i := by
    change glickoQ ^ 2 * (glickoG b.deviation ^ 2 * boostE P a.rating x
      * (1 - boostE P a.rating x) + 0) = glickoInfo (a.rating + c.eta) b.rating b.deviation
    rw [hE, glickoInfo]; ring
  have hpre : boostPre P a.rating a.deviation [x] = boosted := by
    unfold boostPre
    rw [if_pos ⟨hz, hk⟩, hinfo]
  have hrd : boostRd1 P a.rating a.deviation [x] = rd := by
    rw [boostRd1, hpre, hinfo]
  have hf := C86_glickoBoost_formula a b o c
  have hr : (glickoBoost a b o c).1.rating = boostRating P a.rating a.deviation [x] := hf.1
  constructor
  · rw [hr, boostRating, hrd]
    simp only [List.map_cons, List.map_nil, List.sum_cons, List.sum_nil, add_zero, boostDelta, hE]
    rfl
  · rw [hr, ← hrd]; exact hf.2.1

/-- A loss is never exceptional for `k ≥ 0`. -/
theorem boostZ_loss (P : BoostParams) (r rj rdj : ℝ) (f : Bool) :
    boostZ P r [⟨rj, rdj, 0, f⟩] < 0 := by
  have h1 := boostVar_pos P r ⟨rj, rdj, 0, f⟩
  have h2 : 0 < boostE P r ⟨rj, rdj, 0, f⟩ := glickoE_pos _ _ _
  have h3 := glickoG_pos rdj
  simp only [boostZ, List.map_cons, List.map_nil, List.sum_cons, List.sum_nil, add_zero, boostDelta]
  apply div_neg_of_neg_of_pos
  · exact mul_neg_of_pos_of_neg h3 (by linarith)
  · exact Real.sqrt_pos.2 h1

example (c : GlickoBoostConfig ℝ) (hc : 0 ≤ c.k) : boostZ ⟨c.eta, c.k, c.b.1, c.b.2, c.alpha.a0,
    c.alpha.a1, c.alpha.a2, c.alpha.a3, c.alpha.a4⟩ 1500 [⟨1700, 30, points .LOSS, true⟩] ≤ c.k :=
  (boostZ_loss _ _ _ _ _).le.trans hc

/-- A win of an equal player has `z = 1`, which is exceptional for `k = 1/2`. -/
example : (1 / 2 : ℝ) < boostZ ⟨0, 1 / 2, 0, 0, 0, 0, 0, 0, 0⟩ 1500
    [⟨1500, 0, points .WIN, true⟩] := by
  have hE : boostE ⟨0, 1 / 2, 0, 0, 0, 0, 0, 0, 0⟩ 1500 ⟨1500, 0, 1, true⟩ = 1 / 2 := by
    norm_num [boostE, glickoE]
  have hG : glickoG 0 = 1 := by norm_num [glickoG]
  simp only [points]
  simp only [boostZ, List.map_cons, List.map_nil, List.sum_cons, List.sum_nil, boostDelta,
    boostVar, hE, hG]
  rw [show (1 : ℝ) ^ 2 * (1 / 2) * (1 - 1 / 2) + 0 = (1 / 2) ^ 2 by norm_num,
    Real.sqrt_sq (by norm_num)]
  norm_num

/-! ### C45: periods -/

theorem C45_glickoBoost_period_nil {F : Type} [Flt F] (p : GlickoBoostRating F)
    (c : GlickoBoostConfig F) :
    glickoBoostRatingPeriod p [] c = decayDeviation p c ∧
      (decayDeviation p c).rating = p.rating := ⟨rfl, rfl⟩

theorem C45_glickoBoost_period_single_first (p b : GlickoBoostRating ℝ) (o : Outcomes)
    (c : GlickoBoostConfig ℝ) :
    glickoBoostRatingPeriod p [(b, o, true)] c = (glickoBoost p b o c).1 := by
  rw [period_real p _ c (by simp), glickoBoost_real]; rfl

theorem C45_glickoBoost_period_single_second (p b : GlickoBoostRating ℝ) (o : Outcomes)
    (c : GlickoBoostConfig ℝ) :
    glickoBoostRatingPeriod p [(b, o, false)] c = (glickoBoost b p (mirror o) c).2 := by
  rw [period_real p _ c (by simp), glickoBoost_real]
  cases o <;> rfl

theorem C45_glickoBoost_period_perm (p : GlickoBoostRating ℝ)
    (rs ss : List (GlickoBoostRating ℝ × Outcomes × Bool)) (c : GlickoBoostConfig ℝ)
    (h : rs.Perm ss) :
    glickoBoostRatingPeriod p rs c = glickoBoostRatingPeriod p ss c := by
  by_cases hr : rs = []
  · subst hr; rw [h.symm.eq_nil]
  · have hs : ss ≠ [] := by rintro rfl; exact hr h.eq_nil
    rw [period_real p rs c hr, period_real p ss c hs]
    have hd : (List.map (boostDelta (params c) p.rating) (rs.map game)).sum
        = (List.map (boostDelta (params c) p.rating) (ss.map game)).sum := ((h.map _).map _).sum_eq
    have hv : (List.map (boostVar (params c) p.rating) (rs.map game)).sum
        = (List.map (boostVar (params c) p.rating) (ss.map game)).sum := ((h.map _).map _).sum_eq
    have hp : boostPre (params c) p.rating p.deviation (rs.map game)
        = boostPre (params c) p.rating p.deviation (ss.map game) := by
      unfold boostPre boostZ boostInfo
      rw [hd, hv]
    simp only [updated, boostRating, boostRd1, hp, boostInfo, hd, hv]

example (x y : GlickoBoostRating ℝ) :
    [(x, Outcomes.WIN, true), (y, .LOSS, false)].Perm [(y, .LOSS, false), (x, .WIN, true)] :=
  List.Perm.swap _ _ _

/-! ### C46: Glicko-Boost with `eta = 0` is not Glicko -/

/-- The part of the documented claim that holds. -/
theorem C46_glickoBoost_expected_partial (a b : GlickoBoostRating ℝ) (c : GlickoBoostConfig ℝ)
    (h : c.eta = 0) :
    expectedScore a b c =
      Glicko.expectedScore ⟨a.rating, a.deviation⟩ ⟨b.rating, b.deviation⟩ := by
  rw [expectedScore_real, Glicko.expectedScore_real, h, add_zero]

/-- The default parameters with `eta = 0` and any `k ≥ 0` and `b`: there are players whose
deviation after a game is not what any `c` gives in Glicko. -/
theorem C46_glickoBoost_not_glicko (k : ℝ) (b : ℝ × ℝ) (hk : 0 ≤ k) :
    ∃ x y : GlickoBoostRating ℝ, ∀ c : ℝ,
      (glickoBoost x y .LOSS ⟨0, k, b, (GlickoBoostConfig.new : GlickoBoostConfig ℝ).alpha⟩).1.deviation
        ≠ (Glicko.glicko ⟨x.rating, x.deviation⟩ ⟨y.rating, y.deviation⟩ .LOSS ⟨c⟩).1.deviation := by
  refine ⟨⟨1500, 350⟩, ⟨5500, 30⟩, fun c => ?_⟩
  set α := (GlickoBoostConfig.new : GlickoBoostConfig ℝ).alpha with hα
  have hlt : (Glicko.glicko (⟨1500, 350⟩ : Glicko.GlickoRating ℝ) ⟨5500, 30⟩ .LOSS ⟨c⟩).1.deviation
      < 350 := by
    rw [Glicko.glicko_real]
    exact (Glicko.rated_deviation_lt _ _ _ _ _ (by norm_num)).trans_le (glickoOnset_le _ _)
  have hord := C44_glickoBoost_ordinary (⟨1500, 350⟩ : GlickoBoostRating ℝ) ⟨5500, 30⟩ .LOSS
    ⟨0, k, b, α⟩ (by norm_num) (by norm_num)
    (Or.inr ((boostZ_loss _ _ _ _ _).le.trans hk))
  simp only [add_zero] at hord
  set v := posterior ((350 : ℝ) ^ 2) (glickoInfo 1500 5500 30) with hv
  have hq0 := glickoQ_pos
  have hq1 := glickoQ_lt
  have hq2 : 0.005756 < glickoQ := by unfold glickoQ; linarith [log_ten_gt]
  -- the information is tiny
  have hg : 1 / 2 ≤ glickoG 30 := by
    unfold glickoG
    apply one_div_le_one_div_of_le (Real.sqrt_pos.2 (glickoG_radicand_pos 30))
    rw [show (2 : ℝ) = √(2 ^ 2) by rw [Real.sqrt_sq (by norm_num)]]
    apply Real.sqrt_le_sqrt
    have hpi : 1 ≤ Real.pi ^ 2 := by nlinarith [Real.two_le_pi]
    have h1 : 3 * glickoQ ^ 2 * 30 ^ 2 / Real.pi ^ 2 ≤ 3 * glickoQ ^ 2 * 30 ^ 2 :=
      div_le_self (by positivity) hpi
    have h2 : glickoQ ^ 2 ≤ 0.0057565 ^ 2 := pow_le_pow_left₀ hq0.le hq1.le 2
    norm_num at h2 ⊢
    linarith
  have he : glickoE 1500 5500 30 ≤ 1 / 20000 := by
    rw [glickoE_eq, sigmoid_def]
    have h1 : (10 : ℝ) ≤ -(glickoQ * (glickoG 30 * (1500 - 5500))) := by nlinarith
    have h2 : exp 10 ≤ exp (-(glickoQ * (glickoG 30 * (1500 - 5500)))) := Real.exp_le_exp.2 h1
    have h3 : (20000 : ℝ) ≤ exp 10 := by
      have : exp 10 = exp 1 ^ 10 := by rw [← Real.exp_nat_mul]; norm_num
      rw [this]
      calc (20000 : ℝ) ≤ 2.7182818283 ^ 10 := by norm_num
        _ ≤ exp 1 ^ 10 := pow_le_pow_left₀ (by norm_num) Real.exp_one_gt_d9.le 10
    rw [← one_div]
    apply one_div_le_one_div_of_le (by norm_num)
    linarith
  have he0 := glickoE_pos 1500 5500 30
  have hi0 := glickoInfo_pos 1500 5500 30
  have hi : glickoInfo 1500 5500 30 ≤ 1.7e-9 := by
    unfold glickoInfo
    have h1 : glickoQ ^ 2 ≤ 0.0057565 ^ 2 := pow_le_pow_left₀ hq0.le hq1.le 2
    have h2 : glickoG 30 ^ 2 ≤ 1 := pow_le_one₀ (glickoG_pos 30).le (glickoG_le_one 30)
    have h3 : 1 - glickoE 1500 5500 30 ≤ 1 := by linarith
    have h4 : 0 ≤ 1 - glickoE 1500 5500 30 := by linarith [glickoE_lt_one 1500 5500 30]
    calc glickoQ ^ 2 * glickoG 30 ^ 2 * glickoE 1500 5500 30 * (1 - glickoE 1500 5500 30)
        ≤ 0.0057565 ^ 2 * 1 * (1 / 20000) * 1 := by gcongr
      _ ≤ _ := by norm_num
  have hv1 : 350 ^ 2 - 30 ≤ v := by
    rw [hv, posterior]
    rw [le_div_iff₀ (by positivity)]
    nlinarith
  have hv2 : v ≤ 350 ^ 2 := posterior_le (by norm_num) hi0.le
  have hv0 : 0 < v := by linarith
  -- the rating stays in a moderate range
  set r := (glickoBoost (⟨1500, 350⟩ : GlickoBoostRating ℝ) ⟨5500, 30⟩ .LOSS
    ⟨0, k, b, α⟩).1.rating with hr
  have hrle : r ≤ 1500 ∧ 0 ≤ r := by
    rw [hord.1]
    have h2 := glickoG_pos 30
    have h3 := glickoG_le_one 30
    have hA : 0 ≤ glickoQ * v * (glickoG 30 * glickoE 1500 5500 30) := by positivity
    have hB : glickoQ * v * (glickoG 30 * glickoE 1500 5500 30) ≤
        0.0057565 * 350 ^ 2 * (1 * (1 / 20000)) := by gcongr
    simp only [points]
    constructor
    · nlinarith
    · norm_num at hB ⊢; nlinarith
  have hdev : 350 ≤ (glickoBoost (⟨1500, 350⟩ : GlickoBoostRating ℝ) ⟨5500, 30⟩ .LOSS
      ⟨0, k, b, α⟩).1.deviation := by
    rw [hord.2, boostEnd]
    apply le_min _ le_rfl
    apply Real.le_sqrt_of_sq_le
    rw [Real.sq_sqrt hv0.le]
    have hs0 : 0 ≤ √v := Real.sqrt_nonneg _
    have hs1 : √v ≤ 350 := by
      apply (Real.sqrt_le_sqrt hv2).trans
      rw [Real.sqrt_sq (by norm_num)]
    have h5 : (5 : ℝ) ≤ α.a0 + α.a1 * √v + α.a2 * √v * (r / 1000) + α.a3 * (r / 1000)
        + α.a4 * (r / 1000) ^ 2 := by
      have t1 : 0 ≤ r / 1000 := by linarith [hrle.2]
      have t2 : r / 1000 ≤ 3 / 2 := by linarith [hrle.1]
      have t3 : √v * (r / 1000) ≤ 350 * (3 / 2) := by gcongr
      have t4 : 0 ≤ (r / 1000) ^ 2 := by positivity
      simp only [hα, GlickoBoostConfig.new]
      norm_num
      nlinarith
    have h6 : exp 5 ≤ exp (α.a0 + α.a1 * √v + α.a2 * √v * (r / 1000) + α.a3 * (r / 1000)
        + α.a4 * (r / 1000) ^ 2) := Real.exp_le_exp.2 h5
    have h7 : (30 : ℝ) ≤ exp 5 := by
      have : exp 5 = exp 1 ^ 5 := by rw [← Real.exp_nat_mul]; norm_num
      rw [this]
      calc (30 : ℝ) ≤ 2.7182818283 ^ 5 := by norm_num
        _ ≤ exp 1 ^ 5 := pow_le_pow_left₀ (by norm_num) Real.exp_one_gt_d9.le 5
    linarith
  intro h
  rw [h] at hdev
  linarith

example : (0 : ℝ) ≤ 1.96 := by norm_num

/-! ### C34: confidence intervals -/

theorem C34_glickoBoost_confidence (p : GlickoBoostRating ℝ) :
    ((confidenceInterval p).1 + (confidenceInterval p).2) / 2 = p.rating ∧
      (confidenceInterval p).2 - (confidenceInterval p).1 = 3.92 * p.deviation ∧
      (0 ≤ p.deviation → (confidenceInterval p).1 ≤ p.rating ∧
        p.rating ≤ (confidenceInterval p).2) := by
  simp only [confidenceInterval, Flt.mulAdd_real]
  refine ⟨by ring, by ring, fun h => ⟨by linarith, by linarith⟩⟩

theorem C34_glickoBoost_confidence_mono (r d d' : ℝ) (h : d ≤ d') :
    (confidenceInterval (⟨r, d'⟩ : GlickoBoostRating ℝ)).1 ≤
        (confidenceInterval (⟨r, d⟩ : GlickoBoostRating ℝ)).1 ∧
      (confidenceInterval (⟨r, d⟩ : GlickoBoostRating ℝ)).2 ≤
        (confidenceInterval (⟨r, d'⟩ : GlickoBoostRating ℝ)).2 := by
  simp only [confidenceInterval, Flt.mulAdd_real]
  constructor <;> linarith

end Skillratings.GlickoBoost
