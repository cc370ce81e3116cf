import Verif.Proofs.Glicko
/-
Properties of /repo/src/glicko.rs: C28 - C34.
-/
namespace Skillratings.Glicko
open Real Spec

/-! ### C28: expected scores -/

theorem C28_glicko_expected_formula (a b : GlickoRating ℝ) :
    (expectedScore a b).1 = glickoE a.rating b.rating √(a.deviation ^ 2 + b.deviation ^ 2) := by
  rw [expectedScore_real]

theorem C28_glicko_expected_probability (a b : GlickoRating ℝ) :
    ProbabilityPair (expectedScore a b) := by
  rw [expectedScore_real, glickoE_eq]; exact probabilityPair_sigmoid _

theorem C28_glicko_expected_swap (a b : GlickoRating ℝ) :
    expectedScore b a = ((expectedScore a b).2, (expectedScore a b).1) := by
  have h : ∀ g : ℝ, glickoQ * (g * (b.rating - a.rating))
      = -(glickoQ * (g * (a.rating - b.rating))) := fun g => by ring
  simp [expectedScore_real, glickoE_eq, h, sigmoid_neg, add_comm (b.deviation ^ 2)]

theorem C28_glicko_expected_strictMono_own (a b : GlickoRating ℝ) (r' : ℝ) (h : a.rating < r') :
    (expectedScore a b).1 < (expectedScore { a with rating := r' } b).1 := by
  simp only [expectedScore_real, glickoE_eq, sigmoid_lt_iff]
  have := glickoQ_pos
  have := glickoG_pos √(a.deviation ^ 2 + b.deviation ^ 2)
  gcongr

theorem C28_glicko_expected_strictAnti_opponent (a b : GlickoRating ℝ) (r' : ℝ)
    (h : b.rating < r') :
    (expectedScore a { b with rating := r' }).1 < (expectedScore a b).1 := by
  simp only [expectedScore_real, glickoE_eq, sigmoid_lt_iff]
  have := glickoQ_pos
  have := glickoG_pos √(a.deviation ^ 2 + b.deviation ^ 2)
  gcongr

/-- Uncertainty pulls the expectation of the favourite towards (but not to) one half. -/
theorem C28_glicko_expected_uncertainty (a b a' b' : GlickoRating ℝ)
    (ha : a'.rating = a.rating) (hb : b'.rating = b.rating)
    (hd : a.deviation ^ 2 + b.deviation ^ 2 < a'.deviation ^ 2 + b'.deviation ^ 2)
    (h : b.rating < a.rating) :
    1 / 2 < (expectedScore a' b').1 ∧ (expectedScore a' b').1 < (expectedScore a b).1 := by
  have hq := glickoQ_pos
  have hg := glickoG_pos √(a'.deviation ^ 2 + b'.deviation ^ 2)
  have hg' : glickoG √(a'.deviation ^ 2 + b'.deviation ^ 2)
      < glickoG √(a.deviation ^ 2 + b.deviation ^ 2) := by
    apply glickoG_lt_of_sq_lt
    rw [Real.sq_sqrt (by positivity), Real.sq_sqrt (by positivity)]
    exact hd
  have hr : 0 < a.rating - b.rating := by linarith
  simp only [expectedScore_real, glickoE_eq, sigmoid_lt_iff, ha, hb]
  constructor
  · rw [one_div, ← sigmoid_zero, sigmoid_lt_iff]
    positivity
  · gcongr

/-- The list variant is the pairwise function, in any arithmetic. -/
theorem C28_glicko_expected_list {F : Type} [Flt F] (a : GlickoRating F)
    (os : List (GlickoRating F)) :
    expectedScoreRatingPeriod a os = os.map fun o => (expectedScore a o).1 := rfl

example : (1600 : ℝ) ^ 2 + 50 ^ 2 < 1600 ^ 2 + 60 ^ 2 ∧ (1500 : ℝ) < 1600 := by norm_num

/-! ### C29: the published update -/

theorem C29_glicko_formula (a b : GlickoRating ℝ) (o : Outcomes) (c : GlickoConfig ℝ) :
    let va := posterior (glickoOnset a.deviation c.c ^ 2) (glickoInfo a.rating b.rating b.deviation)
    let vb := posterior (glickoOnset b.deviation c.c ^ 2) (glickoInfo b.rating a.rating a.deviation)
    (glicko a b o c).1.rating = a.rating + glickoQ * va
        * (glickoG b.deviation * (points o - glickoE a.rating b.rating b.deviation)) ∧
      (glicko a b o c).1.deviation = √va ∧
      (glicko a b o c).2.rating = b.rating + glickoQ * vb
        * (glickoG a.deviation * (points (mirror o) - glickoE b.rating a.rating a.deviation)) ∧
      (glicko a b o c).2.deviation = √vb := by
  rw [glicko_real, points_mirror]
  exact ⟨rfl, rfl, rfl, rfl⟩

theorem C29_glicko_period_formula (p : GlickoRating ℝ) (rs : List (GlickoRating ℝ × Outcomes))
    (c : GlickoConfig ℝ) (h : rs ≠ []) :
    let info := (rs.map fun r => glickoInfo p.rating r.1.rating r.1.deviation).sum
    let v := posterior (glickoOnset p.deviation c.c ^ 2) info
    (glickoRatingPeriod p rs c).rating = p.rating + glickoQ * v *
        (rs.map fun r => glickoG r.1.deviation
          * (points r.2 - glickoE p.rating r.1.rating r.1.deviation)).sum ∧
      (glickoRatingPeriod p rs c).deviation = √v := by
  rw [period_real p rs c h]
  exact ⟨rfl, rfl⟩

/-- An equal opponent of deviation 0, for a new player without `c`: with `x = 350 q`, the gain is
`350 x / (2 + x²/2)`. -/
example : (glicko (⟨1500, 350⟩ : GlickoRating ℝ) ⟨1500, 0⟩ .WIN ⟨0⟩).1.rating =
    1500 + 350 * (350 * glickoQ) / (2 + (350 * glickoQ) ^ 2 / 2) := by
  have hE : glickoE 1500 1500 0 = 1 / 2 := by norm_num [glickoE]
  have hG : glickoG 0 = 1 := by norm_num [glickoG]
  have hO : glickoOnset 350 0 = 350 := by
    unfold glickoOnset
    rw [show (350 : ℝ) ^ 2 + 0 ^ 2 = 350 ^ 2 by norm_num, Real.sqrt_sq (by norm_num), min_self]
  rw [(C29_glicko_formula _ _ _ _).1]
  simp only [glickoInfo, hE, hG, hO, points, posterior]
  have := glickoQ_pos
  field_simp
  ring

/-! ### C30: deviations stay in range -/

/-- What can happen to a player. -/
inductive Event
  | first (opponent : GlickoRating ℝ) (outcome : Outcomes) (config : GlickoConfig ℝ)
  | second (opponent : GlickoRating ℝ) (outcome : Outcomes) (config : GlickoConfig ℝ)
  | period (results : List (GlickoRating ℝ × Outcomes)) (config : GlickoConfig ℝ)
  | decay (config : GlickoConfig ℝ)

/-- The player after an event. -/
noncomputable def Event.apply (p : GlickoRating ℝ) : Event → GlickoRating ℝ
  | .first b o c => (glicko p b o c).1
  | .second a o c => (glicko a p o c).2
  | .period rs c => glickoRatingPeriod p rs c
  | .decay c => decayDeviation p c

theorem decay_real (p : GlickoRating ℝ) (c : GlickoConfig ℝ) :
    decayDeviation p c = ⟨p.rating, glickoOnset p.deviation c.c⟩ := by
  simp only [decayDeviation, onset_real]

theorem C30_glicko_game_deviation (a b : GlickoRating ℝ) (o : Outcomes) (c : GlickoConfig ℝ)
    (h : 0 < a.deviation) :
    0 < (glicko a b o c).1.deviation ∧
      (glicko a b o c).1.deviation < min √(a.deviation ^ 2 + c.c ^ 2) 350 := by
  rw [glicko_real]
  exact ⟨rated_deviation_pos _ _ _ _ _ h, rated_deviation_lt _ _ _ _ _ h⟩

theorem C30_glicko_game_deviation_second (a b : GlickoRating ℝ) (o : Outcomes)
    (c : GlickoConfig ℝ) (h : 0 < b.deviation) :
    0 < (glicko a b o c).2.deviation ∧
      (glicko a b o c).2.deviation < min √(b.deviation ^ 2 + c.c ^ 2) 350 := by
  rw [glicko_real]
  exact ⟨rated_deviation_pos _ _ _ _ _ h, rated_deviation_lt _ _ _ _ _ h⟩

theorem C30_glicko_period_deviation (p : GlickoRating ℝ) (rs : List (GlickoRating ℝ × Outcomes))
    (c : GlickoConfig ℝ) (h : 0 < p.deviation) (hr : rs ≠ []) :
    0 < (glickoRatingPeriod p rs c).deviation ∧
      (glickoRatingPeriod p rs c).deviation < min √(p.deviation ^ 2 + c.c ^ 2) 350 := by
  rw [(C29_glicko_period_formula p rs c hr).2]
  have h1 := glickoOnset_pos c.c h
  have hi : 0 < (rs.map fun r => glickoInfo p.rating r.1.rating r.1.deviation).sum :=
    List_sum_pos rs _ hr fun r => glickoInfo_pos _ _ _
  have h2 := posterior_pos (v := glickoOnset p.deviation c.c ^ 2) (by positivity) hi.le
  refine ⟨Real.sqrt_pos.2 h2, ?_⟩
  calc _ < √(glickoOnset p.deviation c.c ^ 2) :=
        Real.sqrt_lt_sqrt h2.le (posterior_lt (by positivity) hi)
    _ = glickoOnset p.deviation c.c := Real.sqrt_sq h1.le

theorem C30_glicko_history (p : GlickoRating ℝ) (es : List Event)
    (h : 0 < p.deviation ∧ p.deviation ≤ 350) :
    0 < (es.foldl Event.apply p).deviation ∧ (es.foldl Event.apply p).deviation ≤ 350 := by
  induction es generalizing p with
  | nil => exact h
  | cons e es ih =>
    rw [List.foldl_cons]
    apply ih
    have hdecay : ∀ c, 0 < (decayDeviation p c).deviation ∧ (decayDeviation p c).deviation ≤ 350 := by
      intro c
      rw [decay_real]
      exact ⟨glickoOnset_pos _ h.1, glickoOnset_le _ _⟩
    cases e with
    | first b o c =>
      have := C30_glicko_game_deviation p b o c h.1
      exact ⟨this.1, (this.2.trans_le (min_le_right _ _)).le⟩
    | second a o c =>
      have := C30_glicko_game_deviation_second a p o c h.1
      exact ⟨this.1, (this.2.trans_le (min_le_right _ _)).le⟩
    | period rs c =>
      by_cases hr : rs = []
      · subst hr
        exact hdecay c
      · have := C30_glicko_period_deviation p rs c h.1 hr
        exact ⟨this.1, (this.2.trans_le (min_le_right _ _)).le⟩
    | decay c => exact hdecay c

example : 0 < (GlickoRating.new : GlickoRating ℝ).deviation ∧
    (GlickoRating.new : GlickoRating ℝ).deviation ≤ 350 := by
  norm_num [GlickoRating.new]

/-! ### C31: direction -/

theorem C31_glicko_win (a b : GlickoRating ℝ) (c : GlickoConfig ℝ)
    (ha : 0 < a.deviation) (hb : 0 < b.deviation) :
    a.rating < (glicko a b .WIN c).1.rating ∧ (glicko a b .WIN c).2.rating < b.rating := by
  rw [glicko_real]
  obtain ⟨k, hk, -, e⟩ := rated_change a.rating b.rating b.deviation (points .WIN) c.c ha
  obtain ⟨k', hk', -, e'⟩ := rated_change b.rating a.rating a.deviation (1 - points .WIN) c.c hb
  have h1 := glickoE_lt_one a.rating b.rating b.deviation
  have h2 := glickoE_pos b.rating a.rating a.deviation
  simp only [e, e']
  simp only [points]
  constructor <;> nlinarith

theorem C31_glicko_loss (a b : GlickoRating ℝ) (c : GlickoConfig ℝ)
    (ha : 0 < a.deviation) (hb : 0 < b.deviation) :
    (glicko a b .LOSS c).1.rating < a.rating ∧ b.rating < (glicko a b .LOSS c).2.rating := by
  rw [glicko_real]
  obtain ⟨k, hk, -, e⟩ := rated_change a.rating b.rating b.deviation (points .LOSS) c.c ha
  obtain ⟨k', hk', -, e'⟩ := rated_change b.rating a.rating a.deviation (1 - points .LOSS) c.c hb
  have h1 := glickoE_pos a.rating b.rating b.deviation
  have h2 := glickoE_lt_one b.rating a.rating a.deviation
  simp only [e, e']
  simp only [points]
  constructor <;> nlinarith

theorem C31_glicko_bound (a b : GlickoRating ℝ) (o : Outcomes) (c : GlickoConfig ℝ)
    (ha : 0 < a.deviation) :
    |(glicko a b o c).1.rating - a.rating| < log 10 / 400 * 350 ^ 2 ∧
      log 10 / 400 * 350 ^ 2 < 706 := by
  constructor
  · rw [glicko_real]
    obtain ⟨k, hk, hk', e⟩ := rated_change a.rating b.rating b.deviation (points o) c.c ha
    have h := points_sub_abs_lt o (glickoE_pos a.rating b.rating b.deviation)
      (glickoE_lt_one a.rating b.rating b.deviation)
    simp only [e]
    rw [add_sub_cancel_left, abs_mul, abs_of_pos hk]
    calc k * |points o - glickoE a.rating b.rating b.deviation| < k * 1 :=
          mul_lt_mul_of_pos_left h hk
      _ ≤ _ := by rw [mul_one]; exact hk'
  · linarith [log_ten_lt]

/-- Both seats are treated alike. -/
theorem C31_glicko_swap (a b : GlickoRating ℝ) (o : Outcomes) (c : GlickoConfig ℝ) :
    glicko b a (mirror o) c = ((glicko a b o c).2, (glicko a b o c).1) := by
  rw [glicko_real, glicko_real, points_mirror]
  simp

/-- Adding a constant to both ratings adds it to the results. -/
theorem C31_glicko_shift (a b : GlickoRating ℝ) (o : Outcomes) (c : GlickoConfig ℝ) (t : ℝ) :
    glicko ⟨a.rating + t, a.deviation⟩ ⟨b.rating + t, b.deviation⟩ o c =
      (⟨(glicko a b o c).1.rating + t, (glicko a b o c).1.deviation⟩,
       ⟨(glicko a b o c).2.rating + t, (glicko a b o c).2.deviation⟩) := by
  have hE : ∀ r s rd : ℝ, glickoE (r + t) (s + t) rd = glickoE r s rd := by
    intro r s rd; simp [glickoE]
  rw [glicko_real, glicko_real]
  simp only [rated, glickoInfo, hE]
  rw [Prod.mk.injEq]
  constructor <;>
  · congr 1
    ring

example : 0 < (⟨1700, 30⟩ : GlickoRating ℝ).deviation := by norm_num

/-! ### C32: periods -/

theorem C32_glicko_period_nil {F : Type} [Flt F] (p : GlickoRating F) (c : GlickoConfig F) :
    glickoRatingPeriod p [] c = decayDeviation p c ∧ (decayDeviation p c).rating = p.rating :=
  ⟨rfl, rfl⟩

theorem C32_glicko_period_single (p b : GlickoRating ℝ) (o : Outcomes) (c : GlickoConfig ℝ) :
    glickoRatingPeriod p [(b, o)] c = (glicko p b o c).1 := by
  rw [period_real p _ c (by simp), glicko_real]
  simp [rated]

theorem C32_glicko_period_perm (p : GlickoRating ℝ) (rs ss : List (GlickoRating ℝ × Outcomes))
    (c : GlickoConfig ℝ) (h : rs.Perm ss) :
    glickoRatingPeriod p rs c = glickoRatingPeriod p ss c := by
  by_cases hr : rs = []
  · subst hr; rw [h.symm.eq_nil]
  · have hs : ss ≠ [] := by rintro rfl; exact hr h.eq_nil
    rw [period_real p rs c hr, period_real p ss c hs]
    simp only [(h.map _).sum_eq]

example (x y : GlickoRating ℝ) :
    [(x, Outcomes.WIN), (y, .LOSS)].Perm [(y, .LOSS), (x, .WIN)] := List.Perm.swap _ _ _

/-! ### C33: decay -/

/-- `n` idle periods in closed form. -/
theorem C33_glicko_decay_n (p : GlickoRating ℝ) (c : GlickoConfig ℝ) (n : ℕ)
    (h : 0 ≤ p.deviation) (h' : p.deviation ≤ 350) :
    (fun p => decayDeviation p c)^[n] p =
      ⟨p.rating, min √(p.deviation ^ 2 + n * c.c ^ 2) 350⟩ := by
  have key : (fun p => decayDeviation p c)^[n] p =
      ⟨p.rating, (fun x => glickoOnset x c.c)^[n] p.deviation⟩ := by
    induction n with
    | zero => rfl
    | succ n ih =>
      rw [Function.iterate_succ_apply', Function.iterate_succ_apply', ih, decay_real]
  have h1 := onset_iterate p.deviation c.c n
  rw [min_eq_left h'] at h1
  rcases h1 with h1 | h1
  · rw [key, h1]
  · linarith

theorem C33_glicko_decay_mono (p : GlickoRating ℝ) (c : GlickoConfig ℝ)
    (h : p.deviation ≤ 350) : p.deviation ≤ (decayDeviation p c).deviation := by
  rw [decay_real]
  apply le_min _ h
  apply Real.le_sqrt_of_sq_le
  nlinarith [sq_nonneg c.c]

example : 0 ≤ (⟨1500, 50⟩ : GlickoRating ℝ).deviation ∧
    (⟨1500, 50⟩ : GlickoRating ℝ).deviation ≤ 350 := by norm_num

/-! ### C34: confidence intervals -/

theorem C34_glicko_confidence (p : GlickoRating ℝ) :
    ((confidenceInterval p).1 + (confidenceInterval p).2) / 2 = p.rating ∧
      (confidenceInterval p).2 - (confidenceInterval p).1 = 3.92 * p.deviation ∧
      (0 ≤ p.deviation → (confidenceInterval p).1 ≤ p.rating ∧
        p.rating ≤ (confidenceInterval p).2) := by
  simp only [confidenceInterval, Flt.mulAdd_real]
  refine ⟨by ring, by ring, fun h => ⟨by linarith, by linarith⟩⟩

theorem C34_glicko_confidence_mono (r d d' : ℝ) (h : d ≤ d') :
    (confidenceInterval (⟨r, d'⟩ : GlickoRating ℝ)).1 ≤ (confidenceInterval (⟨r, d⟩ : GlickoRating ℝ)).1 ∧
      (confidenceInterval (⟨r, d⟩ : GlickoRating ℝ)).2 ≤ (confidenceInterval (⟨r, d'⟩ : GlickoRating ℝ)).2 := by
  simp only [confidenceInterval, Flt.mulAdd_real]
  constructor <;> linarith

example : confidenceInterval (⟨1500, 100⟩ : GlickoRating ℝ) = (1304, 1696) := by
  simp only [confidenceInterval, Flt.mulAdd_real]; norm_num

end Skillratings.Glicko
