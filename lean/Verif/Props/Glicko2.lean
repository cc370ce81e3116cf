import Verif.Proofs.Glicko2
/-
Properties of /repo/src/glicko2.rs: C34 (its part), C35 - C40, C87.
-/
namespace Skillratings.Glicko2
open Real Spec

/-! ### C34: confidence intervals -/

theorem C34_glicko2_confidence (p : Glicko2Rating ℝ) :
    ((confidenceInterval p).1 + (confidenceInterval p).2) / 2 = p.rating ∧
      (confidenceInterval p).2 - (confidenceInterval p).1 = 3.92 * p.deviation ∧
      (0 ≤ p.deviation → (confidenceInterval p).1 ≤ p.rating ∧
        p.rating ≤ (confidenceInterval p).2) := by
  simp only [confidenceInterval, Flt.mulAdd_real]
  refine ⟨by ring, by ring, fun h => ⟨by linarith, by linarith⟩⟩

theorem C34_glicko2_confidence_mono (r d d' s : ℝ) (h : d ≤ d') :
    (confidenceInterval (⟨r, d', s⟩ : Glicko2Rating ℝ)).1
        ≤ (confidenceInterval (⟨r, d, s⟩ : Glicko2Rating ℝ)).1 ∧
      (confidenceInterval (⟨r, d, s⟩ : Glicko2Rating ℝ)).2
        ≤ (confidenceInterval (⟨r, d', s⟩ : Glicko2Rating ℝ)).2 := by
  simp only [confidenceInterval, Flt.mulAdd_real]
  constructor <;> linarith

example : confidenceInterval (⟨1500, 100, 0.06⟩ : Glicko2Rating ℝ) = (1304, 1696) := by
  simp only [confidenceInterval, Flt.mulAdd_real]; norm_num

/-! ### C35: expected scores -/

theorem C35_glicko2_expected_formula (a b : Glicko2Rating ℝ) :
    (expectedScore a b).1 = glicko2E (glicko2Mu a.rating) (glicko2Mu b.rating)
      √(glicko2Phi a.deviation ^ 2 + glicko2Phi b.deviation ^ 2) := by
  rw [expectedScore_real, add_comm]

theorem C35_glicko2_expected_probability (a b : Glicko2Rating ℝ) :
    ProbabilityPair (expectedScore a b) := by
  rw [expectedScore_real, E_eq]; exact probabilityPair_sigmoid _

theorem C35_glicko2_expected_swap (a b : Glicko2Rating ℝ) :
    expectedScore b a = ((expectedScore a b).2, (expectedScore a b).1) := by
  have h : ∀ g : ℝ, g * (glicko2Mu b.rating - glicko2Mu a.rating)
      = -(g * (glicko2Mu a.rating - glicko2Mu b.rating)) := fun g => by ring
  simp [expectedScore_real, E_eq, h, sigmoid_neg, add_comm (glicko2Phi b.deviation ^ 2)]

theorem C35_glicko2_expected_strictMono_own (a b : Glicko2Rating ℝ) (r' : ℝ)
    (h : a.rating < r') :
    (expectedScore a b).1 < (expectedScore { a with rating := r' } b).1 := by
  simp only [expectedScore_real, E_eq, sigmoid_lt_iff, glicko2Mu]
  have := scale_pos
  have := G_pos √(glicko2Phi b.deviation ^ 2 + glicko2Phi a.deviation ^ 2)
  gcongr

theorem C35_glicko2_expected_strictAnti_opponent (a b : Glicko2Rating ℝ) (r' : ℝ)
    (h : b.rating < r') :
    (expectedScore a { b with rating := r' }).1 < (expectedScore a b).1 := by
  simp only [expectedScore_real, E_eq, sigmoid_lt_iff, glicko2Mu]
  have := scale_pos
  have := G_pos √(glicko2Phi b.deviation ^ 2 + glicko2Phi a.deviation ^ 2)
  gcongr

/-- The list variant is the pairwise function, in every arithmetic in which `(-x) y` is
`-(x y)` (the reals and IEEE 754 numbers). -/
theorem C35_glicko2_expected_list {F : Type} [Flt F] (hneg : ∀ x y : F, -x * y = -(x * y))
    (a : Glicko2Rating F) (os : List (Glicko2Rating F)) :
    expectedScoreRatingPeriod a os = os.map fun o => (expectedScore a o).1 := by
  simp only [expectedScoreRatingPeriod, expectedScore, eValue, hneg]

example (x y : ℝ) : -x * y = -(x * y) := neg_mul x y

example : (⟨1500, 350, 0.06⟩ : Glicko2Rating ℝ).rating < 1600 := by norm_num

/-! ### C36: the new volatility solves the published equation -/

/-- The games of a rating period on the internal scale. -/
noncomputable def games (rs : List (Glicko2Rating ℝ × Outcomes)) : List Glicko2Game :=
  rs.map fun r => ⟨glicko2Mu r.1.rating, glicko2Phi r.1.deviation, points r.2⟩

/-- `s` solves the volatility equation of player `p` for the games `xs` up to `tol`. -/
def SolvesVolatility (p : Glicko2Rating ℝ) (xs : List Glicko2Game) (τ tol s : ℝ) : Prop :=
  0 < s ∧ ∃ x, |log (s ^ 2) - x| ≤ tol ∧
    glicko2F (glicko2Delta (glicko2Mu p.rating) xs) (glicko2Phi p.deviation)
      (glicko2V (glicko2Mu p.rating) xs) p.volatility τ x = 0

theorem solve_solves (p : Glicko2Rating ℝ) {xs : List Glicko2Game} {c : Glicko2Config ℝ} {s : ℝ}
    (hx : xs ≠ []) (hτ : 0 < c.tau) (h : solve p.rating p.deviation p.volatility xs c = some s) :
    SolvesVolatility p xs c.tau c.convergenceTolerance s := by
  obtain ⟨h1, x, h2, h3⟩ := newVolatility_spec (V_pos _ hx) hτ h
  exact ⟨h1, x, h3, h2⟩

theorem period_some {p p' : Glicko2Rating ℝ} {rs : List (Glicko2Rating ℝ × Outcomes)}
    {c : Glicko2Config ℝ} (hr : rs ≠ []) (h : glicko2RatingPeriod p rs c = some p') :
    ∃ s, solve p.rating p.deviation p.volatility (games rs) c = some s ∧
      p' = updated p.rating p.deviation (games rs) s := by
  rw [period_real p rs c hr] at h
  obtain ⟨s, hs, rfl⟩ := Option.map_eq_some_iff.1 h
  exact ⟨s, hs, rfl⟩

theorem game_some {a b a' b' : Glicko2Rating ℝ} {o : Outcomes} {c : Glicko2Config ℝ}
    (h : glicko2 a b o c = some (a', b')) :
    ∃ s t, solve a.rating a.deviation a.volatility (games [(b, o)]) c = some s ∧
      solve b.rating b.deviation b.volatility (games [(a, mirror o)]) c = some t ∧
      a' = updated a.rating a.deviation (games [(b, o)]) s ∧
      b' = updated b.rating b.deviation (games [(a, mirror o)]) t := by
  rw [glicko2_real] at h
  obtain ⟨s, hs, h⟩ := Option.bind_eq_some_iff.1 h
  obtain ⟨t, ht, h⟩ := Option.map_eq_some_iff.1 h
  cases h
  exact ⟨s, t, hs, ht, rfl, rfl⟩

theorem games_ne_nil {rs : List (Glicko2Rating ℝ × Outcomes)} (h : rs ≠ []) : games rs ≠ [] := by
  simpa [games] using h

theorem C36_glicko2_volatility (a b a' b' : Glicko2Rating ℝ) (o : Outcomes) (c : Glicko2Config ℝ)
    (hτ : 0 < c.tau) (h : glicko2 a b o c = some (a', b')) :
    SolvesVolatility a (games [(b, o)]) c.tau c.convergenceTolerance a'.volatility ∧
      SolvesVolatility b (games [(a, mirror o)]) c.tau c.convergenceTolerance b'.volatility := by
  obtain ⟨s, t, hs, ht, rfl, rfl⟩ := game_some h
  exact ⟨solve_solves a (by simp [games]) hτ hs, solve_solves b (by simp [games]) hτ ht⟩

theorem C36_glicko2_period_volatility (p p' : Glicko2Rating ℝ)
    (rs : List (Glicko2Rating ℝ × Outcomes)) (c : Glicko2Config ℝ) (hτ : 0 < c.tau)
    (hr : rs ≠ []) (h : glicko2RatingPeriod p rs c = some p') :
    SolvesVolatility p (games rs) c.tau c.convergenceTolerance p'.volatility := by
  obtain ⟨s, hs, rfl⟩ := period_some hr h
  exact solve_solves p (games_ne_nil hr) hτ hs

/-- Unless the results are a huge surprise the equation has exactly one solution, so that the
result is determined up to the tolerance. -/
theorem C36_glicko2_solution_unique (Δ φ v σ τ : ℝ) (hv : 0 < v) (hτ : 0 < τ)
    (h : Δ ^ 2 ≤ (φ ^ 2 + v) * (1 + 27 / (2 * τ ^ 2))) (x y : ℝ)
    (hx : glicko2F Δ φ v σ τ x = 0) (hy : glicko2F Δ φ v σ τ y = 0) : x = y :=
  (F_unique Δ φ v σ hv hτ h).injective (hx.trans hy.symm)

/-! ### C37: the calls return -/

/-- The slope condition: the published function is not flat at its zeros. -/
def NotFlat (p : Glicko2Rating ℝ) (xs : List Glicko2Game) (τ : ℝ) : Prop :=
  let f := glicko2F (glicko2Delta (glicko2Mu p.rating) xs) (glicko2Phi p.deviation)
    (glicko2V (glicko2Mu p.rating) xs) p.volatility τ
  ∀ x, f x = 0 → deriv f x ≠ 0

/-- The results are not a huge surprise (for `τ = 1/2` the factor is 55). -/
def NoHugeSurprise (p : Glicko2Rating ℝ) (xs : List Glicko2Game) (τ : ℝ) : Prop :=
  glicko2Delta (glicko2Mu p.rating) xs ^ 2 ≤
    (glicko2Phi p.deviation ^ 2 + glicko2V (glicko2Mu p.rating) xs) * (1 + 27 / (2 * τ ^ 2))

theorem solve_returns (p : Glicko2Rating ℝ) {xs : List Glicko2Game} {c : Glicko2Config ℝ}
    (hx : xs ≠ []) (hτ : 0 < c.tau) (ht : 0 < c.convergenceTolerance) (h : NotFlat p xs c.tau) :
    ∃ s, solve p.rating p.deviation p.volatility xs c = some s := by
  refine newVolatility_returns (V_pos _ hx) hτ ht fun x h0 => ?_
  have := h x h0
  rwa [(hasDerivAt_F _ _ _ _ _ (V_pos _ hx) x).deriv] at this

theorem notFlat_of_noHugeSurprise {p : Glicko2Rating ℝ} {xs : List Glicko2Game} {τ : ℝ}
    (hx : xs ≠ []) (hτ : 0 < τ) (h : NoHugeSurprise p xs τ) : NotFlat p xs τ := by
  intro x _
  rw [(hasDerivAt_F _ _ _ _ _ (V_pos _ hx) x).deriv]
  exact (slope_neg _ _ _ (V_pos _ hx) hτ h x).ne

theorem C37_glicko2_period_returns (p : Glicko2Rating ℝ)
    (rs : List (Glicko2Rating ℝ × Outcomes)) (c : Glicko2Config ℝ) (hτ : 0 < c.tau)
    (ht : 0 < c.convergenceTolerance) (h : NotFlat p (games rs) c.tau) :
    ∃ p', glicko2RatingPeriod p rs c = some p' := by
  by_cases hr : rs = []
  · subst hr; exact ⟨decayDeviation p, rfl⟩
  · obtain ⟨s, hs⟩ := solve_returns p (games_ne_nil hr) hτ ht h
    refine ⟨updated p.rating p.deviation (games rs) s, ?_⟩
    rw [period_real p rs c hr]
    exact Option.map_eq_some_iff.2 ⟨s, hs, rfl⟩

theorem C37_glicko2_returns (a b : Glicko2Rating ℝ) (o : Outcomes) (c : Glicko2Config ℝ)
    (hτ : 0 < c.tau) (ht : 0 < c.convergenceTolerance)
    (ha : NotFlat a (games [(b, o)]) c.tau) (hb : NotFlat b (games [(a, mirror o)]) c.tau) :
    ∃ r, glicko2 a b o c = some r := by
  obtain ⟨s, hs⟩ := solve_returns a (by simp [games]) hτ ht ha
  obtain ⟨t, ht⟩ := solve_returns b (by simp [games]) hτ ht hb
  refine ⟨(updated a.rating a.deviation (games [(b, o)]) s,
      updated b.rating b.deviation (games [(a, mirror o)]) t), ?_⟩
  rw [glicko2_real]
  exact Option.bind_eq_some_iff.2 ⟨s, hs, Option.map_eq_some_iff.2 ⟨t, ht, rfl⟩⟩

theorem C37_glicko2_period_returns_no_surprise (p : Glicko2Rating ℝ)
    (rs : List (Glicko2Rating ℝ × Outcomes)) (c : Glicko2Config ℝ) (hτ : 0 < c.tau)
    (ht : 0 < c.convergenceTolerance) (h : NoHugeSurprise p (games rs) c.tau) :
    ∃ p', glicko2RatingPeriod p rs c = some p' := by
  by_cases hr : rs = []
  · subst hr; exact ⟨decayDeviation p, rfl⟩
  · exact C37_glicko2_period_returns p rs c hτ ht
      (notFlat_of_noHugeSurprise (games_ne_nil hr) hτ h)

theorem sq_points_le {E K : ℝ} (o : Outcomes) (hK : 1 ≤ K) (h0 : 1 ≤ E * (1 + K))
    (h1 : 1 ≤ (1 - E) * (1 + K)) : (points o - E) ^ 2 ≤ K * (E * (1 - E)) := by
  have hE0 : 0 < E := by
    by_contra h; push Not at h; nlinarith
  have hE1 : 0 < 1 - E := by
    by_contra h; push Not at h; nlinarith
  cases o with
  | WIN => simp only [points]; nlinarith
  | LOSS => simp only [points]; nlinarith
  | DRAW =>
    simp only [points]
    rcases le_total E (1 / 2) with h | h
    · have : (1 / 2 : ℝ) * 1 ≤ (1 - E) * (E * (1 + K)) :=
        mul_le_mul (by linarith) h0 (by norm_num) hE1.le
      nlinarith
    · have : (1 / 2 : ℝ) * 1 ≤ E * ((1 - E) * (1 + K)) :=
        mul_le_mul h h1 (by norm_num) hE0.le
      nlinarith

theorem noHugeSurprise_single (a b : Glicko2Rating ℝ) (o : Outcomes) {τ : ℝ} (hτ : 0 < τ)
    (h : |a.rating - b.rating| ≤ 173.7178 * log (1 + 27 / (2 * τ ^ 2))) :
    NoHugeSurprise a (games [(b, o)]) τ := by
  set K := 1 + 27 / (2 * τ ^ 2) with hKdef
  have hK : 1 ≤ K := by
    have : 0 ≤ 27 / (2 * τ ^ 2) := by positivity
    linarith
  have hK0 : 0 < K := by linarith
  have hs := scale_pos
  set g := glicko2G (glicko2Phi b.deviation) with hg
  set E := glicko2E (glicko2Mu a.rating) (glicko2Mu b.rating) (glicko2Phi b.deviation) with hE
  have hg0 : 0 < g := G_pos _
  have hg1 : g ≤ 1 := G_le_one _
  have hE0 : 0 < E := E_pos _ _ _
  have hE1 : E < 1 := E_lt_one _ _ _
  -- the exponent
  have hx : |g * (glicko2Mu a.rating - glicko2Mu b.rating)| ≤ log K := by
    have e : glicko2Mu a.rating - glicko2Mu b.rating = (a.rating - b.rating) / glicko2Scale := by
      rw [glicko2Mu, glicko2Mu]; ring
    rw [e, abs_mul, abs_of_pos hg0, abs_div, abs_of_pos hs]
    calc g * (|a.rating - b.rating| / glicko2Scale) ≤ 1 * (|a.rating - b.rating| / glicko2Scale) := by
          gcongr
      _ = |a.rating - b.rating| / glicko2Scale := one_mul _
      _ ≤ log K := by
          rw [div_le_iff₀ hs, mul_comm]; exact h
  obtain ⟨hxl, hxu⟩ := abs_le.1 hx
  have hexp : Real.exp (-(g * (glicko2Mu a.rating - glicko2Mu b.rating))) ≤ K := by
    conv_rhs => rw [← Real.exp_log hK0]
    exact Real.exp_le_exp.2 (by linarith)
  have hexp' : 1 ≤ K * Real.exp (-(g * (glicko2Mu a.rating - glicko2Mu b.rating))) := by
    calc (1 : ℝ) = K * Real.exp (-log K) := by
          rw [Real.exp_neg, Real.exp_log hK0, mul_inv_cancel₀ hK0.ne']
      _ ≤ _ := by gcongr
  set e := Real.exp (-(g * (glicko2Mu a.rating - glicko2Mu b.rating))) with he
  have he0 : 0 < e := Real.exp_pos _
  have hEe : E * (1 + e) = 1 := by
    rw [hE, glicko2E, ← hg, ← he, one_div, inv_mul_cancel₀ (by positivity)]
  have h0 : 1 ≤ E * (1 + K) := by nlinarith
  have h1 : 1 ≤ (1 - E) * (1 + K) := by
    have : 1 - E = E * e := by linarith
    rw [this]
    nlinarith
  have key := sq_points_le o hK h0 h1
  -- assemble
  set P := E * (1 - E) with hP
  have hP0 : 0 < P := mul_pos hE0 (by linarith)
  have hV : glicko2V (glicko2Mu a.rating) (games [(b, o)]) = 1 / (g ^ 2 * P) := by
    simp only [glicko2V, games, List.map_cons, List.map_nil, List.sum_cons, List.sum_nil, add_zero]
    rw [hP, ← mul_assoc]
  have hD : glicko2Delta (glicko2Mu a.rating) (games [(b, o)])
      = 1 / (g ^ 2 * P) * (g * (points o - E)) := by
    rw [glicko2Delta, hV]
    simp only [glicko2Gain, games, List.map_cons, List.map_nil, List.sum_cons, List.sum_nil,
      add_zero]
    rfl
  rw [NoHugeSurprise, hV, hD]
  have e2 : (1 / (g ^ 2 * P) * (g * (points o - E))) ^ 2
      = (points o - E) ^ 2 / (g ^ 2 * P ^ 2) := by
    field_simp
  rw [e2]
  calc (points o - E) ^ 2 / (g ^ 2 * P ^ 2) ≤ K * P / (g ^ 2 * P ^ 2) := by gcongr
    _ = 1 / (g ^ 2 * P) * K := by field_simp
    _ ≤ _ := by
      apply mul_le_mul_of_nonneg_right _ hK0.le
      have : 0 ≤ glicko2Phi a.deviation ^ 2 := sq_nonneg _
      linarith

/-- Two players at most `173.7178 · ln(1 + 27/(2τ²))` points apart (more than 690 points for the
default `τ = 0.5`) always get rated, whatever their deviations and volatilities. -/
theorem C37_glicko2_returns_close (a b : Glicko2Rating ℝ) (o : Outcomes) (c : Glicko2Config ℝ)
    (hτ : 0 < c.tau) (ht : 0 < c.convergenceTolerance)
    (h : |a.rating - b.rating| ≤ 173.7178 * log (1 + 27 / (2 * c.tau ^ 2))) :
    ∃ r, glicko2 a b o c = some r := by
  apply C37_glicko2_returns a b o c hτ ht
  · exact notFlat_of_noHugeSurprise (by simp [games]) hτ (noHugeSurprise_single a b o hτ h)
  · rw [abs_sub_comm] at h
    exact notFlat_of_noHugeSurprise (by simp [games]) hτ (noHugeSurprise_single b a (mirror o) hτ h)

/-- For the default configuration, 690 points are close enough. -/
theorem C37_glicko2_returns_default (a b : Glicko2Rating ℝ) (o : Outcomes)
    (h : |a.rating - b.rating| ≤ 690) :
    ∃ r, glicko2 a b o Glicko2Config.new = some r := by
  apply C37_glicko2_returns_close a b o
  · norm_num [Glicko2Config.new]
  · norm_num [Glicko2Config.new]
  · have e : (1 + 27 / (2 * (Glicko2Config.new : Glicko2Config ℝ).tau ^ 2) : ℝ) = 55 := by
      norm_num [Glicko2Config.new]
    rw [e]
    refine h.trans ?_
    have h2 : (3.98 : ℝ) ≤ log 55 := by
      rw [Real.le_log_iff_exp_le (by norm_num)]
      have h1 : Real.exp 1 < 2.7182818286 := Real.exp_one_lt_d9
      have h4 : Real.exp 3.98 ^ 50 ≤ 55 ^ 50 := by
        rw [← Real.exp_nat_mul]
        have : ((50 : ℕ) : ℝ) * 3.98 = (199 : ℕ) * 1 := by norm_num
        rw [this, Real.exp_nat_mul]
        calc Real.exp 1 ^ 199 ≤ (2.7182818286 : ℝ) ^ 199 := by gcongr
          _ ≤ 55 ^ 50 := by norm_num
      exact le_of_pow_le_pow_left₀ (by norm_num) (by norm_num) h4
    linarith

/-- With a negative tolerance no game is ever rated: the solver does not return. -/
theorem C37_glicko2_negative_tolerance (a b : Glicko2Rating ℝ) (o : Outcomes)
    (c : Glicko2Config ℝ) (ht : c.convergenceTolerance < 0) : glicko2 a b o c = none := by
  rw [glicko2_real, solve, newVolatility_negative ht]
  rfl

theorem C37_glicko2_period_negative_tolerance (p : Glicko2Rating ℝ)
    (rs : List (Glicko2Rating ℝ × Outcomes)) (c : Glicko2Config ℝ) (hr : rs ≠ [])
    (ht : c.convergenceTolerance < 0) : glicko2RatingPeriod p rs c = none := by
  rw [period_real p rs c hr, solve, newVolatility_negative ht]
  rfl

/-- A strong newcomer beats a master: the hypotheses of C37 (and of C36, C38 - C40, which speak
about calls that return) are met. -/
example : ∃ r, glicko2 (⟨1500, 350, 0.06⟩ : Glicko2Rating ℝ) ⟨2100, 40, 0.05⟩ .WIN
    Glicko2Config.new = some r :=
  C37_glicko2_returns_default _ _ _ (by norm_num)

/-! ### C38: the published update -/

theorem C38_glicko2_formula (a b a' b' : Glicko2Rating ℝ) (o : Outcomes) (c : Glicko2Config ℝ)
    (h : glicko2 a b o c = some (a', b')) :
    let va := glicko2V (glicko2Mu a.rating) (games [(b, o)])
    let vb := glicko2V (glicko2Mu b.rating) (games [(a, mirror o)])
    let φa := glicko2NewPhi (glicko2Phi a.deviation) a'.volatility va
    let φb := glicko2NewPhi (glicko2Phi b.deviation) b'.volatility vb
    a'.deviation = 173.7178 * φa ∧
      a'.rating = 173.7178 * glicko2NewMu (glicko2Mu a.rating) φa
        (glicko2Gain (glicko2Mu a.rating) (games [(b, o)])) + 1500 ∧
      b'.deviation = 173.7178 * φb ∧
      b'.rating = 173.7178 * glicko2NewMu (glicko2Mu b.rating) φb
        (glicko2Gain (glicko2Mu b.rating) (games [(a, mirror o)])) + 1500 := by
  obtain ⟨s, t, hs, ht, rfl, rfl⟩ := game_some h
  simp only [updated, glicko2Scale]
  refine ⟨?_, ?_, ?_, ?_⟩ <;> ring

theorem C38_glicko2_period_formula (p p' : Glicko2Rating ℝ)
    (rs : List (Glicko2Rating ℝ × Outcomes)) (c : Glicko2Config ℝ) (hr : rs ≠ [])
    (h : glicko2RatingPeriod p rs c = some p') :
    let v := glicko2V (glicko2Mu p.rating) (games rs)
    let φ' := glicko2NewPhi (glicko2Phi p.deviation) p'.volatility v
    p'.deviation = 173.7178 * φ' ∧
      p'.rating = 173.7178 * glicko2NewMu (glicko2Mu p.rating) φ'
        (glicko2Gain (glicko2Mu p.rating) (games rs)) + 1500 := by
  obtain ⟨s, hs, rfl⟩ := period_some hr h
  simp only [updated, glicko2Scale]
  constructor <;> ring

/-! ### C39: direction and deviation -/

theorem updated_rating (r rd : ℝ) (xs : List Glicko2Game) (s : ℝ) :
    (updated r rd xs s).rating = r + glicko2Scale *
      (glicko2NewPhi (glicko2Phi rd) s (glicko2V (glicko2Mu r) xs) ^ 2
        * glicko2Gain (glicko2Mu r) xs) := by
  have := scale_pos
  simp only [updated, glicko2NewMu, glicko2Mu]
  field_simp
  ring

theorem newPhi_pos (φ s : ℝ) {v : ℝ} (hv : 0 < v) : 0 < glicko2NewPhi φ s v := by
  unfold glicko2NewPhi
  have : 0 ≤ 1 / (φ ^ 2 + s ^ 2) := by positivity
  positivity

theorem newPhi_lt {φ : ℝ} (s : ℝ) {v : ℝ} (hφ : 0 < φ) (hv : 0 < v) :
    glicko2NewPhi φ s v < √(φ ^ 2 + s ^ 2) := by
  unfold glicko2NewPhi
  have h1 : 0 < φ ^ 2 + s ^ 2 := by positivity
  have h2 : 0 < 1 / v := by positivity
  rw [show √(φ ^ 2 + s ^ 2) = 1 / √(1 / (φ ^ 2 + s ^ 2)) by
    rw [Real.sqrt_div zero_le_one, Real.sqrt_one, one_div_one_div]]
  apply one_div_lt_one_div_of_lt (by positivity)
  apply Real.sqrt_lt_sqrt (by positivity)
  linarith

theorem updated_deviation (r : ℝ) {rd : ℝ} (xs : List Glicko2Game) (s : ℝ) (hx : xs ≠ [])
    (hrd : 0 < rd) : 0 < (updated r rd xs s).deviation ∧
      (updated r rd xs s).deviation < √(rd ^ 2 + (173.7178 * s) ^ 2) := by
  have hs := scale_pos
  have hv := V_pos (glicko2Mu r) hx
  have hφ : 0 < glicko2Phi rd := div_pos hrd hs
  refine ⟨mul_pos (newPhi_pos _ _ hv) hs, ?_⟩
  have h1 := newPhi_lt s hφ hv
  have e : √(rd ^ 2 + (173.7178 * s) ^ 2) = √(glicko2Phi rd ^ 2 + s ^ 2) * glicko2Scale := by
    change √(rd ^ 2 + (glicko2Scale * s) ^ 2) = _
    conv_rhs => rw [← Real.sqrt_sq hs.le, ← Real.sqrt_mul (by positivity)]
    congr 1
    rw [glicko2Phi]
    field_simp
  rw [e]
  simp only [updated]
  gcongr

theorem gain_pos (μ : ℝ) {xs : List Glicko2Game} (hx : xs ≠ []) (h : ∀ x ∈ xs, x.points = 1) :
    0 < glicko2Gain μ xs := by
  apply List.sum_pos
  · intro y hy
    obtain ⟨x, hxm, rfl⟩ := List.mem_map.1 hy
    rw [h x hxm]
    exact mul_pos (G_pos _) (sub_pos.2 (E_lt_one _ _ _))
  · simpa using hx

theorem gain_neg (μ : ℝ) {xs : List Glicko2Game} (hx : xs ≠ []) (h : ∀ x ∈ xs, x.points = 0) :
    glicko2Gain μ xs < 0 := by
  have : 0 < (xs.map fun x => -(glicko2G x.φ * (x.points - glicko2E μ x.μ x.φ))).sum := by
    apply List.sum_pos
    · intro y hy
      obtain ⟨x, hxm, rfl⟩ := List.mem_map.1 hy
      rw [h x hxm]
      have h1 := G_pos x.φ
      have h2 := E_pos μ x.μ x.φ
      nlinarith
    · simpa using hx
  have e := List_sum_mul_left xs (fun x => glicko2G x.φ * (x.points - glicko2E μ x.μ x.φ)) (-1)
  simp only [neg_one_mul] at e
  rw [← e] at this
  exact neg_pos.1 this

theorem updated_gt (r rd : ℝ) {xs : List Glicko2Game} (s : ℝ) (hx : xs ≠ [])
    (h : ∀ x ∈ xs, x.points = 1) : r < (updated r rd xs s).rating := by
  rw [updated_rating]
  have := newPhi_pos (glicko2Phi rd) s (V_pos (glicko2Mu r) hx)
  have := gain_pos (glicko2Mu r) hx h
  have := scale_pos
  have : 0 < glicko2Scale * (glicko2NewPhi (glicko2Phi rd) s (glicko2V (glicko2Mu r) xs) ^ 2
        * glicko2Gain (glicko2Mu r) xs) := by positivity
  linarith

theorem updated_lt (r rd : ℝ) {xs : List Glicko2Game} (s : ℝ) (hx : xs ≠ [])
    (h : ∀ x ∈ xs, x.points = 0) : (updated r rd xs s).rating < r := by
  rw [updated_rating]
  have h1 := newPhi_pos (glicko2Phi rd) s (V_pos (glicko2Mu r) hx)
  have h2 := neg_pos.2 (gain_neg (glicko2Mu r) hx h)
  have h3 := scale_pos
  have : 0 < glicko2Scale * (glicko2NewPhi (glicko2Phi rd) s (glicko2V (glicko2Mu r) xs) ^ 2
        * -glicko2Gain (glicko2Mu r) xs) := by positivity
  linarith

theorem C39_glicko2_win (a b a' b' : Glicko2Rating ℝ) (c : Glicko2Config ℝ)
    (h : glicko2 a b .WIN c = some (a', b')) : a.rating < a'.rating ∧ b'.rating < b.rating := by
  obtain ⟨s, t, hs, ht, rfl, rfl⟩ := game_some h
  exact ⟨updated_gt _ _ _ (by simp [games]) (by simp [games, points]),
    updated_lt _ _ _ (by simp [games]) (by simp [games, points, mirror])⟩

theorem C39_glicko2_loss (a b a' b' : Glicko2Rating ℝ) (c : Glicko2Config ℝ)
    (h : glicko2 a b .LOSS c = some (a', b')) : a'.rating < a.rating ∧ b.rating < b'.rating := by
  obtain ⟨s, t, hs, ht, rfl, rfl⟩ := game_some h
  exact ⟨updated_lt _ _ _ (by simp [games]) (by simp [games, points]),
    updated_gt _ _ _ (by simp [games]) (by simp [games, points, mirror])⟩

/-- A draw moves the players towards each other. -/
theorem C39_glicko2_draw (a b a' b' : Glicko2Rating ℝ) (c : Glicko2Config ℝ)
    (h : glicko2 a b .DRAW c = some (a', b')) (hab : b.rating < a.rating) :
    a'.rating < a.rating ∧ b.rating < b'.rating := by
  obtain ⟨s, t, hs, ht, rfl, rfl⟩ := game_some h
  have hsc := scale_pos
  have hμ : 0 < glicko2Mu a.rating - glicko2Mu b.rating := by
    rw [glicko2Mu, glicko2Mu, ← sub_div]
    apply div_pos _ hsc; linarith
  have key1 : glicko2Gain (glicko2Mu a.rating) (games [(b, .DRAW)]) < 0 := by
    simp only [glicko2Gain, games, List.map_cons, List.map_nil, List.sum_cons, List.sum_nil,
      add_zero, points, E_eq]
    have h1 := G_pos (glicko2Phi b.deviation)
    have h2 : 2⁻¹ < sigmoid (glicko2G (glicko2Phi b.deviation)
        * (glicko2Mu a.rating - glicko2Mu b.rating)) := by
      rw [← sigmoid_zero, sigmoid_lt_iff]; positivity
    nlinarith
  have key2 : 0 < glicko2Gain (glicko2Mu b.rating) (games [(a, mirror .DRAW)]) := by
    simp only [glicko2Gain, games, List.map_cons, List.map_nil, List.sum_cons, List.sum_nil,
      add_zero, points, E_eq, mirror]
    have h1 := G_pos (glicko2Phi a.deviation)
    have h2 : sigmoid (glicko2G (glicko2Phi a.deviation)
        * (glicko2Mu b.rating - glicko2Mu a.rating)) < 2⁻¹ := by
      rw [← sigmoid_zero, sigmoid_lt_iff]; nlinarith
    have : 0 < 1 / 2 - sigmoid (glicko2G (glicko2Phi a.deviation)
        * (glicko2Mu b.rating - glicko2Mu a.rating)) := by linarith
    positivity
  rw [updated_rating, updated_rating]
  have h1 := newPhi_pos (glicko2Phi a.deviation) s
    (V_pos (glicko2Mu a.rating) (xs := games [(b, .DRAW)]) (by simp [games]))
  have h2 := newPhi_pos (glicko2Phi b.deviation) t
    (V_pos (glicko2Mu b.rating) (xs := games [(a, mirror .DRAW)]) (by simp [games]))
  constructor
  · have h3 := neg_pos.2 key1
    have : 0 < glicko2Scale * (glicko2NewPhi (glicko2Phi a.deviation) s
        (glicko2V (glicko2Mu a.rating) (games [(b, .DRAW)])) ^ 2
          * -glicko2Gain (glicko2Mu a.rating) (games [(b, .DRAW)])) := by positivity
    linarith
  · have : 0 < glicko2Scale * (glicko2NewPhi (glicko2Phi b.deviation) t
        (glicko2V (glicko2Mu b.rating) (games [(a, mirror .DRAW)])) ^ 2
          * glicko2Gain (glicko2Mu b.rating) (games [(a, mirror .DRAW)])) := by positivity
    linarith

theorem C39_glicko2_deviation (a b a' b' : Glicko2Rating ℝ) (o : Outcomes) (c : Glicko2Config ℝ)
    (ha : 0 < a.deviation) (hb : 0 < b.deviation) (h : glicko2 a b o c = some (a', b')) :
    (0 < a'.deviation ∧ a'.deviation < √(a.deviation ^ 2 + (173.7178 * a'.volatility) ^ 2)) ∧
      0 < b'.deviation ∧ b'.deviation < √(b.deviation ^ 2 + (173.7178 * b'.volatility) ^ 2) := by
  obtain ⟨s, t, hs, ht, rfl, rfl⟩ := game_some h
  exact ⟨updated_deviation _ _ _ (by simp [games]) ha, updated_deviation _ _ _ (by simp [games]) hb⟩

theorem C39_glicko2_period_all_won (p p' : Glicko2Rating ℝ)
    (rs : List (Glicko2Rating ℝ × Outcomes)) (c : Glicko2Config ℝ) (hr : rs ≠ [])
    (hw : ∀ r ∈ rs, r.2 = .WIN) (h : glicko2RatingPeriod p rs c = some p') :
    p.rating < p'.rating := by
  obtain ⟨s, hs, rfl⟩ := period_some hr h
  apply updated_gt _ _ _ (games_ne_nil hr)
  intro x hx
  obtain ⟨r, hrm, rfl⟩ := List.mem_map.1 hx
  simp [hw r hrm, points]

theorem C39_glicko2_period_all_lost (p p' : Glicko2Rating ℝ)
    (rs : List (Glicko2Rating ℝ × Outcomes)) (c : Glicko2Config ℝ) (hr : rs ≠ [])
    (hw : ∀ r ∈ rs, r.2 = .LOSS) (h : glicko2RatingPeriod p rs c = some p') :
    p'.rating < p.rating := by
  obtain ⟨s, hs, rfl⟩ := period_some hr h
  apply updated_lt _ _ _ (games_ne_nil hr)
  intro x hx
  obtain ⟨r, hrm, rfl⟩ := List.mem_map.1 hx
  simp [hw r hrm, points]

theorem C39_glicko2_period_deviation (p p' : Glicko2Rating ℝ)
    (rs : List (Glicko2Rating ℝ × Outcomes)) (c : Glicko2Config ℝ) (hr : rs ≠ [])
    (hp : 0 < p.deviation) (h : glicko2RatingPeriod p rs c = some p') :
    0 < p'.deviation ∧ p'.deviation < √(p.deviation ^ 2 + (173.7178 * p'.volatility) ^ 2) := by
  obtain ⟨s, hs, rfl⟩ := period_some hr h
  exact updated_deviation _ _ _ (games_ne_nil hr) hp

example (x y : Glicko2Rating ℝ) : ∀ r ∈ [(x, Outcomes.WIN), (y, .WIN)], r.2 = .WIN := by simp

/-! ### C40: periods -/

theorem C40_glicko2_period_single (p b : Glicko2Rating ℝ) (o : Outcomes) (c : Glicko2Config ℝ)
    (p' b' : Glicko2Rating ℝ) (h : glicko2 p b o c = some (p', b')) :
    glicko2RatingPeriod p [(b, o)] c = some p' ∧
      glicko2RatingPeriod b [(p, mirror o)] c = some b' := by
  obtain ⟨s, t, hs, ht, rfl, rfl⟩ := game_some h
  rw [period_real _ _ _ (by simp), period_real _ _ _ (by simp)]
  exact ⟨Option.map_eq_some_iff.2 ⟨s, hs, rfl⟩, Option.map_eq_some_iff.2 ⟨t, ht, rfl⟩⟩

/-- Conversely the game is rated if both one-game periods are. -/
theorem C40_glicko2_of_periods (p b : Glicko2Rating ℝ) (o : Outcomes) (c : Glicko2Config ℝ)
    (p' b' : Glicko2Rating ℝ) (h : glicko2RatingPeriod p [(b, o)] c = some p')
    (h' : glicko2RatingPeriod b [(p, mirror o)] c = some b') :
    glicko2 p b o c = some (p', b') := by
  obtain ⟨s, hs, rfl⟩ := period_some (by simp) h
  obtain ⟨t, ht, rfl⟩ := period_some (by simp) h'
  rw [glicko2_real]
  exact Option.bind_eq_some_iff.2 ⟨s, hs, Option.map_eq_some_iff.2 ⟨t, ht, rfl⟩⟩

theorem C40_glicko2_period_perm (p : Glicko2Rating ℝ) (rs ss : List (Glicko2Rating ℝ × Outcomes))
    (c : Glicko2Config ℝ) (h : rs.Perm ss) :
    glicko2RatingPeriod p rs c = glicko2RatingPeriod p ss c := by
  by_cases hr : rs = []
  · subst hr; rw [h.symm.eq_nil]
  · have hs : ss ≠ [] := by rintro rfl; exact hr h.eq_nil
    have hg := h.map game
    have hV : ∀ μ, glicko2V μ (rs.map game) = glicko2V μ (ss.map game) := fun μ => by
      simp only [glicko2V, (hg.map _).sum_eq]
    have hG : ∀ μ, glicko2Gain μ (rs.map game) = glicko2Gain μ (ss.map game) := fun μ => by
      simp only [glicko2Gain, (hg.map _).sum_eq]
    rw [period_real p rs c hr, period_real p ss c hs]
    have hu : updated p.rating p.deviation (rs.map game)
        = updated p.rating p.deviation (ss.map game) := by
      funext s; simp only [updated, hV, hG]
    simp only [solve, glicko2Delta, hV, hG, hu]

theorem C40_glicko2_period_nil {F : Type} [Flt F] (p : Glicko2Rating F) (c : Glicko2Config F) :
    glicko2RatingPeriod p [] c = some (decayDeviation p) ∧
      (decayDeviation p).rating = p.rating ∧ (decayDeviation p).volatility = p.volatility :=
  ⟨rfl, rfl, rfl⟩

/-- `n` idle periods in closed form. -/
theorem C40_glicko2_decay_n (p : Glicko2Rating ℝ) (n : ℕ) (h : 0 ≤ p.deviation)
    (h' : p.deviation ≤ 350) :
    decayDeviation^[n] p =
      ⟨p.rating, min √(p.deviation ^ 2 + n * (173.7178 * p.volatility) ^ 2) 350, p.volatility⟩ := by
  have key : decayDeviation^[n] p = ⟨p.rating,
      (fun x => glickoOnset x (glicko2Scale * p.volatility))^[n] p.deviation, p.volatility⟩ := by
    induction n with
    | zero => rfl
    | succ n ih =>
      rw [Function.iterate_succ_apply', Function.iterate_succ_apply', ih, decay_real]
  have h1 := onset_iterate p.deviation (glicko2Scale * p.volatility) n
  rw [min_eq_left h'] at h1
  rcases h1 with h1 | h1
  · rw [key, h1]; rfl
  · linarith

example : 0 ≤ (⟨1500, 50, 0.06⟩ : Glicko2Rating ℝ).deviation ∧
    (⟨1500, 50, 0.06⟩ : Glicko2Rating ℝ).deviation ≤ 350 := by norm_num

example (x y : Glicko2Rating ℝ) :
    [(x, Outcomes.WIN), (y, .LOSS)].Perm [(y, .LOSS), (x, .WIN)] := List.Perm.swap _ _ _

/-! ### C87: seats and shifts -/

theorem C87_glicko2_swap (a b : Glicko2Rating ℝ) (o : Outcomes) (c : Glicko2Config ℝ) :
    glicko2 b a (mirror o) c = (glicko2 a b o c).map Prod.swap := by
  have hm : mirror (mirror o) = o := by cases o <;> rfl
  rw [glicko2_real, glicko2_real, hm]
  cases solve b.rating b.deviation b.volatility [game (a, mirror o)] c <;>
    cases solve a.rating a.deviation a.volatility [game (b, o)] c <;> rfl

/-- Adding a constant to all ratings adds it to the results. -/
theorem C87_glicko2_shift (a b : Glicko2Rating ℝ) (o : Outcomes) (c : Glicko2Config ℝ) (t : ℝ) :
    glicko2 { a with rating := a.rating + t } { b with rating := b.rating + t } o c =
      (glicko2 a b o c).map fun r =>
        ({ r.1 with rating := r.1.rating + t }, { r.2 with rating := r.2.rating + t }) := by
  have hE : ∀ r s φ : ℝ, glicko2E (glicko2Mu (r + t)) (glicko2Mu (s + t)) φ
      = glicko2E (glicko2Mu r) (glicko2Mu s) φ := by
    intro r s φ
    have : glicko2Mu (r + t) - glicko2Mu (s + t) = glicko2Mu r - glicko2Mu s := by
      simp only [glicko2Mu]; ring
    rw [E_eq, E_eq, this]
  have hV : ∀ (r : ℝ) (b : Glicko2Rating ℝ) (o : Outcomes),
      glicko2V (glicko2Mu (r + t)) [game ({ b with rating := b.rating + t }, o)]
        = glicko2V (glicko2Mu r) [game (b, o)] := by
    intro r b o
    simp only [glicko2V, game, List.map_cons, List.map_nil, hE]
  have hG : ∀ (r : ℝ) (b : Glicko2Rating ℝ) (o : Outcomes),
      glicko2Gain (glicko2Mu (r + t)) [game ({ b with rating := b.rating + t }, o)]
        = glicko2Gain (glicko2Mu r) [game (b, o)] := by
    intro r b o
    simp only [glicko2Gain, game, List.map_cons, List.map_nil, hE]
  have hS : ∀ (r rd s : ℝ) (b : Glicko2Rating ℝ) (o : Outcomes),
      solve (r + t) rd s [game ({ b with rating := b.rating + t }, o)] c
        = solve r rd s [game (b, o)] c := by
    intro r rd s b o
    simp only [solve, glicko2Delta, hV, hG]
  have hU : ∀ (r rd s : ℝ) (b : Glicko2Rating ℝ) (o : Outcomes),
      updated (r + t) rd [game ({ b with rating := b.rating + t }, o)] s
        = { updated r rd [game (b, o)] s with
            rating := (updated r rd [game (b, o)] s).rating + t } := by
    intro r rd s b o
    have h1 := updated_rating (r + t) rd [game ({ b with rating := b.rating + t }, o)] s
    have h2 := updated_rating r rd [game (b, o)] s
    rw [hV, hG] at h1
    have e1 : (updated (r + t) rd [game ({ b with rating := b.rating + t }, o)] s).rating
        = (updated r rd [game (b, o)] s).rating + t := by rw [h1, h2]; ring
    rw [← e1]
    simp only [updated, hV]
  rw [glicko2_real, glicko2_real]
  simp only [hS, hU, Option.map_eq_bind, Option.bind_assoc, Function.comp_def, Option.bind_some]

end Skillratings.Glicko2
