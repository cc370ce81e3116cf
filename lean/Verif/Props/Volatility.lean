import Verif.Proofs.Volatility
import Verif.Props.Glicko2
/-
C121: the volatility of Glicko-2 reacts to surprises in the right direction and within limits.
-/
namespace Skillratings.Glicko2
open Real Spec

/-- What the published quantities say about the new squared volatility `s²`: it lies between the old
one and `Δ² - φ² - v`, it does not fall by more than the factor `e^(-τ²/2)`, and its rise is limited
by the surprise `Δ²/(φ² + v)`. -/
structure VolatilityReacts (p : Glicko2Rating ℝ) (xs : List Glicko2Game) (τ tol s : ℝ) : Prop where
  pos : 0 < s
  rises : p.volatility ^ 2 ≤ glicko2Delta (glicko2Mu p.rating) xs ^ 2 - glicko2Phi p.deviation ^ 2
      - glicko2V (glicko2Mu p.rating) xs →
    p.volatility ^ 2 ≤ s ^ 2 ∧ s ^ 2 ≤ glicko2Delta (glicko2Mu p.rating) xs ^ 2
      - glicko2Phi p.deviation ^ 2 - glicko2V (glicko2Mu p.rating) xs
  falls : glicko2Delta (glicko2Mu p.rating) xs ^ 2 - glicko2Phi p.deviation ^ 2
      - glicko2V (glicko2Mu p.rating) xs ≤ p.volatility ^ 2 →
    glicko2Delta (glicko2Mu p.rating) xs ^ 2 - glicko2Phi p.deviation ^ 2
      - glicko2V (glicko2Mu p.rating) xs ≤ s ^ 2 ∧ s ^ 2 ≤ p.volatility ^ 2
  lower : p.volatility ^ 2 * exp (-(τ ^ 2 / 2 + tol)) ≤ s ^ 2
  upper : s ^ 2 ≤ p.volatility ^ 2 * exp (τ ^ 2 * max (glicko2Delta (glicko2Mu p.rating) xs ^ 2
    / (glicko2Phi p.deviation ^ 2 + glicko2V (glicko2Mu p.rating) xs) - 1) 0 / 8 + tol)

theorem solve_reacts (p : Glicko2Rating ℝ) {xs : List Glicko2Game} {c : Glicko2Config ℝ} {s : ℝ}
    (hx : xs ≠ []) (hτ : 0 < c.tau) (hσ : p.volatility ≠ 0)
    (h : solve p.rating p.deviation p.volatility xs c = some s) :
    VolatilityReacts p xs c.tau c.convergenceTolerance s :=
  ⟨(newVolatility_spec (V_pos _ hx) hτ h).1, (newVolatility_between hσ (V_pos _ hx) hτ h).1,
    (newVolatility_between hσ (V_pos _ hx) hτ h).2, (newVolatility_limits hσ (V_pos _ hx) hτ h).1,
    (newVolatility_limits hσ (V_pos _ hx) hτ h).2⟩

theorem C121_glicko2_period_volatility (p p' : Glicko2Rating ℝ)
    (rs : List (Glicko2Rating ℝ × Outcomes)) (c : Glicko2Config ℝ) (hτ : 0 < c.tau)
    (hσ : p.volatility ≠ 0) (hr : rs ≠ []) (h : glicko2RatingPeriod p rs c = some p') :
    VolatilityReacts p (games rs) c.tau c.convergenceTolerance p'.volatility := by
  obtain ⟨s, hs, rfl⟩ := period_some hr h
  exact solve_reacts p (games_ne_nil hr) hτ hσ hs

theorem C121_glicko2_volatility (a b a' b' : Glicko2Rating ℝ) (o : Outcomes) (c : Glicko2Config ℝ)
    (hτ : 0 < c.tau) (ha : a.volatility ≠ 0) (hb : b.volatility ≠ 0)
    (h : glicko2 a b o c = some (a', b')) :
    VolatilityReacts a (games [(b, o)]) c.tau c.convergenceTolerance a'.volatility ∧
    VolatilityReacts b (games [(a, mirror o)]) c.tau c.convergenceTolerance b'.volatility := by
  obtain ⟨s, t, hs, ht, rfl, rfl⟩ := game_some h
  exact ⟨solve_reacts a (by simp [games]) hτ ha hs, solve_reacts b (by simp [games]) hτ hb ht⟩

/-- A result that is at most as far from the expected score as usual does not raise the volatility. -/
theorem calm {p : Glicko2Rating ℝ} {x : Glicko2Game} {τ tol s : ℝ} (hσ : 0 < p.volatility)
    (h : VolatilityReacts p [x] τ tol s)
    (hx : (x.points - glicko2E (glicko2Mu p.rating) x.μ x.φ) ^ 2
      ≤ glicko2E (glicko2Mu p.rating) x.μ x.φ * (1 - glicko2E (glicko2Mu p.rating) x.μ x.φ)) :
    s ≤ p.volatility := by
  have hE0 := E_pos (glicko2Mu p.rating) x.μ x.φ
  have hE1 := E_lt_one (glicko2Mu p.rating) x.μ x.φ
  have hg := G_pos x.φ
  set E := glicko2E (glicko2Mu p.rating) x.μ x.φ with hE
  have hE' : 0 < 1 - E := by linarith
  have hV : glicko2V (glicko2Mu p.rating) [x] = 1 / (glicko2G x.φ ^ 2 * E * (1 - E)) := by
    simp [glicko2V, hE]
  have hΔ : glicko2Delta (glicko2Mu p.rating) [x] ^ 2 ≤ glicko2V (glicko2Mu p.rating) [x] := by
    have e : glicko2Gain (glicko2Mu p.rating) [x] = glicko2G x.φ * (x.points - E) := by
      simp [glicko2Gain, hE]
    rw [glicko2Delta, e, hV]
    have : (1 / (glicko2G x.φ ^ 2 * E * (1 - E)) * (glicko2G x.φ * (x.points - E))) ^ 2
        = 1 / (glicko2G x.φ ^ 2 * E * (1 - E)) * ((x.points - E) ^ 2 / (E * (1 - E))) := by
      field_simp
    rw [this]
    apply mul_le_of_le_one_right (by positivity)
    rw [div_le_one (by positivity)]
    exact hx
  have := (h.falls (by nlinarith [sq_nonneg (glicko2Phi p.deviation), sq_nonneg p.volatility])).2
  exact le_of_sq_le_sq this hσ.le

theorem E_ge_half {μ μj : ℝ} (φ : ℝ) (h : μj ≤ μ) : 1 / 2 ≤ glicko2E μ μj φ := by
  rw [E_eq, one_div, ← sigmoid_zero]
  exact sigmoid_monotone (mul_nonneg (G_pos φ).le (by linarith))

theorem E_le_half {μ μj : ℝ} (φ : ℝ) (h : μ ≤ μj) : glicko2E μ μj φ ≤ 1 / 2 := by
  rw [E_eq, one_div, ← sigmoid_zero]
  exact sigmoid_monotone (mul_nonpos_of_nonneg_of_nonpos (G_pos φ).le (by linarith))

theorem mu_mono {r s : ℝ} (h : r ≤ s) : glicko2Mu r ≤ glicko2Mu s := by
  rw [glicko2Mu, glicko2Mu]
  exact div_le_div_of_nonneg_right (by linarith) scale_pos.le

/-- If the better rated player wins, no volatility rises. -/
theorem C121_glicko2_favourite_wins (a b a' b' : Glicko2Rating ℝ) (c : Glicko2Config ℝ)
    (hτ : 0 < c.tau) (ha : 0 < a.volatility) (hb : 0 < b.volatility) (hab : b.rating ≤ a.rating)
    (h : glicko2 a b .WIN c = some (a', b')) :
    a'.volatility ≤ a.volatility ∧ b'.volatility ≤ b.volatility := by
  obtain ⟨h1, h2⟩ := C121_glicko2_volatility a b a' b' .WIN c hτ ha.ne' hb.ne' h
  constructor
  · refine calm ha h1 ?_
    simp only [game, points]
    have e := E_ge_half (glicko2Phi b.deviation) (mu_mono hab)
    have e1 := E_lt_one (glicko2Mu a.rating) (glicko2Mu b.rating) (glicko2Phi b.deviation)
    nlinarith
  · refine calm hb h2 ?_
    simp only [game, points, mirror]
    have e := E_le_half (glicko2Phi a.deviation) (mu_mono hab)
    have e1 := E_pos (glicko2Mu b.rating) (glicko2Mu a.rating) (glicko2Phi a.deviation)
    nlinarith

theorem draw_calm {x : ℝ} (h : |x| ≤ 7 / 4) :
    (1 / 2 - sigmoid x) ^ 2 ≤ sigmoid x * (1 - sigmoid x) := by
  have key : ∀ y : ℝ, 0 ≤ y → y ≤ 7 / 4 → (1 / 2 - sigmoid y) ^ 2 ≤ sigmoid y * (1 - sigmoid y) := by
    intro y h0 h1
    set z := exp (-y) with hz
    have hz0 : 0 < z := Real.exp_pos _
    have hz1 : z ≤ 1 := Real.exp_le_one_iff.2 (by linarith)
    have hz2 : 1 / 5.76 ≤ z := by
      rw [one_div, inv_le_comm₀ (by norm_num) hz0, hz, ← Real.exp_neg, neg_neg]
      have h4 : Real.exp y ^ 4 ≤ 5.76 ^ 4 := by
        rw [← Real.exp_nat_mul]
        calc Real.exp ((4 : ℕ) * y) ≤ Real.exp ((7 : ℕ) * 1) := by
              apply Real.exp_le_exp.2; push_cast; linarith
          _ = Real.exp 1 ^ 7 := Real.exp_nat_mul _ _
          _ ≤ (2.7182818286 : ℝ) ^ 7 := by gcongr; exact Real.exp_one_lt_d9.le
          _ ≤ 5.76 ^ 4 := by norm_num
      exact le_of_pow_le_pow_left₀ (by norm_num) (by norm_num) h4
    have e : sigmoid y * (1 - sigmoid y) - (1 / 2 - sigmoid y) ^ 2
        = (6 * z - z ^ 2 - 1) / (4 * (1 + z) ^ 2) := by
      rw [sigmoid_def, ← hz]
      have : (1 + z) ≠ 0 := by positivity
      field_simp
      ring
    have : 0 ≤ 6 * z - z ^ 2 - 1 := by norm_num at hz2; nlinarith
    have : 0 ≤ (6 * z - z ^ 2 - 1) / (4 * (1 + z) ^ 2) := by positivity
    linarith
  rcases le_total 0 x with hx | hx
  · exact key x hx ((le_abs_self x).trans h)
  · have := key (-x) (by linarith) ((neg_le_abs x).trans h)
    rw [sigmoid_neg] at this
    nlinarith

theorem mu_close {r s : ℝ} (φ : ℝ) (h : |r - s| ≤ 304) :
    |glicko2G φ * (glicko2Mu r - glicko2Mu s)| ≤ 7 / 4 := by
  have e : glicko2Mu r - glicko2Mu s = (r - s) / glicko2Scale := by rw [glicko2Mu, glicko2Mu]; ring
  rw [e, abs_mul, abs_div, abs_of_pos (G_pos φ), abs_of_pos scale_pos]
  have h1 : |r - s| / glicko2Scale ≤ 7 / 4 := by
    rw [div_le_iff₀ scale_pos, glicko2Scale]; linarith
  have h0 : 0 ≤ |r - s| / glicko2Scale := div_nonneg (abs_nonneg _) scale_pos.le
  nlinarith [G_le_one φ, G_pos φ]

/-- If players at most 304 points apart draw, no volatility rises. -/
theorem C121_glicko2_draw (a b a' b' : Glicko2Rating ℝ) (c : Glicko2Config ℝ)
    (hτ : 0 < c.tau) (ha : 0 < a.volatility) (hb : 0 < b.volatility)
    (hab : |a.rating - b.rating| ≤ 304) (h : glicko2 a b .DRAW c = some (a', b')) :
    a'.volatility ≤ a.volatility ∧ b'.volatility ≤ b.volatility := by
  obtain ⟨h1, h2⟩ := C121_glicko2_volatility a b a' b' .DRAW c hτ ha.ne' hb.ne' h
  constructor
  · refine calm ha h1 ?_
    simp only [game, points, E_eq]
    exact draw_calm (mu_close _ hab)
  · refine calm hb h2 ?_
    simp only [game, points, mirror, E_eq]
    exact draw_calm (mu_close _ (by rwa [abs_sub_comm]))

/-- A win against odds of at least `1 + (φ² + σ²)/4` never lowers the volatility of the winner. -/
theorem C121_glicko2_upset (a b a' b' : Glicko2Rating ℝ) (c : Glicko2Config ℝ)
    (hτ : 0 < c.tau) (ha : 0 < a.volatility) (hb : b.volatility ≠ 0)
    (hodds : 1 + (glicko2Phi a.deviation ^ 2 + a.volatility ^ 2) / 4
      ≤ odds (1 - glicko2E (glicko2Mu a.rating) (glicko2Mu b.rating) (glicko2Phi b.deviation)))
    (h : glicko2 a b .WIN c = some (a', b')) : a.volatility ≤ a'.volatility := by
  obtain ⟨h1, -⟩ := C121_glicko2_volatility a b a' b' .WIN c hτ ha.ne' hb h
  refine le_of_sq_le_sq (h1.rises ?_).1 h1.pos.le
  have hE0 := E_pos (glicko2Mu a.rating) (glicko2Mu b.rating) (glicko2Phi b.deviation)
  have hE1 := E_lt_one (glicko2Mu a.rating) (glicko2Mu b.rating) (glicko2Phi b.deviation)
  have hg := G_pos (glicko2Phi b.deviation)
  have hg1 := G_le_one (glicko2Phi b.deviation)
  set E := glicko2E (glicko2Mu a.rating) (glicko2Mu b.rating) (glicko2Phi b.deviation) with hE
  set g := glicko2G (glicko2Phi b.deviation) with hgdef
  have hE' : 0 < 1 - E := by linarith
  have hV : glicko2V (glicko2Mu a.rating) (games [(b, .WIN)]) = 1 / (g ^ 2 * E * (1 - E)) := by
    simp [glicko2V, games, game, hE, hgdef]
  have hG : glicko2Gain (glicko2Mu a.rating) (games [(b, .WIN)]) = g * (1 - E) := by
    simp [glicko2Gain, games, game, points, hE, hgdef]
  rw [glicko2Delta, hV, hG]
  have e : (1 / (g ^ 2 * E * (1 - E)) * (g * (1 - E))) ^ 2
      = 1 / (g ^ 2 * E * (1 - E)) * ((1 - E) / E) := by
    field_simp
  rw [e]
  have ho : odds (1 - E) = (1 - E) / E := by rw [odds]; congr 1; ring
  rw [ho] at hodds
  have h4 : 4 ≤ 1 / (g ^ 2 * E * (1 - E)) := by
    rw [le_div_iff₀ (by positivity)]
    have h5 : E * (1 - E) ≤ 1 / 4 := by nlinarith [sq_nonneg (E - 1 / 2)]
    have h6 : g ^ 2 ≤ 1 := by nlinarith
    nlinarith [mul_pos hE0 hE']
  have hs : 0 ≤ glicko2Phi a.deviation ^ 2 + a.volatility ^ 2 := by positivity
  nlinarith

/-- A player with a deviation of 30 beats somebody who is 1000 points stronger. -/
example : 1 + (glicko2Phi 30 ^ 2 + 0.06 ^ 2) / 4
    ≤ odds (1 - glicko2E (glicko2Mu 1500) (glicko2Mu 2500) (glicko2Phi 0)) := by
  have e : glicko2E (glicko2Mu 1500) (glicko2Mu 2500) (glicko2Phi 0)
      = 1 / (1 + exp (1000 / glicko2Scale)) := by
    simp only [glicko2E, glicko2Mu, glicko2Phi, glicko2G]
    norm_num
  have h1 : (2 : ℝ) ≤ exp (1000 / glicko2Scale) := by
    have := Real.add_one_le_exp (1000 / glicko2Scale)
    have h2 : (1 : ℝ) ≤ 1000 / glicko2Scale := by rw [glicko2Scale]; norm_num
    linarith
  have e2 : odds (1 - 1 / (1 + exp (1000 / glicko2Scale))) = exp (1000 / glicko2Scale) := by
    rw [odds]
    have := Real.exp_pos (1000 / glicko2Scale)
    field_simp
    ring
  rw [e, e2]
  refine le_trans ?_ h1
  rw [glicko2Phi, glicko2Scale]
  norm_num

/-- In any sequence of rating periods (empty ones included) the volatility shrinks at most by the
factor `e^(-(τ²/4 + tol/2))` per period. -/
theorem C121_glicko2_history (periods : List (List (Glicko2Rating ℝ × Outcomes)))
    (c : Glicko2Config ℝ) (hτ : 0 < c.tau) (ht : 0 ≤ c.convergenceTolerance)
    (p p' : Glicko2Rating ℝ) (hσ : 0 < p.volatility)
    (h : periods.foldlM (fun q rs => glicko2RatingPeriod q rs c) p = some p') :
    p.volatility * exp (-(periods.length * (c.tau ^ 2 / 4 + c.convergenceTolerance / 2)))
      ≤ p'.volatility := by
  induction periods generalizing p with
  | nil =>
    simp only [List.foldlM_nil, Option.pure_def, Option.some.injEq] at h
    subst h
    simp
  | cons rs ps ih =>
    rw [List.foldlM_cons] at h
    obtain ⟨q, hq, h⟩ := Option.bind_eq_some_iff.1 h
    set ρ := c.tau ^ 2 / 4 + c.convergenceTolerance / 2 with hρ
    have hρ0 : 0 ≤ ρ := by positivity
    have key : 0 < q.volatility ∧ p.volatility * exp (-ρ) ≤ q.volatility := by
      by_cases hr : rs = []
      · subst hr
        have : q = decayDeviation p := by simpa [glicko2RatingPeriod] using hq.symm
        subst this
        rw [decay_real]
        exact ⟨hσ, mul_le_of_le_one_right hσ.le (Real.exp_le_one_iff.2 (by linarith))⟩
      · have hR := C121_glicko2_period_volatility p q rs c hτ hσ.ne' hr hq
        refine ⟨hR.pos, le_of_sq_le_sq ?_ hR.pos.le⟩
        have e : (p.volatility * exp (-ρ)) ^ 2
            = p.volatility ^ 2 * exp (-(c.tau ^ 2 / 2 + c.convergenceTolerance)) := by
          rw [mul_pow, ← Real.exp_nat_mul]
          congr 2
          rw [hρ]; push_cast; ring
        rw [e]
        exact hR.lower
    have := ih q key.1 h
    refine le_trans ?_ this
    have e : exp (-((rs :: ps).length * ρ)) = exp (-ρ) * exp (-(ps.length * ρ)) := by
      rw [← Real.exp_add]; congr 1; simp only [List.length_cons]; push_cast; ring
    rw [e, ← mul_assoc]
    exact mul_le_mul_of_nonneg_right key.2 (Real.exp_pos _).le

/-- A favourite wins: the hypotheses are met. -/
example : ∃ a' b', glicko2 (⟨1700, 80, 0.06⟩ : Glicko2Rating ℝ) ⟨1500, 350, 0.06⟩ .WIN
    Glicko2Config.new = some (a', b') := by
  obtain ⟨⟨a', b'⟩, h⟩ := C37_glicko2_returns_default (⟨1700, 80, 0.06⟩) (⟨1500, 350, 0.06⟩) .WIN
    (by norm_num)
  exact ⟨a', b', h⟩

end Skillratings.Glicko2
