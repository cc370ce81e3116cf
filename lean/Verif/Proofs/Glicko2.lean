import Mathlib.Analysis.SpecialFunctions.ExpDeriv
import Verif.Proofs.GlickoCommon
import Verif.Proofs.Illinois
import Verif.Spec.Glicko2
/-
Helper lemmas for the Glicko-2 properties.
-/
namespace Skillratings.Glicko2
open Real Spec Set

/-! ### The function `f` -/

section F
variable (Δ φ v σ τ : ℝ)

/-- The derivative of `f`. -/
noncomputable def slope (x : ℝ) : ℝ :=
  exp x * ((Δ ^ 2 - φ ^ 2 - v) * (φ ^ 2 + v) - (Δ ^ 2 + φ ^ 2 + v) * exp x)
    / (2 * (φ ^ 2 + v + exp x) ^ 3) - 1 / τ ^ 2

theorem hasDerivAt_F (hv : 0 < v) (x : ℝ) :
    HasDerivAt (glicko2F Δ φ v σ τ) (slope Δ φ v τ x) x := by
  have hE := Real.hasDerivAt_exp x
  have hy := Real.exp_pos x
  have hS : 0 < φ ^ 2 + v + exp x := by positivity
  have hnum : HasDerivAt (fun x => exp x * (Δ ^ 2 - φ ^ 2 - v - exp x))
      (exp x * (Δ ^ 2 - φ ^ 2 - v - exp x) + exp x * (-exp x)) x :=
    hE.mul (hE.const_sub _)
  have hden : HasDerivAt (fun x => 2 * (φ ^ 2 + v + exp x) ^ 2)
      (2 * (2 * (φ ^ 2 + v + exp x) * exp x)) x := by
    have h1 := ((hE.const_add (φ ^ 2 + v)).pow 2).const_mul 2
    simpa using h1
  have h2 := hnum.div hden (by positivity)
  have h3 : HasDerivAt (fun x : ℝ => (x - Real.log (σ ^ 2)) / τ ^ 2) (1 / τ ^ 2) x :=
    ((hasDerivAt_id x).sub_const _).div_const _
  have h4 := h2.sub h3
  refine h4.congr_deriv ?_
  rw [slope]
  congr 1
  field_simp
  ring

theorem continuous_F (hv : 0 < v) : Continuous (glicko2F Δ φ v σ τ) :=
  continuous_iff_continuousAt.2 fun x => (hasDerivAt_F Δ φ v σ τ hv x).continuousAt

/-- The slope is negative everywhere unless the result is a huge surprise. -/
theorem slope_neg {τ : ℝ} (hv : 0 < v) (hτ : 0 < τ)
    (h : Δ ^ 2 ≤ (φ ^ 2 + v) * (1 + 27 / (2 * τ ^ 2))) (x : ℝ) : slope Δ φ v τ x < 0 := by
  rw [slope]
  set y := exp x with hy
  have hy0 : 0 < y := Real.exp_pos x
  set S := φ ^ 2 + v with hS
  have hS0 : 0 < S := by positivity
  have e1 : Δ ^ 2 - φ ^ 2 - v = Δ ^ 2 - S := by rw [hS]; ring
  have e2 : Δ ^ 2 + φ ^ 2 + v = Δ ^ 2 + S := by rw [hS]; ring
  rw [e1, e2, sub_neg, div_lt_div_iff₀ (by positivity) (by positivity)]
  have hτ2 : 0 < τ ^ 2 := by positivity
  have h1 : 2 * τ ^ 2 * (Δ ^ 2 - S) ≤ 27 * S := by
    have : S * (1 + 27 / (2 * τ ^ 2)) = S + 27 * S / (2 * τ ^ 2) := by ring
    rw [this] at h
    have h' : Δ ^ 2 - S ≤ 27 * S / (2 * τ ^ 2) := by linarith
    rw [le_div_iff₀ (by positivity)] at h'
    linarith
  have h2 : 27 * S ^ 2 * y ≤ 4 * (S + y) ^ 3 := by
    have : 4 * (S + y) ^ 3 - 27 * S ^ 2 * y = (2 * y - S) ^ 2 * (y + 4 * S) := by ring
    have h0 : 0 ≤ (2 * y - S) ^ 2 * (y + 4 * S) := by positivity
    linarith
  have h3 : 0 < τ ^ 2 * y * ((Δ ^ 2 + S) * y) := by positivity
  have h4 : 2 * τ ^ 2 * (Δ ^ 2 - S) * (S * y) ≤ 27 * S * (S * y) := by gcongr
  nlinarith

/-- Hence `f` has at most one zero. -/
theorem F_unique {τ : ℝ} (hv : 0 < v) (hτ : 0 < τ)
    (h : Δ ^ 2 ≤ (φ ^ 2 + v) * (1 + 27 / (2 * τ ^ 2))) :
    StrictAnti (glicko2F Δ φ v σ τ) := by
  apply strictAnti_of_deriv_neg
  intro x
  rw [(hasDerivAt_F Δ φ v σ τ hv x).deriv]
  exact slope_neg Δ φ v hv hτ h x

end F

theorem fValue_real (Δ φ v σ τ x : ℝ) :
    fValue x (Δ ^ 2) (φ ^ 2) v σ τ = glicko2F Δ φ v σ τ x := by
  simp only [fValue, flt, glicko2F]

/-! ### The solver -/

/-- The first loop returns: at the latest when `k ≥ τ/2`. -/
theorem kLoop_returns (g : ℝ → ℝ) (a τ k : ℝ) (n : ℕ)
    (h : 0 ≤ g ((k + n) * -τ + a)) : ∃ k', kLoop g a τ k = some k' := by
  induction n generalizing k with
  | zero =>
    rw [kLoop, if_neg]
    · exact ⟨k, rfl⟩
    · simp only [flt, not_lt]; simpa using h
  | succ n ih =>
    rw [kLoop]
    split
    · apply ih
      simp only [flt]
      push_cast at h
      rwa [show k + 1 + (n : ℝ) = k + (n + 1) by ring]
    · exact ⟨k, rfl⟩

/-- What the first loop returns. -/
theorem kLoop_spec {g : ℝ → ℝ} {a τ k k' : ℝ} (h : kLoop g a τ k = some k') :
    0 ≤ g (k' * -τ + a) ∧ k ≤ k' := by
  refine kLoop.partial_correctness g a τ (fun k k' => 0 ≤ g (k' * -τ + a) ∧ k ≤ k') ?_ k k' h
  intro loop ih k k' h
  by_cases hc : g (k * -τ + a) < 0
  · have hb : (g (Flt.mulAdd k (-τ) a) <? (0.0 : ℝ)) = true := by simp only [flt]; exact hc
    rw [if_pos hb] at h
    have := ih _ _ h
    refine ⟨this.1, ?_⟩
    have h2 := this.2
    simp only [flt] at h2
    linarith
  · have hb : ¬ (g (Flt.mulAdd k (-τ) a) <? (0.0 : ℝ)) = true := by simp only [flt]; exact hc
    rw [if_neg hb] at h
    cases h
    exact ⟨not_lt.1 hc, le_rfl⟩

/-- The second end of the initial bracket. -/
noncomputable def secondEnd (Δ φ v σ τ : ℝ) : Option ℝ :=
  open Classical in
  if φ ^ 2 + v < Δ ^ 2 then some (log (Δ ^ 2 - φ ^ 2 - v))
  else (kLoop (glicko2F Δ φ v σ τ) (log (σ ^ 2)) τ 1).map fun k => k * -τ + log (σ ^ 2)

/-- The state before the second loop. -/
noncomputable def startState (Δ φ v σ τ b : ℝ) : VolState ℝ :=
  ⟨log (σ ^ 2), b, glicko2F Δ φ v σ τ (log (σ ^ 2)), glicko2F Δ φ v σ τ b⟩

theorem newVolatility_real (σ Δ φ v τ tol : ℝ) :
    newVolatility σ (Δ ^ 2) (φ ^ 2) v τ tol = (secondEnd Δ φ v σ τ).bind fun b =>
      (volLoop (glicko2F Δ φ v σ τ) tol (startState Δ φ v σ τ b)).map fun s => exp (s.a / 2) := by
  simp only [newVolatility, fValue_real, secondEnd]
  by_cases h : φ ^ 2 + v < Δ ^ 2
  · have hb : (φ ^ 2 + v <? Δ ^ 2) = true := by simp only [flt]; exact h
    rw [if_pos h, if_pos hb]
    simp only [flt, startState, Option.bind_eq_bind, Option.bind_some, Option.map_eq_bind]
    rfl
  · have hb : ¬ (φ ^ 2 + v <? Δ ^ 2) = true := by simp only [flt]; exact h
    rw [if_neg h, if_neg hb]
    simp only [flt, startState, Option.bind_eq_bind, Option.map_eq_bind, Option.bind_assoc,
      Function.comp_def, Option.bind_some]

theorem F_start (Δ φ v σ τ : ℝ) : glicko2F Δ φ v σ τ (log (σ ^ 2)) =
    exp (log (σ ^ 2)) * (Δ ^ 2 - φ ^ 2 - v - exp (log (σ ^ 2)))
      / (2 * (φ ^ 2 + v + exp (log (σ ^ 2))) ^ 2) := by
  rw [glicko2F, sub_self, zero_div, sub_zero]

/-- The initial bracket satisfies the loop invariant. -/
theorem start_inv {Δ φ v σ τ b : ℝ} (hv : 0 < v) (hτ : 0 < τ)
    (h : secondEnd Δ φ v σ τ = some b) :
    Inv (glicko2F Δ φ v σ τ) (startState Δ φ v σ τ b) := by
  set α := log (σ ^ 2) with hα
  have hy := Real.exp_pos α
  have hS : 0 < φ ^ 2 + v + exp α := by positivity
  have hden : 0 < 2 * (φ ^ 2 + v + exp α) ^ 2 := by positivity
  have hτ2 : 0 < τ ^ 2 := by positivity
  rw [secondEnd] at h
  split_ifs at h with hc
  · -- the result is a surprise
    cases h
    have hD : 0 < Δ ^ 2 - φ ^ 2 - v := by linarith
    set D := Δ ^ 2 - φ ^ 2 - v with hDdef
    have hfb : glicko2F Δ φ v σ τ (log D) = -((log D - α) / τ ^ 2) := by
      rw [glicko2F, Real.exp_log hD, ← hDdef, sub_self, mul_zero, zero_div, zero_sub]
    have hfa : glicko2F Δ φ v σ τ α = exp α * (D - exp α) / (2 * (φ ^ 2 + v + exp α) ^ 2) :=
      F_start Δ φ v σ τ
    refine ⟨rfl, ⟨0, by simp [startState]⟩, ?_, ?_⟩
    · change glicko2F Δ φ v σ τ α * glicko2F Δ φ v σ τ (log D) ≤ 0
      rw [hfb, hfa]
      rcases le_total α (log D) with hle | hle
      · have h1 : exp α ≤ D := by rw [← Real.exp_log hD]; exact Real.exp_le_exp.2 hle
        have h2 : 0 ≤ exp α * (D - exp α) / (2 * (φ ^ 2 + v + exp α) ^ 2) :=
          div_nonneg (mul_nonneg hy.le (by linarith)) hden.le
        have h3 : 0 ≤ (log D - α) / τ ^ 2 := div_nonneg (by linarith) hτ2.le
        nlinarith
      · have h1 : D ≤ exp α := by
          conv_lhs => rw [← Real.exp_log hD]
          exact Real.exp_le_exp.2 hle
        have h2 : exp α * (D - exp α) / (2 * (φ ^ 2 + v + exp α) ^ 2) ≤ 0 :=
          div_nonpos_of_nonpos_of_nonneg (mul_nonpos_of_nonneg_of_nonpos hy.le (by linarith))
            hden.le
        have h3 : (log D - α) / τ ^ 2 ≤ 0 := div_nonpos_of_nonpos_of_nonneg (by linarith) hτ2.le
        nlinarith
    · intro _ h0
      change α = log D
      change glicko2F Δ φ v σ τ (log D) = 0 at h0
      rw [hfb, neg_eq_zero, div_eq_zero_iff] at h0
      rcases h0 with h0 | h0
      · linarith
      · exact absurd h0 hτ2.ne'
  · obtain ⟨k, hk, rfl⟩ := Option.map_eq_some_iff.1 h
    have hk' := kLoop_spec hk
    have hfa : glicko2F Δ φ v σ τ α < 0 := by
      rw [hα, F_start, ← hα]
      apply div_neg_of_neg_of_pos _ hden
      apply mul_neg_of_pos_of_neg hy
      linarith
    refine ⟨rfl, ⟨0, by simp [startState]⟩, ?_, ?_⟩
    · exact mul_nonpos_of_nonpos_of_nonneg hfa.le hk'.1
    · intro h0 _
      exact absurd h0 hfa.ne

/-- The bracketing step returns. -/
theorem secondEnd_returns {φ v τ : ℝ} (Δ σ : ℝ) (hv : 0 < v) (hτ : 0 < τ) :
    ∃ b, secondEnd Δ φ v σ τ = some b := by
  rw [secondEnd]
  split_ifs with hc
  · exact ⟨_, rfl⟩
  · push Not at hc
    obtain ⟨n, hn⟩ := exists_nat_ge (τ / 2)
    obtain ⟨k, hk⟩ := kLoop_returns (glicko2F Δ φ v σ τ) (log (σ ^ 2)) τ 1 n (by
      set x := (1 + (n : ℝ)) * -τ + log (σ ^ 2) with hx
      have hy := Real.exp_pos x
      set S := φ ^ 2 + v with hS
      have hS0 : 0 < S := by positivity
      have e1 : (x - log (σ ^ 2)) / τ ^ 2 = -((1 + n) / τ) := by
        rw [hx]; field_simp; ring
      rw [glicko2F, e1, ← hS]
      have h1 : (1 / 2 : ℝ) ≤ (1 + n) / τ := by
        rw [le_div_iff₀ hτ]; linarith
      have h2 : -(1 / 2) ≤ exp x * (Δ ^ 2 - φ ^ 2 - v - exp x) / (2 * (S + exp x) ^ 2) := by
        rw [le_div_iff₀ (by positivity)]
        have : 0 ≤ exp x * Δ ^ 2 := by positivity
        have e : Δ ^ 2 - φ ^ 2 - v = Δ ^ 2 - S := by rw [hS]; ring
        rw [e]
        nlinarith
      linarith)
    rw [hk]
    exact ⟨_, rfl⟩

/-- Partial correctness of `new_volatility`. -/
theorem newVolatility_spec {σ Δ φ v τ tol σ' : ℝ} (hv : 0 < v) (hτ : 0 < τ)
    (h : newVolatility σ (Δ ^ 2) (φ ^ 2) v τ tol = some σ') :
    0 < σ' ∧ ∃ x, glicko2F Δ φ v σ τ x = 0 ∧ |log (σ' ^ 2) - x| ≤ tol := by
  rw [newVolatility_real] at h
  obtain ⟨b, hb, h⟩ := Option.bind_eq_some_iff.1 h
  obtain ⟨s, hs, rfl⟩ := Option.map_eq_some_iff.1 h
  refine ⟨Real.exp_pos _, ?_⟩
  rcases lt_or_ge tol 0 with ht | ht
  · rw [volLoop_negative _ ht] at hs
    cases hs
  obtain ⟨hinv, hlen⟩ := volLoop_spec _ ht hs (start_inv hv hτ hb)
  obtain ⟨x, hx, hx0⟩ := hinv.exists_zero _ (continuous_F Δ φ v σ τ hv)
  refine ⟨x, hx0, ?_⟩
  have e : log (exp (s.a / 2) ^ 2) = s.a := by
    rw [Real.log_pow, Real.log_exp]; push_cast; ring
  rw [e]
  have h1 := abs_sub_left_of_mem_uIcc hx
  rw [abs_sub_comm]
  exact h1.trans hlen

/-- Termination of `new_volatility`. -/
theorem newVolatility_returns {σ Δ φ v τ tol : ℝ} (hv : 0 < v) (hτ : 0 < τ) (htol : 0 < tol)
    (hroot : ∀ x, glicko2F Δ φ v σ τ x = 0 → slope Δ φ v τ x ≠ 0) :
    ∃ σ', newVolatility σ (Δ ^ 2) (φ ^ 2) v τ tol = some σ' := by
  obtain ⟨b, hb⟩ := secondEnd_returns (φ := φ) Δ σ hv hτ
  obtain ⟨n, hn⟩ := illinois_terminates (glicko2F Δ φ v σ τ) (continuous_F Δ φ v σ τ hv) htol
    (startState Δ φ v σ τ b) (start_inv hv hτ hb) fun X _ h0 =>
      linear_of_hasDerivAt _ h0 (hasDerivAt_F Δ φ v σ τ hv X) (hroot X h0)
  obtain ⟨t, ht⟩ := volLoop_returns _ n _ hn
  refine ⟨exp (t.a / 2), ?_⟩
  rw [newVolatility_real, hb, Option.bind_some, ht, Option.map_some]

/-- With a negative tolerance `new_volatility` never returns. -/
theorem newVolatility_negative {σ Δ φ v τ tol : ℝ} (htol : tol < 0) :
    newVolatility σ (Δ ^ 2) (φ ^ 2) v τ tol = none := by
  rw [newVolatility_real]
  cases secondEnd Δ φ v σ τ with
  | none => rfl
  | some b => rw [Option.bind_some, volLoop_negative _ htol]; rfl

/-! ### The rating functions -/

theorem scale_pos : 0 < glicko2Scale := by norm_num [glicko2Scale]

theorem phi_real (rd : ℝ) : (rd / 173.7178 : ℝ) = glicko2Phi rd := rfl

theorem mu_real (r : ℝ) : glicko2Phi (r - 1500.0) = glicko2Mu r := by
  rw [Flt.lit_1500]; rfl

theorem gValue_real (φ : ℝ) : gValue φ = glicko2G φ := by
  simp only [gValue, flt, glicko2G, one_div]

theorem eValue_real (μ μj φj : ℝ) : eValue μ μj (glicko2G φj) = glicko2E μ μj φj := by
  simp only [eValue, flt, glicko2E, one_div]
  rw [neg_mul]

theorem G_pos (φ : ℝ) : 0 < glicko2G φ := by
  unfold glicko2G
  have : 0 ≤ 3 * φ ^ 2 / Real.pi ^ 2 := by positivity
  positivity

theorem G_le_one (φ : ℝ) : glicko2G φ ≤ 1 := by
  unfold glicko2G
  have : 0 ≤ 3 * φ ^ 2 / Real.pi ^ 2 := by positivity
  rw [div_le_one (by positivity)]
  exact Real.one_le_sqrt.2 (by linarith)

theorem E_eq (μ μj φj : ℝ) : glicko2E μ μj φj = sigmoid (glicko2G φj * (μ - μj)) := by
  rw [glicko2E, one_div, sigmoid_def]

theorem E_pos (μ μj φj : ℝ) : 0 < glicko2E μ μj φj := by rw [E_eq]; exact sigmoid_pos _
theorem E_lt_one (μ μj φj : ℝ) : glicko2E μ μj φj < 1 := by rw [E_eq]; exact sigmoid_lt_one _

theorem info_pos (μ : ℝ) (x : Glicko2Game) :
    0 < glicko2G x.φ ^ 2 * glicko2E μ x.μ x.φ * (1 - glicko2E μ x.μ x.φ) := by
  have h1 := E_pos μ x.μ x.φ
  have h2 : 0 < 1 - glicko2E μ x.μ x.φ := sub_pos.2 (E_lt_one _ _ _)
  have h3 := G_pos x.φ
  positivity

theorem V_pos (μ : ℝ) {xs : List Glicko2Game} (h : xs ≠ []) : 0 < glicko2V μ xs :=
  one_div_pos.2 (List_sum_pos xs _ h (info_pos μ))

/-- A result as a game of the specification. -/
noncomputable def game (r : Glicko2Rating ℝ × Outcomes) : Glicko2Game :=
  ⟨glicko2Mu r.1.rating, glicko2Phi r.1.deviation, points r.2⟩

/-- The new player, given the new volatility. -/
noncomputable def updated (r rd : ℝ) (xs : List Glicko2Game) (σ' : ℝ) : Glicko2Rating ℝ :=
  let φ' := glicko2NewPhi (glicko2Phi rd) σ' (glicko2V (glicko2Mu r) xs)
  ⟨glicko2NewMu (glicko2Mu r) φ' (glicko2Gain (glicko2Mu r) xs) * glicko2Scale + 1500,
    φ' * glicko2Scale, σ'⟩

/-- The volatility equation of a player. -/
noncomputable def solve (r rd σ : ℝ) (xs : List Glicko2Game) (c : Glicko2Config ℝ) : Option ℝ :=
  newVolatility σ (glicko2Delta (glicko2Mu r) xs ^ 2) (glicko2Phi rd ^ 2)
    (glicko2V (glicko2Mu r) xs) c.tau c.convergenceTolerance

theorem newDeviation_real (φ σ' v : ℝ) : newDeviation φ σ' v = glicko2NewPhi φ σ' v := by
  simp only [newDeviation, flt, glicko2NewPhi, one_div]
  rw [Real.sq_sqrt (by positivity)]

theorem period_real (p : Glicko2Rating ℝ) (rs : List (Glicko2Rating ℝ × Outcomes))
    (c : Glicko2Config ℝ) (h : rs ≠ []) :
    glicko2RatingPeriod p rs c =
      (solve p.rating p.deviation p.volatility (rs.map game) c).map
        (updated p.rating p.deviation (rs.map game)) := by
  have he : rs.isEmpty = false := by simpa [List.isEmpty_iff] using h
  have e1 : ((rs.map fun r => glicko2G (glicko2Phi r.1.deviation) ^ 2
      * glicko2E (glicko2Mu p.rating) (glicko2Mu r.1.rating) (glicko2Phi r.1.deviation)
      * (1 - glicko2E (glicko2Mu p.rating) (glicko2Mu r.1.rating)
        (glicko2Phi r.1.deviation))).sum)⁻¹ = glicko2V (glicko2Mu p.rating) (rs.map game) := by
    rw [glicko2V, List.map_map, one_div]; rfl
  have e2 : (rs.map fun r => glicko2G (glicko2Phi r.1.deviation) * (points r.2
      - glicko2E (glicko2Mu p.rating) (glicko2Mu r.1.rating) (glicko2Phi r.1.deviation))).sum
      = glicko2Gain (glicko2Mu p.rating) (rs.map game) := by
    rw [glicko2Gain, List.map_map]; rfl
  simp only [glicko2RatingPeriod, he, mu_real, phi_real, gValue_real, eValue_real,
    toChessPoints_real, Flt.sum_real, newDeviation_real]
  simp only [Flt.powi_two, Flt.lit_1, e1, e2, Flt.recip_real, Flt.mulAdd_real, Bool.false_eq_true,
    if_false, Flt.lit_1500, Option.bind_eq_bind, Option.map_eq_bind, solve, glicko2Delta]
  congr 1
  funext σ'
  simp only [Function.comp, updated, glicko2NewMu]
  rw [add_comm (_ * glicko2Gain _ _)]
  rfl

theorem side_real (r rd : ℝ) (x : Glicko2Game) (σ' : ℝ) :
    (⟨Flt.mulAdd (newRating (glicko2Mu r) (newDeviation (glicko2Phi rd) σ'
          (vValue (glicko2G x.φ) (glicko2E (glicko2Mu r) x.μ x.φ))) x.points (glicko2G x.φ)
          (glicko2E (glicko2Mu r) x.μ x.φ)) 173.7178 1500.0,
        newDeviation (glicko2Phi rd) σ'
          (vValue (glicko2G x.φ) (glicko2E (glicko2Mu r) x.μ x.φ)) * 173.7178, σ'⟩
      : Glicko2Rating ℝ) = updated r rd [x] σ' := by
  have ev : vValue (glicko2G x.φ) (glicko2E (glicko2Mu r) x.μ x.φ)
      = glicko2V (glicko2Mu r) [x] := by
    simp only [vValue, flt, glicko2V, List.map_cons, List.map_nil, List.sum_cons, List.sum_nil,
      add_zero, one_div]
  simp only [newDeviation_real, ev, newRating, flt, updated, glicko2NewMu, glicko2Gain,
    List.map_cons, List.map_nil, List.sum_cons, List.sum_nil, add_zero, glicko2Scale]
  congr 2
  ring

theorem solve_real (r rd σ : ℝ) (x : Glicko2Game) (c : Glicko2Config ℝ) :
    newVolatility σ
      (Flt.powi (deltaValue x.points (vValue (glicko2G x.φ) (glicko2E (glicko2Mu r) x.μ x.φ))
        (glicko2G x.φ) (glicko2E (glicko2Mu r) x.μ x.φ)) 2)
      (Flt.powi (glicko2Phi rd) 2) (vValue (glicko2G x.φ) (glicko2E (glicko2Mu r) x.μ x.φ))
      c.tau c.convergenceTolerance = solve r rd σ [x] c := by
  have ev : vValue (glicko2G x.φ) (glicko2E (glicko2Mu r) x.μ x.φ)
      = glicko2V (glicko2Mu r) [x] := by
    simp only [vValue, flt, glicko2V, List.map_cons, List.map_nil, List.sum_cons, List.sum_nil,
      add_zero, one_div]
  simp only [solve, ev, deltaValue, flt, glicko2Delta, glicko2Gain, List.map_cons, List.map_nil,
    List.sum_cons, List.sum_nil, add_zero]

theorem glicko2_real (a b : Glicko2Rating ℝ) (o : Outcomes) (c : Glicko2Config ℝ) :
    glicko2 a b o c =
      (solve a.rating a.deviation a.volatility [game (b, o)] c).bind fun σ₁ =>
        (solve b.rating b.deviation b.volatility [game (a, mirror o)] c).map fun σ₂ =>
          (updated a.rating a.deviation [game (b, o)] σ₁,
           updated b.rating b.deviation [game (a, mirror o)] σ₂) := by
  have h3 : (1.0 : ℝ) - points o = points (mirror o) := by
    rw [points_mirror, Flt.lit_1]
  simp only [glicko2, mu_real, phi_real, gValue_real, eValue_real, toChessPoints_real, h3,
    Option.bind_eq_bind, Option.map_eq_bind, Function.comp_def]
  simp only [← solve_real, ← side_real]
  rfl

theorem expectedScore_real (a b : Glicko2Rating ℝ) :
    expectedScore a b =
      (glicko2E (glicko2Mu a.rating) (glicko2Mu b.rating)
          √(glicko2Phi b.deviation ^ 2 + glicko2Phi a.deviation ^ 2),
       1 - glicko2E (glicko2Mu a.rating) (glicko2Mu b.rating)
          √(glicko2Phi b.deviation ^ 2 + glicko2Phi a.deviation ^ 2)) := by
  simp only [expectedScore, mu_real, phi_real, gValue_real, eValue_real, Flt.lit_1, Flt.hypot_real]

theorem decay_real (p : Glicko2Rating ℝ) :
    decayDeviation p =
      ⟨p.rating, glickoOnset p.deviation (glicko2Scale * p.volatility), p.volatility⟩ := by
  simp only [decayDeviation, phi_real, glickoOnset]
  congr 1
  simp only [flt]
  congr 1
  change √(glicko2Phi p.deviation ^ 2 + p.volatility ^ 2) * glicko2Scale = _
  have hs := scale_pos
  conv_lhs => rw [← Real.sqrt_sq hs.le, ← Real.sqrt_mul (by positivity)]
  rw [glicko2Phi]
  congr 1
  field_simp

end Skillratings.Glicko2
