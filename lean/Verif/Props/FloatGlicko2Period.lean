import Verif.Proofs.FPGlicko2Period
import Verif.Props.FloatGlicko2
/-
C128: in double precision a rating period of Glicko-2 returns, and its result is close to the exact one.
-/

namespace Skillratings
namespace Glicko2
open FP FPVal Spec
variable {E : FloatEnv}

/-- The call returns, and the new player is close to the exact result. -/
theorem C128_glicko2_period_returns (L : E.Lib) (A : E.Accurate) (P : E.Precise) (S : E.Scales) (W : E.LogWide)
    (a : Glicko2Rating (FP E)) (rs : List (Glicko2Rating (FP E) × Outcomes)) (c : Glicko2Config (FP E))
    (ha : Glicko2Usual a) (hc : Glicko2Tuned c) (H : Glicko2Period a rs)
    (C : Glicko2Calm a c.tau.toR (glicko2Delta (glicko2Mu a.rating.toR) (glicko2Games rs))
      (glicko2V (glicko2Mu a.rating.toR) (glicko2Games rs))) :
    ∃ a', glicko2RatingPeriod a rs c = some a' ∧ ∃ r rd σ,
      Glicko2Exact a.rating.toR a.deviation.toR a.volatility.toR c.tau.toR (glicko2Games rs) r rd σ ∧
      Glicko2PeriodClose rs.length (c.convergenceTolerance.toR + 1 / 2 ^ 26 + 11 / 10 * (a.volatility.toR ^ 2 /
        (glicko2Phi a.deviation.toR ^ 2 + glicko2V (glicko2Mu a.rating.toR) (glicko2Games rs))) ^ 2) a' r rd σ := by
  obtain ⟨a', r, rd, σ, h, x, y, -⟩ := period_returns L A P S W ha hc H C
  exact ⟨a', h, r, rd, σ, x, y⟩

/-- Away from the point where the code changes its way of starting, the error is the tolerance the
caller asked for. -/
theorem C128_glicko2_period_precise (L : E.Lib) (A : E.Accurate) (P : E.Precise) (S : E.Scales) (W : E.LogWide)
    (a a' : Glicko2Rating (FP E)) (rs : List (Glicko2Rating (FP E) × Outcomes)) (c : Glicko2Config (FP E))
    (ha : Glicko2Usual a) (hc : Glicko2Tuned c) (H : Glicko2Period a rs)
    (C : Glicko2Calm a c.tau.toR (glicko2Delta (glicko2Mu a.rating.toR) (glicko2Games rs))
      (glicko2V (glicko2Mu a.rating.toR) (glicko2Games rs)))
    (h : glicko2RatingPeriod a rs c = some a') (hd : Decisive a (glicko2Games rs)) :
    ∃ r rd σ, Glicko2Exact a.rating.toR a.deviation.toR a.volatility.toR c.tau.toR (glicko2Games rs) r rd σ ∧
      Glicko2PeriodClose rs.length (c.convergenceTolerance.toR + 1 / 2 ^ 26) a' r rd σ := by
  obtain ⟨a₁, r, rd, σ, h', x, -, y⟩ := period_returns L A P S W ha hc H C
  obtain rfl := Option.some.inj (h.symm.trans h')
  exact ⟨r, rd, σ, x, y hd⟩

/-- The exact result is unique. -/
theorem C128_glicko2_period_exact_unique (a : Glicko2Rating (FP E)) (xs : List Glicko2Game) (τ : ℝ) (hτ : 0 < τ)
    (hv : 0 < glicko2V (glicko2Mu a.rating.toR) xs)
    (C : Glicko2Calm a τ (glicko2Delta (glicko2Mu a.rating.toR) xs) (glicko2V (glicko2Mu a.rating.toR) xs))
    (r rd σ r' rd' σ' : ℝ)
    (h : Glicko2Exact a.rating.toR a.deviation.toR a.volatility.toR τ xs r rd σ)
    (h' : Glicko2Exact a.rating.toR a.deviation.toR a.volatility.toR τ xs r' rd' σ') :
    r = r' ∧ rd = rd' ∧ σ = σ' := by
  have hσ : σ = σ' := by
    have hu := (F_unique (glicko2Delta (glicko2Mu a.rating.toR) xs) (glicko2Phi a.deviation.toR)
      (glicko2V (glicko2Mu a.rating.toR) xs) a.volatility.toR hv hτ (by
        have hc := C.delta
        have hD : 0 < glicko2Phi a.deviation.toR ^ 2 + glicko2V (glicko2Mu a.rating.toR) xs := by positivity
        generalize glicko2Phi a.deviation.toR ^ 2 + glicko2V (glicko2Mu a.rating.toR) xs = D at *
        generalize glicko2Delta (glicko2Mu a.rating.toR) xs ^ 2 = w at *
        have h1 : D * (1 + 27 / (2 * τ ^ 2)) = (D * τ ^ 2 + 27 / 2 * D) / τ ^ 2 := by field_simp
        rw [h1, le_div_iff₀ (by positivity)]
        have : 0 < D * τ ^ 2 := by positivity
        linarith)).injective (h.volatility.trans h'.volatility.symm)
    have h1 := h.pos
    have h2 := h'.pos
    have := Real.log_injOn_pos (Set.mem_Ioi.2 (pow_pos h1 2)) (Set.mem_Ioi.2 (pow_pos h2 2)) hu
    exact (pow_left_inj₀ h1.le h2.le (by norm_num)).1 this
  subst hσ
  exact ⟨h.rating.trans h'.rating.symm, h.deviation.trans h'.deviation.symm, rfl⟩

/-! ### When the results are not too surprising -/

theorem sum_sq_le {β : Type} (l : List β) (x : β → ℝ) :
    (l.map x).sum ^ 2 ≤ l.length * (l.map fun r => x r ^ 2).sum := by
  induction l with
  | nil => simp
  | cons r l ih =>
    simp only [List.map_cons, List.sum_cons, List.length_cons]
    push_cast
    have q0 : 0 ≤ (l.map fun r => x r ^ 2).sum := List.sum_nonneg (by
      intro y hy
      obtain ⟨z, -, rfl⟩ := List.mem_map.1 hy
      exact _root_.sq_nonneg _)
    rcases Nat.eq_zero_or_pos l.length with h | h
    · rw [List.length_eq_zero_iff] at h
      subst h
      simp
    · have hn : (0 : ℝ) < l.length := by exact_mod_cast h
      generalize (l.map fun r => x r ^ 2).sum = q at *
      generalize (l.map x).sum = s at *
      generalize (l.length : ℝ) = n at *
      generalize x r = y
      have h1 : n * (2 * y * s) ≤ n * (n * y ^ 2 + q) := by nlinarith [_root_.sq_nonneg (n * y - s)]
      have h2 := le_of_mul_le_mul_left h1 hn
      nlinarith

/-- Against opponents nearby the improvement is not too large. -/
theorem delta_near {a : Glicko2Rating (FP E)} {rs : List (Glicko2Rating (FP E) × Outcomes)} {Y : ℝ}
    (hne : rs ≠ []) (hY : Y ≤ 1300)
    (h : ∀ r ∈ rs, Real.exp (|a.rating.toR - r.1.rating.toR| / glicko2Scale) ≤ Y) :
    0 < glicko2V (glicko2Mu a.rating.toR) (glicko2Games rs) ∧
    4 / rs.length ≤ glicko2V (glicko2Mu a.rating.toR) (glicko2Games rs) ∧
    glicko2Delta (glicko2Mu a.rating.toR) (glicko2Games rs) ^ 2 ≤
      rs.length * Y * glicko2V (glicko2Mu a.rating.toR) (glicko2Games rs) := by
  have hsc : 0 < glicko2Scale := (scale_ap (E := E)).2.pos
  have hn : 0 < (rs.length : ℝ) := by
    have := List.length_pos_iff.2 hne
    exact_mod_cast this
  have key : ∀ r ∈ rs, 0 < glicko2G (glicko2Phi r.1.deviation.toR) ^ 2 *
        glicko2E (glicko2Mu a.rating.toR) (glicko2Mu r.1.rating.toR) (glicko2Phi r.1.deviation.toR) *
        (1 - glicko2E (glicko2Mu a.rating.toR) (glicko2Mu r.1.rating.toR) (glicko2Phi r.1.deviation.toR)) ∧
      glicko2G (glicko2Phi r.1.deviation.toR) ^ 2 *
        glicko2E (glicko2Mu a.rating.toR) (glicko2Mu r.1.rating.toR) (glicko2Phi r.1.deviation.toR) *
        (1 - glicko2E (glicko2Mu a.rating.toR) (glicko2Mu r.1.rating.toR) (glicko2Phi r.1.deviation.toR)) ≤ 1 / 4 ∧
      (glicko2G (glicko2Phi r.1.deviation.toR) * (points r.2 -
        glicko2E (glicko2Mu a.rating.toR) (glicko2Mu r.1.rating.toR) (glicko2Phi r.1.deviation.toR))) ^ 2 ≤
      Y * (glicko2G (glicko2Phi r.1.deviation.toR) ^ 2 *
        glicko2E (glicko2Mu a.rating.toR) (glicko2Mu r.1.rating.toR) (glicko2Phi r.1.deviation.toR) *
        (1 - glicko2E (glicko2Mu a.rating.toR) (glicko2Mu r.1.rating.toR) (glicko2Phi r.1.deviation.toR))) := by
    intro r hr
    have h1 := h r hr
    have eD : |a.rating.toR - r.1.rating.toR| / glicko2Scale = |(a.rating.toR - r.1.rating.toR) / glicko2Scale| := by
      rw [abs_div, abs_of_pos hsc]
    have eμ : glicko2Mu a.rating.toR - glicko2Mu r.1.rating.toR = (a.rating.toR - r.1.rating.toR) / glicko2Scale := by
      rw [glicko2Mu, glicko2Mu]; ring
    rw [eD] at h1
    have hG0 := g2_pos (glicko2Phi r.1.deviation.toR)
    have hG1 := g2_le (glicko2Phi r.1.deviation.toR)
    obtain ⟨o1, o2⟩ := odds_between (D := (a.rating.toR - r.1.rating.toR) / glicko2Scale) hG0 hG1
    have hY1 : 1 ≤ Real.exp |(a.rating.toR - r.1.rating.toR) / glicko2Scale| := Real.one_le_exp (abs_nonneg _)
    have hX := Real.exp_pos (-(glicko2G (glicko2Phi r.1.deviation.toR) *
      ((a.rating.toR - r.1.rating.toR) / glicko2Scale)))
    have hdb := delta_bound (o1) (o2) hY1 (h1.trans hY) hG0 (points01 r.2).1 (points01 r.2).2
    rw [glicko2E, eμ]
    generalize Real.exp (-(glicko2G (glicko2Phi r.1.deviation.toR) *
      ((a.rating.toR - r.1.rating.toR) / glicko2Scale))) = X at *
    have e0 : 0 < 1 / (1 + X) := by positivity
    have e1 : 0 < 1 - 1 / (1 + X) := by rw [sub_pos, div_lt_one (by linarith)]; linarith
    generalize 1 / (1 + X) = e at *
    generalize glicko2G (glicko2Phi r.1.deviation.toR) = G at *
    have q0 : 0 < G ^ 2 * e * (1 - e) := by positivity
    refine ⟨q0, ?_, ?_⟩
    · have : G ^ 2 ≤ 1 := pow_le_one₀ hG0.le hG1
      have h2 : e * (1 - e) ≤ 1 / 4 := by nlinarith [_root_.sq_nonneg (e - 1 / 2)]
      calc G ^ 2 * e * (1 - e) = G ^ 2 * (e * (1 - e)) := by ring
        _ ≤ 1 * (1 / 4) := mul_le_mul this h2 (by positivity) (by norm_num)
        _ = _ := by norm_num
    · generalize G ^ 2 * e * (1 - e) = q at *
      have h2 : (1 / q * (G * (points r.2 - e))) ^ 2 = (G * (points r.2 - e)) ^ 2 / q ^ 2 := by
        rw [mul_pow, one_div, inv_pow]; ring
      rw [h2, div_le_iff₀ (by positivity)] at hdb
      refine hdb.trans ?_
      have : Real.exp |(a.rating.toR - r.1.rating.toR) / glicko2Scale| * (1 / q) * q ^ 2 =
          Real.exp |(a.rating.toR - r.1.rating.toR) / glicko2Scale| * q := by field_simp
      rw [this]
      exact mul_le_mul_of_nonneg_right h1 q0.le
  rw [glicko2Delta, glicko2V, glicko2Gain, glicko2Games, List.map_map, List.map_map]
  have s1 := sum_sq_le rs (fun r => glicko2G (glicko2Phi r.1.deviation.toR) * (points r.2 -
        glicko2E (glicko2Mu a.rating.toR) (glicko2Mu r.1.rating.toR) (glicko2Phi r.1.deviation.toR)))
  have s2 : (rs.map fun r => (glicko2G (glicko2Phi r.1.deviation.toR) * (points r.2 -
        glicko2E (glicko2Mu a.rating.toR) (glicko2Mu r.1.rating.toR) (glicko2Phi r.1.deviation.toR))) ^ 2).sum ≤
      Y * (rs.map fun r => glicko2G (glicko2Phi r.1.deviation.toR) ^ 2 *
        glicko2E (glicko2Mu a.rating.toR) (glicko2Mu r.1.rating.toR) (glicko2Phi r.1.deviation.toR) *
        (1 - glicko2E (glicko2Mu a.rating.toR) (glicko2Mu r.1.rating.toR) (glicko2Phi r.1.deviation.toR))).sum := by
    rw [← List.sum_map_mul_left]
    exact List.sum_le_sum fun r hr => (key r hr).2.2
  have s3 : 0 < (rs.map fun r => glicko2G (glicko2Phi r.1.deviation.toR) ^ 2 *
        glicko2E (glicko2Mu a.rating.toR) (glicko2Mu r.1.rating.toR) (glicko2Phi r.1.deviation.toR) *
        (1 - glicko2E (glicko2Mu a.rating.toR) (glicko2Mu r.1.rating.toR) (glicko2Phi r.1.deviation.toR))).sum := by
    apply List.sum_pos
    · intro y hy
      obtain ⟨z, hz, rfl⟩ := List.mem_map.1 hy
      exact (key z hz).1
    · simpa using hne
  have s4 := (sum_between rs (fun r => glicko2G (glicko2Phi r.1.deviation.toR) ^ 2 *
        glicko2E (glicko2Mu a.rating.toR) (glicko2Mu r.1.rating.toR) (glicko2Phi r.1.deviation.toR) *
        (1 - glicko2E (glicko2Mu a.rating.toR) (glicko2Mu r.1.rating.toR) (glicko2Phi r.1.deviation.toR)))
      (lo := 0) (hi := 1 / 4) fun r hr => ⟨(key r hr).1.le, (key r hr).2.1⟩).2
  change 0 < 1 / (rs.map fun r => glicko2G (glicko2Phi r.1.deviation.toR) ^ 2 *
        glicko2E (glicko2Mu a.rating.toR) (glicko2Mu r.1.rating.toR) (glicko2Phi r.1.deviation.toR) *
        (1 - glicko2E (glicko2Mu a.rating.toR) (glicko2Mu r.1.rating.toR) (glicko2Phi r.1.deviation.toR))).sum ∧
    4 / (rs.length : ℝ) ≤ 1 / (rs.map fun r => glicko2G (glicko2Phi r.1.deviation.toR) ^ 2 *
        glicko2E (glicko2Mu a.rating.toR) (glicko2Mu r.1.rating.toR) (glicko2Phi r.1.deviation.toR) *
        (1 - glicko2E (glicko2Mu a.rating.toR) (glicko2Mu r.1.rating.toR) (glicko2Phi r.1.deviation.toR))).sum ∧
    (1 / (rs.map fun r => glicko2G (glicko2Phi r.1.deviation.toR) ^ 2 *
        glicko2E (glicko2Mu a.rating.toR) (glicko2Mu r.1.rating.toR) (glicko2Phi r.1.deviation.toR) *
        (1 - glicko2E (glicko2Mu a.rating.toR) (glicko2Mu r.1.rating.toR) (glicko2Phi r.1.deviation.toR))).sum *
      (rs.map fun r => glicko2G (glicko2Phi r.1.deviation.toR) * (points r.2 -
        glicko2E (glicko2Mu a.rating.toR) (glicko2Mu r.1.rating.toR) (glicko2Phi r.1.deviation.toR))).sum) ^ 2 ≤
    (rs.length : ℝ) * Y * (1 / (rs.map fun r => glicko2G (glicko2Phi r.1.deviation.toR) ^ 2 *
        glicko2E (glicko2Mu a.rating.toR) (glicko2Mu r.1.rating.toR) (glicko2Phi r.1.deviation.toR) *
        (1 - glicko2E (glicko2Mu a.rating.toR) (glicko2Mu r.1.rating.toR) (glicko2Phi r.1.deviation.toR))).sum)
  clear key h
  generalize (rs.map fun r => glicko2G (glicko2Phi r.1.deviation.toR) ^ 2 *
        glicko2E (glicko2Mu a.rating.toR) (glicko2Mu r.1.rating.toR) (glicko2Phi r.1.deviation.toR) *
        (1 - glicko2E (glicko2Mu a.rating.toR) (glicko2Mu r.1.rating.toR) (glicko2Phi r.1.deviation.toR))).sum = Q at *
  generalize (rs.map fun r => (glicko2G (glicko2Phi r.1.deviation.toR) * (points r.2 -
        glicko2E (glicko2Mu a.rating.toR) (glicko2Mu r.1.rating.toR) (glicko2Phi r.1.deviation.toR))) ^ 2).sum = R at *
  generalize (rs.map fun r => glicko2G (glicko2Phi r.1.deviation.toR) * (points r.2 -
        glicko2E (glicko2Mu a.rating.toR) (glicko2Mu r.1.rating.toR) (glicko2Phi r.1.deviation.toR))).sum = T at *
  generalize (rs.length : ℝ) = n at *
  refine ⟨by positivity, ?_, ?_⟩
  · rw [div_le_div_iff₀ hn s3]; linarith
  · rw [mul_pow, one_div, inv_pow]
    have h1 : T ^ 2 ≤ n * (Y * Q) := s1.trans (mul_le_mul_of_nonneg_left s2 hn.le)
    calc (Q ^ 2)⁻¹ * T ^ 2 ≤ (Q ^ 2)⁻¹ * (n * (Y * Q)) := mul_le_mul_of_nonneg_left h1 (by positivity)
      _ = _ := by field_simp

/-- With the default configuration: up to ten games against opponents no more than 280 points away,
by a player with a deviation of at least 105 and a volatility of at most 0.0601.  The new deviation
is exact up to 0.002, the volatility up to a relative 0.00003 and the rating up to 0.0002 for each game. -/
theorem C128_glicko2_period_default (L : E.Lib) (A : E.Accurate) (P : E.Precise) (S : E.Scales) (W : E.LogWide)
    (a : Glicko2Rating (FP E)) (rs : List (Glicko2Rating (FP E) × Outcomes)) (ha : Glicko2Usual a)
    (hd : 105 ≤ a.deviation.toR) (hσ : a.volatility.toR ≤ 601 / 10000) (hne : rs ≠ []) (hn : rs.length ≤ 10)
    (hu : ∀ r ∈ rs, Glicko2Usual r.1) (hr : ∀ r ∈ rs, |a.rating.toR - r.1.rating.toR| ≤ 280) :
    ∃ a', glicko2RatingPeriod a rs Glicko2Config.new = some a' ∧ ∃ r rd σ,
      Glicko2Exact a.rating.toR a.deviation.toR a.volatility.toR (1 / 2) (glicko2Games rs) r rd σ ∧
      Glicko2PeriodClose rs.length (3 / 100000) a' r rd σ := by
  have hY : ∀ r ∈ rs, Real.exp (|a.rating.toR - r.1.rating.toR| / glicko2Scale) ≤ 52 / 10 := by
    intro r h
    have h1 : |a.rating.toR - r.1.rating.toR| / glicko2Scale ≤ 2 - 38 / 100 := by
      rw [scale_eq, div_le_iff₀ (by norm_num)]
      have := hr r h
      linarith
    refine (Real.exp_le_exp.2 h1).trans ?_
    rw [Real.exp_sub, div_le_iff₀ (Real.exp_pos _)]
    have h4 : 1 + 38 / 100 + (38 / 100 : ℝ) ^ 2 / 2 ≤ Real.exp (38 / 100) := by
      have := Real.quadratic_le_exp_of_nonneg (x := (38 / 100 : ℝ)) (by norm_num)
      linarith
    have h5 : Real.exp 2 ≤ 2.7182818286 ^ 2 := by
      rw [show (2 : ℝ) = ((2 : ℕ) : ℝ) * 1 by norm_num, Real.exp_nat_mul]
      exact pow_le_pow_left₀ (Real.exp_pos 1).le Real.exp_one_lt_d9.le 2
    norm_num at h4 h5
    linarith
  obtain ⟨v0, v1, v2⟩ := delta_near hne (by norm_num) hY
  have hn' : (rs.length : ℝ) ≤ 10 := by exact_mod_cast hn
  have hn0 : (0 : ℝ) < rs.length := by
    have := List.length_pos_iff.2 hne
    exact_mod_cast this
  have v3 : 4 / 10 ≤ glicko2V (glicko2Mu a.rating.toR) (glicko2Games rs) := by
    refine le_trans ?_ v1
    rw [div_le_div_iff₀ (by norm_num) hn0]
    linarith
  have hφ : 364 / 1000 ≤ glicko2Phi a.deviation.toR ^ 2 := by
    rw [glicko2Phi, scale_eq]
    have : 604 / 1000 ≤ a.deviation.toR / (1737178 / 10000) := by rw [le_div_iff₀ (by norm_num)]; norm_num; linarith
    have := pow_le_pow_left₀ (by norm_num) this 2
    refine le_trans ?_ this
    norm_num
  have hσ0 : 0 < a.volatility.toR := lt_of_lt_of_le (by norm_num) ha.volatility.2.1
  have hσ2 : a.volatility.toR ^ 2 ≤ (601 / 10000) ^ 2 := pow_le_pow_left₀ hσ0.le hσ 2
  have hσp : 0 < a.volatility.toR ^ 2 := by positivity
  have v4 : glicko2Delta (glicko2Mu a.rating.toR) (glicko2Games rs) ^ 2 ≤
      52 * glicko2V (glicko2Mu a.rating.toR) (glicko2Games rs) :=
    v2.trans (mul_le_mul_of_nonneg_right (by linarith) v0.le)
  have C : Glicko2Calm a (1 / 2) (glicko2Delta (glicko2Mu a.rating.toR) (glicko2Games rs))
      (glicko2V (glicko2Mu a.rating.toR) (glicko2Games rs)) := by
    have d0 := _root_.sq_nonneg (glicko2Delta (glicko2Mu a.rating.toR) (glicko2Games rs))
    clear v1 v2
    refine ⟨?_, ?_, ?_⟩
    · norm_num at *; linarith
    · norm_num at *; linarith
    · generalize glicko2Delta (glicko2Mu a.rating.toR) (glicko2Games rs) ^ 2 = w at *
      generalize glicko2V (glicko2Mu a.rating.toR) (glicko2Games rs) = v at *
      generalize glicko2Phi a.deviation.toR ^ 2 = f at *
      generalize a.volatility.toR ^ 2 = s at *
      have h1 : w * s ≤ 52 * v * (601 / 10000) ^ 2 := mul_le_mul v4 hσ2 hσp.le (by positivity)
      have h2 : 145 / 100 * v ≤ (f + v) ^ 2 := by nlinarith
      norm_num at *
      linarith
  have ht := default_tolerance (E := E)
  have ht' := default_tau (E := E)
  obtain ⟨a', h, r, rd, σ, x, y⟩ := C128_glicko2_period_returns L A P S W a rs Glicko2Config.new ha default_tuned
    ⟨hne, hn.trans (by norm_num), hu, fun r h => (hr r h).trans (by norm_num)⟩ (by rw [ht']; exact C)
  rw [ht'] at x
  have hη : (Glicko2Config.new : Glicko2Config (FP E)).convergenceTolerance.toR + 1 / 2 ^ 26 + 11 / 10 *
      (a.volatility.toR ^ 2 / (glicko2Phi a.deviation.toR ^ 2 +
        glicko2V (glicko2Mu a.rating.toR) (glicko2Games rs))) ^ 2 ≤ 3 / 100000 := by
    have h1 : a.volatility.toR ^ 2 / (glicko2Phi a.deviation.toR ^ 2 +
        glicko2V (glicko2Mu a.rating.toR) (glicko2Games rs)) ≤ 473 / 100000 := by
      rw [div_le_iff₀ (by linarith)]
      norm_num at *
      linarith
    have h2 := pow_le_pow_left₀ (by positivity) h1 2
    norm_num at *
    linarith
  exact ⟨a', h, r, rd, σ, x, y.rating.mono (mul_le_mul_of_nonneg_left hη (by positivity)),
    y.deviation.mono (mul_le_mul_of_nonneg_left hη (by norm_num)),
    y.volatility.mono (mul_le_mul_of_nonneg_right hη x.pos.le)⟩

/-! ### A period without games -/

/-- Without games only the deviation changes, and it is exact up to a relative `2 ^ -46`. -/
theorem C128_glicko2_period_empty (P : E.Precise) (a : Glicko2Rating (FP E)) (c : Glicko2Config (FP E))
    (ha : Glicko2Usual a) :
    ∃ a', glicko2RatingPeriod a [] c = some a' ∧ a'.rating = a.rating ∧ a'.volatility = a.volatility ∧
      Near (min (glicko2Scale * √(glicko2Phi a.deviation.toR ^ 2 + a.volatility.toR ^ 2)) 350 / 2 ^ 46) a'.deviation
        (min (glicko2Scale * √(glicko2Phi a.deviation.toR ^ 2 + a.volatility.toR ^ 2)) 350) := by
  refine ⟨decayDeviation a, rfl, rfl, rfl, ?_⟩
  have aφ := phi_ap ha.deviation
  have h1 := hypot_rel P aφ (by norm_num) ha.volatility.1 (by
    rw [abs_of_nonneg (le_trans (by norm_num) ha.volatility.2.1)]
    exact ha.volatility.2.2.trans (by norm_num))
  have h2 := h1.mul (scale_ap (E := E)) (by norm_num) (by norm_num) (by norm_num)
  have h350 := lit_rel (lit_in (E := E) (m := 3500) (s := true) (e := 1) (v := 350) (by norm_num)
    (SRep.ofNat 350 (by norm_num)))
  have h3 := rel_cap h2.1 h350 h2.2.pos (by norm_num) (by norm_num)
  have h0 : 0 < min (glicko2Scale * √(glicko2Phi a.deviation.toR ^ 2 + a.volatility.toR ^ 2)) 350 := by
    refine lt_min ?_ (by norm_num)
    rw [mul_comm]; exact h2.2.pos
  have h4 := (h3.mono (l := 16) (by norm_num)).near (by rw [mul_comm]; exact h0.le)
  rw [mul_comm √_] at h4
  refine Near.mono h4 ?_
  generalize min _ (350 : ℝ) = z at *
  apply le_of_eq
  norm_num
  ring

/-- A new player who wins one game and loses another one against new players, in IEEE arithmetic. -/
example : ∃ a', glicko2RatingPeriod (Glicko2Rating.new : Glicko2Rating (FP ieee))
    [(Glicko2Rating.new, Outcomes.WIN), (Glicko2Rating.new, Outcomes.LOSS)] Glicko2Config.new = some a' := by
  have h2 := lit_in (E := ieee) (m := 3500) (s := true) (e := 1) (v := 350) (by norm_num)
      (SRep.ofNat 350 (by norm_num))
  have h3 := lit_ap (E := ieee) (m := 6) (s := true) (e := 2) (v := 6 / 100) (n := 5) (by norm_num)
    ⟨by norm_num, by norm_num⟩ (by norm_num)
  have a3 := abs_le.1 (h3.1.near (by norm_num)).2
  obtain ⟨a', h, -⟩ := C128_glicko2_period_default ieee_lib ieee_accurate ieee_precise ieee_scales ieee_logWide
    (Glicko2Rating.new : Glicko2Rating (FP ieee))
    [(Glicko2Rating.new, Outcomes.WIN), (Glicko2Rating.new, Outcomes.LOSS)] new_usual
    (le_trans (by norm_num) h2.toR.1) (by
      change (OfScientific.ofScientific 6 true 2 : FP ieee).toR ≤ _
      generalize (OfScientific.ofScientific 6 true 2 : FP ieee).toR = z at *
      norm_num at *
      linarith) (by simp) (by simp) (by
      intro r hr
      simp only [List.mem_cons, List.not_mem_nil, or_false] at hr
      rcases hr with rfl | rfl <;> exact new_usual) (by
      intro r hr
      simp only [List.mem_cons, List.not_mem_nil, or_false] at hr
      rcases hr with rfl | rfl <;> simp)
  exact ⟨_, h⟩

end Glicko2
end Skillratings
