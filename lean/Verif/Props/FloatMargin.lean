import Verif.Props.FloatBayes
import Verif.Props.TrueSkillMargin
import Verif.Proofs.FPQuantile
/-
C126: the draw margin in double precision.  Equally strong sides draw with the configured
probability.
-/

namespace Skillratings
open FP FPVal Spec MeasureTheory ProbabilityTheory
variable {E : FloatEnv}

namespace TrueSkill

section
variable {ι Ω : Type*} [Fintype ι] [MeasurableSpace Ω] {P : Measure Ω} [IsProbabilityMeasure P]

/-- The probability of a lead of at most `ε`, for sides of known and equal strength. -/
theorem even_lead {X N : ι → Ω → ℝ} {μ : ι → ℝ} {β ε c : ℝ} (h : IsContest P X N μ (fun _ => 0) β) (k : ι → ℝ)
    (hk : ∀ i, k i ^ 2 = 1) (hm : ∑ i, k i * μ i = 0) (hc : 0 < c) (hc2 : c = √(Fintype.card ι) * β) (hε : 0 < ε) :
    P.real (happened .DRAW ε (lead k X N)) = 1 - 2 * Phi (-(ε / c)) := by
  have hc3 : c ^ 2 = ∑ i, k i ^ 2 * ((0 : ℝ) + β ^ 2) := by
    rw [hc2, mul_pow, Real.sq_sqrt (by positivity)]
    simp [hk]
  have h1 := (h.posterior_draw (fun _ => le_rfl) k hc hc3 hε rfl rfl).1
  rw [hm, zero_div, sub_zero, sub_zero] at h1
  rw [happened, h1, Phi_neg]
  ring

/-- The same for a margin that is not positive. -/
theorem even_lead_nonpos {X N : ι → Ω → ℝ} {μ : ι → ℝ} {β ε c : ℝ} (h : IsContest P X N μ (fun _ => 0) β)
    (k : ι → ℝ) (hk : ∀ i, k i ^ 2 = 1) (hm : ∑ i, k i * μ i = 0) (hc : 0 < c) (hc2 : c = √(Fintype.card ι) * β)
    (hε : ε ≤ 0) : P.real (happened .DRAW ε (lead k X N)) = 0 := by
  refine le_antisymm ?_ measureReal_nonneg
  have key : ∀ x : ℝ, 0 < x → P.real (happened .DRAW ε (lead k X N)) ≤ 1 - erfcExact x := by
    intro x hx
    have h2 := even_lead h k hk hm hc hc2 (ε := √2 * x * c) (by positivity)
    rw [mul_div_cancel_right₀ _ hc.ne'] at h2
    rw [erfcExact, ← h2]
    refine measureReal_mono ?_
    intro ω hω
    simp only [happened, Set.mem_ofPred_eq] at hω ⊢
    exact hω.trans (hε.trans (by positivity))
  have hcont : Filter.Tendsto (fun x : ℝ => 1 - erfcExact x) (nhdsWithin 0 (Set.Ioi 0)) (nhds (1 - erfcExact 0)) := by
    have hd := (hasDerivAt_erfcExact 0).continuousAt
    exact (tendsto_const_nhds.sub hd.tendsto).mono_left nhdsWithin_le_nhds
  rw [erfcExact_zero, sub_self] at hcont
  exact ge_of_tendsto hcont (by filter_upwards [self_mem_nhdsWithin] with x hx using key x hx)

/-- A margin in floating-point arithmetic for `n` players, all on one side or the other. -/
theorem even_margin_fp (L : E.Lib) (A : E.Accurate) (G : E.LogAccurate) {p β n : FP E} (hp : p.isFinite)
    (h0 : 0 ≤ p.toR) (h1 : p.toR ≤ 1 - 1 / 2 ^ 20) (hβ : Between (1 / 2 ^ 20) (2 ^ 20) β)
    (hn : Between 1 (2 ^ 10) n) (hι : n.toR = Fintype.card ι) {X N : ι → Ω → ℝ} {μ : ι → ℝ}
    (h : IsContest P X N μ (fun _ => 0) β.toR) (k : ι → ℝ) (hk : ∀ i, k i ^ 2 = 1) (hm : ∑ i, k i * μ i = 0) :
    (drawMargin p β n).isFinite ∧
    |P.real (happened .DRAW (drawMargin p β n).toR (lead k X N)) - p.toR| ≤ 7e-7 * (1 - p.toR) := by
  obtain ⟨m1, -, m3⟩ := margin_fp L A G hp h0 h1 hβ hn
  refine ⟨m1, ?_⟩
  have hβ0 : 0 < β.toR := lt_of_lt_of_le (by positivity) hβ.2.1
  have hn0 : 0 < √n.toR := Real.sqrt_pos.2 (lt_of_lt_of_le one_pos hn.2.1)
  set ε := (drawMargin p β n).toR
  have m3' := abs_le.1 m3
  rcases le_or_gt ε 0 with hε | hε
  · rw [even_lead_nonpos h k hk hm (mul_pos hn0 hβ0) (by rw [hι]) hε, zero_sub, abs_neg, abs_of_nonneg h0]
    have h2 : ε / (√2 * √n.toR * β.toR) ≤ 0 := div_nonpos_of_nonpos_of_nonneg hε (by positivity)
    have h3 := erfcExact_strictAnti.antitone h2
    rw [erfcExact_zero] at h3
    linarith [m3'.2]
  · rw [even_lead h k hk hm (mul_pos hn0 hβ0) (by rw [hι]) hε]
    have e : erfcExact (ε / (√2 * √n.toR * β.toR)) = 2 * Phi (-(ε / (√n.toR * β.toR))) := by
      rw [erfcExact]
      congr 3
      field_simp
    rw [e] at m3
    rw [abs_sub_comm] at m3
    rw [show 1 - 2 * Phi (-(ε / (√n.toR * β.toR))) - p.toR = 1 - p.toR - 2 * Phi (-(ε / (√n.toR * β.toR))) by ring]
    exact m3

/-- Two players of known and equal strength draw with the configured probability, up to a relative
error of 7e-7 in the probability that the game is decided. -/
theorem C126_trueskill_draw_probability (L : E.Lib) (A : E.Accurate) (G : E.LogAccurate) (c : TrueSkillConfig (FP E))
    (hβ : Between (1 / 2 ^ 20) (2 ^ 20) c.beta) (hp : Between 0 (1 - 1 / 2 ^ 20) c.drawProbability) :
    ∃ ε, IsMargin c ε ∧ |ε| ≤ 15 * c.beta.toR ∧
      ∀ (X N : Fin 2 → Ω → ℝ) (r : ℝ), IsContest P X N ![r, r] (fun _ => 0) c.beta.toR →
        |P.real (happened .DRAW ε (lead duel X N)) - c.drawProbability.toR|
          ≤ 7e-7 * (1 - c.drawProbability.toR) := by
  have i2 := lit_in (E := E) (m := 20) (s := true) (e := 1) (v := 2)
    (by norm_num) (SRep.ofNat 2 (by norm_num))
  have e2 : (2.0 : FP E).toR = 2 := le_antisymm i2.toR.2 i2.toR.1
  have hn : Between 1 (2 ^ 10) (2.0 : FP E) := ⟨i2.finite, by rw [e2]; norm_num, by rw [e2]; norm_num⟩
  obtain ⟨m1, m2, -⟩ := margin_fp L A G hp.1 hp.2.1 hp.2.2 hβ hn
  refine ⟨_, ⟨m1, rfl⟩, m2.trans ?_, fun X N r h => ?_⟩
  · have s2 : √(2.0 : FP E).toR ≤ 1.5 := by rw [e2, Real.sqrt_le_left (by norm_num)]; norm_num
    have hβ0 : 0 < c.beta.toR := lt_of_lt_of_le (by positivity) hβ.2.1
    have := mul_le_mul_of_nonneg_right s2 hβ0.le
    norm_num at this ⊢; linarith
  · exact (even_margin_fp L A G hp.1 hp.2.1 hp.2.2 hβ hn (by rw [e2]; simp) h duel
      (by intro i; fin_cases i <;> simp [duel]) (by simp [duel, Fin.sum_univ_two])).2

/-- The same for teams of any sizes, up to 1024 players altogether. -/
theorem C126_trueskill_draw_probability_teams (L : E.Lib) (A : E.Accurate) (G : E.LogAccurate)
    (s t : List (TrueSkillRating ℝ)) (c : TrueSkillConfig (FP E))
    (hβ : Between (1 / 2 ^ 20) (2 ^ 20) c.beta) (hp : Between 0 (1 - 1 / 2 ^ 20) c.drawProbability)
    (hs : s ≠ []) (hn : s.length + t.length ≤ 2 ^ 10)
    (heq : (s.map (·.rating)).sum = (t.map (·.rating)).sum)
    {X N : Fin s.length ⊕ Fin t.length → Ω → ℝ}
    (h : IsContest P X N (both s t (·.rating)) (fun _ => 0) c.beta.toR) :
    (drawMargin c.drawProbability c.beta (Flt.ofNat (s.length + t.length))).isFinite ∧
    |P.real (happened .DRAW (drawMargin c.drawProbability c.beta (Flt.ofNat (s.length + t.length))).toR
        (lead (versus s.length t.length) X N)) - c.drawProbability.toR|
      ≤ 7e-7 * (1 - c.drawProbability.toR) := by
  have hl : 1 ≤ s.length + t.length := Nat.add_pos_left (List.length_pos_iff.2 hs) _
  obtain ⟨⟨nf, δ, hδ, e⟩, n1, n2⟩ := ofNat_ap (E := E) hl hn
  have hδ0 : δ = 0 := by simpa using hδ
  rw [hδ0, add_zero, mul_one] at e
  have h1 : (1 : ℝ) ≤ (s.length + t.length : ℕ) := by exact_mod_cast hl
  refine even_margin_fp L A G hp.1 hp.2.1 hp.2.2 hβ ⟨nf, by rw [e]; exact h1, by rw [e]; exact n2⟩
    (by rw [e]; simp) h _ (by intro i; cases i <;> simp [versus]) ?_
  rw [versus_mean]
  simp only [side]
  rw [heq, sub_self]

end

/-! ### The hypotheses are satisfiable -/

theorem tom_rating : tom.rating.toR = 25 := by
  have h25 := lit_in (E := ieee) (m := 250) (s := true) (e := 1) (v := 25) (by norm_num)
    (SRep.ofNat 25 (by norm_num))
  exact le_antisymm h25.toR.2 h25.toR.1

theorem tom_uncertainty : tom.uncertainty.toR = 8 := by
  have h8 := lit_in (E := ieee) (m := 80) (s := true) (e := 1) (v := 8) (by norm_num)
    (SRep.ofNat 8 (by norm_num))
  exact le_antisymm h8.toR.2 h8.toR.1

theorem tom_player : TsPlayer cfg4 tom :=
  ⟨tom_member.1, by rw [tom_rating]; norm_num, by rw [tom_uncertainty, cfg4_beta]; norm_num⟩

theorem cfg4_dynamics : cfg4.dynamicsFactor.isFinite ∧ cfg4.dynamicsFactor.toR = 0 :=
  ⟨(zero_in (E := ieee)).finite, le_antisymm zero_in.toR.2 zero_in.toR.1⟩

theorem cfg4_probability : Between 0 (1 - 1 / 2 ^ 20) cfg4.drawProbability ∧
    0.09 ≤ cfg4.drawProbability.toR ∧ cfg4.drawProbability.toR ≤ 0.11 := by
  have h : Near (1 / 2 ^ 50) cfg4.drawProbability 0.1 := lit_near rfl (by norm_num)
  have h2 := abs_le.1 h.2
  norm_num at h2
  refine ⟨⟨h.1, ?_, ?_⟩, ?_, ?_⟩ <;> norm_num <;> linarith [h2.1, h2.2]

theorem tom_spread : spread tom tom cfg4 = √160 := by
  rw [spread, tom_uncertainty, cfg4_beta]; norm_num

theorem erfc_linear {x : ℝ} (hx : 0 < x) :
    1 - 1.13 * x ≤ erfcExact x ∧ (x ≤ 0.1 → erfcExact x ≤ 1 - 1.1 * x) := by
  obtain ⟨c, hc, e⟩ := exists_hasDerivAt_eq_slope erfcExact (fun x => -(2 / √Real.pi * Real.exp (-x ^ 2))) hx
    (fun u _ => (hasDerivAt_erfcExact u).continuousAt.continuousWithinAt) (fun u _ => hasDerivAt_erfcExact u)
  rw [erfcExact_zero, sub_zero, eq_div_iff hx.ne'] at e
  have hk1 := two_div_sqrt_pi
  have hk2 := two_div_sqrt_pi_lt
  have h1 : Real.exp (-c ^ 2) ≤ 1 := Real.exp_le_one_iff.2 (by nlinarith)
  have h0 := Real.exp_pos (-c ^ 2)
  constructor
  · have : 2 / √Real.pi * Real.exp (-c ^ 2) ≤ 1.13 * 1 :=
      mul_le_mul (by norm_num at hk2 ⊢; linarith) h1 h0.le (by norm_num)
    have := mul_le_mul_of_nonneg_right this hx.le
    norm_num at this ⊢; linarith
  · intro hx1
    have hc2 : c ^ 2 ≤ 0.01 := by
      have := hc.1; have := hc.2
      norm_num at hx1 ⊢; nlinarith
    have h2 : 0.99 ≤ Real.exp (-c ^ 2) := by
      have := Real.add_one_le_exp (-c ^ 2)
      norm_num at hc2 ⊢; linarith
    have : 1.12 * 0.99 ≤ 2 / √Real.pi * Real.exp (-c ^ 2) :=
      mul_le_mul (by norm_num at hk1 ⊢; linarith) h2 (by norm_num) (by norm_num at hk1; linarith)
    have := mul_le_mul_of_nonneg_right this hx.le
    norm_num at this ⊢; linarith

/-- Two players at 25 ± 8 with a draw probability of 0.1: a decided game. -/
example : ∃ (X N : Fin 2 → (Fin 2 ⊕ Fin 2 → ℝ) → ℝ) (P : Measure (Fin 2 ⊕ Fin 2 → ℝ)) (ε : ℝ)
    (H : Set (Fin 2 ⊕ Fin 2 → ℝ)), IsProbabilityMeasure P ∧ H = happened .WIN ε (lead duel X N) ∧
    Near (7e-7 * |∫ ω, X 0 ω ∂P[|H] - 25| + 37 / 2 ^ 39) (trueskill tom tom .WIN cfg4).1.rating
      (∫ ω, X 0 ω ∂P[|H]) := by
  obtain ⟨X, N, P, hP, h⟩ := exists_contest ![tom.rating.toR, tom.rating.toR]
    ![tom.uncertainty.toR ^ 2 + cfg4.dynamicsFactor.toR ^ 2, tom.uncertainty.toR ^ 2 + cfg4.dynamicsFactor.toR ^ 2]
    cfg4.beta.toR
  obtain ⟨ε, hε, hb, -⟩ := C126_trueskill_draw_probability (P := P) ieee_lib ieee_accurate ieee_logAccurate cfg4
    cfg4_usual cfg4_probability.1
  refine ⟨X, N, P, ε, _, hP, rfl, ?_⟩
  have hs : (12 : ℝ) ≤ √160 := by rw [Real.le_sqrt' (by norm_num)]; norm_num
  have := (C125_trueskill_decided ieee_lib ieee_accurate tom tom cfg4 (o := .WIN) (by decide) cfg4_usual tom_player
    tom_player cfg4_dynamics.1 (f := cfg4.beta.toR) (by rw [cfg4_dynamics.2]; norm_num) h hε rfl (by
      rw [sub_self, abs_zero, zero_add, tom_spread, div_le_iff₀ (by linarith)]
      rw [cfg4_beta] at hb
      linarith) rfl).1.mean
  rw [tom_rating, tom_uncertainty, cfg4_beta] at this
  rwa [abs_of_pos (show (0 : ℝ) < 25 by norm_num), show (25 : ℝ) + 8 + 4 = 37 by norm_num] at this

/-- A drawn game of the same players. -/
theorem tom_contest : ∃ (X N : Fin 2 → (Fin 2 ⊕ Fin 2 → ℝ) → ℝ) (P : Measure (Fin 2 ⊕ Fin 2 → ℝ)) (ε : ℝ),
    IsProbabilityMeasure P ∧ IsContest P X N ![tom.rating.toR, tom.rating.toR]
      ![tom.uncertainty.toR ^ 2 + cfg4.dynamicsFactor.toR ^ 2,
        tom.uncertainty.toR ^ 2 + cfg4.dynamicsFactor.toR ^ 2] cfg4.beta.toR ∧
    IsMargin cfg4 ε ∧ 0 < ε ∧ (|tom.rating.toR - tom.rating.toR| + ε) / spread tom tom cfg4 ≤ 5 ∧
    (1 + 5 * ((|tom.rating.toR - tom.rating.toR| + ε) / spread tom tom cfg4) ^ 2) / 4000
      ≤ P.real (happened .DRAW ε (lead duel X N)) := by
  obtain ⟨X, N, P, hP, h⟩ := exists_contest ![tom.rating.toR, tom.rating.toR]
    ![tom.uncertainty.toR ^ 2 + cfg4.dynamicsFactor.toR ^ 2, tom.uncertainty.toR ^ 2 + cfg4.dynamicsFactor.toR ^ 2]
    cfg4.beta.toR
  have i2 := lit_in (E := ieee) (m := 20) (s := true) (e := 1) (v := 2)
    (by norm_num) (SRep.ofNat 2 (by norm_num))
  have e2 : (2.0 : FP ieee).toR = 2 := le_antisymm i2.toR.2 i2.toR.1
  obtain ⟨m1, -, m3⟩ := margin_fp ieee_lib ieee_accurate ieee_logAccurate cfg4_probability.1.1
    cfg4_probability.1.2.1 cfg4_probability.1.2.2 cfg4_usual (N := 2.0)
    ⟨i2.finite, by rw [e2]; norm_num, by rw [e2]; norm_num⟩
  obtain ⟨ε, hε, hb, -⟩ := C126_trueskill_draw_probability (P := P) ieee_lib ieee_accurate ieee_logAccurate cfg4
    cfg4_usual cfg4_probability.1
  rw [hε.2, e2, cfg4_beta, ← pow_two, Real.sq_sqrt (by norm_num)] at m3
  rw [cfg4_beta] at hb
  have hp := cfg4_probability.2
  have m3' := abs_le.1 m3
  -- the margin is not too small
  have hz : 0.079 ≤ ε / (2 * 4) := by
    by_contra hlt
    rw [not_le] at hlt
    have h1 := erfcExact_strictAnti.antitone hlt.le
    have h2 := (erfc_linear (x := 0.079) (by norm_num)).1
    norm_num at h1 h2 m3' hp
    linarith [m3'.2, hp.1]
  have hε0 : 0 < ε := by norm_num at hz; linarith
  have s0 : (0 : ℝ) < √160 := by positivity
  have s1 : (12 : ℝ) ≤ √160 := by rw [Real.le_sqrt' (by norm_num)]; norm_num
  have s2 : √2 * √160 ≤ (17.9 : ℝ) := by
    rw [← Real.sqrt_mul (by norm_num), Real.sqrt_le_left (by norm_num)]; norm_num
  have hε1 := (abs_le.1 hb).2
  have hC2 : √160 ^ 2 = ∑ i : Fin 2, duel i ^ 2 * (![tom.uncertainty.toR ^ 2 + cfg4.dynamicsFactor.toR ^ 2,
      tom.uncertainty.toR ^ 2 + cfg4.dynamicsFactor.toR ^ 2] i + cfg4.beta.toR ^ 2) := by
    rw [Real.sq_sqrt (by norm_num)]
    simp [duel, Fin.sum_univ_two, tom_uncertainty, cfg4_dynamics.2, cfg4_beta]; norm_num
  have hP1 := (h.posterior_draw (fun i => by fin_cases i <;> simp <;> positivity) duel s0 hC2 hε0 rfl rfl).1
  have hm0 : ∑ i : Fin 2, duel i * ![tom.rating.toR, tom.rating.toR] i = 0 := by simp [duel, Fin.sum_univ_two]
  rw [hm0, zero_div, sub_zero, sub_zero] at hP1
  have hPr : 0.035 ≤ P.real (happened .DRAW ε (lead duel X N)) := by
    rw [happened, hP1]
    have e : erfcExact (ε / (√2 * √160)) = 2 * Phi (-(ε / √160)) := by
      rw [erfcExact]
      congr 3
      field_simp
    have hx : 0.035 ≤ ε / (√2 * √160) := by
      rw [le_div_iff₀ (by positivity)]
      norm_num at hz s2 ⊢; linarith
    have h1 := erfcExact_strictAnti.antitone hx
    have h2 := (erfc_linear (x := 0.035) (by norm_num)).2 (by norm_num)
    rw [e] at h1
    have h3 := Phi_neg (ε / √160)
    norm_num at h1 h2 ⊢; linarith
  have ht : ε / √160 ≤ 5 := by rw [div_le_iff₀ s0]; linarith
  have ht0 : 0 ≤ ε / √160 := by positivity
  have ht2 : (ε / √160) ^ 2 ≤ 22.5 := by
    rw [div_pow, Real.sq_sqrt (by norm_num), div_le_iff₀ (by norm_num)]
    norm_num; nlinarith
  refine ⟨X, N, P, ε, hP, h, hε, hε0, ?_, ?_⟩
  · rw [sub_self, abs_zero, zero_add, tom_spread]; exact ht
  · rw [sub_self, abs_zero, zero_add, tom_spread]
    norm_num at ht2 hPr ⊢; linarith

/-- The same players, drawing. -/
example : ∃ (X N : Fin 2 → (Fin 2 ⊕ Fin 2 → ℝ) → ℝ) (P : Measure (Fin 2 ⊕ Fin 2 → ℝ)) (ε t : ℝ)
    (H : Set (Fin 2 ⊕ Fin 2 → ℝ)), IsProbabilityMeasure P ∧ H = happened .DRAW ε (lead duel X N) ∧
    AfterDraw 25 8 4 64 t (P.real H) (∫ ω, X 0 ω ∂P[|H]) (Var[X 0; P[|H]]) (trueskill tom tom .DRAW cfg4).1 := by
  obtain ⟨X, N, P, ε, hP, h, hε, hε0, ht, hp⟩ := tom_contest
  have := (C125_trueskill_drawn ieee_lib ieee_accurate tom tom cfg4 cfg4_usual tom_player
    tom_player cfg4_dynamics.1 (f := cfg4.beta.toR) (by rw [cfg4_dynamics.2]; norm_num) h hε hε0 rfl
    (ht.trans (by norm_num)) rfl hp).1
  rw [tom_rating, tom_uncertainty, cfg4_beta, cfg4_dynamics.2] at this
  norm_num at this
  exact ⟨X, N, P, ε, _, _, hP, rfl, this⟩

/-- Two against one, of equal total strength. -/
example : ∃ (s t : List (TrueSkillRating ℝ))
    (X N : Fin s.length ⊕ Fin t.length → ((Fin s.length ⊕ Fin t.length) ⊕
      (Fin s.length ⊕ Fin t.length) → ℝ) → ℝ)
    (P : Measure ((Fin s.length ⊕ Fin t.length) ⊕ (Fin s.length ⊕ Fin t.length) → ℝ)),
    IsProbabilityMeasure P ∧
    |P.real (happened .DRAW (drawMargin cfg4.drawProbability cfg4.beta (Flt.ofNat (s.length + t.length))).toR
        (lead (versus s.length t.length) X N)) - cfg4.drawProbability.toR|
      ≤ 7e-7 * (1 - cfg4.drawProbability.toR) := by
  obtain ⟨X, N, P, hP, hC⟩ := exists_contest
    (both [⟨10, 1⟩, ⟨15, 1⟩] [⟨25, 1⟩] (·.rating)) (fun _ => 0) cfg4.beta.toR
  exact ⟨_, _, X, N, P, hP, (C126_trueskill_draw_probability_teams ieee_lib ieee_accurate ieee_logAccurate _ _ cfg4
    cfg4_usual cfg4_probability.1 (by simp) (by simp) (by norm_num) hC).2⟩

end TrueSkill
end Skillratings
