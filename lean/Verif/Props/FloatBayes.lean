import Verif.Proofs.FPTsUpdate
/-
C125: a TrueSkill game in double precision, against Bayes' rule.
-/

namespace Skillratings
open FP FPVal Spec MeasureTheory ProbabilityTheory
variable {E : FloatEnv}

namespace TrueSkill

section
variable {ι Ω : Type*} [Fintype ι] [MeasurableSpace Ω] {P : Measure Ω} [IsProbabilityMeasure P]

/-- One player after a decided game, seen from the winners. -/
theorem win_player_fp (L : E.Lib) (A : E.Accurate) {X N : ι → Ω → ℝ} {μ v : ι → ℝ} {f : ℝ}
    (h : IsContest P X N μ v f) (hv : ∀ i, 0 ≤ v i) (k : ι → ℝ) {C β δ : ℝ} {d m c τ r σ κ : FP E} {j : ι}
    (hc2 : C ^ 2 = ∑ i, k i ^ 2 * (v i + f ^ 2)) (hd : Near δ d (∑ i, k i * μ i)) (hm : m.isFinite)
    (hc : Ap 20 50 c C) (hδ : δ ≤ 5 * C / 2 ^ 41) (hb : |∑ i, k i * μ i| + |m.toR| ≤ 28 * C)
    (hp : 3e-162 ≤ P.real {ω | m.toR < lead k X N ω})
    (hσ : Between (1 / 2 ^ 20) (2 ^ 20) σ) (hβ : 0 < β) (hβ2 : β ≤ 2 ^ 20) (hσβ : σ.toR ≤ 16 * β)
    (hτ : τ.isFinite) (hτβ : τ.toR ^ 2 ≤ β ^ 2) (hC : σ.toR ^ 2 + 2 * β ^ 2 ≤ C ^ 2)
    (hr : r.isFinite) (hr1 : |r.toR| ≤ 2 ^ 40) (hμ : μ j = r.toR) (hvj : v j = σ.toR ^ 2 + τ.toR ^ 2)
    (hκ : Near 0 κ (k j)) (hk : |k j| = 1) :
    Near (7e-7 * |∫ ω, X j ω ∂P[|{ω | m.toR < lead k X N ω}] - r.toR| + (|r.toR| + σ.toR + β) / 2 ^ 39)
      (newRating r σ (vNonDraw d m c) c τ κ) (∫ ω, X j ω ∂P[|{ω | m.toR < lead k X N ω}]) ∧
    (newUncertainty σ c (wNonDraw d m c) τ).isFinite ∧ 0 < (newUncertainty σ c (wNonDraw d m c) τ).toR ∧
    |(newUncertainty σ c (wNonDraw d m c) τ).toR ^ 2 - Var[X j; P[|{ω | m.toR < lead k X N ω}]]|
      ≤ 2.1e-6 * (1 + (|∑ i, k i * μ i| + |m.toR|) / C) ^ 2 * (σ.toR ^ 2 + τ.toR ^ 2) := by
  have hC0 := hc.2.pos
  obtain ⟨e1, e2⟩ := h.posterior_win hv k hC0 hc2 m.toR rfl
  obtain ⟨e3, e4⟩ := e2 j
  rw [e1] at hp
  rw [e3, e4, hμ, hvj]
  set D := ∑ i, k i * μ i with hD
  set U := (D - m.toR) / C with hU
  obtain ⟨b1, b2, b3⟩ := decided_fp L A hd hm hc hδ hb (U := U) (by rw [hU, sub_div]) hp rfl
  set V := normalPdf U / Phi U with hV
  have v0 : 0 < V := mills_pos U
  have v1 : V ≤ |U| + 1 := mills_le U
  have hS0 : 0 < σ.toR ^ 2 + τ.toR ^ 2 := by
    have : 0 < σ.toR := lt_of_lt_of_le (by positivity) hσ.2.1
    positivity
  have hUb : |U| ≤ (|D| + |m.toR|) / C := by
    rw [hU, abs_div, abs_of_pos hC0]
    exact div_le_div_of_nonneg_right (abs_sub _ _) hC0.le
  have hU2 : (1 + |U|) ^ 2 ≤ 841 := by nlinarith [abs_nonneg U]
  obtain ⟨u1, -, u3, u4, u5⟩ := update_fp L hσ hβ hβ2 hσβ hτ hτβ hc hC hr hr1 hκ hk b2
    (by norm_num; linarith) (by rw [abs_of_pos v0]; linarith) b3
    (by have := mills_sq_nonneg U; linarith) (mills_sq_le U)
    (by norm_num; linarith) rfl
  have hk2 : k j ^ 2 = 1 := by rw [← sq_abs, hk]; norm_num
  set S := σ.toR ^ 2 + τ.toR ^ 2 with hS
  have hV2 : V * (V + U) = normalPdf U / Phi U * (normalPdf U / Phi U + U) := rfl
  refine ⟨?_, u3, u4, ?_⟩
  · rw [show r.toR + k j * S / C * V = r.toR + k j * (S / C) * V by ring]
    refine u1.mono ?_
    rw [show r.toR + k j * (S / C) * V - r.toR = k j * (S / C * V) by ring, abs_mul, hk, one_mul,
      abs_of_pos (by positivity : 0 < S / C * V)]
    have : 0 < S / C * V := by positivity
    rw [show S / C * (6.2e-7 * V) = 6.2e-7 * (S / C * V) by ring]
    norm_num; linarith
  · rw [show S - (k j * S / C) ^ 2 * (V * (V + U)) = S * (1 - V * (V + U) * (S / C ^ 2)) by
      rw [mul_div_assoc, mul_pow, hk2]; field_simp]
    refine u5.trans (mul_le_mul_of_nonneg_right ?_ hS0.le)
    have h1 : (1 + |U|) ^ 2 ≤ (1 + (|D| + |m.toR|) / C) ^ 2 :=
      pow_le_pow_left₀ (by positivity) (by linarith) 2
    have h2 : 1 ≤ (1 + |U|) ^ 2 := by nlinarith [abs_nonneg U]
    norm_num; linarith

/-- One player after a drawn game. -/
theorem draw_player_fp (L : E.Lib) (A : E.Accurate) {X N : ι → Ω → ℝ} {μ v : ι → ℝ} {f : ℝ}
    (h : IsContest P X N μ v f) (hv : ∀ i, 0 ≤ v i) (k : ι → ℝ) {C β δ : ℝ} {d m c τ r σ κ : FP E} {j : ι}
    (hc2 : C ^ 2 = ∑ i, k i ^ 2 * (v i + f ^ 2)) (hd : Near δ d (∑ i, k i * μ i)) (hm : m.isFinite)
    (hm0 : 0 < m.toR)
    (hc : Ap 20 50 c C) (hδ : δ ≤ 5 * C / 2 ^ 41) (hb : |∑ i, k i * μ i| + m.toR ≤ 28 * C)
    (hp : 1 + 5 * ((|∑ i, k i * μ i| + m.toR) / C) ^ 2 ≤ 4000 * P.real {ω | |lead k X N ω| ≤ m.toR})
    (hσ : Between (1 / 2 ^ 20) (2 ^ 20) σ) (hβ : 0 < β) (hβ2 : β ≤ 2 ^ 20) (hσβ : σ.toR ≤ 16 * β)
    (hτ : τ.isFinite) (hτβ : τ.toR ^ 2 ≤ β ^ 2) (hC : σ.toR ^ 2 + 2 * β ^ 2 ≤ C ^ 2)
    (hr : r.isFinite) (hr1 : |r.toR| ≤ 2 ^ 40) (hμ : μ j = r.toR) (hvj : v j = σ.toR ^ 2 + τ.toR ^ 2)
    (hκ : Near 0 κ (k j)) (hk : |k j| = 1) :
    Near ((7e-7 * |∫ ω, X j ω ∂P[|{ω | |lead k X N ω| ≤ m.toR}] - r.toR| + 1.2e-9 * (σ.toR + β))
        / P.real {ω | |lead k X N ω| ≤ m.toR} + |r.toR| / 2 ^ 39)
      (newRating r σ (vDraw d m c) c τ κ) (∫ ω, X j ω ∂P[|{ω | |lead k X N ω| ≤ m.toR}]) ∧
    (newUncertainty σ c (wDraw d m c) τ).isFinite ∧ 0 < (newUncertainty σ c (wDraw d m c) τ).toR ∧
    |(newUncertainty σ c (wDraw d m c) τ).toR ^ 2 - Var[X j; P[|{ω | |lead k X N ω| ≤ m.toR}]]|
      ≤ 8.1e-7 / P.real {ω | |lead k X N ω| ≤ m.toR} * (1 + 5 * ((|∑ i, k i * μ i| + m.toR) / C) ^ 2)
        * (σ.toR ^ 2 + τ.toR ^ 2) := by
  have hC0 := hc.2.pos
  obtain ⟨e1, e2⟩ := h.posterior_draw hv k hC0 hc2 hm0 rfl rfl
  obtain ⟨e3, e4⟩ := e2 j
  rw [e1] at hp ⊢
  rw [e3, e4, hμ, hvj]
  set D := ∑ i, k i * μ i with hD
  set t := D / C with ht
  set e := m.toR / C with he
  have he0 : 0 < e := by positivity
  set G := Phi (e - t) - Phi (-e - t) with hG
  have eA : (|D| + m.toR) / C = |t| + e := by rw [ht, he, abs_div, abs_of_pos hC0, add_div]
  rw [eA] at hp ⊢
  have hA0 : 0 ≤ (|t| + e) ^ 2 := by positivity
  have hG1 : 1 / 4000 ≤ G := by linarith
  have hG0 : 0 < G := by linarith
  obtain ⟨b1, b2, b3, b4, b5⟩ := drawn_fp L A hd hm hc hδ (by rwa [abs_of_pos hm0]) ht he he0 hG
    (by norm_num at hG1 ⊢; linarith) rfl rfl
  set V := (normalPdf (-e - t) - normalPdf (e - t)) / G with hV
  set W := V ^ 2 + ((e - t) * normalPdf (e - t) - (-e - t) * normalPdf (-e - t)) / G with hW
  have hS0 : 0 < σ.toR ^ 2 + τ.toR ^ 2 := by
    have : 0 < σ.toR := lt_of_lt_of_le (by positivity) hσ.2.1
    positivity
  have hs0 : 0 < σ.toR := lt_of_lt_of_le (by positivity) hσ.2.1
  have v0 := abs_nonneg V
  obtain ⟨u1, u2, u3, u4, u5⟩ := update_fp L hσ hβ hβ2 hσβ hτ hτβ hc hC hr hr1 hκ hk b1
    (by rw [div_le_one hG0]; norm_num at hG1 ⊢; linarith) (by linarith) b2
    b4 b5
    (by
      rw [div_mul_eq_mul_div, div_le_iff₀ hG0]
      norm_num; linarith) rfl
  have hk2 : k j ^ 2 = 1 := by rw [← sq_abs, hk]; norm_num
  have hG2 : G ≤ 1 := by
    have := Phi_lt_one (e - t); have := Phi_pos (-e - t); linarith
  set S := σ.toR ^ 2 + τ.toR ^ 2 with hS
  have hSC : 0 < S / C := by positivity
  refine ⟨?_, u3, u4, ?_⟩
  · rw [show r.toR + k j * S / C * V = r.toR + k j * (S / C) * V by ring]
    refine u1.mono ?_
    rw [show r.toR + k j * (S / C) * V - r.toR = k j * (S / C * V) by ring, abs_mul, hk, one_mul,
      abs_mul, abs_of_pos hSC]
    have h1 : (σ.toR + β) / 2 ^ 39 ≤ 1e-11 * (σ.toR + β) / G := by
      rw [le_div_iff₀ hG0]
      have : (σ.toR + β) / 2 ^ 39 * G ≤ (σ.toR + β) / 2 ^ 39 := mul_le_of_le_one_right (by positivity) hG2
      norm_num at this ⊢; linarith
    have h2 : S / C * ((6.7e-7 * |V| + 1.1e-9) / G)
        = (6.7e-7 * (S / C * |V|) + 1.1e-9 * (S / C)) / G := by ring
    rw [h2, add_assoc |r.toR|, add_div |r.toR|, ← add_assoc, add_right_comm]
    refine add_le_add ?_ le_rfl
    refine (add_le_add le_rfl h1).trans ?_
    rw [← add_div]
    refine div_le_div_of_nonneg_right ?_ hG0.le
    have : 0 ≤ S / C * |V| := by positivity
    norm_num; linarith
  · rw [show S - (k j * S / C) ^ 2 * W = S * (1 - W * (S / C ^ 2)) by
      rw [mul_div_assoc, mul_pow, hk2]; field_simp]
    refine u5.trans (mul_le_mul_of_nonneg_right ?_ hS0.le)
    have h1 : 1 / 2 ^ 32 ≤ 1e-8 / G * (1 + 5 * (|t| + e) ^ 2) := by
      have : 1 ≤ 1 / G := by rw [le_div_iff₀ hG0]; linarith
      have h3 : 1 * 1 ≤ 1 / G * (1 + 5 * (|t| + e) ^ 2) :=
        mul_le_mul this (by linarith) (by norm_num) (by positivity)
      rw [show 1e-8 / G * (1 + 5 * (|t| + e) ^ 2) = 1e-8 * (1 / G * (1 + 5 * (|t| + e) ^ 2)) by ring]
      norm_num at h3 ⊢; linarith
    have h2 : 8e-7 / G * (1 + 5 * (|t| + e) ^ 2) + 1e-8 / G * (1 + 5 * (|t| + e) ^ 2)
        = 8.1e-7 / G * (1 + 5 * (|t| + e) ^ 2) := by ring
    linarith

end

/-- A player with a rating of at most `2 ^ 40` and an uncertainty between `2 ^ -20` and `2 ^ 20` and of at most
16 `beta`. -/
structure TsPlayer (c : TrueSkillConfig (FP E)) (a : TrueSkillRating (FP E)) : Prop where
  usual : TsUsual a
  rating : |a.rating.toR| ≤ 2 ^ 40
  uncertainty : a.uncertainty.toR ≤ 16 * c.beta.toR

/-- The standard deviation of the lead in a game of two players. -/
noncomputable def spread (a b : TrueSkillRating (FP E)) (c : TrueSkillConfig (FP E)) : ℝ :=
  √(2 * c.beta.toR ^ 2 + a.uncertainty.toR ^ 2 + b.uncertainty.toR ^ 2)

theorem spread_ap (L : E.Lib) {a b : TrueSkillRating (FP E)} {c : TrueSkillConfig (FP E)}
    (hβ : Between (1 / 2 ^ 20) (2 ^ 20) c.beta) (ha : TsUsual a) (hb : TsUsual b) :
    Ap 20 50 (Flt.sqrt (Flt.mulAdd (2.0 : FP E) (Flt.powi c.beta 2)
      (Flt.mulAdd a.uncertainty a.uncertainty (Flt.powi b.uncertainty 2)))) (spread a b c) ∧
    spread a b c ^ 2 = 2 * c.beta.toR ^ 2 + a.uncertainty.toR ^ 2 + b.uncertainty.toR ^ 2 := by
  have hβ' := FP.Spec.Between.ap' hβ
  have hσ := FP.Spec.Between.ap' ha.2
  have hτ := FP.Spec.Between.ap' hb.2
  have h2 : Ap 0 1 (2.0 : FP E) 2 := ⟨lit_rel (lit_in (E := E) (m := 20) (s := true) (e := 1) (v := 2)
    (by norm_num) (SRep.ofNat 2 (by norm_num))), by norm_num, by norm_num⟩
  have s1 := (hσ.mono (k' := 1) (n' := 20) (by norm_num) (by norm_num)).mulAdd
    (hσ.mono (k' := 0) (n' := 20) (by norm_num) (by norm_num))
    ((hτ.sq L (by norm_num) (by norm_num)).mono (k' := 1) (n' := 40) (by norm_num) (by norm_num))
    (by norm_num) (by norm_num) (by norm_num) (by norm_num)
  have s2 := (h2.mono (k' := 1) (n' := 1) (by norm_num) (by norm_num)).mulAdd
    ((hβ'.sq L (by norm_num) (by norm_num)).mono (k' := 1) (n' := 40) (by norm_num) (by norm_num))
    (s1.mono (k' := 2) (n' := 41) (by norm_num) (by norm_num))
    (by norm_num) (by norm_num) (by norm_num) (by norm_num)
  have s3 := s2.sqrt (by norm_num) (by norm_num)
  have e : spread a b c = √(2 * c.beta.toR ^ 2 + (a.uncertainty.toR * a.uncertainty.toR
      + b.uncertainty.toR ^ 2)) := by
    rw [spread]; congr 1; ring
  refine ⟨by rw [e]; exact s3.mono (by norm_num) (by norm_num), ?_⟩
  rw [spread, Real.sq_sqrt (by positivity)]

theorem delta_near {r s : FP E} {C k : ℝ} {c : FP E} (hc : Ap k 50 c C) (hr : r.isFinite) (hs : s.isFinite)
    (h : |r.toR - s.toR| ≤ 28 * C) : Near (5 * C / 2 ^ 41) (r - s) (r.toR - s.toR) := by
  have b1 := hc.2.1
  have b2 := hc.2.2
  have b0 := hc.2.pos
  refine (small_sub (near_self hr) (near_self hs) (M := 28 * C) (by linarith) ?_ ?_).mono (by norm_num; linarith)
  · refine le_trans (one_div_le_one_div_of_le (by positivity)
      (pow_le_pow_right₀ (by norm_num) (by norm_num : 50 ≤ 900))) ?_
    linarith
  · refine le_trans ?_ (pow_le_pow_right₀ (by norm_num) (by norm_num : 60 ≤ 900))
    norm_num at b2 ⊢; linarith

theorem one_near : Near 0 (1.0 : FP E) 1 := near_of_in one_in

theorem neg_one_near : Near 0 (-1.0 : FP E) (-1) := one_near.neg

section
variable {Ω : Type*} [MeasurableSpace Ω] {P : Measure Ω} [IsProbabilityMeasure P]

/-- What a decided game means for a player with rating `r` and variance `S` before the game, mean `μ` and
variance `V` after conditioning on the result, new rating `r'` and new uncertainty `s'`; the lead of the favourite
and the draw margin are together `t` standard deviations of the lead. -/
structure AfterDecision (r σ β S t μ V : ℝ) (a : TrueSkillRating (FP E)) : Prop where
  mean : Near (7e-7 * |μ - r| + (|r| + σ + β) / 2 ^ 39) a.rating μ
  finite : a.uncertainty.isFinite
  pos : 0 < a.uncertainty.toR
  var : |a.uncertainty.toR ^ 2 - V| ≤ 2.1e-6 * (1 + t) ^ 2 * S

/-- The same for a drawn game that had probability `p`. -/
structure AfterDraw (r σ β S t p μ V : ℝ) (a : TrueSkillRating (FP E)) : Prop where
  mean : Near ((7e-7 * |μ - r| + 1.2e-9 * (σ + β)) / p + |r| / 2 ^ 39) a.rating μ
  finite : a.uncertainty.isFinite
  pos : 0 < a.uncertainty.toR
  var : |a.uncertainty.toR ^ 2 - V| ≤ 8.1e-7 / p * (1 + 5 * t ^ 2) * S

/-- Far enough from the end of the range of the code, decided games are not too unlikely. -/
theorem Phi_far {U : ℝ} (hU : -27 ≤ U) : 3e-162 ≤ Phi U := by
  refine le_trans ?_ (Phi_strictMono.monotone hU)
  have h := mills_le (-27)
  rw [div_le_iff₀ (Phi_pos _)] at h
  have h1 : (1e-159 : ℝ) ≤ normalPdf (-27) := by
    rw [normalPdf]
    have e1 : (3e-159 : ℝ) ≤ Real.exp (-(-27) ^ 2 / 2) := by
      have e : Real.exp (-365) ≤ Real.exp (-(-27) ^ 2 / 2) := Real.exp_le_exp.2 (by norm_num)
      refine le_trans ?_ e
      rw [Real.exp_neg, le_inv_comm₀ (by norm_num) (Real.exp_pos _)]
      have e2 : Real.exp (365 : ℝ) = Real.exp 1 ^ 365 := by rw [← Real.exp_nat_mul]; congr 1; norm_num
      rw [e2]
      have h5 : Real.exp 1 ≤ (2.7182819 : ℝ) := by have := Real.exp_one_lt_d9; norm_num at this ⊢; linarith
      calc Real.exp 1 ^ 365 ≤ 2.7182819 ^ 365 := by gcongr
        _ = (2.7182819 ^ 5) ^ 73 := by rw [← pow_mul]
        _ ≤ 148.4134 ^ 73 := by gcongr; norm_num
        _ ≤ _ := by norm_num
    have e2 : √(2 * Real.pi) ≤ 3 := by
      rw [Real.sqrt_le_left (by norm_num)]
      have := Real.pi_lt_d2
      norm_num at this ⊢; linarith
    have e3 : 0 < √(2 * Real.pi) := Real.sqrt_pos.2 (by positivity)
    rw [le_div_iff₀ e3]
    norm_num at e1 e2 ⊢; linarith
  rw [abs_of_neg (by norm_num)] at h
  norm_num at h h1 ⊢; linarith

theorem win_far {ι : Type*} [Fintype ι] {X N : ι → Ω → ℝ} {μ v : ι → ℝ} {f C ε : ℝ} (h : IsContest P X N μ v f) (hv : ∀ i, 0 ≤ v i)
    (k : ι → ℝ) (hC0 : 0 < C) (hc2 : C ^ 2 = ∑ i, k i ^ 2 * (v i + f ^ 2))
    (hb : (|∑ i, k i * μ i| + |ε|) / C ≤ 27) : 3e-162 ≤ P.real {ω | ε < lead k X N ω} := by
  rw [(h.posterior_win hv k hC0 hc2 ε rfl).1]
  refine Phi_far ?_
  rw [div_le_iff₀ hC0] at hb
  rw [le_div_iff₀ hC0]
  linarith [neg_abs_le (∑ i, k i * μ i), le_abs_self ε]

/-- The computed draw margin `m` of a configuration. -/
def IsMargin (c : TrueSkillConfig (FP E)) (ε : ℝ) : Prop :=
  (drawMargin c.drawProbability c.beta (2.0 : FP E)).isFinite ∧
    (drawMargin c.drawProbability c.beta (2.0 : FP E)).toR = ε

/-- A win or a loss.  Up to a relative error of 7e-7 in the change of the rating, the new ratings are
the means of the skills of the players given the result, and the squares of the new uncertainties
are their variances up to 2.1e-6 (1 + t)² of the variances before the game. -/
theorem C125_trueskill_decided (L : E.Lib) (A : E.Accurate) (a b : TrueSkillRating (FP E))
    (c : TrueSkillConfig (FP E)) {o : Outcomes} (ho : o ≠ .DRAW) (hβ : Between (1 / 2 ^ 20) (2 ^ 20) c.beta)
    (ha : TsPlayer c a) (hb : TsPlayer c b) (hτ : c.dynamicsFactor.isFinite) {f : ℝ}
    (hf : f ^ 2 + c.dynamicsFactor.toR ^ 2 = c.beta.toR ^ 2) {X N : Fin 2 → Ω → ℝ}
    (h : IsContest P X N ![a.rating.toR, b.rating.toR]
      ![a.uncertainty.toR ^ 2 + c.dynamicsFactor.toR ^ 2, b.uncertainty.toR ^ 2 + c.dynamicsFactor.toR ^ 2] f)
    {ε t : ℝ} (hε : IsMargin c ε) (ht : t = (|a.rating.toR - b.rating.toR| + |ε|) / spread a b c) (ht' : t ≤ 27)
    {H : Set Ω} (hH : H = happened o ε (lead duel X N)) :
    AfterDecision a.rating.toR a.uncertainty.toR c.beta.toR (a.uncertainty.toR ^ 2 + c.dynamicsFactor.toR ^ 2) t
      (∫ ω, X 0 ω ∂P[|H]) (Var[X 0; P[|H]]) (trueskill a b o c).1 ∧
    AfterDecision b.rating.toR b.uncertainty.toR c.beta.toR (b.uncertainty.toR ^ 2 + c.dynamicsFactor.toR ^ 2) t
      (∫ ω, X 1 ω ∂P[|H]) (Var[X 1; P[|H]]) (trueskill a b o c).2 := by
  obtain ⟨hm, hm'⟩ := hε
  obtain ⟨hc, hC2⟩ := spread_ap L hβ ha.usual hb.usual
  have hC0 := hc.2.pos
  set C := spread a b c with hC
  set v : Fin 2 → ℝ := ![a.uncertainty.toR ^ 2 + c.dynamicsFactor.toR ^ 2,
    b.uncertainty.toR ^ 2 + c.dynamicsFactor.toR ^ 2] with hvd
  have hv : ∀ i, 0 ≤ v i := by
    intro i; fin_cases i <;> simp [hvd] <;> positivity
  have hβ0 := (FP.Spec.Between.ap' hβ).2.pos
  have hτβ : c.dynamicsFactor.toR ^ 2 ≤ c.beta.toR ^ 2 := by nlinarith [_root_.sq_nonneg f]
  have hb' : |a.rating.toR - b.rating.toR| + |ε| ≤ 28 * C := by
    have : t ≤ 28 := by linarith
    rwa [ht, div_le_iff₀ hC0] at this
  have hD : |a.rating.toR - b.rating.toR| ≤ 28 * C := by linarith [abs_nonneg ε]
  have hCa : a.uncertainty.toR ^ 2 + 2 * c.beta.toR ^ 2 ≤ C ^ 2 := by
    rw [hC2]; nlinarith [_root_.sq_nonneg b.uncertainty.toR]
  have hCb : b.uncertainty.toR ^ 2 + 2 * c.beta.toR ^ 2 ≤ C ^ 2 := by
    rw [hC2]; nlinarith [_root_.sq_nonneg a.uncertainty.toR]
  cases o with
  | DRAW => exact absurd rfl ho
  | WIN =>
    have hc2 : C ^ 2 = ∑ i, duel i ^ 2 * (v i + f ^ 2) := by
      rw [hC2]; simp [duel, Fin.sum_univ_two, hvd]; linear_combination -2 * hf
    have hd := delta_near hc ha.usual.1 hb.usual.1 hD
    rw [← duel_mean a.rating.toR b.rating.toR] at hd hb' ht
    subst hm' hH
    have hp := win_far h hv duel hC0 hc2 (ht ▸ ht')
    have p0 := win_player_fp L A h hv duel hc2 hd hm hc le_rfl hb' hp (j := 0) ha.usual.2 hβ0 hβ.2.2
      ha.uncertainty hτ hτβ hCa ha.usual.1 ha.rating rfl rfl one_near (by simp [duel])
    have p1 := win_player_fp L A h hv duel hc2 hd hm hc le_rfl hb' hp (j := 1) hb.usual.2 hβ0 hβ.2.2
      hb.uncertainty hτ hτβ hCb hb.usual.1 hb.rating rfl rfl neg_one_near (by simp [duel])
    rw [← ht] at p0 p1
    exact ⟨⟨p0.1, p0.2.1, p0.2.2.1, p0.2.2.2⟩, ⟨p1.1, p1.2.1, p1.2.2.1, p1.2.2.2⟩⟩
  | LOSS =>
    have hset : {ω | ε < lead (fun i => -duel i) X N ω} = happened .LOSS ε (lead duel X N) := by
      ext ω
      simp only [happened, Set.mem_ofPred_eq, lead_neg]
      constructor <;> intro h <;> linarith
    have hc2 : C ^ 2 = ∑ i, (-duel i) ^ 2 * (v i + f ^ 2) := by
      rw [hC2]; simp [duel, Fin.sum_univ_two, hvd]; linear_combination -2 * hf
    have hd := delta_near hc hb.usual.1 ha.usual.1 (by rw [abs_sub_comm]; exact hD)
    have em : ∑ i, -duel i * ![a.rating.toR, b.rating.toR] i = b.rating.toR - a.rating.toR := by
      simp [duel, Fin.sum_univ_two]; ring
    rw [abs_sub_comm] at hb' ht
    rw [← em] at hd hb' ht
    rw [← hset] at hH
    subst hm' hH
    have hp := win_far h hv (fun i => -duel i) hC0 hc2 (ht ▸ ht')
    have p0 := win_player_fp L A h hv (fun i => -duel i) hc2 hd hm hc le_rfl hb' hp (j := 0) ha.usual.2 hβ0 hβ.2.2
      ha.uncertainty hτ hτβ hCa ha.usual.1 ha.rating rfl rfl neg_one_near (by simp [duel])
    have p1 := win_player_fp L A h hv (fun i => -duel i) hc2 hd hm hc le_rfl hb' hp (j := 1) hb.usual.2 hβ0 hβ.2.2
      hb.uncertainty hτ hτβ hCb hb.usual.1 hb.rating rfl rfl (κ := 1.0) (by
        rw [show -duel 1 = 1 by simp [duel]]; exact one_near) (by simp [duel])
    rw [← ht] at p0 p1
    exact ⟨⟨p0.1, p0.2.1, p0.2.2.1, p0.2.2.2⟩, ⟨p1.1, p1.2.1, p1.2.2.1, p1.2.2.2⟩⟩

/-- A draw.  The errors grow as the draw was less likely. -/
theorem C125_trueskill_drawn (L : E.Lib) (A : E.Accurate) (a b : TrueSkillRating (FP E))
    (c : TrueSkillConfig (FP E)) (hβ : Between (1 / 2 ^ 20) (2 ^ 20) c.beta)
    (ha : TsPlayer c a) (hb : TsPlayer c b) (hτ : c.dynamicsFactor.isFinite) {f : ℝ}
    (hf : f ^ 2 + c.dynamicsFactor.toR ^ 2 = c.beta.toR ^ 2) {X N : Fin 2 → Ω → ℝ}
    (h : IsContest P X N ![a.rating.toR, b.rating.toR]
      ![a.uncertainty.toR ^ 2 + c.dynamicsFactor.toR ^ 2, b.uncertainty.toR ^ 2 + c.dynamicsFactor.toR ^ 2] f)
    {ε t : ℝ} (hε : IsMargin c ε) (hε0 : 0 < ε)
    (ht : t = (|a.rating.toR - b.rating.toR| + ε) / spread a b c) (ht' : t ≤ 28)
    {H : Set Ω} (hH : H = happened .DRAW ε (lead duel X N)) (hp : (1 + 5 * t ^ 2) / 4000 ≤ P.real H) :
    AfterDraw a.rating.toR a.uncertainty.toR c.beta.toR (a.uncertainty.toR ^ 2 + c.dynamicsFactor.toR ^ 2) t
      (P.real H) (∫ ω, X 0 ω ∂P[|H]) (Var[X 0; P[|H]]) (trueskill a b .DRAW c).1 ∧
    AfterDraw b.rating.toR b.uncertainty.toR c.beta.toR (b.uncertainty.toR ^ 2 + c.dynamicsFactor.toR ^ 2) t
      (P.real H) (∫ ω, X 1 ω ∂P[|H]) (Var[X 1; P[|H]]) (trueskill a b .DRAW c).2 := by
  obtain ⟨hm, hm'⟩ := hε
  obtain ⟨hc, hC2⟩ := spread_ap L hβ ha.usual hb.usual
  have hC0 := hc.2.pos
  set C := spread a b c with hC
  set v : Fin 2 → ℝ := ![a.uncertainty.toR ^ 2 + c.dynamicsFactor.toR ^ 2,
    b.uncertainty.toR ^ 2 + c.dynamicsFactor.toR ^ 2] with hvd
  have hv : ∀ i, 0 ≤ v i := by
    intro i; fin_cases i <;> simp [hvd] <;> positivity
  have hβ0 := (FP.Spec.Between.ap' hβ).2.pos
  have hτβ : c.dynamicsFactor.toR ^ 2 ≤ c.beta.toR ^ 2 := by nlinarith [_root_.sq_nonneg f]
  have hb' : |a.rating.toR - b.rating.toR| + ε ≤ 28 * C := by
    rwa [ht, div_le_iff₀ hC0] at ht'
  have hD : |a.rating.toR - b.rating.toR| ≤ 28 * C := by linarith
  have hCa : a.uncertainty.toR ^ 2 + 2 * c.beta.toR ^ 2 ≤ C ^ 2 := by
    rw [hC2]; nlinarith [_root_.sq_nonneg b.uncertainty.toR]
  have hCb : b.uncertainty.toR ^ 2 + 2 * c.beta.toR ^ 2 ≤ C ^ 2 := by
    rw [hC2]; nlinarith [_root_.sq_nonneg a.uncertainty.toR]
  have hc2 : C ^ 2 = ∑ i, duel i ^ 2 * (v i + f ^ 2) := by
    rw [hC2]; simp [duel, Fin.sum_univ_two, hvd]; linear_combination -2 * hf
  have hd := delta_near hc ha.usual.1 hb.usual.1 hD
  rw [← duel_mean a.rating.toR b.rating.toR] at hd hb' ht
  subst hm' hH
  have hp' : 1 + 5 * t ^ 2 ≤ 4000 * P.real (happened .DRAW
      (drawMargin c.drawProbability c.beta (2.0 : FP E)).toR (lead duel X N)) := by linarith
  rw [ht] at hp'
  have p0 := draw_player_fp L A h hv duel hc2 hd hm hε0 hc le_rfl hb' hp' (j := 0) ha.usual.2 hβ0 hβ.2.2
    ha.uncertainty hτ hτβ hCa ha.usual.1 ha.rating rfl rfl one_near (by simp [duel])
  have p1 := draw_player_fp L A h hv duel hc2 hd hm hε0 hc le_rfl hb' hp' (j := 1) hb.usual.2 hβ0 hβ.2.2
    hb.uncertainty hτ hτβ hCb hb.usual.1 hb.rating rfl rfl neg_one_near (by simp [duel])
  rw [← ht] at p0 p1
  exact ⟨⟨p0.1, p0.2.1, p0.2.2.1, p0.2.2.2⟩, ⟨p1.1, p1.2.1, p1.2.2.1, p1.2.2.2⟩⟩

end
end TrueSkill
end Skillratings
