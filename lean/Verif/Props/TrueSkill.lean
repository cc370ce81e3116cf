import Verif.Proofs.TrueSkill
import Verif.Proofs.Lists
import Verif.Proofs.TrueSkillW
import Verif.Proofs.Margin
/-
Properties of the two-sided functions of /repo/src/trueskill/mod.rs: C64 - C67, C75, C89, C90.
-/
namespace Skillratings.TrueSkill
open Real Spec

/-- Two players of the default strength and a stronger one. -/
noncomputable def ada : TrueSkillRating ℝ := ⟨25, 25 / 3⟩
noncomputable def eve : TrueSkillRating ℝ := ⟨30, 2⟩
noncomputable def cfg0 : TrueSkillConfig ℝ := ⟨1 / 10, 25 / 6, 1 / 12⟩

/-! ### C64: expected scores -/

theorem expectedTwo_real (s t : List (TrueSkillRating ℝ)) (cfg : TrueSkillConfig ℝ) :
    expectedScoreTwoTeams s t cfg =
      (normalCdf (((side s).μ - (side t).μ) / tsC cfg.beta (side s) (side t)),
       1 - normalCdf (((side s).μ - (side t).μ) / tsC cfg.beta (side s) (side t))) := by
  have hc : Flt.sqrt ((side t).v + Flt.mulAdd (Flt.ofNat (s.length + t.length))
      (Flt.powi cfg.beta 2) (side s).v) = tsC cfg.beta (side s) (side t) := by
    simp only [flt, tsC, side]
    congr 1; push_cast; ring
  simp only [expectedScoreTwoTeams, teamRating_real, teamUncertaintySq_real, hc, cdf_eq]
  simp only [flt]

theorem expected_real (a b : TrueSkillRating ℝ) (cfg : TrueSkillConfig ℝ) :
    expectedScore a b cfg =
      (normalCdf ((a.rating - b.rating) / tsC cfg.beta (solo a) (solo b)),
       1 - normalCdf ((a.rating - b.rating) / tsC cfg.beta (solo a) (solo b))) := by
  have hc : Flt.sqrt (Flt.mulAdd b.uncertainty b.uncertainty
      (Flt.mulAdd 2.0 (Flt.powi cfg.beta 2) (Flt.powi a.uncertainty 2)))
      = tsC cfg.beta (solo a) (solo b) := by
    simp only [flt, tsC, solo]
    congr 1; push_cast; ring
  simp only [expectedScore, hc, cdf_eq]
  simp only [flt]

/-- The expected score is the fitted normal distribution function of the rating difference
over `√(2β² + σ₁² + σ₂²)`. -/
theorem C64_trueskill_expected_formula (a b : TrueSkillRating ℝ) (cfg : TrueSkillConfig ℝ) :
    (expectedScore a b cfg).1 = normalCdf ((a.rating - b.rating)
      / √(2 * cfg.beta ^ 2 + a.uncertainty ^ 2 + b.uncertainty ^ 2)) := by
  rw [expected_real]
  simp only [tsC, solo]
  norm_num

theorem probabilityPair_cdf (x : ℝ) : ProbabilityPair (normalCdf x, 1 - normalCdf x) := by
  have h1 := normalCdf_pos x
  have h2 := normalCdf_lt_one x
  constructor <;> dsimp only <;> linarith

theorem C64_trueskill_expected_probability (a b : TrueSkillRating ℝ) (cfg : TrueSkillConfig ℝ) :
    ProbabilityPair (expectedScore a b cfg) := by
  rw [expected_real]; exact probabilityPair_cdf _

theorem C64_trueskill_expected_two_teams_probability (s t : List (TrueSkillRating ℝ))
    (cfg : TrueSkillConfig ℝ) : ProbabilityPair (expectedScoreTwoTeams s t cfg) := by
  rw [expectedTwo_real]; exact probabilityPair_cdf _

theorem cdf_swap {x y c : ℝ} (hc : 0 < c) (h : x ≠ y) :
    normalCdf ((y - x) / c) = 1 - normalCdf ((x - y) / c) := by
  have e : (y - x) / c = -((x - y) / c) := by ring
  rw [e]
  exact normalCdf_neg (div_ne_zero (sub_ne_zero.2 h) hc.ne')

theorem C64_trueskill_expected_swap (a b : TrueSkillRating ℝ) (cfg : TrueSkillConfig ℝ)
    (hβ : cfg.beta ≠ 0) (h : a.rating ≠ b.rating) :
    expectedScore b a cfg = ((expectedScore a b cfg).2, (expectedScore a b cfg).1) := by
  have hc : 0 < tsC cfg.beta (solo a) (solo b) :=
    tsC_pos (sq_nonneg _) (sq_nonneg _) (.inr (.inr ⟨hβ, Nat.succ_pos _⟩))
  simp only [expected_real]
  rw [tsC_comm, cdf_swap hc h, sub_sub_cancel]

example : cfg0.beta ≠ 0 ∧ ada.rating ≠ eve.rating := by
  constructor <;> norm_num [cfg0, ada, eve]

theorem C64_trueskill_expected_two_teams_swap (s t : List (TrueSkillRating ℝ))
    (cfg : TrueSkillConfig ℝ) (hβ : cfg.beta ≠ 0)
    (h : (s.map (·.rating)).sum ≠ (t.map (·.rating)).sum) :
    expectedScoreTwoTeams t s cfg
      = ((expectedScoreTwoTeams s t cfg).2, (expectedScoreTwoTeams s t cfg).1) := by
  have hn : 0 < (side s).n + (side t).n := by
    by_contra hn
    have h1 : s = [] := List.length_eq_zero_iff.1 (by simp only [side] at hn; omega)
    have h2 : t = [] := List.length_eq_zero_iff.1 (by simp only [side] at hn; omega)
    exact h (by rw [h1, h2])
  have hc : 0 < tsC cfg.beta (side s) (side t) :=
    tsC_pos (side_v_nonneg s) (side_v_nonneg t) (.inr (.inr ⟨hβ, hn⟩))
  have h' : (side s).μ ≠ (side t).μ := h
  simp only [expectedTwo_real]
  rw [tsC_comm, cdf_swap hc h', sub_sub_cancel]

example : cfg0.beta ≠ 0 ∧ ([ada, ada].map (·.rating)).sum ≠ ([eve].map (·.rating)).sum := by
  constructor <;> norm_num [cfg0, ada, eve]

/-- Equal totals: the two scores are `1/2` up to `1e-7`, but the first side is always
the (minimally) favoured one, so swapping the sides does not swap the scores. -/
theorem C64_trueskill_expected_equal (a b : TrueSkillRating ℝ) (cfg : TrueSkillConfig ℝ)
    (h : a.rating = b.rating) :
    1 / 2 < (expectedScore a b cfg).1 ∧ (expectedScore a b cfg).1 < 1 / 2 + 1e-7 ∧
      (expectedScore a b cfg).2 < 1 / 2 ∧ 1 / 2 - 1e-7 < (expectedScore a b cfg).2 := by
  rw [expected_real, h, sub_self, zero_div]
  have := normalCdf_zero_bounds
  refine ⟨this.1, this.2, ?_, ?_⟩ <;> dsimp only <;> linarith [this.1, this.2]

example : ada.rating = (⟨25, 1⟩ : TrueSkillRating ℝ).rating := rfl

theorem C64_trueskill_expected_two_teams_equal (s t : List (TrueSkillRating ℝ))
    (cfg : TrueSkillConfig ℝ) (h : (s.map (·.rating)).sum = (t.map (·.rating)).sum) :
    1 / 2 < (expectedScoreTwoTeams s t cfg).1 ∧
      (expectedScoreTwoTeams s t cfg).1 < 1 / 2 + 1e-7 ∧
      (expectedScoreTwoTeams s t cfg).2 < 1 / 2 ∧
      1 / 2 - 1e-7 < (expectedScoreTwoTeams s t cfg).2 := by
  have h' : (side s).μ = (side t).μ := h
  rw [expectedTwo_real, h', sub_self, zero_div]
  have := normalCdf_zero_bounds
  refine ⟨this.1, this.2, ?_, ?_⟩ <;> dsimp only <;> linarith [this.1, this.2]

/-- Among opponents (or among ratings) on the same side of the gap zero the expected score
rises strictly with the own rating. -/
theorem C64_trueskill_expected_strictMono (a b : TrueSkillRating ℝ) (cfg : TrueSkillConfig ℝ)
    (r' : ℝ) (hβ : cfg.beta ≠ 0) (h : a.rating < r')
    (hs : r' ≤ b.rating ∨ b.rating < a.rating) :
    (expectedScore a b cfg).1 < (expectedScore { a with rating := r' } b cfg).1 := by
  have hc : 0 < tsC cfg.beta (solo a) (solo b) :=
    tsC_pos (sq_nonneg _) (sq_nonneg _) (.inr (.inr ⟨hβ, Nat.succ_pos _⟩))
  have hc' : tsC cfg.beta (solo { a with rating := r' }) (solo b)
    = tsC cfg.beta (solo a) (solo b) := rfl
  simp only [expected_real, hc']
  rcases hs with hs | hs
  · apply normalCdf_strictMono_neg (by gcongr)
    exact div_nonpos_of_nonpos_of_nonneg (by linarith) hc.le
  · exact normalCdf_strictMono_pos (div_pos (by linarith) hc) (by gcongr)

example : cfg0.beta ≠ 0 ∧ ada.rating < 28 ∧ ((28 : ℝ) ≤ eve.rating ∨ eve.rating < ada.rating) := by
  norm_num [cfg0, ada, eve]

/-- Across the gap zero it does not: a player can lose expected score by getting stronger. -/
theorem C64_trueskill_expected_not_monotone :
    ∃ (a b : TrueSkillRating ℝ) (cfg : TrueSkillConfig ℝ) (r' : ℝ), cfg.beta ≠ 0 ∧
      0 < a.uncertainty ∧ 0 < b.uncertainty ∧ a.rating < r' ∧
      (expectedScore { a with rating := r' } b cfg).1 < (expectedScore a b cfg).1 := by
  refine ⟨⟨0, 1⟩, ⟨0, 1⟩, ⟨0, 1, 0⟩, 2 * √2 * 0.000000002, one_ne_zero, one_pos, one_pos,
    by positivity, ?_⟩
  have hc : ∀ r : ℝ, tsC 1 (solo ⟨r, 1⟩) (solo ⟨0, 1⟩) = 2 := by
    intro r
    rw [tsC, show ((2 : ℝ) = √(2 ^ 2)) from (Real.sqrt_sq (by norm_num)).symm]
    norm_num [solo]
  simp only [expected_real, hc]
  rw [sub_self, zero_div, normalCdf_zero]
  have h2 : (√2 : ℝ) ≠ 0 := by positivity
  have hz : -((2 * √2 * 0.000000002 - 0) / 2) / √2 = -(0.000000002 : ℝ) := by
    field_simp; ring
  rw [normalCdf, hz, erfcFit_neg (by norm_num), erfcFit, if_neg (by norm_num),
    erfcTail_eq (by norm_num), fit]
  have ht : ((1 : ℝ) + 0.000000002 / 2)⁻¹ = 1000000000 / 1000000001 := by norm_num
  rw [ht]
  have hq : (0.00000002 : ℝ) ≤ fitQ (1000000000 / 1000000001) - 0.000000002 ^ 2 := by
    rw [fitQ]; norm_num
  have h3 := Real.add_one_le_exp (fitQ (1000000000 / 1000000001) - 0.000000002 ^ 2)
  have h4 := Real.add_one_le_exp (0.00000003 : ℝ)
  have h5 : (1 : ℝ) + 0.00000002 ≤ exp (fitQ (1000000000 / 1000000001) - 0.000000002 ^ 2) := by
    linarith
  have h6 : (1000000000 / 1000000001 : ℝ) * (1 + 0.00000002) ≤ 1000000000 / 1000000001 *
      exp (fitQ (1000000000 / 1000000001) - 0.000000002 ^ 2) := by gcongr
  norm_num at h4 h6 ⊢
  linarith

theorem C64_trueskill_expected_two_teams_single (a b : TrueSkillRating ℝ)
    (cfg : TrueSkillConfig ℝ) : expectedScoreTwoTeams [a] [b] cfg = expectedScore a b cfg := by
  rw [expectedTwo_real, expected_real, side_singleton, side_singleton]; rfl

/-- The list variant is the pairwise function, in any arithmetic. -/
theorem C64_trueskill_expected_list {F : Type} [Flt F] (a : TrueSkillRating F)
    (os : List (TrueSkillRating F)) (cfg : TrueSkillConfig F) :
    expectedScoreRatingPeriod a os cfg = os.map fun o => (expectedScore a o cfg).1 := rfl

/-- The probability that team `i` beats team `j` in a match of `n` players. -/
noncomputable def pairP (n : ℕ) (β : ℝ) (a b : TsSide) : ℝ :=
  normalCdf ((a.μ - b.μ) / √(n * β ^ 2 + a.v + b.v))

theorem pairProbability_real (n : ℕ) (s t : List (TrueSkillRating ℝ)) (cfg : TrueSkillConfig ℝ) :
    pairProbability s t (n : ℝ) cfg = pairP n cfg.beta (side s) (side t) := by
  have hc : Flt.sqrt ((side t).v + Flt.mulAdd (n : ℝ)
      (Flt.powi cfg.beta 2) (side s).v) = √(n * cfg.beta ^ 2 + (side s).v + (side t).v) := by
    simp only [flt]
    congr 1; ring
  simp only [pairProbability, teamRating_real, teamUncertaintySq_real, hc, cdf_eq, pairP]

/-- The score of a team is its share of all the pairwise win probabilities. -/
theorem C64_trueskill_expected_multi_formula {n : ℕ} (t : Fin n → List (TrueSkillRating ℝ))
    (cfg : TrueSkillConfig ℝ) :
    expectedScoreMultiTeam (List.ofFn t) cfg = List.ofFn fun i =>
      (∑ j ∈ Finset.univ.erase i,
        pairP (∑ k, (t k).length) cfg.beta (side (t i)) (side (t j))) /
      ∑ i, ∑ j ∈ Finset.univ.erase i,
        pairP (∑ k, (t k).length) cfg.beta (side (t i)) (side (t j)) := by
  have hn : ((List.ofFn t).map List.length).sum = ∑ k, (t k).length := by
    rw [List.map_ofFn, List.sum_ofFn]; rfl
  have hw : ∀ i : Fin n, (winProbabilities (List.ofFn t) (t i) i
      ((∑ k, (t k).length : ℕ) : ℝ) cfg).sum =
      ∑ j ∈ Finset.univ.erase i,
        pairP (∑ k, (t k).length) cfg.beta (side (t i)) (side (t j)) := by
    intro i
    rw [winProbabilities, zipIdx_ofFn, sum_map_filter, List.map_ofFn, List.sum_ofFn, sum_erase_eq]
    apply Finset.sum_congr rfl
    intro j _
    simp only [Function.comp_def, pairProbability_real, decide_eq_true_eq, ne_eq, Fin.val_inj]
    split_ifs with h1 h2 h2 <;> simp_all
  rw [expectedScoreMultiTeam, hn]
  simp only [zipIdx_ofFn, List.map_ofFn, Flt.ofNat_real]
  rw [Flt.lit_0, ← List.sum_eq_foldl, List.sum_flatten, List.map_ofFn, List.sum_ofFn]
  simp only [Function.comp_def, hw, Flt.sum_real]

theorem pairP_pos (n : ℕ) (β : ℝ) (a b : TsSide) : 0 < pairP n β a b := normalCdf_pos _

theorem C64_trueskill_expected_multi (ts : List (List (TrueSkillRating ℝ)))
    (cfg : TrueSkillConfig ℝ) (h : 2 ≤ ts.length) :
    (expectedScoreMultiTeam ts cfg).length = ts.length ∧
    (∀ x ∈ expectedScoreMultiTeam ts cfg, 0 < x ∧ x < 1) ∧
    (expectedScoreMultiTeam ts cfg).sum = 1 := by
  have e : List.ofFn (fun i : Fin ts.length => ts[i]) = ts := List.ofFn_getElem
  rw [← e, C64_trueskill_expected_multi_formula]
  set P := fun i j : Fin ts.length => pairP (∑ k : Fin ts.length, (ts[k]).length) cfg.beta
    (side ts[i]) (side ts[j])
  have hP : ∀ i, 0 < ∑ j ∈ Finset.univ.erase i, P i j := by
    intro i
    apply Finset.sum_pos (fun j _ => pairP_pos _ _ _ _)
    obtain ⟨j, hj⟩ : ∃ j : Fin ts.length, j ≠ i := by
      by_cases hi : i.val = 0
      · exact ⟨⟨1, by omega⟩, fun h => by rw [← h] at hi; simp at hi⟩
      · exact ⟨⟨0, by omega⟩, fun h => hi (by rw [← h])⟩
    exact ⟨j, Finset.mem_erase.2 ⟨hj, Finset.mem_univ _⟩⟩
  have hT : 0 < ∑ i, ∑ j ∈ Finset.univ.erase i, P i j :=
    Finset.sum_pos (fun i _ => hP i) ⟨⟨0, by omega⟩, Finset.mem_univ _⟩
  refine ⟨by simp, ?_, ?_⟩
  · intro x hx
    obtain ⟨i, rfl⟩ := List.mem_ofFn.1 hx
    refine ⟨div_pos (hP i) hT, (div_lt_one hT).2 ?_⟩
    obtain ⟨j, hj⟩ : ∃ j : Fin ts.length, j ≠ i := by
      by_cases hi : i.val = 0
      · exact ⟨⟨1, by omega⟩, fun h => by rw [← h] at hi; simp at hi⟩
      · exact ⟨⟨0, by omega⟩, fun h => hi (by rw [← h])⟩
    exact Finset.single_lt_sum (f := fun i => ∑ j ∈ Finset.univ.erase i, P i j) hj
      (Finset.mem_univ _) (Finset.mem_univ _) (hP j) (fun k _ _ => (hP k).le)
  · rw [List.sum_ofFn, ← Finset.sum_div]
    exact div_self hT.ne'

example : 2 ≤ [[ada], [eve], [ada, eve]].length := by simp

/-! ### C65: match quality -/

/-- `√(nβ²/c²) exp(-(μ₁ - μ₂)²/(2c²))`. -/
noncomputable def quality (β : ℝ) (a b : TsSide) : ℝ :=
  √((a.n + b.n : ℕ) * β ^ 2 / tsC β a b ^ 2) * exp (-(a.μ - b.μ) ^ 2 / (2 * tsC β a b ^ 2))

theorem tsC_sq {β : ℝ} {a b : TsSide} (ha : 0 ≤ a.v) (hb : 0 ≤ b.v) :
    tsC β a b ^ 2 = (a.n + b.n : ℕ) * β ^ 2 + a.v + b.v := by
  rw [tsC, Real.sq_sqrt]; positivity

theorem quality_real (a b : TrueSkillRating ℝ) (cfg : TrueSkillConfig ℝ) :
    matchQuality a b cfg = quality cfg.beta (solo a) (solo b) := by
  rw [quality, tsC_sq (sq_nonneg _) (sq_nonneg _)]
  have e : b.uncertainty * b.uncertainty + (2 * cfg.beta ^ 2 + a.uncertainty ^ 2)
      = (((solo a).n + (solo b).n : ℕ) : ℝ) * cfg.beta ^ 2 + (solo a).v + (solo b).v := by
    simp only [solo]; push_cast; ring
  simp only [matchQuality, flt, e]
  norm_num [solo]

theorem qualityTwo_real (s t : List (TrueSkillRating ℝ)) (cfg : TrueSkillConfig ℝ) :
    matchQualityTwoTeams s t cfg = quality cfg.beta (side s) (side t) := by
  rw [quality, tsC_sq (side_v_nonneg _) (side_v_nonneg _)]
  simp only [matchQualityTwoTeams, teamRating_real, teamUncertaintySq_real, flt]
  rfl

theorem C65_trueskill_quality_formula (s t : List (TrueSkillRating ℝ))
    (cfg : TrueSkillConfig ℝ) :
    matchQualityTwoTeams s t cfg =
      √((s.length + t.length) * cfg.beta ^ 2 / ((s.length + t.length) * cfg.beta ^ 2
          + (s.map (·.uncertainty ^ 2)).sum + (t.map (·.uncertainty ^ 2)).sum)) *
        exp (-((s.map (·.rating)).sum - (t.map (·.rating)).sum) ^ 2
          / (2 * ((s.length + t.length) * cfg.beta ^ 2
          + (s.map (·.uncertainty ^ 2)).sum + (t.map (·.uncertainty ^ 2)).sum))) := by
  rw [qualityTwo_real, quality, tsC_sq (side_v_nonneg _) (side_v_nonneg _)]
  simp only [side]
  push_cast
  rfl

theorem quality_mem {β : ℝ} {a b : TsSide} (ha : 0 ≤ a.v) (hb : 0 ≤ b.v) (hβ : β ≠ 0)
    (hn : 0 < a.n + b.n) : 0 < quality β a b ∧ quality β a b ≤ 1 := by
  have hc := tsC_pos ha hb (.inr (.inr ⟨hβ, hn⟩))
  have hn' : (0 : ℝ) < ((a.n + b.n : ℕ) : ℝ) := by exact_mod_cast hn
  have h1 : √((a.n + b.n : ℕ) * β ^ 2 / tsC β a b ^ 2) ≤ 1 := by
    rw [Real.sqrt_le_one, div_le_one (by positivity), tsC_sq ha hb]
    linarith
  have h2 : exp (-(a.μ - b.μ) ^ 2 / (2 * tsC β a b ^ 2)) ≤ 1 := by
    rw [Real.exp_le_one_iff]
    apply div_nonpos_of_nonpos_of_nonneg
    · nlinarith [sq_nonneg (a.μ - b.μ)]
    · positivity
  constructor
  · unfold quality; positivity
  · exact mul_le_one₀ h1 (Real.exp_pos _).le h2

theorem C65_trueskill_quality_range (a b : TrueSkillRating ℝ) (cfg : TrueSkillConfig ℝ)
    (hβ : cfg.beta ≠ 0) : 0 < matchQuality a b cfg ∧ matchQuality a b cfg ≤ 1 := by
  rw [quality_real]
  exact quality_mem (sq_nonneg _) (sq_nonneg _) hβ (Nat.succ_pos _)

theorem C65_trueskill_quality_two_teams_range (s t : List (TrueSkillRating ℝ))
    (cfg : TrueSkillConfig ℝ) (hβ : cfg.beta ≠ 0) (h : s ≠ [] ∨ t ≠ []) :
    0 < matchQualityTwoTeams s t cfg ∧ matchQualityTwoTeams s t cfg ≤ 1 := by
  rw [qualityTwo_real]
  refine quality_mem (side_v_nonneg _) (side_v_nonneg _) hβ ?_
  rcases h with h | h
  · have := List.length_pos_iff.2 h
    simp only [side]; omega
  · have := List.length_pos_iff.2 h
    simp only [side]; omega

example : cfg0.beta ≠ 0 ∧ ([ada, eve] ≠ [] ∨ ([] : List (TrueSkillRating ℝ)) ≠ []) := by
  exact ⟨by norm_num [cfg0], .inl (by simp)⟩

theorem quality_comm (β : ℝ) (a b : TsSide) : quality β a b = quality β b a := by
  have e : (a.μ - b.μ) ^ 2 = (b.μ - a.μ) ^ 2 := by ring
  rw [quality, quality, tsC_comm, Nat.add_comm, e]

theorem C65_trueskill_quality_symm (a b : TrueSkillRating ℝ) (cfg : TrueSkillConfig ℝ) :
    matchQuality a b cfg = matchQuality b a cfg := by
  rw [quality_real, quality_real, quality_comm]

theorem C65_trueskill_quality_two_teams_symm (s t : List (TrueSkillRating ℝ))
    (cfg : TrueSkillConfig ℝ) : matchQualityTwoTeams s t cfg = matchQualityTwoTeams t s cfg := by
  rw [qualityTwo_real, qualityTwo_real, quality_comm]

/-- A larger gap makes a worse match. -/
theorem C65_trueskill_quality_gap (a b a' b' : TrueSkillRating ℝ) (cfg : TrueSkillConfig ℝ)
    (hβ : cfg.beta ≠ 0) (ha : a'.uncertainty = a.uncertainty) (hb : b'.uncertainty = b.uncertainty)
    (h : |a.rating - b.rating| < |a'.rating - b'.rating|) :
    matchQuality a' b' cfg < matchQuality a b cfg := by
  have hc : 0 < tsC cfg.beta (solo a) (solo b) :=
    tsC_pos (sq_nonneg _) (sq_nonneg _) (.inr (.inr ⟨hβ, Nat.succ_pos _⟩))
  have hc' : tsC cfg.beta (solo a') (solo b') = tsC cfg.beta (solo a) (solo b) := by
    simp only [tsC, solo, ha, hb]
  have hs := sq_lt_sq.2 h
  rw [quality_real, quality_real, quality, quality, hc']
  apply mul_lt_mul_of_pos_left
  · apply Real.exp_lt_exp.2
    have : (solo a).μ = a.rating ∧ (solo b).μ = b.rating ∧ (solo a').μ = a'.rating ∧
      (solo b').μ = b'.rating := ⟨rfl, rfl, rfl, rfl⟩
    rw [this.1, this.2.1, this.2.2.1, this.2.2.2]
    gcongr
  · have : (0 : ℝ) < (((solo a).n + (solo b).n : ℕ) : ℝ) := by simp [solo]
    apply Real.sqrt_pos.2
    exact div_pos (mul_pos this (by positivity)) (by positivity)

example : |ada.rating - eve.rating| < |ada.rating - 31| := by norm_num [ada, eve]

/-- The same for two teams. -/
theorem C65_trueskill_quality_two_teams_gap (s t s' t' : List (TrueSkillRating ℝ))
    (cfg : TrueSkillConfig ℝ) (hβ : cfg.beta ≠ 0)
    (hs : s'.map (·.uncertainty) = s.map (·.uncertainty))
    (ht : t'.map (·.uncertainty) = t.map (·.uncertainty))
    (h : |(s.map (·.rating)).sum - (t.map (·.rating)).sum|
      < |(s'.map (·.rating)).sum - (t'.map (·.rating)).sum|) :
    matchQualityTwoTeams s' t' cfg < matchQualityTwoTeams s t cfg := by
  have hl : ∀ {x y : List (TrueSkillRating ℝ)}, x.map (·.uncertainty) = y.map (·.uncertainty) →
      (side x).n = (side y).n ∧ (side x).v = (side y).v := by
    intro x y hxy
    constructor
    · simpa [side] using congrArg List.length hxy
    · have := congrArg (fun l => (l.map fun u : ℝ => u ^ 2).sum) hxy
      simpa only [List.map_map, Function.comp_def, side] using this
  obtain ⟨n1, v1⟩ := hl hs
  obtain ⟨n2, v2⟩ := hl ht
  have hpos : 0 < (side s).n + (side t).n := by
    by_contra hn
    have e : ∀ {x y : List (TrueSkillRating ℝ)}, (side x).n = (side y).n → (side y).n = 0 →
        (x.map (·.rating)).sum = 0 := by
      intro x y h1 h2
      have : x = [] := List.length_eq_zero_iff.1 (h1.trans h2)
      rw [this]; rfl
    rw [e n1 (by omega), e n2 (by omega)] at h
    simp only [sub_self, abs_zero] at h
    exact absurd h (not_lt.2 (abs_nonneg _))
  have hc : 0 < tsC cfg.beta (side s) (side t) :=
    tsC_pos (side_v_nonneg _) (side_v_nonneg _) (.inr (.inr ⟨hβ, hpos⟩))
  have hc' : tsC cfg.beta (side s') (side t') = tsC cfg.beta (side s) (side t) := by
    simp only [tsC, n1, n2, v1, v2]
  have hsq := sq_lt_sq.2 h
  rw [qualityTwo_real, qualityTwo_real, quality, quality, hc', n1, n2]
  apply mul_lt_mul_of_pos_left
  · apply Real.exp_lt_exp.2
    have : ((side s).μ - (side t).μ) ^ 2 < ((side s').μ - (side t').μ) ^ 2 := hsq
    gcongr
  · have : (0 : ℝ) < (((side s).n + (side t).n : ℕ) : ℝ) := by exact_mod_cast hpos
    apply Real.sqrt_pos.2
    exact div_pos (mul_pos this (by positivity)) (by positivity)

theorem C65_trueskill_quality_single (a b : TrueSkillRating ℝ) (cfg : TrueSkillConfig ℝ) :
    matchQualityTwoTeams [a] [b] cfg = matchQuality a b cfg := by
  rw [qualityTwo_real, quality_real, side_singleton, side_singleton]

/-- The list variant is the pairwise function, in any arithmetic. -/
theorem C65_trueskill_quality_list {F : Type} [Flt F] (a : TrueSkillRating F)
    (os : List (TrueSkillRating F)) (cfg : TrueSkillConfig F) :
    matchQualityRatingPeriod a os cfg = os.map fun o => matchQuality a o cfg := rfl

/-! ### C66: the two-player functions agree -/

theorem C66_trueskill_two_teams_single (a b : TrueSkillRating ℝ) (o : Outcomes)
    (cfg : TrueSkillConfig ℝ) :
    trueskillTwoTeams [a] [b] o cfg =
      ([(trueskill a b o cfg).1], [(trueskill a b o cfg).2]) := by
  rw [twoTeams_real _ _ _ _ (by simp) (by simp), trueskill_real, side_singleton, side_singleton]
  rfl

/-- A rating period is the fold of its games, in any arithmetic. -/
theorem C66_trueskill_period {F : Type} [Flt F] (player : TrueSkillRating F)
    (rs : List (TrueSkillRating F × Outcomes)) (cfg : TrueSkillConfig F) :
    trueskillRatingPeriod player rs cfg =
      gauntlet trueskill player (rs.map fun r => (r.1, r.2, cfg)) := by
  rw [trueskillRatingPeriod, gauntlet, List.foldl_map]
  rfl

theorem C66_trueskill_period_empty {F : Type} [Flt F] (player : TrueSkillRating F)
    (cfg : TrueSkillConfig F) : trueskillRatingPeriod player [] cfg = player := rfl

theorem C66_trueskill_two_teams_empty {F : Type} [Flt F] (s t : List (TrueSkillRating F))
    (o : Outcomes) (cfg : TrueSkillConfig F) (h : s = [] ∨ t = []) :
    trueskillTwoTeams s t o cfg = (s, t) := by
  rw [trueskillTwoTeams, if_pos]
  rcases h with rfl | rfl <;> simp

theorem C66_trueskill_two_teams_shape {F : Type} [Flt F] (s t : List (TrueSkillRating F))
    (o : Outcomes) (cfg : TrueSkillConfig F) :
    (trueskillTwoTeams s t o cfg).1.length = s.length ∧
      (trueskillTwoTeams s t o cfg).2.length = t.length := by
  rw [trueskillTwoTeams]
  split_ifs
  · exact ⟨rfl, rfl⟩
  · simp [updateTeam]

/-! ### C67: wins are rewarded -/

theorem matchV_win_pos (cfg : TrueSkillConfig ℝ) (a b : TsSide) : 0 < matchV cfg .WIN a b :=
  tsVWin_pos _ _

theorem matchV_loss_neg (cfg : TrueSkillConfig ℝ) (a b : TsSide) : matchV cfg .LOSS a b < 0 :=
  neg_neg_of_pos (tsVWin_pos _ _)

theorem upd_up {p : TrueSkillRating ℝ} {τ c V W : ℝ} (hc : 0 < c)
    (h : p.uncertainty ≠ 0 ∨ τ ≠ 0) (hV : 0 < V) : p.rating < (upd p τ c V W).rating := by
  have : 0 < p.uncertainty ^ 2 + τ ^ 2 := by
    rcases h with h | h <;> positivity
  have := mul_pos (div_pos this hc) hV
  simp only [upd, tsRating]; linarith

theorem upd_down {p : TrueSkillRating ℝ} {τ c V W : ℝ} (hc : 0 < c)
    (h : p.uncertainty ≠ 0 ∨ τ ≠ 0) (hV : V < 0) : (upd p τ c V W).rating < p.rating := by
  have : 0 < p.uncertainty ^ 2 + τ ^ 2 := by
    rcases h with h | h <;> positivity
  have := mul_neg_of_pos_of_neg (div_pos this hc) hV
  simp only [upd, tsRating]; linarith

theorem C67_trueskill_win (a b : TrueSkillRating ℝ) (cfg : TrueSkillConfig ℝ)
    (ha : 0 < a.uncertainty) (hb : 0 < b.uncertainty) :
    a.rating < (trueskill a b .WIN cfg).1.rating ∧
      (trueskill a b .WIN cfg).2.rating < b.rating := by
  have hc : 0 < tsC cfg.beta (solo a) (solo b) :=
    tsC_pos (sq_nonneg _) (sq_nonneg _) (.inl (by simp only [solo]; positivity))
  rw [trueskill_real]
  exact ⟨upd_up hc (.inl ha.ne') (matchV_win_pos _ _ _),
    upd_down hc (.inl hb.ne') (neg_neg_of_pos (matchV_win_pos _ _ _))⟩

theorem C67_trueskill_loss (a b : TrueSkillRating ℝ) (cfg : TrueSkillConfig ℝ)
    (ha : 0 < a.uncertainty) (hb : 0 < b.uncertainty) :
    (trueskill a b .LOSS cfg).1.rating < a.rating ∧
      b.rating < (trueskill a b .LOSS cfg).2.rating := by
  have hc : 0 < tsC cfg.beta (solo a) (solo b) :=
    tsC_pos (sq_nonneg _) (sq_nonneg _) (.inl (by simp only [solo]; positivity))
  rw [trueskill_real]
  exact ⟨upd_down hc (.inl ha.ne') (matchV_loss_neg _ _ _),
    upd_up hc (.inl hb.ne') (neg_pos.2 (matchV_loss_neg _ _ _))⟩

example : 0 < ada.uncertainty ∧ 0 < eve.uncertainty := by norm_num [ada, eve]

theorem side_v_pos {t : List (TrueSkillRating ℝ)} {p : TrueSkillRating ℝ} (h : p ∈ t)
    (hp : 0 < p.uncertainty) : 0 < (side t).v := by
  have : p.uncertainty ^ 2 ≤ (side t).v := by
    apply List.single_le_sum
    · intro x hx
      obtain ⟨q, _, rfl⟩ := List.mem_map.1 hx
      positivity
    · exact List.mem_map.2 ⟨p, h, rfl⟩
  have : 0 < p.uncertainty ^ 2 := by positivity
  linarith

/-- Every member of the winning team gains, every member of the losing team loses. -/
theorem C67_trueskill_two_teams_win (s t : List (TrueSkillRating ℝ)) (cfg : TrueSkillConfig ℝ)
    (hs : ∀ p ∈ s, 0 < p.uncertainty) (ht : ∀ p ∈ t, 0 < p.uncertainty) (hs0 : s ≠ [])
    (ht0 : t ≠ []) :
    (∀ (i : ℕ) (p p' : TrueSkillRating ℝ), s[i]? = some p →
      (trueskillTwoTeams s t .WIN cfg).1[i]? = some p' → p.rating < p'.rating) ∧
    (∀ (i : ℕ) (p p' : TrueSkillRating ℝ), t[i]? = some p →
      (trueskillTwoTeams s t .WIN cfg).2[i]? = some p' → p'.rating < p.rating) := by
  obtain ⟨q, hq⟩ := List.exists_mem_of_ne_nil s hs0
  have hc : 0 < tsC cfg.beta (side s) (side t) :=
    tsC_pos (side_v_nonneg _) (side_v_nonneg _) (.inl (side_v_pos hq (hs q hq)))
  rw [twoTeams_real _ _ _ _ hs0 ht0]
  constructor
  · intro i p p' h h'
    simp only [List.getElem?_map, h, Option.map_some, Option.some.injEq] at h'
    rw [← h']
    exact upd_up hc (.inl (hs p (List.mem_of_getElem? h)).ne') (matchV_win_pos _ _ _)
  · intro i p p' h h'
    simp only [List.getElem?_map, h, Option.map_some, Option.some.injEq] at h'
    rw [← h']
    exact upd_down hc (.inl (ht p (List.mem_of_getElem? h)).ne')
      (neg_neg_of_pos (matchV_win_pos _ _ _))

theorem C67_trueskill_two_teams_loss (s t : List (TrueSkillRating ℝ)) (cfg : TrueSkillConfig ℝ)
    (hs : ∀ p ∈ s, 0 < p.uncertainty) (ht : ∀ p ∈ t, 0 < p.uncertainty) (hs0 : s ≠ [])
    (ht0 : t ≠ []) :
    (∀ (i : ℕ) (p p' : TrueSkillRating ℝ), s[i]? = some p →
      (trueskillTwoTeams s t .LOSS cfg).1[i]? = some p' → p'.rating < p.rating) ∧
    (∀ (i : ℕ) (p p' : TrueSkillRating ℝ), t[i]? = some p →
      (trueskillTwoTeams s t .LOSS cfg).2[i]? = some p' → p.rating < p'.rating) := by
  obtain ⟨q, hq⟩ := List.exists_mem_of_ne_nil s hs0
  have hc : 0 < tsC cfg.beta (side s) (side t) :=
    tsC_pos (side_v_nonneg _) (side_v_nonneg _) (.inl (side_v_pos hq (hs q hq)))
  rw [twoTeams_real _ _ _ _ hs0 ht0]
  constructor
  · intro i p p' h h'
    simp only [List.getElem?_map, h, Option.map_some, Option.some.injEq] at h'
    rw [← h']
    exact upd_down hc (.inl (hs p (List.mem_of_getElem? h)).ne') (matchV_loss_neg _ _ _)
  · intro i p p' h h'
    simp only [List.getElem?_map, h, Option.map_some, Option.some.injEq] at h'
    rw [← h']
    exact upd_up hc (.inl (ht p (List.mem_of_getElem? h)).ne')
      (neg_pos.2 (matchV_loss_neg _ _ _))

example : (∀ p ∈ [ada, eve], 0 < p.uncertainty) ∧ (∀ p ∈ [eve], 0 < p.uncertainty) := by
  norm_num [ada, eve]

/-- The changes of the two players are opposite and proportional to `σ² + τ²`, for every
outcome. -/
theorem C67_trueskill_proportional (a b : TrueSkillRating ℝ) (o : Outcomes)
    (cfg : TrueSkillConfig ℝ) :
    ((trueskill a b o cfg).1.rating - a.rating) * (b.uncertainty ^ 2 + cfg.dynamicsFactor ^ 2) =
      (b.rating - (trueskill a b o cfg).2.rating)
        * (a.uncertainty ^ 2 + cfg.dynamicsFactor ^ 2) := by
  rw [trueskill_real]
  simp only [upd, tsRating]
  ring

/-- Within a team, and across the two teams with the opposite sign, the same holds. -/
theorem C67_trueskill_two_teams_proportional (s t : List (TrueSkillRating ℝ)) (o : Outcomes)
    (cfg : TrueSkillConfig ℝ) (hs0 : s ≠ []) (ht0 : t ≠ []) :
    ∃ k : ℝ, (∀ (i : ℕ) (p p' : TrueSkillRating ℝ), s[i]? = some p →
      (trueskillTwoTeams s t o cfg).1[i]? = some p' →
        p'.rating - p.rating = k * (p.uncertainty ^ 2 + cfg.dynamicsFactor ^ 2)) ∧
    (∀ (i : ℕ) (p p' : TrueSkillRating ℝ), t[i]? = some p →
      (trueskillTwoTeams s t o cfg).2[i]? = some p' →
        p'.rating - p.rating = -k * (p.uncertainty ^ 2 + cfg.dynamicsFactor ^ 2)) := by
  rw [twoTeams_real _ _ _ _ hs0 ht0]
  refine ⟨matchV cfg o (side s) (side t) / tsC cfg.beta (side s) (side t), ?_, ?_⟩
  · intro i p p' h h'
    simp only [List.getElem?_map, h, Option.map_some, Option.some.injEq] at h'
    rw [← h']
    simp only [upd, tsRating]; ring
  · intro i p p' h h'
    simp only [List.getElem?_map, h, Option.map_some, Option.some.injEq] at h'
    rw [← h']
    simp only [upd, tsRating]; ring

theorem tsDrawNorm_neg (t ε : ℝ) : tsDrawNorm (-t) ε = tsDrawNorm t ε := by
  simp only [tsDrawNorm, abs_neg]

theorem tsVDraw_neg {t ε : ℝ} (h : t ≠ 0 ∨ tsTiny ≤ tsDrawNorm t ε) :
    tsVDraw (-t) ε = -tsVDraw t ε := by
  unfold tsVDraw
  rw [tsDrawNorm_neg, abs_neg]
  by_cases h0 : t = 0
  · have h' : ¬ tsDrawNorm t ε < tsTiny := by
      rcases h with h | h
      · exact absurd h0 h
      · exact not_lt.2 h
    rw [if_neg h', if_neg h']
    subst h0
    have : normalPdf (-ε) = normalPdf ε := by simp [normalPdf]
    simp [this]
  · rcases lt_or_gt_of_ne h0 with h1 | h1
    · have h2 : ¬ -t < 0 := by linarith
      simp only [if_pos h1, if_neg h2]
      split_ifs <;> ring
    · have h2 : -t < 0 := by linarith
      simp only [if_neg (not_lt.2 h1.le), if_pos h2]
      split_ifs <;> ring

theorem tsWDraw_neg {t ε : ℝ} (h : t ≠ 0 ∨ tsTiny ≤ tsDrawNorm t ε) :
    tsWDraw (-t) ε = tsWDraw t ε := by
  unfold tsWDraw
  rw [tsDrawNorm_neg, abs_neg, tsVDraw_neg h, neg_sq]

theorem corr_mirror (o : Outcomes) {t ε : ℝ}
    (h : o ≠ .DRAW ∨ t ≠ 0 ∨ tsTiny ≤ tsDrawNorm t ε) :
    corrV (mirror o) (-t) ε = -corrV o t ε ∧ corrW (mirror o) (-t) ε = corrW o t ε := by
  cases o
  · simp [corrV, corrW, mirror]
  · simp [corrV, corrW, mirror]
  · have h := h.resolve_left (by simp)
    exact ⟨tsVDraw_neg h, tsWDraw_neg h⟩

theorem matchV_mirror (cfg : TrueSkillConfig ℝ) (o : Outcomes) (a b : TsSide)
    (h : o ≠ .DRAW ∨ (a.μ - b.μ) / tsC cfg.beta a b ≠ 0 ∨
      tsTiny ≤ tsDrawNorm ((a.μ - b.μ) / tsC cfg.beta a b)
        (tsMargin cfg.drawProbability cfg.beta (a.n + b.n) / tsC cfg.beta a b)) :
    matchV cfg (mirror o) b a = -matchV cfg o a b ∧
      matchW cfg (mirror o) b a = matchW cfg o a b := by
  have e : (b.μ - a.μ) / tsC cfg.beta b a = -((a.μ - b.μ) / tsC cfg.beta a b) := by
    rw [tsC_comm]; ring
  unfold matchV matchW
  rw [e, tsC_comm _ b a, Nat.add_comm b.n a.n]
  exact corr_mirror o h

/-- The draw probability of a match between equals, as far as it is representable; the
condition under which a draw between equals is symmetric. -/
def drawable (cfg : TrueSkillConfig ℝ) (a b : TsSide) : Prop :=
  tsTiny ≤ tsDrawNorm 0 (tsMargin cfg.drawProbability cfg.beta (a.n + b.n) / tsC cfg.beta a b)

/-- Swapping the seats together with the outcome swaps the results. -/
theorem C67_trueskill_swap (a b : TrueSkillRating ℝ) (o : Outcomes) (cfg : TrueSkillConfig ℝ)
    (ha : 0 < a.uncertainty)
    (h : o ≠ .DRAW ∨ a.rating ≠ b.rating ∨ drawable cfg (solo a) (solo b)) :
    trueskill b a (mirror o) cfg = ((trueskill a b o cfg).2, (trueskill a b o cfg).1) := by
  have hc : 0 < tsC cfg.beta (solo a) (solo b) :=
    tsC_pos (sq_nonneg _) (sq_nonneg _) (.inl (by simp only [solo]; positivity))
  have h' : o ≠ .DRAW ∨ ((solo a).μ - (solo b).μ) / tsC cfg.beta (solo a) (solo b) ≠ 0 ∨
      tsTiny ≤ tsDrawNorm (((solo a).μ - (solo b).μ) / tsC cfg.beta (solo a) (solo b))
        (tsMargin cfg.drawProbability cfg.beta ((solo a).n + (solo b).n)
          / tsC cfg.beta (solo a) (solo b)) := by
    rcases h with h | h | h
    · exact .inl h
    · exact .inr (.inl (div_ne_zero (sub_ne_zero.2 h) hc.ne'))
    · by_cases he : a.rating = b.rating
      · have : ((solo a).μ - (solo b).μ) / tsC cfg.beta (solo a) (solo b) = 0 := by
          simp [solo, he]
        rw [this]
        exact .inr (.inr h)
      · exact .inr (.inl (div_ne_zero (sub_ne_zero.2 he) hc.ne'))
  obtain ⟨hV, hW⟩ := matchV_mirror cfg o (solo a) (solo b) h'
  rw [trueskill_real, trueskill_real, hV, hW, tsC_comm _ (solo b), neg_neg]

example : 0 < ada.uncertainty ∧
    (Outcomes.DRAW ≠ .DRAW ∨ ada.rating ≠ eve.rating ∨ drawable cfg0 (solo ada) (solo eve)) := by
  refine ⟨by norm_num [ada], .inr (.inl (by norm_num [ada, eve]))⟩

theorem C67_trueskill_two_teams_swap (s t : List (TrueSkillRating ℝ)) (o : Outcomes)
    (cfg : TrueSkillConfig ℝ) (hs : ∀ p ∈ s, 0 < p.uncertainty)
    (h : o ≠ .DRAW ∨ (s.map (·.rating)).sum ≠ (t.map (·.rating)).sum ∨
      drawable cfg (side s) (side t)) :
    trueskillTwoTeams t s (mirror o) cfg =
      ((trueskillTwoTeams s t o cfg).2, (trueskillTwoTeams s t o cfg).1) := by
  by_cases hs0 : s = []
  · rw [C66_trueskill_two_teams_empty t s _ _ (.inr hs0),
      C66_trueskill_two_teams_empty s t _ _ (.inl hs0)]
  by_cases ht0 : t = []
  · rw [C66_trueskill_two_teams_empty t s _ _ (.inl ht0),
      C66_trueskill_two_teams_empty s t _ _ (.inr ht0)]
  obtain ⟨q, hq⟩ := List.exists_mem_of_ne_nil s hs0
  have hc : 0 < tsC cfg.beta (side s) (side t) :=
    tsC_pos (side_v_nonneg _) (side_v_nonneg _) (.inl (side_v_pos hq (hs q hq)))
  have h' : o ≠ .DRAW ∨ ((side s).μ - (side t).μ) / tsC cfg.beta (side s) (side t) ≠ 0 ∨
      tsTiny ≤ tsDrawNorm (((side s).μ - (side t).μ) / tsC cfg.beta (side s) (side t))
        (tsMargin cfg.drawProbability cfg.beta ((side s).n + (side t).n)
          / tsC cfg.beta (side s) (side t)) := by
    rcases h with h | h | h
    · exact .inl h
    · have h : (side s).μ ≠ (side t).μ := h
      exact .inr (.inl (div_ne_zero (sub_ne_zero.2 h) hc.ne'))
    · by_cases he : (side s).μ = (side t).μ
      · have : ((side s).μ - (side t).μ) / tsC cfg.beta (side s) (side t) = 0 := by
          simp [he]
        rw [this]
        exact .inr (.inr h)
      · exact .inr (.inl (div_ne_zero (sub_ne_zero.2 he) hc.ne'))
  obtain ⟨hV, hW⟩ := matchV_mirror cfg o (side s) (side t) h'
  rw [twoTeams_real _ _ _ _ ht0 hs0, twoTeams_real _ _ _ _ hs0 ht0, hV, hW, tsC_comm _ (side t),
    neg_neg]

/-- A draw costs the favourite, if the lead exceeds the draw margin. -/
theorem C67_trueskill_draw_favourite (a b : TrueSkillRating ℝ) (cfg : TrueSkillConfig ℝ)
    (ha : 0 < a.uncertainty) (hb : 0 < b.uncertainty)
    (hp : 0 ≤ cfg.drawProbability) (hβ : 0 < cfg.beta)
    (h : tsMargin cfg.drawProbability cfg.beta 2 < a.rating - b.rating) :
    (trueskill a b .DRAW cfg).1.rating < a.rating ∧
      b.rating < (trueskill a b .DRAW cfg).2.rating := by
  have hc : 0 < tsC cfg.beta (solo a) (solo b) :=
    tsC_pos (sq_nonneg _) (sq_nonneg _) (.inl (by simp only [solo]; positivity))
  have hV : matchV cfg .DRAW (solo a) (solo b) < 0 := by
    show tsVDraw _ _ < 0
    have h1 : 0 < tsMargin cfg.drawProbability cfg.beta ((solo a).n + (solo b).n)
        / tsC cfg.beta (solo a) (solo b) := div_pos (tsMargin_pos hp hβ (by norm_num [solo])) hc
    have h2 : tsMargin cfg.drawProbability cfg.beta ((solo a).n + (solo b).n)
        / tsC cfg.beta (solo a) (solo b)
        < ((solo a).μ - (solo b).μ) / tsC cfg.beta (solo a) (solo b) :=
      (div_lt_div_iff_of_pos_right hc).2 h
    set ε := tsMargin cfg.drawProbability cfg.beta ((solo a).n + (solo b).n)
        / tsC cfg.beta (solo a) (solo b)
    set t := ((solo a).μ - (solo b).μ) / tsC cfg.beta (solo a) (solo b)
    unfold tsVDraw
    have ht : ¬ t < 0 := by linarith
    rw [if_neg ht, if_neg ht]
    split_ifs with hn
    · linarith
    · have hpdf : normalPdf (-ε - |t|) < normalPdf (ε - |t|) := by
        apply normalPdf_lt
        rw [abs_of_pos (a := t) (by linarith), abs_of_neg (by linarith), abs_of_neg (by linarith)]
        linarith
      have hpos : 0 < tsDrawNorm t ε := by
        have : 0 < tsTiny := by unfold tsTiny; norm_num
        linarith [not_lt.1 hn]
      apply div_neg_of_neg_of_pos _ hpos
      linarith
  rw [trueskill_real]
  exact ⟨upd_down hc (.inl ha.ne') hV, upd_up hc (.inl hb.ne') (neg_pos.2 hV)⟩

/-- A draw probability of 1 gives the margin `200 β`. -/
example : (0 : ℝ) ≤ 1 ∧ (0 : ℝ) < 1 / 100 ∧ tsMargin 1 (1 / 100) 2 < eve.rating - ada.rating := by
  have : tsMargin 1 (1 / 100) 2 = 2 := by
    have h2 : √(2 : ℝ) * √2 = 2 := Real.mul_self_sqrt (by norm_num)
    rw [tsMargin, erfcInv, if_pos (by norm_num)]
    push_cast
    linear_combination h2
  rw [this]
  norm_num [ada, eve]

/-! ### C75: the rank -/

theorem C75_trueskill_rank (p : TrueSkillRating ℝ) :
    getRank p = p.rating - 3 * p.uncertainty := by
  simp only [getRank, flt]; ring

theorem C75_trueskill_rank_mono (p q : TrueSkillRating ℝ) (h1 : p.rating ≤ q.rating)
    (h2 : q.uncertainty ≤ p.uncertainty)
    (h : p.rating < q.rating ∨ q.uncertainty < p.uncertainty) : getRank p < getRank q := by
  rw [C75_trueskill_rank, C75_trueskill_rank]
  rcases h with h | h <;> linarith

example : ada.rating ≤ eve.rating ∧ eve.uncertainty ≤ ada.uncertainty ∧
    (ada.rating < eve.rating ∨ eve.uncertainty < ada.uncertainty) := by norm_num [ada, eve]

theorem C75_trueskill_rank_le (p : TrueSkillRating ℝ) (h : 0 ≤ p.uncertainty) :
    getRank p ≤ p.rating := by
  rw [C75_trueskill_rank]; linarith

/-- A new player has rank 0. -/
theorem C75_trueskill_rank_new : getRank (TrueSkillRating.new : TrueSkillRating ℝ) = 0 := by
  rw [C75_trueskill_rank]; norm_num [TrueSkillRating.new]

/-! ### C89: the published algorithm -/

/-- `trueskill` is the published two-player update. -/
theorem C89_trueskill_published (a b : TrueSkillRating ℝ) (o : Outcomes)
    (cfg : TrueSkillConfig ℝ) :
    let c := √(2 * cfg.beta ^ 2 + a.uncertainty ^ 2 + b.uncertainty ^ 2)
    let t := (a.rating - b.rating) / c
    let ε := tsMargin cfg.drawProbability cfg.beta 2 / c
    let r := trueskill a b o cfg
    r.1.rating = tsRating a.rating (a.uncertainty ^ 2) cfg.dynamicsFactor c (corrV o t ε) ∧
    r.1.uncertainty = tsUncertainty (a.uncertainty ^ 2) cfg.dynamicsFactor c (corrW o t ε) ∧
    r.2.rating = tsRating b.rating (b.uncertainty ^ 2) cfg.dynamicsFactor c (-corrV o t ε) ∧
    r.2.uncertainty = tsUncertainty (b.uncertainty ^ 2) cfg.dynamicsFactor c (corrW o t ε) := by
  have hc : √(2 * cfg.beta ^ 2 + a.uncertainty ^ 2 + b.uncertainty ^ 2)
      = tsC cfg.beta (solo a) (solo b) := by
    simp only [tsC, solo]; norm_num
  intro c t ε r
  simp only [r, trueskill_real, upd, t, ε, c, hc, matchV, matchW]
  exact ⟨rfl, rfl, rfl, rfl⟩

/-- `trueskill_two_teams` is the published update for two teams. -/
theorem C89_trueskill_two_teams_published (s t : List (TrueSkillRating ℝ)) (o : Outcomes)
    (cfg : TrueSkillConfig ℝ) (hs : s ≠ []) (ht : t ≠ []) :
    let n := s.length + t.length
    let c := √((n : ℕ) * cfg.beta ^ 2 + (s.map (·.uncertainty ^ 2)).sum
      + (t.map (·.uncertainty ^ 2)).sum)
    let d := ((s.map (·.rating)).sum - (t.map (·.rating)).sum) / c
    let ε := tsMargin cfg.drawProbability cfg.beta n / c
    trueskillTwoTeams s t o cfg =
      (s.map fun p =>
        ⟨tsRating p.rating (p.uncertainty ^ 2) cfg.dynamicsFactor c (corrV o d ε),
         tsUncertainty (p.uncertainty ^ 2) cfg.dynamicsFactor c (corrW o d ε)⟩,
       t.map fun p =>
        ⟨tsRating p.rating (p.uncertainty ^ 2) cfg.dynamicsFactor c (-corrV o d ε),
         tsUncertainty (p.uncertainty ^ 2) cfg.dynamicsFactor c (corrW o d ε)⟩) :=
  twoTeams_real s t o cfg hs ht

example : [ada, eve] ≠ [] ∧ [eve] ≠ [] := by simp

/-! ### C90: uncertainties after a decided game -/

theorem matchW_bounds (cfg : TrueSkillConfig ℝ) {o : Outcomes} (h : o ≠ .DRAW) (a b : TsSide) :
    0 ≤ matchW cfg o a b ∧ matchW cfg o a b ≤ 1 := by
  cases o with
  | WIN => exact tsWWin_bounds _ _
  | LOSS => exact tsWWin_bounds _ _
  | DRAW => exact absurd rfl h

theorem upd_uncertainty {p : TrueSkillRating ℝ} {τ c V W : ℝ} (h0 : 0 ≤ W) (h1 : W ≤ 1)
    (hc : p.uncertainty ^ 2 + τ ^ 2 < c ^ 2) (hp : p.uncertainty ≠ 0) :
    0 < (upd p τ c V W).uncertainty ∧
      (upd p τ c V W).uncertainty ≤ √(p.uncertainty ^ 2 + τ ^ 2) := by
  have hv : 0 < p.uncertainty ^ 2 + τ ^ 2 := by positivity
  have hr : (p.uncertainty ^ 2 + τ ^ 2) / c ^ 2 < 1 := (div_lt_one (by linarith)).2 hc
  have hr0 : 0 ≤ (p.uncertainty ^ 2 + τ ^ 2) / c ^ 2 := by positivity
  simp only [upd, tsUncertainty]
  set s := p.uncertainty ^ 2 + τ ^ 2
  set r := s / c ^ 2
  have hwr : W * r < 1 := by nlinarith
  have hwr0 : 0 ≤ W * r := mul_nonneg h0 hr0
  constructor
  · exact Real.sqrt_pos.2 (mul_pos hv (by linarith))
  · apply Real.sqrt_le_sqrt
    nlinarith

/-- After a decided game both uncertainties are positive (the square root is never taken of
a negative number) and at most `√(σ² + τ²)`. -/
theorem C90_trueskill_uncertainty (a b : TrueSkillRating ℝ) (o : Outcomes)
    (cfg : TrueSkillConfig ℝ) (ho : o ≠ .DRAW) (ha : 0 < a.uncertainty) (hb : 0 < b.uncertainty)
    (hτ : cfg.dynamicsFactor ^ 2 ≤ 2 * cfg.beta ^ 2) :
    (0 < (trueskill a b o cfg).1.uncertainty ∧ (trueskill a b o cfg).1.uncertainty
      ≤ √(a.uncertainty ^ 2 + cfg.dynamicsFactor ^ 2)) ∧
    (0 < (trueskill a b o cfg).2.uncertainty ∧ (trueskill a b o cfg).2.uncertainty
      ≤ √(b.uncertainty ^ 2 + cfg.dynamicsFactor ^ 2)) := by
  have hW := matchW_bounds cfg ho (solo a) (solo b)
  have hc : tsC cfg.beta (solo a) (solo b) ^ 2
      = 2 * cfg.beta ^ 2 + a.uncertainty ^ 2 + b.uncertainty ^ 2 := by
    rw [tsC_sq (sq_nonneg _) (sq_nonneg _)]; simp only [solo]; norm_num
  have h1 : 0 < a.uncertainty ^ 2 := by positivity
  have h2 : 0 < b.uncertainty ^ 2 := by positivity
  rw [trueskill_real]
  exact ⟨upd_uncertainty hW.1 hW.2 (by rw [hc]; linarith) ha.ne',
    upd_uncertainty hW.1 hW.2 (by rw [hc]; linarith) hb.ne'⟩

example : Outcomes.LOSS ≠ .DRAW ∧ 0 < ada.uncertainty ∧ 0 < eve.uncertainty ∧
    cfg0.dynamicsFactor ^ 2 ≤ 2 * cfg0.beta ^ 2 := by
  refine ⟨by simp, ?_, ?_, ?_⟩ <;> norm_num [ada, eve, cfg0]

/-- Without dynamics the uncertainties never grow, and the radicand is strictly positive, so
they never reach zero. -/
theorem C90_trueskill_uncertainty_no_dynamics (a b : TrueSkillRating ℝ) (o : Outcomes)
    (cfg : TrueSkillConfig ℝ) (ho : o ≠ .DRAW) (ha : 0 < a.uncertainty) (hb : 0 < b.uncertainty)
    (hτ : cfg.dynamicsFactor = 0) :
    (trueskill a b o cfg).1.uncertainty ≤ a.uncertainty ∧
      (trueskill a b o cfg).2.uncertainty ≤ b.uncertainty := by
  have h := C90_trueskill_uncertainty a b o cfg ho ha hb (by rw [hτ]; nlinarith [sq_nonneg cfg.beta])
  have e : ∀ x : ℝ, 0 < x → √(x ^ 2 + 0 ^ 2) = x := by
    intro x hx
    rw [zero_pow two_ne_zero, add_zero, Real.sqrt_sq hx.le]
  rw [hτ, e _ ha, e _ hb] at h
  exact ⟨h.1.2, h.2.2⟩

/-- The same for two teams. -/
theorem C90_trueskill_two_teams_uncertainty (s t : List (TrueSkillRating ℝ)) (o : Outcomes)
    (cfg : TrueSkillConfig ℝ) (ho : o ≠ .DRAW) (hs : ∀ p ∈ s, 0 < p.uncertainty)
    (ht : ∀ p ∈ t, 0 < p.uncertainty) (hs0 : s ≠ []) (ht0 : t ≠ [])
    (hτ : cfg.dynamicsFactor ^ 2 ≤ 2 * cfg.beta ^ 2) :
    (∀ (i : ℕ) (p p' : TrueSkillRating ℝ), s[i]? = some p →
      (trueskillTwoTeams s t o cfg).1[i]? = some p' → 0 < p'.uncertainty ∧
        p'.uncertainty ≤ √(p.uncertainty ^ 2 + cfg.dynamicsFactor ^ 2)) ∧
    (∀ (i : ℕ) (p p' : TrueSkillRating ℝ), t[i]? = some p →
      (trueskillTwoTeams s t o cfg).2[i]? = some p' → 0 < p'.uncertainty ∧
        p'.uncertainty ≤ √(p.uncertainty ^ 2 + cfg.dynamicsFactor ^ 2)) := by
  have hW := matchW_bounds cfg ho (side s) (side t)
  have hle : ∀ {l : List (TrueSkillRating ℝ)} {p : TrueSkillRating ℝ}, p ∈ l →
      p.uncertainty ^ 2 ≤ (side l).v := by
    intro l p hp
    apply List.single_le_sum
    · intro x hx
      obtain ⟨q, _, rfl⟩ := List.mem_map.1 hx
      positivity
    · exact List.mem_map.2 ⟨p, hp, rfl⟩
  have hn : 2 * cfg.beta ^ 2 ≤ (((side s).n + (side t).n : ℕ) : ℝ) * cfg.beta ^ 2 := by
    have h1 := List.length_pos_iff.2 hs0
    have h2 := List.length_pos_iff.2 ht0
    have : 2 ≤ (side s).n + (side t).n := by simp only [side]; omega
    have : (2 : ℝ) ≤ (((side s).n + (side t).n : ℕ) : ℝ) := by exact_mod_cast this
    gcongr
  obtain ⟨q, hq⟩ := List.exists_mem_of_ne_nil s hs0
  obtain ⟨r, hr⟩ := List.exists_mem_of_ne_nil t ht0
  have hsv := side_v_pos hq (hs q hq)
  have htv := side_v_pos hr (ht r hr)
  have hc := tsC_sq (β := cfg.beta) (side_v_nonneg s) (side_v_nonneg t)
  rw [twoTeams_real _ _ _ _ hs0 ht0]
  constructor
  · intro i p p' h h'
    have hp := List.mem_of_getElem? h
    simp only [List.getElem?_map, h, Option.map_some, Option.some.injEq] at h'
    rw [← h']
    exact upd_uncertainty hW.1 hW.2 (by rw [hc]; linarith [hle hp]) (hs p hp).ne'
  · intro i p p' h h'
    have hp := List.mem_of_getElem? h
    simp only [List.getElem?_map, h, Option.map_some, Option.some.injEq] at h'
    rw [← h']
    exact upd_uncertainty hW.1 hW.2 (by rw [hc]; linarith [hle hp]) (ht p hp).ne'

end Skillratings.TrueSkill
