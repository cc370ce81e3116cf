import Verif.Props.TrueSkill
import Verif.Proofs.BayesAccuracy
import Verif.Proofs.DrawW
import Verif.Proofs.DrawTail
/-
C114, C115: TrueSkill against probability theory.  The expected scores are probabilities of the
generative model of a game, and an update is conditioning that model on the result, up to the error
of the crate's fitted normal distribution function.
-/
namespace Skillratings.TrueSkill
open MeasureTheory ProbabilityTheory Spec Real

section
variable {Ω : Type*} [MeasurableSpace Ω] {P : Measure Ω} [IsProbabilityMeasure P]

/-- The weights of two players. -/
def duel : Fin 2 → ℝ := ![1, -1]

/-- The weights of two teams. -/
def versus (m n : ℕ) : Fin m ⊕ Fin n → ℝ := Sum.elim (fun _ => 1) (fun _ => -1)

/-- A quantity of each player of two teams. -/
def both (s t : List (TrueSkillRating ℝ)) (f : TrueSkillRating ℝ → ℝ) :
    Fin s.length ⊕ Fin t.length → ℝ := Sum.elim (fun i => f s[i]) (fun i => f t[i])

theorem sum_both (s t : List (TrueSkillRating ℝ)) (f : TrueSkillRating ℝ → ℝ) (g : ℝ → ℝ) :
    ∑ i, g (both s t f i) = (s.map fun p => g (f p)).sum + (t.map fun p => g (f p)).sum := by
  rw [Fintype.sum_sum_type]
  simp only [both, Sum.elim_inl, Sum.elim_inr]
  rw [← Fin.sum_univ_fun_getElem s fun p => g (f p), ← Fin.sum_univ_fun_getElem t fun p => g (f p)]
  rfl

theorem versus_mean (s t : List (TrueSkillRating ℝ)) :
    ∑ i, versus s.length t.length i * both s t (·.rating) i = (side s).μ - (side t).μ := by
  rw [Fintype.sum_sum_type]
  simp only [versus, both, Sum.elim_inl, Sum.elim_inr, one_mul, neg_mul, Finset.sum_neg_distrib, side]
  rw [← Fin.sum_univ_fun_getElem s fun p => p.rating, ← Fin.sum_univ_fun_getElem t fun p => p.rating]
  exact (sub_eq_add_neg _ _).symm

theorem versus_var (s t : List (TrueSkillRating ℝ)) {f τ β : ℝ} (hf : f ^ 2 + τ ^ 2 = β ^ 2) :
    tsC β (side s) (side t) ^ 2 = ∑ i, versus s.length t.length i ^ 2 *
      (both s t (fun p => p.uncertainty ^ 2 + τ ^ 2) i + f ^ 2) := by
  have h1 : ∀ i, versus s.length t.length i ^ 2 *
      (both s t (fun p => p.uncertainty ^ 2 + τ ^ 2) i + f ^ 2)
      = both s t (fun p => p.uncertainty ^ 2) i + β ^ 2 := by
    rintro (i | i) <;> simp [versus, both, ← hf] <;> ring
  simp only [h1]
  rw [Finset.sum_add_distrib, sum_both s t (fun p => p.uncertainty ^ 2) fun x => x, tsC,
    Real.sq_sqrt]
  · simp [side]; ring
  · have := side_v_nonneg s
    have := side_v_nonneg t
    positivity

theorem tsC_teams_pos {β : ℝ} (hβ : β ≠ 0) (s t : List (TrueSkillRating ℝ)) (hs : s ≠ []) :
    0 < tsC β (side s) (side t) := by
  have h1 := side_v_nonneg s
  have h2 := side_v_nonneg t
  have h3 : 0 < s.length := List.length_pos_iff.2 hs
  have h4 : 0 < β ^ 2 := by positivity
  apply Real.sqrt_pos.2
  simp only [side] at *
  have : (0 : ℝ) < (s.length + t.length : ℕ) := by exact_mod_cast Nat.add_pos_left h3 _
  positivity

/-! ### C114: the normal distribution -/

theorem gaussian_Iic (x μ : ℝ) {σ : ℝ} (hσ : 0 < σ) :
    (gaussianReal μ (σ ^ 2).toNNReal).real (Set.Iic x) = Phi ((x - μ) / σ) := by
  have hX : HasLaw (fun y : ℝ => y) (gaussianReal μ (σ ^ 2).toNNReal)
      (gaussianReal μ (σ ^ 2).toNNReal) := HasLaw.id
  have hl := gaussianReal_div_const (gaussianReal_sub_const hX μ) σ
  have e : (σ ^ 2).toNNReal / NNReal.mk (σ ^ 2) (sq_nonneg σ) = 1 := by
    ext
    simp only [NNReal.coe_div, Real.coe_toNNReal _ (sq_nonneg σ), NNReal.coe_one, NNReal.coe_mk]
    exact div_self (by positivity)
  rw [e, sub_self, zero_div] at hl
  have := hl.measureReal_eq (p := fun y => y ≤ (x - μ) / σ) measurableSet_Iic
  rw [Phi]
  refine Eq.trans ?_ this
  congr 1
  ext y
  simp only [Set.mem_Iic, Set.mem_ofPred_eq]
  rw [div_le_div_iff_of_pos_right hσ]
  constructor <;> intro h <;> linarith

/-- The distribution function of any normal law: relative error below 6e-7, absolute error below
3e-7. -/
theorem C114_normal_cdf (x μ : ℝ) {σ : ℝ} (hσ : 0 < σ) :
    |cdf x μ σ - (gaussianReal μ (σ ^ 2).toNNReal).real (Set.Iic x)|
      ≤ 6e-7 * (gaussianReal μ (σ ^ 2).toNNReal).real (Set.Iic x) ∧
    |cdf x μ σ - (gaussianReal μ (σ ^ 2).toNNReal).real (Set.Iic x)| ≤ 3e-7 := by
  have e1 : cdf x μ σ = normalCdf ((x - μ) / σ) := by
    rw [← cdf_eq]
    simp only [cdf, flt]
    congr 2
    field_simp
    ring
  rw [e1, gaussian_Iic x μ hσ]
  exact normalCdf_accurate _

example : (0 : ℝ) < 25 / 3 := by norm_num

/-- The density of any normal law is exact. -/
theorem C114_normal_pdf (x μ : ℝ) {σ : ℝ} (hσ : 0 < σ) :
    pdf x μ σ = gaussianPDFReal μ (σ ^ 2).toNNReal x := by
  simp only [pdf, flt, gaussianPDFReal, Real.coe_toNNReal _ (sq_nonneg σ)]
  rw [abs_of_pos hσ, Real.sqrt_mul (by positivity) (σ ^ 2), Real.sqrt_sq hσ.le]
  congr 2
  field_simp

/-- Quantiles of any normal law are those of the standard one, shifted and scaled. -/
theorem C114_normal_quantile (p μ σ : ℝ) :
    inverseCdf p μ σ = μ + σ * inverseCdf p 0 1 := by
  simp only [inverseCdf, flt]
  ring

/-! ### C114: expected scores are win probabilities -/

/-- The expected score of two teams is the probability that the first team has the better
performance: the larger relative error is 6e-7 for the first team, the absolute error 3e-7. -/
theorem C114_trueskill_two_teams_expected (s t : List (TrueSkillRating ℝ)) (cfg : TrueSkillConfig ℝ)
    (hβ : cfg.beta ≠ 0) (hs : s ≠ []) {X N : Fin s.length ⊕ Fin t.length → Ω → ℝ}
    (h : IsContest P X N (both s t (·.rating)) (both s t (·.uncertainty ^ 2)) cfg.beta) :
    |(expectedScoreTwoTeams s t cfg).1
        - P.real {ω | 0 < lead (versus s.length t.length) X N ω}|
      ≤ 6e-7 * P.real {ω | 0 < lead (versus s.length t.length) X N ω} ∧
    |(expectedScoreTwoTeams s t cfg).1
        - P.real {ω | 0 < lead (versus s.length t.length) X N ω}| ≤ 3e-7 ∧
    |(expectedScoreTwoTeams s t cfg).2
        - P.real {ω | lead (versus s.length t.length) X N ω < 0}| ≤ 3e-7 := by
  have hv : ∀ i, 0 ≤ both s t (·.uncertainty ^ 2) i := by
    rintro (i | i) <;> simp only [both, Sum.elim_inl, Sum.elim_inr] <;> positivity
  have hc := tsC_teams_pos hβ s t hs
  have hc2 := versus_var s t (f := cfg.beta) (τ := 0) (β := cfg.beta) (by ring)
  simp only [ne_eq, OfNat.ofNat_ne_zero, not_false_eq_true, zero_pow, add_zero] at hc2
  have h1 := (h.posterior_win hv _ hc hc2 0 rfl).1
  have hc2' : tsC cfg.beta (side s) (side t) ^ 2 = ∑ i, (-versus s.length t.length i) ^ 2 *
      (both s t (·.uncertainty ^ 2) i + cfg.beta ^ 2) := by
    simp only [neg_sq]; exact hc2
  have h2 := (h.posterior_win hv (fun i => -versus s.length t.length i) hc hc2' 0 rfl).1
  have hset : {ω | 0 < lead (fun i => -versus s.length t.length i) X N ω}
      = {ω | lead (versus s.length t.length) X N ω < 0} := by
    ext ω
    simp only [Set.mem_ofPred_eq, lead_neg]
    constructor <;> intro h <;> linarith
  have hn : (∑ i, -versus s.length t.length i * both s t (·.rating) i - 0)
      / tsC cfg.beta (side s) (side t) = -(((side s).μ - (side t).μ) / tsC cfg.beta (side s) (side t)) := by
    simp only [neg_mul, Finset.sum_neg_distrib, versus_mean]; ring
  rw [hset, hn, Phi_neg] at h2
  rw [versus_mean, sub_zero] at h1
  rw [h1, h2, expectedTwo_real]
  obtain ⟨a1, a2⟩ := normalCdf_accurate (((side s).μ - (side t).μ) / tsC cfg.beta (side s) (side t))
  refine ⟨a1, a2, ?_⟩
  rw [sub_sub_sub_cancel_left, abs_sub_comm]
  exact a2

theorem duel_var (a b : TrueSkillRating ℝ) {f τ β : ℝ} (hf : f ^ 2 + τ ^ 2 = β ^ 2) :
    tsC β (solo a) (solo b) ^ 2 = ∑ i, duel i ^ 2 *
      (![a.uncertainty ^ 2 + τ ^ 2, b.uncertainty ^ 2 + τ ^ 2] i + f ^ 2) := by
  rw [tsC, Real.sq_sqrt (by simp only [solo]; positivity)]
  simp [duel, Fin.sum_univ_two, solo]
  linear_combination -2 * hf

theorem duel_mean (x y : ℝ) : ∑ i, duel i * ![x, y] i = x - y := by
  simp [duel, Fin.sum_univ_two]; ring

theorem tsC_duel_pos {β : ℝ} (hβ : β ≠ 0) (a b : TrueSkillRating ℝ) :
    0 < tsC β (solo a) (solo b) := by
  have : 0 < β ^ 2 := by positivity
  apply Real.sqrt_pos.2
  simp only [solo]
  positivity

/-- The expected score of two players is the probability that the first has the better
performance. -/
theorem C114_trueskill_expected (a b : TrueSkillRating ℝ) (cfg : TrueSkillConfig ℝ)
    (hβ : cfg.beta ≠ 0) {X N : Fin 2 → Ω → ℝ}
    (h : IsContest P X N ![a.rating, b.rating] ![a.uncertainty ^ 2, b.uncertainty ^ 2] cfg.beta) :
    |(expectedScore a b cfg).1 - P.real {ω | 0 < lead duel X N ω}|
      ≤ 6e-7 * P.real {ω | 0 < lead duel X N ω} ∧
    |(expectedScore a b cfg).1 - P.real {ω | 0 < lead duel X N ω}| ≤ 3e-7 ∧
    |(expectedScore a b cfg).2 - P.real {ω | lead duel X N ω < 0}| ≤ 3e-7 := by
  have hv : ∀ i, 0 ≤ ![a.uncertainty ^ 2, b.uncertainty ^ 2] i := by
    intro i; fin_cases i <;> simp <;> positivity
  have hc := tsC_duel_pos hβ a b
  have hc2 := duel_var a b (f := cfg.beta) (τ := 0) (β := cfg.beta) (by ring)
  simp only [ne_eq, OfNat.ofNat_ne_zero, not_false_eq_true, zero_pow, add_zero] at hc2
  have h1 := (h.posterior_win hv _ hc hc2 0 rfl).1
  have hc2' : tsC cfg.beta (solo a) (solo b) ^ 2 = ∑ i, (-duel i) ^ 2 *
      (![a.uncertainty ^ 2, b.uncertainty ^ 2] i + cfg.beta ^ 2) := by
    simp only [neg_sq]; exact hc2
  have h2 := (h.posterior_win hv (fun i => -duel i) hc hc2' 0 rfl).1
  have hset : {ω | 0 < lead (fun i => -duel i) X N ω} = {ω | lead duel X N ω < 0} := by
    ext ω
    simp only [Set.mem_ofPred_eq, lead_neg]
    constructor <;> intro h <;> linarith
  have hn : (∑ i, -duel i * ![a.rating, b.rating] i - 0) / tsC cfg.beta (solo a) (solo b)
      = -((a.rating - b.rating) / tsC cfg.beta (solo a) (solo b)) := by
    simp only [neg_mul, Finset.sum_neg_distrib, duel_mean]; ring
  rw [hset, hn, Phi_neg] at h2
  rw [duel_mean, sub_zero] at h1
  rw [h1, h2, expected_real]
  obtain ⟨a1, a2⟩ := normalCdf_accurate ((a.rating - b.rating) / tsC cfg.beta (solo a) (solo b))
  refine ⟨a1, a2, ?_⟩
  rw [sub_sub_sub_cancel_left, abs_sub_comm]
  exact a2

/-- The contest of two players exists. -/
example : cfg0.beta ≠ 0 ∧ ∃ (X N : Fin 2 → (Fin 2 ⊕ Fin 2 → ℝ) → ℝ)
    (P : Measure (Fin 2 ⊕ Fin 2 → ℝ)), IsProbabilityMeasure P ∧
      IsContest P X N ![ada.rating, eve.rating] ![ada.uncertainty ^ 2, eve.uncertainty ^ 2]
        cfg0.beta :=
  ⟨by norm_num [cfg0], exists_contest _ _ _⟩

/-- The contest of two teams exists. -/
example : cfg0.beta ≠ 0 ∧ [ada, ada] ≠ [] ∧ ∃ (X N : Fin 2 ⊕ Fin 1 → ((Fin 2 ⊕ Fin 1) ⊕ (Fin 2 ⊕ Fin 1) → ℝ) → ℝ)
    (P : Measure ((Fin 2 ⊕ Fin 1) ⊕ (Fin 2 ⊕ Fin 1) → ℝ)), IsProbabilityMeasure P ∧
      IsContest P X N (both [ada, ada] [eve] (·.rating)) (both [ada, ada] [eve] (·.uncertainty ^ 2))
        cfg0.beta :=
  ⟨by norm_num [cfg0], by simp, exists_contest _ _ _⟩

/-! ### C115: an update conditions on the result -/

/-- After a decided game, with prior variances `σ² + τ²` and a form of the day of variance
`β² - τ²`, the new ratings are the posterior means and the squares of the new uncertainties are the
posterior variances, up to the errors shown. -/
theorem C115_trueskill_decided (a b : TrueSkillRating ℝ) (cfg : TrueSkillConfig ℝ) {o : Outcomes}
    (ho : o ≠ .DRAW) (hβ : cfg.beta ≠ 0) {f : ℝ}
    (hf : f ^ 2 + cfg.dynamicsFactor ^ 2 = cfg.beta ^ 2) {X N : Fin 2 → Ω → ℝ}
    (h : IsContest P X N ![a.rating, b.rating]
      ![a.uncertainty ^ 2 + cfg.dynamicsFactor ^ 2, b.uncertainty ^ 2 + cfg.dynamicsFactor ^ 2] f)
    {ε : ℝ} (hε : ε = tsMargin cfg.drawProbability cfg.beta 2)
    {E : Set Ω} (hE : E = happened o ε (lead duel X N)) (hp : 3e-162 ≤ P.real E)
    {B : ℝ} (hB : B = 2e-6 * (1 + (|a.rating - b.rating| + |ε|) / tsC cfg.beta (solo a) (solo b)) ^ 2) :
    |(trueskill a b o cfg).1.rating - ∫ ω, X 0 ω ∂P[|E]|
      ≤ 7e-7 * |∫ ω, X 0 ω ∂P[|E] - a.rating| ∧
    |(trueskill a b o cfg).2.rating - ∫ ω, X 1 ω ∂P[|E]|
      ≤ 7e-7 * |∫ ω, X 1 ω ∂P[|E] - b.rating| ∧
    |(trueskill a b o cfg).1.uncertainty ^ 2 - Var[X 0; P[|E]]|
      ≤ B * (a.uncertainty ^ 2 + cfg.dynamicsFactor ^ 2) ∧
    |(trueskill a b o cfg).2.uncertainty ^ 2 - Var[X 1; P[|E]]|
      ≤ B * (b.uncertainty ^ 2 + cfg.dynamicsFactor ^ 2) := by
  have hv : ∀ i, 0 ≤ ![a.uncertainty ^ 2 + cfg.dynamicsFactor ^ 2,
      b.uncertainty ^ 2 + cfg.dynamicsFactor ^ 2] i := by
    intro i; fin_cases i <;> simp <;> positivity
  have hc := tsC_duel_pos hβ a b
  have hc2 := duel_var a b hf
  subst hE
  have h0 := decided_near h hv duel hc hc2 ε ho hp (j := 0) rfl
  have h1 := decided_near h hv duel hc hc2 ε ho hp (j := 1) rfl
  rw [duel_mean] at h0 h1
  rw [← hB] at h0 h1
  rw [trueskill_real]
  simp only [upd, matchV, matchW]
  simp only [solo] at *
  rw [show ((1 + 1 : ℕ)) = 2 from rfl, ← hε]
  refine ⟨?_, ?_, ?_, ?_⟩
  · have := h0.1
    rwa [show duel 0 = 1 from rfl, one_mul] at this
  · have := h1.1
    rwa [show duel 1 = -1 from rfl, neg_one_mul] at this
  · have := h0.2
    rwa [show duel 0 ^ 2 = 1 by simp [duel], one_mul] at this
  · have := h1.2
    rwa [show duel 1 ^ 2 = 1 by simp [duel], one_mul] at this

/-- After a drawn game the errors are relative to the probability of the draw. -/
theorem C115_trueskill_drawn (a b : TrueSkillRating ℝ) (cfg : TrueSkillConfig ℝ)
    (hβ : cfg.beta ≠ 0) {f : ℝ}
    (hf : f ^ 2 + cfg.dynamicsFactor ^ 2 = cfg.beta ^ 2) {X N : Fin 2 → Ω → ℝ}
    (h : IsContest P X N ![a.rating, b.rating]
      ![a.uncertainty ^ 2 + cfg.dynamicsFactor ^ 2, b.uncertainty ^ 2 + cfg.dynamicsFactor ^ 2] f)
    {ε : ℝ} (hε : ε = tsMargin cfg.drawProbability cfg.beta 2)
    {E : Set Ω} (hE : E = happened .DRAW ε (lead duel X N)) (hp : 1e-5 ≤ P.real E)
    {B : ℝ} (hB : B = 7e-7 / P.real E *
      (1 + 5 * ((|a.rating - b.rating| + ε) / tsC cfg.beta (solo a) (solo b)) ^ 2)) :
    |(trueskill a b .DRAW cfg).1.rating - ∫ ω, X 0 ω ∂P[|E]|
      ≤ 7e-7 / P.real E * |∫ ω, X 0 ω ∂P[|E] - a.rating| ∧
    |(trueskill a b .DRAW cfg).2.rating - ∫ ω, X 1 ω ∂P[|E]|
      ≤ 7e-7 / P.real E * |∫ ω, X 1 ω ∂P[|E] - b.rating| ∧
    |(trueskill a b .DRAW cfg).1.uncertainty ^ 2 - Var[X 0; P[|E]]|
      ≤ B * (a.uncertainty ^ 2 + cfg.dynamicsFactor ^ 2) ∧
    |(trueskill a b .DRAW cfg).2.uncertainty ^ 2 - Var[X 1; P[|E]]|
      ≤ B * (b.uncertainty ^ 2 + cfg.dynamicsFactor ^ 2) := by
  have hv : ∀ i, 0 ≤ ![a.uncertainty ^ 2 + cfg.dynamicsFactor ^ 2,
      b.uncertainty ^ 2 + cfg.dynamicsFactor ^ 2] i := by
    intro i; fin_cases i <;> simp <;> positivity
  have hc := tsC_duel_pos hβ a b
  have hc2 := duel_var a b hf
  subst hE
  have h0 := drawn_near h hv duel hc hc2 hp (j := 0) rfl
  have h1 := drawn_near h hv duel hc hc2 hp (j := 1) rfl
  rw [duel_mean] at h0 h1
  rw [← hB] at h0 h1
  rw [trueskill_real]
  simp only [upd, matchV, matchW]
  simp only [solo] at *
  rw [show ((1 + 1 : ℕ)) = 2 from rfl, ← hε]
  refine ⟨?_, ?_, ?_, ?_⟩
  · have := h0.1
    rwa [show duel 0 = 1 from rfl, one_mul] at this
  · have := h1.1
    rwa [show duel 1 = -1 from rfl, neg_one_mul] at this
  · have := h0.2
    rwa [show duel 0 ^ 2 = 1 by simp [duel], one_mul] at this
  · have := h1.2
    rwa [show duel 1 ^ 2 = 1 by simp [duel], one_mul] at this

/-- If the ratings are at least the draw margin apart, the errors are relative ones however improbable
the draw was. -/
theorem C115_trueskill_drawn_apart (a b : TrueSkillRating ℝ) (cfg : TrueSkillConfig ℝ)
    (hβ : cfg.beta ≠ 0) {f : ℝ}
    (hf : f ^ 2 + cfg.dynamicsFactor ^ 2 = cfg.beta ^ 2) {X N : Fin 2 → Ω → ℝ}
    (h : IsContest P X N ![a.rating, b.rating]
      ![a.uncertainty ^ 2 + cfg.dynamicsFactor ^ 2, b.uncertainty ^ 2 + cfg.dynamicsFactor ^ 2] f)
    {ε : ℝ} (hε : ε = tsMargin cfg.drawProbability cfg.beta 2)
    {E : Set Ω} (hE : E = happened .DRAW ε (lead duel X N)) (hp : 3e-162 ≤ P.real E)
    (hd : ε ≤ |a.rating - b.rating|)
    {B : ℝ} (hB : B = 6.5e-6 *
      (1 + 5 * ((|a.rating - b.rating| + ε) / tsC cfg.beta (solo a) (solo b)) ^ 2)) :
    |(trueskill a b .DRAW cfg).1.rating - ∫ ω, X 0 ω ∂P[|E]|
      ≤ 6.5e-6 * |∫ ω, X 0 ω ∂P[|E] - a.rating| ∧
    |(trueskill a b .DRAW cfg).2.rating - ∫ ω, X 1 ω ∂P[|E]|
      ≤ 6.5e-6 * |∫ ω, X 1 ω ∂P[|E] - b.rating| ∧
    |(trueskill a b .DRAW cfg).1.uncertainty ^ 2 - Var[X 0; P[|E]]|
      ≤ B * (a.uncertainty ^ 2 + cfg.dynamicsFactor ^ 2) ∧
    |(trueskill a b .DRAW cfg).2.uncertainty ^ 2 - Var[X 1; P[|E]]|
      ≤ B * (b.uncertainty ^ 2 + cfg.dynamicsFactor ^ 2) := by
  have hv : ∀ i, 0 ≤ ![a.uncertainty ^ 2 + cfg.dynamicsFactor ^ 2,
      b.uncertainty ^ 2 + cfg.dynamicsFactor ^ 2] i := by
    intro i; fin_cases i <;> simp <;> positivity
  have hc := tsC_duel_pos hβ a b
  have hc2 := duel_var a b hf
  subst hE
  have h0 := drawn_rel h hv duel hc hc2 hp (by rw [duel_mean]; exact hd) (j := 0) rfl
  have h1 := drawn_rel h hv duel hc hc2 hp (by rw [duel_mean]; exact hd) (j := 1) rfl
  rw [duel_mean] at h0 h1
  rw [← hB] at h0 h1
  rw [trueskill_real]
  simp only [upd, matchV, matchW]
  simp only [solo] at *
  rw [show ((1 + 1 : ℕ)) = 2 from rfl, ← hε]
  refine ⟨?_, ?_, ?_, ?_⟩
  · have := h0.1
    rwa [show duel 0 = 1 from rfl, one_mul] at this
  · have := h1.1
    rwa [show duel 1 = -1 from rfl, neg_one_mul] at this
  · have := h0.2
    rwa [show duel 0 ^ 2 = 1 by simp [duel], one_mul] at this
  · have := h1.2
    rwa [show duel 1 ^ 2 = 1 by simp [duel], one_mul] at this

/-- Teams after a decided game. -/
theorem C115_trueskill_two_teams_decided (s t : List (TrueSkillRating ℝ)) (cfg : TrueSkillConfig ℝ)
    {o : Outcomes} (ho : o ≠ .DRAW) (hs : s ≠ []) (ht : t ≠ []) (hβ : cfg.beta ≠ 0) {f : ℝ}
    (hf : f ^ 2 + cfg.dynamicsFactor ^ 2 = cfg.beta ^ 2)
    {X N : Fin s.length ⊕ Fin t.length → Ω → ℝ}
    (h : IsContest P X N (both s t (·.rating))
      (both s t (fun p => p.uncertainty ^ 2 + cfg.dynamicsFactor ^ 2)) f)
    {ε : ℝ} (hε : ε = tsMargin cfg.drawProbability cfg.beta (s.length + t.length))
    {E : Set Ω} (hE : E = happened o ε (lead (versus s.length t.length) X N))
    (hp : 3e-162 ≤ P.real E)
    {B : ℝ} (hB : B = 2e-6 *
      (1 + (|(side s).μ - (side t).μ| + |ε|) / tsC cfg.beta (side s) (side t)) ^ 2) :
    (∀ i : Fin s.length, ∃ p', (trueskillTwoTeams s t o cfg).1[i]? = some p' ∧
      |p'.rating - ∫ ω, X (.inl i) ω ∂P[|E]|
        ≤ 7e-7 * |∫ ω, X (.inl i) ω ∂P[|E] - s[i].rating| ∧
      |p'.uncertainty ^ 2 - Var[X (.inl i); P[|E]]|
        ≤ B * (s[i].uncertainty ^ 2 + cfg.dynamicsFactor ^ 2)) ∧
    (∀ i : Fin t.length, ∃ p', (trueskillTwoTeams s t o cfg).2[i]? = some p' ∧
      |p'.rating - ∫ ω, X (.inr i) ω ∂P[|E]|
        ≤ 7e-7 * |∫ ω, X (.inr i) ω ∂P[|E] - t[i].rating| ∧
      |p'.uncertainty ^ 2 - Var[X (.inr i); P[|E]]|
        ≤ B * (t[i].uncertainty ^ 2 + cfg.dynamicsFactor ^ 2)) := by
  have hv : ∀ i, 0 ≤ both s t (fun p => p.uncertainty ^ 2 + cfg.dynamicsFactor ^ 2) i := by
    rintro (i | i) <;> simp only [both, Sum.elim_inl, Sum.elim_inr] <;> positivity
  have hc := tsC_teams_pos hβ s t hs
  have hc2 := versus_var s t hf
  subst hE
  have hn := fun j => decided_near h hv (versus s.length t.length) hc hc2 ε ho hp (j := j)
    (s := both s t (·.uncertainty ^ 2) j) (τ := cfg.dynamicsFactor) (by cases j <;> rfl)
  simp only [versus_mean, ← hB] at hn
  rw [twoTeams_real s t o cfg hs ht]
  simp only [matchV, matchW, show (side s).n + (side t).n = s.length + t.length from rfl, ← hε]
  refine ⟨fun i => ⟨_, by simp; rfl, ?_, ?_⟩, fun i => ⟨_, by simp; rfl, ?_, ?_⟩⟩
  · have := (hn (.inl i)).1
    rw [show versus s.length t.length (.inl i) = 1 from rfl, one_mul] at this
    exact this
  · have := (hn (.inl i)).2
    rw [show versus s.length t.length (.inl i) ^ 2 = 1 by simp [versus], one_mul] at this
    exact this
  · have := (hn (.inr i)).1
    rw [show versus s.length t.length (.inr i) = -1 from rfl, neg_one_mul] at this
    exact this
  · have := (hn (.inr i)).2
    rw [show versus s.length t.length (.inr i) ^ 2 = 1 by simp [versus], one_mul] at this
    exact this

/-- Teams after a drawn game. -/
theorem C115_trueskill_two_teams_drawn (s t : List (TrueSkillRating ℝ)) (cfg : TrueSkillConfig ℝ)
    (hs : s ≠ []) (ht : t ≠ []) (hβ : cfg.beta ≠ 0) {f : ℝ}
    (hf : f ^ 2 + cfg.dynamicsFactor ^ 2 = cfg.beta ^ 2)
    {X N : Fin s.length ⊕ Fin t.length → Ω → ℝ}
    (h : IsContest P X N (both s t (·.rating))
      (both s t (fun p => p.uncertainty ^ 2 + cfg.dynamicsFactor ^ 2)) f)
    {ε : ℝ} (hε : ε = tsMargin cfg.drawProbability cfg.beta (s.length + t.length))
    {E : Set Ω} (hE : E = happened .DRAW ε (lead (versus s.length t.length) X N))
    (hp : 1e-5 ≤ P.real E)
    {B : ℝ} (hB : B = 7e-7 / P.real E *
      (1 + 5 * ((|(side s).μ - (side t).μ| + ε) / tsC cfg.beta (side s) (side t)) ^ 2)) :
    (∀ i : Fin s.length, ∃ p', (trueskillTwoTeams s t .DRAW cfg).1[i]? = some p' ∧
      |p'.rating - ∫ ω, X (.inl i) ω ∂P[|E]|
        ≤ 7e-7 / P.real E * |∫ ω, X (.inl i) ω ∂P[|E] - s[i].rating| ∧
      |p'.uncertainty ^ 2 - Var[X (.inl i); P[|E]]|
        ≤ B * (s[i].uncertainty ^ 2 + cfg.dynamicsFactor ^ 2)) ∧
    (∀ i : Fin t.length, ∃ p', (trueskillTwoTeams s t .DRAW cfg).2[i]? = some p' ∧
      |p'.rating - ∫ ω, X (.inr i) ω ∂P[|E]|
        ≤ 7e-7 / P.real E * |∫ ω, X (.inr i) ω ∂P[|E] - t[i].rating| ∧
      |p'.uncertainty ^ 2 - Var[X (.inr i); P[|E]]|
        ≤ B * (t[i].uncertainty ^ 2 + cfg.dynamicsFactor ^ 2)) := by
  have hv : ∀ i, 0 ≤ both s t (fun p => p.uncertainty ^ 2 + cfg.dynamicsFactor ^ 2) i := by
    rintro (i | i) <;> simp only [both, Sum.elim_inl, Sum.elim_inr] <;> positivity
  have hc := tsC_teams_pos hβ s t hs
  have hc2 := versus_var s t hf
  subst hE
  have hn := fun j => drawn_near h hv (versus s.length t.length) hc hc2 hp (j := j)
    (s := both s t (·.uncertainty ^ 2) j) (τ := cfg.dynamicsFactor) (by cases j <;> rfl)
  simp only [versus_mean, ← hB] at hn
  rw [twoTeams_real s t .DRAW cfg hs ht]
  simp only [matchV, matchW, show (side s).n + (side t).n = s.length + t.length from rfl, ← hε]
  refine ⟨fun i => ⟨_, by simp; rfl, ?_, ?_⟩, fun i => ⟨_, by simp; rfl, ?_, ?_⟩⟩
  · have := (hn (.inl i)).1
    rw [show versus s.length t.length (.inl i) = 1 from rfl, one_mul] at this
    exact this
  · have := (hn (.inl i)).2
    rw [show versus s.length t.length (.inl i) ^ 2 = 1 by simp [versus], one_mul] at this
    exact this
  · have := (hn (.inr i)).1
    rw [show versus s.length t.length (.inr i) = -1 from rfl, neg_one_mul] at this
    exact this
  · have := (hn (.inr i)).2
    rw [show versus s.length t.length (.inr i) ^ 2 = 1 by simp [versus], one_mul] at this
    exact this

/-! ### The hypotheses can be met -/

/-- Teams whose ratings are at least the draw margin apart. -/
theorem C115_trueskill_two_teams_drawn_apart (s t : List (TrueSkillRating ℝ)) (cfg : TrueSkillConfig ℝ)
    (hs : s ≠ []) (ht : t ≠ []) (hβ : cfg.beta ≠ 0) {f : ℝ}
    (hf : f ^ 2 + cfg.dynamicsFactor ^ 2 = cfg.beta ^ 2)
    {X N : Fin s.length ⊕ Fin t.length → Ω → ℝ}
    (h : IsContest P X N (both s t (·.rating))
      (both s t (fun p => p.uncertainty ^ 2 + cfg.dynamicsFactor ^ 2)) f)
    {ε : ℝ} (hε : ε = tsMargin cfg.drawProbability cfg.beta (s.length + t.length))
    {E : Set Ω} (hE : E = happened .DRAW ε (lead (versus s.length t.length) X N))
    (hp : 3e-162 ≤ P.real E) (hd : ε ≤ |(side s).μ - (side t).μ|)
    {B : ℝ} (hB : B = 6.5e-6 *
      (1 + 5 * ((|(side s).μ - (side t).μ| + ε) / tsC cfg.beta (side s) (side t)) ^ 2)) :
    (∀ i : Fin s.length, ∃ p', (trueskillTwoTeams s t .DRAW cfg).1[i]? = some p' ∧
      |p'.rating - ∫ ω, X (.inl i) ω ∂P[|E]|
        ≤ 6.5e-6 * |∫ ω, X (.inl i) ω ∂P[|E] - s[i].rating| ∧
      |p'.uncertainty ^ 2 - Var[X (.inl i); P[|E]]|
        ≤ B * (s[i].uncertainty ^ 2 + cfg.dynamicsFactor ^ 2)) ∧
    (∀ i : Fin t.length, ∃ p', (trueskillTwoTeams s t .DRAW cfg).2[i]? = some p' ∧
      |p'.rating - ∫ ω, X (.inr i) ω ∂P[|E]|
        ≤ 6.5e-6 * |∫ ω, X (.inr i) ω ∂P[|E] - t[i].rating| ∧
      |p'.uncertainty ^ 2 - Var[X (.inr i); P[|E]]|
        ≤ B * (t[i].uncertainty ^ 2 + cfg.dynamicsFactor ^ 2)) := by
  have hv : ∀ i, 0 ≤ both s t (fun p => p.uncertainty ^ 2 + cfg.dynamicsFactor ^ 2) i := by
    rintro (i | i) <;> simp only [both, Sum.elim_inl, Sum.elim_inr] <;> positivity
  have hc := tsC_teams_pos hβ s t hs
  have hc2 := versus_var s t hf
  subst hE
  have hn := fun j => drawn_rel h hv (versus s.length t.length) hc hc2 hp
    (by rw [versus_mean]; exact hd) (j := j)
    (s := both s t (·.uncertainty ^ 2) j) (τ := cfg.dynamicsFactor) (by cases j <;> rfl)
  simp only [versus_mean, ← hB] at hn
  rw [twoTeams_real s t .DRAW cfg hs ht]
  simp only [matchV, matchW, show (side s).n + (side t).n = s.length + t.length from rfl, ← hε]
  refine ⟨fun i => ⟨_, by simp; rfl, ?_, ?_⟩, fun i => ⟨_, by simp; rfl, ?_, ?_⟩⟩
  · have := (hn (.inl i)).1
    rw [show versus s.length t.length (.inl i) = 1 from rfl, one_mul] at this
    exact this
  · have := (hn (.inl i)).2
    rw [show versus s.length t.length (.inl i) ^ 2 = 1 by simp [versus], one_mul] at this
    exact this
  · have := (hn (.inr i)).1
    rw [show versus s.length t.length (.inr i) = -1 from rfl, neg_one_mul] at this
    exact this
  · have := (hn (.inr i)).2
    rw [show versus s.length t.length (.inr i) ^ 2 = 1 by simp [versus], one_mul] at this
    exact this

/-! ### The hypotheses can be met -/


/-- Players whose ratings differ by the draw margin: the first wins with probability one half. -/
example : ∃ (X N : Fin 2 → (Fin 2 ⊕ Fin 2 → ℝ) → ℝ) (P : Measure (Fin 2 ⊕ Fin 2 → ℝ)),
    IsProbabilityMeasure P ∧
    ∃ (f : ℝ) (a b : TrueSkillRating ℝ), f ^ 2 + cfg0.dynamicsFactor ^ 2 = cfg0.beta ^ 2 ∧
      IsContest P X N ![a.rating, b.rating] ![a.uncertainty ^ 2 + cfg0.dynamicsFactor ^ 2,
        b.uncertainty ^ 2 + cfg0.dynamicsFactor ^ 2] f ∧
      3e-162 ≤ P.real (happened .WIN (tsMargin cfg0.drawProbability cfg0.beta 2) (lead duel X N)) := by
  let a : TrueSkillRating ℝ := ⟨tsMargin cfg0.drawProbability cfg0.beta 2, 25 / 3⟩
  let b : TrueSkillRating ℝ := ⟨0, 2⟩
  obtain ⟨f, hf⟩ : ∃ f : ℝ, f ^ 2 + cfg0.dynamicsFactor ^ 2 = cfg0.beta ^ 2 :=
    ⟨√(cfg0.beta ^ 2 - cfg0.dynamicsFactor ^ 2), by
      rw [Real.sq_sqrt (by norm_num [cfg0])]; ring⟩
  obtain ⟨X, N, P, hP, h⟩ := exists_contest ![a.rating, b.rating]
    ![a.uncertainty ^ 2 + cfg0.dynamicsFactor ^ 2, b.uncertainty ^ 2 + cfg0.dynamicsFactor ^ 2] f
  refine ⟨X, N, P, hP, f, a, b, hf, h, ?_⟩
  have hv : ∀ i, 0 ≤ ![a.uncertainty ^ 2 + cfg0.dynamicsFactor ^ 2,
      b.uncertainty ^ 2 + cfg0.dynamicsFactor ^ 2] i := by
    intro i; fin_cases i <;> simp <;> positivity
  have hβ : cfg0.beta ≠ 0 := by norm_num [cfg0]
  have := (h.posterior_win hv duel (tsC_duel_pos hβ a b) (duel_var a b hf)
    (tsMargin cfg0.drawProbability cfg0.beta 2) rfl).1
  rw [duel_mean] at this
  simp only [happened]
  rw [this]
  simp only [a, b, sub_zero, sub_self, zero_div, Phi_zero]
  norm_num

/-- Equal players draw with a probability above `1e-5`. -/
example : ∃ (X N : Fin 2 → (Fin 2 ⊕ Fin 2 → ℝ) → ℝ) (P : Measure (Fin 2 ⊕ Fin 2 → ℝ)),
    IsProbabilityMeasure P ∧
    ∃ (f : ℝ), f ^ 2 + cfg0.dynamicsFactor ^ 2 = cfg0.beta ^ 2 ∧
      IsContest P X N ![ada.rating, ada.rating] ![ada.uncertainty ^ 2 + cfg0.dynamicsFactor ^ 2,
        ada.uncertainty ^ 2 + cfg0.dynamicsFactor ^ 2] f ∧
      1e-5 ≤ P.real (happened .DRAW (tsMargin cfg0.drawProbability cfg0.beta 2) (lead duel X N)) := by
  obtain ⟨f, hf⟩ : ∃ f : ℝ, f ^ 2 + cfg0.dynamicsFactor ^ 2 = cfg0.beta ^ 2 :=
    ⟨√(cfg0.beta ^ 2 - cfg0.dynamicsFactor ^ 2), by
      rw [Real.sq_sqrt (by norm_num [cfg0])]; ring⟩
  obtain ⟨X, N, P, hP, h⟩ := exists_contest ![ada.rating, ada.rating]
    ![ada.uncertainty ^ 2 + cfg0.dynamicsFactor ^ 2, ada.uncertainty ^ 2 + cfg0.dynamicsFactor ^ 2] f
  refine ⟨X, N, P, hP, f, hf, h, ?_⟩
  have hv : ∀ i, 0 ≤ ![ada.uncertainty ^ 2 + cfg0.dynamicsFactor ^ 2,
      ada.uncertainty ^ 2 + cfg0.dynamicsFactor ^ 2] i := by
    intro i; fin_cases i <;> simp <;> positivity
  have hβ : cfg0.beta ≠ 0 := by norm_num [cfg0]
  have hm := margin_tenth (β := cfg0.beta) (by norm_num [cfg0])
  have hm0 : 0 < tsMargin cfg0.drawProbability cfg0.beta 2 :=
    lt_of_lt_of_le (by norm_num [cfg0]) hm.1
  have hc := tsC_duel_pos hβ ada ada
  have := (h.posterior_draw hv duel hc (duel_var ada ada hf) hm0 rfl rfl).1
  rw [duel_mean, sub_self, zero_div, sub_zero, sub_zero] at this
  simp only [happened]
  rw [this]
  have hcc : tsC cfg0.beta (solo ada) (solo ada) ≤ 20 := by
    rw [tsC]
    apply Real.sqrt_le_iff.2
    norm_num [cfg0, solo, ada]
  have he : 0.01 ≤ tsMargin cfg0.drawProbability cfg0.beta 2 / tsC cfg0.beta (solo ada) (solo ada) := by
    rw [le_div_iff₀ hc]
    refine le_trans ?_ hm.1
    norm_num [cfg0] at hcc ⊢
    linarith
  set e := tsMargin cfg0.drawProbability cfg0.beta 2 / tsC cfg0.beta (solo ada) (solo ada)
  have h1 : Phi 0.01 ≤ Phi e := Phi_strictMono.monotone he
  have h2 : Phi (-e) ≤ 1 / 2 := Phi_zero ▸ Phi_strictMono.monotone (by norm_num at he ⊢; linarith)
  have h3 : 1e-5 ≤ Phi 0.01 - Phi 0 := by
    rw [Phi_sub]
    have hle : ∀ x ∈ Set.Icc (0 : ℝ) 0.01, (0.1 : ℝ) ≤ normalPdf x := by
      intro x hx
      rw [normalPdf, le_div_iff₀ (by positivity)]
      have e1 : 1 - 0.5 ≤ exp (-x ^ 2 / 2) := by
        refine le_trans ?_ (Real.add_one_le_exp _)
        have : x ^ 2 ≤ 1 := by
          have h5 : x ≤ 1 := hx.2.trans (by norm_num)
          nlinarith [hx.1]
        linarith
      have e2 : √(2 * π) ≤ 5 := by
        apply Real.sqrt_le_iff.2
        have := Real.pi_le_four
        constructor <;> linarith
      linarith
    have := intervalIntegral.integral_mono_on (a := (0 : ℝ)) (b := 0.01) 
      (μ := volume) (f := fun _ => (0.1 : ℝ)) (by norm_num)
      intervalIntegrable_const (continuous_normalPdf.intervalIntegrable _ _) hle
    rw [intervalIntegral.integral_const] at this
    norm_num at this ⊢
    linarith
  rw [Phi_zero] at h3
  linarith

/-- The probability of a draw between players of very different strength. -/
theorem window_far {t e : ℝ} (he : 0.01 ≤ e) (ht0 : 0 ≤ t) (ht : t ≤ 4) :
    (1e-7 : ℝ) ≤ Phi (e - t) - Phi (-e - t) := by
  have hpdf : ∀ x ∈ Set.Icc (-t) (0.01 - t), (1e-5 : ℝ) ≤ normalPdf x := by
    intro x hx
    have hx2 : x ^ 2 ≤ 16 := by
      have := hx.1; have := hx.2
      norm_num at *
      nlinarith
    rw [normalPdf, le_div_iff₀ (by positivity)]
    have e2 : √(2 * π) ≤ 3 := by
      apply Real.sqrt_le_iff.2
      have := Real.pi_le_four
      constructor <;> linarith
    have e3 : exp (-8) ≤ exp (-x ^ 2 / 2) := Real.exp_le_exp.2 (by linarith)
    have e4 : (0.36 : ℝ) ^ 8 ≤ exp (-1) ^ 8 := by
      have := Real.exp_neg_one_gt_d9
      gcongr
      norm_num at this ⊢; linarith
    rw [← Real.exp_nat_mul, show ((8 : ℕ) : ℝ) * -1 = -8 by norm_num] at e4
    have e5 := e4.trans e3
    generalize exp (-x ^ 2 / 2) = q at e5 ⊢
    generalize √(2 * π) = q' at e2 ⊢
    norm_num at e5 ⊢
    linarith
  have k := le_of_deriv (f := fun z => Phi z - 1e-5 * z) (f' := fun z => normalPdf z - 1e-5 * 1)
    (show -t ≤ 0.01 - t by linarith) (fun z _ => (hasDerivAt_Phi z).sub ((hasDerivAt_id z).const_mul _))
    (fun z hz => by linarith [hpdf z hz])
  have h1 := Phi_strictMono.monotone (show 0.01 - t ≤ e - t by linarith)
  have h2 := Phi_strictMono.monotone (show -e - t ≤ -t by norm_num at he; linarith)
  have k' : Phi (-t) - 1e-5 * (-t) ≤ Phi (0.01 - t) - 1e-5 * (0.01 - t) := k
  have k2 : (1e-5 : ℝ) * 0.01 = 1e-7 := by norm_num
  linarith

/-- Players whose ratings are forty apart draw with a small but positive probability. -/
example : let a : TrueSkillRating ℝ := ⟨45, 25 / 3⟩
    let b : TrueSkillRating ℝ := ⟨5, 25 / 3⟩
    ∃ (X N : Fin 2 → (Fin 2 ⊕ Fin 2 → ℝ) → ℝ) (P : Measure (Fin 2 ⊕ Fin 2 → ℝ)),
    IsProbabilityMeasure P ∧
    ∃ (f : ℝ), f ^ 2 + cfg0.dynamicsFactor ^ 2 = cfg0.beta ^ 2 ∧
      IsContest P X N ![a.rating, b.rating] ![a.uncertainty ^ 2 + cfg0.dynamicsFactor ^ 2,
        b.uncertainty ^ 2 + cfg0.dynamicsFactor ^ 2] f ∧
      3e-162 ≤ P.real (happened .DRAW (tsMargin cfg0.drawProbability cfg0.beta 2) (lead duel X N)) ∧
      tsMargin cfg0.drawProbability cfg0.beta 2 ≤ |a.rating - b.rating| := by
  intro a b
  obtain ⟨f, hf⟩ : ∃ f : ℝ, f ^ 2 + cfg0.dynamicsFactor ^ 2 = cfg0.beta ^ 2 :=
    ⟨√(cfg0.beta ^ 2 - cfg0.dynamicsFactor ^ 2), by
      rw [Real.sq_sqrt (by norm_num [cfg0])]; ring⟩
  obtain ⟨X, N, P, hP, h⟩ := exists_contest ![a.rating, b.rating]
    ![a.uncertainty ^ 2 + cfg0.dynamicsFactor ^ 2, b.uncertainty ^ 2 + cfg0.dynamicsFactor ^ 2] f
  have hm := margin_tenth (β := cfg0.beta) (by norm_num [cfg0])
  have hm0 : 0 < tsMargin cfg0.drawProbability cfg0.beta 2 :=
    lt_of_lt_of_le (by norm_num [cfg0]) hm.1
  refine ⟨X, N, P, hP, f, hf, h, ?_, hm.2.trans (by norm_num [cfg0, a, b])⟩
  have hv : ∀ i, 0 ≤ ![a.uncertainty ^ 2 + cfg0.dynamicsFactor ^ 2,
      b.uncertainty ^ 2 + cfg0.dynamicsFactor ^ 2] i := by
    intro i; fin_cases i <;> simp <;> positivity
  have hβ : cfg0.beta ≠ 0 := by norm_num [cfg0]
  have hc := tsC_duel_pos hβ a b
  have := (h.posterior_draw hv duel hc (duel_var a b hf) hm0 rfl rfl).1
  rw [duel_mean] at this
  simp only [happened]
  rw [this]
  have hcc : tsC cfg0.beta (solo a) (solo b) ≤ 20 := by
    rw [tsC]
    apply Real.sqrt_le_iff.2
    norm_num [cfg0, solo, a, b]
  have hcl : 13 ≤ tsC cfg0.beta (solo a) (solo b) := by
    rw [tsC]
    apply Real.le_sqrt_of_sq_le
    norm_num [cfg0, solo, a, b]
  have he : 0.01 ≤ tsMargin cfg0.drawProbability cfg0.beta 2 / tsC cfg0.beta (solo a) (solo b) := by
    rw [le_div_iff₀ hc]
    refine le_trans ?_ hm.1
    norm_num [cfg0] at hcc ⊢
    linarith
  have ht : (a.rating - b.rating) / tsC cfg0.beta (solo a) (solo b) ≤ 4 := by
    rw [div_le_iff₀ hc]; norm_num [a, b]; linarith
  have ht0 : 0 ≤ (a.rating - b.rating) / tsC cfg0.beta (solo a) (solo b) :=
    div_nonneg (by norm_num [a, b]) hc.le
  generalize (a.rating - b.rating) / tsC cfg0.beta (solo a) (solo b) = t at *
  generalize tsMargin cfg0.drawProbability cfg0.beta 2 / tsC cfg0.beta (solo a) (solo b) = e at *
  exact le_trans (by norm_num) (window_far he ht0 ht)

end
end Skillratings.TrueSkill
