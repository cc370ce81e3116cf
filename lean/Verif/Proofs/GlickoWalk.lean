import Verif.Spec.Career
import Verif.Proofs.GlickoCareer
import Verif.Props.Glicko
/-
Endless rating periods in Glicko, seen as a random walk of the rating.
-/
namespace Skillratings.Glicko
open Spec MeasureTheory Filter
open Real (sqrt sigmoid)
open scoped Topology

variable {Ω : Type} [m0 : MeasurableSpace Ω]

theorem points_abs (o : Outcomes) : |points o| ≤ 1 := by
  cases o <;> norm_num [points, abs_le]

theorem surprise_abs (o : Outcomes) (r rj rdj : ℝ) :
    |glickoG rdj * (points o - glickoE r rj rdj)| ≤ 1 := by
  have h1 := glickoE_pos r rj rdj
  have h2 := glickoE_lt_one r rj rdj
  have h3 := glickoG_pos rdj
  have h4 := glickoG_le_one rdj
  have h5 : |points o - glickoE r rj rdj| ≤ 1 := by
    rw [abs_le]
    cases o <;> simp only [points] <;> constructor <;> linarith
  rw [abs_mul, abs_of_pos h3]
  exact mul_le_one₀ h4 (abs_nonneg _) h5

theorem misjudged_abs (θ r rj rdj : ℝ) :
    |glickoG rdj * (glickoE θ rj rdj - glickoE r rj rdj)| ≤ 1 := by
  have h1 := glickoE_pos r rj rdj
  have h2 := glickoE_lt_one r rj rdj
  have h1' := glickoE_pos θ rj rdj
  have h2' := glickoE_lt_one θ rj rdj
  have h3 := glickoG_pos rdj
  have h4 := glickoG_le_one rdj
  have h5 : |glickoE θ rj rdj - glickoE r rj rdj| ≤ 1 := by
    rw [abs_le]; constructor <;> linarith
  rw [abs_mul, abs_of_pos h3]
  exact mul_le_one₀ h4 (abs_nonneg _) h5

theorem expectedScore_certain (θ : ℝ) (b : GlickoRating ℝ) :
    (expectedScore ⟨θ, 0⟩ b).1 = glickoE θ b.rating b.deviation := by
  rw [expectedScore_real]
  simp only [ne_eq, OfNat.ofNat_ne_zero, not_false_eq_true, zero_pow, zero_add]
  have : glickoG √(b.deviation ^ 2) = glickoG b.deviation := by
    unfold glickoG; rw [Real.sq_sqrt (sq_nonneg _)]
  rw [glickoE, glickoE, this]

theorem fin_sum_abs {k M : ℕ} (hk : k ≤ M) (f : Fin k → ℝ) (hf : ∀ i, |f i| ≤ 1) :
    |∑ i, f i| ≤ M := by
  calc |∑ i, f i| ≤ ∑ i, |f i| := Finset.abs_sum_le_sum_abs _ _
    _ ≤ ∑ _i : Fin k, (1 : ℝ) := Finset.sum_le_sum fun i _ => hf i
    _ = k := by simp
    _ ≤ M := by exact_mod_cast hk

/-! ### The walk -/

section
variable {P : Measure Ω} [IsProbabilityMeasure P] {past : Filtration ℕ m0}
  {p : GlickoRating ℝ} {θ D S : ℝ} {k : ℕ → ℕ} {M : ℕ} {a : ℕ → Ω → GlickoRating ℝ}
  {b : ∀ n, Fin (k n) → Ω → GlickoRating ℝ} {o : ∀ n, Fin (k n) → Ω → Outcomes}

/-- The player's variance at the beginning of a period. -/
noncomputable def onsetVar (a : ℕ → Ω → GlickoRating ℝ) (n : ℕ) (ω : Ω) : ℝ :=
  glickoOnset (a n ω).deviation 0 ^ 2

/-- The information of the games of a period. -/
noncomputable def infoOf (a : ℕ → Ω → GlickoRating ℝ) (b : ∀ n, Fin (k n) → Ω → GlickoRating ℝ)
    (n : ℕ) (ω : Ω) : ℝ :=
  ∑ i, glickoInfo (a n ω).rating (b n i ω).rating (b n i ω).deviation

/-- The player's variance after a period. -/
noncomputable def newVar (a : ℕ → Ω → GlickoRating ℝ) (b : ∀ n, Fin (k n) → Ω → GlickoRating ℝ)
    (n : ℕ) (ω : Ω) : ℝ := posterior (onsetVar a n ω) (infoOf a b n ω)

/-- By how much the scores of a period fall short of those expected, on average. -/
noncomputable def misjudged (θ : ℝ) (a : ℕ → Ω → GlickoRating ℝ)
    (b : ∀ n, Fin (k n) → Ω → GlickoRating ℝ) (n : ℕ) (ω : Ω) : ℝ :=
  ∑ i, glickoG (b n i ω).deviation
    * (glickoE θ (b n i ω).rating (b n i ω).deviation
      - glickoE (a n ω).rating (b n i ω).rating (b n i ω).deviation)

/-- Facts about the walk that hold on each path. -/
structure Walk (p : GlickoRating ℝ) (k : ℕ → ℕ) (M : ℕ) (a : ℕ → Ω → GlickoRating ℝ)
    (b : ∀ n, Fin (k n) → Ω → GlickoRating ℝ) (o : ∀ n, Fin (k n) → Ω → Outcomes) : Prop where
  start : ∀ ω, a 0 ω = p
  uncertain : 0 < p.deviation
  games : ∀ n, 0 < k n ∧ k n ≤ M
  step : ∀ n ω, a (n + 1) ω
    = glickoRatingPeriod (a n ω) (List.ofFn fun i => (b n i ω, o n i ω)) ⟨0⟩

namespace Walk

theorem rating_succ (w : Walk p k M a b o) (n : ℕ) (ω : Ω) :
    (a (n + 1) ω).rating = (a n ω).rating + glickoQ * newVar a b n ω
      * ∑ i, glickoG (b n i ω).deviation * (points (o n i ω)
        - glickoE (a n ω).rating (b n i ω).rating (b n i ω).deviation) := by
  rw [w.step n ω, period_ofFn _ (w.games n).1]; rfl

theorem deviation_succ (w : Walk p k M a b o) (n : ℕ) (ω : Ω) :
    (a (n + 1) ω).deviation = √(newVar a b n ω) := by
  rw [w.step n ω, period_ofFn _ (w.games n).1]; rfl

theorem info_pos (w : Walk p k M a b o) (n : ℕ) (ω : Ω) : 0 < infoOf a b n ω := by
  have : Nonempty (Fin (k n)) := ⟨⟨0, (w.games n).1⟩⟩
  exact Finset.sum_pos (fun i _ => glickoInfo_pos _ _ _) Finset.univ_nonempty

theorem deviation_pos (w : Walk p k M a b o) (n : ℕ) (ω : Ω) : 0 < (a n ω).deviation := by
  induction n with
  | zero => rw [w.start]; exact w.uncertain
  | succ n ih =>
    rw [w.deviation_succ]
    have := glickoOnset_pos (0 : ℝ) ih
    exact Real.sqrt_pos.2 (posterior_pos (by unfold onsetVar; positivity) (w.info_pos n ω).le)

theorem onsetVar_pos (w : Walk p k M a b o) (n : ℕ) (ω : Ω) : 0 < onsetVar a n ω := by
  have := glickoOnset_pos (0 : ℝ) (w.deviation_pos n ω)
  unfold onsetVar; positivity

theorem onsetVar_le (w : Walk p k M a b o) (n : ℕ) (ω : Ω) : onsetVar a n ω ≤ 350 ^ 2 :=
  pow_le_pow_left₀ (glickoOnset_pos (0 : ℝ) (w.deviation_pos n ω)).le (glickoOnset_le _ _) 2

theorem newVar_pos (w : Walk p k M a b o) (n : ℕ) (ω : Ω) : 0 < newVar a b n ω :=
  posterior_pos (w.onsetVar_pos n ω) (w.info_pos n ω).le

theorem newVar_le (w : Walk p k M a b o) (n : ℕ) (ω : Ω) : newVar a b n ω ≤ onsetVar a n ω :=
  posterior_le (w.onsetVar_pos n ω) (w.info_pos n ω).le

theorem onsetVar_succ (w : Walk p k M a b o) (n : ℕ) (ω : Ω) :
    onsetVar a (n + 1) ω = newVar a b n ω := by
  have h1 := w.newVar_pos n ω
  have h2 := (w.newVar_le n ω).trans (w.onsetVar_le n ω)
  have h3 : √(newVar a b n ω) ≤ 350 := by
    rw [Real.sqrt_le_iff]; exact ⟨by norm_num, h2⟩
  rw [onsetVar, w.deviation_succ, glickoOnset, Real.sq_sqrt h1.le, zero_pow two_ne_zero, add_zero,
    min_eq_left h3, Real.sq_sqrt h1.le]

theorem info_le (w : Walk p k M a b o) (n : ℕ) (ω : Ω) :
    infoOf a b n ω ≤ M * (glickoQ ^ 2 / 4) := by
  calc infoOf a b n ω ≤ ∑ _i : Fin (k n), glickoQ ^ 2 / 4 :=
        Finset.sum_le_sum fun i _ => Skillratings.info_le _ _ _
    _ = k n * (glickoQ ^ 2 / 4) := by simp
    _ ≤ M * (glickoQ ^ 2 / 4) := by
        have : (k n : ℝ) ≤ M := by exact_mod_cast (w.games n).2
        gcongr

/-- The information of a period in which an opponent is within reach. -/
theorem info_ge (w : Walk p k M a b o) {n : ℕ} {ω : Ω} {L : ℝ}
    (hL : ∀ i, |(a n ω).rating - (b n i ω).rating| ≤ L) (hS : ∀ i, |(b n i ω).deviation| ≤ S) :
    glickoInfo L 0 0 * glickoG S ^ 2 ≤ infoOf a b n ω := by
  have i0 : Fin (k n) := ⟨0, (w.games n).1⟩
  refine (Glicko.info_ge (hL i0) (hS i0)).trans ?_
  exact Finset.single_le_sum
    (f := fun i => glickoInfo (a n ω).rating (b n i ω).rating (b n i ω).deviation)
    (fun i _ => (glickoInfo_pos _ _ _).le) (Finset.mem_univ i0)

/-- The variance does not fall faster than like `1/n`. -/
theorem newVar_ge (w : Walk p k M a b o) (n : ℕ) (ω : Ω) :
    1 / (1 / glickoOnset p.deviation 0 ^ 2 + (n + 1) * (M * (glickoQ ^ 2 / 4)))
      ≤ newVar a b n ω := by
  have key : ∀ n, 1 / newVar a b n ω
      ≤ 1 / glickoOnset p.deviation 0 ^ 2 + (n + 1) * (M * (glickoQ ^ 2 / 4)) := by
    intro n
    have hp : ∀ n, 1 / newVar a b n ω = 1 / onsetVar a n ω + infoOf a b n ω := fun n => by
      rw [newVar, posterior, one_div_one_div]
    induction n with
    | zero =>
      rw [hp, onsetVar, w.start]
      have := w.info_le 0 ω
      simpa using this
    | succ n ih =>
      rw [hp, w.onsetVar_succ]
      have := w.info_le (n + 1) ω
      push_cast; linarith
  have := one_div_le_one_div_of_le (one_div_pos.2 (w.newVar_pos n ω)) (key n)
  rwa [one_div_one_div] at this

/-- The pull of a period. -/
theorem misjudged_pull (w : Walk p k M a b o) {n : ℕ} {ω : Ω} {ε : ℝ} (hε : 0 ≤ ε)
    (hD : ∀ i, |(b n i ω).rating - θ| ≤ D) (hS : ∀ i, |(b n i ω).deviation| ≤ S)
    (h : ε ≤ |(a n ω).rating - θ|) :
    glickoG S * pull D S ε * |(a n ω).rating - θ|
      ≤ -(((a n ω).rating - θ) * misjudged θ a b n ω) := by
  have i0 : Fin (k n) := ⟨0, (w.games n).1⟩
  have e : -(((a n ω).rating - θ) * misjudged θ a b n ω)
      = ∑ i, glickoG (b n i ω).deviation
        * ((glickoE (a n ω).rating (b n i ω).rating (b n i ω).deviation
          - glickoE θ (b n i ω).rating (b n i ω).deviation) * ((a n ω).rating - θ)) := by
    rw [misjudged, Finset.mul_sum, ← Finset.sum_neg_distrib]
    refine Finset.sum_congr rfl fun i _ => ?_
    ring
  rw [e]
  have h1 := pulled (hD i0) (hS i0) hε h
  have h2 := glickoG_antitone (hS i0)
  have h3 := glickoG_pos S
  have h4 : 0 ≤ pull D S ε * |(a n ω).rating - θ| := by
    refine mul_nonneg ?_ (abs_nonneg _)
    rcases hε.eq_or_lt with rfl | h0
    · simp [pull]
    · exact (pull_pos D S h0).le
  calc glickoG S * pull D S ε * |(a n ω).rating - θ|
      = glickoG S * (pull D S ε * |(a n ω).rating - θ|) := by ring
    _ ≤ glickoG (b n i0 ω).deviation
        * ((glickoE (a n ω).rating (b n i0 ω).rating (b n i0 ω).deviation
          - glickoE θ (b n i0 ω).rating (b n i0 ω).deviation) * ((a n ω).rating - θ)) :=
        mul_le_mul h2 h1 h4 (glickoG_pos _).le
    _ ≤ _ := Finset.single_le_sum (f := fun i => glickoG (b n i ω).deviation
        * ((glickoE (a n ω).rating (b n i ω).rating (b n i ω).deviation
          - glickoE θ (b n i ω).rating (b n i ω).deviation) * ((a n ω).rating - θ)))
        (fun i _ => mul_nonneg (glickoG_pos _).le (pulled_nonneg _ _ _ _)) (Finset.mem_univ i0)

theorem misjudged_nonneg (w : Walk p k M a b o) (θ : ℝ) (n : ℕ) (ω : Ω) :
    0 ≤ -(((a n ω).rating - θ) * misjudged θ a b n ω) := by
  have e : -(((a n ω).rating - θ) * misjudged θ a b n ω)
      = ∑ i, glickoG (b n i ω).deviation
        * ((glickoE (a n ω).rating (b n i ω).rating (b n i ω).deviation
          - glickoE θ (b n i ω).rating (b n i ω).deviation) * ((a n ω).rating - θ)) := by
    rw [misjudged, Finset.mul_sum, ← Finset.sum_neg_distrib]
    refine Finset.sum_congr rfl fun i _ => ?_
    ring
  rw [e]
  exact Finset.sum_nonneg fun i _ => mul_nonneg (glickoG_pos _).le (pulled_nonneg _ _ _ _)

/-! ### Measurability of the walk -/

theorem adapted (w : Walk p k M a b o)
    (h : Career P past (·.rating) (·.deviation) (fun b => (expectedScore ⟨θ, 0⟩ b).1) θ D S k b o)
    (n : ℕ) : Measurable[past n] (fun ω => (a n ω).rating) ∧
      Measurable[past n] (fun ω => (a n ω).deviation) := by
  induction n with
  | zero =>
    simp only [w.start]
    exact ⟨measurable_const, measurable_const⟩
  | succ n ih =>
    have hle : past n ≤ past (n + 1) := past.mono n.le_succ
    have hr : Measurable[past (n + 1)] (fun ω => (a n ω).rating) := ih.1.mono hle le_rfl
    have hd : Measurable[past (n + 1)] (fun ω => (a n ω).deviation) := ih.2.mono hle le_rfl
    have hb : ∀ i, Measurable[past (n + 1)] (fun ω => (b n i ω).rating) :=
      fun i => (h.opponent n i).mono hle le_rfl
    have hv : ∀ i, Measurable[past (n + 1)] (fun ω => (b n i ω).deviation) :=
      fun i => (h.uncertainty n i).mono hle le_rfl
    have ho := h.result n
    have hn : Measurable[past (n + 1)] (fun ω => newVar a b n ω) := by
      letI := past (n + 1)
      unfold newVar onsetVar infoOf
      exact measurable_posterior ((measurable_glickoOnset hd 0).pow_const 2)
        (Finset.measurable_fun_sum _ fun i _ => measurable_glickoInfo hr (hb i) (hv i))
    constructor
    · have e : (fun ω => (a (n + 1) ω).rating) = fun ω => _ := funext fun ω => w.rating_succ n ω
      rw [e]
      letI := past (n + 1)
      exact hr.add ((hn.const_mul _).mul (Finset.measurable_fun_sum _ fun i _ =>
        (measurable_glickoG (hv i)).mul ((ho i).sub (measurable_glickoE hr (hb i) (hv i)))))
    · have e : (fun ω => (a (n + 1) ω).deviation) = fun ω => _ :=
        funext fun ω => w.deviation_succ n ω
      rw [e]
      letI := past (n + 1)
      exact hn.sqrt

end Walk
end
end Skillratings.Glicko
