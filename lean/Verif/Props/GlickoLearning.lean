import Mathlib.Analysis.PSeries
import Verif.Proofs.GlickoWalk
import Verif.Proofs.CoinTosses
/-
C139: the Glicko rating of a player with a true strength tends to it.
-/
namespace Skillratings.Glicko
open Spec MeasureTheory Filter
open Real (sqrt sigmoid)
open scoped Topology

variable {Ω : Type} [m0 : MeasurableSpace Ω]
  {P : Measure Ω} [IsProbabilityMeasure P] {past : Filtration ℕ m0}
  {p : GlickoRating ℝ} {θ D S : ℝ} {k : ℕ → ℕ} {M : ℕ} {a : ℕ → Ω → GlickoRating ℝ}
  {b : ∀ n, Fin (k n) → Ω → GlickoRating ℝ} {o : ∀ n, Fin (k n) → Ω → Outcomes}

namespace Walk

/-- How far from the true strength the pull certainly outweighs the noise. -/
noncomputable def reach (D S : ℝ) (M : ℕ) : ℝ :=
  1 + glickoQ * 350 ^ 2 * M ^ 2 / (glickoG S * pull D S 1)

/-- A bound for the sum of the noise that the pull does not outweigh. -/
noncomputable def noise (D S : ℝ) (M : ℕ) : ℝ :=
  (glickoQ * M) ^ 2 / (glickoInfo (reach D S M + D) 0 0 * glickoG S ^ 2)

theorem var_ratio (w : Walk p k M a b o) (hD : ∀ n i ω, |(b n i ω).rating - θ| ≤ D)
    (hS : ∀ n i ω, |(b n i ω).deviation| ≤ S) (n : ℕ) (ω : Ω) :
    max ((glickoQ * newVar a b n ω * M) ^ 2
        - -(((a n ω).rating - θ) * (glickoQ * newVar a b n ω * misjudged θ a b n ω))) 0
      ≤ noise D S M * (onsetVar a n ω - newVar a b n ω) := by
  have hq := glickoQ_pos
  have hv := w.newVar_pos n ω
  have hg := glickoG_pos S
  have hp := pull_pos D S one_pos
  have hI : 0 < glickoInfo (reach D S M + D) 0 0 * glickoG S ^ 2 := by
    have := glickoInfo_pos (reach D S M + D) 0 0
    positivity
  have hle := w.newVar_le n ω
  have hv350 := hle.trans (w.onsetVar_le n ω)
  have hm := w.misjudged_nonneg θ n ω
  have e : -(((a n ω).rating - θ) * (glickoQ * newVar a b n ω * misjudged θ a b n ω))
      = glickoQ * newVar a b n ω * -(((a n ω).rating - θ) * misjudged θ a b n ω) := by ring
  have hc : 0 ≤ noise D S M := by unfold noise; positivity
  refine max_le ?_ (mul_nonneg hc (by linarith))
  rw [e]
  rcases le_total (reach D S M) |(a n ω).rating - θ| with h | h
  · have h1 : (1 : ℝ) ≤ reach D S M := by
      rw [reach]
      have : 0 ≤ glickoQ * 350 ^ 2 * M ^ 2 / (glickoG S * pull D S 1) := by positivity
      linarith
    have h2 := w.misjudged_pull zero_le_one (fun i => hD n i ω) (fun i => hS n i ω) (h1.trans h)
    have h3 : glickoQ * 350 ^ 2 * M ^ 2 ≤ glickoG S * pull D S 1 * |(a n ω).rating - θ| := by
      have h4 : glickoQ * 350 ^ 2 * M ^ 2 / (glickoG S * pull D S 1) ≤ |(a n ω).rating - θ| := by
        rw [reach] at h; linarith
      rw [div_le_iff₀ (by positivity)] at h4
      exact h4.trans_eq (mul_comm _ _)
    have h5 : (glickoQ * newVar a b n ω * M) ^ 2
        ≤ glickoQ * newVar a b n ω * -(((a n ω).rating - θ) * misjudged θ a b n ω) := by
      calc (glickoQ * newVar a b n ω * M) ^ 2
          = glickoQ * newVar a b n ω * (glickoQ * newVar a b n ω * M ^ 2) := by ring
        _ ≤ glickoQ * newVar a b n ω * (glickoQ * 350 ^ 2 * M ^ 2) := by gcongr
        _ ≤ _ := mul_le_mul_of_nonneg_left (h3.trans h2) (by positivity)
    have h6 : 0 ≤ noise D S M * (onsetVar a n ω - newVar a b n ω) :=
      mul_nonneg hc (by linarith)
    linarith
  · have h1 := w.info_ge (S := S) (L := reach D S M + D) (n := n) (ω := ω) (fun i => by
      have := abs_sub_le (a n ω).rating θ (b n i ω).rating
      have h2 := hD n i ω
      rw [abs_sub_comm] at h2
      linarith) (fun i => hS n i ω)
    have h2 := posterior_sq (w.onsetVar_pos n ω) hI h1
    have h3 : 0 ≤ glickoQ * newVar a b n ω * -(((a n ω).rating - θ) * misjudged θ a b n ω) := by
      positivity
    have h4 : (glickoQ * newVar a b n ω * M) ^ 2
        ≤ noise D S M * (onsetVar a n ω - newVar a b n ω) := by
      calc (glickoQ * newVar a b n ω * M) ^ 2
          = (glickoQ * M) ^ 2 * newVar a b n ω ^ 2 := by ring
        _ ≤ (glickoQ * M) ^ 2 * ((onsetVar a n ω - newVar a b n ω)
            / (glickoInfo (reach D S M + D) 0 0 * glickoG S ^ 2)) :=
            mul_le_mul_of_nonneg_left h2 (by positivity)
        _ = _ := by rw [noise]; ring
    linarith

theorem noise_sum (w : Walk p k M a b o) (C : ℝ) (hC : 0 ≤ C) (n : ℕ) (ω : Ω) :
    ∑ j ∈ Finset.range n, C * (onsetVar a j ω - newVar a b j ω) ≤ C * 350 ^ 2 := by
  rw [← Finset.mul_sum]
  refine mul_le_mul_of_nonneg_left ?_ hC
  have e : ∑ j ∈ Finset.range n, (onsetVar a j ω - newVar a b j ω)
      = onsetVar a 0 ω - onsetVar a n ω := by
    simp_rw [← w.onsetVar_succ]
    exact Finset.sum_range_sub' (fun j => onsetVar a j ω) n
  rw [e]
  linarith [w.onsetVar_pos n ω, w.onsetVar_le 0 ω]

theorem drifting (w : Walk p k M a b o)
    (h : Career P past (·.rating) (·.deviation) (fun b => (expectedScore ⟨θ, 0⟩ b).1) θ D S k b o) :
    Drifting P past (fun n ω => (a n ω).rating)
      (fun n ω => glickoQ * newVar a b n ω * misjudged θ a b n ω)
      (fun n ω => (glickoQ * newVar a b n ω * M) ^ 2)
      (fun n ω => -(((a n ω).rating - θ) * (glickoQ * newVar a b n ω * misjudged θ a b n ω)))
      (fun n ω => max ((glickoQ * newVar a b n ω * M) ^ 2
        - -(((a n ω).rating - θ) * (glickoQ * newVar a b n ω * misjudged θ a b n ω))) 0)
      θ (|p.rating| + glickoQ * 350 ^ 2 * M) (noise D S M * 350 ^ 2) := by
  have hq := glickoQ_pos
  have mr := fun n => (w.adapted h n).1
  have md := fun n => (w.adapted h n).2
  have mn : ∀ n, Measurable[past n] fun ω => newVar a b n ω := by
    intro n
    have hb := h.opponent n
    have hv := h.uncertainty n
    have hr := mr n
    have hd := md n
    letI := past n
    unfold newVar onsetVar infoOf
    exact measurable_posterior ((measurable_glickoOnset hd 0).pow_const 2)
      (Finset.measurable_fun_sum _ fun i _ => measurable_glickoInfo hr (hb i) (hv i))
  have mm : ∀ n, Measurable[past n] fun ω => misjudged θ a b n ω := by
    intro n
    have hb := h.opponent n
    have hv := h.uncertainty n
    have hr := mr n
    letI := past n
    unfold misjudged
    exact Finset.measurable_fun_sum _ fun i _ => (measurable_glickoG (hv i)).mul
      ((measurable_glickoE measurable_const (hb i) (hv i)).sub
        (measurable_glickoE hr (hb i) (hv i)))
  have mmean : ∀ n, Measurable[past n] fun ω => glickoQ * newVar a b n ω * misjudged θ a b n ω :=
    fun n => ((mn n).const_mul _).mul (mm n)
  have mdrift : ∀ n, Measurable[past n] fun ω =>
      -(((a n ω).rating - θ) * (glickoQ * newVar a b n ω * misjudged θ a b n ω)) :=
    fun n => (((mr n).sub_const θ).mul (mmean n)).neg
  have hv350 : ∀ n ω, newVar a b n ω ≤ 350 ^ 2 := fun n ω =>
    (w.newVar_le n ω).trans (w.onsetVar_le n ω)
  have hstep : ∀ n ω, |(a (n + 1) ω).rating - (a n ω).rating| ≤ glickoQ * newVar a b n ω * M := by
    intro n ω
    have hv := w.newVar_pos n ω
    rw [w.rating_succ, add_sub_cancel_left, abs_mul, abs_of_pos (mul_pos hq hv)]
    exact mul_le_mul_of_nonneg_left
      (fin_sum_abs (w.games n).2 _ fun i => surprise_abs _ _ _ _) (by positivity)
  have hbig : ∀ n ω, glickoQ * newVar a b n ω * M ≤ |p.rating| + glickoQ * 350 ^ 2 * M := by
    intro n ω
    have h1 := hv350 n ω
    have h2 : glickoQ * newVar a b n ω * M ≤ glickoQ * 350 ^ 2 * M := by gcongr
    linarith [abs_nonneg p.rating]
  have hpos : ∀ n ω,
      0 ≤ -(((a n ω).rating - θ) * (glickoQ * newVar a b n ω * misjudged θ a b n ω)) := by
    intro n ω
    have h1 := mul_nonneg (mul_nonneg hq.le (w.newVar_pos n ω).le) (w.misjudged_nonneg θ n ω)
    linarith
  refine ⟨?_, fun n => (mr n).stronglyMeasurable, fun n => (mmean n).stronglyMeasurable,
    fun n => (mdrift n).stronglyMeasurable, ?_, ?_, ?_, ?_, hpos, fun n ω => le_max_right _ _,
    ?_, ?_, ?_, ?_, ?_⟩
  · intro ω
    simp only [w.start]
    have : 0 ≤ glickoQ * 350 ^ 2 * M := by positivity
    linarith
  · intro n
    exact ((((((mn n).const_mul _).mul_const _).pow_const 2).sub (mdrift n)).max
      measurable_const).stronglyMeasurable
  · exact fun n ω => (hstep n ω).trans (hbig n ω)
  · intro n ω
    refine le_trans ?_ (hbig n ω)
    have hv := w.newVar_pos n ω
    rw [abs_mul, abs_of_pos (mul_pos hq hv)]
    exact mul_le_mul_of_nonneg_left
      (fin_sum_abs (w.games n).2 _ fun i => misjudged_abs _ _ _ _) (by positivity)
  · intro n
    have e1 : (fun ω => (a (n + 1) ω).rating - (a n ω).rating) = fun ω =>
        ∑ i, (glickoQ * newVar a b n ω * glickoG (b n i ω).deviation) * (points (o n i ω)
          - glickoE (a n ω).rating (b n i ω).rating (b n i ω).deviation) := by
      funext ω
      rw [w.rating_succ, add_sub_cancel_left, Finset.mul_sum]
      exact Finset.sum_congr rfl fun i _ => by ring
    have e2 : (fun ω => glickoQ * newVar a b n ω * misjudged θ a b n ω) = fun ω =>
        ∑ i, (glickoQ * newVar a b n ω * glickoG (b n i ω).deviation)
          * (glickoE θ (b n i ω).rating (b n i ω).deviation
          - glickoE (a n ω).rating (b n i ω).rating (b n i ω).deviation) := by
      funext ω
      rw [misjudged, Finset.mul_sum]
      exact Finset.sum_congr rfl fun i _ => by ring
    rw [e1, e2]
    refine condExp_surprises (past.le n) (C := glickoQ * 350 ^ 2) (w := fun i ω =>
      glickoQ * newVar a b n ω * glickoG (b n i ω).deviation) (e := fun i ω =>
      glickoE (a n ω).rating (b n i ω).rating (b n i ω).deviation)
      (s := fun i ω => points (o n i ω))
      (t := fun i ω => glickoE θ (b n i ω).rating (b n i ω).deviation)
      (fun i => ?_) (fun i => ?_) (fun i => ?_) (fun i ω => ?_) (fun i ω => ?_)
      (fun i ω => points_abs _) fun i => ?_
    · have hv := h.uncertainty n i
      have hn := mn n
      letI := past n
      exact ((hn.const_mul _).mul (measurable_glickoG hv)).stronglyMeasurable
    · have hb := h.opponent n i
      have hv := h.uncertainty n i
      have hr := mr n
      letI := past n
      exact (measurable_glickoE hr hb hv).stronglyMeasurable
    · exact ((h.result n i).mono (past.le _) le_rfl).stronglyMeasurable
    · have hv := w.newVar_pos n ω
      have hg := glickoG_pos (b n i ω).deviation
      have hg1 := glickoG_le_one (b n i ω).deviation
      have := hv350 n ω
      rw [abs_of_pos (by positivity)]
      calc glickoQ * newVar a b n ω * glickoG (b n i ω).deviation
          ≤ glickoQ * 350 ^ 2 * 1 := by gcongr
        _ = _ := by ring
    · have h1 := glickoE_pos (a n ω).rating (b n i ω).rating (b n i ω).deviation
      have h2 := glickoE_lt_one (a n ω).rating (b n i ω).rating (b n i ω).deviation
      rw [abs_of_pos h1]; exact h2.le
    · have := h.truthful n i
      simpa only [expectedScore_certain] using this
  · intro n ω
    rw [← sq_abs]
    exact pow_le_pow_left₀ (abs_nonneg _) (hstep n ω) 2
  · exact fun n => ((((mn n).const_mul _).mul_const _).pow_const 2).stronglyMeasurable
  · intro n ω
    have hv := w.newVar_pos n ω
    rw [abs_of_nonneg (sq_nonneg _)]
    exact pow_le_pow_left₀ (by positivity) (hbig n ω) 2
  · intro n ω
    have h2 := le_max_left ((glickoQ * newVar a b n ω * M) ^ 2
        - -(((a n ω).rating - θ) * (glickoQ * newVar a b n ω * misjudged θ a b n ω))) 0
    linarith
  · intro n ω
    refine le_trans (Finset.sum_le_sum fun j _ => w.var_ratio h.near h.known j ω) ?_
    refine w.noise_sum _ ?_ n ω
    have := glickoInfo_pos (reach D S M + D) 0 0
    unfold noise; positivity

/-- The step sizes do not sum up. -/
theorem steps (A B : ℝ) (hA : 0 < A) (hB : 0 ≤ B) :
    ¬ Summable fun n : ℕ => 1 / (A + (n + 1) * B) := by
  intro h
  have h1 : Summable fun n : ℕ => 1 / ((n : ℝ) + 1) := by
    refine Summable.of_nonneg_of_le (fun n => by positivity) (fun n => ?_) (h.mul_left (A + B))
    rw [mul_one_div, div_le_div_iff₀ (by positivity) (by positivity)]
    have : (0 : ℝ) ≤ n * A := by positivity
    nlinarith
  have h2 := (summable_nat_add_iff (f := fun n : ℕ => 1 / (n : ℝ)) 1).1 (by
    simpa using h1)
  exact Real.not_summable_one_div_natCast h2

end Walk

/-- Endless rating periods of a player with a true strength: the rating tends to the true strength,
and the deviation to 0. -/
theorem C139_glicko_period_consistent (p : GlickoRating ℝ) (hp : 0 < p.deviation) (θ D S : ℝ)
    (k : ℕ → ℕ) (M : ℕ) (hk : ∀ n, 1 ≤ k n ∧ k n ≤ M) (a : ℕ → Ω → GlickoRating ℝ)
    (b : ∀ n, Fin (k n) → Ω → GlickoRating ℝ) (o : ∀ n, Fin (k n) → Ω → Outcomes)
    (h0 : ∀ ω, a 0 ω = p)
    (hstep : ∀ n ω, a (n + 1) ω
      = glickoRatingPeriod (a n ω) (List.ofFn fun i => (b n i ω, o n i ω)) ⟨0⟩)
    (hc : Career P past (·.rating) (·.deviation) (fun b => (expectedScore ⟨θ, 0⟩ b).1) θ D S
      k b o) :
    ∀ᵐ ω ∂P, Tendsto (fun n => (a n ω).rating) atTop (𝓝 θ) ∧
      Tendsto (fun n => (a n ω).deviation) atTop (𝓝 0) := by
  have w : Walk p k M a b o := ⟨h0, hp, hk, hstep⟩
  have hq := glickoQ_pos
  have hg := glickoG_pos S
  have honset := glickoOnset_pos (0 : ℝ) hp
  have hconv := (w.drifting hc).tendsto
    (fun n : ℕ => 1 / (1 / glickoOnset p.deviation 0 ^ 2 + (n + 1) * (M * (glickoQ ^ 2 / 4))))
    (fun n => by positivity) (Walk.steps _ _ (by positivity) (by positivity)) (by
      intro ε hε
      have hpull := pull_pos D S hε
      refine ⟨glickoQ * (glickoG S * pull D S ε * ε), by positivity, 0, fun n ω h => ?_⟩
      rw [zero_mul, add_zero]
      have h1 := w.misjudged_pull hε.le (fun i => hc.near n i ω) (fun i => hc.known n i ω) h
      have h2 := w.newVar_ge n ω
      have hv := w.newVar_pos n ω
      have h3 : glickoG S * pull D S ε * ε
          ≤ -(((a n ω).rating - θ) * misjudged θ a b n ω) :=
        (mul_le_mul_of_nonneg_left h (by positivity)).trans h1
      calc glickoQ * (glickoG S * pull D S ε * ε)
            * (1 / (1 / glickoOnset p.deviation 0 ^ 2 + (n + 1) * (M * (glickoQ ^ 2 / 4))))
          ≤ glickoQ * (glickoG S * pull D S ε * ε) * newVar a b n ω := by gcongr
        _ ≤ glickoQ * -(((a n ω).rating - θ) * misjudged θ a b n ω) * newVar a b n ω := by
            gcongr
        _ = _ := by ring)
  filter_upwards [hconv] with ω hω
  refine ⟨hω, ?_⟩
  obtain ⟨L, hL⟩ := (hω.sub_const θ).abs.bddAbove_range
  set I := glickoInfo (L + D) 0 0 * glickoG S ^ 2 with hI
  have hIpos : 0 < I := by
    have := glickoInfo_pos (L + D) 0 0
    positivity
  have hinfo : ∀ n, I ≤ infoOf a b n ω := fun n => w.info_ge (fun i => by
    have h1 : |(a n ω).rating - θ| ≤ L := hL ⟨n, rfl⟩
    have h2 := hc.near n i ω
    have := abs_sub_le (a n ω).rating θ (b n i ω).rating
    rw [abs_sub_comm] at h2
    linarith) (fun i => hc.known n i ω)
  have hvar : ∀ n : ℕ, (n + 1) * I ≤ 1 / newVar a b n ω := by
    intro n
    have hp : ∀ n, 1 / newVar a b n ω = 1 / onsetVar a n ω + infoOf a b n ω := fun n => by
      rw [newVar, posterior, one_div_one_div]
    induction n with
    | zero =>
      rw [hp]
      have h1 := hinfo 0
      have h2 := one_div_pos.2 (w.onsetVar_pos 0 ω)
      push_cast; linarith
    | succ n ih =>
      rw [hp, w.onsetVar_succ]
      have h1 := hinfo (n + 1)
      push_cast; linarith
  rw [← tendsto_add_atTop_iff_nat 1]
  have hsq : Tendsto (fun n : ℕ => √(1 / ((n + 1 : ℝ) * I))) atTop (𝓝 0) := by
    rw [← Real.sqrt_zero]
    refine (Real.continuous_sqrt.tendsto 0).comp ?_
    have h1 : Tendsto (fun n : ℕ => (1 : ℝ) / (n + 1)) atTop (𝓝 0) :=
      tendsto_one_div_add_atTop_nhds_zero_nat
    have h2 := h1.mul_const (1 / I)
    rw [zero_mul] at h2
    refine h2.congr fun n => ?_
    rw [div_mul_div_comm, one_mul]
  refine squeeze_zero (fun n => (w.deviation_pos _ _).le) (fun n => ?_) hsq
  rw [w.deviation_succ]
  refine Real.sqrt_le_sqrt ?_
  have h1 := hvar n
  have hv := w.newVar_pos n ω
  rw [le_div_iff₀ hv] at h1
  rw [le_div_iff₀ (by positivity)]
  linarith

/-- Endless games of a player with a true strength: the rating tends to the true strength, and the
deviation to 0. -/
theorem C139_glicko_consistent (p : GlickoRating ℝ) (hp : 0 < p.deviation) (θ D S : ℝ)
    (a b : ℕ → Ω → GlickoRating ℝ) (o : ℕ → Ω → Outcomes) (h0 : ∀ ω, a 0 ω = p)
    (hstep : ∀ n ω, a (n + 1) ω = (glicko (a n ω) (b n ω) (o n ω) ⟨0⟩).1)
    (hc : Career P past (·.rating) (·.deviation) (fun b => (expectedScore ⟨θ, 0⟩ b).1) θ D S
      (fun _ => 1) (fun n _ => b n) (fun n _ => o n)) :
    ∀ᵐ ω ∂P, Tendsto (fun n => (a n ω).rating) atTop (𝓝 θ) ∧
      Tendsto (fun n => (a n ω).deviation) atTop (𝓝 0) := by
  refine C139_glicko_period_consistent p hp θ D S (fun _ => 1) 1 (fun _ => ⟨le_rfl, le_rfl⟩) a
    (fun n _ => b n) (fun n _ => o n) h0 (fun n ω => ?_) hc
  rw [hstep, ← C32_glicko_period_single]
  simp

/-- A newcomer of true strength 1620 plays endless independent games against a player rated 1400
with deviation 30. -/
example : ∃ (P : Measure (ℕ → Bool)) (_ : IsProbabilityMeasure P)
    (past : Filtration ℕ MeasurableSpace.pi),
    Career P past (·.rating) (·.deviation) (fun b => (expectedScore ⟨1620, 0⟩ b).1) 1620 220 30
      (fun _ => 1) (fun _ _ _ => (⟨1400, 30⟩ : GlickoRating ℝ)) (fun n _ ω => tossed (ω (n + 1))) := by
  obtain ⟨P, hP, past, -, h⟩ := career_exists (·.rating) (·.deviation)
    (fun b : GlickoRating ℝ => (expectedScore ⟨1620, 0⟩ b).1) ⟨1400, 30⟩ 1620
    (by rw [expectedScore_certain]; exact (glickoE_pos _ _ _).le)
    (by rw [expectedScore_certain]; exact (glickoE_lt_one _ _ _).le)
  refine ⟨P, hP, past, ?_⟩
  norm_num [abs_of_pos, abs_of_neg] at h ⊢
  exact h

end Skillratings.Glicko
