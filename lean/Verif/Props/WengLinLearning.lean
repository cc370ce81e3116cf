import Verif.Proofs.WengLinWalk
import Verif.Props.GlickoLearning
/-
C139: the Weng-Lin rating of a player with a true strength tends to it.
-/
namespace Skillratings.WengLin
open Spec MeasureTheory Filter
open Real (sqrt sigmoid sigmoid_pos)
open scoped Topology

variable {Ω : Type} [m0 : MeasurableSpace Ω] {P : Measure Ω} [IsProbabilityMeasure P]
  {past : Filtration ℕ m0} {p : WengLinRating ℝ} {cfg : WengLinConfig ℝ} {θ D S : ℝ}
  {a b : ℕ → Ω → WengLinRating ℝ} {o : ℕ → Ω → Outcomes}

theorem expectedScore_certain (θ : ℝ) (b : WengLinRating ℝ) (cfg : WengLinConfig ℝ) :
    (expectedScore ⟨θ, 0⟩ b cfg).1 = wlP (wlC cfg.beta 0 (b.uncertainty ^ 2)) θ b.rating := by
  simp only [expectedScore, c_real', pValue_real, ne_eq, OfNat.ofNat_ne_zero, not_false_eq_true,
    zero_pow]

namespace Walk

/-- How far from the true strength the pull certainly outweighs noise and bias. -/
noncomputable def reach (p : WengLinRating ℝ) (cfg : WengLinConfig ℝ) (D S : ℝ) : ℝ :=
  D + top p cfg S * (D / wlC cfg.beta 0 0 + 1)
    + p.uncertainty ^ 2 / (wlC cfg.beta 0 0 * pull cfg.beta D 1 1)

/-- The size of noise and bias within reach, in terms of the fourth power of the uncertainty. -/
noncomputable def blur (p : WengLinRating ℝ) (cfg : WengLinConfig ℝ) (D S : ℝ) : ℝ :=
  2 * (D / wlC cfg.beta 0 0 ^ 3) * reach p cfg D S / wlC cfg.beta 0 0 + 1 / wlC cfg.beta 0 0 ^ 2

/-- The same in terms of the decrease of the uncertainty. -/
noncomputable def noise (p : WengLinRating ℝ) (cfg : WengLinConfig ℝ) (D S : ℝ) : ℝ :=
  blur p cfg D S * (2 * top p cfg S ^ 3
    / sigmoid (-((reach p cfg D S + D) / wlC cfg.beta 0 0)) ^ 2)

/-- The drift of a game. -/
noncomputable def drift (cfg : WengLinConfig ℝ) (θ : ℝ) (a b : ℕ → Ω → WengLinRating ℝ) (n : ℕ)
    (ω : Ω) : ℝ := max (gain cfg a b n ω * tilted cfg θ a b n ω) 0

/-- What the drift does not make up for. -/
noncomputable def error (cfg : WengLinConfig ℝ) (θ : ℝ) (a b : ℕ → Ω → WengLinRating ℝ) (n : ℕ)
    (ω : Ω) : ℝ :=
  max (drift cfg θ a b n ω + gain cfg a b n ω ^ 2
    - 2 * (gain cfg a b n ω * tilted cfg θ a b n ω)) 0

theorem gain_pos (w : Walk p cfg a b o) (n : ℕ) (ω : Ω) : 0 < gain cfg a b n ω := by
  have h1 := w.uncertainty_pos n ω
  have h2 := w.scale_pos n ω
  unfold gain; positivity

theorem gain_le (w : Walk p cfg a b o) (n : ℕ) (ω : Ω) :
    gain cfg a b n ω ≤ (a n ω).uncertainty ^ 2 / wlC cfg.beta 0 0 := by
  have h1 := w.uncertainty_pos n ω
  have h2 := wlC_base_pos w.beta
  have h3 : wlC cfg.beta 0 0 ≤ scale cfg a b n ω := scale_ge n ω
  unfold gain; gcongr

theorem gain_max (w : Walk p cfg a b o) (n : ℕ) (ω : Ω) :
    gain cfg a b n ω ≤ p.uncertainty ^ 2 / wlC cfg.beta 0 0 := by
  have h1 := w.uncertainty_pos n ω
  have h2 := wlC_base_pos w.beta
  have h3 := w.uncertainty_le n ω
  refine (w.gain_le n ω).trans ?_
  gcongr

/-- Drift and error together are at least the squared step size. -/
theorem drift_add_error (cfg : WengLinConfig ℝ) (a b : ℕ → Ω → WengLinRating ℝ) (θ : ℝ) (n : ℕ) (ω : Ω) :
    gain cfg a b n ω ^ 2 ≤ drift cfg θ a b n ω + error cfg θ a b n ω := by
  have h1 := le_max_left (drift cfg θ a b n ω + gain cfg a b n ω ^ 2
    - 2 * (gain cfg a b n ω * tilted cfg θ a b n ω)) 0
  have h2 := le_max_right (drift cfg θ a b n ω + gain cfg a b n ω ^ 2
    - 2 * (gain cfg a b n ω * tilted cfg θ a b n ω)) 0
  change _ ≤ error cfg θ a b n ω at h1
  rcases le_total 0 (gain cfg a b n ω * tilted cfg θ a b n ω) with h | h
  · have e : drift cfg θ a b n ω = gain cfg a b n ω * tilted cfg θ a b n ω := max_eq_left h
    rw [e] at h1 ⊢
    linarith
  · have e : drift cfg θ a b n ω = 0 := max_eq_right h
    rw [e] at h1 ⊢
    linarith

theorem error_le (w : Walk p cfg a b o) (hD : ∀ n ω, |(b n ω).rating - θ| ≤ D)
    (hS : ∀ n ω, |(b n ω).uncertainty| ≤ S) (n : ℕ) (ω : Ω) :
    error cfg θ a b n ω ≤ noise p cfg D S
      * ((a n ω).uncertainty - (a (n + 1) ω).uncertainty) := by
  have h0 := wlC_base_pos w.beta
  have hC := w.top_pos S
  have hp := pull_pos cfg.beta D one_pos one_pos
  have hu := w.uncertainty_pos n ω
  have hg := w.gain_pos n ω
  have hD0 : 0 ≤ D := (abs_nonneg _).trans (hD n ω)
  have hR : 0 ≤ reach p cfg D S := by unfold reach; positivity
  have hbl : 0 ≤ blur p cfg D S := by unfold blur; positivity
  have hs := sigmoid_pos (-((reach p cfg D S + D) / wlC cfg.beta 0 0))
  have hN : 0 ≤ noise p cfg D S := by unfold noise; positivity
  have hanti := w.uncertainty_anti n ω
  refine max_le ?_ (mul_nonneg hN (by linarith))
  rcases le_total (reach p cfg D S) |(a n ω).rating - θ| with h | h
  · have hx : 0 ≤ p.uncertainty ^ 2 / (wlC cfg.beta 0 0 * pull cfg.beta D 1 1) := by positivity
    have hx' : 0 ≤ D + top p cfg S * (D / wlC cfg.beta 0 0 + 1) := by positivity
    have h1 := tilt_far (u := (a n ω).uncertainty) (v := (b n ω).uncertainty) (μ := (a n ω).rating)
      w.beta (hD n ω) (w.scale_le (hS n ω)) (by rw [reach] at h; linarith)
    change _ ≤ tilted cfg θ a b n ω at h1
    have h2 : p.uncertainty ^ 2 / wlC cfg.beta 0 0 ≤ pull cfg.beta D 1 1 * |(a n ω).rating - θ| := by
      have h3 : p.uncertainty ^ 2 / (wlC cfg.beta 0 0 * pull cfg.beta D 1 1)
          ≤ |(a n ω).rating - θ| := by rw [reach] at h; linarith
      rw [← div_div, div_le_iff₀ hp] at h3
      linarith
    have h4 : gain cfg a b n ω ≤ tilted cfg θ a b n ω := (w.gain_max n ω).trans (h2.trans h1)
    have h5 : gain cfg a b n ω ^ 2 ≤ gain cfg a b n ω * tilted cfg θ a b n ω := by
      rw [pow_two]; exact mul_le_mul_of_nonneg_left h4 hg.le
    have h6 : drift cfg θ a b n ω = gain cfg a b n ω * tilted cfg θ a b n ω :=
      max_eq_left ((sq_nonneg _).trans h5)
    have h7 := mul_nonneg hN (sub_nonneg.2 hanti)
    linarith
  · have h1 := tilt_ge (u := (a n ω).uncertainty) (v := (b n ω).uncertainty) (μ := (a n ω).rating)
      w.beta (hD n ω) (w.scale_le (hS n ω)) le_rfl (abs_nonneg _)
    change _ ≤ tilted cfg θ a b n ω at h1
    rw [show pull cfg.beta D (top p cfg S) 0 = 0 by simp [pull], zero_sub] at h1
    have h2 : -(D / wlC cfg.beta 0 0 ^ 3 * (a n ω).uncertainty ^ 2 * reach p cfg D S)
        ≤ tilted cfg θ a b n ω := by
      have : D / wlC cfg.beta 0 0 ^ 3 * (a n ω).uncertainty ^ 2 * |(a n ω).rating - θ|
          ≤ D / wlC cfg.beta 0 0 ^ 3 * (a n ω).uncertainty ^ 2 * reach p cfg D S := by gcongr
      linarith
    have h3 : drift cfg θ a b n ω - 2 * (gain cfg a b n ω * tilted cfg θ a b n ω)
        ≤ 2 * (gain cfg a b n ω
          * (D / wlC cfg.beta 0 0 ^ 3 * (a n ω).uncertainty ^ 2 * reach p cfg D S)) := by
      have h4 := mul_le_mul_of_nonneg_left h2 hg.le
      have h5 : 0 ≤ gain cfg a b n ω
          * (D / wlC cfg.beta 0 0 ^ 3 * (a n ω).uncertainty ^ 2 * reach p cfg D S) := by positivity
      rcases le_total 0 (gain cfg a b n ω * tilted cfg θ a b n ω) with h | h
      · have e : drift cfg θ a b n ω = gain cfg a b n ω * tilted cfg θ a b n ω := max_eq_left h
        rw [e]; linarith
      · have e : drift cfg θ a b n ω = 0 := max_eq_right h
        rw [e]; linarith
    have h6 := w.gain_le n ω
    have h7 := w.fourth (L := reach p cfg D S + D) (hS n ω) (by
      have := abs_sub_le (b n ω).rating θ (a n ω).rating
      rw [abs_sub_comm θ] at this
      linarith [hD n ω])
    calc drift cfg θ a b n ω + gain cfg a b n ω ^ 2
          - 2 * (gain cfg a b n ω * tilted cfg θ a b n ω)
        ≤ 2 * (gain cfg a b n ω
          * (D / wlC cfg.beta 0 0 ^ 3 * (a n ω).uncertainty ^ 2 * reach p cfg D S))
          + gain cfg a b n ω ^ 2 := by linarith
      _ ≤ 2 * ((a n ω).uncertainty ^ 2 / wlC cfg.beta 0 0
          * (D / wlC cfg.beta 0 0 ^ 3 * (a n ω).uncertainty ^ 2 * reach p cfg D S))
          + ((a n ω).uncertainty ^ 2 / wlC cfg.beta 0 0) ^ 2 := by gcongr
      _ = blur p cfg D S * (a n ω).uncertainty ^ 4 := by
          rw [blur]; field_simp
      _ ≤ blur p cfg D S * _ := mul_le_mul_of_nonneg_left h7 hbl
      _ = _ := by rw [noise]; ring

theorem drifting (w : Walk p cfg a b o)
    (h : Career P past (·.rating) (·.uncertainty) (fun b => (expectedScore ⟨θ, 0⟩ b cfg).1) θ D S
      (fun _ => 1) (fun n _ => b n) (fun n _ => o n)) :
    Drifting P past (fun n ω => (a n ω).rating)
      (fun n ω => gain cfg a b n ω * (wlP (wlC cfg.beta 0 ((b n ω).uncertainty ^ 2)) θ (b n ω).rating
        - wlP (scale cfg a b n ω) (a n ω).rating (b n ω).rating))
      (fun n ω => gain cfg a b n ω ^ 2) (drift cfg θ a b) (error cfg θ a b)
      θ (|p.rating| + p.uncertainty ^ 2 / wlC cfg.beta 0 0) (noise p cfg D S * p.uncertainty) := by
  have h0 := wlC_base_pos w.beta
  have mr := fun n => (w.adapted h n).1
  have mg := fun n => (w.measurables h n).1
  have me := fun n => (w.measurables h n).2.1
  have mt := fun n => (w.measurables h n).2.2
  have etilt : ∀ n ω, tilted cfg θ a b n ω
      = (wlP (scale cfg a b n ω) (a n ω).rating (b n ω).rating
        - wlP (wlC cfg.beta 0 ((b n ω).uncertainty ^ 2)) θ (b n ω).rating)
        * ((a n ω).rating - θ) := fun n ω => rfl
  have ml : ∀ n, Measurable[past n] fun ω => tilted cfg θ a b n ω := fun n => by
    simp only [etilt]
    exact ((me n).sub (mt n)).mul ((mr n).sub_const θ)
  have md : ∀ n, Measurable[past n] (drift cfg θ a b n) := fun n =>
    ((mg n).mul (ml n)).max measurable_const
  have mb : ∀ n, Measurable[past n] (error cfg θ a b n) := fun n =>
    ((((md n).add ((mg n).pow_const 2)).sub (((mg n).mul (ml n)).const_mul 2))).max
      measurable_const
  have hbig : ∀ n ω, gain cfg a b n ω ≤ |p.rating| + p.uncertainty ^ 2 / wlC cfg.beta 0 0 :=
    fun n ω => (w.gain_max n ω).trans (by linarith [abs_nonneg p.rating])
  have habs : ∀ n ω (x : ℝ), |x| ≤ 1 → |gain cfg a b n ω * x| ≤ gain cfg a b n ω := by
    intro n ω x hx
    rw [abs_mul, abs_of_pos (w.gain_pos n ω)]
    exact mul_le_of_le_one_right (w.gain_pos n ω).le hx
  have hstep : ∀ n ω, |(a (n + 1) ω).rating - (a n ω).rating| ≤ gain cfg a b n ω := by
    intro n ω
    rw [w.rating_succ, add_sub_cancel_left]
    refine habs n ω _ ?_
    have h1 := wlP_pos (scale cfg a b n ω) (a n ω).rating (b n ω).rating
    have h2 := wlP_lt_one (scale cfg a b n ω) (a n ω).rating (b n ω).rating
    rw [abs_le]
    cases o n ω <;> simp only [points] <;> constructor <;> linarith
  refine ⟨?_, fun n => (mr n).stronglyMeasurable,
    fun n => ((mg n).mul ((mt n).sub (me n))).stronglyMeasurable,
    fun n => (md n).stronglyMeasurable, fun n => (mb n).stronglyMeasurable,
    fun n ω => (hstep n ω).trans (hbig n ω), ?_, ?_, fun n ω => le_max_right _ _,
    fun n ω => le_max_right _ _, ?_, fun n => ((mg n).pow_const 2).stronglyMeasurable, ?_, ?_, ?_⟩
  · intro ω
    simp only [w.start]
    have : 0 ≤ p.uncertainty ^ 2 / wlC cfg.beta 0 0 := by positivity
    linarith
  · intro n ω
    refine (habs n ω _ ?_).trans (hbig n ω)
    have h1 := wlP_pos (scale cfg a b n ω) (a n ω).rating (b n ω).rating
    have h2 := wlP_lt_one (scale cfg a b n ω) (a n ω).rating (b n ω).rating
    have h3 := wlP_pos (wlC cfg.beta 0 ((b n ω).uncertainty ^ 2)) θ (b n ω).rating
    have h4 := wlP_lt_one (wlC cfg.beta 0 ((b n ω).uncertainty ^ 2)) θ (b n ω).rating
    rw [abs_le]
    constructor <;> linarith
  · intro n
    have e1 : (fun ω => (a (n + 1) ω).rating - (a n ω).rating) = fun ω =>
        ∑ _i : Fin 1, gain cfg a b n ω * (points (o n ω)
          - wlP (scale cfg a b n ω) (a n ω).rating (b n ω).rating) := by
      funext ω
      rw [w.rating_succ, add_sub_cancel_left]
      simp
    have e2 : (fun ω => gain cfg a b n ω
          * (wlP (wlC cfg.beta 0 ((b n ω).uncertainty ^ 2)) θ (b n ω).rating
          - wlP (scale cfg a b n ω) (a n ω).rating (b n ω).rating)) = fun ω =>
        ∑ _i : Fin 1, gain cfg a b n ω
          * (wlP (wlC cfg.beta 0 ((b n ω).uncertainty ^ 2)) θ (b n ω).rating
          - wlP (scale cfg a b n ω) (a n ω).rating (b n ω).rating) := by
      funext ω; simp
    rw [e1, e2]
    refine condExp_surprises (past.le n) (C := p.uncertainty ^ 2 / wlC cfg.beta 0 0)
      (w := fun _ ω => gain cfg a b n ω)
      (e := fun _ ω => wlP (scale cfg a b n ω) (a n ω).rating (b n ω).rating)
      (s := fun _ ω => points (o n ω))
      (t := fun _ ω => wlP (wlC cfg.beta 0 ((b n ω).uncertainty ^ 2)) θ (b n ω).rating)
      (fun i => (mg n).stronglyMeasurable) (fun i => (me n).stronglyMeasurable)
      (fun i => ((h.result n 0).mono (past.le _) le_rfl).stronglyMeasurable) (fun i ω => ?_)
      (fun i ω => ?_) (fun i ω => Glicko.points_abs _) fun i => ?_
    · rw [abs_of_pos (w.gain_pos n ω)]; exact w.gain_max n ω
    · rw [abs_of_pos (wlP_pos _ _ _)]; exact (wlP_lt_one _ _ _).le
    · have := h.truthful n 0
      simpa only [expectedScore_certain] using this
  · intro n ω
    rw [← sq_abs]
    exact pow_le_pow_left₀ (abs_nonneg _) (hstep n ω) 2
  · intro n ω
    rw [abs_of_nonneg (sq_nonneg _)]
    exact pow_le_pow_left₀ (w.gain_pos n ω).le (hbig n ω) 2
  · intro n ω
    have h1 := le_max_left (drift cfg θ a b n ω + gain cfg a b n ω ^ 2
      - 2 * (gain cfg a b n ω * tilted cfg θ a b n ω)) 0
    change _ ≤ error cfg θ a b n ω at h1
    rw [etilt] at h1
    linarith
  · intro n ω
    refine le_trans (Finset.sum_le_sum fun j _ => w.error_le (fun n ω => h.near n 0 ω)
      (fun n ω => h.known n 0 ω) j ω) ?_
    rw [← Finset.mul_sum, Finset.sum_range_sub' (fun j => (a j ω).uncertainty), w.start]
    have hD0 : 0 ≤ D := (abs_nonneg _).trans (h.near 0 0 ω)
    have hp := pull_pos cfg.beta D one_pos one_pos
    have hC := w.top_pos S
    have hN : 0 ≤ noise p cfg D S := by unfold noise blur reach; positivity
    have := w.uncertainty_pos n ω
    exact mul_le_mul_of_nonneg_left (by linarith) hN

end Walk

/-- Endless games of a player with a true strength: the rating tends to the true strength, and the
uncertainty to 0. -/
theorem C139_wengLin_consistent (p : WengLinRating ℝ) (cfg : WengLinConfig ℝ)
    (hp : 0 < p.uncertainty) (hβ : cfg.beta ≠ 0) (hκ : cfg.uncertaintyTolerance ≤ 3 / 4)
    (θ D S : ℝ) (a b : ℕ → Ω → WengLinRating ℝ) (o : ℕ → Ω → Outcomes) (h0 : ∀ ω, a 0 ω = p)
    (hstep : ∀ n ω, a (n + 1) ω = (wengLin (a n ω) (b n ω) (o n ω) cfg).1)
    (hc : Career P past (·.rating) (·.uncertainty) (fun b => (expectedScore ⟨θ, 0⟩ b cfg).1) θ D S
      (fun _ => 1) (fun n _ => b n) (fun n _ => o n)) :
    ∀ᵐ ω ∂P, Tendsto (fun n => (a n ω).rating) atTop (𝓝 θ) ∧
      Tendsto (fun n => (a n ω).uncertainty) atTop (𝓝 0) := by
  have w : Walk p cfg a b o := ⟨h0, hp, hβ, hκ, hstep⟩
  have hb0 := wlC_base_pos hβ
  have hC := w.top_pos S
  have hconv := (w.drifting hc).tendsto
    (fun n : ℕ => 1 / (1 / p.uncertainty ^ 2 + 1 / (3 * wlC cfg.beta 0 0 ^ 2)
      + (n + 1) * (1 / (3 * wlC cfg.beta 0 0 ^ 2))))
    (fun n => by positivity) (Glicko.Walk.steps _ _ (by positivity) (by positivity)) (by
      intro ε hε
      have hpull := pull_pos cfg.beta D hC hε
      set K := |D / wlC cfg.beta 0 0 ^ 3| with hK
      refine ⟨min (pull cfg.beta D (Walk.top p cfg S) ε / 2 * ε)
        (pull cfg.beta D (Walk.top p cfg S) ε / (2 * Walk.top p cfg S * (K + 1))) / Walk.top p cfg S,
        by positivity, 1, fun n ω h => ?_⟩
      have hu := w.uncertainty_pos n ω
      have hg := w.gain_pos n ω
      have hgge : (a n ω).uncertainty ^ 2 / Walk.top p cfg S ≤ gain cfg a b n ω := by
        have h1 := w.scale_le (hc.known n 0 ω)
        have h2 := w.scale_pos n ω
        unfold gain
        gcongr
      have hvar : 1 / (1 / p.uncertainty ^ 2 + 1 / (3 * wlC cfg.beta 0 0 ^ 2)
          + (n + 1) * (1 / (3 * wlC cfg.beta 0 0 ^ 2))) ≤ (a n ω).uncertainty ^ 2 := by
        refine le_trans ?_ (w.variance_ge n ω)
        apply one_div_le_one_div_of_le (by positivity)
        have : 0 < 1 / (3 * wlC cfg.beta 0 0 ^ 2) := by positivity
        linarith
      have hmain : min (pull cfg.beta D (Walk.top p cfg S) ε / 2 * ε)
          (pull cfg.beta D (Walk.top p cfg S) ε / (2 * Walk.top p cfg S * (K + 1))) * gain cfg a b n ω
          ≤ Walk.drift cfg θ a b n ω + 1 * Walk.error cfg θ a b n ω := by
        rw [one_mul]
        have herr : 0 ≤ Walk.error cfg θ a b n ω := le_max_right _ _
        have hdr : gain cfg a b n ω * tilted cfg θ a b n ω ≤ Walk.drift cfg θ a b n ω :=
          le_max_left _ _
        rcases le_total (K * (a n ω).uncertainty ^ 2) (pull cfg.beta D (Walk.top p cfg S) ε / 2)
          with hsmall | hlarge
        · have h1 := tilt_ge (u := (a n ω).uncertainty) (v := (b n ω).uncertainty)
            (μ := (a n ω).rating) hβ (hc.near n 0 ω) (w.scale_le (hc.known n 0 ω)) hε.le h
          change _ ≤ tilted cfg θ a b n ω at h1
          have h2 : D / wlC cfg.beta 0 0 ^ 3 * (a n ω).uncertainty ^ 2
              ≤ K * (a n ω).uncertainty ^ 2 :=
            mul_le_mul_of_nonneg_right (le_abs_self _) (sq_nonneg _)
          have h3 : pull cfg.beta D (Walk.top p cfg S) ε / 2 * ε ≤ tilted cfg θ a b n ω := by
            refine le_trans ?_ h1
            exact mul_le_mul (by linarith) h hε.le (by linarith)
          calc _ ≤ pull cfg.beta D (Walk.top p cfg S) ε / 2 * ε * gain cfg a b n ω :=
                mul_le_mul_of_nonneg_right (min_le_left _ _) hg.le
            _ ≤ tilted cfg θ a b n ω * gain cfg a b n ω := mul_le_mul_of_nonneg_right h3 hg.le
            _ ≤ _ := by linarith
        · have h1 : pull cfg.beta D (Walk.top p cfg S) ε / (2 * Walk.top p cfg S * (K + 1))
              ≤ gain cfg a b n ω := by
            refine le_trans ?_ hgge
            rw [div_le_div_iff₀ (by positivity) hC]
            have h2 : pull cfg.beta D (Walk.top p cfg S) ε
                ≤ (a n ω).uncertainty ^ 2 * (2 * (K + 1)) := by nlinarith [sq_nonneg (a n ω).uncertainty]
            calc pull cfg.beta D (Walk.top p cfg S) ε * Walk.top p cfg S
                ≤ (a n ω).uncertainty ^ 2 * (2 * (K + 1)) * Walk.top p cfg S :=
                  mul_le_mul_of_nonneg_right h2 hC.le
              _ = _ := by ring
          calc _ ≤ pull cfg.beta D (Walk.top p cfg S) ε / (2 * Walk.top p cfg S * (K + 1))
                  * gain cfg a b n ω := mul_le_mul_of_nonneg_right (min_le_right _ _) hg.le
            _ ≤ gain cfg a b n ω * gain cfg a b n ω := mul_le_mul_of_nonneg_right h1 hg.le
            _ = gain cfg a b n ω ^ 2 := (pow_two _).symm
            _ ≤ _ := Walk.drift_add_error cfg a b θ n ω
      refine le_trans ?_ hmain
      calc min (pull cfg.beta D (Walk.top p cfg S) ε / 2 * ε)
            (pull cfg.beta D (Walk.top p cfg S) ε / (2 * Walk.top p cfg S * (K + 1))) / Walk.top p cfg S
            * (1 / (1 / p.uncertainty ^ 2 + 1 / (3 * wlC cfg.beta 0 0 ^ 2)
              + (n + 1) * (1 / (3 * wlC cfg.beta 0 0 ^ 2))))
          ≤ min (pull cfg.beta D (Walk.top p cfg S) ε / 2 * ε)
            (pull cfg.beta D (Walk.top p cfg S) ε / (2 * Walk.top p cfg S * (K + 1))) / Walk.top p cfg S
            * (a n ω).uncertainty ^ 2 := by gcongr
        _ = min (pull cfg.beta D (Walk.top p cfg S) ε / 2 * ε)
            (pull cfg.beta D (Walk.top p cfg S) ε / (2 * Walk.top p cfg S * (K + 1)))
            * ((a n ω).uncertainty ^ 2 / Walk.top p cfg S) := by ring
        _ ≤ _ := mul_le_mul_of_nonneg_left hgge (by positivity))
  filter_upwards [hconv] with ω hω
  refine ⟨hω, ?_⟩
  obtain ⟨L, hL⟩ := (hω.sub_const θ).abs.bddAbove_range
  have hs := sigmoid_pos (-((L + D) / wlC cfg.beta 0 0))
  have h4 : ∀ n, (a n ω).uncertainty ^ 4
      ≤ 2 * Walk.top p cfg S ^ 3 / sigmoid (-((L + D) / wlC cfg.beta 0 0)) ^ 2
        * ((a n ω).uncertainty - (a (n + 1) ω).uncertainty) := fun n =>
    w.fourth (hc.known n 0 ω) (by
      have h1 : |(a n ω).rating - θ| ≤ L := hL ⟨n, rfl⟩
      have := abs_sub_le (b n ω).rating θ (a n ω).rating
      rw [abs_sub_comm θ] at this
      linarith [hc.near n 0 ω])
  have hsum : Summable fun n => (a n ω).uncertainty ^ 4 := by
    refine summable_of_sum_range_le (c := 2 * Walk.top p cfg S ^ 3
      / sigmoid (-((L + D) / wlC cfg.beta 0 0)) ^ 2 * p.uncertainty) (fun n => by positivity)
      fun n => ?_
    refine (Finset.sum_le_sum fun j _ => h4 j).trans ?_
    rw [← Finset.mul_sum, Finset.sum_range_sub' (fun j => (a j ω).uncertainty), h0]
    have := w.uncertainty_pos n ω
    exact mul_le_mul_of_nonneg_left (by linarith) (by positivity)
  have h5 := hsum.tendsto_atTop_zero
  have h6 : Tendsto (fun n => √(√((a n ω).uncertainty ^ 4))) atTop (𝓝 √(√0)) :=
    (Real.continuous_sqrt.tendsto _).comp ((Real.continuous_sqrt.tendsto 0).comp h5)
  rw [Real.sqrt_zero, Real.sqrt_zero] at h6
  refine h6.congr fun n => ?_
  have hu := w.uncertainty_pos n ω
  rw [show (a n ω).uncertainty ^ 4 = ((a n ω).uncertainty ^ 2) ^ 2 by ring,
    Real.sqrt_sq (by positivity), Real.sqrt_sq hu.le]

/-- A newcomer of true strength 31 plays endless independent games against a player rated 27 with
uncertainty 2. -/
example : ∃ (P : Measure (ℕ → Bool)) (_ : IsProbabilityMeasure P)
    (past : Filtration ℕ MeasurableSpace.pi),
    Career P past (·.rating) (·.uncertainty)
      (fun b => (expectedScore ⟨31, 0⟩ b (⟨25 / 6, 0.000001⟩ : WengLinConfig ℝ)).1) 31 4 2
      (fun _ => 1) (fun _ _ _ => (⟨27, 2⟩ : WengLinRating ℝ)) (fun n _ ω => tossed (ω (n + 1))) := by
  obtain ⟨P, hP, past, -, h⟩ := career_exists (·.rating) (·.uncertainty)
    (fun b : WengLinRating ℝ => (expectedScore ⟨31, 0⟩ b (⟨25 / 6, 0.000001⟩ : WengLinConfig ℝ)).1)
    ⟨27, 2⟩ 31
    (by rw [expectedScore_certain]; exact (wlP_pos _ _ _).le)
    (by rw [expectedScore_certain]; exact (wlP_lt_one _ _ _).le)
  refine ⟨P, hP, past, ?_⟩
  rw [show |(⟨27, 2⟩ : WengLinRating ℝ).rating - 31| = 4 by norm_num [abs_of_neg],
    show |(⟨27, 2⟩ : WengLinRating ℝ).uncertainty| = 2 by norm_num] at h
  exact h

example : (⟨25 / 6, 0.000001⟩ : WengLinConfig ℝ).beta ≠ 0 ∧
    (⟨25 / 6, 0.000001⟩ : WengLinConfig ℝ).uncertaintyTolerance ≤ 3 / 4 ∧
    0 < (⟨25, 25 / 3⟩ : WengLinRating ℝ).uncertainty := by norm_num

end Skillratings.WengLin
