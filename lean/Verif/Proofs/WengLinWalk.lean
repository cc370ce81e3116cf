import Mathlib.MeasureTheory.Function.SpecialFunctions.Basic
import Verif.Spec.Career
import Verif.Proofs.RobbinsMonro
import Verif.Proofs.GlickoCareer
import Verif.Proofs.WlStable
import Verif.Props.WengLin
/-
Endless Weng-Lin games of one player, seen as a random walk of the rating.
-/
namespace Skillratings.WengLin
open Spec MeasureTheory Filter
open Real (sqrt sigmoid sigmoid_pos sigmoid_lt_one)
open scoped Topology

/-! ### One game -/

theorem wlC_mono {β s t s' t' : ℝ} (hs : s ≤ s') (ht : t ≤ t') : wlC β s t ≤ wlC β s' t' :=
  Real.sqrt_le_sqrt (by linarith)

theorem wlC_base_pos {β : ℝ} (hβ : β ≠ 0) : 0 < wlC β 0 0 :=
  wlC_pos le_rfl le_rfl (Or.inr (Or.inr hβ))

theorem wlC_ge_base {β s t : ℝ} (hs : 0 ≤ s) (ht : 0 ≤ t) : wlC β 0 0 ≤ wlC β s t := wlC_mono hs ht

theorem le_wlC {β u t : ℝ} (ht : 0 ≤ t) : u ≤ wlC β (u ^ 2) t :=
  Real.le_sqrt_of_sq_le (by nlinarith [sq_nonneg β])

/-- How much the forecast for a player of known strength differs from that for a player of the same
rating with uncertainty `u`. -/
theorem bias {β u v θ ν D : ℝ} (hβ : β ≠ 0) (hD : |ν - θ| ≤ D) :
    |sigmoid ((θ - ν) / wlC β (u ^ 2) (v ^ 2)) - sigmoid ((θ - ν) / wlC β 0 (v ^ 2))|
      ≤ D / wlC β 0 0 ^ 3 * u ^ 2 := by
  have h0 := wlC_base_pos hβ
  have h1 : wlC β 0 0 ≤ wlC β 0 (v ^ 2) := wlC_mono le_rfl (sq_nonneg v)
  have h2 : wlC β 0 (v ^ 2) ≤ wlC β (u ^ 2) (v ^ 2) := wlC_mono (sq_nonneg u) le_rfl
  have h3 : wlC β (u ^ 2) (v ^ 2) ^ 2 - wlC β 0 (v ^ 2) ^ 2 = u ^ 2 := by
    unfold wlC
    rw [Real.sq_sqrt (by positivity), Real.sq_sqrt (by positivity)]; ring
  refine (sigmoid_lip _ _).trans ?_
  generalize wlC β (u ^ 2) (v ^ 2) = c at *
  generalize wlC β 0 (v ^ 2) = d at *
  generalize wlC β 0 0 = e at *
  have hd : 0 < d := h0.trans_le h1
  have hc : 0 < c := hd.trans_le h2
  have e1 : (θ - ν) / c - (θ - ν) / d = -((θ - ν) * (c - d) / (c * d)) := by field_simp; ring
  have h4 : (c - d) * (c + d) = u ^ 2 := by rw [← h3]; ring
  have h5 : c - d = u ^ 2 / (c + d) := by rw [← h4]; field_simp
  have hD0 : 0 ≤ D := (abs_nonneg _).trans hD
  rw [e1, abs_neg, abs_div, abs_mul, abs_of_nonneg (by linarith : 0 ≤ c - d),
    abs_of_pos (mul_pos hc hd), abs_sub_comm, h5]
  have h6 : |ν - θ| * (u ^ 2 / (c + d)) / (c * d) ≤ D * (u ^ 2 / e) / (e * e) := by
    gcongr
    · linarith
    · linarith
  calc 1 / 4 * (|ν - θ| * (u ^ 2 / (c + d)) / (c * d))
      ≤ |ν - θ| * (u ^ 2 / (c + d)) / (c * d) := by
        have : 0 ≤ |ν - θ| * (u ^ 2 / (c + d)) / (c * d) := by positivity
        linarith
    _ ≤ _ := h6
    _ = _ := by field_simp

/-- The misjudgement of a player rated `μ` with true strength `θ`, in the direction of the error. -/
noncomputable def tilt (β u v μ ν θ : ℝ) : ℝ :=
  (wlP (wlC β (u ^ 2) (v ^ 2)) μ ν - wlP (wlC β 0 (v ^ 2)) θ ν) * (μ - θ)

/-- The pull at a distance of at least `ε`, without the bias; `C` is the largest scale. -/
noncomputable def pull (β D C ε : ℝ) : ℝ :=
  sigmoid (-(D / wlC β 0 0)) ^ 2 * (1 - Real.exp (-(ε / C)))

theorem pull_pos (β D : ℝ) {C ε : ℝ} (hC : 0 < C) (h : 0 < ε) : 0 < pull β D C ε := by
  have h1 := sigmoid_pos (-(D / wlC β 0 0))
  have h4 : Real.exp (-(ε / C)) < 1 := Real.exp_lt_one_iff.2 (neg_lt_zero.2 (by positivity))
  unfold pull
  have : 0 < 1 - Real.exp (-(ε / C)) := by linarith
  positivity

theorem pull_nonneg (β D : ℝ) {C ε : ℝ} (hC : 0 < C) (h : 0 ≤ ε) : 0 ≤ pull β D C ε := by
  rcases h.eq_or_lt with rfl | h
  · simp [pull]
  · exact (pull_pos β D hC h).le

theorem scaled_le {β D c θ ν : ℝ} (hβ : β ≠ 0) (hc : wlC β 0 0 ≤ c) (hD : |ν - θ| ≤ D) :
    |(θ - ν) / c| ≤ D / wlC β 0 0 := by
  have h0 := wlC_base_pos hβ
  have := (abs_nonneg _).trans hD
  rw [abs_div, abs_of_pos (h0.trans_le hc), abs_sub_comm]
  gcongr

/-- The pull towards the true strength, up to the bias. -/
theorem tilt_ge {β u v μ ν θ D C ε : ℝ} (hβ : β ≠ 0) (hD : |ν - θ| ≤ D)
    (hC : wlC β (u ^ 2) (v ^ 2) ≤ C) (hε : 0 ≤ ε) (h : ε ≤ |μ - θ|) :
    (pull β D C ε - D / wlC β 0 0 ^ 3 * u ^ 2) * |μ - θ| ≤ tilt β u v μ ν θ := by
  have h0 := wlC_base_pos hβ
  have hb := bias (u := u) (v := v) hβ hD
  have hc0 : wlC β 0 0 ≤ wlC β (u ^ 2) (v ^ 2) := wlC_ge_base (sq_nonneg u) (sq_nonneg v)
  have hy := scaled_le hβ hc0 hD
  rw [tilt, wlP_eq, wlP_eq, pull]
  generalize D / wlC β 0 0 ^ 3 * u ^ 2 = k at *
  generalize sigmoid ((θ - ν) / wlC β 0 (v ^ 2)) = t at *
  generalize wlC β (u ^ 2) (v ^ 2) = c at *
  have hc : 0 < c := h0.trans_le hc0
  have hC0 : 0 < C := hc.trans_le hC
  obtain ⟨hb1, hb2⟩ := abs_le.1 hb
  have hu : 0 ≤ ε / C := by positivity
  rcases le_total 0 (μ - θ) with hs | hs
  · rw [abs_of_nonneg hs] at h ⊢
    refine mul_le_mul_of_nonneg_right ?_ hs
    have h1 := sigmoid_gap (x := (μ - ν) / c) hy hu (by
      have : (μ - ν) / c - (θ - ν) / c = (μ - θ) / c := by ring
      rw [this]; gcongr)
    linarith
  · rw [abs_of_nonpos hs] at h ⊢
    have h1 := sigmoid_gap' (x := (μ - ν) / c) hy hu (by
      have : (θ - ν) / c - (μ - ν) / c = -(μ - θ) / c := by ring
      rw [this]
      exact div_le_div₀ (by linarith) h hc hC)
    have h2 := mul_le_mul_of_nonneg_right
      (show sigmoid (-(D / wlC β 0 0)) ^ 2 * (1 - Real.exp (-(ε / C))) - k
        ≤ t - sigmoid ((μ - ν) / c) by linarith) (show 0 ≤ -(μ - θ) by linarith)
    linarith

/-- Far away from the true strength the bias does not matter. -/
theorem tilt_far {β u v μ ν θ D C : ℝ} (hβ : β ≠ 0) (hD : |ν - θ| ≤ D)
    (hC : wlC β (u ^ 2) (v ^ 2) ≤ C) (h : D + C * (D / wlC β 0 0 + 1) ≤ |μ - θ|) :
    pull β D 1 1 * |μ - θ| ≤ tilt β u v μ ν θ := by
  have h0 := wlC_base_pos hβ
  have hc0 : wlC β 0 0 ≤ wlC β (u ^ 2) (v ^ 2) := wlC_ge_base (sq_nonneg u) (sq_nonneg v)
  have hy := scaled_le hβ (wlC_ge_base (β := β) le_rfl (sq_nonneg v)) hD
  obtain ⟨y1, y2⟩ := abs_le.1 hy
  obtain ⟨d1, d2⟩ := abs_le.1 hD
  rw [tilt, wlP_eq, wlP_eq, pull, div_one]
  generalize D / wlC β 0 0 = L at *
  generalize (θ - ν) / wlC β 0 (v ^ 2) = y at *
  generalize wlC β (u ^ 2) (v ^ 2) = c at *
  have hc : 0 < c := h0.trans_le hc0
  have hL : 0 ≤ L := (abs_nonneg _).trans hy
  have hcl : c * (L + 1) ≤ C * (L + 1) := mul_le_mul_of_nonneg_right hC (by linarith)
  rcases le_total 0 (μ - θ) with hs | hs
  · rw [abs_of_nonneg hs] at h ⊢
    refine mul_le_mul_of_nonneg_right (sigmoid_gap hy zero_le_one ?_) hs
    have : L + 1 ≤ (μ - ν) / c := by rw [le_div_iff₀ hc]; linarith
    linarith
  · rw [abs_of_nonpos hs] at h ⊢
    have h1 := sigmoid_gap' (x := (μ - ν) / c) hy zero_le_one (by
      have : (μ - ν) / c ≤ -(L + 1) := by rw [div_le_iff₀ hc]; linarith
      linarith)
    have h2 := mul_le_mul_of_nonneg_right h1 (show 0 ≤ -(μ - θ) by linarith)
    linarith

/-- The share of the variance that a game takes away. -/
noncomputable def share (β u v μ ν : ℝ) : ℝ :=
  (u / wlC β (u ^ 2) (v ^ 2)) ^ 3 * wlP (wlC β (u ^ 2) (v ^ 2)) μ ν
    * (1 - wlP (wlC β (u ^ 2) (v ^ 2)) μ ν)

theorem share_nonneg {β u : ℝ} (v μ ν : ℝ) (hu : 0 ≤ u) : 0 ≤ share β u v μ ν := by
  have h1 := wlP_pos (wlC β (u ^ 2) (v ^ 2)) μ ν
  have h2 := wlP_lt_one (wlC β (u ^ 2) (v ^ 2)) μ ν
  have h3 : 0 ≤ wlC β (u ^ 2) (v ^ 2) := Real.sqrt_nonneg _
  unfold share
  have : 0 < 1 - wlP (wlC β (u ^ 2) (v ^ 2)) μ ν := by linarith
  positivity

theorem share_le {β u : ℝ} (v μ ν : ℝ) (hβ : β ≠ 0) (hu : 0 < u) :
    share β u v μ ν ≤ 1 / 4 ∧ share β u v μ ν ≤ u ^ 2 / (4 * wlC β 0 0 ^ 2) := by
  have h0 := wlC_base_pos hβ
  have hc0 : wlC β 0 0 ≤ wlC β (u ^ 2) (v ^ 2) := wlC_ge_base (sq_nonneg u) (sq_nonneg v)
  have huc : u ≤ wlC β (u ^ 2) (v ^ 2) := le_wlC (sq_nonneg v)
  have hp : wlP (wlC β (u ^ 2) (v ^ 2)) μ ν * (1 - wlP (wlC β (u ^ 2) (v ^ 2)) μ ν) ≤ 1 / 4 :=
    quarter
  rw [share, mul_assoc]
  have hp0 : 0 ≤ wlP (wlC β (u ^ 2) (v ^ 2)) μ ν * (1 - wlP (wlC β (u ^ 2) (v ^ 2)) μ ν) :=
    mul_nonneg (wlP_pos _ _ _).le (by linarith [wlP_lt_one (wlC β (u ^ 2) (v ^ 2)) μ ν])
  generalize wlP (wlC β (u ^ 2) (v ^ 2)) μ ν * (1 - wlP (wlC β (u ^ 2) (v ^ 2)) μ ν) = q at *
  generalize wlC β (u ^ 2) (v ^ 2) = c at *
  have hc : 0 < c := h0.trans_le hc0
  have hx0 : 0 ≤ u / c := by positivity
  have hx1 : u / c ≤ 1 := by rw [div_le_one hc]; exact huc
  constructor
  · have : (u / c) ^ 3 ≤ 1 := pow_le_one₀ hx0 hx1
    calc (u / c) ^ 3 * q ≤ 1 * (1 / 4) := mul_le_mul this hp hp0 zero_le_one
      _ = 1 / 4 := by norm_num
  · have h3 : (u / c) ^ 3 ≤ (u / wlC β 0 0) ^ 2 := by
      calc (u / c) ^ 3 = (u / c) ^ 2 * (u / c) := by ring
        _ ≤ (u / c) ^ 2 * 1 := by gcongr
        _ = (u / c) ^ 2 := mul_one _
        _ ≤ _ := by gcongr
    calc (u / c) ^ 3 * q ≤ (u / wlC β 0 0) ^ 2 * (1 / 4) := mul_le_mul h3 hp hp0 (by positivity)
      _ = _ := by rw [div_pow]; field_simp

/-- A game against somebody within `L` gives at least this share. -/
theorem share_ge {β u v μ ν C L : ℝ} (hβ : β ≠ 0) (hu : 0 < u) (hC : wlC β (u ^ 2) (v ^ 2) ≤ C)
    (hL : |ν - μ| ≤ L) :
    (u / C) ^ 3 * sigmoid (-(L / wlC β 0 0)) ^ 2 ≤ share β u v μ ν := by
  have h0 := wlC_base_pos hβ
  have hc0 : wlC β 0 0 ≤ wlC β (u ^ 2) (v ^ 2) := wlC_ge_base (sq_nonneg u) (sq_nonneg v)
  obtain ⟨h1, h2⟩ := abs_le.1 (scaled_le hβ hc0 hL)
  have a1 : sigmoid (-(L / wlC β 0 0)) ≤ wlP (wlC β (u ^ 2) (v ^ 2)) μ ν := by
    rw [wlP_eq]; exact Real.sigmoid_monotone (by linarith)
  have a2 : sigmoid (-(L / wlC β 0 0)) ≤ 1 - wlP (wlC β (u ^ 2) (v ^ 2)) μ ν := by
    rw [wlP_eq, ← Real.sigmoid_neg]; exact Real.sigmoid_monotone (by linarith)
  have a5 := sigmoid_pos (-(L / wlC β 0 0))
  have hc : 0 < wlC β (u ^ 2) (v ^ 2) := h0.trans_le hc0
  have hC0 := hc.trans_le hC
  rw [share, mul_assoc, pow_two (sigmoid _)]
  gcongr
  exact (wlP_pos _ _ _).le

/-- The variance after a game. -/
theorem var_after {β κ u : ℝ} (v μ ν : ℝ) (hβ : β ≠ 0) (hκ : κ ≤ 3 / 4) (hu : 0 < u) :
    √(u ^ 2 * max (1 - share β u v μ ν) κ) = u * √(1 - share β u v μ ν) := by
  have h := (share_le v μ ν hβ hu).1
  rw [max_eq_left (by linarith), Real.sqrt_mul (sq_nonneg u), Real.sqrt_sq hu.le]

/-! ### Measurability -/

section
variable {Ω : Type} [MeasurableSpace Ω]

theorem measurable_wlC (β : ℝ) {s t : Ω → ℝ} (hs : Measurable s) (ht : Measurable t) :
    Measurable fun ω => wlC β (s ω) (t ω) := by
  unfold wlC; fun_prop

theorem measurable_wlP {c μ ν : Ω → ℝ} (hc : Measurable c) (h1 : Measurable μ) (h2 : Measurable ν) :
    Measurable fun ω => wlP (c ω) (μ ω) (ν ω) := by
  unfold wlP; fun_prop

theorem measurable_share (β : ℝ) {u v μ ν : Ω → ℝ} (hu : Measurable u) (hv : Measurable v)
    (h1 : Measurable μ) (h2 : Measurable ν) :
    Measurable fun ω => share β (u ω) (v ω) (μ ω) (ν ω) := by
  have h3 := measurable_wlC β (hu.pow_const 2) (hv.pow_const 2)
  have h4 := measurable_wlP h3 h1 h2
  unfold share
  exact (((hu.div h3).pow_const 3).mul h4).mul (h4.const_sub 1)

end

/-! ### The walk -/

section
variable {Ω : Type} [m0 : MeasurableSpace Ω] {P : Measure Ω} [IsProbabilityMeasure P]
  {past : Filtration ℕ m0} {p : WengLinRating ℝ} {cfg : WengLinConfig ℝ} {θ D S : ℝ}
  {a b : ℕ → Ω → WengLinRating ℝ} {o : ℕ → Ω → Outcomes}

/-- Facts about the walk that hold on each path. -/
structure Walk (p : WengLinRating ℝ) (cfg : WengLinConfig ℝ) (a b : ℕ → Ω → WengLinRating ℝ)
    (o : ℕ → Ω → Outcomes) : Prop where
  start : ∀ ω, a 0 ω = p
  uncertain : 0 < p.uncertainty
  beta : cfg.beta ≠ 0
  tolerance : cfg.uncertaintyTolerance ≤ 3 / 4
  step : ∀ n ω, a (n + 1) ω = (wengLin (a n ω) (b n ω) (o n ω) cfg).1

/-- The scale of a game. -/
noncomputable def scale (cfg : WengLinConfig ℝ) (a b : ℕ → Ω → WengLinRating ℝ) (n : ℕ) (ω : Ω) : ℝ :=
  wlC cfg.beta ((a n ω).uncertainty ^ 2) ((b n ω).uncertainty ^ 2)

/-- The step size of a game. -/
noncomputable def gain (cfg : WengLinConfig ℝ) (a b : ℕ → Ω → WengLinRating ℝ) (n : ℕ) (ω : Ω) : ℝ :=
  (a n ω).uncertainty ^ 2 / scale cfg a b n ω

/-- The share of the variance that a game takes away. -/
noncomputable def taken (cfg : WengLinConfig ℝ) (a b : ℕ → Ω → WengLinRating ℝ) (n : ℕ) (ω : Ω) : ℝ :=
  share cfg.beta (a n ω).uncertainty (b n ω).uncertainty (a n ω).rating (b n ω).rating

/-- The misjudgement of the player before a game, in the direction of the error. -/
noncomputable def tilted (cfg : WengLinConfig ℝ) (θ : ℝ) (a b : ℕ → Ω → WengLinRating ℝ) (n : ℕ)
    (ω : Ω) : ℝ :=
  tilt cfg.beta (a n ω).uncertainty (b n ω).uncertainty (a n ω).rating (b n ω).rating θ

namespace Walk

theorem rating_succ (w : Walk p cfg a b o) (n : ℕ) (ω : Ω) :
    (a (n + 1) ω).rating = (a n ω).rating
      + gain cfg a b n ω * (points (o n ω) - wlP (scale cfg a b n ω) (a n ω).rating
        (b n ω).rating) := by
  rw [w.step, wengLin_real]; rfl

theorem uncertainty_succ' (w : Walk p cfg a b o) (n : ℕ) (ω : Ω) :
    (a (n + 1) ω).uncertainty
      = √((a n ω).uncertainty ^ 2 * max (1 - taken cfg a b n ω) cfg.uncertaintyTolerance) := by
  rw [w.step, wengLin_real]; rfl

theorem uncertainty_pos (w : Walk p cfg a b o) (n : ℕ) (ω : Ω) : 0 < (a n ω).uncertainty := by
  induction n with
  | zero => rw [w.start]; exact w.uncertain
  | succ n ih =>
    rw [w.uncertainty_succ', taken, var_after _ _ _ w.beta w.tolerance ih]
    have h := (share_le (b n ω).uncertainty (a n ω).rating (b n ω).rating w.beta ih).1
    exact mul_pos ih (Real.sqrt_pos.2 (by linarith))

theorem uncertainty_sq (w : Walk p cfg a b o) (n : ℕ) (ω : Ω) :
    (a (n + 1) ω).uncertainty ^ 2 = (a n ω).uncertainty ^ 2 * (1 - taken cfg a b n ω) := by
  have hu := w.uncertainty_pos n ω
  have h := (share_le (b n ω).uncertainty (a n ω).rating (b n ω).rating w.beta hu).1
  rw [w.uncertainty_succ', taken, var_after _ _ _ w.beta w.tolerance hu, mul_pow,
    Real.sq_sqrt (by linarith)]

theorem taken_nonneg (w : Walk p cfg a b o) (n : ℕ) (ω : Ω) : 0 ≤ taken cfg a b n ω :=
  share_nonneg _ _ _ (w.uncertainty_pos n ω).le

theorem uncertainty_anti (w : Walk p cfg a b o) (n : ℕ) (ω : Ω) :
    (a (n + 1) ω).uncertainty ≤ (a n ω).uncertainty := by
  have hu := w.uncertainty_pos n ω
  have h := w.taken_nonneg n ω
  have h2 := w.uncertainty_sq n ω
  refine le_of_sq_le_sq ?_ hu.le
  rw [h2]
  nlinarith [sq_nonneg (a n ω).uncertainty]

theorem uncertainty_le (w : Walk p cfg a b o) (n : ℕ) (ω : Ω) :
    (a n ω).uncertainty ≤ p.uncertainty := by
  induction n with
  | zero => rw [w.start]
  | succ n ih => exact (w.uncertainty_anti n ω).trans ih

theorem scale_ge (n : ℕ) (ω : Ω) : wlC cfg.beta 0 0 ≤ scale cfg a b n ω :=
  wlC_ge_base (sq_nonneg _) (sq_nonneg _)

theorem scale_pos (w : Walk p cfg a b o) (n : ℕ) (ω : Ω) : 0 < scale cfg a b n ω :=
  (wlC_base_pos w.beta).trans_le (scale_ge n ω)

/-- The largest scale. -/
noncomputable def top (p : WengLinRating ℝ) (cfg : WengLinConfig ℝ) (S : ℝ) : ℝ :=
  wlC cfg.beta (p.uncertainty ^ 2) (S ^ 2)

theorem scale_le (w : Walk p cfg a b o) {n : ℕ} {ω : Ω} (hS : |(b n ω).uncertainty| ≤ S) :
    scale cfg a b n ω ≤ top p cfg S := by
  refine wlC_mono (pow_le_pow_left₀ (w.uncertainty_pos n ω).le (w.uncertainty_le n ω) 2) ?_
  rw [← sq_abs]
  exact pow_le_pow_left₀ (abs_nonneg _) hS 2

theorem top_pos (w : Walk p cfg a b o) (S : ℝ) : 0 < top p cfg S :=
  wlC_pos (sq_nonneg _) (sq_nonneg _) (Or.inr (Or.inr w.beta))

/-- The variance does not fall faster than like `1/n`. -/
theorem variance_ge (w : Walk p cfg a b o) (n : ℕ) (ω : Ω) :
    1 / (1 / p.uncertainty ^ 2 + n * (1 / (3 * wlC cfg.beta 0 0 ^ 2)))
      ≤ (a n ω).uncertainty ^ 2 := by
  have h0 := wlC_base_pos w.beta
  have key : 1 / (a n ω).uncertainty ^ 2
      ≤ 1 / p.uncertainty ^ 2 + n * (1 / (3 * wlC cfg.beta 0 0 ^ 2)) := by
    induction n with
    | zero => rw [w.start]; simp
    | succ n ih =>
      have hu := w.uncertainty_pos n ω
      obtain ⟨h1, h2⟩ := share_le (b n ω).uncertainty (a n ω).rating (b n ω).rating w.beta hu
      have h3 := w.taken_nonneg n ω
      rw [w.uncertainty_sq]
      have e : share cfg.beta (a n ω).uncertainty (b n ω).uncertainty (a n ω).rating
        (b n ω).rating = taken cfg a b n ω := rfl
      rw [e] at h1 h2
      generalize taken cfg a b n ω = t at *
      have h4 : 1 / (1 - t) ≤ 1 + 4 / 3 * t := by
        rw [div_le_iff₀ (by linarith)]
        nlinarith
      have h5 : 1 / ((a n ω).uncertainty ^ 2 * (1 - t))
          ≤ 1 / (a n ω).uncertainty ^ 2 + 1 / (3 * wlC cfg.beta 0 0 ^ 2) := by
        calc 1 / ((a n ω).uncertainty ^ 2 * (1 - t))
            = 1 / (a n ω).uncertainty ^ 2 * (1 / (1 - t)) := by
              rw [one_div_mul_one_div]
          _ ≤ 1 / (a n ω).uncertainty ^ 2 * (1 + 4 / 3 * t) := by gcongr
          _ ≤ 1 / (a n ω).uncertainty ^ 2
              * (1 + 4 / 3 * ((a n ω).uncertainty ^ 2 / (4 * wlC cfg.beta 0 0 ^ 2))) := by gcongr
          _ = _ := by field_simp
      push_cast
      linarith
  have := one_div_le_one_div_of_le
    (one_div_pos.2 (by have := w.uncertainty_pos n ω; positivity)) key
  rwa [one_div_one_div] at this

/-- The fourth power of the uncertainty is made up for by its decrease, if the opponent is within
reach. -/
theorem fourth (w : Walk p cfg a b o) {n : ℕ} {ω : Ω} {L : ℝ}
    (hS : |(b n ω).uncertainty| ≤ S) (hL : |(b n ω).rating - (a n ω).rating| ≤ L) :
    (a n ω).uncertainty ^ 4
      ≤ 2 * top p cfg S ^ 3 / sigmoid (-(L / wlC cfg.beta 0 0)) ^ 2
        * ((a n ω).uncertainty - (a (n + 1) ω).uncertainty) := by
  have hu := w.uncertainty_pos n ω
  have hu' := w.uncertainty_pos (n + 1) ω
  have h1 := share_ge w.beta hu (w.scale_le hS) hL
  have h2 := w.uncertainty_sq n ω
  have h3 := w.uncertainty_anti n ω
  have e : share cfg.beta (a n ω).uncertainty (b n ω).uncertainty (a n ω).rating
    (b n ω).rating = taken cfg a b n ω := rfl
  rw [e] at h1
  have hC := w.top_pos S
  have hs := sigmoid_pos (-(L / wlC cfg.beta 0 0))
  generalize taken cfg a b n ω = t at *
  generalize sigmoid (-(L / wlC cfg.beta 0 0)) = s at *
  generalize top p cfg S = C at *
  generalize (a n ω).uncertainty = u at *
  generalize (a (n + 1) ω).uncertainty = u' at *
  have h4 : u ^ 2 * t ≤ 2 * u * (u - u') := by nlinarith
  have h5 : u ^ 2 * ((u / C) ^ 3 * s ^ 2) ≤ 2 * u * (u - u') :=
    (mul_le_mul_of_nonneg_left h1 (sq_nonneg u)).trans h4
  have h6 : u ^ 2 * ((u / C) ^ 3 * s ^ 2) = u * (u ^ 4 * (s ^ 2 / C ^ 3)) := by
    field_simp
  rw [h6, show 2 * u * (u - u') = u * (2 * (u - u')) by ring] at h5
  have h7 := le_of_mul_le_mul_left h5 hu
  rw [← le_div_iff₀ (by positivity)] at h7
  refine h7.trans_eq ?_
  field_simp

/-! ### Measurability of the walk -/

theorem adapted (w : Walk p cfg a b o)
    (h : Career P past (·.rating) (·.uncertainty) (fun b => (expectedScore ⟨θ, 0⟩ b cfg).1) θ D S
      (fun _ => 1) (fun n _ => b n) (fun n _ => o n)) (n : ℕ) :
    Measurable[past n] (fun ω => (a n ω).rating) ∧
      Measurable[past n] (fun ω => (a n ω).uncertainty) := by
  induction n with
  | zero =>
    simp only [w.start]
    exact ⟨measurable_const, measurable_const⟩
  | succ n ih =>
    have hle : past n ≤ past (n + 1) := past.mono n.le_succ
    have hr : Measurable[past (n + 1)] (fun ω => (a n ω).rating) := ih.1.mono hle le_rfl
    have hd : Measurable[past (n + 1)] (fun ω => (a n ω).uncertainty) := ih.2.mono hle le_rfl
    have hb : Measurable[past (n + 1)] (fun ω => (b n ω).rating) :=
      (h.opponent n 0).mono hle le_rfl
    have hv : Measurable[past (n + 1)] (fun ω => (b n ω).uncertainty) :=
      (h.uncertainty n 0).mono hle le_rfl
    have ho : Measurable[past (n + 1)] (fun ω => points (o n ω)) := h.result n 0
    have e1 : (fun ω => (a (n + 1) ω).rating) = fun ω => _ := funext fun ω => w.rating_succ n ω
    have e2 : (fun ω => (a (n + 1) ω).uncertainty) = fun ω => _ :=
      funext fun ω => w.uncertainty_succ' n ω
    rw [e1, e2]
    letI := past (n + 1)
    have hc : Measurable fun ω => scale cfg a b n ω :=
      measurable_wlC _ (hd.pow_const 2) (hv.pow_const 2)
    constructor
    · exact hr.add (((hd.pow_const 2).div hc).mul (ho.sub (measurable_wlP hc hr hb)))
    · exact ((hd.pow_const 2).mul (((measurable_share cfg.beta hd hv hr hb).const_sub 1).max
        measurable_const)).sqrt

theorem measurables (w : Walk p cfg a b o)
    (h : Career P past (·.rating) (·.uncertainty) (fun b => (expectedScore ⟨θ, 0⟩ b cfg).1) θ D S
      (fun _ => 1) (fun n _ => b n) (fun n _ => o n)) (n : ℕ) :
    Measurable[past n] (fun ω => gain cfg a b n ω) ∧
    Measurable[past n] (fun ω => wlP (scale cfg a b n ω) (a n ω).rating (b n ω).rating) ∧
    Measurable[past n] (fun ω => wlP (wlC cfg.beta 0 ((b n ω).uncertainty ^ 2)) θ
      (b n ω).rating) := by
  obtain ⟨hr, hd⟩ := w.adapted h n
  have hb : Measurable[past n] (fun ω => (b n ω).rating) := h.opponent n 0
  have hv : Measurable[past n] (fun ω => (b n ω).uncertainty) := h.uncertainty n 0
  letI := past n
  have hc : Measurable fun ω => scale cfg a b n ω :=
    measurable_wlC _ (hd.pow_const 2) (hv.pow_const 2)
  exact ⟨(hd.pow_const 2).div hc, measurable_wlP hc hr hb,
    measurable_wlP (measurable_wlC _ measurable_const (hv.pow_const 2)) measurable_const hb⟩

end Walk
end
end Skillratings.WengLin
