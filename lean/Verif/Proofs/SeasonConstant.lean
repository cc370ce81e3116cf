import Verif.Proofs.LongRunMean
import Verif.Proofs.SeasonWalk
/-
An endless season rated with a constant factor.
-/
namespace Skillratings
open Spec MeasureTheory Filter
open Real (sigmoid sigmoid_pos sigmoid_lt_one)
open scoped Topology

/-- Ratings far from the strengths give forecasts far from the true ones. -/
theorem sigmoid_separated {κ : Type} [Finite κ] {a : ℝ} (ha : 0 < a) (t : κ → ℝ) :
    ∃ c > 0, ∀ i x, 1 ≤ |x - t i| → c ≤ |sigmoid (a * x) - sigmoid (a * t i)| := by
  have mono : StrictMono fun x => sigmoid (a * x) :=
    fun x y h => Real.sigmoid_strictMono (mul_lt_mul_of_pos_left h ha)
  cases isEmpty_or_nonempty κ with
  | inl _ => exact ⟨1, one_pos, fun i => isEmptyElim i⟩
  | inr _ =>
    obtain ⟨i₀, hi₀⟩ := Finite.exists_min fun i => min (sigmoid (a * (t i + 1)) - sigmoid (a * t i))
      (sigmoid (a * t i) - sigmoid (a * (t i - 1)))
    refine ⟨_, lt_min (sub_pos.2 (mono (lt_add_one (t i₀)))) (sub_pos.2 (mono (sub_one_lt (t i₀)))),
      fun i x hx => (hi₀ i).trans ?_⟩
    rcases le_total (t i) x with h | h
    · rw [abs_of_nonneg (sub_nonneg.2 h)] at hx
      refine (min_le_left _ _).trans (le_trans ?_ (le_abs_self _))
      have := mono.monotone (show t i + 1 ≤ x by linarith)
      linarith
    · rw [abs_of_nonpos (sub_nonpos.2 h)] at hx
      refine (min_le_right _ _).trans (le_trans ?_ (neg_le_abs _))
      have := mono.monotone (show x ≤ t i - 1 by linarith)
      linarith

/-- The change of the squared distance, split into a fall, an error and a noise. -/
theorem noisy_identity {K x t p q o : ℝ} (ho : o ^ 2 ≤ o) :
    2 * K * (x - t) * (o - p) + 2 * K ^ 2 * (o - p) ^ 2
      ≤ -(2 * K * ((x - t) * (p - q)) - 2 * K ^ 2 * (p - q) ^ 2) + K ^ 2 / 2
        + (2 * K * (x - t) + 2 * K ^ 2 * (1 - 2 * p)) * (o - q) := by
  have h1 := mul_nonneg (sq_nonneg K) (sub_nonneg.2 ho)
  have h2 := mul_nonneg (sq_nonneg K) (sq_nonneg (2 * q - 1))
  nlinarith

variable {Ω ι γ R : Type} [m0 : MeasurableSpace Ω] [DecidableEq ι] [Fintype ι] {P : Measure Ω}
  {past : Filtration ℕ m0} {rate : R → R → Outcomes → γ → R × R}
  {expected : R → R → ℝ × ℝ} {val : R → ℝ} {good : γ → Prop} {K a : ℝ}
  {θ pool : ι → R} {games : ℕ → Ω → Game ι γ}

omit m0 in
theorem lead_sq_le (n : ℕ) (ω : Ω) :
    (ratedLead rate val pool games n ω - trueLead val θ games n ω) ^ 2
      ≤ 2 * gap val θ (standing rate pool (games · ω) n) := by
  have hne := (games n ω).ne
  set f := (games n ω).first
  set s := (games n ω).second
  set e : ι → ℝ := fun i => val (standing rate pool (games · ω) n i) - val (θ i) with he
  have h1 : e f ^ 2 + e s ^ 2 ≤ ∑ i, e i ^ 2 := by
    rw [← Finset.sum_pair (f := fun i => e i ^ 2) hne]
    exact Finset.sum_le_sum_of_subset_of_nonneg (Finset.subset_univ _) fun i _ _ => sq_nonneg _
  have h2 : ratedLead rate val pool games n ω - trueLead val θ games n ω = e f - e s := by
    simp only [ratedLead, trueLead, he]; ring
  rw [h2]
  have h3 : gap val θ (standing rate pool (games · ω) n) = ∑ i, e i ^ 2 := rfl
  rw [h3]
  nlinarith [sq_nonneg (e f + e s)]

/-- The squared distance falls on average while the forecasts are wrong. -/
theorem Spec.Season.noisy [IsProbabilityMeasure P] (h : Season P past expected θ games)
    (L : LogisticRule rate expected val good K a) (ha : 0 < a) (hK : 0 < K) (hKa : K * a < 4)
    (hgood : ∀ n ω, good (games n ω).config) :
    ∃ y C, Noisy P past (fun n ω => gap val θ (standing rate pool (games · ω) n))
      (fun n ω => fall rate val (fun _ => K) a θ pool games n ω
        - 2 * K ^ 2 * (sigmoid (a * ratedLead rate val pool games n ω)
          - sigmoid (a * trueLead val θ games n ω)) ^ 2) y (K ^ 2 / 2) C := by
  have hk : ∀ _ : ℕ, 0 ≤ K := fun _ => hK.le
  obtain ⟨mV, iV, md, id, -⟩ := h.balance (pool := pool) (k := fun _ => K) (fun _ => L) hgood hk
  have mx := fun n i => h.adapted (rate := rate) (val := val) (pool := pool) (k := fun _ => K)
    (fun _ => L) hgood n i
  have my : ∀ n, Measurable[past n] (ratedLead rate val pool games n) := fun n =>
    measurable_paired (h.pairing n) (h := fun f s ω => val (standing rate pool (games · ω) n f)
      - val (standing rate pool (games · ω) n s)) fun f s => (mx n f).sub (mx n s)
  have mt : ∀ n, Measurable[past n] (trueLead val θ games n) := fun n =>
    measurable_paired (h.pairing n) (h := fun f s _ => val (θ f) - val (θ s))
      fun f s => measurable_const
  have mp : ∀ n, Measurable[past n] fun ω => sigmoid (a * ratedLead rate val pool games n ω) :=
    fun n => measurable_sigmoid ((my n).const_mul a)
  have mq : ∀ n, Measurable[past n] fun ω => sigmoid (a * trueLead val θ games n ω) := fun n =>
    measurable_sigmoid ((mt n).const_mul a)
  set w : ℕ → Ω → ℝ := fun n ω => 2 * K * (ratedLead rate val pool games n ω
    - trueLead val θ games n ω)
      + 2 * K ^ 2 * (1 - 2 * sigmoid (a * ratedLead rate val pool games n ω)) with hw
  have mw : ∀ n, Measurable[past n] (w n) := fun n =>
    (((my n).sub (mt n)).const_mul _).add ((((mp n).const_mul 2).const_sub 1).const_mul _)
  set V : ℕ → Ω → ℝ := fun n ω => gap val θ (standing rate pool (games · ω) n) with hV
  have hV0 : ∀ n ω, 0 ≤ V n ω := fun n ω => Finset.sum_nonneg fun i _ => sq_nonneg _
  have hlead : ∀ n ω, (ratedLead rate val pool games n ω - trueLead val θ games n ω) ^ 2
      ≤ 2 * V n ω := fun n ω => lead_sq_le n ω
  have bV : ∀ n, ∃ B, ∀ ω, |V n ω| ≤ B := by
    intro n
    choose C hC using fun i => standing_abs (pool := pool) (k := fun _ => K) (fun _ => L) hk hgood n i
    refine ⟨∑ i, (C i + |val (θ i)|) ^ 2, fun ω => ?_⟩
    rw [abs_of_nonneg (hV0 n ω)]
    refine Finset.sum_le_sum fun i _ => ?_
    rw [← sq_abs]
    exact pow_le_pow_left₀ (abs_nonneg _) ((abs_sub _ _).trans (by linarith [hC i ω])) 2
  have hw2 : ∀ n ω, w n ω ^ 2 ≤ 8 * K ^ 2 * (ratedLead rate val pool games n ω
      - trueLead val θ games n ω) ^ 2 + 8 * K ^ 4 := by
    intro n ω
    have h1 := sigmoid_pos (a * ratedLead rate val pool games n ω)
    have h2 := sigmoid_lt_one (a * ratedLead rate val pool games n ω)
    simp only [hw]
    set p := sigmoid (a * ratedLead rate val pool games n ω)
    set x := ratedLead rate val pool games n ω - trueLead val θ games n ω
    have h3 : (1 - 2 * p) ^ 2 ≤ 1 := by nlinarith
    have h4 := mul_le_mul_of_nonneg_left h3 (show 0 ≤ 8 * K ^ 4 by positivity)
    nlinarith [sq_nonneg (2 * K * x - 2 * K ^ 2 * (1 - 2 * p))]
  have ho : ∀ n ω, |points (games n ω).outcome - sigmoid (a * trueLead val θ games n ω)| ≤ 1 :=
    fun n ω => surprise_abs _ _
  have hy2 : ∀ n ω, (w n ω * (points (games n ω).outcome
      - sigmoid (a * trueLead val θ games n ω))) ^ 2 ≤ w n ω ^ 2 := by
    intro n ω
    rw [mul_pow]
    have h1 : (points (games n ω).outcome - sigmoid (a * trueLead val θ games n ω)) ^ 2 ≤ 1 := by
      rw [← sq_abs]; exact pow_le_one₀ (abs_nonneg _) (ho n ω)
    exact mul_le_of_le_one_right (sq_nonneg _) h1
  obtain ⟨c, hc, hsep⟩ := sigmoid_separated ha fun ij : ι × ι => val (θ ij.1) - val (θ ij.2)
  have hs : 0 < 1 - K * a / 4 := by linarith
  have hfall : ∀ n ω, (1 - K * a / 4) * fall rate val (fun _ => K) a θ pool games n ω
      ≤ fall rate val (fun _ => K) a θ pool games n ω
        - 2 * K ^ 2 * (sigmoid (a * ratedLead rate val pool games n ω)
          - sigmoid (a * trueLead val θ games n ω)) ^ 2 := by
    intro n ω
    have h1 := mul_le_mul_of_nonneg_left (fall_ge (rate := rate) (val := val) (θ := θ) (pool := pool)
      (games := games) hk ha n ω) (show 0 ≤ K * a / 4 by positivity)
    have e : K * a / 4 * (2 * K * (4 / a * (sigmoid (a * ratedLead rate val pool games n ω)
        - sigmoid (a * trueLead val θ games n ω)) ^ 2))
        = 2 * K ^ 2 * (sigmoid (a * ratedLead rate val pool games n ω)
          - sigmoid (a * trueLead val θ games n ω)) ^ 2 := by field_simp
    rw [e] at h1
    linarith
  have hf0 : ∀ n ω, 0 ≤ fall rate val (fun _ => K) a θ pool games n ω := fun n ω =>
    fall_nonneg hk ha n ω
  have hpq : ∀ n ω, |sigmoid (a * ratedLead rate val pool games n ω)
      - sigmoid (a * trueLead val θ games n ω)| ≤ 1 := by
    intro n ω
    have h1 := sigmoid_pos (a * ratedLead rate val pool games n ω)
    have h2 := sigmoid_lt_one (a * ratedLead rate val pool games n ω)
    have h3 := sigmoid_pos (a * trueLead val θ games n ω)
    have h4 := sigmoid_lt_one (a * trueLead val θ games n ω)
    rw [abs_le]; constructor <;> linarith
  set M := 2 / ((1 - K * a / 4) * (2 * K * c)) with hM
  have hM0 : 0 < M := by positivity
  set C := 16 * K ^ 2 + 8 * K ^ 4 + 8 * K ^ 2 * M with hC
  have hC0 : 0 < C := by positivity
  refine ⟨fun n ω => w n ω * (points (games n ω).outcome - sigmoid (a * trueLead val θ games n ω)),
    C, fun n => (mV n).stronglyMeasurable, hV0, bV,
    fun n => ((md n).sub ((((mp n).sub (mq n)).pow_const 2).const_mul _)).stronglyMeasurable,
    fun n ω => (mul_nonneg hs.le (hf0 n ω)).trans (hfall n ω),
    fun n => (((mw n).mono (past.mono n.le_succ) le_rfl).mul ((h.result n).sub
      ((mq n).mono (past.mono n.le_succ) le_rfl))).stronglyMeasurable, fun n => ?_, by positivity,
    fun n ω => ?_, fun n ω => ?_, fun n ω => ?_, fun n ω => ?_⟩
  · obtain ⟨B, hB⟩ := bV n
    have mo : StronglyMeasurable fun ω => points (games n ω).outcome :=
      ((h.result n).mono (past.le _) le_rfl).stronglyMeasurable
    have hξ := condExp_surprises (μ := P) (past.le n) (k := 1)
      (C := 1 + (8 * K ^ 2 * (2 * B) + 8 * K ^ 4))
      (w := fun _ ω => w n ω) (e := fun _ ω => sigmoid (a * trueLead val θ games n ω))
      (s := fun _ ω => points (games n ω).outcome)
      (t := fun _ ω => sigmoid (a * trueLead val θ games n ω))
      (fun i => (mw n).stronglyMeasurable) (fun i => (mq n).stronglyMeasurable) (fun i => mo)
      (fun i ω => Noisy.abs_le_of_sq ((hw2 n ω).trans (by
        have h1 := (hlead n ω).trans (mul_le_mul_of_nonneg_left
          ((le_abs_self _).trans (hB ω)) two_pos.le)
        have := mul_le_mul_of_nonneg_left h1 (show 0 ≤ 8 * K ^ 2 by positivity)
        linarith))) (fun i ω => by
        rw [abs_of_pos (sigmoid_pos _)]; exact (sigmoid_lt_one _).le)
      (fun i ω => Glicko.points_abs _) (fun i => by
        refine (h.truthful n).trans (EventuallyEq.of_eq ?_)
        funext ω
        rw [L.expected_eq]
        rfl)
    simp only [Fin.sum_univ_one, sub_self, mul_zero] at hξ
    exact hξ
  · simp only [hV]
    rw [standing_succ, L.gap_step θ _ _ (hgood n ω)]
    have h1 : points (games n ω).outcome ^ 2 ≤ points (games n ω).outcome := by
      cases (games n ω).outcome <;> norm_num [points]
    have h2 := noisy_identity (K := K) (x := ratedLead rate val pool games n ω)
      (t := trueLead val θ games n ω) (p := sigmoid (a * ratedLead rate val pool games n ω))
      (q := sigmoid (a * trueLead val θ games n ω)) h1
    simp only [hw, fall, ratedLead, trueLead] at h2 ⊢
    linarith
  · have h1 := (mul_nonneg hs.le (hf0 n ω)).trans (hfall n ω)
    have h2 : fall rate val (fun _ => K) a θ pool games n ω
        - 2 * K ^ 2 * (sigmoid (a * ratedLead rate val pool games n ω)
          - sigmoid (a * trueLead val θ games n ω)) ^ 2
        ≤ 2 * K * |ratedLead rate val pool games n ω - trueLead val θ games n ω| := by
      have h3 : fall rate val (fun _ => K) a θ pool games n ω
          ≤ 2 * K * |ratedLead rate val pool games n ω - trueLead val θ games n ω| := by
        refine mul_le_mul_of_nonneg_left ((le_abs_self _).trans ?_) (by positivity)
        rw [abs_mul]
        exact mul_le_of_le_one_right (abs_nonneg _) (hpq n ω)
      have h4 : 0 ≤ 2 * K ^ 2 * (sigmoid (a * ratedLead rate val pool games n ω)
          - sigmoid (a * trueLead val θ games n ω)) ^ 2 := by positivity
      linarith
    refine (pow_le_pow_left₀ h1 h2 2).trans ?_
    rw [mul_pow, sq_abs]
    have h5 := mul_le_mul_of_nonneg_left (hlead n ω) (show 0 ≤ (2 * K) ^ 2 by positivity)
    have h6 : 0 ≤ (8 * K ^ 2 + 8 * K ^ 4 + 8 * K ^ 2 * M) * V n ω :=
      mul_nonneg (by positivity) (hV0 n ω)
    simp only [hC]
    nlinarith
  · refine (hy2 n ω).trans ((hw2 n ω).trans ?_)
    have h5 := mul_le_mul_of_nonneg_left (hlead n ω) (show 0 ≤ 8 * K ^ 2 by positivity)
    have h6 : 0 ≤ (8 * K ^ 4 + 8 * K ^ 2 * M) * V n ω := mul_nonneg (by positivity) (hV0 n ω)
    have h7 : 0 ≤ 16 * K ^ 2 + 8 * K ^ 2 * M := by positivity
    simp only [hC]
    nlinarith
  · refine (hy2 n ω).trans ((hw2 n ω).trans ?_)
    have hd := (mul_nonneg hs.le (hf0 n ω)).trans (hfall n ω)
    have hdf := hfall n ω
    set D := fall rate val (fun _ => K) a θ pool games n ω
        - 2 * K ^ 2 * (sigmoid (a * ratedLead rate val pool games n ω)
          - sigmoid (a * trueLead val θ games n ω)) ^ 2 with hD
    set X := ratedLead rate val pool games n ω - trueLead val θ games n ω with hX
    have hS0 := Real.sqrt_nonneg (V n ω)
    have hSD := mul_nonneg hS0 hd
    have key : X ^ 2 ≤ 1 + M * (√(V n ω) * D) := by
      rcases lt_or_ge |X| 1 with hlt | hge
      · have : X ^ 2 ≤ 1 := by
          rw [← sq_abs]; exact pow_le_one₀ (abs_nonneg _) hlt.le
        have := mul_nonneg hM0.le hSD
        linarith
      · have h1 := hsep ((games n ω).first, (games n ω).second) _ hge
        have h2 : 2 * K * (|X| * c) ≤ fall rate val (fun _ => K) a θ pool games n ω := by
          have h3 : fall rate val (fun _ => K) a θ pool games n ω
              = 2 * K * (|X| * |sigmoid (a * ratedLead rate val pool games n ω)
                - sigmoid (a * trueLead val θ games n ω)|) := by
            have h4 : 0 ≤ X * (sigmoid (a * ratedLead rate val pool games n ω)
                - sigmoid (a * trueLead val θ games n ω)) :=
              le_trans (by positivity) (sigmoid_strong ha _ _)
            rw [← abs_mul, abs_of_nonneg h4]
            rfl
          rw [h3]
          refine mul_le_mul_of_nonneg_left (mul_le_mul_of_nonneg_left h1 (abs_nonneg _))
            (by positivity)
        have h5 : (1 - K * a / 4) * (2 * K * c) * |X| ≤ D := by
          have := mul_le_mul_of_nonneg_left h2 hs.le
          linarith
        have h6 : |X| ≤ 2 * √(V n ω) := by
          refine abs_le_of_sq_le_sq ?_ (by positivity) |>.trans_eq' rfl
          rw [mul_pow, Real.sq_sqrt (hV0 n ω)]
          linarith [hlead n ω, hV0 n ω]
        have hden : 0 < (1 - K * a / 4) * (2 * K * c) := by positivity
        have h7 : X ^ 2 ≤ M * (√(V n ω) * D) := by
          rw [hM, div_mul_eq_mul_div, le_div_iff₀ hden, ← sq_abs]
          have h8 := mul_le_mul h6 h5 (by positivity) (by positivity)
          linarith
        linarith
    have h9 := mul_le_mul_of_nonneg_left key (show 0 ≤ 8 * K ^ 2 by positivity)
    have h10 : 0 ≤ (16 * K ^ 2 + 8 * K ^ 4) * (√(V n ω) * D) := mul_nonneg (by positivity) hSD
    have h11 : 0 ≤ 8 * K ^ 2 + 8 * K ^ 2 * M := by positivity
    simp only [hC]
    nlinarith

/-- In the long run the forecasts are right up to a small mean squared error. -/
theorem Spec.Season.long_run [IsProbabilityMeasure P] (h : Season P past expected θ games)
    (L : LogisticRule rate expected val good K a) (ha : 0 < a) (hK : 0 < K) (hKa : K * a < 4)
    (hgood : ∀ n ω, good (games n ω).config) :
    ∀ᵐ ω ∂P, ∀ ε > 0, ∀ᶠ n : ℕ in atTop,
      (∑ m ∈ Finset.range n, ((expected (standing rate pool (games · ω) m (games m ω).first)
          (standing rate pool (games · ω) m (games m ω).second)).1
        - (expected (θ (games m ω).first) (θ (games m ω).second)).1) ^ 2) / n
        ≤ K * a / (4 * (4 - K * a)) + ε := by
  obtain ⟨y, C, hN⟩ := h.noisy (pool := pool) L ha hK hKa hgood
  filter_upwards [hN.average] with ω hω ε hε
  have hc : 0 < 2 * K * (4 - K * a) / a := by
    have : 0 < 4 - K * a := by linarith
    positivity
  filter_upwards [hω _ (mul_pos hc hε), eventually_gt_atTop 0] with n h1 h2
  have hn : (0 : ℝ) < n := by exact_mod_cast h2
  rw [div_le_iff₀ hn]
  have h3 : 2 * K * (4 - K * a) / a * ∑ m ∈ Finset.range n,
      ((expected (standing rate pool (games · ω) m (games m ω).first)
          (standing rate pool (games · ω) m (games m ω).second)).1
        - (expected (θ (games m ω).first) (θ (games m ω).second)).1) ^ 2
      ≤ 2 * K * (4 - K * a) / a * ((K * a / (4 * (4 - K * a)) + ε) * n) := by
    have e : 2 * K * (4 - K * a) / a * ((K * a / (4 * (4 - K * a)) + ε) * n)
        = (K ^ 2 / 2 + 2 * K * (4 - K * a) / a * ε) * n := by
      have : 4 - K * a ≠ 0 := by linarith
      field_simp
      ring
    rw [e]
    refine le_trans ?_ (le_trans (le_add_of_nonneg_left (hN.nonneg n ω)) h1)
    rw [Finset.mul_sum]
    refine Finset.sum_le_sum fun m _ => ?_
    have h4 := fall_ge (rate := rate) (val := val) (θ := θ) (pool := pool) (k := fun _ => K)
      (games := games) (fun _ => hK.le) ha m ω
    rw [L.expected_eq, L.expected_eq]
    simp only [ratedLead, trueLead] at h4 ⊢
    have e2 : ∀ z : ℝ, 2 * K * (4 - K * a) / a * z = 2 * K * (4 / a * z) - 2 * K ^ 2 * z := by
      intro z; field_simp
    rw [e2]
    linarith
  exact le_of_mul_le_mul_left h3 hc

/-- The ratings stay near the strengths, compared with the square root of the number of games. -/
theorem Spec.Season.distance [IsProbabilityMeasure P] (h : Season P past expected θ games)
    (L : LogisticRule rate expected val good K a) (ha : 0 < a) (hK : 0 < K) (hKa : K * a < 4)
    (hgood : ∀ n ω, good (games n ω).config) :
    ∀ᵐ ω ∂P, ∀ ε > 0, ∀ᶠ n : ℕ in atTop,
      ∑ i, (val (standing rate pool (games · ω) n i) - val (θ i)) ^ 2 ≤ (K ^ 2 / 2 + ε) * n := by
  obtain ⟨y, C, hN⟩ := h.noisy (pool := pool) L ha hK hKa hgood
  filter_upwards [hN.average] with ω hω ε hε
  filter_upwards [hω ε hε] with n h1
  exact (le_add_of_nonneg_right (Finset.sum_nonneg fun m _ => hN.fall_nonneg m ω)).trans h1

end Skillratings
