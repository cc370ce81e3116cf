import Verif.Proofs.SeasonPath
/-
Random pairings in an endless season.
-/
namespace Skillratings
open Spec MeasureTheory Filter
open Real (sigmoid sigmoid_pos sigmoid_lt_one)
open scoped Topology ProbabilityTheory

variable {Ω ι γ R : Type} [m0 : MeasurableSpace Ω] [DecidableEq ι] [Fintype ι] {P : Measure Ω}
  {past before : Filtration ℕ m0} {rate : R → R → Outcomes → γ → R × R}
  {expected : R → R → ℝ × ℝ} {val : R → ℝ} {good : ℕ → γ → Prop} {k : ℕ → ℝ} {a δ : ℝ}
  {θ pool : ι → R} {games : ℕ → Ω → Game ι γ} {G : ι → ι → Prop}

/-- How much the squared distance would fall, up to the factor, if `i` and `j` played game `n`. -/
noncomputable def share (rate : R → R → Outcomes → γ → R × R) (val : R → ℝ) (a : ℝ)
    (θ pool : ι → R) (games : ℕ → Ω → Game ι γ) (i j : ι) (n : ℕ) (ω : Ω) : ℝ :=
  (val (standing rate pool (games · ω) n i) - val (standing rate pool (games · ω) n j)
      - (val (θ i) - val (θ j)))
    * (sigmoid (a * (val (standing rate pool (games · ω) n i)
        - val (standing rate pool (games · ω) n j))) - sigmoid (a * (val (θ i) - val (θ j))))

omit m0 [Fintype ι] in
theorem share_nonneg (ha : 0 < a) (i j : ι) (n : ℕ) (ω : Ω) :
    0 ≤ share rate val a θ pool games i j n ω :=
  le_trans (by positivity) (sigmoid_strong ha _ _)

omit m0 [Fintype ι] in
theorem share_symm (i j : ι) (n : ℕ) (ω : Ω) :
    share rate val a θ pool games j i n ω = share rate val a θ pool games i j n ω := by
  rw [share, share, ← neg_sub (val (standing rate pool (games · ω) n i)),
    ← neg_sub (val (θ i)) (val (θ j)), mul_neg, mul_neg, Real.sigmoid_neg, Real.sigmoid_neg]
  ring

omit m0 [Fintype ι] in
theorem fall_share (n : ℕ) (ω : Ω) : fall rate val k a θ pool games n ω = 2 * k n
    * share rate val a θ pool games (games n ω).first (games n ω).second n ω := rfl

omit m0 [Fintype ι] in
/-- The share is positive if the errors of the two players differ. -/
theorem share_ge (ha : 0 < a) {T ε : ℝ} (hT : ∀ i, |val (θ i)| ≤ T) (hε : 0 < ε) (i j : ι) (n : ℕ)
    (ω : Ω) (hd : ε ≤ |(val (standing rate pool (games · ω) n i) - val (θ i))
      - (val (standing rate pool (games · ω) n j) - val (θ j))|) :
    sigmoid (-(a * (T + T))) ^ 2 * (1 - Real.exp (-(a * ε))) * ε
      ≤ share rate val a θ pool games i j n ω := by
  set y := val (standing rate pool (games · ω) n i) - val (standing rate pool (games · ω) n j)
    with hy
  have hx : ε ≤ |y - (val (θ i) - val (θ j))| := by
    refine hd.trans_eq ?_
    rw [hy]; congr 1; ring
  have hp := logistic_pull (x := y) (y := 0) (θ := val (θ i) - val (θ j)) (D := T + T) ha (by
      rw [zero_sub, abs_neg]
      exact (abs_sub _ _).trans (add_le_add (hT _) (hT _))) hε.le hx
  rw [sub_zero, sub_zero, mul_comm (sigmoid _ - sigmoid _)] at hp
  have h2 : Real.exp (-(a * ε)) < 1 := Real.exp_lt_one_iff.2 (neg_lt_zero.2 (by positivity))
  have h3 : 0 < 1 - Real.exp (-(a * ε)) := by linarith
  exact (mul_le_mul_of_nonneg_left hx (by positivity)).trans hp

open Classical in
/-- The shares of all pairs that may meet. -/
noncomputable def shares (G : ι → ι → Prop) (rate : R → R → Outcomes → γ → R × R) (val : R → ℝ)
    (a : ℝ) (θ pool : ι → R) (games : ℕ → Ω → Game ι γ) (n : ℕ) (ω : Ω) : ℝ :=
  ∑ i, ∑ j, if G i j then share rate val a θ pool games i j n ω else 0

omit m0 in
theorem share_le_shares (ha : 0 < a) {i j : ι} (h : G i j) (n : ℕ) (ω : Ω) :
    share rate val a θ pool games i j n ω ≤ shares G rate val a θ pool games n ω := by
  classical
  have h0 : ∀ i j, 0 ≤ if G i j then share rate val a θ pool games i j n ω else 0 := fun i j => by
    split_ifs
    · exact share_nonneg ha i j n ω
    · rfl
  have h1 := Finset.single_le_sum (f := fun j => if G i j then share rate val a θ pool games i j n ω
    else 0) (fun j _ => h0 i j) (Finset.mem_univ j)
  have h2 := Finset.single_le_sum (f := fun i => ∑ j, if G i j then
    share rate val a θ pool games i j n ω else 0) (fun i _ => Finset.sum_nonneg fun j _ => h0 i j)
    (Finset.mem_univ i)
  simp only [h, if_true] at h1
  rw [shares]
  exact h1.trans (by convert h2)

theorem Spec.Matchmaking.settles [IsProbabilityMeasure P] [Nonempty ι]
    (h : Season P past expected θ games)
    (m : Matchmaking P past before G δ games) (hδ : 0 < δ)
    (L : ∀ n, LogisticRule rate expected val (good n) (k n) a) (ha : 0 < a)
    (hgood : ∀ n ω, good n (games n ω).config) (hk : ∀ n, 0 ≤ k n)
    (hk2 : Summable fun n => k n ^ 2) :
    ∀ᵐ ω ∂P, (∃ v, Tendsto (fun n => gap val θ (standing rate pool (games · ω) n)) atTop (𝓝 v)) ∧
      Summable fun n => k n * shares G rate val a θ pool games n ω := by
  classical
  have hle : ∀ n, before n ≤ m0 := before.le
  have mx : ∀ n i, Measurable[before n] fun ω => val (standing rate pool (games · ω) n i) :=
    standing_measurable (fun n i j => m.paired n _ (h.pairing n i j)) m.played L hgood
  obtain ⟨-, iV, md, id, hstep⟩ := h.balance (pool := pool) L hgood hk
  have bx := fun n i => standing_abs (pool := pool) L hk hgood n i
  have mV : ∀ n, Measurable[before n] fun ω => gap val θ (standing rate pool (games · ω) n) :=
    fun n => Finset.measurable_fun_sum _ fun i _ => ((mx n i).sub_const _).pow_const 2
  have ms : ∀ n i j, Measurable[before n] (share rate val a θ pool games i j n) := fun n i j =>
    (((mx n i).sub (mx n j)).sub_const _).mul
      ((measurable_sigmoid (((mx n i).sub (mx n j)).const_mul a)).sub_const _)
  have bs : ∀ n i j, ∃ C, ∀ ω, |share rate val a θ pool games i j n ω| ≤ C := by
    intro n i j
    obtain ⟨C1, h1⟩ := bx n i
    obtain ⟨C2, h2⟩ := bx n j
    refine ⟨(C1 + C2 + |val (θ i) - val (θ j)|) * 1, fun ω => ?_⟩
    rw [share, abs_mul]
    have b1 := abs_sub (val (standing rate pool (games · ω) n i))
      (val (standing rate pool (games · ω) n j))
    have b2 := abs_sub (val (standing rate pool (games · ω) n i)
      - val (standing rate pool (games · ω) n j)) (val (θ i) - val (θ j))
    refine mul_le_mul (by linarith [h1 ω, h2 ω]) ?_ (abs_nonneg _) ?_
    · set u := a * (val (standing rate pool (games · ω) n i)
        - val (standing rate pool (games · ω) n j))
      set w := a * (val (θ i) - val (θ j))
      have h1 := sigmoid_pos u
      have h2 := sigmoid_lt_one u
      have h3 := sigmoid_pos w
      have h4 := sigmoid_lt_one w
      rw [abs_le]; constructor <;> linarith
    · linarith [h1 ω, h2 ω, abs_nonneg (val (standing rate pool (games · ω) n i)
      - val (standing rate pool (games · ω) n j) - (val (θ i) - val (θ j)))]
  have is : ∀ n i j, Integrable (share rate val a θ pool games i j n) P := fun n i j => by
    obtain ⟨C, hC⟩ := bs n i j
    exact Drifting.integrable_of (ms n i j).stronglyMeasurable hC
  have mS : ∀ n, Measurable[before n] (shares G rate val a θ pool games n) := fun n =>
    Finset.measurable_fun_sum _ fun i _ => Finset.measurable_fun_sum _ fun j _ => by
      by_cases hij : G i j
      · simp only [hij, if_true]; exact ms n i j
      · simp only [hij, if_false]; exact measurable_const
  have iS : ∀ n, Integrable (shares G rate val a θ pool games n) P := fun n =>
    integrable_finsetSum _ fun i _ => integrable_finsetSum _ fun j _ => by
      by_cases hij : G i j
      · simp only [hij, if_true]; exact is n i j
      · simp only [hij, if_false]; exact integrable_const _
  have hS : ∀ n ω, 0 ≤ shares G rate val a θ pool games n ω := fun n ω =>
    Finset.sum_nonneg fun i _ => Finset.sum_nonneg fun j _ => by
      split_ifs
      · exact share_nonneg ha i j n ω
      · rfl
  set N : ℝ := ((Fintype.card ι : ℕ) : ℝ) with hN
  have hN0 : 0 < N := by rw [hN]; exact_mod_cast Fintype.card_pos
  -- the fall that is to be expected before the pairing is known
  have hfall0 : ∀ n, 0 ≤ᵐ[P] P[fall rate val k a θ pool games n | before n] := fun n =>
    condExp_nonneg (ae_of_all _ fun ω => fall_nonneg hk ha n ω)
  have hedge : ∀ n i j, G i j → ∀ᵐ ω ∂P, 2 * k n * δ * share rate val a θ pool games i j n ω
      ≤ (P[fall rate val k a θ pool games n | before n]) ω := by
    intro n i j hij
    set A := {ω | (games n ω).first = i ∧ (games n ω).second = j ∨
      (games n ω).first = j ∧ (games n ω).second = i} with hA
    have mA : MeasurableSet A :=
      (past.le n _ (h.pairing n i j)).union (past.le n _ (h.pairing n j i))
    set u : Ω → ℝ := fun ω => 2 * k n * share rate val a θ pool games i j n ω with hu
    have mu : StronglyMeasurable[before n] u := ((ms n i j).const_mul _).stronglyMeasurable
    have i1 : Integrable (A.indicator fun _ => (1 : ℝ)) P := (integrable_const 1).indicator mA
    have iu : Integrable (u * A.indicator fun _ => (1 : ℝ)) P := by
      have : u * A.indicator (fun _ => (1 : ℝ)) = A.indicator u := by
        funext ω
        by_cases hω : ω ∈ A <;> simp [hω]
      rw [this]
      exact ((is n i j).const_mul _).indicator mA
    have hmono := condExp_mono (m := before n) iu (id n) (ae_of_all _ fun ω => by
      change u ω * A.indicator (fun _ => (1 : ℝ)) ω ≤ fall rate val k a θ pool games n ω
      by_cases hω : ω ∈ A
      · rw [Set.indicator_of_mem hω, mul_one, fall_share]
        rcases hω with ⟨h1, h2⟩ | ⟨h1, h2⟩
        · rw [h1, h2]
        · rw [h1, h2, share_symm]
      · rw [Set.indicator_of_notMem hω, mul_zero]
        exact fall_nonneg hk ha n ω)
    have hpull := condExp_mul_of_stronglyMeasurable_left mu iu i1
    filter_upwards [hmono, hpull, m.chance n i j hij] with ω h1 h2 h3
    rw [h2, Pi.mul_apply] at h1
    have hu0 : 0 ≤ u ω := mul_nonneg (mul_nonneg two_pos.le (hk n)) (share_nonneg ha i j n ω)
    calc _ = u ω * δ := by rw [hu]; ring
      _ ≤ _ := (mul_le_mul_of_nonneg_left h3 hu0).trans h1
  have hfall : ∀ n, ∀ᵐ ω ∂P, 2 * k n * δ / N ^ 2 * shares G rate val a θ pool games n ω
      ≤ (P[fall rate val k a θ pool games n | before n]) ω := by
    intro n
    have hall : ∀ᵐ ω ∂P, ∀ i j, G i j → 2 * k n * δ * share rate val a θ pool games i j n ω
        ≤ (P[fall rate val k a θ pool games n | before n]) ω := by
      rw [ae_all_iff]; intro i
      rw [ae_all_iff]; intro j
      by_cases hij : G i j
      · filter_upwards [hedge n i j hij] with ω hω using fun _ => hω
      · exact ae_of_all _ fun ω hg => absurd hg hij
    filter_upwards [hall, hfall0 n] with ω h1 h2
    have h3 : 2 * k n * δ * shares G rate val a θ pool games n ω
        ≤ ∑ _i : ι, ∑ _j : ι, (P[fall rate val k a θ pool games n | before n]) ω := by
      rw [shares, Finset.mul_sum]
      refine Finset.sum_le_sum fun i _ => ?_
      rw [Finset.mul_sum]
      refine Finset.sum_le_sum fun j _ => ?_
      split_ifs with hij
      · exact h1 i j hij
      · rw [mul_zero]; exact h2
    simp only [Finset.sum_const, Finset.card_univ, nsmul_eq_mul] at h3
    rw [div_mul_eq_mul_div, div_le_iff₀ (by positivity)]
    refine h3.trans_eq ?_
    rw [hN]; ring
  have hmain := falling_converges (μ := P) (ℱ := before) (b := fun n => 2 * k n ^ 2)
    (V := fun n ω => gap val θ (standing rate pool (games · ω) n))
    (d := fun n ω => 2 * k n * δ / N ^ 2 * shares G rate val a θ pool games n ω)
    (fun n => (mV n).stronglyMeasurable) iV
    (fun n ω => Finset.sum_nonneg fun i _ => sq_nonneg _)
    (fun n => ((mS n).const_mul _).stronglyMeasurable) (fun n => (iS n).const_mul _)
    (fun n ω => by have := hk n; have := hS n ω; positivity)
    (fun n => by positivity) (hk2.mul_left 2) fun n => by
      have e0 : P[P[fun ω => gap val θ (standing rate pool (games · ω) (n + 1)) | past n] | before n]
          =ᵐ[P] P[fun ω => gap val θ (standing rate pool (games · ω) (n + 1)) | before n] :=
        condExp_condExp_of_le (m.unpaired n) (past.le n)
      have iu : Integrable (fun ω => gap val θ (standing rate pool (games · ω) n) + 2 * k n ^ 2) P :=
        (iV n).add (integrable_const _)
      have e1 := condExp_mono (m := before n) integrable_condExp
        (iu.sub (id n)) ((hstep n).trans (ae_of_all _ fun ω => by
          change _ ≤ gap val θ (standing rate pool (games · ω) n) + 2 * k n ^ 2
            - fall rate val k a θ pool games n ω
          linarith))
      have e2 := condExp_sub iu (id n) (before n)
      have e3 : P[fun ω => gap val θ (standing rate pool (games · ω) n) + 2 * k n ^ 2 | before n]
          = fun ω => gap val θ (standing rate pool (games · ω) n) + 2 * k n ^ 2 :=
        condExp_of_stronglyMeasurable (before.le n)
          ((mV n).stronglyMeasurable.add stronglyMeasurable_const) iu
      filter_upwards [e0, e1, e2, hfall n] with ω h0 h1 h2 h3
      rw [← h0]
      refine h1.trans ?_
      rw [h2, Pi.sub_apply, e3]
      linarith
  filter_upwards [hmain] with ω ⟨h1, h2⟩
  refine ⟨h1, (h2.mul_left (N ^ 2 / (2 * δ))).congr fun n => ?_⟩
  field_simp

/-- If the players of a connected graph are paired at random, all ratings tend to the strengths. -/
theorem Spec.Matchmaking.tendsto [IsProbabilityMeasure P] {G : SimpleGraph ι} (hG : G.Connected)
    (h : Season P past expected θ games)
    (m : Matchmaking P past before G.Adj δ games) (hδ : 0 < δ)
    (L : ∀ n, LogisticRule rate expected val (good n) (k n) a) (ha : 0 < a)
    (hgood : ∀ n ω, good n (games n ω).config) (hk0 : ∀ n, 0 ≤ k n)
    (hk1 : ¬ Summable k) (hk2 : Summable fun n => k n ^ 2)
    (htot : ∑ i, val (pool i) = ∑ i, val (θ i)) :
    ∀ᵐ ω ∂P, ∀ i, Tendsto (fun n => val (standing rate pool (games · ω) n i)) atTop
      (𝓝 (val (θ i))) := by
  haveI := hG.nonempty
  filter_upwards [Spec.Matchmaking.settles (pool := pool) h m hδ L ha hgood hk0 hk2]
    with ω ⟨⟨v, hv⟩, hs⟩
  have hθ : ∀ i, |val (θ i)| ≤ ∑ i, |val (θ i)| := fun i =>
    Finset.single_le_sum (f := fun i => |val (θ i)|) (fun i _ => abs_nonneg _) (Finset.mem_univ i)
  set T := ∑ i, |val (θ i)| with hT
  have hv0 : 0 ≤ v := ge_of_tendsto' hv fun n => Finset.sum_nonneg fun i _ => sq_nonneg _
  rcases hv0.eq_or_lt with rfl | hpos
  · intro i
    rw [tendsto_iff_norm_sub_tendsto_zero]
    have h1 := (Real.continuous_sqrt.tendsto 0).comp hv
    rw [Real.sqrt_zero] at h1
    refine squeeze_zero (fun n => norm_nonneg _) (fun n => ?_) h1
    refine Real.le_sqrt_of_sq_le ?_
    rw [Real.norm_eq_abs, sq_abs]
    exact Finset.single_le_sum (f := fun i => (val (standing rate pool (games · ω) n i)
      - val (θ i)) ^ 2) (fun i _ => sq_nonneg _) (Finset.mem_univ i)
  exfalso
  have hN : (0 : ℝ) < Fintype.card ι := by exact_mod_cast Fintype.card_pos
  set ε := √(v / 2 / Fintype.card ι) / Fintype.card ι with hε
  have hε0 : 0 < ε := by positivity
  set η := sigmoid (-(a * (T + T))) ^ 2 * (1 - Real.exp (-(a * ε))) * ε with hη
  have hη0 : 0 < η := by
    have h1 := sigmoid_pos (-(a * (T + T)))
    have h2 : Real.exp (-(a * ε)) < 1 := Real.exp_lt_one_iff.2 (neg_lt_zero.2 (by positivity))
    have h3 : 0 < 1 - Real.exp (-(a * ε)) := by linarith
    positivity
  have e1 : ∀ᶠ n in atTop, v / 2 < gap val θ (standing rate pool (games · ω) n) :=
    hv.eventually_const_lt (by linarith)
  obtain ⟨M, hM⟩ := eventually_atTop.1 e1
  refine hk1 ((summable_nat_add_iff M).1 ?_)
  refine Summable.of_nonneg_of_le (fun n => hk0 _) (fun n => ?_)
    (((summable_nat_add_iff M).2 hs).mul_left (1 / η))
  obtain ⟨i, j, hij, hd⟩ := some_edge hG
    (e := fun i => val (standing rate pool (games · ω) (n + M) i) - val (θ i))
    (by linarith : (0 : ℝ) < v / 2)
    (by rw [Finset.sum_sub_distrib, sum_standing L (fun n => hgood n ω), htot, sub_self])
    (hM (n + M) (by omega)).le
  have h1 := share_ge ha hθ hε0 i j (n + M) ω hd
  have h2 := h1.trans (share_le_shares (G := G.Adj) ha hij (n + M) ω)
  rw [one_div_mul_eq_div, le_div_iff₀ hη0]
  exact mul_le_mul_of_nonneg_left h2 (hk0 _)

end Skillratings
