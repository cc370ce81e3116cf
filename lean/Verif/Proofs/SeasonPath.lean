import Mathlib.Combinatorics.SimpleGraph.Connectivity.Connected
import Mathlib.Combinatorics.SimpleGraph.Paths
import Verif.Proofs.SeasonWalk
/-
If everybody is compared with everybody else, if only through others, a pool whose distance to the
strengths settles ends up at the strengths.
-/
namespace Skillratings
open Spec MeasureTheory Filter
open Real (sigmoid sigmoid_pos sigmoid_lt_one)
open scoped Topology

theorem walk_diff {ι : Type} {G : SimpleGraph ι} {e : ι → ℝ} {δ : ℝ}
    (h : ∀ i j, G.Adj i j → |e i - e j| ≤ δ) {i j : ι} (w : G.Walk i j) :
    |e i - e j| ≤ w.length * δ := by
  induction w with
  | nil => simp
  | cons hadj w ih =>
    rename_i u v t
    have h1 := h _ _ hadj
    have h2 := abs_sub_le (e u) (e v) (e t)
    rw [SimpleGraph.Walk.length_cons]
    push_cast
    linarith

/-- Errors that cancel and do not vanish differ between two neighbours. -/
theorem some_edge {ι : Type} [Fintype ι] {G : SimpleGraph ι} (hG : G.Connected) {e : ι → ℝ} {v : ℝ}
    (hv : 0 < v) (hsum : ∑ i, e i = 0) (hsq : v ≤ ∑ i, e i ^ 2) :
    ∃ i j, G.Adj i j ∧ √(v / Fintype.card ι) / Fintype.card ι ≤ |e i - e j| := by
  classical
  by_contra hcon
  push Not at hcon
  obtain ⟨i0⟩ := hG.nonempty
  have hN : 0 < Fintype.card ι := Fintype.card_pos_iff.2 ⟨i0⟩
  set N : ℝ := ((Fintype.card ι : ℕ) : ℝ) with hNd
  have hN' : 1 ≤ N := by rw [hNd]; exact_mod_cast hN
  set δ := √(v / N) / N with hδ
  have hδ0 : 0 < δ := div_pos (Real.sqrt_pos.2 (div_pos hv (by linarith))) (by linarith)
  have hd : ∀ i j, |e i - e j| ≤ (N - 1) * δ := by
    intro i j
    obtain ⟨w, hw⟩ := (hG.preconnected i j).exists_isPath
    have h1 := walk_diff (fun i j h => (hcon i j h).le) w
    have h2 : (w.length : ℝ) ≤ N - 1 := by
      have := hw.length_lt
      have h3 : w.length + 1 ≤ Fintype.card ι := this
      have h4 : ((w.length + 1 : ℕ) : ℝ) ≤ N := by rw [hNd]; exact_mod_cast h3
      push_cast at h4
      linarith
    exact h1.trans (mul_le_mul_of_nonneg_right h2 hδ0.le)
  have he : ∀ i, |e i| ≤ (N - 1) * δ := by
    intro i
    have h1 : N * e i = ∑ j, (e i - e j) := by
      rw [Finset.sum_sub_distrib, hsum, Finset.sum_const, Finset.card_univ, nsmul_eq_mul, sub_zero]
    have h2 : |N * e i| ≤ ∑ _j : ι, (N - 1) * δ := by
      rw [h1]
      exact (Finset.abs_sum_le_sum_abs _ _).trans (Finset.sum_le_sum fun j _ => hd i j)
    rw [Finset.sum_const, Finset.card_univ, nsmul_eq_mul, abs_mul,
      abs_of_pos (show 0 < N by linarith)] at h2
    exact le_of_mul_le_mul_left h2 (by linarith)
  have hlt : ∑ i, e i ^ 2 < ∑ _i : ι, v / N := by
    refine Finset.sum_lt_sum_of_nonempty ⟨i0, Finset.mem_univ _⟩ fun i _ => ?_
    have h1 : |e i| < √(v / N) := by
      refine (he i).trans_lt ?_
      have : N * δ = √(v / N) := by rw [hδ]; field_simp
      linarith
    rw [← sq_abs]
    exact (Real.lt_sqrt (abs_nonneg _)).1 h1
  rw [Finset.sum_const, Finset.card_univ, nsmul_eq_mul] at hlt
  have : N * (v / N) = v := by field_simp
  linarith

theorem settled_zero {ι : Type} [Fintype ι] {G : SimpleGraph ι} (hG : G.Connected)
    {e : ℕ → ι → ℝ} {k q : ℕ → ℝ} {f s : ℕ → ι} {L : ℕ} {v : ℝ} (hk : Antitone k)
    (hk0 : ∀ n, 0 ≤ k n) (hk1 : ¬ Summable k) (hkz : Tendsto k atTop (𝓝 0))
    (hmove : ∀ n i, |e (n + 1) i - e n i| ≤ k n) (hsum : ∀ n, ∑ i, e n i = 0)
    (hv : Tendsto (fun n => ∑ i, e n i ^ 2) atTop (𝓝 v)) (hq0 : ∀ n, 0 ≤ q n)
    (hq : Summable fun n => k n * q n)
    (hqe : ∀ ε > 0, ∃ η > 0, ∀ n, ε ≤ |e n (f n) - e n (s n)| → η ≤ q n)
    (hreg : ∀ n i j, G.Adj i j → ∃ m, n ≤ m ∧ m < n + L ∧
      (f m = i ∧ s m = j ∨ f m = j ∧ s m = i)) : v = 0 := by
  have hv0 : 0 ≤ v := ge_of_tendsto' hv fun n => Finset.sum_nonneg fun i _ => sq_nonneg _
  rcases hv0.eq_or_lt with h | hpos
  · exact h.symm
  exfalso
  set δ := √(v / 2 / Fintype.card ι) / Fintype.card ι with hδ
  have hN : 0 < Fintype.card ι := Fintype.card_pos_iff.2 hG.nonempty
  have hδ0 : 0 < δ := by
    have : (0 : ℝ) < Fintype.card ι := by exact_mod_cast hN
    positivity
  obtain ⟨η, hη, hηq⟩ := hqe (δ / 2) (by linarith)
  have e1 : ∀ᶠ n in atTop, v / 2 < ∑ i, e n i ^ 2 := hv.eventually_const_lt (by linarith)
  have e2 : ∀ᶠ n in atTop, L * k n < δ / 4 := by
    have := hkz.const_mul (L : ℝ)
    rw [mul_zero] at this
    exact this.eventually_lt_const (by linarith)
  obtain ⟨M, hM⟩ := eventually_atTop.1 (e1.and e2)
  have hmoves : ∀ n r i, |e (n + r) i - e n i| ≤ r * k n := by
    intro n r i
    induction r with
    | zero => simp
    | succ r ih =>
      have h1 := hmove (n + r) i
      have h2 := hk (Nat.le_add_right n r)
      have h3 := abs_sub_le (e (n + (r + 1)) i) (e (n + r) i) (e n i)
      rw [show n + r + 1 = n + (r + 1) by ring] at h1
      push_cast
      linarith
  have hkey : ∀ n, M ≤ n → η * k (n + L) ≤ ∑ r ∈ Finset.range L, k (n + r) * q (n + r) := by
    intro n hn
    obtain ⟨h1, h2⟩ := hM n hn
    obtain ⟨i, j, hij, hd⟩ := some_edge hG (by linarith : (0 : ℝ) < v / 2) (hsum n) h1.le
    obtain ⟨m, hm1, hm2, hfs⟩ := hreg n i j hij
    obtain ⟨r, rfl⟩ := Nat.exists_eq_add_of_le hm1
    have hr : r < L := by omega
    have hrL : (r : ℝ) * k n ≤ L * k n :=
      mul_le_mul_of_nonneg_right (by exact_mod_cast hr.le) (hk0 n)
    have hi := hmoves n r i
    have hj := hmoves n r j
    have hdm : δ / 2 ≤ |e (n + r) i - e (n + r) j| := by
      have h3 := abs_sub_le (e n i) (e (n + r) i) (e n j)
      have h4 := abs_sub_le (e (n + r) i) (e (n + r) j) (e n j)
      rw [abs_sub_comm] at hi
      linarith
    have hqm : η ≤ q (n + r) := by
      refine hηq _ ?_
      rcases hfs with ⟨a1, a2⟩ | ⟨a1, a2⟩
      · rw [a1, a2]; exact hdm
      · rw [a1, a2, abs_sub_comm]; exact hdm
    have hkm : k (n + L) ≤ k (n + r) := hk (by omega)
    calc η * k (n + L) ≤ q (n + r) * k (n + r) :=
          mul_le_mul hqm hkm (hk0 _) (hq0 _)
      _ = k (n + r) * q (n + r) := mul_comm _ _
      _ ≤ _ := Finset.single_le_sum (f := fun r => k (n + r) * q (n + r))
          (fun r _ => mul_nonneg (hk0 _) (hq0 _)) (Finset.mem_range.2 hr)
  refine hk1 ((summable_nat_add_iff (M + L)).1 ?_)
  have hs : Summable fun n => ∑ r ∈ Finset.range L, k (n + M + r) * q (n + M + r) := by
    refine summable_sum fun r _ => ?_
    have := (summable_nat_add_iff (M + r)).2 hq
    refine this.congr fun n => ?_
    rw [add_assoc]
  refine Summable.of_nonneg_of_le (fun n => hk0 _) (fun n => ?_) (hs.mul_left (1 / η))
  have := hkey (n + M) (by omega)
  rw [one_div_mul_eq_div, le_div_iff₀ hη, mul_comm, ← add_assoc]
  exact this

variable {Ω ι γ R : Type} [m0 : MeasurableSpace Ω] [DecidableEq ι] [Fintype ι] {P : Measure Ω}
  {past : Filtration ℕ m0} {rate : R → R → Outcomes → γ → R × R}
  {expected : R → R → ℝ × ℝ} {val : R → ℝ} {good : ℕ → γ → Prop} {k : ℕ → ℝ} {a : ℝ}
  {θ pool : ι → R} {games : ℕ → Ω → Game ι γ}

/-- Games do not change the sum of all ratings. -/
theorem LogisticRule.sum_game {K : ℝ} {good : γ → Prop}
    (L : LogisticRule rate expected val good K a) (pool : ι → R) (g : Game ι γ)
    (hg : good g.config) : ∑ i, val (playGame rate pool g i) = ∑ i, val (pool i) := by
  simp only [L.move pool g hg, Finset.sum_add_distrib, ← Finset.sum_mul]
  have : ∑ i, (if i = g.first then (1 : ℝ) else if i = g.second then -1 else 0) = 0 := by
    have e : ∀ i, (if i = g.first then (1 : ℝ) else if i = g.second then -1 else 0)
        = (if i = g.first then 1 else 0) - (if i = g.second then 1 else 0) := by
      intro i
      have := g.ne
      split_ifs <;> simp_all
    simp [e, Finset.sum_sub_distrib]
  rw [this, zero_mul, add_zero]

theorem sum_standing {games : ℕ → Game ι γ}
    (L : ∀ n, LogisticRule rate expected val (good n) (k n) a)
    (hgood : ∀ n, good n (games n).config) (n : ℕ) :
    ∑ i, val (standing rate pool games n i) = ∑ i, val (pool i) := by
  induction n with
  | zero => simp [standing, tournament]
  | succ n ih => rw [standing_succ, (L n).sum_game _ _ (hgood n), ih]

/-- If all players are compared regularly, all ratings tend to the strengths. -/
theorem Spec.Season.tendsto [IsProbabilityMeasure P] (h : Season P past expected θ games)
    (L : ∀ n, LogisticRule rate expected val (good n) (k n) a) (ha : 0 < a)
    (hgood : ∀ n ω, good n (games n ω).config) (hk : Antitone k) (hk0 : ∀ n, 0 ≤ k n)
    (hk1 : ¬ Summable k) (hk2 : Summable fun n => k n ^ 2) {G : SimpleGraph ι} (hG : G.Connected)
    (hreg : ∀ᵐ ω ∂P, ∃ L, Regular G.Adj L (games · ω))
    (htot : ∑ i, val (pool i) = ∑ i, val (θ i)) :
    ∀ᵐ ω ∂P, ∀ i, Tendsto (fun n => val (standing rate pool (games · ω) n i)) atTop
      (𝓝 (val (θ i))) := by
  have hkz : Tendsto k atTop (𝓝 0) := by
    have h1 := (Real.continuous_sqrt.tendsto 0).comp hk2.tendsto_atTop_zero
    rw [Real.sqrt_zero] at h1
    exact h1.congr fun n => Real.sqrt_sq (hk0 n)
  filter_upwards [h.settles (pool := pool) L ha hgood hk0 hk2, hreg] with ω ⟨⟨v, hv⟩, hs⟩ ⟨N, hN⟩
  set T := ∑ i, |val (θ i)| with hT
  have hθ : ∀ i, |val (θ i)| ≤ T := fun i =>
    Finset.single_le_sum (f := fun i => |val (θ i)|) (fun i _ => abs_nonneg _) (Finset.mem_univ i)
  have hfall : ∀ n, fall rate val k a θ pool games n ω = 2 * (k n
      * ((ratedLead rate val pool games n ω - trueLead val θ games n ω)
    * (sigmoid (a * ratedLead rate val pool games n ω) - sigmoid (a * trueLead val θ games n ω)))) :=
    fun n => by rw [fall]; ring
  have hv0 : v = 0 := by
    refine settled_zero hG (e := fun n i => val (standing rate pool (games · ω) n i) - val (θ i))
      (q := fun n => (ratedLead rate val pool games n ω - trueLead val θ games n ω)
        * (sigmoid (a * ratedLead rate val pool games n ω)
          - sigmoid (a * trueLead val θ games n ω)))
      (f := fun n => (games n ω).first) (s := fun n => (games n ω).second) (L := N)
      hk hk0 hk1 hkz (fun n i => ?_) (fun n => ?_) hv (fun n => ?_) ?_ (fun ε hε => ?_) hN
    · rw [sub_sub_sub_cancel_right, standing_succ]
      exact (L n).move_abs (hk0 n) _ _ (hgood n ω) i
    · rw [Finset.sum_sub_distrib, sum_standing L (fun n => hgood n ω), htot, sub_self]
    · refine le_trans ?_ (sigmoid_strong ha _ _)
      positivity
    · have := hs.mul_left (1 / 2)
      refine this.congr fun n => ?_
      rw [hfall]; ring
    · have h1 := sigmoid_pos (-(a * (T + T)))
      have h2 : Real.exp (-(a * ε)) < 1 := Real.exp_lt_one_iff.2 (neg_lt_zero.2 (by positivity))
      have h3 : 0 < 1 - Real.exp (-(a * ε)) := by linarith
      refine ⟨sigmoid (-(a * (T + T))) ^ 2 * (1 - Real.exp (-(a * ε))) * ε, by positivity,
        fun n hd => ?_⟩
      have hx : ε ≤ |ratedLead rate val pool games n ω - trueLead val θ games n ω| := by
        refine hd.trans_eq ?_
        rw [ratedLead, trueLead]; congr 1; ring
      have hp := logistic_pull (x := ratedLead rate val pool games n ω) (y := 0)
        (θ := trueLead val θ games n ω) (D := T + T) ha (by
          rw [zero_sub, abs_neg, trueLead]
          exact (abs_sub _ _).trans (add_le_add (hθ _) (hθ _))) hε.le hx
      rw [sub_zero, sub_zero, mul_comm (sigmoid _ - sigmoid _)] at hp
      exact (mul_le_mul_of_nonneg_left hx (by positivity)).trans hp
  rw [hv0] at hv
  intro i
  rw [tendsto_iff_norm_sub_tendsto_zero]
  have h1 := (Real.continuous_sqrt.tendsto 0).comp hv
  rw [Real.sqrt_zero] at h1
  refine squeeze_zero (fun n => norm_nonneg _) (fun n => ?_) h1
  refine Real.le_sqrt_of_sq_le ?_
  rw [Real.norm_eq_abs, sq_abs]
  exact Finset.single_le_sum (f := fun i => (val (standing rate pool (games · ω) n i)
    - val (θ i)) ^ 2) (fun i _ => sq_nonneg _) (Finset.mem_univ i)

end Skillratings
