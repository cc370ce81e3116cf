import Mathlib.Analysis.SpecialFunctions.Log.Base
import Mathlib.Analysis.SpecialFunctions.Log.Deriv
import Mathlib.Analysis.SpecialFunctions.Pow.Asymptotics
import Mathlib.Tactic.Linarith
import Verif.Proofs.Logistic
import Verif.Proofs.Likelihood
import Verif.Proofs.Tournament
import Verif.Spec.Forecast
/-
Pools rated by a logistic rule with a constant factor: bounds for the ratings and for the loss of the
forecasts.
-/
namespace Skillratings
open Real Spec

/-- A zero-sum rule with factor `K` and slope `a`. -/
structure LogisticRule {γ R : Type} (rate : R → R → Outcomes → γ → R × R)
    (expected : R → R → ℝ × ℝ) (val : R → ℝ) (good : γ → Prop) (K a : ℝ) : Prop where
  fst : ∀ x y o c, good c →
    val (rate x y o c).1 = val x + K * (points o - sigmoid (a * (val x - val y)))
  snd : ∀ x y o c, good c →
    val (rate x y o c).2 = val y - K * (points o - sigmoid (a * (val x - val y)))
  expected_eq : ∀ x y, expected x y = (sigmoid (a * (val x - val y)), 1 - sigmoid (a * (val x - val y)))

theorem points_nonneg' (o : Outcomes) : 0 ≤ points o := by cases o <;> norm_num [points]
theorem points_le_one' (o : Outcomes) : points o ≤ 1 := by cases o <;> norm_num [points]

section
variable {ι γ R : Type} [DecidableEq ι] {rate : R → R → Outcomes → γ → R × R}
  {expected : R → R → ℝ × ℝ} {val : R → ℝ} {good : γ → Prop} {K a : ℝ}

theorem playGame_first (pool : ι → R) (g : Game ι γ) :
    playGame rate pool g g.first = (rate (pool g.first) (pool g.second) g.outcome g.config).1 := by
  rw [playGame, Function.update_of_ne g.ne, Function.update_self]

theorem playGame_second (pool : ι → R) (g : Game ι γ) :
    playGame rate pool g g.second = (rate (pool g.first) (pool g.second) g.outcome g.config).2 := by
  rw [playGame, Function.update_self]

theorem playGame_other (pool : ι → R) (g : Game ι γ) {i : ι} (h1 : i ≠ g.first)
    (h2 : i ≠ g.second) : playGame rate pool g i = pool i := by
  rw [playGame, Function.update_of_ne h2, Function.update_of_ne h1]

/-- The change of the ratings is `K` times points minus expected score. -/
theorem LogisticRule.step (L : LogisticRule rate expected val good K a) (pool : ι → R)
    (g : Game ι γ) (hg : good g.config) (i : ι) :
    val (playGame rate pool g i) = val (pool i) + K * (pointsIn g i - expectedIn expected pool g i) := by
  by_cases h1 : i = g.first
  · subst h1
    rw [playGame_first, L.fst _ _ _ _ hg]
    simp [pointsIn, expectedIn, L.expected_eq]
  · by_cases h2 : i = g.second
    · subst h2
      rw [playGame_second, L.snd _ _ _ _ hg]
      simp only [pointsIn, expectedIn, L.expected_eq, h1, if_false, if_true]
      ring
    · rw [playGame_other pool g h1 h2]
      simp [pointsIn, expectedIn, h1, h2]

theorem LogisticRule.account (L : LogisticRule rate expected val good K a) (pool : ι → R)
    (games : List (Game ι γ)) (hg : ∀ g ∈ games, good g.config) (i : ι) :
    val (tournament rate pool games i)
      = val (pool i) + K * (earned games i - predicted rate expected pool games i) := by
  induction games generalizing pool with
  | nil => simp [tournament, earned, predicted]
  | cons g gs ih =>
    have e : tournament rate pool (g :: gs) = tournament rate (playGame rate pool g) gs := rfl
    rw [e, ih (playGame rate pool g) fun x hx => hg x (List.mem_cons_of_mem _ hx),
      L.step pool g (hg g List.mem_cons_self)]
    simp only [earned, predicted, List.map_cons, List.sum_cons]
    ring

theorem LogisticRule.total [Fintype ι] (L : LogisticRule rate expected val good K a) (pool : ι → R)
    (games : List (Game ι γ)) (hg : ∀ g ∈ games, good g.config) :
    ∑ i, val (tournament rate pool games i) = ∑ i, val (pool i) := by
  induction games generalizing pool with
  | nil => rfl
  | cons g gs ih =>
    have e : tournament rate pool (g :: gs) = tournament rate (playGame rate pool g) gs := rfl
    rw [e, ih (playGame rate pool g) fun x hx => hg x (List.mem_cons_of_mem _ hx)]
    have q : ∀ x y : ℝ, ∑ i, (if i = g.first then x else if i = g.second then y else 0) = x + y := by
      intro x y
      have : ∀ i, (if i = g.first then x else if i = g.second then y else 0)
          = (if i = g.first then x else 0) + (if i = g.second then y else 0) := by
        intro i
        by_cases h1 : i = g.first
        · subst h1; simp [g.ne]
        · simp [h1]
      simp only [this, Finset.sum_add_distrib, Finset.sum_ite_eq', Finset.mem_univ, if_true]
    simp only [L.step pool g (hg g List.mem_cons_self), Finset.sum_add_distrib, ← Finset.mul_sum,
      Finset.sum_sub_distrib, pointsIn, expectedIn, q, L.expected_eq]
    ring

/-- No group of players is far above the rest: the total of `s` players exceeds `s m` by at most
`B + M s (N - s)/2`. -/
def Compact [Fintype ι] (m M B : ℝ) (r : ι → ℝ) : Prop :=
  ∀ S : Finset ι, ∑ i ∈ S, (r i - m) ≤ B + M * (S.card * (Fintype.card ι - S.card)) / 2

/-- A game makes a group that is far above the rest only a little richer. -/
theorem LogisticRule.compact_step [Fintype ι] (L : LogisticRule rate expected val good K a)
    (hK : 0 ≤ K) (ha : 0 ≤ a) {m M B : ℝ} (pool : ι → R) (g : Game ι γ) (hg : good g.config)
    (h : Compact m M B fun i => val (pool i)) :
    Compact m M (B + K * sigmoid (-(a * (M - 2 * K)))) fun i => val (playGame rate pool g i) := by
  set r : ι → ℝ := fun i => val (pool i) with hr
  set r' : ι → ℝ := fun i => val (playGame rate pool g i) with hr'
  set δ := K * (points g.outcome - sigmoid (a * (r g.first - r g.second))) with hδ
  have e1 : r' g.first = r g.first + δ := by
    simp only [hr', playGame_first, L.fst _ _ _ _ hg, hδ, hr]
  have e2 : r' g.second = r g.second - δ := by
    simp only [hr', playGame_second, L.snd _ _ _ _ hg, hδ, hr]
  have e3 : ∀ i, i ≠ g.first → i ≠ g.second → r' i = r i := fun i h1 h2 => by
    simp only [hr', playGame_other pool g h1 h2, hr]
  have hε := sigmoid_pos (-(a * (M - 2 * K)))
  have hp0 := points_nonneg' g.outcome
  have hp1 := points_le_one' g.outcome
  have hs0 := sigmoid_pos (a * (r g.first - r g.second))
  have hs1 := sigmoid_lt_one (a * (r g.first - r g.second))
  have hδ1 : δ ≤ K := by rw [hδ]; nlinarith
  have hδ2 : -K ≤ δ := by rw [hδ]; nlinarith
  -- a group that is as far above the bound as possible
  obtain ⟨S, -, hS⟩ := Finset.exists_max_image (Finset.univ : Finset (Finset ι))
    (fun S => ∑ i ∈ S, (r' i - m) - M * (S.card * (Fintype.card ι - S.card)) / 2)
    ⟨∅, Finset.mem_univ _⟩
  suffices hmain : ∑ i ∈ S, (r' i - m)
      ≤ B + K * sigmoid (-(a * (M - 2 * K))) + M * (S.card * (Fintype.card ι - S.card)) / 2 by
    intro T
    have := hS T (Finset.mem_univ _)
    linarith
  have hSr := h S
  have hKε : 0 ≤ K * sigmoid (-(a * (M - 2 * K))) := by positivity
  -- one player of the group against one outside
  have cross : ∀ i j, i ∈ S → j ∉ S → M ≤ r' i - r' j := by
    intro i j hi hj
    have h1 := hS (S.erase i) (Finset.mem_univ _)
    have h2 := hS (insert j S) (Finset.mem_univ _)
    have c1 : ((S.erase i).card : ℝ) = S.card - 1 := by
      rw [Finset.card_erase_of_mem hi, Nat.cast_sub (Finset.card_pos.2 ⟨i, hi⟩)]; simp
    have c2 : ((insert j S).card : ℝ) = S.card + 1 := by
      rw [Finset.card_insert_of_notMem hj]; push_cast; ring
    have s1 : ∑ x ∈ S, (r' x - m) = (r' i - m) + ∑ x ∈ S.erase i, (r' x - m) :=
      (Finset.add_sum_erase S _ hi).symm
    rw [Finset.sum_insert hj] at h2
    simp only [c1] at h1
    simp only [c2] at h2
    have : 2 * M ≤ 2 * (r' i - r' j) := by nlinarith
    linarith
  by_cases hf : g.first ∈ S <;> by_cases hl : g.second ∈ S
  · -- both
    have q : ∀ f : ι → ℝ, ∑ i ∈ S, f i
        = f g.first + f g.second + ∑ i ∈ (S.erase g.first).erase g.second, f i := by
      intro f
      rw [← Finset.add_sum_erase _ f hf,
        ← Finset.add_sum_erase _ f (Finset.mem_erase.2 ⟨g.ne.symm, hl⟩)]
      ring
    have e : ∑ i ∈ S, (r' i - m) = ∑ i ∈ S, (r i - m) := by
      rw [q, q (fun i => r i - m), e1, e2]
      rw [Finset.sum_congr rfl fun i hi => by
        rw [e3 i (Finset.mem_erase.1 (Finset.mem_erase.1 hi).2).1 (Finset.mem_erase.1 hi).1]]
      ring
    linarith
  · have hc := cross _ _ hf hl
    have e : ∑ i ∈ S, (r' i - m) = ∑ i ∈ S, (r i - m) + δ := by
      rw [← Finset.add_sum_erase _ _ hf, ← Finset.add_sum_erase _ (fun i => r i - m) hf, e1]
      rw [Finset.sum_congr rfl fun i hi => by
        rw [e3 i (Finset.mem_erase.1 hi).1 (fun h => hl (h ▸ (Finset.mem_erase.1 hi).2))]]
      ring
    have : δ ≤ K * sigmoid (-(a * (M - 2 * K))) := by
      rw [hδ]
      apply mul_le_mul_of_nonneg_left _ hK
      have : sigmoid (a * (M - 2 * K)) ≤ sigmoid (a * (r g.first - r g.second)) := by
        apply sigmoid_monotone
        apply mul_le_mul_of_nonneg_left _ ha
        linarith
      rw [sigmoid_neg]
      linarith
    linarith
  · have hc := cross _ _ hl hf
    have e : ∑ i ∈ S, (r' i - m) = ∑ i ∈ S, (r i - m) - δ := by
      rw [← Finset.add_sum_erase _ _ hl, ← Finset.add_sum_erase _ (fun i => r i - m) hl, e2]
      rw [Finset.sum_congr rfl fun i hi => by
        rw [e3 i (fun h => hf (h ▸ (Finset.mem_erase.1 hi).2)) (Finset.mem_erase.1 hi).1]]
      ring
    have : -δ ≤ K * sigmoid (-(a * (M - 2 * K))) := by
      rw [hδ, ← mul_neg]
      apply mul_le_mul_of_nonneg_left _ hK
      have : sigmoid (a * (r g.first - r g.second)) ≤ sigmoid (-(a * (M - 2 * K))) := by
        apply sigmoid_monotone
        rw [← mul_neg]
        apply mul_le_mul_of_nonneg_left _ ha
        linarith
      linarith
    linarith
  · have e : ∑ i ∈ S, (r' i - m) = ∑ i ∈ S, (r i - m) :=
      Finset.sum_congr rfl fun i hi => by
        rw [e3 i (fun h => hf (h ▸ hi)) (fun h => hl (h ▸ hi))]
    linarith

theorem LogisticRule.compact [Fintype ι] (L : LogisticRule rate expected val good K a)
    (hK : 0 ≤ K) (ha : 0 ≤ a) {m M B : ℝ} (pool : ι → R) (games : List (Game ι γ))
    (hg : ∀ g ∈ games, good g.config) (h : Compact m M B fun i => val (pool i)) :
    Compact m M (B + games.length * (K * sigmoid (-(a * (M - 2 * K)))))
      fun i => val (tournament rate pool games i) := by
  induction games generalizing pool B with
  | nil => simpa [tournament] using h
  | cons g gs ih =>
    have e : tournament rate pool (g :: gs) = tournament rate (playGame rate pool g) gs := rfl
    rw [e]
    have := ih (playGame rate pool g) (fun x hx => hg x (List.mem_cons_of_mem _ hx))
      (L.compact_step hK ha pool g (hg g List.mem_cons_self) h)
    rw [List.length_cons]
    push_cast
    rwa [show B + ((gs.length : ℝ) + 1) * (K * sigmoid (-(a * (M - 2 * K))))
      = B + K * sigmoid (-(a * (M - 2 * K))) + gs.length * (K * sigmoid (-(a * (M - 2 * K)))) by ring]

/-- How far a rating can move in `n` games of a pool. -/
theorem LogisticRule.drift [Fintype ι] (L : LogisticRule rate expected val good K a)
    (hK : 0 ≤ K) (ha : 0 ≤ a) {M D : ℝ} (hM : 0 ≤ M) (pool : ι → R) (games : List (Game ι γ))
    (hg : ∀ g ∈ games, good g.config) (hD : ∀ i j, |val (pool i) - val (pool j)| ≤ D) (i : ι) :
    |val (tournament rate pool games i) - val (pool i)|
      ≤ Fintype.card ι * (2 * D + M) + games.length * (K * sigmoid (-(a * (M - 2 * K)))) := by
  set N : ℝ := (Fintype.card ι : ℝ) with hN
  have hN1 : 1 ≤ N := by
    rw [hN]; exact_mod_cast Fintype.card_pos_iff.2 ⟨i⟩
  have hD0 : 0 ≤ D := (abs_nonneg _).trans (hD i i)
  have h0 : Compact (val (pool i)) M ((N - 1) * D) fun j => val (pool j) := by
    intro S
    have hc : (S.card : ℝ) ≤ N := by rw [hN]; exact_mod_cast Finset.card_le_univ S
    have hsum : ∑ j ∈ S, (val (pool j) - val (pool i)) ≤ (N - 1) * D := by
      have h1 : ∑ j ∈ S, (val (pool j) - val (pool i))
          ≤ ∑ j ∈ S.erase i, (val (pool j) - val (pool i)) := by
        by_cases hi : i ∈ S
        · rw [← Finset.add_sum_erase _ _ hi]; simp
        · rw [Finset.erase_eq_of_notMem hi]
      have h2 : ∑ j ∈ S.erase i, (val (pool j) - val (pool i)) ≤ (S.erase i).card * D := by
        rw [← nsmul_eq_mul]
        exact Finset.sum_le_card_nsmul _ _ _ fun j _ => (le_abs_self _).trans (hD j i)
      have h3 : ((S.erase i).card : ℝ) ≤ N - 1 := by
        have : (S.erase i).card ≤ Fintype.card ι - 1 := by
          rw [← Finset.card_univ, ← Finset.card_erase_of_mem (Finset.mem_univ i)]
          exact Finset.card_le_card (Finset.erase_subset_erase _ (Finset.subset_univ _))
        have h' : ((S.erase i).card : ℝ) ≤ ((Fintype.card ι - 1 : ℕ) : ℝ) := by exact_mod_cast this
        rwa [Nat.cast_sub (Fintype.card_pos_iff.2 ⟨i⟩), Nat.cast_one] at h'
      nlinarith
    have : 0 ≤ M * (S.card * (N - S.card)) / 2 := by
      have : 0 ≤ N - S.card := by linarith
      positivity
    rw [← hN]
    linarith
  have key := L.compact hK ha pool games hg h0
  have htot := L.total pool games hg
  have hu := key {i}
  have hl := key (Finset.univ.erase i)
  rw [Finset.sum_singleton, Finset.card_singleton] at hu
  have c1 : (((Finset.univ : Finset ι).erase i).card : ℝ) = N - 1 := by
    rw [Finset.card_erase_of_mem (Finset.mem_univ i), Finset.card_univ,
      Nat.cast_sub (Fintype.card_pos_iff.2 ⟨i⟩), Nat.cast_one]
  rw [c1] at hl
  have s1 : ∑ j, (val (tournament rate pool games j) - val (pool i))
      = ∑ j, (val (pool j) - val (pool i)) := by
    rw [Finset.sum_sub_distrib, Finset.sum_sub_distrib, htot]
  rw [← Finset.add_sum_erase _ _ (Finset.mem_univ i),
    ← Finset.add_sum_erase _ (fun j => val (pool j) - val (pool i)) (Finset.mem_univ i)] at s1
  have h2 : -((N - 1) * D) ≤ ∑ j ∈ Finset.univ.erase i, (val (pool j) - val (pool i)) := by
    rw [← c1, ← mul_neg, ← nsmul_eq_mul]
    exact Finset.card_nsmul_le_sum _ _ _ fun j _ => (abs_le.1 (hD j i)).1
  rw [abs_le]
  push_cast at hu
  have hMN : 0 ≤ M * N := by positivity
  constructor <;> nlinarith


/-- The same with the best choice of `M`. -/
theorem LogisticRule.drift_log [Fintype ι] (L : LogisticRule rate expected val good K a)
    (hK : 0 ≤ K) (ha : 0 < a) {D : ℝ} (pool : ι → R) (games : List (Game ι γ))
    (hg : ∀ g ∈ games, good g.config) (hD : ∀ i j, |val (pool i) - val (pool j)| ≤ D) (i : ι) :
    |val (tournament rate pool games i) - val (pool i)|
      ≤ Fintype.card ι * (2 * D + 2 * K + log games.length / a) + K := by
  have hlog : 0 ≤ log (games.length : ℝ) := Real.log_natCast_nonneg _
  have h := L.drift hK ha.le (M := 2 * K + log games.length / a) (by positivity) pool games hg hD i
  have e : a * (2 * K + log games.length / a - 2 * K) = log games.length := by field_simp; ring
  rw [e] at h
  have h2 : (games.length : ℝ) * (K * sigmoid (-log games.length)) ≤ K := by
    rcases Nat.eq_zero_or_pos games.length with h0 | h0
    · rw [h0]; simpa using hK
    · have hn : (0 : ℝ) < games.length := by exact_mod_cast h0
      rw [sigmoid_def, neg_neg, Real.exp_log hn]
      have : (games.length : ℝ) * (1 + (games.length : ℝ))⁻¹ ≤ 1 := by
        rw [← div_eq_mul_inv, div_le_one (by positivity)]; linarith
      nlinarith
  calc _ ≤ _ := h
    _ ≤ _ := by
      rw [show 2 * D + (2 * K + log games.length / a) = 2 * D + 2 * K + log games.length / a by ring]
      linarith

/-- The average of points minus expected scores tends to 0. -/
theorem LogisticRule.calibrated [Fintype ι] (L : LogisticRule rate expected val good K a)
    (hK : 0 < K) (ha : 0 < a) (pool : ι → R) (games : ℕ → Game ι γ)
    (hg : ∀ n, good (games n).config) (i : ι) :
    Filter.Tendsto (fun n : ℕ => (earned ((List.range n).map games) i
      - predicted rate expected pool ((List.range n).map games) i) / n) Filter.atTop (nhds 0) := by
  obtain ⟨D, hD⟩ : ∃ D, ∀ i j, |val (pool i) - val (pool j)| ≤ D := by
    obtain ⟨D, hD⟩ := (Set.finite_range fun p : ι × ι => |val (pool p.1) - val (pool p.2)|).bddAbove
    exact ⟨D, fun i j => hD ⟨(i, j), rfl⟩⟩
  set N : ℝ := (Fintype.card ι : ℝ)
  have bound : ∀ n : ℕ, |(earned ((List.range n).map games) i
      - predicted rate expected pool ((List.range n).map games) i) / n|
      ≤ (N * (2 * D + 2 * K) / K + 1) / n + N / (K * a) * (log n / n) := by
    intro n
    have h1 := L.drift_log hK.le ha pool ((List.range n).map games) (by
      intro g hg'
      obtain ⟨k, -, rfl⟩ := List.mem_map.1 hg'
      exact hg k) hD i
    rw [L.account pool _ (by
      intro g hg'
      obtain ⟨k, -, rfl⟩ := List.mem_map.1 hg'
      exact hg k) i, add_sub_cancel_left, abs_mul, abs_of_pos hK] at h1
    simp only [List.length_map, List.length_range] at h1
    rw [abs_div, Nat.abs_cast]
    rcases Nat.eq_zero_or_pos n with h0 | h0
    · subst h0; simp
    · have hn : (0 : ℝ) < n := by exact_mod_cast h0
      rw [div_le_iff₀ hn]
      have e : ((N * (2 * D + 2 * K) / K + 1) / n + N / (K * a) * (log n / n)) * n
          = (N * (2 * D + 2 * K + log n / a) + K) / K := by
        field_simp
        ring
      rw [e, le_div_iff₀ hK]
      linarith
  apply squeeze_zero_norm bound
  have l1 : Filter.Tendsto (fun n : ℕ => (N * (2 * D + 2 * K) / K + 1) / (n : ℝ)) Filter.atTop (nhds 0) :=
    tendsto_const_div_atTop_nhds_zero_nat _
  have l2 : Filter.Tendsto (fun n : ℕ => log (n : ℝ) / (n : ℝ)) Filter.atTop (nhds 0) := by
    have := (Real.isLittleO_log_id_atTop.tendsto_div_nhds_zero).comp tendsto_natCast_atTop_atTop
    simpa [Function.comp_def] using this
  simpa using l1.add (l2.const_mul (N / (K * a)))

/-! ### The loss of the forecasts -/

/-- `(1 - p)² ≤ -ln p / 2`. -/
theorem sq_le_neg_log {p : ℝ} (h0 : 0 < p) (h1 : p ≤ 1) : (1 - p) ^ 2 ≤ -log p / 2 := by
  have hu : 0 ≤ -log p := by linarith [Real.log_nonpos h0.le h1]
  have h := sigmoid_sub_half_le hu
  rw [sigmoid_def, neg_neg, Real.exp_log h0] at h
  have e : (1 + p)⁻¹ - 1 / 2 = (1 - p) / (1 + p) / 2 := by field_simp; ring
  rw [e] at h
  have : (1 - p) ^ 2 ≤ (1 - p) / (1 + p) := by
    rw [le_div_iff₀ (by linarith)]
    nlinarith [mul_nonneg (sub_nonneg.2 h1) (sq_nonneg p)]
  linarith

theorem sq_le_logLoss {s p : ℝ} (hs0 : 0 ≤ s) (hs1 : s ≤ 1) (h0 : 0 < p) (h1 : p < 1) :
    (s - p) ^ 2 ≤ logLoss s p / 2 := by
  have a1 := sq_le_neg_log h0 h1.le
  have a2 := sq_le_neg_log (p := 1 - p) (by linarith) (by linarith)
  rw [logLoss]
  have : (s - p) ^ 2 ≤ s * (1 - p) ^ 2 + (1 - s) * p ^ 2 := by nlinarith [mul_nonneg hs0 (sub_nonneg.2 hs1)]
  have b1 := mul_le_mul_of_nonneg_left a1 hs0
  have b2 := mul_le_mul_of_nonneg_left a2 (sub_nonneg.2 hs1)
  rw [show 1 - (1 - p) = p by ring] at b2
  linarith

theorem logLoss_sigmoid (s x : ℝ) : logLoss s (sigmoid x) = -logLik s x := by
  rw [logLoss, logLik, winProbability_eq]

/-- The loss of a forecast is convex in the log odds. -/
theorem logLoss_convex (s x y : ℝ) :
    logLoss s (sigmoid x) - logLoss s (sigmoid y) ≤ (s - sigmoid x) * (y - x) := by
  rw [logLoss_sigmoid, logLoss_sigmoid]
  set f : ℝ → ℝ := fun z => (s - sigmoid x) * z - logLik s z with hf
  have hd : ∀ z, HasDerivAt f (sigmoid z - sigmoid x) z := by
    intro z
    exact (((hasDerivAt_id z).const_mul (s - sigmoid x)).sub (hasDerivAt_logLik s z)).congr_deriv
      (by simp)
  have hmin : f x ≤ f y := by
    rcases le_total x y with hxy | hxy
    · have : MonotoneOn f (Set.Ici x) := by
        apply monotoneOn_of_deriv_nonneg (convex_Ici x)
          (fun z _ => (hd z).continuousAt.continuousWithinAt)
          (fun z _ => (hd z).differentiableAt.differentiableWithinAt)
        intro z hz
        rw [interior_Ici, Set.mem_Ioi] at hz
        rw [(hd z).deriv]
        exact sub_nonneg.2 (sigmoid_monotone hz.le)
      exact this (Set.mem_Ici.2 le_rfl) (Set.mem_Ici.2 hxy) hxy
    · have : AntitoneOn f (Set.Iic x) := by
        apply antitoneOn_of_deriv_nonpos (convex_Iic x)
          (fun z _ => (hd z).continuousAt.continuousWithinAt)
          (fun z _ => (hd z).differentiableAt.differentiableWithinAt)
        intro z hz
        rw [interior_Iic, Set.mem_Iio] at hz
        rw [(hd z).deriv]
        exact sub_nonpos.2 (sigmoid_monotone hz.le)
      exact this (Set.mem_Iic.2 hxy) (Set.mem_Iic.2 le_rfl) hxy
  simp only [hf] at hmin
  linarith

/-- The loss of the forecasts against the loss of any fixed ratings. -/
theorem LogisticRule.regret [Fintype ι] (L : LogisticRule rate expected val good K a)
    (hK : 0 < K) (ha : 0 < a) (θ : ι → R) (pool : ι → R) (games : List (Game ι γ))
    (hg : ∀ g ∈ games, good g.config) :
    (1 - K * a / 2) * totalLoss rate expected pool games
      ≤ fixedLoss expected θ games + a / (2 * K) * ∑ i, (val (pool i) - val (θ i)) ^ 2 := by
  induction games generalizing pool with
  | nil =>
    simp only [totalLoss, fixedLoss, List.map_nil, List.sum_nil]
    have : 0 ≤ a / (2 * K) * ∑ i, (val (pool i) - val (θ i)) ^ 2 := by positivity
    linarith
  | cons g gs ih =>
    have h := ih (playGame rate pool g) fun x hx => hg x (List.mem_cons_of_mem _ hx)
    have hgg := hg g List.mem_cons_self
    simp only [totalLoss, fixedLoss, List.map_cons, List.sum_cons] at h ⊢
    set s := points g.outcome
    set x := val (pool g.first) - val (pool g.second) with hx
    set y := val (θ g.first) - val (θ g.second) with hy
    have hl1 : lossIn expected pool g = logLoss s (sigmoid (a * x)) := by
      simp only [lossIn, L.expected_eq]; rfl
    have hl2 : lossIn expected θ g = logLoss s (sigmoid (a * y)) := by
      simp only [lossIn, L.expected_eq]; rfl
    have hsq := sq_le_logLoss (points_nonneg' g.outcome) (points_le_one' g.outcome)
      (sigmoid_pos (a * x)) (sigmoid_lt_one (a * x))
    have hcv := logLoss_convex s (a * x) (a * y)
    have split : ∀ f : ι → ℝ, ∑ i, f i
        = f g.first + f g.second + ∑ i ∈ (Finset.univ.erase g.first).erase g.second, f i := by
      intro f
      rw [← Finset.add_sum_erase _ f (Finset.mem_univ g.first),
        ← Finset.add_sum_erase _ f (Finset.mem_erase.2 ⟨g.ne.symm, Finset.mem_univ g.second⟩)]
      ring
    have hS : ∑ i, (val (playGame rate pool g i) - val (θ i)) ^ 2
        = ∑ i, (val (pool i) - val (θ i)) ^ 2
          + 2 * K * (s - sigmoid (a * x)) * (x - y) + 2 * (K * (s - sigmoid (a * x))) ^ 2 := by
      rw [split, split fun i => (val (pool i) - val (θ i)) ^ 2]
      rw [Finset.sum_congr rfl fun i hi => by
        rw [playGame_other (rate := rate) pool g (Finset.mem_erase.1 (Finset.mem_erase.1 hi).2).1
          (Finset.mem_erase.1 hi).1]]
      rw [playGame_first, playGame_second, L.fst _ _ _ _ hgg, L.snd _ _ _ _ hgg, ← hx]
      rw [hy]
      simp only [hx]
      ring
    rw [hS] at h
    rw [hl1, hl2]
    have e : a / (2 * K) * (∑ i, (val (pool i) - val (θ i)) ^ 2
          + 2 * K * (s - sigmoid (a * x)) * (x - y) + 2 * (K * (s - sigmoid (a * x))) ^ 2)
        = a / (2 * K) * ∑ i, (val (pool i) - val (θ i)) ^ 2
          - (s - sigmoid (a * x)) * (a * y - a * x) + K * a * (s - sigmoid (a * x)) ^ 2 := by
      field_simp
      ring
    rw [e] at h
    have hm := mul_le_mul_of_nonneg_left hsq (mul_pos hK ha).le
    linarith
end
end Skillratings
