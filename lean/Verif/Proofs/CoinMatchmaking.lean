import Mathlib.Combinatorics.SimpleGraph.Hasse
import Mathlib.MeasureTheory.Function.ConditionalExpectation.PullOut
import Verif.Proofs.CoinTosses
import Verif.Spec.Season
/-
Random pairings exist: three players, a fair coin decides which of the others the second one meets.
-/
namespace Skillratings
open MeasureTheory ProbabilityTheory Spec Filter

/-- A filtration read at every third time. -/
def thirds {Ω : Type} {m0 : MeasurableSpace Ω} (ℱ : Filtration ℕ m0) (s : ℕ) : Filtration ℕ m0 where
  seq n := ℱ (3 * n + s)
  mono' _ _ h := ℱ.mono (by omega)
  le' n := ℱ.le _

/-- The game of the second player: the opponent and the result depend on coins. -/
def coinGame {γ : Type} (c : γ) (w u v : Bool) : Game (Fin 3) γ where
  first := if w then 0 else 1
  second := if w then 1 else 2
  ne := by cases w <;> decide
  outcome := tossed (if w then u else v)
  config := c

theorem matchmaking_exists {γ R : Type} (expected : R → R → ℝ × ℝ) (θ : Fin 3 → R)
    (h0 : ∀ i j, 0 ≤ (expected (θ i) (θ j)).1) (h1 : ∀ i j, (expected (θ i) (θ j)).1 ≤ 1)
    (c : ℕ → γ) :
    ∃ (P : Measure (ℕ → Bool)) (_ : IsProbabilityMeasure P)
      (past before : Filtration ℕ MeasurableSpace.pi) (games : ℕ → (ℕ → Bool) → Game (Fin 3) γ),
      Season P past expected θ games ∧
      Matchmaking P past before (SimpleGraph.pathGraph 3).Adj (1 / 2) games ∧
      ∀ n ω, (games n ω).config = c n := by
  let q : ℕ → ℝ := fun m => if m % 3 = 1 then 1 / 2
    else if m % 3 = 2 then (expected (θ 0) (θ 1)).1 else (expected (θ 1) (θ 2)).1
  have hq0 : ∀ m, 0 ≤ q m := fun m => by
    dsimp only [q]; split_ifs
    · norm_num
    · exact h0 _ _
    · exact h0 _ _
  have hq1 : ∀ m, q m ≤ 1 := fun m => by
    dsimp only [q]; split_ifs
    · norm_num
    · exact h1 _ _
    · exact h1 _ _
  have hp : ∀ m, IsProbabilityMeasure (coin (q m)) := fun m => coin_prob (hq0 m) (hq1 m)
  set P := Measure.infinitePi fun m : ℕ => coin (q m) with hP
  let f : ℕ → (ℕ → Bool) → ℝ := fun m ω => points (tossed (ω m))
  have mt : Measurable fun w : Bool => points (tossed w) := Measurable.of_discrete
  have hf : ∀ m, StronglyMeasurable (f m) := fun m =>
    (mt.comp (measurable_pi_apply m)).stronglyMeasurable
  have hi : iIndepFun f P := iIndepFun_infinitePi fun _ => mt
  set ℱ := Filtration.natural f hf with hℱ
  have ad : ∀ m, StronglyMeasurable[ℱ m] (f m) := Filtration.stronglyAdapted_natural hf
  have mean : ∀ m l, l < m → P[f m | ℱ l] =ᵐ[P] fun _ => q m := by
    intro m l hl
    refine (hi.condExp_natural_ae_eq_of_lt hf hl).trans (EventuallyEq.of_eq ?_)
    funext ω
    have e := Measure.infinitePi_map_eval (fun m : ℕ => coin (q m)) m
    have h2 := integral_map (μ := P) (measurable_pi_apply m).aemeasurable
      (mt.stronglyMeasurable.aestronglyMeasurable)
    rw [show P.map (fun ω => ω m) = coin (q m) from e, coin_mean (hq0 _)] at h2
    exact h2.symm
  have fv : ∀ m ω, f m ω = if ω m = true then 1 else 0 := fun m ω => by
    dsimp only [f]; cases ω m <;> simp [tossed, points]
  have mcoin : ∀ m, MeasurableSet[ℱ m] {ω : ℕ → Bool | ω m = true} := fun m => by
    have : {ω : ℕ → Bool | ω m = true} = f m ⁻¹' {1} := by
      ext ω; simp [fv]
    rw [this]
    exact (ad m).measurable (measurableSet_singleton 1)
  have fb : ∀ m ω, |f m ω| ≤ 1 := fun m ω => by rw [fv]; split_ifs <;> simp
  have fi : ∀ m, Integrable (f m) P := fun m =>
    Integrable.of_bound (hf m).aestronglyMeasurable 1 (ae_of_all _ fun ω => by simpa using fb m ω)
  have fi2 : ∀ m l, Integrable (f m * f l) P := fun m l =>
    Integrable.of_bound ((hf m).mul (hf l)).aestronglyMeasurable 1 (ae_of_all _ fun ω => by
      change |f m ω * f l ω| ≤ 1
      rw [abs_mul]
      exact mul_le_one₀ (fb m ω) (abs_nonneg _) (fb l ω))
  have hres : ∀ n ω, points (coinGame (c n) (ω (3 * n + 1)) (ω (3 * n + 2))
      (ω (3 * n + 3))).outcome = (f (3 * n + 1) * f (3 * n + 2)
        + (f (3 * n + 3) - f (3 * n + 1) * f (3 * n + 3))) ω := by
    intro n ω
    simp only [Pi.add_apply, Pi.sub_apply, Pi.mul_apply, fv, coinGame]
    cases ω (3 * n + 1) <;> cases ω (3 * n + 2) <;> cases ω (3 * n + 3) <;>
      simp [tossed, points]
  refine ⟨P, inferInstance, thirds ℱ 1, thirds ℱ 0,
    fun n ω => coinGame (c n) (ω (3 * n + 1)) (ω (3 * n + 2)) (ω (3 * n + 3)),
    ⟨fun n i j => ?_, fun n => ?_, fun n => ?_⟩, ⟨fun n => ℱ.mono (by omega),
      fun n => ℱ.mono (by omega), fun n => ?_, fun n i j hij => ?_⟩, fun n ω => rfl⟩
  · change MeasurableSet[ℱ (3 * n + 1)] _
    have hm := mcoin (3 * n + 1)
    have e : {ω : ℕ → Bool | (coinGame (c n) (ω (3 * n + 1)) (ω (3 * n + 2))
        (ω (3 * n + 3))).first = i ∧ (coinGame (c n) (ω (3 * n + 1)) (ω (3 * n + 2))
        (ω (3 * n + 3))).second = j} = ({ω : ℕ → Bool | ω (3 * n + 1) = true} ∩ {_ω | 0 = i ∧ 1 = j})
          ∪ ({ω : ℕ → Bool | ω (3 * n + 1) = true}ᶜ ∩ {_ω | 1 = i ∧ 2 = j}) := by
      ext ω
      simp only [coinGame, Set.mem_setOf_eq, Set.mem_union, Set.mem_inter_iff, Set.mem_compl_iff]
      cases ω (3 * n + 1) <;> simp
    rw [e]
    exact (hm.inter (MeasurableSet.const _)).union (hm.compl.inter (MeasurableSet.const _))
  · change Measurable[ℱ (3 * (n + 1) + 1)] _
    rw [show (fun ω : ℕ → Bool => points (coinGame (c n) (ω (3 * n + 1)) (ω (3 * n + 2))
      (ω (3 * n + 3))).outcome) = _ from funext (hres n)]
    have a1 := ((ad (3 * n + 1)).mono (ℱ.mono (by omega : 3 * n + 1 ≤ 3 * (n + 1) + 1))).measurable
    have a2 := ((ad (3 * n + 2)).mono (ℱ.mono (by omega : 3 * n + 2 ≤ 3 * (n + 1) + 1))).measurable
    have a3 := ((ad (3 * n + 3)).mono (ℱ.mono (by omega : 3 * n + 3 ≤ 3 * (n + 1) + 1))).measurable
    exact (a1.mul a2).add (a3.sub (a1.mul a3))
  · change P[_ | ℱ (3 * n + 1)] =ᵐ[P] _
    rw [show (fun ω : ℕ → Bool => points (coinGame (c n) (ω (3 * n + 1)) (ω (3 * n + 2))
      (ω (3 * n + 3))).outcome) = _ from funext (hres n)]
    have b1 := condExp_mul_of_stronglyMeasurable_left (ad (3 * n + 1))
      (fi2 (3 * n + 1) (3 * n + 2)) (fi (3 * n + 2))
    have b2 := condExp_mul_of_stronglyMeasurable_left (ad (3 * n + 1))
      (fi2 (3 * n + 1) (3 * n + 3)) (fi (3 * n + 3))
    have b3 := condExp_add (fi2 (3 * n + 1) (3 * n + 2))
      ((fi (3 * n + 3)).sub (fi2 (3 * n + 1) (3 * n + 3))) (ℱ (3 * n + 1))
    have b4 := condExp_sub (fi (3 * n + 3)) (fi2 (3 * n + 1) (3 * n + 3)) (ℱ (3 * n + 1))
    filter_upwards [b1, b2, b3, b4, mean (3 * n + 2) (3 * n + 1) (by omega),
      mean (3 * n + 3) (3 * n + 1) (by omega)] with ω c1 c2 c3 c4 c5 c6
    rw [c3, Pi.add_apply, c4, Pi.sub_apply, c1, c2, Pi.mul_apply, Pi.mul_apply, c5, c6]
    have e2 : q (3 * n + 2) = (expected (θ 0) (θ 1)).1 := by
      dsimp only [q]
      rw [if_neg (by omega), if_pos (by omega)]
    have e3 : q (3 * n + 3) = (expected (θ 1) (θ 2)).1 := by
      dsimp only [q]
      rw [if_neg (by omega), if_neg (by omega)]
    rw [e2, e3, fv]
    simp only [coinGame]
    cases ω (3 * n + 1) <;> simp
  · change Measurable[ℱ (3 * (n + 1) + 0)] _
    rw [show (fun ω : ℕ → Bool => points (coinGame (c n) (ω (3 * n + 1)) (ω (3 * n + 2))
      (ω (3 * n + 3))).outcome) = _ from funext (hres n)]
    have a1 := ((ad (3 * n + 1)).mono (ℱ.mono (by omega : 3 * n + 1 ≤ 3 * (n + 1) + 0))).measurable
    have a2 := ((ad (3 * n + 2)).mono (ℱ.mono (by omega : 3 * n + 2 ≤ 3 * (n + 1) + 0))).measurable
    have a3 := ((ad (3 * n + 3)).mono (ℱ.mono (by omega : 3 * n + 3 ≤ 3 * (n + 1) + 0))).measurable
    exact (a1.mul a2).add (a3.sub (a1.mul a3))
  · change ∀ᵐ ω ∂P, _ ≤ (P[_ | ℱ (3 * n + 0)]) ω
    have hq : q (3 * n + 1) = 1 / 2 := by dsimp only [q]; rw [if_pos (by omega)]
    have hm := mean (3 * n + 1) (3 * n + 0) (by omega)
    rw [SimpleGraph.pathGraph_adj] at hij
    have hij' : (i = 0 ∧ j = 1 ∨ i = 1 ∧ j = 0) ∨ (i = 1 ∧ j = 2 ∨ i = 2 ∧ j = 1) := by
      revert hij; fin_cases i <;> fin_cases j <;> simp
    rcases hij' with hc | hc
    · have e : ({ω : ℕ → Bool | (coinGame (c n) (ω (3 * n + 1)) (ω (3 * n + 2))
          (ω (3 * n + 3))).first = i ∧ (coinGame (c n) (ω (3 * n + 1)) (ω (3 * n + 2))
          (ω (3 * n + 3))).second = j ∨ (coinGame (c n) (ω (3 * n + 1)) (ω (3 * n + 2))
          (ω (3 * n + 3))).first = j ∧ (coinGame (c n) (ω (3 * n + 1)) (ω (3 * n + 2))
          (ω (3 * n + 3))).second = i}.indicator fun _ => (1 : ℝ)) = f (3 * n + 1) := by
        funext ω
        rw [fv, Set.indicator_apply]
        simp only [coinGame, Set.mem_setOf_eq]
        rcases hc with ⟨rfl, rfl⟩ | ⟨rfl, rfl⟩ <;> cases ω (3 * n + 1) <;> simp
      rw [e]
      filter_upwards [hm] with ω hω
      rw [hω, hq]
    · have e : ({ω : ℕ → Bool | (coinGame (c n) (ω (3 * n + 1)) (ω (3 * n + 2))
          (ω (3 * n + 3))).first = i ∧ (coinGame (c n) (ω (3 * n + 1)) (ω (3 * n + 2))
          (ω (3 * n + 3))).second = j ∨ (coinGame (c n) (ω (3 * n + 1)) (ω (3 * n + 2))
          (ω (3 * n + 3))).first = j ∧ (coinGame (c n) (ω (3 * n + 1)) (ω (3 * n + 2))
          (ω (3 * n + 3))).second = i}.indicator fun _ => (1 : ℝ)) = (fun _ => 1) - f (3 * n + 1) := by
        funext ω
        rw [Pi.sub_apply, fv, Set.indicator_apply]
        simp only [coinGame, Set.mem_setOf_eq]
        rcases hc with ⟨rfl, rfl⟩ | ⟨rfl, rfl⟩ <;> cases ω (3 * n + 1) <;> simp
      rw [e]
      have b := condExp_sub (integrable_const (1 : ℝ)) (fi (3 * n + 1)) (μ := P) (ℱ (3 * n + 0))
      filter_upwards [hm, b] with ω hω hb
      rw [hb, Pi.sub_apply, hω, hq, condExp_const (ℱ.le _)]
      norm_num

end Skillratings
