import Mathlib.Data.Real.Basic
import Mathlib.Algebra.BigOperators.Fin
import Mathlib.Algebra.BigOperators.Group.Finset.Basic
/-
Lemmas about lists of the multi-team functions.
-/
namespace Skillratings

theorem zipIdx_ofFn {α : Type} {n : ℕ} (f : Fin n → α) :
    (List.ofFn f).zipIdx = List.ofFn fun i => (f i, i.val) := by
  apply List.ext_getElem <;> simp

theorem sum_erase_eq {n : ℕ} (i : Fin n) (f : Fin n → ℝ) :
    ∑ q ∈ Finset.univ.erase i, f q = ∑ q, if i = q then 0 else f q := by
  rw [← Finset.add_sum_erase _ _ (Finset.mem_univ i)]
  rw [if_pos rfl, zero_add]
  refine Finset.sum_congr rfl fun q hq => ?_
  rw [if_neg (Finset.ne_of_mem_erase hq).symm]

theorem sum_map_filter {α : Type} (l : List α) (p : α → Bool) (f : α → ℝ) :
    ((l.filter p).map f).sum = (l.map fun x => if p x then f x else 0).sum := by
  induction l with
  | nil => rfl
  | cons x l ih =>
    by_cases h : p x
    · simp [h, ih]
    · simp [h, ih]

end Skillratings
