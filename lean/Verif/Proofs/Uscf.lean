import Verif.Proofs.Logistic
import Verif.Model.Uscf
import Verif.Spec.Uscf
/-
Helper lemmas for the USCF properties.
-/
namespace Skillratings.Uscf
open Real Spec

theorem eValue_real (r s : ℝ) : eValue r s = sigmoid (log 10 / 400 * (r - s)) := by
  simp only [eValue, flt]
  rw [add_comm, inv_one_add_pow]
  congr 1; ring

theorem logisticExpected_eq (r s : ℝ) : logisticExpected r s = sigmoid (log 10 / 400 * (r - s)) := by
  rw [logisticExpected, one_div, inv_one_add_pow]
  congr 1; ring

theorem provisional_real (r : ℝ) (g m : ℕ) (avg : ℝ) (w l : ℤ) :
    newRatingProvisional r g m avg w l = uscfProvisional r g m avg w l := by
  simp only [newRatingProvisional, uscfProvisional, flt]
  push_cast
  congr 1
  ring

theorem effective_real (r : ℝ) (g : ℕ) : effectiveGameNumber r g = uscfEffective r g := by
  simp only [effectiveGameNumber, uscfEffective, flt]
  rw [show (0.00000739 : ℝ) * (2569 - r) ^ 2 + 0.662 = 0.662 + 0.00000739 * (2569 - r) ^ 2 by
    rw [add_comm]]

theorem boost_real (m : ℕ) (k e s t : ℝ) :
    getBoostValue m k e s t = uscfBonus m (k * (s - e)) (t * √(min m 4 : ℕ)) := by
  simp only [getBoostValue, uscfBonus, flt]
  by_cases hm : m < 3
  · simp [hm]
  · simp only [hm, if_false]
    split_ifs with h
    · rw [max_eq_left]; linarith
    · rw [max_eq_right]; linarith

theorem newRating_real (r : ℝ) (g m : ℕ) (s e : ℝ) (c : USCFConfig ℝ) :
    newRating r g m s e c = r + uscfK r g m * (s - e)
      + uscfBonus m (uscfK r g m * (s - e)) (c.t * √(min m 4 : ℕ)) := by
  simp only [newRating, boost_real, effective_real, uscfK, flt]
  ring

theorem uscfEffective_pos (r : ℝ) {g : ℕ} (hg : 0 < g) : 0 < uscfEffective r g := by
  have h1 : (0 : ℝ) < g := by exact_mod_cast hg
  unfold uscfEffective
  apply lt_min
  · split_ifs
    · have : (0 : ℝ) < 0.662 + 0.00000739 * (2569 - r) ^ 2 := by positivity
      positivity
    · norm_num
  · exact lt_min h1 (by norm_num)

theorem uscfEffective_nonneg (r : ℝ) (g : ℕ) : 0 ≤ uscfEffective r g := by
  rcases Nat.eq_zero_or_pos g with h | h
  · unfold uscfEffective
    apply le_min
    · split_ifs
      · positivity
      · norm_num
    · exact le_min (Nat.cast_nonneg g) (by norm_num)
  · exact (uscfEffective_pos r h).le

theorem uscfEffective_le (r : ℝ) (g : ℕ) : uscfEffective r g ≤ min (g : ℝ) 50 := min_le_right _ _

theorem sum_fromBool {R : Type} (rs : List (R × Outcomes)) (o : Outcomes) :
    (rs.map fun r => fromBool (r.2 = o)).sum = (rs.countP fun r => r.2 = o : ℤ) := by
  induction rs with
  | nil => rfl
  | cons r rs ih =>
    rw [List.map_cons, List.sum_cons, ih, List.countP_cons]
    by_cases h : r.2 = o <;> simp [h, fromBool, add_comm]

end Skillratings.Uscf
