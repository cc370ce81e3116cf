import Verif.Proofs.Logistic
import Verif.Model.Egf
import Verif.Spec.Egf
/-
Helper lemmas for the EGF properties.
-/
namespace Skillratings.Egf
open Real Spec

theorem beta_real (r h : ℝ) : beta r h = egfBeta (r + egfStones h) := by
  simp only [beta, egfBeta, egfStones, flt]
  rw [show (3300 : ℝ) - (if h = 0 then 0 else 100 * (h - 1 / 2)) - r =
    3300 - (r + if h = 0 then 0 else 100 * (h - 1 / 2)) by ring]

theorem expectedScore_real (a b : EGFRating ℝ) (c : EGFConfig ℝ) :
    expectedScore a b c =
      (sigmoid (egfBeta (egfFirst a.rating c.handicap) - egfBeta (egfSecond b.rating c.handicap)),
        1 - sigmoid
          (egfBeta (egfFirst a.rating c.handicap) - egfBeta (egfSecond b.rating c.handicap))) := by
  by_cases h : c.handicap < 0
  · simp only [expectedScore, flt, beta_real, h, if_true, inv_one_add_exp, egfFirst, egfSecond,
      abs_of_neg h, neg_sub]
    simp [egfStones]
  · simp only [expectedScore, flt, beta_real, h, if_false, inv_one_add_exp, egfFirst, egfSecond,
      abs_of_nonneg (not_lt.1 h), neg_sub]
    simp [egfStones]

theorem egfExpected_eq (s t : ℝ) : egfExpected s t = sigmoid (egfBeta s - egfBeta t) := by
  rw [egfExpected, one_div, inv_one_add_exp, neg_sub]

theorem egfBeta_lt {s t : ℝ} (h : s < t) (ht : t < 3300) : egfBeta s < egfBeta t := by
  unfold egfBeta
  have := Real.log_lt_log (show 0 < 3300 - t by linarith) (show 3300 - t < 3300 - s by linarith)
  linarith

theorem newRating_real (r s e : ℝ) :
    newRating r (con r) s e (bonus r) = egfRating r s e := by
  simp only [newRating, egfRating, con, bonus, egfCon, egfBonus, flt]
  congr 1
  rw [show (1.6 : ℝ) = 8 / 5 by norm_num]
  ring

theorem egf_real (a b : EGFRating ℝ) (o : Outcomes) (c : EGFConfig ℝ) :
    egf a b o c =
      (⟨egfRating a.rating (points o) (expectedScore a b c).1⟩,
       ⟨egfRating b.rating (1 - points o) (expectedScore a b c).2⟩) := by
  simp only [egf, newRating_real, flt]

theorem egfBonus_pos (r : ℝ) : 0 < egfBonus r := by
  unfold egfBonus
  have : 0 < log (1 + exp ((2300 - r) / 80)) :=
    Real.log_pos (by linarith [Real.exp_pos ((2300 - r) / 80)])
  positivity

theorem egfCon_pos {r : ℝ} (h : r < 3300) : 0 < egfCon r :=
  Real.rpow_pos_of_pos (by linarith) _

theorem egfRatingPeriod_real (p : EGFRating ℝ)
    (rs : List (EGFRating ℝ × Outcomes × EGFConfig ℝ)) :
    (egfRatingPeriod p rs).rating = p.rating +
      (rs.map fun r =>
        egfRating p.rating (points r.2.1) (expectedScore p r.1 r.2.2).1 - p.rating).sum := by
  have key : ∀ (x : ℝ), rs.foldl (fun ratingChange r =>
      ratingChange + (newRating p.rating (con p.rating) r.2.1.toChessPoints
        (expectedScore p r.1 r.2.2).1 (bonus p.rating) - p.rating)) x
      = x + (rs.map fun r =>
        egfRating p.rating (points r.2.1) (expectedScore p r.1 r.2.2).1 - p.rating).sum := by
    induction rs with
    | nil => simp
    | cons r rs ih =>
      intro x
      rw [List.foldl_cons, ih, List.map_cons, List.sum_cons, newRating_real, toChessPoints_real]
      ring
  simp only [egfRatingPeriod]
  rw [key, Flt.lit_0, zero_add]

end Skillratings.Egf
