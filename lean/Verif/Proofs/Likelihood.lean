import Mathlib.Analysis.Calculus.Deriv.MeanValue
import Verif.Proofs.Logistic
import Verif.Spec.Likelihood
/-
Derivatives of the log-likelihood of games and of the log posterior density.
-/
namespace Skillratings
open Real Spec

theorem winProbability_eq (x : ℝ) : winProbability x = sigmoid x := by
  rw [winProbability, sigmoid_def, one_div]

theorem hasDerivAt_logLik (s x : ℝ) : HasDerivAt (logLik s) (s - sigmoid x) x := by
  have h0 := (sigmoid_pos x).ne'
  have h1 : 1 - sigmoid x ≠ 0 := (sub_pos.2 (sigmoid_lt_one x)).ne'
  have e : logLik s = fun y => s * log (sigmoid y) + (1 - s) * log (1 - sigmoid y) := by
    funext y; simp only [logLik, winProbability_eq]
  rw [e]
  have d := hasDerivAt_sigmoid x
  have d1 := (d.log h0).const_mul s
  have d2 := ((d.const_sub 1).log h1).const_mul (1 - s)
  refine (d1.add d2).congr_deriv ?_
  field_simp
  ring

theorem hasDerivAt_logLik_comp (s : ℝ) {g : ℝ → ℝ} {g' x : ℝ} (hg : HasDerivAt g g' x) :
    HasDerivAt (fun r => logLik s (g r)) ((s - sigmoid (g x)) * g') x :=
  (hasDerivAt_logLik s (g x)).comp x hg

theorem hasDerivAt_sigmoid_comp {g : ℝ → ℝ} {g' x : ℝ} (hg : HasDerivAt g g' x) :
    HasDerivAt (fun r => sigmoid (g r)) (sigmoid (g x) * (1 - sigmoid (g x)) * g') x :=
  (hasDerivAt_sigmoid (g x)).comp x hg

theorem hasDerivAt_lin (k b x : ℝ) : HasDerivAt (fun r => k * (r - b)) k x :=
  (((hasDerivAt_id x).sub_const b).const_mul k).congr_deriv (mul_one k)

theorem hasDerivAt_lin' (k a x : ℝ) : HasDerivAt (fun r => k * (a - r)) (-k) x :=
  (((hasDerivAt_id x).const_sub a).const_mul k).congr_deriv (mul_neg_one k)

theorem hasDerivAt_frac (c b x : ℝ) : HasDerivAt (fun r => (r - b) / c) (1 / c) x :=
  ((hasDerivAt_id x).sub_const b).div_const c

theorem hasDerivAt_frac' (c a x : ℝ) : HasDerivAt (fun r => (a - r) / c) (-1 / c) x :=
  ((hasDerivAt_id x).const_sub a).div_const c

theorem Spec.IsNewtonStep.of_eq {f : ℝ → ℝ} {x y z v w : ℝ} (h : IsNewtonStep f x y v) (h1 : z = y)
    (h2 : w = v) : IsNewtonStep f x z w := h1 ▸ h2 ▸ h

/-- The derivative of the log-likelihood. -/
noncomputable def score (gs : List LikGame) (r : ℝ) : ℝ :=
  (gs.map fun g => g.slope * (g.points - sigmoid (g.slope * (r - g.opponent)))).sum

/-- Minus the second derivative. -/
noncomputable def information (gs : List LikGame) (r : ℝ) : ℝ :=
  (gs.map fun g => g.slope ^ 2 * (sigmoid (g.slope * (r - g.opponent))
    * (1 - sigmoid (g.slope * (r - g.opponent))))).sum

theorem hasDerivAt_logLikelihood (gs : List LikGame) (r : ℝ) :
    HasDerivAt (logLikelihood gs) (score gs r) r := by
  induction gs with
  | nil => exact (hasDerivAt_const r (0 : ℝ)).congr_deriv (by simp [score])
  | cons g gs ih =>
    have h1 := (hasDerivAt_logLik g.points (g.slope * (r - g.opponent))).comp r
      (((hasDerivAt_id r).sub_const g.opponent).const_mul g.slope)
    refine (h1.add ih).congr_deriv ?_
    simp only [score, List.map_cons, List.sum_cons]
    ring

theorem hasDerivAt_score (gs : List LikGame) (r : ℝ) :
    HasDerivAt (score gs) (-information gs r) r := by
  induction gs with
  | nil => exact (hasDerivAt_const r (0 : ℝ)).congr_deriv (by simp [information])
  | cons g gs ih =>
    have h1 := (((hasDerivAt_sigmoid (g.slope * (r - g.opponent))).comp r
      (((hasDerivAt_id r).sub_const g.opponent).const_mul g.slope)).const_sub g.points).const_mul
      g.slope
    refine (h1.add ih).congr_deriv ?_
    simp only [information, List.map_cons, List.sum_cons]
    ring

theorem hasDerivAt_logPosterior (m v : ℝ) (gs : List LikGame) (r : ℝ) :
    HasDerivAt (logPosterior m v gs) (score gs r - (r - m) / v) r := by
  have h1 := (((hasDerivAt_id r).sub_const m).pow 2).div_const (2 * v)
  refine ((hasDerivAt_logLikelihood gs r).sub h1).congr_deriv ?_
  simp only [id, mul_one]
  rcases eq_or_ne v 0 with rfl | hv
  · simp
  · field_simp
    push_cast
    ring

theorem deriv_logPosterior (m v : ℝ) (gs : List LikGame) :
    deriv (logPosterior m v gs) = fun r => score gs r - (r - m) / v :=
  funext fun r => (hasDerivAt_logPosterior m v gs r).deriv

theorem hasDerivAt_deriv_logPosterior (m v : ℝ) (gs : List LikGame) (r : ℝ) :
    HasDerivAt (deriv (logPosterior m v gs)) (-(1 / v + information gs r)) r := by
  rw [deriv_logPosterior]
  refine ((hasDerivAt_score gs r).sub (((hasDerivAt_id r).sub_const m).div_const v)).congr_deriv ?_
  ring

theorem information_nonneg (gs : List LikGame) (r : ℝ) : 0 ≤ information gs r := by
  apply List.sum_nonneg
  intro x hx
  obtain ⟨g, -, rfl⟩ := List.mem_map.1 hx
  exact mul_nonneg (sq_nonneg _) (sigmoid_mul_one_sub_pos _).le

/-- The form in which the systems compute a step: `v' = 1/(1/v + information)` and
`x' = x + v' score`. -/
theorem newton_logPosterior {m v : ℝ} (hv : 0 < v) (gs : List LikGame) :
    IsNewtonStep (logPosterior m v gs) m (m + 1 / (1 / v + information gs m) * score gs m)
      (1 / (1 / v + information gs m)) := by
  have hi := information_nonneg gs m
  have hp : 0 < 1 / v + information gs m := by positivity
  refine ⟨_, _, hasDerivAt_logPosterior m v gs m, hasDerivAt_deriv_logPosterior m v gs m, by linarith,
    ?_, ?_⟩
  · rw [sub_self, zero_div, sub_zero, div_neg, sub_neg_eq_add]
    ring
  · rw [neg_div_neg_eq]

/-- The log posterior has exactly one maximum, and a step of Newton's method goes in its
direction. -/
theorem newton_towards {m v x x' w : ℝ} (hv : 0 < v) (gs : List LikGame)
    (h : IsNewtonStep (logPosterior m v gs) x x' w) : MovesTowardsMode (logPosterior m v gs) x x' := by
  set f := logPosterior m v gs with hf
  have hd : ∀ r, HasDerivAt f (deriv f r) r := fun r => by
    rw [hf, deriv_logPosterior]; exact hasDerivAt_logPosterior m v gs r
  have hanti : StrictAnti (deriv f) := by
    apply strictAnti_of_deriv_neg
    intro r
    rw [hf, (hasDerivAt_deriv_logPosterior m v gs r).deriv]
    have := information_nonneg gs r
    have : 0 < 1 / v := by positivity
    linarith
  have hcont : Continuous (deriv f) := by
    rw [continuous_iff_continuousAt]
    intro r
    exact (hasDerivAt_deriv_logPosterior m v gs r).continuousAt
  -- the derivative of the likelihood is bounded
  have hb : ∃ C, 0 ≤ C ∧ ∀ r, |score gs r| ≤ C := by
    clear_value f; clear h hd hanti hcont hf
    induction gs with
    | nil => exact ⟨0, le_rfl, fun r => by simp [score]⟩
    | cons g gs ih =>
      obtain ⟨C, hC, h⟩ := ih
      refine ⟨|g.slope| * (|g.points| + 1) + C, by positivity, fun r => ?_⟩
      have e : score (g :: gs) r = g.slope * (g.points - sigmoid (g.slope * (r - g.opponent)))
          + score gs r := by simp [score]
      rw [e]
      refine (abs_add_le _ _).trans (add_le_add ?_ (h r))
      rw [abs_mul]
      refine mul_le_mul_of_nonneg_left ((abs_sub _ _).trans ?_) (abs_nonneg _)
      rw [abs_of_pos (sigmoid_pos _)]
      linarith [sigmoid_lt_one (g.slope * (r - g.opponent))]
  obtain ⟨C, hC, hb⟩ := hb
  have hlo : 0 ≤ deriv f (m - v * C) := by
    rw [hf, deriv_logPosterior]
    have := (abs_le.1 (hb (m - v * C))).1
    have e : (m - v * C - m) / v = -C := by field_simp; ring
    simp only [e]; linarith
  have hhi : deriv f (m + v * C) ≤ 0 := by
    rw [hf, deriv_logPosterior]
    have := (abs_le.1 (hb (m + v * C))).2
    have e : (m + v * C - m) / v = C := by field_simp; ring
    simp only [e]; linarith
  obtain ⟨z, -, hz⟩ : ∃ z ∈ Set.Icc (m - v * C) (m + v * C), deriv f z = 0 := by
    have := intermediate_value_Icc' (by nlinarith : m - v * C ≤ m + v * C) hcont.continuousOn
    exact this ⟨hhi, hlo⟩
  have hup : StrictMonoOn f (Set.Iic z) := by
    apply strictMonoOn_of_deriv_pos (convex_Iic z)
    · exact fun r _ => (hd r).continuousAt.continuousWithinAt
    · intro r hr
      rw [interior_Iic] at hr
      have := hanti hr
      linarith
  have hdown : StrictAntiOn f (Set.Ici z) := by
    apply strictAntiOn_of_deriv_neg (convex_Ici z)
    · exact fun r _ => (hd r).continuousAt.continuousWithinAt
    · intro r hr
      rw [interior_Ici] at hr
      have := hanti hr
      linarith
  refine ⟨z, fun r hr => ?_, ?_, ?_⟩
  · rcases lt_or_gt_of_ne hr with h | h
    · exact hup h.le (Set.mem_Iic.2 le_rfl) h
    · exact hdown (Set.mem_Ici.2 le_rfl) h.le h
  all_goals
    obtain ⟨d₁, d₂, g1, -, g2, rfl, -⟩ := h
    have hd1 : d₁ = deriv f x := g1.deriv.symm
  · have e1 : x < x - d₁ / d₂ ↔ 0 < d₁ := by
      rw [lt_sub_iff_add_lt, add_lt_iff_neg_left, div_neg_iff]
      constructor
      · rintro (h | h)
        · exact h.1
        · exact absurd g2 (not_lt.2 h.2.le)
      · exact fun h => Or.inl ⟨h, g2⟩
    rw [e1, hd1, ← hz, hanti.lt_iff_gt]
  · have e1 : x - d₁ / d₂ < x ↔ d₁ < 0 := by
      rw [sub_lt_self_iff, div_pos_iff]
      constructor
      · rintro (h | h)
        · exact absurd g2 (not_lt.2 h.2.le)
        · exact h.1
      · exact fun h => Or.inr ⟨h, g2⟩
    rw [e1, hd1, ← hz, hanti.lt_iff_gt]

end Skillratings
