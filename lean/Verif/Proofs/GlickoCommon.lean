import Verif.Proofs.Logistic
import Verif.Spec.Glicko
/-
Facts about Glickman's formulas, shared by Glicko, Glicko-Boost and Sticko.
-/
namespace Skillratings
open Real Spec

theorem glickoQ_pos : 0 < glickoQ := div_pos log_ten_pos (by norm_num)

theorem glickoQ_lt : glickoQ < 0.0057565 := by
  unfold glickoQ; linarith [log_ten_lt]

theorem glickoG_radicand_pos (rd : ℝ) : 0 < 1 + 3 * glickoQ ^ 2 * rd ^ 2 / Real.pi ^ 2 := by
  have : 0 ≤ 3 * glickoQ ^ 2 * rd ^ 2 / Real.pi ^ 2 := by positivity
  linarith

theorem glickoG_pos (rd : ℝ) : 0 < glickoG rd := by
  have := glickoG_radicand_pos rd
  unfold glickoG; positivity

theorem glickoG_le_one (rd : ℝ) : glickoG rd ≤ 1 := by
  unfold glickoG
  rw [div_le_one (Real.sqrt_pos.2 (glickoG_radicand_pos rd))]
  apply Real.one_le_sqrt.2
  have : 0 ≤ 3 * glickoQ ^ 2 * rd ^ 2 / Real.pi ^ 2 := by positivity
  linarith

theorem glickoG_lt_of_sq_lt {a b : ℝ} (h : a ^ 2 < b ^ 2) : glickoG b < glickoG a := by
  unfold glickoG
  have hq := glickoQ_pos
  have hpi := Real.pi_pos
  apply one_div_lt_one_div_of_lt (Real.sqrt_pos.2 (glickoG_radicand_pos a))
  apply Real.sqrt_lt_sqrt (glickoG_radicand_pos a).le
  gcongr

theorem glickoE_eq (r rj rdj : ℝ) :
    glickoE r rj rdj = sigmoid (glickoQ * (glickoG rdj * (r - rj))) := by
  rw [glickoE, one_div, inv_one_add_pow, glickoQ]
  congr 1; ring

theorem glickoE_pos (r rj rdj : ℝ) : 0 < glickoE r rj rdj := by
  rw [glickoE_eq]; exact sigmoid_pos _

theorem glickoE_lt_one (r rj rdj : ℝ) : glickoE r rj rdj < 1 := by
  rw [glickoE_eq]; exact sigmoid_lt_one _

theorem glickoInfo_pos (r rj rdj : ℝ) : 0 < glickoInfo r rj rdj := by
  have h1 := glickoE_pos r rj rdj
  have h2 : 0 < 1 - glickoE r rj rdj := by linarith [glickoE_lt_one r rj rdj]
  have h3 := glickoQ_pos
  have h4 := glickoG_pos rdj
  unfold glickoInfo; positivity

theorem posterior_eq (v i : ℝ) : posterior v i = (v⁻¹ + i)⁻¹ := by
  simp [posterior]

theorem posterior_pos {v i : ℝ} (hv : 0 < v) (hi : 0 ≤ i) : 0 < posterior v i := by
  unfold posterior; positivity

theorem posterior_lt {v i : ℝ} (hv : 0 < v) (hi : 0 < i) : posterior v i < v := by
  rw [posterior_eq]
  apply inv_lt_of_inv_lt₀ hv
  linarith

theorem posterior_le {v i : ℝ} (hv : 0 < v) (hi : 0 ≤ i) : posterior v i ≤ v := by
  rw [posterior_eq]
  apply inv_le_of_inv_le₀ hv
  linarith

theorem glickoOnset_pos {rd : ℝ} (c : ℝ) (h : 0 < rd) : 0 < glickoOnset rd c := by
  unfold glickoOnset
  apply lt_min _ (by norm_num)
  apply Real.sqrt_pos.2; positivity

theorem glickoOnset_le (rd c : ℝ) : glickoOnset rd c ≤ 350 := min_le_right _ _

theorem points_sub_abs_lt {e : ℝ} (o : Outcomes) (h0 : 0 < e) (h1 : e < 1) :
    |points o - e| < 1 := by
  rw [abs_lt]
  cases o <;> simp only [points] <;> constructor <;> linarith

theorem List_sum_pos {α : Type} (l : List α) (f : α → ℝ) (hl : l ≠ []) (hf : ∀ x, 0 < f x) :
    0 < (l.map f).sum := by
  apply List.sum_pos
  · intro x hx
    obtain ⟨a, -, rfl⟩ := List.mem_map.1 hx
    exact hf a
  · simpa using hl

theorem List_sum_mul_left {α : Type} (l : List α) (f : α → ℝ) (c : ℝ) :
    c * (l.map f).sum = (l.map fun x => c * f x).sum := by
  induction l with
  | nil => simp
  | cons x l ih => simp [mul_add, ih]

theorem onset_iterate (rd c : ℝ) (n : ℕ) :
    (fun x => glickoOnset x c)^[n] (min rd 350) = min √(rd ^ 2 + n * c ^ 2) 350 ∨ rd < 0 := by
  by_cases hrd : 0 ≤ rd
  · left
    induction n with
    | zero => simp [Real.sqrt_sq hrd]
    | succ n ih =>
      rw [Function.iterate_succ_apply', ih]
      unfold glickoOnset
      have hx : (0 : ℝ) ≤ rd ^ 2 + n * c ^ 2 := by positivity
      rcases le_total √(rd ^ 2 + n * c ^ 2) 350 with h | h
      · rw [min_eq_left h, Real.sq_sqrt hx]
        congr 2; push_cast; ring
      · rw [min_eq_right h, min_eq_right, min_eq_right]
        · calc (350 : ℝ) ≤ √(rd ^ 2 + n * c ^ 2) := h
            _ ≤ _ := by
              apply Real.sqrt_le_sqrt
              push_cast
              nlinarith [sq_nonneg c]
        · apply Real.le_sqrt_of_sq_le
          nlinarith [sq_nonneg c]
  · right; linarith

end Skillratings
