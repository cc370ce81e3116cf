import Mathlib.LinearAlgebra.Matrix.PosDef
import Mathlib.Analysis.Matrix.PosDef
import Mathlib.LinearAlgebra.Matrix.SchurComplement
import Mathlib.Data.Real.StarOrdered
/-
Linear algebra for `match_quality_multi_team`: adding a positive semidefinite matrix
`A diag(s) Aᵀ` to a positive definite one does not lower the determinant.
-/
namespace Skillratings
open scoped Matrix
open Matrix

variable {m n : Type} [Fintype m] [DecidableEq m] [Fintype n] [DecidableEq n]

theorem posDef_quad {X : Matrix m m ℝ} (hX : X.PosDef) (a : m → ℝ) : 0 ≤ a ⬝ᵥ (X *ᵥ a) := by
  have := hX.posSemidef.dotProduct_mulVec_nonneg a
  simpa using this

theorem rankOne_posSemidef (a : m → ℝ) {s : ℝ} (hs : 0 ≤ s) :
    (s • vecMulVec a a).PosSemidef := by
  have := (posSemidef_vecMulVec_self_star a).smul hs
  simpa using this

theorem det_le_rankOne {X : Matrix m m ℝ} (hX : X.PosDef) (a : m → ℝ) {s : ℝ} (hs : 0 ≤ s) :
    X.det ≤ (X + s • vecMulVec a a).det := by
  have e : s • vecMulVec a a = replicateCol Unit (s • a) * replicateRow Unit a := by
    ext i j
    simp [vecMulVec_apply, Matrix.mul_apply, mul_assoc]
  rw [e, det_add_replicateCol_mul_replicateRow (isUnit_iff_ne_zero.2 hX.det_pos.ne')]
  have h1 : (1 + replicateRow Unit a * X⁻¹ * replicateCol Unit (s • a)).det =
      1 + s * (a ⬝ᵥ (X⁻¹ *ᵥ a)) := by
    rw [det_unique]
    simp only [Matrix.add_apply, Matrix.one_apply_eq, Matrix.mul_apply, replicateRow_apply,
      replicateCol_apply, Pi.smul_apply, smul_eq_mul, dotProduct, mulVec]
    congr 1
    rw [Finset.mul_sum]
    simp_rw [Finset.sum_mul, Finset.mul_sum]
    rw [Finset.sum_comm]
    refine Finset.sum_congr rfl fun i _ => Finset.sum_congr rfl fun j _ => ?_
    ring
  rw [h1]
  have h2 := posDef_quad hX.inv a
  have h3 := hX.det_pos
  nlinarith [mul_nonneg hs h2]

theorem weightedGram_eq (A : Matrix m n ℝ) (s : n → ℝ) :
    A * diagonal s * Aᵀ = ∑ p, s p • vecMulVec (fun i => A i p) (fun i => A i p) := by
  ext i j
  rw [Matrix.sum_apply, Matrix.mul_apply]
  refine Finset.sum_congr rfl fun p _ => ?_
  rw [mul_diagonal, transpose_apply, Matrix.smul_apply, vecMulVec_apply, smul_eq_mul]
  ring

theorem posDef_add_gram {X : Matrix m m ℝ} (hX : X.PosDef) (A : Matrix m n ℝ) {s : n → ℝ}
    (hs : ∀ p, 0 ≤ s p) :
    (X + A * diagonal s * Aᵀ).PosDef ∧ X.det ≤ (X + A * diagonal s * Aᵀ).det := by
  rw [weightedGram_eq]
  have key : ∀ T : Finset n, (X + ∑ p ∈ T, s p • vecMulVec (fun i => A i p) (fun i => A i p)).PosDef ∧
      X.det ≤ (X + ∑ p ∈ T, s p • vecMulVec (fun i => A i p) (fun i => A i p)).det := by
    intro T
    induction T using Finset.induction_on with
    | empty => simpa using hX
    | insert p T hp ih =>
      rw [Finset.sum_insert hp, add_comm (s p • _), ← add_assoc]
      exact ⟨ih.1.add_posSemidef (rankOne_posSemidef _ (hs p)),
        ih.2.trans (det_le_rankOne ih.1 _ (hs p))⟩
  exact key Finset.univ

end Skillratings
