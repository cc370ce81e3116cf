import Verif.Proofs.Quality
import Mathlib.Data.Fin.VecNotation
/-
Properties C73 and C74: the matrix routines and `match_quality_multi_team`, over the reals.

`Matrix.ofM M` is the crate's representation (dimensions and entries row by row) of the
mathematical matrix `M`.  `.ok` as the result excludes every panic, in particular an index out
of range.
-/
namespace Skillratings
namespace TrueSkill
open Spec
open Matrix (ofM)
open scoped _root_.Matrix

/-! ### C73 -/

/-- Every well-formed matrix of the crate represents a mathematical one. -/
theorem C73_representation (m : Matrix ℝ) (h : m.data.length = m.rows * m.cols) :
    ∃ M : _root_.Matrix (Fin m.rows) (Fin m.cols) ℝ, m = ofM M := by
  obtain ⟨data, R, C⟩ := m
  simp only at h ⊢
  refine ⟨_root_.Matrix.of fun i j => data.getD (i * C + j) 0, ?_⟩
  have := Matrix.mk'_eq_ofM R C fun i j => data.getD (i * C + j) 0
  rw [← this, Matrix.mk']
  congr 1
  apply List.ext_getElem
  · simpa using h
  · intro k h1 h2
    simp only [List.getElem_map, List.getElem_range]
    rw [Nat.div_add_mod']
    simp [h1]

/-- The representation is faithful. -/
theorem C73_representation_injective {R C : ℕ} (M N : _root_.Matrix (Fin R) (Fin C) ℝ)
    (h : ofM M = ofM N) : M = N := by
  rw [Matrix.ofM_eq, Matrix.ofM_eq] at h
  funext i j
  have h1 := Matrix.get_mk' (Matrix.ext M) i.2 j.2
  have h2 := Matrix.get_mk' (Matrix.ext N) i.2 j.2
  rw [h, h2, Matrix.ext_val, Matrix.ext_val] at h1
  exact (Except.ok.inj h1).symm

/-- `transpose` -/
theorem C73_transpose {R C : ℕ} (M : _root_.Matrix (Fin R) (Fin C) ℝ) :
    (ofM M).transpose = .ok (ofM Mᵀ) := Matrix.transpose_ofM M

/-- The product of matrices of fitting dimensions. -/
theorem C73_mul {R K C : ℕ} (M : _root_.Matrix (Fin R) (Fin K) ℝ)
    (N : _root_.Matrix (Fin K) (Fin C) ℝ) : (ofM M).mul (ofM N) = .ok (ofM (M * N)) :=
  Matrix.mul_ofM M N

/-- The product of matrices whose dimensions only fit the other way round: both are transposed. -/
theorem C73_mul_transposed {R K C : ℕ} (M : _root_.Matrix (Fin K) (Fin R) ℝ)
    (N : _root_.Matrix (Fin C) (Fin K) ℝ) (h : R ≠ C) :
    (ofM M).mul (ofM N) = .ok (ofM (Mᵀ * Nᵀ)) := Matrix.mul_ofM_transposed M N h

/-- All other products panic. -/
theorem C73_mul_panic {R K L C : ℕ} (M : _root_.Matrix (Fin R) (Fin K) ℝ)
    (N : _root_.Matrix (Fin L) (Fin C) ℝ) (h1 : K ≠ L) (h2 : R ≠ C) :
    (ofM M).mul (ofM N) = .error .mulDimensions := Matrix.mul_panic _ _ h1 h2

/-- The sum. -/
theorem C73_add {R C : ℕ} (M N : _root_.Matrix (Fin R) (Fin C) ℝ) :
    (ofM M).add (ofM N) = .ok (ofM (M + N)) := Matrix.add_ofM M N

/-- Sums of matrices of different dimensions panic. -/
theorem C73_add_panic {R C R' C' : ℕ} (M : _root_.Matrix (Fin R) (Fin C) ℝ)
    (N : _root_.Matrix (Fin R') (Fin C') ℝ) (h : R ≠ R' ∨ C ≠ C') :
    (ofM M).add (ofM N) = .error .addDimensions := by
  rw [Matrix.add]
  by_cases h1 : R = R'
  · have h2 : (ofM M).cols ≠ (ofM N).cols := h.resolve_left (not_not.2 h1)
    rw [if_pos h2, ite_self]
  · have h2 : (ofM M).rows ≠ (ofM N).rows := h1
    rw [if_pos h2]

/-- The product with a number. -/
theorem C73_scale {R C : ℕ} (M : _root_.Matrix (Fin R) (Fin C) ℝ) (x : ℝ) :
    (ofM M).scale x = .ok (ofM (x • M)) := Matrix.scale_ofM M x

/-- `determinant` of a non-empty square matrix. -/
theorem C73_determinant {n : ℕ} (hn : 0 < n) (M : _root_.Matrix (Fin n) (Fin n) ℝ) :
    (ofM M).determinant = .ok M.det := Matrix.determinant_ofM hn M

/-- `determinant` of a matrix that is not square panics. -/
theorem C73_determinant_panic {R C : ℕ} (M : _root_.Matrix (Fin R) (Fin C) ℝ) (h : R ≠ C) :
    (ofM M).determinant = .error .notSquare := by
  have h' : (ofM M).rows ≠ (ofM M).cols := h
  rw [Matrix.determinant, if_pos h']

/-- `inverse` of a matrix of size at least two, and of non-zero determinant. -/
theorem C73_inverse {n : ℕ} (hn : 2 ≤ n) (M : _root_.Matrix (Fin n) (Fin n) ℝ) (h : M.det ≠ 0) :
    ∃ N : _root_.Matrix (Fin n) (Fin n) ℝ, (ofM M).inverse = .ok (ofM N) ∧ M * N = 1 ∧ N * M = 1 := by
  obtain ⟨n, rfl⟩ : ∃ k, n = k + 2 := ⟨n - 2, by omega⟩
  have hu : IsUnit M.det := isUnit_iff_ne_zero.2 h
  exact ⟨M⁻¹, Matrix.inverse_ofM M h, _root_.Matrix.mul_nonsing_inv M hu,
    _root_.Matrix.nonsing_inv_mul M hu⟩

/-- `inverse` of a singular matrix panics. -/
theorem C73_inverse_panic {n : ℕ} (hn : 0 < n) (M : _root_.Matrix (Fin n) (Fin n) ℝ)
    (h : M.det = 0) : (ofM M).inverse = .error .notInvertible := Matrix.inverse_singular hn M h

/-- The restriction to sizes of at least two is needed: the "inverse" of any invertible `1 × 1`
matrix is the zero matrix … -/
theorem C73_inverse_one_is_zero (M : _root_.Matrix (Fin 1) (Fin 1) ℝ) (h : M.det ≠ 0) :
    (ofM M).inverse = .ok (ofM (0 : _root_.Matrix (Fin 1) (Fin 1) ℝ)) ∧
      ∀ N : _root_.Matrix (Fin 1) (Fin 1) ℝ, (ofM M).inverse = .ok (ofM N) → M * N ≠ 1 := by
  refine ⟨Matrix.inverse_one M h, ?_⟩
  intro N hN
  rw [Matrix.inverse_one M h] at hN
  rw [← C73_representation_injective _ _ (Except.ok.inj hN), mul_zero]
  exact zero_ne_one

/-- … and the determinant of the empty matrix is zero instead of one. -/
theorem C73_determinant_empty (M : _root_.Matrix (Fin 0) (Fin 0) ℝ) :
    (ofM M).determinant = .ok 0 ∧ M.det = 1 :=
  ⟨Matrix.determinant_empty M, _root_.Matrix.det_isEmpty⟩

/-- A matrix of size 2. -/
example : (ofM !![1, 2; 3, (4 : ℝ)]).determinant = .ok (-2) := by
  rw [C73_determinant (by norm_num), _root_.Matrix.det_fin_two_of]; norm_num

example : (!![1, 2; 3, (4 : ℝ)]).det ≠ 0 := by rw [_root_.Matrix.det_fin_two_of]; norm_num

/-! ### C74 -/

/-- No team or an empty team: quality zero, whatever the weights are. -/
theorem C74_empty (teams : List (List (TrueSkillRating ℝ))) (cfg : TrueSkillConfig ℝ)
    (w : Option (List (List ℝ))) (h : teams = [] ∨ [] ∈ teams) :
    matchQualityMultiTeam teams cfg w = .ok (.ok 0) := by
  rw [matchQualityMultiTeam]
  rcases h with rfl | h
  · simp [Flt.lit_0]
  · have : teams.any (fun t => t.isEmpty) = true := by
      rw [List.any_eq_true]; exact ⟨[], h, rfl⟩
    rw [this]
    split <;> simp [Flt.lit_0]

/-- Three or more non-empty teams with valid weights: the published formula, whenever the matrix
in it is invertible, and a panic otherwise. -/
theorem C74_formula (teams : List (List (TrueSkillRating ℝ))) (cfg : TrueSkillConfig ℝ)
    (ws : List (List ℝ)) (h3 : 3 ≤ teams.length) (h0 : ∀ t ∈ teams, t ≠ [])
    (hw : ValidWeights teams ws) :
    ((qTotal (teams.length - 1) cfg.beta (qPlayers teams ws)).det ≠ 0 →
      matchQualityMultiTeam teams cfg (some ws) =
        .ok (.ok (quality (teams.length - 1) cfg.beta (qPlayers teams ws)))) ∧
    ((qTotal (teams.length - 1) cfg.beta (qPlayers teams ws)).det = 0 →
      matchQualityMultiTeam teams cfg (some ws) = .error .notInvertible) := by
  have hne : teams ≠ [] := by rintro rfl; simp at h3
  rw [quality_eq teams cfg ws hne h0 hw]
  obtain ⟨k, hk⟩ : ∃ k, teams.length - 1 = k + 2 := ⟨teams.length - 3, by omega⟩
  rw [hk]
  constructor
  · intro hdet
    rw [quality_formula _ _ _ _ hdet]
    rfl
  · intro hdet
    rw [quality_singular _ _ _ _ hdet]

/-- With `β ≠ 0` the only obstacle are two teams whose players all have weight zero; otherwise
the quality is in (0, 1]. -/
theorem C74_range (teams : List (List (TrueSkillRating ℝ))) (cfg : TrueSkillConfig ℝ)
    (ws : List (List ℝ)) (h3 : 3 ≤ teams.length) (h0 : ∀ t ∈ teams, t ≠ [])
    (hw : ValidWeights teams ws) (hb : cfg.beta ≠ 0)
    (hone : ∀ i j, ZeroTeam ws i → ZeroTeam ws j → i = j) :
    matchQualityMultiTeam teams cfg (some ws) =
        .ok (.ok (quality (teams.length - 1) cfg.beta (qPlayers teams ws))) ∧
      0 < quality (teams.length - 1) cfg.beta (qPlayers teams ws) ∧
      quality (teams.length - 1) cfg.beta (qPlayers teams ws) ≤ 1 := by
  obtain ⟨h1, h2, h4⟩ := quality_range (qNoise_posDef (fits_of_valid hw) hone hb)
  exact ⟨(C74_formula teams cfg ws h3 h0 hw).1 h4, h1, h2⟩

theorem C74_two_zero_teams_panic (teams : List (List (TrueSkillRating ℝ))) (cfg : TrueSkillConfig ℝ)
    (ws : List (List ℝ)) (h3 : 3 ≤ teams.length) (h0 : ∀ t ∈ teams, t ≠ [])
    (hw : ValidWeights teams ws) (i j : ℕ) (hij : i < j) (hi : ZeroTeam ws i)
    (hj : ZeroTeam ws j) :
    matchQualityMultiTeam teams cfg (some ws) = .error .notInvertible :=
  (C74_formula teams cfg ws h3 h0 hw).2 (qTotal_singular (fits_of_valid hw) _ i j hij hi hj)

/-- Exactly one or exactly two non-empty teams: panic, whatever the ratings and valid weights. -/
theorem C74_one_team_panics (t : List (TrueSkillRating ℝ)) (cfg : TrueSkillConfig ℝ)
    (ws : List (List ℝ)) (h0 : t ≠ []) (hw : ValidWeights [t] ws) :
    matchQualityMultiTeam [t] cfg (some ws) = .error .notInvertible := by
  rw [quality_eq [t] cfg ws (by simp) (by simpa using h0) hw]
  have h := quality_one (qA 0 (qPlayers [t] ws)) (qMean (qPlayers [t] ws))
    (qVariance (qPlayers [t] ws)) (cfg.beta ^ 2)
  simp only [List.length_cons, List.length_nil, Nat.zero_add, Nat.sub_self, h]

theorem C74_two_teams_panic (t u : List (TrueSkillRating ℝ)) (cfg : TrueSkillConfig ℝ)
    (ws : List (List ℝ)) (ht : t ≠ []) (hu : u ≠ []) (hw : ValidWeights [t, u] ws) :
    ∃ p : Panic, matchQualityMultiTeam [t, u] cfg (some ws) = .error p := by
  rw [quality_eq [t, u] cfg ws (by simp) (by simp [ht, hu]) hw]
  have hN : (qPlayers [t, u] ws).length ≠ 1 := by
    rw [qPlayers_length (fits_of_valid hw)]
    have := List.length_pos_iff.2 ht
    have := List.length_pos_iff.2 hu
    simp only [List.map_cons, List.map_nil, List.sum_cons, List.sum_nil]
    omega
  have h := quality_two (qA 1 (qPlayers [t, u] ws)) (qMean (qPlayers [t, u] ws))
    (qVariance (qPlayers [t, u] ws)) (cfg.beta ^ 2) hN
  simp only [List.length_cons, List.length_nil, Nat.zero_add, Nat.add_sub_cancel, h]
  exact ⟨_, rfl⟩

/-- Without weights, i.e. all weights one. -/
theorem C74_no_weights (teams : List (List (TrueSkillRating ℝ))) (cfg : TrueSkillConfig ℝ)
    (h3 : 3 ≤ teams.length) (h0 : ∀ t ∈ teams, t ≠ []) (hb : cfg.beta ≠ 0) :
    ∃ q, matchQualityMultiTeam teams cfg none = .ok (.ok q) ∧ 0 < q ∧ q ≤ 1 ∧
      q = quality (teams.length - 1) cfg.beta
        (qPlayers teams (teams.map fun t => List.replicate t.length 1)) := by
  have hw : ValidWeights teams (teams.map fun t => List.replicate t.length 1) := by
    rw [ValidWeights, List.forall₂_map_right_iff, List.forall₂_same]
    intro t _
    refine ⟨by simp, fun x hx => ?_⟩
    rw [List.eq_of_mem_replicate hx]; exact zero_le_one
  have hno : ∀ i, ¬ ZeroTeam (teams.map fun t => List.replicate t.length (1 : ℝ)) i := by
    rintro i ⟨w, hi, hx⟩
    rw [List.getElem?_map] at hi
    cases ht : teams[i]? with
    | none => simp [ht] at hi
    | some t =>
      rw [ht] at hi
      obtain rfl := Option.some.inj hi
      have hpos := List.length_pos_iff.2 (h0 t (List.mem_of_getElem? ht))
      exact one_ne_zero (hx 1 (by rw [List.mem_replicate]; exact ⟨by omega, rfl⟩))
  obtain ⟨h1, h2, h4⟩ := C74_range teams cfg _ h3 h0 hw hb fun i j hi _ => absurd hi (hno i)
  refine ⟨_, ?_, h2, h4, rfl⟩
  rw [← h1]
  have key : getWeights teams none =
      getWeights teams (some (teams.map fun t => List.replicate t.length (1 : ℝ))) := by
    rw [getWeights_valid hw, getWeights]
    simp only [flt]
  rw [matchQualityMultiTeam, matchQualityMultiTeam, Matrix.createRotatedAMatrix,
      Matrix.createRotatedAMatrix, key]

/-- Three teams of one or two players, with weights. -/
example : ValidWeights [[(⟨25, 8⟩ : TrueSkillRating ℝ)], [⟨30, 1⟩, ⟨20, 2⟩], [⟨27, 3⟩]]
    [[1], [1 / 2, 0], [2]] := by
  simp only [ValidWeights, List.forall₂_cons, List.forall₂_nil_left_iff]
  norm_num

/-- None of these three teams has weight zero. -/
example : ∀ i j, ZeroTeam [[1], [1 / 2, 0], [2]] i → ZeroTeam [[1], [1 / 2, 0], [2]] j → i = j := by
  have : ∀ i, ¬ ZeroTeam [[1], [1 / 2, 0], [2]] i := by
    rintro i ⟨w, hw, hx⟩
    match i with
    | 0 => obtain rfl := Option.some.inj hw; simpa using hx 1 (by simp)
    | 1 => obtain rfl := Option.some.inj hw; simpa using hx (1 / 2) (by simp)
    | 2 => obtain rfl := Option.some.inj hw; simpa using hx 2 (by simp)
    | _ + 3 => simp at hw
  exact fun i j hi _ => absurd hi (this i)

end TrueSkill
end Skillratings
