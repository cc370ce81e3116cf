import Verif.Model.TrueSkill
import Verif.FltReal
import Mathlib.Algebra.BigOperators.Group.Finset.Basic
import Mathlib.Algebra.BigOperators.Ring.Finset
import Mathlib.Algebra.BigOperators.Field
import Mathlib.Algebra.Order.BigOperators.Ring.Finset
import Mathlib.Tactic.FieldSimp
import Mathlib.Tactic.LinearCombination
import Mathlib.Tactic.Positivity
/-
The factor graph of `trueskill_multi_team`, over the reals (C70, C72).
-/
namespace Skillratings
namespace TrueSkill
open Finset

/-! ### Gaussians -/

/-- The normal distribution with mean `μ` and variance `V`, in natural parameters. -/
noncomputable def nrm (μ V : ℝ) : Gaussian ℝ := { pi := V⁻¹, tau := V⁻¹ * μ }

theorem gaussian_ext {a b : Gaussian ℝ} (h1 : a.pi = b.pi) (h2 : a.tau = b.tau) : a = b := by
  cases a; cases b; simp_all

theorem mul_pi (a b : Gaussian ℝ) : (a * b).pi = a.pi + b.pi := rfl
theorem mul_tau (a b : Gaussian ℝ) : (a * b).tau = a.tau + b.tau := rfl
theorem div_pi (a b : Gaussian ℝ) : (a / b).pi = a.pi - b.pi := rfl
theorem div_tau (a b : Gaussian ℝ) : (a / b).tau = a.tau - b.tau := rfl
theorem default_pi : (Gaussian.default : Gaussian ℝ).pi = 0 := Flt.lit_0
theorem default_tau : (Gaussian.default : Gaussian ℝ).tau = 0 := Flt.lit_0

theorem div_default (a : Gaussian ℝ) : a / Gaussian.default = a :=
  gaussian_ext (by rw [div_pi, default_pi, sub_zero]) (by rw [div_tau, default_tau, sub_zero])

theorem default_mul (a : Gaussian ℝ) : Gaussian.default * a = a :=
  gaussian_ext (by rw [mul_pi, default_pi, zero_add]) (by rw [mul_tau, default_tau, zero_add])

theorem mul_div_self (a b : Gaussian ℝ) : a * b / b = a :=
  gaussian_ext (by rw [div_pi, mul_pi, add_sub_cancel_right])
    (by rw [div_tau, mul_tau, add_sub_cancel_right])

theorem div_mul_self (a b : Gaussian ℝ) : a / b * b = a :=
  gaussian_ext (by rw [mul_pi, div_pi, sub_add_cancel]) (by rw [mul_tau, div_tau, sub_add_cancel])

theorem nrm_mu {μ V : ℝ} (hV : V ≠ 0) : (nrm μ V).mu = μ := by
  have : V⁻¹ ≠ 0 := inv_ne_zero hV
  simp only [Gaussian.mu, nrm, flt]
  rw [if_neg (by simpa using this)]
  field_simp

theorem withMuSigma_real (μ σ : ℝ) :
    Gaussian.withMuSigma μ σ = if σ = 0 then .error .sigmaZero else .ok (nrm μ (σ ^ 2)) := by
  simp only [Gaussian.withMuSigma, nrm, flt]

/-! ### Variables -/

theorem updateMessage_gaussian (v : Variable ℝ) (id : ℕ) (m : Gaussian ℝ) :
    (v.updateMessage id m).1.gaussian = v.gaussian / v.messages id * m := rfl

theorem updateMessage_messages (v : Variable ℝ) (id k : ℕ) (m : Gaussian ℝ) :
    (v.updateMessage id m).1.messages k = if k = id then m else v.messages k := rfl

theorem updateValue_gaussian (v : Variable ℝ) (id : ℕ) (m : Gaussian ℝ) :
    (v.updateValue id m).1.gaussian = m := rfl

theorem updateValue_messages (v : Variable ℝ) (id k : ℕ) (m : Gaussian ℝ) :
    (v.updateValue id m).1.messages k =
      if k = id then m * v.messages id / v.gaussian else v.messages k := rfl

theorem write_get (s : Store ℝ) (r k : VarRef) (v : Variable ℝ × ℝ) :
    (s.write r v).1 k = if k = r then v.1 else s k := rfl

/-- A sequence of writes to different variables. -/
theorem foldl_write (f : ℕ → Store ℝ → Store ℝ) (tgt : ℕ → VarRef) (val : ℕ → Variable ℝ)
    (s0 : Store ℝ) (hinj : ∀ i j, tgt i = tgt j → i = j) (m : ℕ)
    (hstep : ∀ i < m, ∀ s : Store ℝ, (∀ j < i, s (tgt j) = val j) →
      (∀ r, (∀ j < i, r ≠ tgt j) → s r = s0 r) →
      ∀ k, f i s k = if k = tgt i then val i else s k) :
    (∀ j < m, (List.range m).foldl (fun s i => f i s) s0 (tgt j) = val j) ∧
      ∀ r, (∀ j < m, r ≠ tgt j) → (List.range m).foldl (fun s i => f i s) s0 r = s0 r := by
  induction m with
  | zero => exact ⟨fun j hj => absurd hj (Nat.not_lt_zero j), fun r _ => rfl⟩
  | succ m ih =>
    obtain ⟨h1, h2⟩ := ih fun i hi => hstep i (by omega)
    rw [List.range_succ, List.foldl_append]
    simp only [List.foldl_cons, List.foldl_nil]
    have h3 := hstep m (by omega) _ h1 h2
    constructor
    · intro j hj
      rw [h3]
      by_cases hjm : j = m
      · rw [if_pos (by rw [hjm]), hjm]
      · rw [if_neg fun h => hjm (hinj _ _ h)]
        exact h1 j (by omega)
    · intro r hr
      rw [h3, if_neg (hr m (by omega))]
      exact h2 r fun j hj => hr j (by omega)

/-! ### Prior factors -/

theorem ratings_down (τ : ℝ) : ∀ (rs : List (TrueSkillRating ℝ)) (i : ℕ) (s : Store ℝ),
    (∀ r ∈ rs, r.uncertainty ≠ 0) →
    ∃ fs, buildRatingLayer τ 0 i rs = .ok fs ∧ ∃ s', priorsDown fs s = .ok s' ∧
      (∀ k r, rs[k]? = some r → s' (.rating (i + k)) = ((s (.rating (i + k))).updateValue (i + k)
        (nrm r.rating (r.uncertainty ^ 2 + τ ^ 2))).1) ∧
      ∀ v, (∀ k < rs.length, v ≠ .rating (i + k)) → s' v = s v := by
  intro rs
  induction rs with
  | nil =>
    intro i s _
    exact ⟨[], rfl, s, rfl, by simp, fun _ _ => rfl⟩
  | cons r rs ih =>
    intro i s h
    have hr : r.uncertainty ≠ 0 := h r (by simp)
    have hpos : 0 < r.uncertainty ^ 2 + τ ^ 2 := by positivity
    have hsig : (nrm r.rating (r.uncertainty ^ 2)).sigma = |r.uncertainty| := by
      have h2 : (r.uncertainty ^ 2)⁻¹ ≠ 0 := by positivity
      simp only [Gaussian.sigma, nrm, flt]
      rw [if_neg h2, inv_inv, Real.sqrt_sq_eq_abs]
    have hhyp : Flt.hypot |r.uncertainty| τ = √(r.uncertainty ^ 2 + τ ^ 2) := by
      simp only [flt, sq_abs]
    have hsq : √(r.uncertainty ^ 2 + τ ^ 2) ^ 2 = r.uncertainty ^ 2 + τ ^ 2 := Real.sq_sqrt hpos.le
    have hne : √(r.uncertainty ^ 2 + τ ^ 2) ≠ 0 := (Real.sqrt_pos.2 hpos).ne'
    set u := (s (.rating i)).updateValue i (nrm r.rating (r.uncertainty ^ 2 + τ ^ 2)) with hu
    obtain ⟨fs, hfs, s', hs', h1, h2⟩ := ih (i + 1) (s.write (.rating i) u).1
      fun x hx => h x (List.mem_cons_of_mem _ hx)
    refine ⟨⟨0 + i, .rating i, nrm r.rating (r.uncertainty ^ 2), τ⟩ :: fs, ?_, s', ?_, ?_, ?_⟩
    · rw [buildRatingLayer, withMuSigma_real, if_neg hr]
      simp only [hfs]
    · rw [priorsDown, PriorFactor.down]
      simp only [hsig, hhyp, nrm_mu (pow_ne_zero 2 hr)]
      rw [withMuSigma_real, if_neg hne, hsq]
      simp only [Nat.zero_add]
      exact hs'
    · intro k x hx
      cases k with
      | zero =>
        obtain rfl := Option.some.inj hx
        rw [Nat.add_zero, h2 _ (fun k _ hk => by injection hk; omega), write_get, if_pos rfl]
      | succ k =>
        have := h1 k x hx
        rw [show i + 1 + k = i + (k + 1) by omega] at this
        rw [this, write_get, if_neg (fun hk => by injection hk; omega)]
    · intro v hv
      rw [h2 v fun k hk => ?_, write_get, if_neg (by simpa using hv 0 (by simp))]
      rw [show i + 1 + k = i + (k + 1) by omega]
      exact hv (k + 1) (by simpa using hk)

theorem ratings_panic (τ : ℝ) : ∀ (rs : List (TrueSkillRating ℝ)) (i : ℕ),
    (∃ r ∈ rs, r.uncertainty = 0) → buildRatingLayer τ 0 i rs = .error .sigmaZero := by
  intro rs
  induction rs with
  | nil => rintro i ⟨r, hr, _⟩; simp at hr
  | cons r rs ih =>
    rintro i ⟨x, hx, hx0⟩
    rw [buildRatingLayer, withMuSigma_real]
    by_cases h : r.uncertainty = 0
    · rw [if_pos h]
    · rw [if_neg h]
      rcases List.mem_cons.1 hx with rfl | hx
      · exact absurd hx0 h
      · simp only [ih (i + 1) ⟨x, hx, hx0⟩]

/-- C70: the schedule panics iff there is no difference of teams or an uncertainty is zero. -/
theorem runSchedule_panics (sizes : List ℕ)
    (ts : List (List (TrueSkillRating ℝ) × MultiTeamOutcome)) (rs : List (TrueSkillRating ℝ))
    (ws : List ℝ) (τ β p : ℝ) :
    (∃ e, runSchedule sizes ts rs ws τ β p 0.0001 = .error e) ↔
      ts.length ≤ 1 ∨ ∃ r ∈ rs, r.uncertainty = 0 := by
  have hm : (!((0.0 : ℝ) <? (0.0001 : ℝ))) = false := by
    have : ((0.0 : ℝ) <? (0.0001 : ℝ)) = true := by
      rw [Flt.lt_real]; norm_num
    rw [this]; rfl
  rw [runSchedule, hm]
  simp only [Bool.false_eq_true, if_false]
  by_cases h : ∃ r ∈ rs, r.uncertainty = 0
  · rw [ratings_panic τ rs 0 h]
    simp [h]
  · push Not at h
    obtain ⟨fs, hfs, s', hs', -⟩ := ratings_down τ rs 0 ⟨fun _ => Variable.new⟩ h
    rw [hfs]
    simp only [hs']
    have h' : ¬ ∃ r ∈ rs, r.uncertainty = 0 := by push Not; exact h
    by_cases ht : ts.length ≤ 1
    · have : ts.length - 1 = 0 := by omega
      rw [this]
      simp [buildTeamDiffLayer, ht]
    · obtain ⟨k, hk⟩ : ∃ k, ts.length - 1 = k + 1 := ⟨ts.length - 2, by omega⟩
      rw [hk]
      simp only [ht, h', or_self, iff_false]
      rintro ⟨e, he⟩
      have e1 : (buildTeamDiffLayer (F := ℝ) (k + 1) (rs.length + rs.length + ts.length)).head?
          ≠ none := by simp [buildTeamDiffLayer]
      have e2 : (buildTeamDiffLayer (F := ℝ) (k + 1) (rs.length + rs.length + ts.length)).getLast?
          ≠ none := by simp [buildTeamDiffLayer]
      obtain ⟨a, ha⟩ := Option.ne_none_iff_exists'.1 e1
      obtain ⟨b, hb⟩ := Option.ne_none_iff_exists'.1 e2
      rw [ha, hb] at he
      simp at he

/-! ### Sum factors -/

theorem accumulate_append (l : List (Gaussian ℝ × ℝ)) (d : Gaussian ℝ × ℝ) (h : d.1.pi ≠ 0) :
    SumFactor.accumulate (l ++ [d]) = ((SumFactor.accumulate l).1 + d.2 ^ 2 / d.1.pi,
      (SumFactor.accumulate l).2 + d.2 * d.1.mu) := by
  rw [SumFactor.accumulate, List.foldl_append]
  simp only [List.foldl_cons, List.foldl_nil]
  rw [← SumFactor.accumulate]
  simp only [flt, Bool.false_eq_true, if_false]
  rw [if_neg h]

theorem accumulate_nrm (m : ℕ) (μ V c : ℕ → ℝ) (h : ∀ j < m, V j ≠ 0) :
    SumFactor.accumulate ((List.range m).map fun j => (nrm (μ j) (V j), c j)) =
      (∑ j ∈ range m, c j ^ 2 * V j, ∑ j ∈ range m, c j * μ j) := by
  induction m with
  | zero =>
    simp only [SumFactor.accumulate, List.range_zero, List.map_nil, List.foldl_nil, sum_range_zero,
      Flt.lit_0]
  | succ m ih =>
    have hV := h m (by omega)
    rw [List.range_succ, List.map_append, List.map_cons, List.map_nil,
      accumulate_append _ _ (inv_ne_zero hV), ih fun j hj => h j (by omega), sum_range_succ,
      sum_range_succ, nrm_mu hV]
    simp only [nrm, div_inv_eq_mul]

theorem update_nrm (f : SumFactor ℝ) (s : Store ℝ) (var : VarRef) (m : ℕ) (T : ℕ → VarRef)
    (c μ V : ℕ → ℝ) (hV : ∀ j < m, V j ≠ 0)
    (h : ∀ j < m, (s (T j)).gaussian / (s (T j)).messages f.id = nrm (μ j) (V j)) :
    f.update s var ((List.range m).map T) ((List.range m).map c) =
      s.write var ((s var).updateMessage f.id
        (nrm (∑ j ∈ range m, c j * μ j) (∑ j ∈ range m, c j ^ 2 * V j))) := by
  rw [SumFactor.update]
  have e : ((((List.range m).map T).map fun val =>
      (s val).gaussian / (s val).messages f.id).zip ((List.range m).map c)) =
      (List.range m).map fun j => (nrm (μ j) (V j), c j) := by
    rw [List.map_map, List.zip_map']
    apply List.map_congr_left
    intro j hj
    rw [Function.comp, h j (List.mem_range.1 hj)]
  simp only [e, accumulate_nrm m μ V c hV]
  simp only [nrm, flt]

theorem sum_replace (m x : ℕ) (hx : x < m) (a : ℝ) (g : ℕ → ℝ) :
    (∑ j ∈ range m, if j = x then a else g j) = a + (∑ j ∈ range m, g j) - g x := by
  have e : ∀ j ∈ range m, (if j = x then a else g j) = g j + if j = x then a - g x else 0 := by
    intro j _
    by_cases hj : j = x
    · simp [hj]
    · simp [hj]
  rw [sum_congr rfl e, sum_add_distrib, sum_ite_eq' (range m) x, if_pos (mem_range.2 hx)]
  ring

/-- The message to a term. -/
theorem up_nrm (f : SumFactor ℝ) (s : Store ℝ) (m : ℕ) (T : ℕ → VarRef)
    (c μ V : ℕ → ℝ) (hT : f.terms = (List.range m).map T) (hc : f.coeffs = (List.range m).map c)
    (x : ℕ) (hx : x < m) (hcx : c x ≠ 0) (hV : ∀ j < m, j ≠ x → V j ≠ 0)
    (h : ∀ j < m, j ≠ x → (s (T j)).gaussian / (s (T j)).messages f.id = nrm (μ j) (V j))
    (μS VS : ℝ) (hVS : VS ≠ 0)
    (hS : (s f.sum).gaussian / (s f.sum).messages f.id = nrm μS VS) :
    f.up x s = s.write (T x) ((s (T x)).updateMessage f.id
        (nrm ((μS - ∑ j ∈ range m, c j * μ j + c x * μ x) / c x)
          ((VS + ∑ j ∈ range m, c j ^ 2 * V j - c x ^ 2 * V x) / c x ^ 2))) := by
  have e1 : f.terms.getD x f.sum = T x := by
    rw [hT]; simp [hx]
  have e2 : f.terms.set x f.sum = (List.range m).map fun j => if j = x then f.sum else T j := by
    rw [hT]
    apply List.ext_getElem
    · simp
    · intro j h1 h2
      rw [List.getElem_set]
      simp only [List.getElem_map, List.getElem_range]
      by_cases hj : x = j
      · simp [hj]
      · rw [if_neg hj, if_neg (Ne.symm hj)]
  have e3 : SumFactor.upCoeffs f.coeffs x =
      (List.range m).map fun j => if j = x then (c x)⁻¹ else -c j / c x := by
    rw [hc, SumFactor.upCoeffs]
    have : ((List.range m).map c).getD x 0.0 = c x := by simp [hx]
    simp only [this]
    apply List.ext_getElem
    · simp
    · intro j h1 h2
      simp only [List.getElem_map, List.getElem_range, List.getElem_zipIdx, Nat.zero_add, flt]
      rw [if_neg hcx]
  rw [SumFactor.up, e1, e2, e3, update_nrm f s (T x) m _ _
    (fun j => if j = x then μS else μ j) (fun j => if j = x then VS else V j)]
  · congr 4
    · have : ∀ j ∈ range m, (if j = x then (c x)⁻¹ else -c j / c x) *
          (if j = x then μS else μ j) =
          if j = x then (c x)⁻¹ * μS else -c j / c x * μ j := by
        intro j _; split_ifs <;> rfl
      rw [sum_congr rfl this, sum_replace m x hx]
      have e4 : ∑ j ∈ range m, -c j / c x * μ j = -(∑ j ∈ range m, c j * μ j) / c x := by
        rw [neg_div, sum_div, ← sum_neg_distrib]
        exact sum_congr rfl fun j _ => by ring
      rw [e4]
      field_simp
      ring
    · have : ∀ j ∈ range m, (if j = x then (c x)⁻¹ else -c j / c x) ^ 2 *
          (if j = x then VS else V j) =
          if j = x then (c x)⁻¹ ^ 2 * VS else (-c j / c x) ^ 2 * V j := by
        intro j _; split_ifs <;> rfl
      rw [sum_congr rfl this, sum_replace m x hx]
      have e4 : ∑ j ∈ range m, (-c j / c x) ^ 2 * V j =
          (∑ j ∈ range m, c j ^ 2 * V j) / c x ^ 2 := by
        rw [sum_div]
        exact sum_congr rfl fun j _ => by ring
      rw [e4]
      field_simp
  · intro j hj
    by_cases hjx : j = x
    · simp [hjx, hVS]
    · simp [hjx, hV j hj hjx]
  · intro j hj
    by_cases hjx : j = x
    · simp only [hjx, if_true]; exact hS
    · simp only [hjx, if_false]; exact h j hj hjx

/-! ### Likelihood factors -/

theorem likelihood_message (f : LikelihoodFactor ℝ) (μ V : ℝ) (hV : 0 < V) (hv : 0 ≤ f.variance) :
    ({ pi := f.calcA (nrm μ V) * (nrm μ V).pi, tau := f.calcA (nrm μ V) * (nrm μ V).tau }
      : Gaussian ℝ) = nrm μ (V + f.variance) := by
  have h : V + f.variance ≠ 0 := by positivity
  have h' : f.variance + V ≠ 0 := by positivity
  have e : f.calcA (nrm μ V) * V⁻¹ = (V + f.variance)⁻¹ := by
    simp only [LikelihoodFactor.calcA, nrm, flt]
    field_simp
    ring
  apply gaussian_ext
  · exact e
  · change f.calcA (nrm μ V) * (V⁻¹ * μ) = (V + f.variance)⁻¹ * μ
    rw [← mul_assoc, e]

/-! ### The truncation factor -/

/-- The message of the truncation. -/
theorem trunc_message (δ C v w : ℝ) (hC : 0 < C) (h0 : 0 < w) (h1 : w < 1) :
    ({ pi := (nrm δ C).pi / (1 - w),
       tau := (Flt.mulAdd (√(nrm δ C).pi) v (nrm δ C).tau) / (1 - w) } : Gaussian ℝ) / nrm δ C =
      nrm (δ + √C * v / w) (C * (1 - w) / w) := by
  have hw : (1 - w) ≠ 0 := by linarith
  have hs : √C ^ 2 = C := Real.sq_sqrt hC.le
  have hs0 : √C ≠ 0 := (Real.sqrt_pos.2 hC).ne'
  apply gaussian_ext
  · simp only [div_pi, nrm]
    field_simp
    ring
  · simp only [div_tau, nrm, flt]
    rw [Real.sqrt_inv]
    have h2 : (√C)⁻¹ = √C / C := by
      rw [eq_div_iff hC.ne', inv_mul_eq_iff_eq_mul₀ hs0, ← sq]; exact hs.symm
    rw [h2]
    field_simp
    ring

/-! ### Two teams -/

theorem mul_div_left (a b : Gaussian ℝ) : a * b / a = b :=
  gaussian_ext (by rw [div_pi, mul_pi, add_sub_cancel_left])
    (by rw [div_tau, mul_tau, add_sub_cancel_left])

theorem slice_range {α : Type} (g : ℕ → α) (n a m : ℕ) (h : a + m ≤ n) :
    slice ((List.range n).map g) a (a + m) = (List.range m).map fun x => g (a + x) := by
  rw [slice]
  apply List.ext_getElem
  · simp; omega
  · intro j h1 h2
    simp

/-- The two teams: sizes, players in the order of the teams, and weights. -/
structure Duel where
  nA : ℕ
  nB : ℕ
  R : ℕ → TrueSkillRating ℝ
  w : ℕ → ℝ
  τ : ℝ
  β : ℝ

namespace Duel
variable (d : Duel)

/-- The number of players. -/
def n : ℕ := d.nA + d.nB
/-- The number of players of a team. -/
def sz (t : ℕ) : ℕ := if t = 0 then d.nA else d.nB
/-- The number of players before a team. -/
def off (t : ℕ) : ℕ := if t = 0 then 0 else d.nA
/-- The mean of a player. -/
noncomputable def μ (i : ℕ) : ℝ := (d.R i).rating
/-- The variance of a player, after the dynamics. -/
noncomputable def S (i : ℕ) : ℝ := (d.R i).uncertainty ^ 2 + d.τ ^ 2
/-- The variance of the performance of a player. -/
noncomputable def V (i : ℕ) : ℝ := d.S i + d.β ^ 2
/-- The mean of the performance of a team. -/
noncomputable def M (t : ℕ) : ℝ := ∑ j ∈ range (d.sz t), d.w (d.off t + j) * d.μ (d.off t + j)
/-- The variance of the performance of a team. -/
noncomputable def Q (t : ℕ) : ℝ := ∑ j ∈ range (d.sz t), d.w (d.off t + j) ^ 2 * d.V (d.off t + j)
/-- The variance of the difference. -/
noncomputable def C : ℝ := d.Q 0 + d.Q 1
/-- The mean of the difference. -/
noncomputable def δ : ℝ := d.M 0 - d.M 1

/-- Both teams have players; no uncertainty and no weight is zero. -/
structure Ok : Prop where
  hA : 0 < d.nA
  hB : 0 < d.nB
  hR : ∀ i < d.n, (d.R i).uncertainty ≠ 0
  hw : ∀ i < d.n, d.w i ≠ 0

variable {d}

theorem S_pos (h : d.Ok) {i : ℕ} (hi : i < d.n) : 0 < d.S i := by
  have := h.hR i hi
  unfold S; positivity

theorem V_pos (h : d.Ok) {i : ℕ} (hi : i < d.n) : 0 < d.V i := by
  have := S_pos h hi
  unfold V; positivity

theorem off_lt {t x : ℕ} (hx : x < d.sz t) : d.off t + x < d.n := by
  unfold sz at hx; unfold off n
  split_ifs at * <;> omega

theorem sz_pos (h : d.Ok) (t : ℕ) : 0 < d.sz t := by
  have := h.hA; have := h.hB
  unfold sz; split_ifs <;> assumption

theorem term_pos (h : d.Ok) {t x : ℕ} (hx : x < d.sz t) :
    0 < d.w (d.off t + x) ^ 2 * d.V (d.off t + x) := by
  have h1 := V_pos h (off_lt hx)
  have h2 := h.hw _ (off_lt hx)
  positivity

theorem Q_ge (h : d.Ok) {t x : ℕ} (hx : x < d.sz t) :
    d.w (d.off t + x) ^ 2 * d.V (d.off t + x) ≤ d.Q t :=
  single_le_sum (f := fun j => d.w (d.off t + j) ^ 2 * d.V (d.off t + j))
    (fun j hj => (term_pos h (mem_range.1 hj)).le) (mem_range.2 hx)

theorem Q_pos (h : d.Ok) (t : ℕ) : 0 < d.Q t :=
  lt_of_lt_of_le (term_pos h (sz_pos h t)) (Q_ge h (sz_pos h t))

theorem C_pos (h : d.Ok) : 0 < d.C := add_pos (Q_pos h 0) (Q_pos h 1)

/-- The factor of a team. -/
noncomputable def teamFactor (d : Duel) (t : ℕ) : SumFactor ℝ :=
  { id := d.n + d.n + t
    sum := .teamPerf t
    terms := (List.range (d.sz t)).map fun x => .perf (d.off t + x)
    coeffs := (List.range (d.sz t)).map fun x => d.w (d.off t + x) }

theorem teamLayer (d : Duel) :
    buildTeamPerfLayer d.n ((List.range d.n).map d.w) [d.nA, d.nA + d.nB] (d.n + d.n) =
      (List.range 2).map d.teamFactor := by
  rw [buildTeamPerfLayer]
  have e : [d.nA, d.nA + d.nB].length = 2 := rfl
  rw [e]
  apply List.map_congr_left
  intro t ht
  rw [List.mem_range] at ht
  have ht' : t = 0 ∨ t = 1 := by omega
  rcases ht' with rfl | rfl
  · have h1 := slice_range VarRef.perf d.n 0 d.nA (by unfold n; omega)
    have h2 := slice_range d.w d.n 0 d.nA (by unfold n; omega)
    simp only [Nat.zero_add] at h1 h2
    simp [teamFactor, sz, off, h1, h2]
  · have h1 := slice_range VarRef.perf d.n d.nA d.nB (by unfold n; omega)
    have h2 := slice_range d.w d.n d.nA d.nB (by unfold n; omega)
    simp [teamFactor, sz, off, h1, h2]

/-- The factor between ratings and performances. -/
noncomputable def perfFactor (d : Duel) (i : ℕ) : LikelihoodFactor ℝ :=
  { id := d.n + i, mean := .rating i, value := .perf i, variance := d.β ^ 2 }

theorem perfLayer (d : Duel) :
    buildPerfLayer d.n d.β d.n = (List.range d.n).map d.perfFactor := by
  rw [buildPerfLayer]
  apply List.map_congr_left
  intro i _
  simp only [perfFactor, flt]

/-- The factor of the difference. -/
noncomputable def diffFactor (d : Duel) : SumFactor ℝ :=
  { id := d.n + d.n + 2
    sum := .teamDiff 0
    terms := (List.range 2).map VarRef.teamPerf
    coeffs := (List.range 2).map fun j => if j = 0 then 1 else -1 }

theorem diffLayer (d : Duel) : buildTeamDiffLayer 1 (d.n + d.n + 2) = [d.diffFactor] := by
  simp [buildTeamDiffLayer, diffFactor, List.range_succ, Flt.lit_1]

/-- The state before the truncation. -/
structure Before (d : Duel) (s : Store ℝ) : Prop where
  rating : ∀ i < d.n, (s (.rating i)).gaussian = nrm (d.μ i) (d.S i) ∧
    (s (.rating i)).messages (d.n + i) = Gaussian.default
  perf : ∀ i < d.n, s (.perf i) =
    (Variable.new.updateMessage (d.n + i) (nrm (d.μ i) (d.V i))).1
  team : ∀ t < 2, s (.teamPerf t) =
    (Variable.new.updateMessage (d.n + d.n + t) (nrm (d.M t) (d.Q t))).1

theorem new_update (id : ℕ) (g : Gaussian ℝ) :
    (Variable.new.updateMessage id g).1.gaussian = g := by
  rw [updateMessage_gaussian]
  change Gaussian.default / Gaussian.default * g = g
  rw [div_default, default_mul]

theorem new_messages (id k : ℕ) (g : Gaussian ℝ) :
    (Variable.new.updateMessage id g).1.messages k = if k = id then g else Gaussian.default := rfl

theorem before (h : d.Ok) :
    ∃ fs, buildRatingLayer d.τ 0 0 ((List.range d.n).map d.R) = .ok fs ∧
    ∃ s, priorsDown fs ⟨fun _ => Variable.new⟩ = .ok s ∧
    let s' := ((List.range 2).map d.teamFactor).foldl (fun s f => (f.down s).1)
      (((List.range d.n).map d.perfFactor).foldl (fun s f => (f.down s).1) s)
    Before d s' ∧ s' (.teamDiff 0) = Variable.new := by
  obtain ⟨fs, hfs, s1, hs1, hr, ho⟩ := ratings_down d.τ ((List.range d.n).map d.R) 0
    ⟨fun _ => Variable.new⟩ (by
      intro r hr
      rw [List.mem_map] at hr
      obtain ⟨i, hi, rfl⟩ := hr
      exact h.hR i (List.mem_range.1 hi))
  refine ⟨fs, hfs, s1, hs1, ?_⟩
  simp only [Nat.zero_add, List.length_map, List.length_range] at hr ho
  have hr1 : ∀ i < d.n, s1 (.rating i) = (Variable.new.updateValue i (nrm (d.μ i) (d.S i))).1 := by
    intro i hi
    exact hr i (d.R i) (by simp [hi])
  -- performances
  rw [List.foldl_map (f := d.perfFactor)]
  obtain ⟨p1, p2⟩ := foldl_write (fun i s => ((d.perfFactor i).down s).1) .perf
    (fun i => (Variable.new.updateMessage (d.n + i) (nrm (d.μ i) (d.V i))).1) s1
    (fun i j hij => by injection hij) d.n (by
      intro i hi s hs hs0 k
      have e1 : s (.rating i) = _ := (hs0 _ (fun j _ hj => by simp at hj)).trans (hr1 i hi)
      have e2 : s (.perf i) = Variable.new := by
        rw [hs0 _ (fun j hj hij => by injection hij; omega), ho _ (fun k _ hk => by simp at hk)]
      have e3 : (s (.rating i)).gaussian / (s (.rating i)).messages (d.n + i) =
          nrm (d.μ i) (d.S i) := by
        rw [e1, updateValue_gaussian, updateValue_messages, if_neg (by omega)]
        exact div_default _
      have e4 := likelihood_message (d.perfFactor i) (d.μ i) (d.S i) (S_pos h hi) (sq_nonneg d.β)
      change ((d.perfFactor i).down s).1 k = _
      rw [LikelihoodFactor.down]
      change (s.write (.perf i) ((s (.perf i)).updateMessage (d.n + i)
        { pi := (d.perfFactor i).calcA ((s (.rating i)).gaussian
            / (s (.rating i)).messages (d.n + i)) * ((s (.rating i)).gaussian
            / (s (.rating i)).messages (d.n + i)).pi
          tau := (d.perfFactor i).calcA ((s (.rating i)).gaussian
            / (s (.rating i)).messages (d.n + i)) * ((s (.rating i)).gaussian
            / (s (.rating i)).messages (d.n + i)).tau })).1 k = _
      rw [e3, e4, e2, write_get]
      rfl)
  set s2 := (List.range d.n).foldl (fun s i => ((d.perfFactor i).down s).1) s1 with hs2
  -- teams
  rw [List.foldl_map (f := d.teamFactor)]
  obtain ⟨t1, t2⟩ := foldl_write (fun t s => ((d.teamFactor t).down s).1) .teamPerf
    (fun t => (Variable.new.updateMessage (d.n + d.n + t) (nrm (d.M t) (d.Q t))).1) s2
    (fun i j hij => by injection hij) 2 (by
      intro t ht s hs hs0 k
      have e1 : ∀ x < d.sz t, s (.perf (d.off t + x)) = _ := fun x hx =>
        (hs0 _ (fun j _ hj => by simp at hj)).trans (p1 _ (off_lt hx))
      have e2 : s (.teamPerf t) = Variable.new := by
        rw [hs0 _ (fun j hj hij => by injection hij; omega), p2 _ (fun k _ hk => by simp at hk),
          ho _ (fun k _ hk => by simp at hk)]
      change ((d.teamFactor t).update s (.teamPerf t) ((List.range (d.sz t)).map fun x =>
        .perf (d.off t + x)) ((List.range (d.sz t)).map fun x => d.w (d.off t + x))).1 k = _
      rw [update_nrm _ _ _ _ _ _ (fun x => d.μ (d.off t + x)) (fun x => d.V (d.off t + x))
        (fun x hx => (V_pos h (off_lt hx)).ne'), e2, write_get]
      · rfl
      · intro x hx
        rw [e1 x hx, new_update, new_messages, if_neg, div_default]
        change ¬ d.n + d.n + t = _
        have := off_lt hx
        omega)
  set s3 := (List.range 2).foldl (fun s t => ((d.teamFactor t).down s).1) s2 with hs3
  refine ⟨⟨?_, ?_, ?_⟩, ?_⟩
  · intro i hi
    rw [t2 _ (fun j _ hj => by simp at hj), p2 _ (fun j _ hj => by simp at hj), hr1 i hi,
      updateValue_gaussian, updateValue_messages, if_neg (by omega)]
    exact ⟨rfl, rfl⟩
  · intro i hi
    rw [t2 _ (fun j _ hj => by simp at hj), p1 i hi]
  · intro t ht
    exact t1 t ht
  · rw [t2 _ (fun j _ hj => by simp at hj), p2 _ (fun j _ hj => by simp at hj),
      ho _ (fun j _ hj => by simp at hj)]

/-- The posterior of the difference. -/
noncomputable def post (d : Duel) (T : TruncateFactor ℝ) : Gaussian ℝ :=
  { pi := (nrm d.δ d.C).pi /
      (1 - T.wFunc (nrm d.δ d.C).tau (T.drawMargin * (nrm d.δ d.C).pi) (√(nrm d.δ d.C).pi))
    tau := Flt.mulAdd (√(nrm d.δ d.C).pi)
        (T.vFunc (nrm d.δ d.C).tau (T.drawMargin * (nrm d.δ d.C).pi) (√(nrm d.δ d.C).pi))
        (nrm d.δ d.C).tau /
      (1 - T.wFunc (nrm d.δ d.C).tau (T.drawMargin * (nrm d.δ d.C).pi) (√(nrm d.δ d.C).pi)) }

/-- The state after a round of the iteration. -/
structure After (d : Duel) (T : TruncateFactor ℝ) (s0 s : Store ℝ) : Prop where
  other : ∀ r, r ≠ .teamDiff 0 → s r = s0 r
  value : (s (.teamDiff 0)).gaussian = d.post T
  diff : (s (.teamDiff 0)).messages (d.n + d.n + 2) = nrm d.δ d.C
  trunc : (s (.teamDiff 0)).messages (d.n + d.n + 3) = d.post T / nrm d.δ d.C

theorem team_div {s : Store ℝ} (hs : Before d s) {t : ℕ} (ht : t < 2) :
    (s (.teamPerf t)).gaussian / (s (.teamPerf t)).messages (d.n + d.n + 2) =
      nrm (d.M t) (d.Q t) := by
  rw [hs.team t ht, new_update, new_messages, if_neg (by omega), div_default]

theorem iterate_after (h : d.Ok) (T : TruncateFactor ℝ) (hid : T.id = d.n + d.n + 3)
    (hvar : T.var = .teamDiff 0) {s0 s : Store ℝ} (hs0 : Before d s0)
    (hother : ∀ r, r ≠ .teamDiff 0 → s r = s0 r)
    (hprod : (s (.teamDiff 0)).gaussian = (s (.teamDiff 0)).messages (d.n + d.n + 2) *
      (s (.teamDiff 0)).messages (d.n + d.n + 3)) :
    After d T s0 (iterate [(d.diffFactor, T)] s).1 := by
  have hdown : d.diffFactor.down s = s.write (.teamDiff 0)
      ((s (.teamDiff 0)).updateMessage (d.n + d.n + 2) (nrm d.δ d.C)) := by
    have := update_nrm d.diffFactor s (.teamDiff 0) 2 VarRef.teamPerf
      (fun j => if j = 0 then 1 else -1) d.M d.Q (fun t _ => (Q_pos h t).ne') (by
        intro t ht
        rw [hother _ (by simp)]
        exact team_div hs0 ht)
    rw [SumFactor.down]
    refine this.trans ?_
    simp only [sum_range_succ, sum_range_zero]
    norm_num
    rfl
  rw [iterate]
  set s1 := (d.diffFactor.down s).1 with hs1
  have e1 : s1 (.teamDiff 0) = ((s (.teamDiff 0)).updateMessage (d.n + d.n + 2) (nrm d.δ d.C)).1 := by
    rw [hs1, hdown, write_get, if_pos rfl]
  have e2 : ∀ r, r ≠ .teamDiff 0 → s1 r = s0 r := by
    intro r hr
    rw [hs1, hdown, write_get, if_neg hr, hother r hr]
  have g1 : (s1 (.teamDiff 0)).gaussian =
      nrm d.δ d.C * (s (.teamDiff 0)).messages (d.n + d.n + 3) := by
    rw [e1, updateMessage_gaussian, hprod, mul_div_left]
    exact gaussian_ext (by rw [mul_pi, mul_pi, add_comm]) (by rw [mul_tau, mul_tau, add_comm])
  have m1 : (s1 (.teamDiff 0)).messages (d.n + d.n + 3) =
      (s (.teamDiff 0)).messages (d.n + d.n + 3) := by
    rw [e1, updateMessage_messages, if_neg (by omega)]
  have m2 : (s1 (.teamDiff 0)).messages (d.n + d.n + 2) = nrm d.δ d.C := by
    rw [e1, updateMessage_messages, if_pos rfl]
  have hdiv : (s1 T.var).gaussian / (s1 T.var).messages T.id = nrm d.δ d.C := by
    rw [hvar, hid, g1, m1, mul_div_self]
  have hup : (T.up s1).1 = (s1.write (.teamDiff 0)
      ((s1 (.teamDiff 0)).updateValue (d.n + d.n + 3) (d.post T))).1 := by
    rw [TruncateFactor.up]
    simp only [hdiv, Flt.lit_1]
    rw [hvar, hid]
    rfl
  rw [hup]
  refine ⟨?_, ?_, ?_, ?_⟩
  · intro r hr
    rw [write_get, if_neg hr, e2 r hr]
  · rw [write_get, if_pos rfl, updateValue_gaussian]
  · rw [write_get, if_pos rfl, updateValue_messages, if_neg (by omega), m2]
  · rw [write_get, if_pos rfl, updateValue_messages, if_pos rfl, g1, m1]
    apply gaussian_ext
    · simp only [div_pi, mul_pi]; ring
    · simp only [div_tau, mul_tau]; ring

theorem After.prod {T : TruncateFactor ℝ} {s0 s : Store ℝ} (h : After d T s0 s) :
    (s (.teamDiff 0)).gaussian = (s (.teamDiff 0)).messages (d.n + d.n + 2) *
      (s (.teamDiff 0)).messages (d.n + d.n + 3) := by
  rw [h.value, h.diff, h.trunc]
  apply gaussian_ext
  · simp only [div_pi, mul_pi]; ring
  · simp only [div_tau, mul_tau]; ring

theorem iterLoop_after (h : d.Ok) (T : TruncateFactor ℝ) (hid : T.id = d.n + d.n + 3)
    (hvar : T.var = .teamDiff 0) {s0 : Store ℝ} (hs0 : Before d s0) (md : ℝ) (k : ℕ) :
    ∀ s : Store ℝ, (∀ r, r ≠ .teamDiff 0 → s r = s0 r) →
    ((s (.teamDiff 0)).gaussian = (s (.teamDiff 0)).messages (d.n + d.n + 2) *
      (s (.teamDiff 0)).messages (d.n + d.n + 3)) →
    After d T s0 (iterLoop md [(d.diffFactor, T)] (k + 1) s) := by
  induction k with
  | zero =>
    intro s h1 h2
    have := iterate_after h T hid hvar hs0 h1 h2
    simp only [iterLoop, ite_self]
    exact this
  | succ k ih =>
    intro s h1 h2
    have h3 := iterate_after h T hid hvar hs0 h1 h2
    rw [iterLoop]
    simp only
    split_ifs
    · exact h3
    · exact ih _ h3.other h3.prod

/-- The sign of the difference in the mean of a team. -/
def sgn (t : ℕ) : ℝ := if t = 0 then 1 else -1

end Duel

end TrueSkill
end Skillratings
