import Mathlib.Analysis.Real.Pi.Bounds
import Verif.Proofs.FP
/-
Bounds of the floating-point operations when infinities may occur, and the two building blocks
of the expected scores: `1 / (1 + p)` and Glicko's `g`.
-/

namespace Skillratings
open FPVal
namespace FP
variable {E : FloatEnv} {x y z : FP E}

theorem toR_of_le {a : ℝ} (hx : x.isFinite) (h : (a : EReal) ≤ x.toE) : a ≤ x.toR := by
  rw [toE, isFinite.toE_eq hx] at h
  exact_mod_cast h

theorem toR_le_of {a : ℝ} (hx : x.isFinite) (h : x.toE ≤ (a : EReal)) : x.toR ≤ a := by
  rw [toE, isFinite.toE_eq hx] at h
  exact_mod_cast h

theorem fin_zero_iff (s : Bool) (m : Mag) : m.1 = 0 ↔ FPVal.toR (fin s m) = 0 := by
  cases s <;> simp [FPVal.toR, signed]

theorem pos_sign {s : Bool} {m : Mag} (h : 0 < FPVal.toR (fin s m)) : s = false := by
  cases s
  · rfl
  · simp only [FPVal.toR, signed, if_true] at h
    linarith [m.2.nonneg]

/-- A positive finite number times a non-negative number. -/
theorem mul_pos_nonneg (hx : x.isFinite) (h0 : 0 < x.toR) (hy : ¬ y.isNaN) (hy0 : 0 ≤ y.toE) :
    ¬ (x * y).isNaN ∧ 0 ≤ (x * y).toE := by
  by_cases hfy : y.isFinite
  · obtain ⟨s, hs⟩ := mul_fin hx hfy
    rw [hs]
    refine ⟨E.round_not_nan _ _, ?_⟩
    have : 0 ≤ y.toR := toR_of_le hfy (by simpa using hy0)
    exact_mod_cast E.round_ge s SRep.zero (by positivity)
  · cases x with
    | nan => exact hx.elim
    | inf => exact hx.elim
    | fin s m =>
      have hm : ¬ m.1 = 0 := by rw [fin_zero_iff s]; exact h0.ne'
      have hs := pos_sign h0
      subst hs
      cases y with
      | nan => exact (hy trivial).elim
      | fin => exact (hfy trivial).elim
      | inf t =>
        cases t
        · change ¬ FPVal.isNaN (E.mul (fin false m) (inf false))
            ∧ 0 ≤ FPVal.toE (E.mul (fin false m) (inf false))
          simp [FloatEnv.mul, hm, FPVal.isNaN, FPVal.toE]
        · exact absurd hy0 (by simp [toE, FPVal.toE])

/-- A non-negative number divided by a positive finite number. -/
theorem div_pos_nonneg (hy : y.isFinite) (h0 : 0 < y.toR) (hx : ¬ x.isNaN) (hx0 : 0 ≤ x.toE) :
    ¬ (x / y).isNaN ∧ 0 ≤ (x / y).toE := by
  by_cases hfx : x.isFinite
  · obtain ⟨s, hs⟩ := div_fin hfx hy h0.ne'
    rw [hs]
    refine ⟨E.round_not_nan _ _, ?_⟩
    have : 0 ≤ x.toR := toR_of_le hfx (by simpa using hx0)
    exact_mod_cast E.round_ge s SRep.zero (by positivity)
  · cases y with
    | nan => exact hy.elim
    | inf => exact hy.elim
    | fin s m =>
      have hs := pos_sign h0
      subst hs
      cases x with
      | nan => exact (hx trivial).elim
      | fin => exact (hfx trivial).elim
      | inf t =>
        cases t
        · change ¬ FPVal.isNaN (E.div (inf false) (fin false m))
            ∧ 0 ≤ FPVal.toE (E.div (inf false) (fin false m))
          simp [FloatEnv.div, FPVal.isNaN, FPVal.toE]
        · exact absurd hx0 (by simp [toE, FPVal.toE])

/-- Division by a finite number other than zero gives no NaN. -/
theorem div_not_nan (hx : ¬ x.isNaN) (hy : y.isFinite) (h0 : y.toR ≠ 0) : ¬ (x / y).isNaN := by
  by_cases hfx : x.isFinite
  · obtain ⟨s, hs⟩ := div_fin hfx hy h0
    rw [hs]; exact E.round_not_nan _ _
  · cases y with
    | nan => exact hy.elim
    | inf => exact hy.elim
    | fin s m => cases x with
      | nan => exact (hx trivial).elim
      | fin => exact (hfx trivial).elim
      | inf t => exact id

/-- Multiplication by a finite number other than zero gives no NaN. -/
theorem mul_not_nan (hx : x.isFinite) (h0 : x.toR ≠ 0) (hy : ¬ y.isNaN) : ¬ (x * y).isNaN := by
  by_cases hfy : y.isFinite
  · obtain ⟨s, hs⟩ := mul_fin hx hfy
    rw [hs]; exact E.round_not_nan _ _
  · cases x with
    | nan => exact hx.elim
    | inf => exact hx.elim
    | fin s m => cases y with
      | nan => exact (hy trivial).elim
      | fin => exact (hfy trivial).elim
      | inf t =>
        have hm : ¬ m.1 = 0 := by rw [fin_zero_iff s]; exact h0
        change ¬ FPVal.isNaN (E.mul (fin s m) (inf t))
        simp [FloatEnv.mul, hm, FPVal.isNaN]

theorem add_not_nan (hx : x.isFinite) (hy : ¬ y.isNaN) : ¬ (x + y).isNaN := by
  by_cases hfy : y.isFinite
  · obtain ⟨s, hs⟩ := add_fin hx hfy
    rw [hs]; exact E.round_not_nan _ _
  · cases x with
    | nan => exact hx.elim
    | inf => exact hx.elim
    | fin s m => cases y with
      | nan => exact (hy trivial).elim
      | fin => exact (hfy trivial).elim
      | inf t => exact id

theorem sub_not_nan (hx : x.isFinite) (hy : y.isFinite) : ¬ (x - y).isNaN := by
  obtain ⟨s, hs⟩ := sub_fin hx hy
  rw [hs]; exact E.round_not_nan _ _

/-- A square. -/
theorem sq_nonneg (hx : ¬ x.isNaN) : ¬ (x * x).isNaN ∧ 0 ≤ (x * x).toE := by
  by_cases hfx : x.isFinite
  · obtain ⟨s, hs⟩ := mul_fin hfx hfx
    rw [hs]
    exact ⟨E.round_not_nan _ _, by exact_mod_cast E.round_ge s SRep.zero (mul_self_nonneg _)⟩
  · cases x with
    | nan => exact (hx trivial).elim
    | fin => exact (hfx trivial).elim
    | inf t =>
      change ¬ FPVal.isNaN (E.mul (inf t) (inf t)) ∧ 0 ≤ FPVal.toE (E.mul (inf t) (inf t))
      simp [FloatEnv.mul, FPVal.isNaN, FPVal.toE]

/-- The root of a number at least one. -/
theorem sqrt_ge_one (hx : ¬ x.isNaN) (h : 1 ≤ x.toE) :
    ¬ (Flt.sqrt x).isNaN ∧ 1 ≤ (Flt.sqrt x).toE := by
  by_cases hfx : x.isFinite
  · have h1 : 1 ≤ x.toR := toR_of_le hfx (by simpa using h)
    obtain ⟨s, hs⟩ := sqrt_fin hfx (by linarith)
    rw [hs]
    refine ⟨E.round_not_nan _ _, ?_⟩
    exact_mod_cast E.round_ge s SRep.one (Real.one_le_sqrt.2 h1)
  · cases x with
    | nan => exact (hx trivial).elim
    | fin => exact (hfx trivial).elim
    | inf t =>
      cases t
      · exact ⟨id, le_top⟩
      · exact absurd h (by simp only [toE, FPVal.toE]; decide)

/-- Bounds of a finite product. -/
theorem mul_in {a b c d lo hi : ℝ} (hx : In a b x) (hy : In c d y) (ha : 0 ≤ a) (hc : 0 ≤ c)
    (hlo : SRep lo) (hhi : SRep hi) (h1 : lo ≤ a * c) (h2 : b * d ≤ hi) : In lo hi (x * y) := by
  obtain ⟨s, hs⟩ := mul_fin hx.finite hy.finite
  rw [hs]
  have h3 := hx.toR
  have h4 := hy.toR
  refine In.of_round s hlo hhi (h1.trans ?_) (le_trans ?_ h2)
  · exact mul_le_mul h3.1 h4.1 hc (ha.trans h3.1)
  · exact mul_le_mul h3.2 h4.2 (hc.trans h4.1) ((ha.trans h3.1).trans h3.2)

/-- Bounds of a finite quotient. -/
theorem div_in {a b c d lo hi : ℝ} (hx : In a b x) (hy : In c d y) (ha : 0 ≤ a) (hc : 0 < c)
    (hlo : SRep lo) (hhi : SRep hi) (h1 : lo ≤ a / d) (h2 : b / c ≤ hi) : In lo hi (x / y) := by
  have h3 := hx.toR
  have h4 := hy.toR
  obtain ⟨s, hs⟩ := div_fin hx.finite hy.finite (by linarith)
  rw [hs]
  refine In.of_round s hlo hhi (h1.trans ?_) (le_trans ?_ h2)
  · exact div_le_div₀ (ha.trans h3.1) h3.1 (hc.trans_le h4.1) h4.2
  · exact div_le_div₀ ((ha.trans h3.1).trans h3.2) h3.2 hc h4.1

/-- A literal with a representable value. -/
theorem lit_in {m : ℕ} {s : Bool} {e : ℕ} {v : ℝ} (h : (OfScientific.ofScientific m s e : ℝ) = v)
    (hv : SRep v) : In (E := E) v v (OfScientific.ofScientific m s e : FP E) := by
  rw [lit, h]; exact In.of_round false hv hv le_rfl le_rfl

theorem one_in : In (E := E) ((1 : ℝ) : EReal) ((1 : ℝ) : EReal) (1.0 : FP E) :=
  lit_in (by norm_num) SRep.one

/-- `1 / (1 + p)` is a score. -/
theorem score_in {p : FP E} (hp : ¬ p.isNaN) (h0 : 0 ≤ p.toE) :
    In 0 1 (Flt.recip ((1.0 : FP E) + p)) := by
  have h := add_lower (x := (1.0 : FP E)) (y := p) (a := 1) (c := 0) (lo := 1) one_in.1 hp one_in.2.1
    (by simpa using h0) SRep.one (by norm_num)
  exact recip_in h.1 (by simpa using h.2)

theorem score_in' {p : FP E} (hp : ¬ p.isNaN) (h0 : 0 ≤ p.toE) :
    In 0 1 (Flt.recip (p + (1.0 : FP E))) := by
  have h := add_lower (x := p) (y := (1.0 : FP E)) (a := 0) (c := 1) (lo := 1) hp one_in.1
    (by simpa using h0) one_in.2.1 SRep.one (by norm_num)
  exact recip_in h.1 (by simpa using h.2)

theorem powf_ten (L : E.Lib) (hx : ¬ x.isNaN) :
    ¬ (Flt.powf (10.0 : FP E) x).isNaN ∧ 0 ≤ (Flt.powf (10.0 : FP E) x).toE := by
  have h : In (E := E) ((10 : ℝ) : EReal) ((10 : ℝ) : EReal) (10.0 : FP E) :=
    lit_in (by norm_num) (SRep.ofNat 10 (by norm_num))
  refine L.powf_pos _ _ h.1 hx (lt_of_lt_of_le ?_ h.2.1)
  exact_mod_cast (by norm_num : (0 : ℝ) < 10)

/-- `1 / (1 + 10 ^ x)` is a score. -/
theorem pow_score (L : E.Lib) (hx : ¬ x.isNaN) :
    In 0 1 (Flt.recip ((1.0 : FP E) + Flt.powf (10.0 : FP E) x)) :=
  score_in (powf_ten L hx).1 (powf_ten L hx).2

/-- `1 / (1 + exp x)` is a score. -/
theorem exp_score (L : E.Lib) (hx : ¬ x.isNaN) :
    In 0 1 (Flt.recip ((1.0 : FP E) + Flt.exp x)) :=
  score_in (L.exp_pos x hx).1 (L.exp_pos x hx).2

theorem SRep.two_pow_neg (k : ℕ) (h : k ≤ 1074) : SRep ((2 : ℝ) ^ (-(k : ℤ))) := by
  have := SRep.scale (n := 1) (k := -(k : ℤ)) (by norm_num) (by omega) (by omega)
  simpa using this

theorem SRep.inv_two_pow (k : ℕ) (h : k ≤ 1074) : SRep (1 / (2 : ℝ) ^ k) := by
  have := SRep.two_pow_neg k h
  rwa [zpow_neg, zpow_natCast, ← one_div] at this

/-- `q = ln 10 / 400`. -/
theorem q_in (L : E.Lib) : In (E := E) ((1 / 2 ^ 8 : ℝ) : EReal) ((1 : ℝ) : EReal)
    (Flt.ln (10.0 : FP E) / (400.0 : FP E)) := by
  have h : In (E := E) ((10 : ℝ) : EReal) ((10 : ℝ) : EReal) (10.0 : FP E) :=
    lit_in (by norm_num) (SRep.ofNat 10 (by norm_num))
  have h10 := le_antisymm h.2.2 h.2.1
  have hl := L.ln_ten _ h.1 h10
  have hn := L.ln_pos _ h.1 (by rw [show FPVal.toE (10.0 : FP E) = _ from h10]; exact_mod_cast (by norm_num : (0 : ℝ) ≤ 10))
  exact div_in (a := 2) (b := 3) (c := 400) (d := 400) ⟨hn, hl.1, hl.2⟩
    (lit_in (by norm_num) (SRep.ofNat 400 (by norm_num))) (by norm_num) (by norm_num)
    (SRep.inv_two_pow 8 (by norm_num)) SRep.one (by norm_num) (by norm_num)

theorem pi_in : In (E := E) ((3 : ℝ) : EReal) ((4 : ℝ) : EReal) (Flt.pi : FP E) :=
  In.of_round false (SRep.ofNat 3 (by norm_num)) (SRep.ofNat 4 (by norm_num))
    Real.pi_gt_three.le Real.pi_le_four

theorem pi_sq_in (L : E.Lib) :
    In (E := E) ((9 : ℝ) : EReal) ((16 : ℝ) : EReal) (Flt.powi (Flt.pi : FP E) 2) := by
  have h : Flt.powi (Flt.pi : FP E) 2 = (Flt.pi : FP E) * Flt.pi := L.powi_two _
  rw [h]
  exact mul_in pi_in pi_in (by norm_num) (by norm_num) (SRep.ofNat 9 (by norm_num))
    (SRep.ofNat 16 (by norm_num)) (by norm_num) (by norm_num)

/-- `1 / √(1 + x / π²)` for a non-negative `x`. -/
theorem g_in (L : E.Lib) (hx : ¬ x.isNaN) (h0 : 0 ≤ x.toE) :
    In 0 1 (Flt.recip (Flt.sqrt ((1.0 : FP E) + x / Flt.powi Flt.pi 2))) := by
  have h1 := div_pos_nonneg (pi_sq_in L).finite (by linarith [(pi_sq_in (E := E) L).toR.1]) hx h0
  have h := add_lower (x := (1.0 : FP E)) (a := 1) (c := 0) (lo := 1) one_in.1 h1.1 one_in.2.1
    (by simpa using h1.2) SRep.one (by norm_num)
  have h2 := sqrt_ge_one h.1 (by simpa using h.2)
  exact recip_in h2.1 h2.2

/-- `g` of Glicko, Glicko-Boost and Sticko. -/
theorem g_glicko_in (L : E.Lib) (hx : ¬ x.isNaN) :
    In 0 1 (Flt.recip (Flt.sqrt ((1.0 : FP E) + ((3.0 : FP E)
      * Flt.powi (Flt.ln (10.0 : FP E) / (400.0 : FP E)) 2 * Flt.powi x 2) / Flt.powi Flt.pi 2))) := by
  have hq := q_in L
  have e1 : Flt.powi (Flt.ln (10.0 : FP E) / (400.0 : FP E)) 2
      = Flt.ln (10.0 : FP E) / (400.0 : FP E) * (Flt.ln (10.0 : FP E) / (400.0 : FP E)) :=
    L.powi_two _
  have e2 : Flt.powi x 2 = x * x := L.powi_two _
  rw [e1, e2]
  have h1 := mul_in hq hq (by norm_num) (by norm_num) (SRep.inv_two_pow 16 (by norm_num)) SRep.one
    (by norm_num) (by norm_num)
  have h2 := mul_in (lit_in (E := E) (m := 30) (s := true) (e := 1) (v := 3) (by norm_num)
    (SRep.ofNat 3 (by norm_num))) h1 (by norm_num) (by norm_num)
    (SRep.inv_two_pow 16 (by norm_num)) (SRep.ofNat 3 (by norm_num)) (by norm_num) (by norm_num)
  have h3 := sq_nonneg hx
  have h4 := mul_pos_nonneg h2.finite (lt_of_lt_of_le (by norm_num) h2.toR.1) h3.1 h3.2
  exact g_in L h4.1 h4.2

/-- The exponent `-g * d / 400` of a finite difference. -/
theorem exponent_not_nan {g d : FP E} (hg : In 0 1 g) (hd : d.isFinite) :
    ¬ (-g * d / (400.0 : FP E)).isNaN := by
  have hg' : In ((0 : ℝ) : EReal) ((1 : ℝ) : EReal) g := by simpa using hg
  have h400 := lit_in (E := E) (m := 4000) (s := true) (e := 1) (v := 400) (by norm_num)
    (SRep.ofNat 400 (by norm_num))
  apply div_not_nan
  · obtain ⟨s, hs⟩ := mul_fin (x := -g) (by simpa using hg'.finite) hd
    rw [hs]; exact E.round_not_nan _ _
  · exact h400.finite
  · have := h400.toR.1; intro h; linarith

end FP
end Skillratings
