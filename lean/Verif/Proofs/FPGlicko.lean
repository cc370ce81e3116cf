import Verif.Proofs.FPBounds
import Verif.Spec.Float
import Verif.Model.Glicko
import Verif.Model.Sticko
import Verif.Model.GlickoBoost
/-
Bounds of the intermediate results of the Glicko family in floating point.
-/

namespace Skillratings
open FP FPVal Spec
variable {E : FloatEnv} {x y z : FP E}

namespace FP

theorem fmin_eq (hx : ¬ x.isNaN) (hy : ¬ y.isNaN) :
    Flt.fmin x y = if (y <? x) = true then y else x := by
  change FPVal.min x y = if FPVal.lt y x = true then y else x
  cases x with
  | nan => exact (hx trivial).elim
  | inf s => cases y with
    | nan => exact (hy trivial).elim
    | inf => rfl
    | fin => rfl
  | fin s m => cases y with
    | nan => exact (hy trivial).elim
    | inf => rfl
    | fin => rfl

theorem fmin_nan (h : x.isNaN) : Flt.fmin x y = y := by
  rw [nan_iff.1 h]; rfl

/-- The minimum with a number is a number, and at most that number. -/
theorem fmin_cap (hy : ¬ y.isNaN) : ¬ (Flt.fmin x y).isNaN ∧ (Flt.fmin x y).toE ≤ y.toE := by
  by_cases hx : x.isNaN
  · rw [fmin_nan hx]; exact ⟨hy, le_rfl⟩
  · rw [fmin_eq hx hy]
    by_cases h : (y <? x) = true
    · rw [if_pos h]; exact ⟨hy, le_rfl⟩
    · rw [if_neg h]
      rw [lt_iff] at h
      exact ⟨hx, not_lt.1 fun h' => h ⟨hy, hx, h'⟩⟩

theorem fmin_lower {lo : EReal} (hx : x.isNaN ∨ lo ≤ x.toE) (hy : ¬ y.isNaN) (h : lo ≤ y.toE) :
    lo ≤ (Flt.fmin x y).toE := by
  by_cases hx' : x.isNaN
  · rw [fmin_nan hx']; exact h
  · rw [fmin_eq hx' hy]
    split
    · exact h
    · exact hx.resolve_left hx'

theorem cap_in : In (E := E) ((350 : ℝ) : EReal) ((350 : ℝ) : EReal) (350.0 : FP E) :=
  lit_in (by norm_num) (SRep.ofNat 350 (by norm_num))

/-- The minimum with 350, for every first argument. -/
theorem cap_atMost : AtMost 350 (Flt.fmin x (350.0 : FP E)) := by
  have h := fmin_cap (x := x) (cap_in (E := E)).1
  exact ⟨h.1, h.2.trans (cap_in (E := E)).2.2⟩

theorem sqrt_nonneg_or : (Flt.sqrt x).isNaN ∨ 0 ≤ (Flt.sqrt x).toE := by
  change (FPVal.isNaN (E.sqrt x)) ∨ 0 ≤ FPVal.toE (E.sqrt x)
  cases x with
  | nan => exact .inl trivial
  | inf s => cases s
             · right; simp [FloatEnv.sqrt, FPVal.toE]
             · left; simp [FloatEnv.sqrt, FPVal.isNaN]
  | fin s m =>
    simp only [FloatEnv.sqrt]
    split
    · exact .inl trivial
    · right
      exact_mod_cast E.round_ge s SRep.zero (Real.sqrt_nonneg m.1)

/-- The square root capped at 350, for every argument. -/
theorem capped_sqrt_in : In (E := E) ((0 : ℝ) : EReal) ((350 : ℝ) : EReal)
    (Flt.fmin (Flt.sqrt x) (350.0 : FP E)) := by
  have h := cap_atMost (E := E) (x := Flt.sqrt x)
  refine ⟨h.1, ?_, h.2⟩
  refine fmin_lower ?_ (cap_in (E := E)).1 (le_trans ?_ (cap_in (E := E)).2.1)
  · simpa using sqrt_nonneg_or (x := x)
  · exact_mod_cast (by norm_num : (0 : ℝ) ≤ 350)

theorem powi_two' (L : E.Lib) (x : FP E) : Flt.powi x 2 = x * x := L.powi_two x

theorem powi_neg_one' (L : E.Lib) (x : FP E) : Flt.powi x (-1) = Flt.recip x := L.powi_neg_one x

/-- `ln 10 / 400`, more precisely than `q_in`. -/
theorem q_in' (L : E.Lib) : In (E := E) ((1 / 2 ^ 8 : ℝ) : EReal) ((1 / 2 ^ 7 : ℝ) : EReal)
    (Flt.ln (10.0 : FP E) / (400.0 : FP E)) := by
  have h : In (E := E) ((10 : ℝ) : EReal) ((10 : ℝ) : EReal) (10.0 : FP E) :=
    lit_in (by norm_num) (SRep.ofNat 10 (by norm_num))
  have h10 := le_antisymm h.2.2 h.2.1
  have hl := L.ln_ten _ h.1 h10
  have hn := L.ln_pos _ h.1 (by
    rw [show FPVal.toE (10.0 : FP E) = _ from h10]
    exact_mod_cast (by norm_num : (0 : ℝ) ≤ 10))
  exact div_in (a := 2) (b := 3) (c := 400) (d := 400) ⟨hn, hl.1, hl.2⟩
    (lit_in (by norm_num) (SRep.ofNat 400 (by norm_num))) (by norm_num) (by norm_num)
    (SRep.inv_two_pow 8 (by norm_num)) (SRep.inv_two_pow 7 (by norm_num)) (by norm_num)
    (by norm_num)

/-- Scores are between the real numbers 0 and 1. -/
theorem unit_in (h : In 0 1 x) : In (E := E) ((0 : ℝ) : EReal) ((1 : ℝ) : EReal) x := by
  simpa using h

theorem unit_mul (hx : In (E := E) ((0 : ℝ) : EReal) ((1 : ℝ) : EReal) x)
    (hy : In (E := E) ((0 : ℝ) : EReal) ((1 : ℝ) : EReal) y) :
    In (E := E) ((0 : ℝ) : EReal) ((1 : ℝ) : EReal) (x * y) :=
  mul_in hx hy le_rfl le_rfl SRep.zero SRep.one (by norm_num) (by norm_num)

/-- The information `g² e (1 - e)`. -/
theorem information_in (L : E.Lib) {g e : FP E} (hg : In 0 1 g) (he : In 0 1 e) :
    In (E := E) ((0 : ℝ) : EReal) ((1 : ℝ) : EReal) (Flt.powi g 2 * e * ((1.0 : FP E) - e)) := by
  rw [powi_two' L]
  exact unit_mul (unit_mul (unit_mul (unit_in hg) (unit_in hg)) (unit_in he))
    (unit_in (one_sub_in he))

theorem q_sq_in (L : E.Lib) : In (E := E) ((0 : ℝ) : EReal) ((1 : ℝ) : EReal)
    (Flt.powi (Flt.ln (10.0 : FP E) / (400.0 : FP E)) 2) := by
  rw [powi_two' L]
  exact unit_mul ((q_in' L).mono (by positivity) (by norm_num))
    ((q_in' L).mono (by positivity) (by norm_num))

/-- The information of one game. -/
theorem dValue_arg_in (L : E.Lib) {g e : FP E} (hg : In 0 1 g) (he : In 0 1 e) :
    In (E := E) ((0 : ℝ) : EReal) ((1 : ℝ) : EReal)
      (Flt.powi (Flt.ln (10.0 : FP E) / (400.0 : FP E)) 2 * Flt.powi g 2 * e * ((1.0 : FP E) - e)) := by
  have h := q_sq_in L
  rw [powi_two' L g]
  exact unit_mul (unit_mul (unit_mul h (unit_mul (unit_in hg) (unit_in hg))) (unit_in he))
    (unit_in (one_sub_in he))

theorem SRep.info : SRep (8765 / 2 ^ 30) := by
  have := SRep.scale (n := 8765) (k := -30) (by norm_num) (by norm_num) (by norm_num)
  have e : (8765 / 2 ^ 30 : ℝ) = ((8765 : ℕ) : ℝ) * (2 : ℝ) ^ (-30 : ℤ) := by norm_num
  rw [e]; exact this

theorem SRep.dev : SRep (44801 / 128) := by
  have := SRep.scale (n := 44801) (k := -7) (by norm_num) (by norm_num) (by norm_num)
  have e : (44801 / 128 : ℝ) = ((44801 : ℕ) : ℝ) * (2 : ℝ) ^ (-7 : ℤ) := by norm_num
  rw [e]; exact this

/-- The total information: of the deviation and of the games. -/
theorem total_in (L : E.Lib) {k : ℕ} (hk : k ≤ 60)
    (hx : In (E := E) ((1 : ℝ) : EReal) ((350 : ℝ) : EReal) x)
    (hy : In (E := E) ((0 : ℝ) : EReal) (((2 : ℝ) ^ k : ℝ) : EReal) y) :
    In (E := E) ((8765 / 2 ^ 30 : ℝ) : EReal) (((2 : ℝ) ^ (k + 1) : ℝ) : EReal)
      (Flt.recip (Flt.powi x 2) + Flt.recip (Flt.recip y)) := by
  rw [powi_two' L]
  have h1 := mul_in hx hx (by norm_num) (by norm_num) SRep.one (SRep.ofNat 122500 (by norm_num))
    (by norm_num) (by norm_num)
  have h2 := recip_bounds h1 (by norm_num) SRep.info SRep.one (by norm_num) (by norm_num)
  have h3 := recip_recip_in (by omega) hy
  refine add_in h2 h3 SRep.info (SRep.two_pow _ (by omega)) (by norm_num) ?_
  rw [pow_succ]
  have : (1 : ℝ) ≤ 2 ^ k := one_le_pow₀ (by norm_num)
  linarith

/-- The step size of Glicko. -/
theorem gain_in (L : E.Lib) {k : ℕ}
    (hx : In (E := E) ((8765 / 2 ^ 30 : ℝ) : EReal) (((2 : ℝ) ^ k : ℝ) : EReal) x) :
    In (E := E) ((0 : ℝ) : EReal) ((958 : ℝ) : EReal)
      (Flt.ln (10.0 : FP E) / (400.0 : FP E) / x) :=
  div_in (q_in' L) hx (by positivity) (by norm_num) SRep.zero (SRep.ofNat 958 (by norm_num))
    (by positivity) (by norm_num)

/-- The deviation of Glicko. -/
theorem glicko_dev_in {k : ℕ} (hk : k ≤ 62)
    (hx : In (E := E) ((8765 / 2 ^ 30 : ℝ) : EReal) (((2 : ℝ) ^ k : ℝ) : EReal) x) :
    In (E := E) ((1 / 2 ^ 31 : ℝ) : EReal) ((44801 / 128 : ℝ) : EReal)
      (Flt.sqrt (Flt.recip x)) := by
  have h1 := recip_bounds hx (by norm_num) (SRep.inv_two_pow 62 (by norm_num))
    (SRep.ofNat 122504 (by norm_num))
    (one_div_le_one_div_of_le (by positivity) (pow_le_pow_right₀ (by norm_num) hk)) (by norm_num)
  exact sqrt_in h1 (by positivity) (SRep.inv_two_pow 31 (by norm_num)) SRep.dev (by norm_num)
    (by norm_num) (by norm_num)

/-- The deviation before the games, with `1 ≤ c ≤ 350`. -/
theorem pre_in (L : E.Lib) (hx : ¬ x.isNaN) (hy : y.isFinite) (h1 : 1 ≤ y.toR) :
    In (E := E) ((1 : ℝ) : EReal) ((350 : ℝ) : EReal) (Flt.fmin (Flt.hypot x y) (350.0 : FP E)) := by
  have h := cap_atMost (E := E) (x := Flt.hypot x y)
  refine ⟨h.1, fmin_lower (.inr ?_) (cap_in (E := E)).1 (le_trans ?_ (cap_in (E := E)).2.1), h.2⟩
  · have h2 := L.hypot_right x y hx (isFinite.not_nan hy)
    refine le_trans ?_ h2
    have e := FPVal.toE_abs y
    rw [isFinite.toE_eq hy, EReal.coe_abs] at e
    refine le_trans ?_ (le_of_eq e.symm)
    exact_mod_cast h1.trans (le_abs_self _)
  · exact_mod_cast (by norm_num : (1 : ℝ) ≤ 350)

end FP
end Skillratings
