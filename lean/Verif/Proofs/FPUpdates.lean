import Verif.Proofs.FPScores
import Verif.Model.Egf
import Verif.Model.Ingo
import Verif.Model.WengLin
/-
Helper lemmas about rating updates in floating point.
-/

namespace Skillratings
open FP FPVal
variable {E : FloatEnv}

section
variable {x y z : FP E}

/-- Zero with a sign. -/
def FP.zero (s : Bool) : FP E := fin s Mag.zero

/-! NaN is absorbing. -/

theorem nan_add (h : x.isNaN) : (x + y).isNaN := by
  rw [nan_iff.1 h]; change (E.add nan y).isNaN; cases y <;> simp [FloatEnv.add, FPVal.isNaN]

theorem add_nan (h : y.isNaN) : (x + y).isNaN := by
  rw [nan_iff.1 h]; change (E.add x nan).isNaN; cases x <;> simp [FloatEnv.add, FPVal.isNaN]

theorem nan_neg (h : x.isNaN) : (-x).isNaN := isNaN_neg'.2 h

theorem nan_sub (h : x.isNaN) : (x - y).isNaN := nan_add h
theorem sub_nan (h : y.isNaN) : (x - y).isNaN := add_nan (nan_neg h)

theorem nan_mul (h : x.isNaN) : (x * y).isNaN := by
  rw [nan_iff.1 h]; change (E.mul nan y).isNaN; cases y <;> simp [FloatEnv.mul, FPVal.isNaN]

theorem mul_nan (h : y.isNaN) : (x * y).isNaN := by
  rw [nan_iff.1 h]; change (E.mul x nan).isNaN; cases x <;> simp [FloatEnv.mul, FPVal.isNaN]

theorem nan_div (h : x.isNaN) : (x / y).isNaN := by
  rw [nan_iff.1 h]; change (E.div nan y).isNaN; cases y <;> simp [FloatEnv.div, FPVal.isNaN]

theorem div_nan (h : y.isNaN) : (x / y).isNaN := by
  rw [nan_iff.1 h]; change (E.div x nan).isNaN; cases x <;> simp [FloatEnv.div, FPVal.isNaN]

theorem nan_mulAdd (h : x.isNaN) : (Flt.mulAdd x y z).isNaN := by
  rw [nan_iff.1 h]
  change (E.add (E.mul nan y) z).isNaN
  cases y <;> cases z <;> simp [FloatEnv.add, FloatEnv.mul, FPVal.isNaN]

theorem mulAdd_nan (h : y.isNaN) : (Flt.mulAdd x y z).isNaN := by
  rw [nan_iff.1 h]
  change (E.mulAdd x nan z).isNaN
  have : E.mulAdd x nan z = E.add (E.mul x nan) z := by cases x <;> rfl
  rw [this]
  exact nan_add (x := E.mul x nan) (y := z) (mul_nan (x := x) (y := nan) trivial)

theorem mulAdd_nan' (h : z.isNaN) : (Flt.mulAdd x y z).isNaN := by
  rw [nan_iff.1 h]
  change (E.mulAdd x y nan).isNaN
  cases x with
  | nan => exact add_nan (x := E.mul nan y) (y := nan) trivial
  | inf s => exact add_nan (x := E.mul (inf s) y) (y := nan) trivial
  | fin s m => cases y with
    | nan => exact add_nan (x := E.mul (fin s m) nan) (y := nan) trivial
    | inf t => exact add_nan (x := E.mul (fin s m) (inf t)) (y := nan) trivial
    | fin t n => trivial

theorem nan_sqrt (h : x.isNaN) : (Flt.sqrt x).isNaN := by
  rw [nan_iff.1 h]; trivial

/-! Comparison and maximum. -/

theorem lt_iff : (x <? y) = true ↔ ¬ x.isNaN ∧ ¬ y.isNaN ∧ x.toE < y.toE := by
  change FPVal.lt x y = true ↔ _
  simp [FPVal.lt]

theorem fmax_nan (h : x.isNaN) : Flt.fmax x y = y := by
  rw [nan_iff.1 h]; rfl

/-- The maximum with a number is a number, and at least that number. -/
theorem fmax_floor (hy : ¬ y.isNaN) : ¬ (Flt.fmax x y).isNaN ∧ y.toE ≤ (Flt.fmax x y).toE := by
  by_cases hx : x.isNaN
  · rw [fmax_nan hx]; exact ⟨hy, le_rfl⟩
  · have h : Flt.fmax x y = if (x <? y) = true then y else x := by
      change FPVal.max x y = if FPVal.lt x y = true then y else x
      cases x with
      | nan => exact (hx trivial).elim
      | inf s => cases y with
        | nan => exact (hy trivial).elim
        | inf => rfl
        | fin => rfl
      | fin s m => cases y with
        | nan => exact (hy trivial).elim
        | inf => rfl
        | fin => rfl
    rw [h]
    split
    · exact ⟨hy, le_rfl⟩
    · rename_i hlt
      refine ⟨hx, not_lt.1 fun hc => hlt (lt_iff.2 ⟨hx, hy, hc⟩)⟩

/-! A rating plus a scaled change. -/

theorem mulAdd_inf (hx : x.isFinite) (hy : y.isFinite) (hz : ¬ z.isNaN) (hz' : ¬ z.isFinite) :
    Flt.mulAdd x y z = z := by
  change E.mulAdd x y z = z
  cases x with
  | nan => exact hx.elim
  | inf => exact hx.elim
  | fin s m => cases y with
    | nan => exact hy.elim
    | inf => exact hy.elim
    | fin t n => cases z with
      | nan => exact (hz trivial).elim
      | inf => rfl
      | fin => exact (hz' trivial).elim

/-- A finite change never makes a rating NaN, and it acts in its direction. -/
theorem change (hk : x.isFinite) (hd : y.isFinite) (hz : ¬ z.isNaN) :
    ¬ (Flt.mulAdd x y z).isNaN ∧
    (0 ≤ x.toR * y.toR → z.toE ≤ (Flt.mulAdd x y z).toE) ∧
    (x.toR * y.toR ≤ 0 → (Flt.mulAdd x y z).toE ≤ z.toE) := by
  by_cases hf : z.isFinite
  · obtain ⟨s, hs⟩ := mulAdd_fin hk hd hf
    have hz' : z.toE = (z.toR : EReal) := isFinite.toE_eq hf
    rw [hs, hz']
    exact ⟨E.round_not_nan _ _, fun h => E.round_ge s (isFinite.srep hf) (by linarith),
      fun h => E.round_le s (isFinite.srep hf) (by linarith)⟩
  · rw [mulAdd_inf hk hd hz hf]
    exact ⟨hz, fun _ => le_rfl, fun _ => le_rfl⟩

/-- A change by at most `k` stays between `z - k` and `z + k` as computed. -/
theorem change_bound (hk : x.isFinite) (hd : y.isFinite) (hz : z.isFinite) (hk0 : 0 ≤ x.toR)
    (hd1 : -1 ≤ y.toR) (hd2 : y.toR ≤ 1) :
    (z - x).toE ≤ (Flt.mulAdd x y z).toE ∧ (Flt.mulAdd x y z).toE ≤ (z + x).toE := by
  obtain ⟨s, hs⟩ := mulAdd_fin hk hd hz
  obtain ⟨t, ht⟩ := sub_fin hz hk
  obtain ⟨u, hu⟩ := add_fin hz hk
  rw [hs, ht, hu]
  exact ⟨E.round_mono _ _ (by nlinarith), E.round_mono _ _ (by nlinarith)⟩

/-! Scores minus expected scores. -/

/-- Half points. -/
noncomputable def pointsR : Outcomes → ℝ
  | .WIN => 1
  | .DRAW => 1 / 2
  | .LOSS => 0

theorem pointsR_srep (o : Outcomes) : SRep (pointsR o) := by
  cases o
  · exact SRep.one
  · exact SRep.zero
  · exact SRep.half

theorem points_in (o : Outcomes) :
    In (E := E) (pointsR o : EReal) (pointsR o : EReal) (o.toChessPoints : FP E) := by
  cases o
  · exact lit_in (by norm_num [pointsR]) (pointsR_srep .WIN)
  · exact lit_in (by norm_num [pointsR]) (pointsR_srep .LOSS)
  · exact lit_in (by norm_num [pointsR]) (pointsR_srep .DRAW)

theorem points_in' (o : Outcomes) : In (E := E) ((1 - pointsR o : ℝ) : EReal)
    ((1 - pointsR o : ℝ) : EReal) ((1.0 : FP E) - o.toChessPoints) := by
  obtain ⟨s, hs⟩ := sub_fin (one_in (E := E)).finite (points_in (E := E) o).finite
  have h1 := (one_in (E := E)).toR
  have h2 := (points_in (E := E) o).toR
  have hr : SRep (1 - pointsR o) := by
    cases o
    · simpa [pointsR] using SRep.zero
    · simpa [pointsR] using SRep.one
    · have : (1 : ℝ) - pointsR .DRAW = 1 / 2 := by norm_num [pointsR]
      rw [this]; exact SRep.half
  rw [hs]
  exact In.of_round s hr hr (by linarith) (by linarith)

/-- A score `v` minus an expected score. -/
theorem surprise {v : ℝ} {p e : FP E} (hp : In (E := E) (v : EReal) (v : EReal) p)
    (he : In 0 1 e) (hv0 : 0 ≤ v) (hv1 : v ≤ 1) :
    (p - e).isFinite ∧ -1 ≤ (p - e).toR ∧ (p - e).toR ≤ 1 ∧
      (v = 1 → 0 ≤ (p - e).toR) ∧ (v = 0 → (p - e).toR ≤ 0) := by
  have he' : In ((0 : ℝ) : EReal) ((1 : ℝ) : EReal) e := by simpa using he
  obtain ⟨s, hs⟩ := sub_fin hp.finite he'.finite
  have h1 := hp.toR
  have h2 := he'.toR
  have hi : In (E := E) ((-1 : ℝ) : EReal) ((1 : ℝ) : EReal) (p - e) := by
    rw [hs]
    exact In.of_round s SRep.one.neg SRep.one (by linarith) (by linarith)
  refine ⟨hi.finite, hi.toR.1, hi.toR.2, fun h => ?_, fun h => ?_⟩
  · refine toR_of_le hi.finite ?_
    rw [hs]
    exact E.round_ge s SRep.zero (by linarith)
  · refine toR_le_of hi.finite ?_
    rw [hs]
    exact E.round_le s SRep.zero (by linarith)

theorem pointsR_nonneg (o : Outcomes) : 0 ≤ pointsR o := by cases o <;> norm_num [pointsR]
theorem pointsR_le_one (o : Outcomes) : pointsR o ≤ 1 := by cases o <;> norm_num [pointsR]

end

theorem elo_score_in (L : E.Lib) {x y : FP E} (hx : ¬ x.isNaN) (hy : y.isFinite) :
    In 0 1 (Flt.recip ((1.0 : FP E) + Flt.powf (10.0 : FP E) ((y - x) / (400.0 : FP E)))) :=
  pow_score L (elo_exponent (add_not_nan hy (isNaN_neg'.not.2 hx)))

/-- One step of a period, from any number (also an infinite one). -/
theorem elo_step (L : E.Lib) {x k : FP E} {r : Elo.EloRating (FP E) × Outcomes}
    (hx : ¬ x.isNaN) (hr : r.1.rating.isFinite) (hk : k.isFinite) (hk0 : 0 ≤ k.toR) :
    ¬ (Elo.periodStep ⟨k⟩ x r).isNaN ∧
    (r.2 = .WIN → x.toE ≤ (Elo.periodStep ⟨k⟩ x r).toE) ∧
    (r.2 = .LOSS → (Elo.periodStep ⟨k⟩ x r).toE ≤ x.toE) := by
  obtain ⟨b, o⟩ := r
  have he := elo_score_in L hx hr
  have h1 := surprise (points_in (E := E) o) he (pointsR_nonneg o) (pointsR_le_one o)
  obtain ⟨n1, u1, d1⟩ := change hk h1.1 hx
  refine ⟨n1, ?_, ?_⟩
  · rintro rfl
    exact u1 (mul_nonneg hk0 (h1.2.2.2.1 rfl))
  · rintro rfl
    exact d1 (mul_nonpos_of_nonneg_of_nonpos hk0 (h1.2.2.2.2 rfl))

theorem fifa_score_in (L : E.Lib) {x y : FP E} (hx : ¬ x.isNaN) (hy : y.isFinite) :
    In 0 1 (Flt.recip ((1.0 : FP E) + Flt.powf (10.0 : FP E) (-(x - y) / (600.0 : FP E)))) := by
  refine pow_score L (fifa_exponent ?_)
  have h : (x - y).isNaN ↔ (y - x).isNaN := by
    have h1 := neg_add_nan (E := E) (-x) y
    have h2 : -(-x : FP E) = x := by
      change FPVal.neg (FPVal.neg x) = x
      cases x <;> simp [FPVal.neg]
    rw [h2] at h1
    refine h1.trans ?_
    change (E.add (FPVal.neg x) y).isNaN ↔ (E.add y (FPVal.neg x)).isNaN
    cases x with
    | nan => exact (hx trivial).elim
    | inf s => cases y with
      | nan => exact hy.elim
      | inf => exact hy.elim
      | fin => simp [FloatEnv.add, FPVal.neg, FPVal.isNaN]
    | fin s m => cases y with
      | nan => exact hy.elim
      | inf => exact hy.elim
      | fin t n =>
        simp only [FloatEnv.add, FPVal.neg]
        exact iff_of_false (E.round_not_nan _ _) (E.round_not_nan _ _)
  rw [h]
  exact add_not_nan hy (isNaN_neg'.not.2 hx)

/-- Either value of the knockout guard. -/
theorem guard {k : Bool} {new old : FP E} (hn : ¬ new.isNaN) (ho : ¬ old.isNaN) :
    ¬ (if (k && (new <? old)) = true then old else new).isNaN ∧
    (old.toE ≤ new.toE → old.toE ≤ (if (k && (new <? old)) = true then old else new).toE) ∧
    (new.toE ≤ old.toE → (if (k && (new <? old)) = true then old else new).toE ≤ old.toE) := by
  split
  · exact ⟨ho, fun _ => le_rfl, fun _ => le_rfl⟩
  · exact ⟨hn, fun h => h, fun h => h⟩

/-- The next representable number after 3300 is `3300 + 2 ^ -41`. -/
theorem rep_gap {r : ℝ} (h : SRep r) (hr : 3300 < r) : 3300 + 1 / 2 ^ 41 ≤ r := by
  rw [SRep, abs_of_pos (by linarith)] at h
  obtain ⟨n, k, hn, -, -, rfl⟩ := h
  by_cases hk : -41 ≤ k
  · -- a multiple of `2 ^ -41`
    obtain ⟨j, hj⟩ := Int.eq_ofNat_of_zero_le (show 0 ≤ k + 41 by omega)
    have hk' : k = (j : ℤ) - 41 := by omega
    have h2 : (2 : ℝ) ^ k = 2 ^ j / 2 ^ 41 := by
      rw [hk', zpow_sub₀ (by norm_num), zpow_natCast]; norm_cast
    rw [h2] at hr ⊢
    have hr' : (3300 * 2 ^ 41 : ℝ) < n * 2 ^ j := by
      rw [mul_div_assoc', lt_div_iff₀ (by positivity)] at hr; exact hr
    have hr'' : 3300 * 2 ^ 41 + 1 ≤ n * 2 ^ j := by
      have : 3300 * 2 ^ 41 < n * 2 ^ j := by exact_mod_cast hr'
      omega
    have hr3 : (3300 * 2 ^ 41 + 1 : ℝ) ≤ n * 2 ^ j := by exact_mod_cast hr''
    rw [mul_div_assoc', le_div_iff₀ (by positivity)]
    calc (3300 + 1 / 2 ^ 41 : ℝ) * 2 ^ 41 = 3300 * 2 ^ 41 + 1 := by norm_num
      _ ≤ _ := hr3
  · -- too small
    exfalso
    have h1 : (2 : ℝ) ^ k ≤ 2 ^ (-42 : ℤ) := zpow_le_zpow_right₀ (by norm_num) (by omega)
    have h2 : (n : ℝ) ≤ 2 ^ 53 := by exact_mod_cast hn.le
    have h3 : (n : ℝ) * 2 ^ k ≤ 2 ^ 53 * 2 ^ (-42 : ℤ) := by gcongr
    have h4 : (2 : ℝ) ^ 53 * 2 ^ (-42 : ℤ) = 2048 := by norm_num
    linarith

theorem con_nan (L : E.Lib) {r : FP E} (hf : r.isFinite) (hr : 3300 < r.toR) :
    (Egf.con r).isNaN := by
  have h33 := lit_in (E := E) (m := 33000) (s := true) (e := 1) (v := 3300) (by norm_num)
    (SRep.ofNat 3300 (by norm_num))
  have h200 := lit_in (E := E) (m := 2000) (s := true) (e := 1) (v := 200) (by norm_num)
    (SRep.ofNat 200 (by norm_num))
  have hg := rep_gap (isFinite.srep hf) hr
  have hrr : FPVal.toR r = r.toR := rfl
  rw [hrr] at hg
  have h1 : In (E := E) ((-r.toR : ℝ) : EReal) ((-(1 / 2 ^ 41) : ℝ) : EReal)
      ((3300.0 : FP E) - r) := by
    obtain ⟨s, hs⟩ := sub_fin h33.finite hf
    have := h33.toR
    rw [hs]
    exact In.of_round s (isFinite.srep hf).neg (SRep.inv_two_pow 41 (by norm_num)).neg
      (by linarith) (by linarith)
  have h2 : In (E := E) ((-r.toR : ℝ) : EReal) ((-(1 / 2 ^ 49) : ℝ) : EReal)
      (((3300.0 : FP E) - r) / (200.0 : FP E)) := by
    have h4 := h200.toR
    have h5 : FP.toR (200.0 : FP E) = 200 := le_antisymm h4.2 h4.1
    obtain ⟨s, hs⟩ := div_fin h1.finite h200.finite (by rw [h5]; norm_num)
    have h6 := h1.toR
    rw [hs, h5]
    refine In.of_round s (isFinite.srep hf).neg (SRep.inv_two_pow 49 (by norm_num)).neg ?_ ?_
    · change -r.toR ≤ _
      rw [le_div_iff₀ (by norm_num)]; linarith
    · rw [div_le_iff₀ (by norm_num)]
      refine h6.2.trans ?_
      norm_num
  have h16 : In (E := E) ((3 / 2 : ℝ) : EReal) ((7 / 4 : ℝ) : EReal) (1.6 : FP E) := by
    rw [lit]
    refine In.of_round false ?_ ?_ (by norm_num) (by norm_num)
    · have := SRep.scale (n := 3) (k := -1) (by norm_num) (by norm_num) (by norm_num)
      have h : ((3 : ℕ) : ℝ) * 2 ^ (-1 : ℤ) = 3 / 2 := by norm_num
      rwa [h] at this
    · have := SRep.scale (n := 7) (k := -2) (by norm_num) (by norm_num) (by norm_num)
      have h : ((7 : ℕ) : ℝ) * 2 ^ (-2 : ℤ) = 7 / 4 := by norm_num
      rwa [h] at this
  refine L.powf_neg _ _ h2.finite h16.finite (lt_of_le_of_lt h2.2.2 ?_) ?_
  · have : (-(1 / 2 ^ 49) : ℝ) < 0 := by norm_num
    exact_mod_cast this
  · intro n hn
    have h7 := h16.2.1
    have h8 := h16.2.2
    rw [show FP.toE (1.6 : FP E) = _ from hn] at h7 h8
    have h7' : (3 / 2 : ℝ) ≤ n := by exact_mod_cast h7
    have h8' : (n : ℝ) ≤ 7 / 4 := by exact_mod_cast h8
    have h9 : (1 : ℝ) < n := by linarith
    have h10 : (n : ℝ) < 2 := by linarith
    have h11 : (1 : ℤ) < n := by exact_mod_cast h9
    have h12 : n < (2 : ℤ) := by exact_mod_cast h10
    omega

theorem zero_div_zero {s t : Bool} {x y : ℝ} (hx : x = 0) (hy : y = 0) :
    FP.isNaN (E := E) (E.div (fin s Mag.zero) (E.round t y)) := by
  subst hx; subst hy
  simp [FloatEnv.round, FloatEnv.div, Mag.zero, FPVal.isNaN, FP.isNaN]

theorem inf_div_sum : FP.isNaN (E := E) (E.div (inf false) (E.add (inf false) (inf false))) := by
  simp [FloatEnv.add, FloatEnv.div, FPVal.isNaN, FP.isNaN]

/-- Two exponentials that overflow. -/
theorem pValue_nan (L : E.Lib) {r s c : FP E} (hr : ¬ (r / c).isNaN) (hs : ¬ (s / c).isNaN)
    (hr' : ((710 : ℝ) : EReal) ≤ (r / c).toE) (hs' : ((710 : ℝ) : EReal) ≤ (s / c).toE) :
    (WengLin.pValue r s c).1.isNaN ∧ (WengLin.pValue r s c).2.isNaN := by
  have h1 : Flt.exp (r / c) = (inf false : FPVal) := L.exp_overflow _ hr hr'
  have h2 : Flt.exp (s / c) = (inf false : FPVal) := L.exp_overflow _ hs hs'
  have h : (WengLin.pValue r s c).1.isNaN := by
    simp only [WengLin.pValue]
    rw [h1, h2]
    exact inf_div_sum
  exact ⟨h, sub_nan h⟩

/-- The scale `c` for `beta` in [1, 1000] and uncertainties in [0, 1000] is in [1, 2048]. -/
theorem c_in (L : E.Lib) {β u v : FP E} (hβ : In ((1 : ℝ) : EReal) ((1000 : ℝ) : EReal) β)
    (hu : In ((0 : ℝ) : EReal) ((1000 : ℝ) : EReal) u)
    (hv : In ((0 : ℝ) : EReal) ((1000 : ℝ) : EReal) v) :
    In ((1 : ℝ) : EReal) ((2048 : ℝ) : EReal)
      (Flt.sqrt (Flt.mulAdd 2.0 (Flt.powi β 2) (Flt.mulAdd u u (Flt.powi v 2)))) := by
  have hβ2 : Flt.powi β 2 = β * β := L.powi_two _
  have hv2 : Flt.powi v 2 = v * v := L.powi_two _
  have h6 : SRep (1000000 : ℝ) := SRep.ofNat 1000000 (by norm_num)
  have b2 := mul_in hβ hβ (by norm_num) (by norm_num) SRep.one h6 (by norm_num) (by norm_num)
  have v2 := mul_in hv hv (by norm_num) (by norm_num) SRep.zero h6 (by norm_num) (by norm_num)
  have two := lit_in (E := E) (m := 20) (s := true) (e := 1) (v := 2) (by norm_num)
    (SRep.ofNat 2 (by norm_num))
  rw [hβ2, hv2]
  have w2 : In ((0 : ℝ) : EReal) ((2000000 : ℝ) : EReal) (Flt.mulAdd u u (v * v)) := by
    obtain ⟨s, hs⟩ := mulAdd_fin hu.finite hu.finite v2.finite
    have h1 := hu.toR
    have h2 := v2.toR
    rw [hs]
    exact In.of_round s SRep.zero (SRep.ofNat 2000000 (by norm_num)) (by nlinarith) (by nlinarith)
  have c2 : In ((1 : ℝ) : EReal) ((4000000 : ℝ) : EReal)
      (Flt.mulAdd 2.0 (β * β) (Flt.mulAdd u u (v * v))) := by
    obtain ⟨s, hs⟩ := mulAdd_fin two.finite b2.finite w2.finite
    have h1 := two.toR
    have h2 := b2.toR
    have h3 := w2.toR
    rw [hs]
    exact In.of_round s SRep.one (SRep.ofNat 4000000 (by norm_num)) (by nlinarith) (by nlinarith)
  have h := c2.toR
  obtain ⟨s, hs⟩ := sqrt_fin c2.finite (by linarith)
  rw [hs]
  refine In.of_round s SRep.one (SRep.ofNat 2048 (by norm_num)) (Real.one_le_sqrt.2 h.1) ?_
  rw [Real.sqrt_le_left (by norm_num)]
  norm_num
  linarith

theorem quotient_big {r c : FP E} (hr : r.isFinite) (hr' : 1454080 ≤ r.toR)
    (hc : In ((1 : ℝ) : EReal) ((2048 : ℝ) : EReal) c) :
    ¬ (r / c).isNaN ∧ ((710 : ℝ) : EReal) ≤ (r / c).toE := by
  have h := hc.toR
  obtain ⟨s, hs⟩ := div_fin hr hc.finite (by linarith)
  rw [hs]
  refine ⟨E.round_not_nan _ _, E.round_ge s (SRep.ofNat 710 (by norm_num)) ?_⟩
  rw [le_div_iff₀ (by linarith)]
  nlinarith

/-- A literal of a whole number between two numbers. -/
theorem lit_between {m : ℕ} {s : Bool} {e : ℕ} {lo hi : ℝ} (v : ℕ)
    (h : (OfScientific.ofScientific m s e : ℝ) = v) (hv : v < 2 ^ 53) (h1 : lo ≤ v) (h2 : v ≤ hi) :
    In (E := E) (lo : EReal) (hi : EReal) (OfScientific.ofScientific m s e : FP E) := by
  have := lit_in (E := E) h (SRep.nat hv)
  exact ⟨this.1, le_trans (by exact_mod_cast h1) this.2.1, this.2.2.trans (by exact_mod_cast h2)⟩

theorem lit_toR {m : ℕ} {s : Bool} {e : ℕ} (v : ℕ)
    (h : (OfScientific.ofScientific m s e : ℝ) = v) (hv : v < 2 ^ 53) :
    FP.toR (OfScientific.ofScientific m s e : FP E) = v := (lit_rep h (SRep.nat hv)).2

end Skillratings
