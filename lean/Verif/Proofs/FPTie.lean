import Verif.Proofs.FPGlicko
import Verif.Proofs.OneOnOne
/-
Helper lemmas for ties in `trueskill_multi_team` in floating point: how infinities and NaN travel,
and bounds that hold unless the value is NaN.
-/

namespace Skillratings
open FP FPVal
variable {E : FloatEnv} {x y z : FP E}

namespace FP

/-! ### Infinities and NaN -/

theorem nonfin_add (h : ¬ x.isFinite) : ¬ (x + y).isFinite := by
  change ¬ (E.add x y).isFinite
  cases x with
  | fin => exact absurd trivial h
  | nan => cases y <;> exact id
  | inf s =>
    cases y with
    | nan => exact id
    | fin => exact id
    | inf t => by_cases hst : s = t <;> simp [FloatEnv.add, hst, FPVal.isFinite]

theorem nonfin_sub (h : ¬ x.isFinite) : ¬ (x - y).isFinite := nonfin_add h

theorem nonfin_div_nonfin (h : ¬ x.isFinite) (h' : ¬ y.isFinite) : (x / y).isNaN := by
  change (E.div x y).isNaN
  cases x with
  | fin => exact absurd trivial h
  | nan => cases y <;> trivial
  | inf s =>
    cases y with
    | nan => trivial
    | fin => exact absurd trivial h'
    | inf t => trivial

/-- A zero or NaN. -/
def ZN (x : FP E) : Prop := x.isNaN ∨ (x.isFinite ∧ x.toR = 0)

theorem div_zn (h : ZN y) : ¬ (x / y).isFinite := by
  rcases h with h | ⟨h, h0⟩
  · exact fun h2 => h2.not_nan (div_nan h)
  · change ¬ (E.div x y).isFinite
    cases y with
    | nan => exact h.elim
    | inf => exact h.elim
    | fin t n =>
      have h0 : n.1 = 0 := (fin_zero_iff t n).2 h0
      cases x with
      | nan => exact id
      | inf => exact id
      | fin s m => by_cases hm : m.1 = 0 <;> simp [FloatEnv.div, h0, hm, FPVal.isFinite]

theorem fin_div_nonfin (hx : x.isFinite) (h : ¬ y.isFinite) : ZN (x / y) := by
  change ZN (E := E) (E.div x y)
  cases x with
  | nan => exact hx.elim
  | inf => exact hx.elim
  | fin s m =>
    cases y with
    | nan => exact Or.inl trivial
    | fin => exact absurd trivial h
    | inf t => exact Or.inr ⟨trivial, by simp [FloatEnv.div, FP.toR, FPVal.toR, signed, Mag.zero]⟩

theorem zn_of_round {s : Bool} {v : ℝ} (h : v = 0) : ZN (E := E) (E.round s v) := by
  subst h
  refine Or.inr ⟨E.round_finite s SRep.zero, ?_⟩
  simp [FloatEnv.round, FP.toR, FPVal.toR, signed, Mag.zero]

theorem zn_mul (h : ZN x) : ZN (x * y) := by
  rcases h with h | ⟨h, h0⟩
  · exact Or.inl (nan_mul h)
  · by_cases hy : y.isFinite
    · obtain ⟨s, hs⟩ := mul_fin h hy
      rw [hs]
      exact zn_of_round (by rw [h0, zero_mul])
    · left
      change (E.mul x y).isNaN
      cases x with
      | nan => exact h.elim
      | inf => exact h.elim
      | fin s m =>
        have h0 : m.1 = 0 := (fin_zero_iff s m).2 h0
        cases y with
        | nan => trivial
        | fin => exact absurd trivial hy
        | inf t => simp [FloatEnv.mul, h0, FPVal.isNaN]

theorem mul_zn (h : ZN y) : ZN (x * y) := by
  rcases h with h | ⟨h, h0⟩
  · exact Or.inl (mul_nan h)
  · by_cases hx : x.isFinite
    · obtain ⟨s, hs⟩ := mul_fin hx h
      rw [hs]
      exact zn_of_round (by rw [h0, mul_zero])
    · left
      change (E.mul x y).isNaN
      cases y with
      | nan => exact h.elim
      | inf => exact h.elim
      | fin s m =>
        have h0 : m.1 = 0 := (fin_zero_iff s m).2 h0
        cases x with
        | nan => trivial
        | fin => exact absurd trivial hx
        | inf t => simp [FloatEnv.mul, h0, FPVal.isNaN]

theorem zn_div (h : ZN x) : ZN (x / y) := by
  rcases h with h | ⟨h, h0⟩
  · exact Or.inl (nan_div h)
  · by_cases hy : y.isFinite
    · by_cases hy0 : y.toR = 0
      · left
        change (E.div x y).isNaN
        cases x with
        | nan => exact h.elim
        | inf => exact h.elim
        | fin s m =>
          have h0 : m.1 = 0 := (fin_zero_iff s m).2 h0
          cases y with
          | nan => trivial
          | inf => exact hy.elim
          | fin t n =>
            have h1 : n.1 = 0 := (fin_zero_iff t n).2 hy0
            simp [FloatEnv.div, h0, h1, FPVal.isNaN]
      · obtain ⟨s, hs⟩ := div_fin h hy hy0
        rw [hs]
        exact zn_of_round (by rw [h0, zero_div])
    · exact fin_div_nonfin h hy

/-! ### Comparison with zero -/

theorem zero_in : In (E := E) ((0 : ℝ) : EReal) ((0 : ℝ) : EReal) (0.0 : FP E) :=
  lit_in (by norm_num) SRep.zero

theorem feq_zero_iff : (x ==? 0.0) = true ↔ ¬ x.isNaN ∧ x.toE = 0 := by
  have h := zero_in (E := E)
  have h0 : (0.0 : FP E).toE = 0 := le_antisymm h.2.2 h.2.1
  change FPVal.feq x (0.0 : FP E) = true ↔ _
  simp only [FPVal.feq, decide_eq_true_eq]
  constructor
  · rintro ⟨a, -, b⟩; exact ⟨a, b.trans h0⟩
  · rintro ⟨a, b⟩; exact ⟨a, h.1, b.trans h0.symm⟩

theorem nonfin_ne_zero (h : ¬ x.isFinite) : (x ==? 0.0) = false := by
  rw [Bool.eq_false_iff]
  intro h1
  obtain ⟨h2, h3⟩ := feq_zero_iff.1 h1
  exact h (isFinite_iff.2 ⟨h2, fun h4 => EReal.zero_ne_top (h3.symm.trans h4),
    fun h4 => EReal.zero_ne_bot (h3.symm.trans h4)⟩)

/-! ### Bounds unless NaN -/

/-- NaN, or between `2 ^ -k` and `2 ^ m`. -/
def NB (k m : ℕ) (x : FP E) : Prop :=
  x.isNaN ∨ In (E := E) ((1 / 2 ^ k : ℝ) : EReal) ((2 ^ m : ℝ) : EReal) x

theorem NB.ne_zero {k m : ℕ} (h : NB k m x) : (x ==? 0.0) = false := by
  rw [Bool.eq_false_iff]
  intro h1
  obtain ⟨h2, h3⟩ := feq_zero_iff.1 h1
  rcases h with h | h
  · exact h2 h
  · have h4 := h.2.1
    rw [h3] at h4
    have : (1 / 2 ^ k : ℝ) ≤ 0 := by exact_mod_cast h4
    have h5 : (0 : ℝ) < 1 / 2 ^ k := by positivity
    linarith

theorem NB.mono {k m k' m' : ℕ} (h : NB k m x) (hk : k ≤ k') (hm : m ≤ m') : NB k' m' x := by
  refine h.imp id fun h => h.mono ?_ ?_
  · exact one_div_le_one_div_of_le (by positivity) (pow_le_pow_right₀ (by norm_num) hk)
  · exact pow_le_pow_right₀ (by norm_num) hm

theorem NB.not_infinite {k m : ℕ} (h : NB k m x) : Flt.isInfinite x = false := by
  rcases h with h | h
  · rw [nan_iff.1 h]; rfl
  · have := h.finite
    cases x with
    | nan => exact this.elim
    | inf => exact this.elim
    | fin => rfl

theorem zn_not_infinite (h : ZN x) : Flt.isInfinite x = false := by
  cases x with
  | nan => rfl
  | fin => rfl
  | inf => rcases h with h | ⟨h, -⟩ <;> exact h.elim

theorem NB.recip {k m : ℕ} (h : NB k m x) (hk : k ≤ 900) (hm : m ≤ 900) : NB m k (Flt.recip x) := by
  refine h.imp (fun h => ?_) fun h => ?_
  · rw [recip_eq]; exact div_nan h
  · refine recip_bounds h (by positivity) (SRep.inv_two_pow _ (by omega)) (SRep.two_pow _ (by omega))
      le_rfl ?_
    rw [one_div_one_div]

/-- Adding a zero (or NaN) in front. -/
theorem NB.zn_add {k m : ℕ} (h : NB k m y) (hx : ZN x) (hk : k ≤ 900) (hm : m ≤ 900) :
    NB k m (x + y) := by
  rcases hx with hx | ⟨hx, h0⟩
  · exact Or.inl (nan_add hx)
  · rcases h with h | h
    · exact Or.inl (add_nan h)
    · right
      obtain ⟨s, hs⟩ := add_fin hx h.finite
      rw [hs, h0, zero_add]
      have h1 := h.toR
      exact In.of_round s (SRep.inv_two_pow _ (by omega)) (SRep.two_pow _ (by omega)) h1.1 h1.2

theorem NB.add_zn {k m : ℕ} (h : NB k m x) (hx : ZN y) (hk : k ≤ 900) (hm : m ≤ 900) :
    NB k m (x + y) := by
  rcases hx with hx | ⟨hx, h0⟩
  · exact Or.inl (add_nan hx)
  · rcases h with h | h
    · exact Or.inl (nan_add h)
    · right
      obtain ⟨s, hs⟩ := add_fin h.finite hx
      rw [hs, h0, add_zero]
      have h1 := h.toR
      exact In.of_round s (SRep.inv_two_pow _ (by omega)) (SRep.two_pow _ (by omega)) h1.1 h1.2

theorem zero_zn : ZN (0.0 : FP E) := by
  have h := (zero_in (E := E)).toR
  exact Or.inr ⟨zero_in.finite, le_antisymm h.2 h.1⟩

/-- Subtracting a zero keeps the value. -/
theorem sub_zero_val (hx : x.isFinite) (hy : y.isFinite) (h0 : y.toR = 0) :
    (x - y).isFinite ∧ (x - y).toR = x.toR := by
  obtain ⟨s, hs⟩ := sub_fin hx hy
  have h := hx.srep
  rw [hs, h0, sub_zero]
  have hf := E.round_finite s h
  refine ⟨hf, ?_⟩
  have h1 := E.round_rep s h
  rw [hf.toE_eq] at h1
  exact_mod_cast h1

theorem zero_add_val (hx : x.isFinite) (hy : y.isFinite) (h0 : x.toR = 0) :
    (x + y).isFinite ∧ (x + y).toR = y.toR := by
  obtain ⟨s, hs⟩ := add_fin hx hy
  have h := hy.srep
  rw [hs, h0, zero_add]
  have hf := E.round_finite s h
  refine ⟨hf, ?_⟩
  have h1 := E.round_rep s h
  rw [hf.toE_eq] at h1
  exact_mod_cast h1

/-- A sum is noticeably larger than a summand that is not too large. -/
theorem round_sum_gap {a b : ℝ} {s : Bool} {k m : ℕ} (hkm : k + m ≤ 50) (ha : 0 ≤ a)
    (ham : a ≤ 2 ^ m) (hb : 1 / 2 ^ k ≤ b) (hbm : b ≤ 2 ^ m) :
    In (E := E) ((a + 1 / 2 ^ (k + 1) : ℝ) : EReal) ((2 ^ (m + 1) : ℝ) : EReal)
      (E.round s (a + b)) := by
  have hb0 : (0 : ℝ) < 1 / 2 ^ k := by positivity
  set q : ℝ := 2 ^ (k + 1) with hq
  have hq0 : 0 < q := by positivity
  have hn1 : (⌊a * q⌋₊ : ℝ) ≤ a * q := Nat.floor_le (by positivity)
  have hn2 : a * q < ⌊a * q⌋₊ + 1 := Nat.lt_floor_add_one _
  have hlt : ⌊a * q⌋₊ + 2 < 2 ^ 53 := by
    have h1 : a * q ≤ 2 ^ 51 := by
      calc a * q ≤ 2 ^ m * 2 ^ (k + 1) := mul_le_mul_of_nonneg_right ham hq0.le
        _ = 2 ^ (m + (k + 1)) := by rw [← pow_add]
        _ ≤ 2 ^ 51 := pow_le_pow_right₀ (by norm_num) (by omega)
    have h2 : (⌊a * q⌋₊ : ℝ) ≤ 2 ^ 51 := hn1.trans h1
    have h3 : ⌊a * q⌋₊ ≤ 2 ^ 51 := by exact_mod_cast h2
    norm_num at h3 ⊢
    omega
  have hrep : SRep ((⌊a * q⌋₊ + 2 : ℕ) * (2 : ℝ) ^ (-((k + 1 : ℕ) : ℤ))) :=
    SRep.scale hlt (by omega) (by omega)
  have hval : ((⌊a * q⌋₊ + 2 : ℕ) * (2 : ℝ) ^ (-((k + 1 : ℕ) : ℤ))) = (⌊a * q⌋₊ + 2) / q := by
    rw [zpow_neg, zpow_natCast, hq]; push_cast; rw [div_eq_mul_inv]
  rw [hval] at hrep
  have hbk : (1 : ℝ) / 2 ^ k = 2 / q := by rw [hq, pow_succ]; field_simp
  refine ⟨E.round_not_nan _ _, ?_, ?_⟩
  · refine le_trans ?_ (E.round_ge s hrep ?_)
    · have : a + 1 / q ≤ (⌊a * q⌋₊ + 2) / q := by
        rw [le_div_iff₀ hq0, add_mul, one_div_mul_cancel hq0.ne']; linarith
      exact_mod_cast this
    · rw [div_le_iff₀ hq0, add_mul]
      have : 2 ≤ b * q := by
        rw [hbk, div_le_iff₀ hq0] at hb; exact hb
      linarith
  · refine E.round_le s (SRep.two_pow _ (by omega)) ?_
    rw [pow_succ]; linarith

/-- Between `2 ^ -k` and `2 ^ m`. -/
abbrev Rg (k m : ℕ) (x : FP E) : Prop :=
  In (E := E) ((1 / 2 ^ k : ℝ) : EReal) ((2 ^ m : ℝ) : EReal) x

/-- Adding and subtracting again. -/
theorem NB.absorb {k m k' : ℕ} {w : FP E} (hkm : k + m ≤ 50) (hy : Rg k' m y) (hx : NB k m x)
    (hw : w.isFinite) (hw' : w.toR = y.toR) : NB (k + 1) (m + 1) (w + x - y) := by
  rcases hx with hx | hx
  · exact Or.inl (nan_sub (add_nan hx))
  right
  have hy1 := hy.toR
  have hx1 := hx.toR
  have hk0 : (0 : ℝ) < 1 / 2 ^ k' := by positivity
  obtain ⟨s, hs⟩ := add_fin hw hx.finite
  rw [hw'] at hs
  have h := round_sum_gap (E := E) (s := s) hkm (by linarith) hy1.2 hx1.1 hx1.2
  rw [← hs] at h
  have h1 := h.toR
  obtain ⟨t, ht⟩ := sub_fin h.finite hy.finite
  rw [ht]
  exact In.of_round t (SRep.inv_two_pow _ (by omega)) (SRep.two_pow _ (by omega)) (by linarith)
    (by linarith)

theorem NB.absorb' {k m k' : ℕ} (hkm : k + m ≤ 50) (hy : Rg k m y) (hx : NB k' m x) :
    NB (k + 1) (m + 1) (y + x - x) := by
  rcases hx with hx | hx
  · exact Or.inl (sub_nan hx)
  right
  have hy1 := hy.toR
  have hx1 := hx.toR
  have hk0 : (0 : ℝ) < 1 / 2 ^ k' := by positivity
  obtain ⟨s, hs⟩ := add_fin hy.finite hx.finite
  rw [add_comm] at hs
  have h := round_sum_gap (E := E) (s := s) hkm (by linarith) hx1.2 hy1.1 hy1.2
  rw [← hs] at h
  have h1 := h.toR
  obtain ⟨t, ht⟩ := sub_fin h.finite hx.finite
  rw [ht]
  exact In.of_round t (SRep.inv_two_pow _ (by omega)) (SRep.two_pow _ (by omega)) (by linarith)
    (by linarith)

theorem Rg.nb {k m : ℕ} (h : Rg k m x) : NB k m x := Or.inr h

theorem neg_val (hx : x.isFinite) : (-x).isFinite ∧ (-x).toR = -x.toR := by
  cases x with
  | nan => exact hx.elim
  | inf => exact hx.elim
  | fin s m =>
    refine ⟨trivial, ?_⟩
    change signed (!s) m.1 = -signed s m.1
    cases s
    · rfl
    · exact (neg_neg _).symm

/-! ### Coefficients -/

/-- One or minus one. -/
def Unit' (x : FP E) : Prop := x.isFinite ∧ (x.toR = 1 ∨ x.toR = -1)

theorem Unit'.of_round {s : Bool} {v : ℝ} (h : v = 1 ∨ v = -1) : Unit' (E := E) (E.round s v) := by
  have hr : SRep v := by
    rcases h with rfl | rfl
    · exact SRep.one
    · exact SRep.one.neg
  have hf := E.round_finite s hr
  refine ⟨hf, ?_⟩
  have h1 := E.round_rep s hr
  rw [hf.toE_eq] at h1
  have h2 : FP.toR (E := E) (E.round s v) = v := by exact_mod_cast h1
  rwa [h2]

theorem Unit'.one : Unit' (1.0 : FP E) := by
  have h := (one_in (E := E)).toR
  exact ⟨one_in.finite, Or.inl (le_antisymm h.2 h.1)⟩

theorem Unit'.neg (h : Unit' x) : Unit' (-x) := by
  obtain ⟨h1, h2⟩ := h
  obtain ⟨h3, h4⟩ := neg_val h1
  refine ⟨h3, ?_⟩
  rw [h4]
  rcases h2 with h2 | h2 <;> rw [h2] <;> norm_num

theorem Unit'.div (h : Unit' x) (h' : Unit' y) : Unit' (x / y) := by
  obtain ⟨h1, h2⟩ := h
  obtain ⟨h3, h4⟩ := h'
  obtain ⟨s, hs⟩ := div_fin h1 h3 (by rcases h4 with h4 | h4 <;> rw [h4] <;> norm_num)
  rw [hs]
  refine Unit'.of_round ?_
  rcases h2 with h2 | h2 <;> rcases h4 with h4 | h4 <;> rw [h2, h4] <;> norm_num

theorem Unit'.recip (h : Unit' x) : Unit' (Flt.recip x) := by
  rw [recip_eq]; exact Unit'.one.div h

theorem Unit'.sq (L : E.Lib) (h : Unit' x) : In (E := E) ((1 : ℝ) : EReal) ((1 : ℝ) : EReal)
    (Flt.powi x 2) := by
  rw [powi_two' L]
  obtain ⟨h1, h2⟩ := h
  obtain ⟨s, hs⟩ := mul_fin h1 h1
  rw [hs]
  have : x.toR * x.toR = 1 := by rcases h2 with h2 | h2 <;> rw [h2] <;> norm_num
  exact In.of_round s SRep.one SRep.one this.ge this.le

theorem Unit'.ne_zero (h : Unit' x) : (x ==? 0.0) = false := by
  rw [Bool.eq_false_iff]
  intro h1
  obtain ⟨h2, h3⟩ := feq_zero_iff.1 h1
  obtain ⟨h4, h5⟩ := h
  have h6 : (x.toR : EReal) = 0 := h4.toE_eq.symm.trans h3
  have h7 : x.toR = 0 := by exact_mod_cast h6
  rcases h5 with h5 | h5 <;> rw [h7] at h5 <;> norm_num at h5

/-- The square of a coefficient over a value. -/
theorem NB.inv (L : E.Lib) {k m : ℕ} {c : FP E} (hc : Unit' c) (h : NB k m x) (hk : k ≤ 900)
    (hm : m ≤ 900) : NB m k (Flt.powi c 2 / x) := by
  refine h.imp div_nan fun h => ?_
  refine div_in (hc.sq L) h zero_le_one (by positivity) (SRep.inv_two_pow _ (by omega))
    (SRep.two_pow _ (by omega)) le_rfl ?_
  rw [one_div_one_div]

end FP

namespace TrueSkill
namespace OneOnOne

/-! ### The truncation -/

theorem erfc_zero (a b : FP E) (ha : a.isFinite) (hb : b.isFinite) (ha0 : a.toR = 0)
    (hb0 : b.toR = 0) : erfc a = erfc b := by
  have h1 : Flt.abs a = Flt.abs b := by
    change FPVal.abs a = FPVal.abs b
    cases a with
    | nan => exact ha.elim
    | inf => exact ha.elim
    | fin s m =>
      cases b with
      | nan => exact hb.elim
      | inf => exact hb.elim
      | fin t n =>
        have e1 : m.1 = 0 := (fin_zero_iff s m).2 ha0
        have e2 : n.1 = 0 := (fin_zero_iff t n).2 hb0
        have e : m = n := Subtype.ext (e1.trans e2.symm)
        rw [e]; rfl
  have h2 : ∀ c : FP E, c.isFinite → c.toR = 0 → (c <? 0.0) = false := by
    intro c hc hc0
    rw [Bool.eq_false_iff]
    intro h
    obtain ⟨-, -, h⟩ := lt_iff.1 h
    have h0 := (zero_in (E := E)).2.2
    have h3 := lt_of_lt_of_le h h0
    have h4 : c.toE = ((0 : ℝ) : EReal) := hc.toE_eq.trans (congrArg _ hc0)
    rw [h4] at h3
    exact lt_irrefl _ h3
  simp only [erfc, h1, h2 a ha ha0, h2 b hb hb0]

theorem cdf_zero (a b : FP E) (ha : a.isFinite) (hb : b.isFinite) (ha0 : a.toR = 0)
    (hb0 : b.toR = 0) : cdf a 0.0 1.0 = cdf b 0.0 1.0 := by
  have hs : In (E := E) ((1 : ℝ) : EReal) ((2 : ℝ) : EReal) ((1.0 : FP E) * Flt.sqrt2) := by
    refine mul_in one_in (c := 1) (d := 2) ?_ zero_le_one zero_le_one SRep.one
      (SRep.ofNat 2 (by norm_num)) (by norm_num) (by norm_num)
    refine In.of_round false SRep.one (SRep.ofNat 2 (by norm_num)) ?_ ?_
    · rw [Real.le_sqrt' one_pos]; norm_num
    · rw [Real.sqrt_le_left (by norm_num)]; norm_num
  have key : ∀ x : FP E, x.isFinite → x.toR = 0 →
      (-(x - 0.0) / ((1.0 : FP E) * Flt.sqrt2)).isFinite ∧
      (-(x - 0.0) / ((1.0 : FP E) * Flt.sqrt2)).toR = 0 := by
    intro x hx hx0
    have hz := (zero_in (E := E)).toR
    obtain ⟨h1, h2⟩ := sub_zero_val hx zero_in.finite (le_antisymm hz.2 hz.1)
    obtain ⟨h3, h4⟩ := neg_val h1
    obtain ⟨s, hs'⟩ := div_fin h3 hs.finite (by have := hs.toR; linarith)
    rw [hs', h4, h2, hx0, neg_zero, zero_div]
    rcases zn_of_round (E := E) (s := s) (v := 0) rfl with h | h
    · exact absurd h (E.round_not_nan _ _)
    · exact h
  obtain ⟨h1, h2⟩ := key a ha ha0
  obtain ⟨h3, h4⟩ := key b hb hb0
  simp only [cdf, erfc_zero _ _ h1 h3 h2 h4]

/-- With a margin that is zero or NaN the result is one or NaN. -/
theorem wDraw_zn {d m c : FP E} (hm : ZN m) : (wDraw d m c).isNaN ∨ wDraw d m c = (1.0 : FP E) := by
  have hq : ZN (m / c) := zn_div hm
  simp only [wDraw]
  generalize m / c = q at hq
  generalize vDraw d m c = v
  generalize d / c = e
  split
  · exact Or.inr rfl
  rename_i hn
  left
  by_cases hbad : (q - Flt.abs e).isNaN
  · exact mulAdd_nan' (nan_div (nan_mulAdd hbad))
  refine mulAdd_nan' (div_nan ?_)
  have hcdf : cdf (q - Flt.abs e) 0.0 1.0 = cdf (-q - Flt.abs e) 0.0 1.0 := by
    rcases hq with hq | ⟨hq, hq0⟩
    · exact absurd (nan_sub hq) hbad
    obtain ⟨hn1, hn2⟩ := neg_val hq
    by_cases he : (Flt.abs e).isFinite
    · obtain ⟨s, hs⟩ := sub_fin hq he
      obtain ⟨t, ht⟩ := sub_fin hn1 he
      rw [hn2, hq0, neg_zero, zero_sub] at ht
      rw [hq0, zero_sub] at hs
      by_cases he0 : (Flt.abs e).toR = 0
      · rw [he0, neg_zero] at hs ht
        have h0 : ∀ u : Bool, FP.isFinite (E := E) (E.round u 0) ∧
            FP.toR (E := E) (E.round u 0) = 0 := by
          intro u
          rcases zn_of_round (E := E) (s := u) (v := 0) rfl with h | h
          · exact absurd h (E.round_not_nan _ _)
          · exact h
        rw [hs, ht]
        exact cdf_zero _ _ (h0 s).1 (h0 t).1 (h0 s).2 (h0 t).2
      · have : q - Flt.abs e = -q - Flt.abs e := by
          rw [hs, ht]
          simp only [FloatEnv.round, neg_eq_zero, he0, if_false]
          rfl
        rw [this]
    · have : q - Flt.abs e = -q - Flt.abs e := by
        generalize Flt.abs e = f at he hbad
        change E.add q (FPVal.neg f) = E.add (FPVal.neg q) (FPVal.neg f)
        cases q with
        | nan => exact hq.elim
        | inf => exact hq.elim
        | fin s m =>
          cases f with
          | nan => rfl
          | fin => exact absurd trivial he
          | inf => rfl
      rw [this]
  rw [hcdf] at hn ⊢
  generalize cdf (-q - Flt.abs e) 0.0 1.0 = u at hn
  by_contra hnan
  refine hn ?_
  have hz : (u - u).isFinite ∧ (u - u).toR = 0 := by
    have hu : u.isFinite := by
      cases u with
      | nan => exact absurd (nan_sub (x := (nan : FP E)) trivial) hnan
      | fin => trivial
      | inf s =>
        refine absurd ?_ hnan
        change (E.add (inf s) (inf !s)).isNaN
        cases s <;> simp [FloatEnv.add, FPVal.isNaN]
    obtain ⟨s, hs⟩ := sub_fin hu hu
    rw [hs, sub_self]
    rcases zn_of_round (E := E) (s := s) (v := 0) rfl with h | h
    · exact absurd h (E.round_not_nan _ _)
    · exact h
  refine lt_iff.2 ⟨hnan, ?_, ?_⟩
  · rw [lit]; exact E.round_not_nan _ _
  · have h4 : (u - u).toE = ((0 : ℝ) : EReal) := hz.1.toE_eq.trans (congrArg _ hz.2)
    rw [h4, lit]
    refine lt_of_lt_of_le ?_ (E.round_ge false (SRep.inv_two_pow 1000 (by norm_num)) ?_)
    · have : (0 : ℝ) < 1 / 2 ^ 1000 := by positivity
      exact_mod_cast this
    · have h1 : (2 : ℝ) ^ 1000 = (2 ^ 100) ^ 10 := by rw [← pow_mul]
      rw [h1, one_div, inv_le_comm₀ (by positivity) (by norm_num)]
      norm_num

/-- The difference after a truncation with a margin that is zero or NaN. -/
theorem truncate_nonfin (T : TruncateFactor (FP E)) (hw : T.wFunc = wDraw) (hm : ZN T.drawMargin)
    (s : Store (FP E)) :
    ¬ ((T.up s).1 T.var).gaussian.pi.isFinite ∧ ¬ ((T.up s).1 T.var).gaussian.tau.isFinite := by
  have hread : ((T.up s).1 T.var).gaussian =
      { pi := ((s T.var).gaussian / (s T.var).messages T.id).pi / (1.0 - T.wFunc
          ((s T.var).gaussian / (s T.var).messages T.id).tau
          (T.drawMargin * ((s T.var).gaussian / (s T.var).messages T.id).pi)
          (Flt.sqrt ((s T.var).gaussian / (s T.var).messages T.id).pi))
        tau := Flt.mulAdd (Flt.sqrt ((s T.var).gaussian / (s T.var).messages T.id).pi) (T.vFunc
          ((s T.var).gaussian / (s T.var).messages T.id).tau
          (T.drawMargin * ((s T.var).gaussian / (s T.var).messages T.id).pi)
          (Flt.sqrt ((s T.var).gaussian / (s T.var).messages T.id).pi))
          ((s T.var).gaussian / (s T.var).messages T.id).tau / (1.0 - T.wFunc
          ((s T.var).gaussian / (s T.var).messages T.id).tau
          (T.drawMargin * ((s T.var).gaussian / (s T.var).messages T.id).pi)
          (Flt.sqrt ((s T.var).gaussian / (s T.var).messages T.id).pi)) } := by
    simp [TruncateFactor.up, Store.write, Variable.updateValue, Variable.set]
  rw [hread, hw]
  have hz : ZN ((1.0 : FP E) - wDraw ((s T.var).gaussian / (s T.var).messages T.id).tau
      (T.drawMargin * ((s T.var).gaussian / (s T.var).messages T.id).pi)
      (Flt.sqrt ((s T.var).gaussian / (s T.var).messages T.id).pi)) := by
    rcases wDraw_zn (d := ((s T.var).gaussian / (s T.var).messages T.id).tau)
      (c := Flt.sqrt ((s T.var).gaussian / (s T.var).messages T.id).pi)
      (zn_mul (y := ((s T.var).gaussian / (s T.var).messages T.id).pi) hm) with h | h
    · exact Or.inl (sub_nan h)
    · rw [h]
      obtain ⟨t, ht⟩ := sub_fin (one_in (E := E)).finite (one_in (E := E)).finite
      rw [ht]
      exact zn_of_round (sub_self _)
  exact ⟨div_zn hz, div_zn hz⟩

/-! ### The way there and back -/

theorem mu_nan {g : Gaussian (FP E)} (h : g.tau.isNaN) (h0 : (g.pi ==? 0.0) = false) :
    g.mu.isNaN := by
  simp only [Gaussian.mu, h0, Bool.false_eq_true, if_false]
  exact nan_div h

theorem mu_nonfin {g : Gaussian (FP E)} (h : ¬ g.tau.isFinite) (h0 : ¬ g.pi.isFinite) :
    g.mu.isNaN := by
  simp only [Gaussian.mu, nonfin_ne_zero h0, Bool.false_eq_true, if_false]
  exact nonfin_div_nonfin h h0

theorem accumulate_one {g : Gaussian (FP E)} {c : FP E} (h : (g.pi ==? 0.0) = false) :
    SumFactor.accumulate [(g, c)] = (0.0 + Flt.powi c 2 / g.pi, 0.0 + c * g.mu) := by
  have h0 : Flt.isInfinite (0.0 : FP E) = false := zn_not_infinite zero_zn
  simp only [SumFactor.accumulate, List.foldl, h0, h, Bool.false_eq_true, if_false]

theorem accumulate_two {g g' : Gaussian (FP E)} {c c' : FP E} (h : (g.pi ==? 0.0) = false)
    (h' : (g'.pi ==? 0.0) = false) (h1 : Flt.isInfinite (0.0 + Flt.powi c 2 / g.pi) = false) :
    SumFactor.accumulate [(g, c), (g', c')] = (0.0 + Flt.powi c 2 / g.pi + Flt.powi c' 2 / g'.pi,
      0.0 + c * g.mu + c' * g'.mu) := by
  have h0 : Flt.isInfinite (0.0 : FP E) = false := zn_not_infinite zero_zn
  simp only [SumFactor.accumulate, List.foldl, h0, h, h', h1, Bool.false_eq_true, if_false]

/-- The message of one value. -/
theorem tmsg_one_pi (L : E.Lib) {k m : ℕ} {g : Gaussian (FP E)} {c : FP E} (hc : Unit' c)
    (h : NB k m g.pi) (hk : k ≤ 900) (hm : m ≤ 900) : NB k m (tmsg [(g, c)]).pi := by
  simp only [tmsg, accumulate_one h.ne_zero]
  exact ((h.inv L hc hk hm).zn_add zero_zn hm hk).recip hm hk

theorem tmsg_one_tau {g : Gaussian (FP E)} {c : FP E} (h0 : (g.pi ==? 0.0) = false)
    (h : g.tau.isNaN) : (tmsg [(g, c)]).tau.isNaN := by
  simp only [tmsg, accumulate_one h0]
  exact mul_nan (add_nan (mul_nan (mu_nan h h0)))

/-- The message of an infinite (or NaN) value and a bounded one. -/
theorem tmsg_two (L : E.Lib) {k m : ℕ} {g g' : Gaussian (FP E)} {c c' : FP E} (hc : Unit' c)
    (hc' : Unit' c') (h1 : ¬ g.pi.isFinite) (h2 : ¬ g.tau.isFinite) (h : NB k m g'.pi)
    (hk : k ≤ 900) (hm : m ≤ 900) :
    NB k m (tmsg [(g, c), (g', c')]).pi ∧ (tmsg [(g, c), (g', c')]).tau.isNaN := by
  have hz : ZN (Flt.powi c 2 / g.pi) := fin_div_nonfin (hc.sq L).finite h1
  have hz' : ZN (0.0 + Flt.powi c 2 / g.pi) := by
    rcases hz with hz | ⟨hz, hz0⟩
    · exact Or.inl (add_nan hz)
    · have h0 := (zero_in (E := E)).toR
      obtain ⟨a, b⟩ := zero_add_val zero_in.finite hz (le_antisymm h0.2 h0.1)
      exact Or.inr ⟨a, b.trans hz0⟩
  simp only [tmsg, accumulate_two (nonfin_ne_zero h1) h.ne_zero (zn_not_infinite hz')]
  exact ⟨((h.inv L hc' hk hm).zn_add hz' hm hk).recip hm hk,
    mul_nan (nan_add (add_nan (mul_nan (mu_nonfin h2 h1))))⟩

/-- The same in the other order. -/
theorem tmsg_two' (L : E.Lib) {k m : ℕ} {g g' : Gaussian (FP E)} {c c' : FP E} (hc : Unit' c)
    (hc' : Unit' c') (h1 : ¬ g'.pi.isFinite) (h2 : ¬ g'.tau.isFinite) (h : NB k m g.pi)
    (hk : k ≤ 900) (hm : m ≤ 900) :
    NB k m (tmsg [(g, c), (g', c')]).pi ∧ (tmsg [(g, c), (g', c')]).tau.isNaN := by
  have hz : ZN (Flt.powi c' 2 / g'.pi) := fin_div_nonfin (hc'.sq L).finite h1
  have hn := (h.inv L hc hk hm).zn_add zero_zn hm hk
  simp only [tmsg, accumulate_two h.ne_zero (nonfin_ne_zero h1) hn.not_infinite]
  exact ⟨(hn.add_zn hz hm hk).recip hm hk,
    mul_nan (add_nan (mul_nan (mu_nonfin h2 h1)))⟩

/-- The message of a performance factor without spread. -/
theorem lmsg_rg (L : E.Lib) {k m : ℕ} {β : FP E} {g : Gaussian (FP E)} (hβ : β.isFinite)
    (hβ0 : β.toR = 0) (h : Rg k m g.pi) (hk : k ≤ 900) (hm : m ≤ 900) :
    Rg k m (lmsg β g).pi := by
  have h1 : In (E := E) ((1 : ℝ) : EReal) ((1 : ℝ) : EReal)
      (Flt.mulAdd (Flt.powi β 2) g.pi (1.0 : FP E)) := by
    rw [powi_two' L]
    obtain ⟨s, hs⟩ := mul_fin hβ hβ
    rw [hβ0, mul_zero] at hs
    have hz : (β * β).isFinite ∧ (β * β).toR = 0 := by
      rw [hs]
      rcases zn_of_round (E := E) (s := s) (v := 0) rfl with h | h
      · exact absurd h (E.round_not_nan _ _)
      · exact h
    obtain ⟨t, ht⟩ := mulAdd_fin hz.1 h.finite (one_in (E := E)).finite
    have ho := (one_in (E := E)).toR
    rw [ht, hz.2, zero_mul, zero_add, le_antisymm ho.2 ho.1]
    exact In.of_round t SRep.one SRep.one le_rfl le_rfl
  have h2 := recip_bounds h1 one_pos SRep.one SRep.one (by norm_num) (by norm_num)
  exact mul_in h2 h zero_le_one (by positivity) (SRep.inv_two_pow _ (by omega))
    (SRep.two_pow _ (by omega)) (by rw [one_mul]) (by rw [one_mul])

theorem lmsg_pi (L : E.Lib) {k m : ℕ} {β : FP E} {g : Gaussian (FP E)} (hβ : β.isFinite)
    (hβ0 : β.toR = 0) (h : NB k m g.pi) (hk : k ≤ 900) (hm : m ≤ 900) :
    NB k m (lmsg β g).pi := by
  rcases h with h | h
  · exact Or.inl (mul_nan h)
  · exact Or.inr (lmsg_rg L hβ hβ0 h hk hm)

theorem lmsg_tau {β : FP E} {g : Gaussian (FP E)} (h : g.tau.isNaN) : (lmsg β g).tau.isNaN :=
  mul_nan h

theorem default_pi : (Gaussian.default : Gaussian (FP E)).pi = (0.0 : FP E) := rfl

theorem zero_toR : (0.0 : FP E).toR = 0 := by
  have h := (zero_in (E := E)).toR
  exact le_antisymm h.2 h.1

/-- A fresh variable with one message. -/
theorem fresh {k m id : ℕ} {M : Gaussian (FP E)} (h : Rg k m M.pi) (hk : k ≤ 900) (hm : m ≤ 900) :
    (((Variable.new).updateMessage id M).1.gaussian.pi).isFinite ∧
    (((Variable.new).updateMessage id M).1.gaussian.pi).toR = M.pi.toR ∧
    Rg k m ((Variable.new).updateMessage id M).1.gaussian.pi := by
  have e : ((Variable.new).updateMessage id M).1.gaussian.pi = (0.0 : FP E) - 0.0 + M.pi := rfl
  rw [e]
  obtain ⟨h1, h2⟩ := sub_zero_val (E := E) zero_in.finite zero_in.finite zero_toR
  rw [zero_toR] at h2
  obtain ⟨h3, h4⟩ := zero_add_val h1 h.finite h2
  refine ⟨h3, h4, ?_⟩
  rcases h.nb.zn_add (Or.inr ⟨h1, h2⟩) hk hm with h5 | h5
  · exact absurd h5 h3.not_nan
  · exact h5

/-- Subtracting a zero. -/
theorem rg_sub_zero {k m : ℕ} {x : FP E} (h : Rg k m x) :
    (x - (0.0 : FP E)).isFinite ∧ (x - (0.0 : FP E)).toR = x.toR ∧ Rg k m (x - (0.0 : FP E)) := by
  obtain ⟨h1, h2⟩ := sub_zero_val h.finite zero_in.finite zero_toR
  refine ⟨h1, h2, h1.not_nan, ?_, ?_⟩
  · have h3 := h.toR.1
    rw [← h2] at h3
    exact le_of_le_of_eq (EReal.coe_le_coe_iff.2 h3) h1.toE_eq.symm
  · have h3 := h.toR.2
    rw [← h2] at h3
    exact le_of_eq_of_le h1.toE_eq (EReal.coe_le_coe_iff.2 h3)

/-- The sum of bounded values. -/
theorem nb_add {k m k' : ℕ} {w x : FP E} (hkm : k + m ≤ 50) (hw : Rg k' m w) (hx : NB k m x) :
    NB (k + 1) (m + 1) (w + x) := by
  rcases hx with hx | hx
  · exact Or.inl (add_nan hx)
  right
  have hw1 := hw.toR
  have hx1 := hx.toR
  have hk0 : (0 : ℝ) < 1 / 2 ^ k' := by positivity
  obtain ⟨s, hs⟩ := add_fin hw.finite hx.finite
  have h := round_sum_gap (E := E) (s := s) hkm (by linarith) hw1.2 hx1.1 hx1.2
  rw [← hs] at h
  exact h.mono (by linarith) le_rfl

/-- The way to a player: NaN arrives. -/
theorem finish_nan (L : E.Lib) {k m k' i : ℕ} {β : FP E} {t : Variable (FP E)}
    {M : Gaussian (FP E)} {g : Gaussian (FP E)} (hβ : β.isFinite)
    (hβ0 : β.toR = 0) (hkm : k + m ≤ 40)
    (h1 : NB k m (t.gaussian / t.messages (4 + i)).pi)
    (h2 : (t.gaussian / t.messages (4 + i)).tau.isNaN)
    (hM : Rg k' m M.pi) (hk' : k' ≤ 900) (hg : Rg k' m g.pi) :
    (finish β i t ((Variable.new).updateMessage (2 + i) M).1 (ratingVar i g)).gaussian.mu.isNaN := by
  have c1 : Unit' (Flt.recip (1.0 : FP E)) := Unit'.one.recip
  have a1 := tmsg_one_pi L c1 h1 (by omega) (by omega)
  have a2 : (tmsg [(t.gaussian / t.messages (4 + i), Flt.recip (1.0 : FP E))]).tau.isNaN :=
    tmsg_one_tau h1.ne_zero h2
  obtain ⟨f1, f2, f3⟩ := fresh (id := 2 + i) hM hk' (by omega)
  obtain ⟨r1, r2, r3⟩ := rg_sub_zero f3
  obtain ⟨q1, q2, q3⟩ := rg_sub_zero hg
  have b1 := NB.absorb (by omega) hM a1 r1 (r2.trans f2)
  have b2 := lmsg_pi L (g := ⟨_, (((Variable.new).updateMessage (2 + i) M).1.gaussian.tau - (0.0 : FP E)
    + (tmsg [(t.gaussian / t.messages (4 + i), Flt.recip (1.0 : FP E))]).tau - M.tau)⟩) hβ hβ0 b1
      (by omega) (by omega)
  have q4 : Rg k' (m + 1) (g.pi - (0.0 : FP E)) :=
    q3.mono le_rfl (pow_le_pow_right₀ (by norm_num) (by omega))
  have b3 := nb_add (by omega) q4 b2
  have e : (finish β i t ((Variable.new).updateMessage (2 + i) M).1 (ratingVar i g)).gaussian =
      g / Gaussian.default * lmsg β ⟨((Variable.new).updateMessage (2 + i) M).1.gaussian.pi -
          (0.0 : FP E)
        + (tmsg [(t.gaussian / t.messages (4 + i), Flt.recip (1.0 : FP E))]).pi - M.pi,
        ((Variable.new).updateMessage (2 + i) M).1.gaussian.tau - (0.0 : FP E)
        + (tmsg [(t.gaussian / t.messages (4 + i), Flt.recip (1.0 : FP E))]).tau - M.tau⟩ := by
    have n1 : (2 + i = 4 + i) = False := eq_false (by omega)
    have n2 : (2 + i = i) = False := eq_false (by omega)
    have n3 : (4 + i = 2 + i) = False := eq_false (by omega)
    simp only [finish, ratingVar, Variable.updateMessage, Variable.updateValue, Variable.set,
      Variable.new, n1, n2, n3, if_true, if_false]
    rfl
  rw [e]
  refine mu_nan ?_ b3.ne_zero
  exact add_nan (lmsg_tau (nan_sub (add_nan a2)))

/-- The message of one bounded value. -/
theorem tmsg_one_rg (L : E.Lib) {k m : ℕ} {g : Gaussian (FP E)} {c : FP E} (hc : Unit' c)
    (h : Rg k m g.pi) (hk : k ≤ 900) (hm : m ≤ 900) : Rg k m (tmsg [(g, c)]).pi := by
  rcases tmsg_one_pi L hc h.nb hk hm with h1 | h1
  · exfalso
    simp only [tmsg, accumulate_one h.nb.ne_zero] at h1
    have e1 : Rg m k (Flt.powi c 2 / g.pi) := by
      refine div_in (hc.sq L) h zero_le_one (by positivity) (SRep.inv_two_pow _ (by omega))
        (SRep.two_pow _ (by omega)) le_rfl ?_
      rw [one_div_one_div]
    obtain ⟨e2, e3⟩ := zero_add_val (x := (0.0 : FP E)) zero_in.finite e1.finite zero_toR
    have e4 : Rg m k ((0.0 : FP E) + Flt.powi c 2 / g.pi) := by
      rcases e1.nb.zn_add zero_zn hm hk with h5 | h5
      · exact absurd h5 e2.not_nan
      · exact h5
    have e5 := recip_bounds e4 (by positivity) (SRep.inv_two_pow k (by omega))
      (SRep.two_pow m (by omega)) le_rfl (by rw [one_div_one_div])
    exact e5.1 h1
  · exact h1

/-- A team after a message of the difference. -/
theorem team_up {k m k' i : ℕ} {tm X : Gaussian (FP E)} (hi : 4 + i ≠ 6) (hkm : k + m ≤ 50)
    (hkm' : k' + m ≤ 50) (hk' : k' ≤ 900) (htm : Rg k' m tm.pi) (hX : NB k m X.pi)
    (hX' : X.tau.isNaN) (t : Variable (FP E))
    (ht : t = ((((Variable.new).updateMessage (4 + i) tm).1).updateMessage 6 X).1) :
    (NB (k + 1) (m + 1) (t.gaussian / t.messages (4 + i)).pi ∧
      (t.gaussian / t.messages (4 + i)).tau.isNaN) ∧
    (NB (k' + 1) (m + 1) (t.gaussian / t.messages 6).pi ∧
      (t.gaussian / t.messages 6).tau.isNaN) := by
  obtain ⟨f1, f2, f3⟩ := fresh (id := 4 + i) htm hk' (by omega)
  obtain ⟨r1, r2, r3⟩ := rg_sub_zero f3
  have b1 := NB.absorb hkm htm hX r1 (r2.trans f2)
  have b2 := NB.absorb' hkm' r3 hX
  have n1 : (4 + i = 6) = False := eq_false hi
  have n2 : (6 = 4 + i) = False := eq_false hi.symm
  have e1 : t.gaussian / t.messages (4 + i) = ⟨((Variable.new).updateMessage (4 + i) tm).1.gaussian.pi
      - (0.0 : FP E) + X.pi - tm.pi, ((Variable.new).updateMessage (4 + i) tm).1.gaussian.tau
      - (0.0 : FP E) + X.tau - tm.tau⟩ := by
    rw [ht]
    simp only [Variable.updateMessage, Variable.set, Variable.new, n1, n2, if_true, if_false]
    rfl
  have e2 : t.gaussian / t.messages 6 = ⟨((Variable.new).updateMessage (4 + i) tm).1.gaussian.pi
      - (0.0 : FP E) + X.pi - X.pi, ((Variable.new).updateMessage (4 + i) tm).1.gaussian.tau
      - (0.0 : FP E) + X.tau - X.tau⟩ := by
    rw [ht]
    simp only [Variable.updateMessage, Variable.set, Variable.new, n1, n2, if_true, if_false]
    rfl
  rw [e1, e2]
  exact ⟨⟨b1, nan_sub (add_nan hX')⟩, b2, nan_sub (add_nan hX')⟩

/-- The other message of a team is the default. -/
theorem team_other {i : ℕ} {tm : Gaussian (FP E)} (hi : 4 + i ≠ 6) :
    (((Variable.new).updateMessage (4 + i) tm).1.messages 6).pi = (0.0 : FP E) := by
  have n2 : (6 = 4 + i) = False := eq_false hi.symm
  simp only [Variable.updateMessage, Variable.set, Variable.new, n2, if_false]
  rfl

/-- The message between performance and team. -/
noncomputable def tm0 (β : FP E) (i : ℕ) (g : Gaussian (FP E)) : Gaussian (FP E) :=
  tmsg [((perfVar β i g).gaussian / Gaussian.default, (1.0 : FP E))]

theorem tm0_rg (L : E.Lib) {k m i : ℕ} {β : FP E} {g : Gaussian (FP E)} (hβ : β.isFinite)
    (hβ0 : β.toR = 0) (h : Rg k m g.pi) (hk : k ≤ 900) (hm : m ≤ 900) :
    Rg k m (lmsg β (g / Gaussian.default)).pi ∧ Rg k m (tm0 β i g).pi := by
  have h1 : Rg k m (g / Gaussian.default).pi := (rg_sub_zero h).2.2
  have h2 := lmsg_rg L hβ hβ0 h1 hk hm
  refine ⟨h2, tmsg_one_rg L Unit'.one ?_ hk hm⟩
  exact (rg_sub_zero (fresh (id := 2 + i) h2 hk hm).2.2).2.2

/-- Ratings after the iteration when the difference is infinite or NaN. -/
theorem rating_nan (L : E.Lib) {β : FP E} {ga gb : Gaussian (FP E)} {s : Store (FP E)}
    (hβ : β.isFinite) (hβ0 : β.toR = 0) (hga : Rg 22 4 ga.pi) (hgb : Rg 22 4 gb.pi)
    (h1 : ∀ k, k ≠ .teamDiff 0 → s k = s3 ga gb β 1.0 1.0 k)
    (h2 : ¬ (s (.teamDiff 0)).gaussian.pi.isFinite)
    (h3 : ¬ (s (.teamDiff 0)).gaussian.tau.isFinite) :
    (readRating (s7 β 1.0 1.0 s) 0).rating.isNaN ∧ (readRating (s7 β 1.0 1.0 s) 1).rating.isNaN := by
  obtain ⟨e0, e1⟩ := s7_rating β s Unit'.one.ne_zero Unit'.one.neg.ne_zero
  obtain ⟨ha1, ha2⟩ := tm0_rg (i := 0) L hβ hβ0 hga (by norm_num) (by norm_num)
  obtain ⟨hb1, hb2⟩ := tm0_rg (i := 1) L hβ hβ0 hgb (by norm_num) (by norm_num)
  have d1 : ¬ ((s (.teamDiff 0)).gaussian / (s (.teamDiff 0)).messages 6).pi.isFinite :=
    nonfin_sub h2
  have d2 : ¬ ((s (.teamDiff 0)).gaussian / (s (.teamDiff 0)).messages 6).tau.isFinite :=
    nonfin_sub h3
  have u1 : Unit' (Flt.recip (1.0 : FP E)) := Unit'.one.recip
  have u2 : Unit' (-(-1.0) / (1.0 : FP E)) := Unit'.one.neg.neg.div Unit'.one
  have u3 : Unit' (-1.0 / (-1.0 : FP E)) := Unit'.one.neg.div Unit'.one.neg
  have u4 : Unit' (Flt.recip (-1.0 : FP E)) := Unit'.one.neg.recip
  have t0 : s (.teamPerf 0) = ((Variable.new).updateMessage (4 + 0) (tm0 β 0 ga)).1 :=
    (h1 _ (by simp)).trans (s3_team0 ga gb β 1.0 1.0)
  have t1 : s (.teamPerf 1) = ((Variable.new).updateMessage (4 + 1) (tm0 β 1 gb)).1 :=
    (h1 _ (by simp)).trans (s3_team1 ga gb β 1.0 1.0)
  have k1 : Rg 22 4 ((s (.teamPerf 1)).gaussian / (s (.teamPerf 1)).messages 6).pi := by
    rw [t1]
    change Rg 22 4 (_ - _)
    rw [team_other (by norm_num)]
    exact (rg_sub_zero (fresh (id := 4 + 1) hb2 (by norm_num) (by norm_num)).2.2).2.2
  obtain ⟨b1, b2⟩ := tmsg_two L u1 u2 d1 d2 k1.nb (by norm_num) (by norm_num)
  obtain ⟨⟨v1, v2⟩, v3, v4⟩ := team_up (i := 0) (by norm_num) (by norm_num) (by norm_num)
    (by norm_num) ha2 (X := back0 s) b1 b2 (team0 s) (by rw [team0, t0])
  obtain ⟨c1, c2⟩ := tmsg_two' L u3 u4 d1 d2 v3 (by norm_num) (by norm_num)
  have hb3 : Rg 22 5 (tm0 β 1 gb).pi := hb2.mono le_rfl (by norm_num)
  obtain ⟨⟨w1, w2⟩, -⟩ := team_up (i := 1) (by norm_num) (by norm_num) (by norm_num)
    (by norm_num) hb3 (X := back1 s) c1 c2 (team1 s) (by rw [team1, t1])
  constructor
  · change (s7 β 1.0 1.0 s (.rating 0)).gaussian.mu.isNaN
    rw [e0, h1 (.perf 0) (by simp), h1 (.rating 0) (by simp), s3_perf0, s3_rating0]
    exact finish_nan L hβ hβ0 (by norm_num) v1 v2 (ha1.mono le_rfl (by norm_num)) (by norm_num)
      (hga.mono le_rfl (by norm_num))
  · change (s7 β 1.0 1.0 s (.rating 1)).gaussian.mu.isNaN
    rw [e1, h1 (.perf 1) (by simp), h1 (.rating 1) (by simp), s3_perf1, s3_rating1]
    exact finish_nan L hβ hβ0 (by norm_num) w1 w2 (hb1.mono le_rfl (by norm_num)) (by norm_num)
      (hgb.mono le_rfl (by norm_num))

/-- The prior of a player. -/
theorem prior_ok (L : E.Lib) {μ σ τ : FP E}
    (hσ : In (E := E) ((1 / 4 : ℝ) : EReal) ((2 ^ 10 : ℝ) : EReal) σ)
    (hτ : In (E := E) ((0 : ℝ) : EReal) ((2 ^ 10 : ℝ) : EReal) τ) :
    ∃ v g : Gaussian (FP E), Gaussian.withMuSigma μ σ = .ok v ∧
      Gaussian.withMuSigma v.mu (Flt.hypot v.sigma τ) = .ok g ∧ Rg 22 4 g.pi := by
  have ne : ∀ {a b : ℝ} {x : FP E}, 0 < a → In (E := E) (a : EReal) (b : EReal) x →
      (x ==? 0.0) = false := by
    intro a b x ha hx
    rw [Bool.eq_false_iff]
    intro h1
    obtain ⟨-, h3⟩ := feq_zero_iff.1 h1
    have h4 := hx.2.1
    rw [h3] at h4
    have : a ≤ 0 := by exact_mod_cast h4
    linarith
  have inv2 : ∀ {k m : ℕ} {x : FP E}, k ≤ 400 → m ≤ 400 → Rg k m x →
      Rg (2 * m) (2 * k) (Flt.powi x (-2)) := by
    intro k m x hk hm hx
    have e : Flt.powi x (-2) = Flt.recip (x * x) := L.powi_neg_two x
    rw [e]
    have h1 : Rg (2 * k) (2 * m) (x * x) := by
      refine mul_in hx hx (by positivity) (by positivity) (SRep.inv_two_pow _ (by omega))
        (SRep.two_pow _ (by omega)) (le_of_eq ?_) (le_of_eq ?_)
      · rw [two_mul, pow_add]; field_simp
      · rw [two_mul, pow_add]
    exact recip_bounds h1 (by positivity) (SRep.inv_two_pow _ (by omega)) (SRep.two_pow _ (by omega))
      le_rfl (by rw [one_div_one_div])
  have hσ' : Rg 2 10 σ := by
    have : (1 / 4 : ℝ) = 1 / 2 ^ 2 := by norm_num
    rw [this] at hσ; exact hσ
  have hv : Rg 20 4 (Flt.powi σ (-2)) := inv2 (by norm_num) (by norm_num) hσ'
  refine ⟨⟨Flt.powi σ (-2), Flt.powi σ (-2) * μ⟩, ?_⟩
  have hs : Rg 2 10 (Gaussian.sigma (⟨Flt.powi σ (-2), Flt.powi σ (-2) * μ⟩ : Gaussian (FP E))) := by
    simp only [Gaussian.sigma, hv.nb.ne_zero, Bool.false_eq_true, if_false]
    have h1 : Rg 4 20 (Flt.recip (Flt.powi σ (-2))) :=
      recip_bounds hv (by positivity) (SRep.inv_two_pow 4 (by norm_num))
        (SRep.two_pow 20 (by norm_num)) le_rfl (by rw [one_div_one_div])
    refine sqrt_in h1 (by positivity) (SRep.inv_two_pow 2 (by norm_num))
      (SRep.two_pow 10 (by norm_num)) ?_ ?_ ?_ <;> norm_num
  have hh : Rg 2 11 (Flt.hypot (Gaussian.sigma (⟨Flt.powi σ (-2), Flt.powi σ (-2) * μ⟩ :
      Gaussian (FP E))) τ) := by
    generalize Gaussian.sigma (⟨Flt.powi σ (-2), Flt.powi σ (-2) * μ⟩ : Gaussian (FP E)) = y at hs
    have hy := hs.toR
    have ht := hτ.toR
    refine ⟨L.hypot_nan y τ hs.1 hτ.1, ?_, ?_⟩
    · refine le_trans ?_ (L.hypot_left y τ hs.1 hτ.1)
      have hp : 0 < y.toR := lt_of_lt_of_le (by positivity) hy.1
      have hf := hs.finite
      have ha : FPVal.abs y = y := by
        cases y with
        | nan => exact hf.elim
        | inf => exact hf.elim
        | fin s m => rw [pos_sign hp]; rfl
      rw [ha]
      exact hs.2.1
    · refine L.hypot_le y τ _ hs.finite hτ.finite ?_ ?_
      · have := SRep.two_pow 11 (by norm_num)
        rwa [SRep, abs_of_pos (by positivity)] at this
      · change |y.toR| + |τ.toR| ≤ _
        rw [abs_of_nonneg (by linarith), abs_of_nonneg ht.1]
        norm_num at hy ht ⊢
        linarith
  have hg := inv2 (by norm_num) (by norm_num) hh
  refine ⟨⟨Flt.powi (Flt.hypot (Gaussian.sigma (⟨Flt.powi σ (-2), Flt.powi σ (-2) * μ⟩ :
      Gaussian (FP E))) τ) (-2), Flt.powi (Flt.hypot (Gaussian.sigma
      (⟨Flt.powi σ (-2), Flt.powi σ (-2) * μ⟩ : Gaussian (FP E))) τ) (-2) *
      Gaussian.mu (⟨Flt.powi σ (-2), Flt.powi σ (-2) * μ⟩ : Gaussian (FP E))⟩, ?_, ?_, hg⟩
  · simp only [Gaussian.withMuSigma, ne (by norm_num) hσ, Bool.false_eq_true, if_false]
  · simp only [Gaussian.withMuSigma, hh.nb.ne_zero, Bool.false_eq_true, if_false]

end OneOnOne
end TrueSkill
end Skillratings
