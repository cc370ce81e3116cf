import Verif.FP
import Verif.Tac
/-
Lemmas about the floating-point reading: rounding keeps representable bounds, and what the
operations do to bounds.
-/

namespace Skillratings

/-- Representable with a sign. -/
def SRep (x : ℝ) : Prop := Rep |x|

theorem Rep.nat {n : ℕ} (h : n < 2 ^ 53) : Rep n :=
  ⟨n, 0, h, by norm_num, by norm_num, by simp⟩

theorem SRep.nat {n : ℕ} (h : n < 2 ^ 53) : SRep n := by
  rw [SRep, abs_of_nonneg (by positivity)]; exact Rep.nat h

theorem SRep.ofNat (n : ℕ) [n.AtLeastTwo] (h : (OfNat.ofNat n : ℕ) < 2 ^ 53) :
    SRep (OfNat.ofNat n) := by
  have := SRep.nat h
  simpa using this

theorem SRep.zero : SRep 0 := by rw [SRep, abs_zero]; exact Rep.zero
theorem SRep.one : SRep 1 := by simpa using SRep.nat (n := 1) (by norm_num)

theorem SRep.neg {x : ℝ} (h : SRep x) : SRep (-x) := by rw [SRep, abs_neg]; exact h

theorem SRep.scale {n : ℕ} {k : ℤ} (h : n < 2 ^ 53) (h1 : -1074 ≤ k) (h2 : k ≤ 971) :
    SRep (n * 2 ^ k) := by
  rw [SRep, abs_of_nonneg (by positivity)]
  exact ⟨n, k, h, h1, h2, rfl⟩

theorem SRep.half : SRep (1 / 2) := by
  simpa using SRep.scale (n := 1) (k := -1) (by norm_num) (by norm_num) (by norm_num)

namespace FPVal

theorem signed_abs (s : Bool) (m : Mag) : |signed s m.1| = m.1 := by
  cases s <;> simp [signed, abs_of_nonneg m.2.nonneg]

theorem signed_srep (s : Bool) (m : Mag) : SRep (signed s m.1) := by
  rw [SRep, signed_abs]; exact m.2

theorem isFinite.srep {x : FPVal} (_ : x.isFinite) : SRep x.toR := by
  cases x with
  | nan => exact SRep.zero
  | inf => exact SRep.zero
  | fin s m => exact signed_srep s m

theorem isFinite.toE_eq {x : FPVal} (h : x.isFinite) : x.toE = (x.toR : EReal) := by
  cases x with
  | nan => exact h.elim
  | inf => exact h.elim
  | fin s m => rfl

theorem isFinite.not_nan {x : FPVal} (h : x.isFinite) : ¬ x.isNaN := by
  cases x <;> simp_all [isFinite, isNaN]

theorem isFinite_iff {x : FPVal} : x.isFinite ↔ ¬ x.isNaN ∧ x.toE ≠ ⊤ ∧ x.toE ≠ ⊥ := by
  cases x with
  | nan => simp [isFinite, isNaN]
  | inf s => cases s <;> simp [isFinite, isNaN, toE]
  | fin s m => simp [isFinite, isNaN, toE]

@[simp] theorem toE_neg (x : FPVal) : x.neg.toE = -x.toE := by
  cases x with
  | nan => simp [neg, toE]
  | inf s => cases s <;> simp [neg, toE]
  | fin s m => cases s <;> simp [neg, toE, signed]

@[simp] theorem toR_neg (x : FPVal) : x.neg.toR = -x.toR := by
  cases x with
  | nan => simp [neg, toR]
  | inf s => simp [neg, toR]
  | fin s m => cases s <;> simp [neg, toR, signed]

@[simp] theorem isNaN_neg (x : FPVal) : x.neg.isNaN ↔ x.isNaN := by
  cases x <;> simp [neg, isNaN]

@[simp] theorem isFinite_neg (x : FPVal) : x.neg.isFinite ↔ x.isFinite := by
  cases x <;> simp [neg, isFinite]

@[simp] theorem toE_abs (x : FPVal) : x.abs.toE = ((x.toE.abs : ENNReal) : EReal) := by
  cases x with
  | nan => simp [abs, toE]
  | inf s => cases s <;> simp [abs, toE]
  | fin s m =>
    simp only [abs, toE, EReal.abs_def, signed_abs]
    rw [EReal.coe_ennreal_ofReal, max_eq_left m.2.nonneg]
    simp [signed]

@[simp] theorem isNaN_abs (x : FPVal) : x.abs.isNaN ↔ x.isNaN := by
  cases x <;> simp [abs, isNaN]

theorem nan_iff {x : FPVal} : x.isNaN ↔ x = nan := by cases x <;> simp [isNaN]

end FPVal

open FPVal

namespace FloatEnv
variable (E : FloatEnv)

theorem ofMag_not_nan (s : Bool) (m : WithTop Mag) : ¬ (ofMag s m).isNaN := by
  cases m <;> simp [ofMag, isNaN]

theorem round_not_nan (s : Bool) (x : ℝ) : ¬ (E.round s x).isNaN := by
  rw [round]; split
  · simp [isNaN]
  · exact ofMag_not_nan _ _

theorem ofMag_le {w : WithTop Mag} {r : Mag} (h : w ≤ r) :
    (ofMag false w).toE ≤ (r.1 : EReal) := by
  cases w with
  | top => simp at h
  | coe m =>
    have : m.1 ≤ r.1 := show m ≤ r from WithTop.coe_le_coe.1 h
    change ((signed false m.1 : ℝ) : EReal) ≤ _
    simpa [signed] using this

theorem ofMag_ge {w : WithTop Mag} {r : Mag} (h : (r : WithTop Mag) ≤ w) :
    (r.1 : EReal) ≤ (ofMag false w).toE := by
  cases w with
  | top => change _ ≤ (inf false).toE; simp [toE]
  | coe m =>
    have : r.1 ≤ m.1 := show r ≤ m from WithTop.coe_le_coe.1 h
    change _ ≤ ((signed false m.1 : ℝ) : EReal)
    simpa [signed] using this

theorem toE_ofMag_true (w : WithTop Mag) : (ofMag true w).toE = -(ofMag false w).toE := by
  cases w with
  | top => change (inf true).toE = -(inf false).toE; simp [toE]
  | coe m =>
    change ((signed true m.1 : ℝ) : EReal) = -((signed false m.1 : ℝ) : EReal)
    simp [signed]

theorem ofMag_nonneg (w : WithTop Mag) : 0 ≤ (ofMag false w).toE := by
  cases w with
  | top => change _ ≤ (inf false).toE; simp [toE]
  | coe m =>
    change _ ≤ ((signed false m.1 : ℝ) : EReal)
    simpa [signed] using m.2.nonneg

theorem mag_le {x : ℝ} {r : Mag} (h : x ≤ r.1) : E.mag x ≤ r := by
  rw [← E.mag_rep r]; exact E.mag_mono h

theorem mag_ge {x : ℝ} {r : Mag} (h : r.1 ≤ x) : (r : WithTop Mag) ≤ E.mag x := by
  rw [← E.mag_rep r]; exact E.mag_mono h

/-- Rounding keeps representable upper bounds. -/
theorem round_le (s : Bool) {x r : ℝ} (hr : SRep r) (h : x ≤ r) :
    (E.round s x).toE ≤ (r : EReal) := by
  rw [round]
  split
  · rename_i h0
    subst h0
    cases s <;> simpa [toE, signed, Mag.zero] using h
  · by_cases hx : x < 0
    · rw [decide_eq_true hx, toE_ofMag_true]
      by_cases hr0 : r < 0
      · have : |r| ≤ |x| := by rw [abs_of_neg hr0, abs_of_neg hx]; linarith
        have h2 : ((|r| : ℝ) : EReal) ≤ _ := ofMag_ge (E.mag_ge (r := ⟨|r|, hr⟩) this)
        rw [abs_of_neg hr0] at h2
        have := EReal.neg_le_neg_iff.2 h2
        simpa using this
      · have h2 := ofMag_nonneg (E.mag |x|)
        have h3 : -(ofMag false (E.mag |x|)).toE ≤ 0 := by simpa using h2
        exact h3.trans (by exact_mod_cast not_lt.1 hr0)
    · rw [decide_eq_false hx]
      have hr0 : 0 ≤ r := by linarith
      have : |x| ≤ |r| := by rw [abs_of_nonneg hr0, abs_of_nonneg (not_lt.1 hx)]; exact h
      have h2 : _ ≤ ((|r| : ℝ) : EReal) := ofMag_le (E.mag_le (r := ⟨|r|, hr⟩) this)
      rwa [abs_of_nonneg hr0] at h2

theorem round_neg (s : Bool) (x : ℝ) : (E.round s (-x)).toE = -(E.round (!s) x).toE := by
  rw [round, round]
  by_cases h : x = 0
  · subst h; cases s <;> simp [toE, signed, Mag.zero]
  · rw [if_neg (by simpa using h), if_neg h, abs_neg]
    rcases lt_or_gt_of_ne h with hx | hx
    · rw [decide_eq_true hx, decide_eq_false (by linarith), toE_ofMag_true, neg_neg]
    · rw [decide_eq_false (not_lt.2 hx.le), decide_eq_true (by linarith), toE_ofMag_true]

/-- Rounding keeps representable lower bounds. -/
theorem round_ge (s : Bool) {x r : ℝ} (hr : SRep r) (h : r ≤ x) :
    (r : EReal) ≤ (E.round s x).toE := by
  have h1 := E.round_le (!s) hr.neg (neg_le_neg h)
  rw [round_neg, Bool.not_not] at h1
  have := EReal.neg_le_neg_iff.2 h1
  simpa using this

/-- Representable numbers are not changed. -/
theorem round_rep (s : Bool) {x : ℝ} (h : SRep x) : (E.round s x).toE = (x : EReal) :=
  le_antisymm (E.round_le s h le_rfl) (E.round_ge s h le_rfl)

theorem round_finite (s : Bool) {x : ℝ} (h : SRep x) : (E.round s x).isFinite := by
  rw [isFinite_iff, round_rep _ _ h]
  exact ⟨E.round_not_nan s x, by simp, by simp⟩

/-- Rounding is monotone. -/
theorem round_mono (s t : Bool) {x y : ℝ} (h : x ≤ y) : (E.round s x).toE ≤ (E.round t y).toE := by
  have hz : ∀ u, (E.round u 0).toE = 0 := fun u => by simpa using E.round_rep u SRep.zero
  rcases lt_trichotomy x 0 with hx | hx | hx
  · rcases lt_or_ge y 0 with hy | hy
    · rw [round, round, if_neg hx.ne, if_neg hy.ne, decide_eq_true hx, decide_eq_true hy,
        toE_ofMag_true, toE_ofMag_true, EReal.neg_le_neg_iff]
      have hm := E.mag_mono (show |y| ≤ |x| by rw [abs_of_neg hx, abs_of_neg hy]; linarith)
      revert hm
      generalize E.mag |x| = w
      generalize E.mag |y| = v
      intro hm
      cases v with
      | top => rw [top_le_iff.1 hm]
      | coe m =>
        have := ofMag_ge hm
        change ((signed false m.1 : ℝ) : EReal) ≤ _
        simpa [signed] using this
    · calc _ ≤ ((0 : ℝ) : EReal) := E.round_le s SRep.zero hx.le
        _ ≤ _ := E.round_ge t SRep.zero hy
  · subst hx
    rw [hz]
    exact E.round_ge t SRep.zero h
  · have hy : 0 < y := hx.trans_le h
    rw [round, round, if_neg hx.ne', if_neg hy.ne', decide_eq_false (not_lt.2 hx.le),
      decide_eq_false (not_lt.2 hy.le)]
    have hm := E.mag_mono (show |x| ≤ |y| by rw [abs_of_pos hx, abs_of_pos hy]; exact h)
    revert hm
    generalize E.mag |x| = w
    generalize E.mag |y| = v
    intro hm
    cases w with
    | top => rw [top_le_iff.1 hm]
    | coe m =>
      have := ofMag_ge hm
      change ((signed false m.1 : ℝ) : EReal) ≤ _
      simpa [signed] using this

theorem add_neg_toE (x y : FPVal) : (E.add x.neg y.neg).toE = -(E.add x y).toE := by
  cases x with
  | nan => cases y <;> simp [neg, add, toE]
  | inf s => cases y with
    | nan => cases s <;> simp [neg, add, toE]
    | inf t => cases s <;> cases t <;> simp [neg, add, toE]
    | fin t n => cases s <;> simp [neg, add, toE]
  | fin s m => cases y with
    | nan => simp [neg, add, toE]
    | inf t => cases t <;> simp [neg, add, toE]
    | fin t n =>
      have h : ∀ (b : Bool) (m : ℝ), signed (!b) m = -signed b m := by
        intro b m; cases b <;> simp [signed]
      simp only [neg, add, h]
      rw [← neg_add, E.round_neg]
      congr 1
      apply le_antisymm <;> exact E.round_mono _ _ le_rfl

theorem add_neg_nan (x y : FPVal) : (E.add x.neg y.neg).isNaN ↔ (E.add x y).isNaN := by
  cases x with
  | nan => cases y <;> simp [neg, add, isNaN]
  | inf s => cases y with
    | nan => cases s <;> simp [neg, add, isNaN]
    | inf t => cases s <;> cases t <;> simp [neg, add, isNaN]
    | fin t n => cases s <;> simp [neg, add, isNaN]
  | fin s m => cases y with
    | nan => simp [neg, add, isNaN]
    | inf t => cases t <;> simp [neg, add, isNaN]
    | fin t n =>
      simp only [neg, add]
      exact iff_of_false (E.round_not_nan _ _) (E.round_not_nan _ _)

end FloatEnv

namespace FP
variable {E : FloatEnv} {x y z : FP E}

theorem lit (m : ℕ) (s : Bool) (e : ℕ) : (OfScientific.ofScientific m s e : FP E)
    = E.round false (OfScientific.ofScientific m s e : ℝ) := rfl
theorem add_def : x + y = E.add x y := rfl
theorem sub_def : x - y = E.add x (FPVal.neg y) := rfl
theorem mul_def : x * y = E.mul x y := rfl
theorem div_def : x / y = E.div x y := rfl
theorem neg_def : -x = FPVal.neg x := rfl
theorem recip_def : Flt.recip x = E.div (E.round false 1) x := rfl
theorem mulAdd_def : Flt.mulAdd x y z = E.mulAdd x y z := rfl

@[simp] theorem toE_neg' : (-x).toE = -x.toE := FPVal.toE_neg x
@[simp] theorem toR_neg' : (-x).toR = -x.toR := FPVal.toR_neg x
@[simp] theorem isNaN_neg' : (-x).isNaN ↔ x.isNaN := FPVal.isNaN_neg x
@[simp] theorem isFinite_neg' : (-x).isFinite ↔ x.isFinite := FPVal.isFinite_neg x

theorem sub_eq : x - y = x + -y := rfl

/-- Addition of finite numbers. -/
theorem add_fin (hx : x.isFinite) (hy : y.isFinite) : ∃ s, x + y = E.round s (x.toR + y.toR) := by
  rw [add_def]
  cases x with
  | nan => exact hx.elim
  | inf => exact hx.elim
  | fin s m => cases y with
    | nan => exact hy.elim
    | inf => exact hy.elim
    | fin t n => exact ⟨_, rfl⟩

theorem sub_fin (hx : x.isFinite) (hy : y.isFinite) : ∃ s, x - y = E.round s (x.toR - y.toR) := by
  obtain ⟨s, h⟩ := add_fin hx (y := -y) (by simpa using hy)
  exact ⟨s, by rw [sub_eq, h, toR_neg', sub_eq_add_neg]⟩

theorem mul_fin (hx : x.isFinite) (hy : y.isFinite) : ∃ s, x * y = E.round s (x.toR * y.toR) := by
  rw [mul_def]
  cases x with
  | nan => exact hx.elim
  | inf => exact hx.elim
  | fin s m => cases y with
    | nan => exact hy.elim
    | inf => exact hy.elim
    | fin t n => exact ⟨_, rfl⟩

theorem div_fin (hx : x.isFinite) (hy : y.isFinite) (h0 : y.toR ≠ 0) :
    ∃ s, x / y = E.round s (x.toR / y.toR) := by
  rw [div_def]
  cases x with
  | nan => exact hx.elim
  | inf => exact hx.elim
  | fin s m => cases y with
    | nan => exact hy.elim
    | inf => exact hy.elim
    | fin t n =>
      have h1 : n.1 ≠ 0 := by
        intro h; apply h0; change signed t n.1 = 0; rw [h]; cases t <;> simp [signed]
      exact ⟨_, by simp only [FloatEnv.div, if_neg h1]; rfl⟩

theorem mulAdd_fin (hx : x.isFinite) (hy : y.isFinite) (hz : z.isFinite) :
    ∃ s, Flt.mulAdd x y z = E.round s (x.toR * y.toR + z.toR) := by
  rw [mulAdd_def]
  cases x with
  | nan => exact hx.elim
  | inf => exact hx.elim
  | fin s m => cases y with
    | nan => exact hy.elim
    | inf => exact hy.elim
    | fin t n => cases z with
      | nan => exact hz.elim
      | inf => exact hz.elim
      | fin u o => exact ⟨_, rfl⟩

theorem sqrt_fin (hx : x.isFinite) (h0 : 0 ≤ x.toR) : ∃ s, Flt.sqrt x = E.round s √x.toR := by
  change ∃ s, E.sqrt x = _
  cases x with
  | nan => exact hx.elim
  | inf => exact hx.elim
  | fin s m =>
    have h : ¬ (s = true ∧ m.1 ≠ 0) := by
      rintro ⟨rfl, h⟩
      change 0 ≤ -m.1 at h0
      exact h (le_antisymm (by linarith) m.2.nonneg)
    refine ⟨s, ?_⟩
    simp only [FloatEnv.sqrt, if_neg h]
    congr 2
    change m.1 = signed s m.1
    cases s
    · rfl
    · have : m.1 = 0 := by by_contra h'; exact h ⟨rfl, h'⟩
      simp [signed, this]

/-- A sum of numbers with lower bounds. -/
theorem add_lower {a c lo : ℝ} (hx : ¬ x.isNaN) (hy : ¬ y.isNaN) (ha : (a : EReal) ≤ x.toE)
    (hc : (c : EReal) ≤ y.toE) (hr : SRep lo) (h : lo ≤ a + c) :
    ¬ (x + y).isNaN ∧ (lo : EReal) ≤ (x + y).toE := by
  by_cases hfx : x.isFinite
  · by_cases hfy : y.isFinite
    · obtain ⟨s, hs⟩ := add_fin hfx hfy
      rw [hs]
      refine ⟨E.round_not_nan _ _, E.round_ge s hr (h.trans ?_)⟩
      have h1 := isFinite.toE_eq hfx
      have h2 := isFinite.toE_eq hfy
      rw [toE, h1, EReal.coe_le_coe_iff] at ha
      rw [toE, h2, EReal.coe_le_coe_iff] at hc
      exact add_le_add ha hc
    · cases x with
      | nan => exact hfx.elim
      | inf => exact hfx.elim
      | fin s m => cases y with
        | nan => exact (hy trivial).elim
        | fin => exact (hfy trivial).elim
        | inf t =>
          cases t
          · exact ⟨id, le_top⟩
          · exact absurd hc (by simp [toE, FPVal.toE])
  · cases x with
    | nan => exact (hx trivial).elim
    | fin => exact (hfx trivial).elim
    | inf s =>
      cases s
      · cases y with
        | nan => exact (hy trivial).elim
        | fin => exact ⟨id, le_top⟩
        | inf t =>
          cases t
          · exact ⟨id, le_top⟩
          · exact absurd hc (by simp [toE, FPVal.toE])
      · exact absurd ha (by simp [toE, FPVal.toE])

theorem neg_add_toE (x y : FP E) : (-x + -y).toE = -(x + y).toE := E.add_neg_toE x y

theorem neg_add_nan (x y : FP E) : (-x + -y).isNaN ↔ (x + y).isNaN := E.add_neg_nan x y

/-- A sum of numbers with upper bounds. -/
theorem add_upper {a c hi : ℝ} (hx : ¬ x.isNaN) (hy : ¬ y.isNaN) (ha : x.toE ≤ (a : EReal))
    (hc : y.toE ≤ (c : EReal)) (hr : SRep hi) (h : a + c ≤ hi) :
    ¬ (x + y).isNaN ∧ (x + y).toE ≤ (hi : EReal) := by
  have h1 := add_lower (x := -x) (y := -y) (a := -a) (c := -c) (lo := -hi) (by simpa using hx)
    (by simpa using hy) (by simpa using ha) (by simpa using hc) hr.neg (by linarith)
  rw [neg_add_nan, neg_add_toE] at h1
  exact ⟨h1.1, by simpa using h1.2⟩

/-- The reciprocal of a number at least one. -/
theorem recip_in (hx : ¬ x.isNaN) (h : 1 ≤ x.toE) : In 0 1 (Flt.recip x) := by
  rw [recip_def]
  cases x with
  | nan => exact (hx trivial).elim
  | inf t =>
    cases t
    · have h1 := E.round_finite false SRep.one
      revert h1
      generalize E.round false 1 = o
      intro h1
      cases o with
      | nan => exact h1.elim
      | inf => exact h1.elim
      | fin s m =>
        simp only [FloatEnv.div, In, isNaN, toE, FPVal.isNaN, FPVal.toE, Mag.zero]
        cases s <;> simp [signed]
    · exact absurd h (by simp only [toE, FPVal.toE]; decide)
  | fin t n =>
    have h0 : (1 : ℝ) ≤ signed t n.1 := by
      change (1 : EReal) ≤ ((signed t n.1 : ℝ) : EReal) at h
      exact_mod_cast h
    have hone := E.round_finite false SRep.one
    obtain ⟨s, hs⟩ := div_fin (E := E) (x := E.round false 1) (y := FPVal.fin t n) hone
      trivial (by change signed t n.1 ≠ 0; linarith)
    change E.div _ _ = _ at hs
    rw [hs]
    have h1 : FPVal.toR (E.round false 1) = 1 := by
      have h1 := E.round_rep false SRep.one
      rw [isFinite.toE_eq hone] at h1
      exact_mod_cast h1
    change In 0 1 (E.round s (FPVal.toR (E.round false 1) / signed t n.1))
    rw [h1]
    refine ⟨E.round_not_nan _ _, ?_, ?_⟩
    · exact_mod_cast E.round_ge s SRep.zero (by positivity)
    · exact_mod_cast E.round_le s SRep.one (by rw [div_le_one (by linarith)]; exact h0)

theorem In.finite {a b : ℝ} (h : In (a : EReal) (b : EReal) x) : x.isFinite := by
  refine isFinite_iff.2 ⟨h.1, fun ht => ?_, fun hb => ?_⟩
  · have := h.2.2; rw [toE, ht] at this; simp at this
  · have := h.2.1; rw [toE, hb] at this; simp at this

theorem In.toR {a b : ℝ} (h : In (a : EReal) (b : EReal) x) : a ≤ x.toR ∧ x.toR ≤ b := by
  have hf := isFinite.toE_eq h.finite
  have h1 := h.2.1
  have h2 := h.2.2
  rw [toE, hf] at h1 h2
  exact ⟨by exact_mod_cast h1, by exact_mod_cast h2⟩

theorem In.of_round (s : Bool) {a b v : ℝ} (ha : SRep a) (hb : SRep b) (h1 : a ≤ v) (h2 : v ≤ b) :
    In (E := E) (a : EReal) (b : EReal) (E.round s v) :=
  ⟨E.round_not_nan s v, E.round_ge s ha h1, E.round_le s hb h2⟩

/-- `1 - e` for a score `e`. -/
theorem one_sub_in (h : In 0 1 x) : In 0 1 ((1.0 : FP E) - x) := by
  have h' : In ((0 : ℝ) : EReal) ((1 : ℝ) : EReal) x := by simpa using h
  have h1 : In (E := E) ((1 : ℝ) : EReal) ((1 : ℝ) : EReal) (1.0 : FP E) := by
    rw [lit]
    exact In.of_round false SRep.one SRep.one (by norm_num) (by norm_num)
  obtain ⟨s, hs⟩ := sub_fin h1.finite h'.finite
  rw [hs]
  have := h1.toR
  have := h'.toR
  have := In.of_round (E := E) s SRep.zero SRep.one (v := FP.toR (1.0 : FP E) - x.toR) (by linarith)
    (by linarith)
  simpa using this

theorem lit_rep {m : ℕ} {s : Bool} {e : ℕ} {v : ℝ} (h : (OfScientific.ofScientific m s e : ℝ) = v)
    (hv : SRep v) : isFinite (OfScientific.ofScientific m s e : FP E) ∧
      toR (OfScientific.ofScientific m s e : FP E) = v := by
  rw [lit, h]
  have hf := E.round_finite false hv
  refine ⟨hf, ?_⟩
  have h1 := E.round_rep false hv
  rw [isFinite.toE_eq hf] at h1
  exact_mod_cast h1

end FP
end Skillratings
