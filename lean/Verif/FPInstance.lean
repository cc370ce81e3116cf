import Mathlib.Analysis.SpecialFunctions.Pow.Real
import Mathlib.Analysis.Complex.ExponentialBounds
import Mathlib.Data.Fintype.WithTopBot
import Verif.Proofs.FP
/-
The floating-point reading is not empty: rounding to nearest, ties to even, with correctly
rounded library functions, meets all requirements of `FloatEnv` and `FloatEnv.Lib`.
-/

namespace Skillratings
open FPVal

/-! ### Rounding to nearest -/

theorem Rep.lt_top {m : ℝ} (h : Rep m) : m < 2 ^ 1024 := by
  obtain ⟨n, k, hn, -, hk, rfl⟩ := h
  have h1 : (n : ℝ) < 2 ^ 53 := by exact_mod_cast hn
  have h2 : (2 : ℝ) ^ k ≤ 2 ^ (971 : ℤ) := zpow_le_zpow_right₀ (by norm_num) hk
  calc (n : ℝ) * 2 ^ k < 2 ^ 53 * 2 ^ k := by gcongr
    _ ≤ 2 ^ 53 * 2 ^ (971 : ℤ) := by gcongr
    _ = 2 ^ 1024 := by
      rw [show (971 : ℤ) = ((971 : ℕ) : ℤ) by norm_num, zpow_natCast, ← pow_add]

theorem finite_rep : {m : ℝ | Rep m}.Finite := by
  have h : {m : ℝ | Rep m} ⊆ (fun p : ℕ × ℤ => (p.1 : ℝ) * 2 ^ p.2) ''
      (↑(Finset.range (2 ^ 53) ×ˢ Finset.Icc (-1074 : ℤ) 971)) := by
    rintro m ⟨n, k, hn, h1, h2, rfl⟩
    exact ⟨(n, k), by simp only [Finset.coe_product, Set.mem_prod, Finset.mem_coe, Finset.mem_range,
      Finset.mem_Icc]; exact ⟨hn, h1, h2⟩, rfl⟩
  exact (Set.Finite.image _ (Finset.finite_toSet _)).subset h

noncomputable instance : Fintype Mag := finite_rep.fintype

/-- The value of a candidate; overflow counts as `2 ^ 1024`. -/
noncomputable def cval : WithTop Mag → ℝ
  | none => 2 ^ 1024
  | some m => m.1

theorem cval_coe (m : Mag) : cval (m : WithTop Mag) = m.1 := rfl
theorem cval_top : cval ⊤ = 2 ^ 1024 := rfl

theorem cval_strictMono : StrictMono cval := by
  intro a b h
  cases a with
  | top => exact absurd h not_top_lt
  | coe m => cases b with
    | top => exact m.2.lt_top
    | coe n => exact show m < n from WithTop.coe_lt_coe.1 h

theorem cval_nonneg (c : WithTop Mag) : 0 ≤ cval c := by
  cases c with
  | top => rw [cval_top]; positivity
  | coe m => exact m.2.nonneg

open Classical in
/-- The candidates below a number. -/
noncomputable def below (x : ℝ) : Finset (WithTop Mag) := Finset.univ.filter fun c => cval c ≤ x

open Classical in
/-- The candidates above a number. -/
noncomputable def above (x : ℝ) : Finset (WithTop Mag) := Finset.univ.filter fun c => x ≤ cval c

theorem mem_below {x : ℝ} {c : WithTop Mag} : c ∈ below x ↔ cval c ≤ x := by simp [below]
theorem mem_above {x : ℝ} {c : WithTop Mag} : c ∈ above x ↔ x ≤ cval c := by simp [above]

/-- A number cut to the range of the format. -/
noncomputable def clamp (x : ℝ) : ℝ := min (max x 0) (2 ^ 1024)

theorem clamp_mono : Monotone clamp := fun _ _ h => min_le_min_right _ (max_le_max_right _ h)
theorem clamp_nonneg (x : ℝ) : 0 ≤ clamp x := le_min (le_max_right _ _) (by positivity)
theorem clamp_le (x : ℝ) : clamp x ≤ 2 ^ 1024 := min_le_right _ _

theorem below_ne (x : ℝ) : (below (clamp x)).Nonempty :=
  ⟨(Mag.zero : Mag), mem_below.2 (by rw [cval_coe]; exact clamp_nonneg x)⟩
theorem above_ne (x : ℝ) : (above (clamp x)).Nonempty := ⟨⊤, mem_above.2 (clamp_le x)⟩

/-- The neighbours of a number. -/
noncomputable def lower (x : ℝ) : WithTop Mag := (below (clamp x)).max' (below_ne x)
/-- The neighbours of a number. -/
noncomputable def upper (x : ℝ) : WithTop Mag := (above (clamp x)).min' (above_ne x)

theorem cval_lower (x : ℝ) : cval (lower x) ≤ clamp x := mem_below.1 (Finset.max'_mem _ _)
theorem cval_upper (x : ℝ) : clamp x ≤ cval (upper x) := mem_above.1 (Finset.min'_mem _ _)
theorem le_lower {x : ℝ} {c : WithTop Mag} (h : cval c ≤ clamp x) : c ≤ lower x :=
  Finset.le_max' _ _ (mem_below.2 h)
theorem upper_le {x : ℝ} {c : WithTop Mag} (h : clamp x ≤ cval c) : upper x ≤ c :=
  Finset.min'_le _ _ (mem_above.2 h)
theorem lower_le_upper (x : ℝ) : lower x ≤ upper x :=
  cval_strictMono.le_iff_le.1 ((cval_lower x).trans (cval_upper x))

/-- A candidate whose last significand bit is zero. -/
def evenSignificand : WithTop Mag → Prop
  | none => True
  | some m => ∃ n : ℕ, ∃ k : ℤ, Even n ∧ n < 2 ^ 53 ∧ (2 ^ 52 ≤ n ∨ k = -1074) ∧ m.1 = n * 2 ^ k

open Classical in
/-- Round to nearest, ties to even. -/
noncomputable def nearest (x : ℝ) : WithTop Mag :=
  if clamp x - cval (lower x) < cval (upper x) - clamp x then lower x
  else if cval (upper x) - clamp x < clamp x - cval (lower x) then upper x
  else if evenSignificand (lower x) then lower x else upper x

theorem nearest_bounds (x : ℝ) : lower x ≤ nearest x ∧ nearest x ≤ upper x := by
  have h := lower_le_upper x
  rw [nearest]
  split
  · exact ⟨le_rfl, h⟩
  · split
    · exact ⟨h, le_rfl⟩
    · split
      · exact ⟨le_rfl, h⟩
      · exact ⟨h, le_rfl⟩

theorem nearest_mono : Monotone nearest := by
  intro x y h
  have hc := clamp_mono h
  by_cases hex : ∃ c, clamp x ≤ cval c ∧ cval c ≤ clamp y
  · obtain ⟨c, h1, h2⟩ := hex
    exact (nearest_bounds x).2.trans ((upper_le h1).trans ((le_lower h2).trans (nearest_bounds y).1))
  · have hlo : lower x = lower y := by
      apply le_antisymm (le_lower ((cval_lower x).trans hc))
      apply le_lower
      by_contra hlt
      exact hex ⟨_, (not_le.1 hlt).le, cval_lower y⟩
    have hhi : upper x = upper y := by
      apply le_antisymm (upper_le (hc.trans (cval_upper y)))
      apply upper_le
      by_contra hlt
      exact hex ⟨_, cval_upper x, (not_le.1 hlt).le⟩
    rcases hc.eq_or_lt with he | hlt
    · rw [nearest, nearest, hlo, hhi, he]
    · have hb := nearest_bounds x
      have hb' := nearest_bounds y
      by_cases h1 : clamp x - cval (lower x) < cval (upper x) - clamp x
      · have : nearest x = lower x := by rw [nearest, if_pos h1]
        rw [this, hlo]; exact hb'.1
      · have h2 : cval (upper y) - clamp y < clamp y - cval (lower y) := by
          rw [← hlo, ← hhi]; linarith [not_lt.1 h1]
        have : nearest y = upper y := by rw [nearest, if_neg (not_lt.2 h2.le), if_pos h2]
        rw [this, ← hhi]; exact hb.2

theorem clamp_rep (m : Mag) : clamp m.1 = m.1 := by
  rw [clamp, max_eq_left m.2.nonneg, min_eq_left m.2.lt_top.le]

theorem nearest_rep (m : Mag) : nearest m.1 = m := by
  have h1 : (m : WithTop Mag) ≤ lower m.1 := le_lower (by rw [clamp_rep, cval_coe])
  have h2 : upper m.1 ≤ (m : WithTop Mag) := upper_le (by rw [clamp_rep, cval_coe])
  exact le_antisymm ((nearest_bounds _).2.trans h2) (h1.trans (nearest_bounds _).1)

theorem nearest_top {x : ℝ} (h : 2 ^ 1024 ≤ x) : nearest x = ⊤ := by
  have hc : clamp x = 2 ^ 1024 := min_eq_right (h.trans (le_max_left _ _))
  have h1 : (⊤ : WithTop Mag) ≤ lower x := le_lower (by rw [hc, cval_top])
  exact top_le_iff.1 (h1.trans (nearest_bounds x).1)

/-- Rounding to nearest really picks a nearest candidate. -/
theorem nearest_nearest {x : ℝ} (h0 : 0 ≤ x) (h1 : x ≤ 2 ^ 1024) (c : WithTop Mag) :
    |x - cval (nearest x)| ≤ |x - cval c| := by
  have hc : clamp x = x := by rw [clamp, max_eq_left h0, min_eq_left h1]
  have hl := cval_lower x
  have hu := cval_upper x
  rw [hc] at hl hu
  have hlow : ∀ c, cval c ≤ x → cval c ≤ cval (lower x) := fun c hc' =>
    cval_strictMono.monotone (le_lower (by rw [hc]; exact hc'))
  have hup : ∀ c, x ≤ cval c → cval (upper x) ≤ cval c := fun c hc' =>
    cval_strictMono.monotone (upper_le (by rw [hc]; exact hc'))
  have key : min (x - cval (lower x)) (cval (upper x) - x) ≤ |x - cval c| := by
    rcases le_total (cval c) x with h | h
    · rw [abs_of_nonneg (by linarith)]
      exact (min_le_left _ _).trans (by linarith [hlow c h])
    · rw [abs_of_nonpos (by linarith)]
      exact (min_le_right _ _).trans (by linarith [hup c h])
  refine le_trans ?_ key
  have e1 : |x - cval (lower x)| = x - cval (lower x) := abs_of_nonneg (by linarith)
  have e2 : |x - cval (upper x)| = cval (upper x) - x := by
    rw [abs_of_nonpos (by linarith)]; ring
  rw [nearest, hc]
  split
  · rw [e1]; exact le_min le_rfl (by linarith)
  · split
    · rw [e2]; exact le_min (by linarith) le_rfl
    · split
      · rw [e1]; exact le_min le_rfl (by linarith)
      · rw [e2]; exact le_min (by linarith) le_rfl

/-! ### Correctly rounded library functions -/

/-- Arithmetic with rounding to nearest (without library functions). -/
noncomputable def ieeeBase : FloatEnv where
  mag := nearest
  mag_mono := nearest_mono
  mag_rep := nearest_rep
  sumNeg := true
  powi _ _ := nan
  powf _ _ := nan
  exp _ := nan
  expM1 _ := nan
  ln _ := nan
  ln1p _ := nan
  hypot _ _ := nan

namespace Ieee

/-- The number one. -/
noncomputable def one : FPVal := ieeeBase.round false 1
/-- Positive zero. -/
noncomputable def zero : FPVal := fin false Mag.zero

/-- `x.powi(n)` -/
noncomputable def powi (x : FPVal) : ℤ → FPVal
  | 2 => ieeeBase.mul x x
  | 3 => ieeeBase.mul x (ieeeBase.mul x x)
  | 4 => ieeeBase.mul (ieeeBase.mul x x) (ieeeBase.mul x x)
  | -1 => ieeeBase.div one x
  | -2 => ieeeBase.div one (ieeeBase.mul x x)
  | Int.ofNat n => (ieeeBase.mul x)^[n] one
  | Int.negSucc n => ieeeBase.div one ((ieeeBase.mul x)^[n + 1] one)

/-- `exp` -/
noncomputable def exp : FPVal → FPVal
  | nan => nan
  | inf s => if s then zero else inf false
  | fin s m => ieeeBase.round false (Real.exp (signed s m.1))

/-- `exp_m1` -/
noncomputable def expM1 : FPVal → FPVal
  | nan => nan
  | inf s => if s then one.neg else inf false
  | fin s m => ieeeBase.round s (Real.exp (signed s m.1) - 1)

open Classical in
/-- `ln` -/
noncomputable def ln : FPVal → FPVal
  | nan => nan
  | inf s => if s then nan else inf false
  | fin s m => if m.1 = 0 then inf true else if s then nan else ieeeBase.round false (Real.log m.1)

open Classical in
/-- `ln_1p` -/
noncomputable def ln1p : FPVal → FPVal
  | nan => nan
  | inf s => if s then nan else inf false
  | fin s m =>
    if signed s m.1 < -1 then nan else if signed s m.1 = -1 then inf true
    else ieeeBase.round s (Real.log (1 + signed s m.1))

/-- `hypot` -/
noncomputable def hypot : FPVal → FPVal → FPVal
  | inf _, _ => inf false
  | _, inf _ => inf false
  | nan, _ => nan
  | _, nan => nan
  | fin s m, fin t n => ieeeBase.round false √(signed s m.1 ^ 2 + signed t n.1 ^ 2)

/-- An odd integer. -/
def oddInt (y : FPVal) : Prop := ∃ n : ℤ, Odd n ∧ y.toE = ((n : ℝ) : EReal)

open Classical in
/-- `powf` except for the exponent zero and the base one. -/
noncomputable def powfCore : FPVal → FPVal → FPVal
  | nan, _ => nan
  | inf _, nan => nan
  | fin _ _, nan => nan
  | inf s, inf t => if t then fin (s && false) Mag.zero else inf (s && false)
  | inf s, fin t n =>
    if 0 < signed t n.1 then inf (s && decide (oddInt (fin t n)))
    else fin (s && decide (oddInt (fin t n))) Mag.zero
  | fin _ m, inf t =>
    if m.1 = 1 then one else if (1 < m.1) ↔ (t = false) then inf false else zero
  | fin s m, fin t n =>
    if m.1 = 0 then
      if signed t n.1 < 0 then inf (s && decide (oddInt (fin t n)))
      else fin (s && decide (oddInt (fin t n))) Mag.zero
    else if s then
      if ∃ k : ℤ, signed t n.1 = k then
        ieeeBase.round false ((if oddInt (fin t n) then -1 else 1) * m.1 ^ (signed t n.1))
      else nan
    else ieeeBase.round false (m.1 ^ (signed t n.1))

open Classical in
/-- `powf` -/
noncomputable def powf (x y : FPVal) : FPVal :=
  if (¬ y.isNaN ∧ y.toE = 0) ∨ (¬ x.isNaN ∧ x.toE = 1) then one else powfCore x y

end Ieee

/-- Binary64 with rounding to nearest and a correctly rounded library. -/
noncomputable def ieee : FloatEnv :=
  { ieeeBase with
    powi := Ieee.powi, powf := Ieee.powf, exp := Ieee.exp, expM1 := Ieee.expM1, ln := Ieee.ln,
    ln1p := Ieee.ln1p, hypot := Ieee.hypot }

theorem ieee_round (s : Bool) (x : ℝ) : ieeeBase.round s x = ieee.round s x := rfl
theorem ieee_mul (x y : FPVal) : ieeeBase.mul x y = ieee.mul x y := rfl
theorem ieee_div (x y : FPVal) : ieeeBase.div x y = ieee.div x y := rfl

namespace Ieee

theorem one_toE : one.toE = 1 := by
  have := ieeeBase.round_rep false SRep.one
  rw [one, this]; rfl
theorem one_not_nan : ¬ one.isNaN := ieeeBase.round_not_nan _ _
theorem zero_toE : zero.toE = 0 := by simp [zero, toE, signed, Mag.zero]
theorem zero_not_nan : ¬ zero.isNaN := id

theorem fin_toE (s : Bool) (m : Mag) : (fin s m).toE = ((signed s m.1 : ℝ) : EReal) := rfl

theorem round_ge_zero {s : Bool} {x : ℝ} (h : 0 ≤ x) : 0 ≤ (ieeeBase.round s x).toE := by
  exact_mod_cast ieeeBase.round_ge s SRep.zero h
theorem round_ge_one {s : Bool} {x : ℝ} (h : 1 ≤ x) : 1 ≤ (ieeeBase.round s x).toE := by
  exact_mod_cast ieeeBase.round_ge s SRep.one h
theorem round_le_one {s : Bool} {x : ℝ} (h : x ≤ 1) : (ieeeBase.round s x).toE ≤ 1 := by
  exact_mod_cast ieeeBase.round_le s SRep.one h
theorem round_le_zero {s : Bool} {x : ℝ} (h : x ≤ 0) : (ieeeBase.round s x).toE ≤ 0 := by
  exact_mod_cast ieeeBase.round_le s SRep.zero h

/-- The power of a positive number. -/
theorem powf_cases {x y : FPVal} (hx : ¬ x.isNaN) (hy : ¬ y.isNaN) (h0 : 0 < x.toE) :
    ¬ (powf x y).isNaN ∧ 0 ≤ (powf x y).toE ∧ (1 ≤ x.toE → 0 ≤ y.toE → 1 ≤ (powf x y).toE)
      ∧ (1 ≤ x.toE → y.toE ≤ 0 → (powf x y).toE ≤ 1) := by
  rw [powf]
  split
  · rw [one_toE]; exact ⟨one_not_nan, zero_le_one, fun _ _ => le_rfl, fun _ _ => le_rfl⟩
  · rename_i hn
    have hy0 : y.toE ≠ 0 := fun h => hn (.inl ⟨hy, h⟩)
    have hx1 : x.toE ≠ 1 := fun h => hn (.inr ⟨hx, h⟩)
    have top1 : ¬ (⊤ : EReal) ≤ 0 := by decide
    have bot1 : ¬ (0 : EReal) ≤ ⊥ := by decide
    cases x with
    | nan => exact (hx trivial).elim
    | inf s =>
      cases s
      · cases y with
        | nan => exact (hy trivial).elim
        | inf t =>
          cases t
          · refine ⟨id, le_top, fun _ _ => le_top, fun _ h => (top1 h).elim⟩
          · refine ⟨id, zero_toE.ge, fun _ h => (bot1 h).elim, fun _ _ => ?_⟩
            change zero.toE ≤ 1
            rw [zero_toE]; exact zero_le_one
        | fin t n =>
          rw [fin_toE] at *
          by_cases hp : 0 < signed t n.1
          · have e : powfCore (inf false) (fin t n) = inf false := by simp [powfCore, hp]
            rw [e]
            refine ⟨id, le_top, fun _ _ => le_top, fun _ h => ?_⟩
            have : signed t n.1 ≤ 0 := by exact_mod_cast h
            linarith
          · have e : powfCore (inf false) (fin t n) = zero := by simp [powfCore, hp, zero]
            rw [e, zero_toE]
            refine ⟨id, le_rfl, fun _ h => ?_, fun _ _ => zero_le_one⟩
            have h1 : 0 ≤ signed t n.1 := by exact_mod_cast h
            have h2 : signed t n.1 ≠ 0 := by exact_mod_cast hy0
            exact (hp (lt_of_le_of_ne h1 h2.symm)).elim
      · exact absurd h0 (by simp only [toE]; decide)
    | fin s m =>
      rw [fin_toE] at *
      have h0' : 0 < signed s m.1 := by exact_mod_cast h0
      have hs : s = false := by
        cases s
        · rfl
        · simp only [signed, if_true] at h0'; linarith [m.2.nonneg]
      subst hs
      have hm : 0 < m.1 := h0'
      have hm1 : m.1 ≠ 1 := by
        intro h; apply hx1; simp [signed, h]
      have hge : (1 : EReal) ≤ ((signed false m.1 : ℝ) : EReal) → 1 ≤ m.1 := by
        intro h; exact_mod_cast h
      cases y with
      | nan => exact (hy trivial).elim
      | inf t =>
        by_cases hi : (1 < m.1) ↔ (t = false)
        · have e : powfCore (fin false m) (inf t) = inf false := by
            simp only [powfCore, if_neg hm1, if_pos hi]
          rw [e]
          refine ⟨id, le_top, fun _ _ => le_top, fun h h' => ?_⟩
          have ht := hi.1 (lt_of_le_of_ne (hge h) (Ne.symm hm1))
          subst ht
          exact (top1 h').elim
        · have e : powfCore (fin false m) (inf t) = zero := by
            simp only [powfCore, if_neg hm1, if_neg hi]
          rw [e, zero_toE]
          refine ⟨id, le_rfl, fun h h' => ?_, fun _ _ => zero_le_one⟩
          have h1 := lt_of_le_of_ne (hge h) (Ne.symm hm1)
          cases t
          · exact (hi ⟨fun _ => rfl, fun _ => h1⟩).elim
          · exact (bot1 h').elim
      | fin t n =>
        have e : powfCore (fin false m) (fin t n)
            = ieeeBase.round false (m.1 ^ (signed t n.1)) := by
          simp only [powfCore, if_neg hm.ne', Bool.false_eq_true, if_false]
        rw [e, fin_toE]
        refine ⟨ieeeBase.round_not_nan _ _, round_ge_zero (Real.rpow_nonneg hm.le _), ?_, ?_⟩
        · intro h h'
          exact round_ge_one (Real.one_le_rpow (hge h) (by exact_mod_cast h'))
        · intro h h'
          exact round_le_one (Real.rpow_le_one_of_one_le_of_nonpos (hge h) (by exact_mod_cast h'))

theorem exp_cases {x : FPVal} (hx : ¬ x.isNaN) :
    ¬ (exp x).isNaN ∧ 0 ≤ (exp x).toE ∧ (0 ≤ x.toE → 1 ≤ (exp x).toE)
      ∧ (x.toE ≤ 0 → (exp x).toE ≤ 1)
      ∧ (((710 : ℝ) : EReal) ≤ x.toE → exp x = inf false) := by
  cases x with
  | nan => exact (hx trivial).elim
  | inf s =>
    cases s
    · exact ⟨id, le_top, fun _ => le_top, fun h => absurd h (by simp only [toE]; decide),
        fun _ => rfl⟩
    · refine ⟨id, zero_toE.ge, fun h => absurd h (by simp only [toE]; decide), fun _ => ?_,
        fun h => absurd h (by simp [toE])⟩
      change zero.toE ≤ 1
      rw [zero_toE]; exact zero_le_one
  | fin s m =>
    rw [fin_toE]
    refine ⟨ieeeBase.round_not_nan _ _, round_ge_zero (Real.exp_pos _).le, fun h => ?_, fun h => ?_,
      fun h => ?_⟩
    · exact round_ge_one (Real.one_le_exp (by exact_mod_cast h))
    · exact round_le_one (Real.exp_le_one_iff.2 (by exact_mod_cast h))
    · have h' : 710 ≤ signed s m.1 := by exact_mod_cast h
      have h2 : (2 : ℝ) ^ 1024 ≤ Real.exp (signed s m.1) := by
        have hl : (2 : ℝ) ^ 1024 = Real.exp (1024 * Real.log 2) := by
          rw [← Real.exp_log (show (0 : ℝ) < 2 ^ 1024 by positivity), Real.log_pow]
          norm_num
        rw [hl]
        apply Real.exp_le_exp.2
        have := Real.log_two_lt_d9
        nlinarith
      change ieeeBase.round false (Real.exp (signed s m.1)) = _
      rw [FloatEnv.round, if_neg (Real.exp_pos _).ne', abs_of_pos (Real.exp_pos _),
        decide_eq_false (not_lt.2 (Real.exp_pos _).le)]
      change FloatEnv.ofMag false (nearest _) = _
      rw [nearest_top h2]
      rfl

theorem ln_cases {x : FPVal} (hx : ¬ x.isNaN) :
    (x.toE < 0 → (ln x).isNaN) ∧ (0 ≤ x.toE → ¬ (ln x).isNaN) ∧ (1 ≤ x.toE → 0 ≤ (ln x).toE)
      ∧ (x.toE ≤ 1 → (ln x).toE ≤ 0)
      ∧ (x.toE = ((10 : ℝ) : EReal) →
        ((2 : ℝ) : EReal) ≤ (ln x).toE ∧ (ln x).toE ≤ ((3 : ℝ) : EReal))
      ∧ (x.isFinite → 0 < x.toE → (ln x).isFinite) := by
  cases x with
  | nan => exact (hx trivial).elim
  | inf s =>
    cases s
    · exact ⟨fun h => absurd h (by simp only [toE]; decide), fun _ => id, fun _ => le_top,
        fun h => absurd h (by simp only [toE]; decide), fun h => absurd h (by simp [toE]),
        fun h => h.elim⟩
    · exact ⟨fun _ => trivial, fun h => absurd h (by simp only [toE]; decide), fun h =>
        absurd h (by simp only [toE]; decide), fun _ => le_rfl,
        fun h => absurd h (by simp [toE]), fun h => h.elim⟩
  | fin s m =>
    rw [fin_toE]
    have hm := m.2.nonneg
    by_cases h0 : m.1 = 0
    · have e : ln (fin s m) = inf true := by simp [ln, h0]
      have e2 : signed s m.1 = 0 := by cases s <;> simp [signed, h0]
      rw [e, e2]
      refine ⟨fun h => absurd h (by simp), fun _ => id, fun h => absurd h (by simp), fun _ => bot_le,
        fun h => ?_, fun _ h => absurd h (by simp)⟩
      have : (0 : ℝ) = 10 := by exact_mod_cast h
      norm_num at this
    · have hp : 0 < m.1 := lt_of_le_of_ne hm (Ne.symm h0)
      cases s
      · have e : ln (fin false m) = ieeeBase.round false (Real.log m.1) := by simp [ln, h0]
        rw [e]
        simp only [signed, Bool.false_eq_true, if_false]
        refine ⟨fun h => ?_, fun _ => ieeeBase.round_not_nan _ _, fun h => ?_, fun h => ?_,
          fun h => ?_, fun _ _ => ?_⟩
        · have : m.1 < 0 := by exact_mod_cast h
          linarith
        · exact round_ge_zero (Real.log_nonneg (by exact_mod_cast h))
        · exact round_le_zero (Real.log_nonpos hm (by exact_mod_cast h))
        · have h10 : m.1 = 10 := by exact_mod_cast h
          rw [h10]
          have e1 := Real.exp_one_lt_d9
          have e2 := Real.exp_one_gt_d9
          constructor
          · apply ieeeBase.round_ge false (SRep.ofNat 2 (by norm_num))
            rw [Real.le_log_iff_exp_le (by norm_num), show (2 : ℝ) = 1 + 1 by norm_num, Real.exp_add]
            nlinarith [Real.exp_pos 1]
          · apply ieeeBase.round_le false (SRep.ofNat 3 (by norm_num))
            rw [Real.log_le_iff_le_exp (by norm_num), show (3 : ℝ) = 1 + 1 + 1 by norm_num,
              Real.exp_add, Real.exp_add]
            have : (7 : ℝ) ≤ Real.exp 1 * Real.exp 1 := by nlinarith
            nlinarith
        · have hlt := m.2.lt_top
          have hlow : (2 : ℝ) ^ (-1074 : ℤ) ≤ m.1 := by
            obtain ⟨n, k, -, h1, -, h3⟩ := m.2
            have hn : n ≠ 0 := by rintro rfl; apply h0; rw [h3]; simp
            rw [h3]
            calc (2 : ℝ) ^ (-1074 : ℤ) ≤ 2 ^ k := zpow_le_zpow_right₀ (by norm_num) h1
              _ ≤ n * 2 ^ k := le_mul_of_one_le_left (by positivity)
                (by exact_mod_cast Nat.one_le_iff_ne_zero.2 hn)
          have hl2 : Real.log 2 ≤ 1 := by have := Real.log_two_lt_d9; linarith
          have hl0 : 0 ≤ Real.log 2 := Real.log_nonneg (by norm_num)
          have hu : Real.log m.1 ≤ 1024 := by
            calc Real.log m.1 ≤ Real.log (2 ^ 1024) := Real.log_le_log hp hlt.le
              _ = 1024 * Real.log 2 := by rw [Real.log_pow]; norm_num
              _ ≤ 1024 := by linarith
          have hd : -1074 ≤ Real.log m.1 := by
            calc (-1074 : ℝ) ≤ -1074 * Real.log 2 := by linarith
              _ = Real.log (2 ^ (-1074 : ℤ)) := by rw [Real.log_zpow]; norm_num
              _ ≤ _ := Real.log_le_log (by positivity) hlow
          have h1 := ieeeBase.round_ge false (SRep.ofNat 1074 (by norm_num)).neg hd
          have h2 := ieeeBase.round_le false (SRep.ofNat 1024 (by norm_num)) hu
          refine isFinite_iff.2 ⟨ieeeBase.round_not_nan _ _, fun h => ?_, fun h => ?_⟩
          · rw [h] at h2; simp at h2
          · rw [h] at h1; simp at h1
      · have e : ln (fin true m) = nan := by simp [ln, h0]
        rw [e]
        have hneg : signed true m.1 < 0 := by simp [signed, hp]
        refine ⟨fun _ => trivial, fun h => ?_, fun h => ?_, fun _ => le_rfl, fun h => ?_, fun _ h => ?_⟩
        · have : 0 ≤ signed true m.1 := by exact_mod_cast h
          linarith
        · have : 1 ≤ signed true m.1 := by exact_mod_cast h
          linarith
        · have : signed true m.1 = 10 := by exact_mod_cast h
          linarith
        · have : 0 < signed true m.1 := by exact_mod_cast h
          linarith

theorem hypot_cases {x y : FPVal} (hx : ¬ x.isNaN) (hy : ¬ y.isNaN) :
    ¬ (hypot x y).isNaN ∧ x.abs.toE ≤ (hypot x y).toE ∧ y.abs.toE ≤ (hypot x y).toE := by
  cases x with
  | nan => exact (hx trivial).elim
  | inf s => exact ⟨id, le_top, le_top⟩
  | fin s m => cases y with
    | nan => exact (hy trivial).elim
    | inf t => exact ⟨id, le_top, le_top⟩
    | fin t n =>
      refine ⟨ieeeBase.round_not_nan _ _, ?_, ?_⟩
      · refine ieeeBase.round_ge false (signed_srep false m) ?_
        exact (signed_abs s m).ge.trans (Real.abs_le_sqrt (by nlinarith [sq_nonneg (signed t n.1)]))
      · refine ieeeBase.round_ge false (signed_srep false n) ?_
        exact (signed_abs t n).ge.trans (Real.abs_le_sqrt (by nlinarith [sq_nonneg (signed s m.1)]))

theorem hypot_upper {x y : FPVal} {b : ℝ} (hx : x.isFinite) (hy : y.isFinite) (hb : Rep b)
    (h : |x.toR| + |y.toR| ≤ b) : (hypot x y).toE ≤ (b : EReal) := by
  cases x with
  | nan => exact hx.elim
  | inf => exact hx.elim
  | fin s m => cases y with
    | nan => exact hy.elim
    | inf => exact hy.elim
    | fin t n =>
      have hb0 : 0 ≤ b := hb.nonneg
      refine ieeeBase.round_le false (by rwa [SRep, abs_of_nonneg hb0]) ?_
      rw [Real.sqrt_le_left hb0]
      simp only [FPVal.toR] at h
      nlinarith [sq_abs (signed s m.1), sq_abs (signed t n.1), abs_nonneg (signed s m.1),
        abs_nonneg (signed t n.1)]

end Ieee

open Ieee in
/-- All requirements are met. -/
theorem ieee_lib : ieee.Lib where
  powi_two _ := rfl
  powi_three _ := rfl
  powi_four _ := rfl
  powi_neg_one _ := rfl
  powi_neg_two _ := rfl
  powf_pos x y hx hy h := ⟨(powf_cases hx hy h).1, (powf_cases hx hy h).2.1⟩
  powf_neg x y hx hy h hn := by
    change (powf x y).isNaN
    cases x with
    | nan => exact hx.elim
    | inf => exact hx.elim
    | fin s m => cases y with
      | nan => exact hy.elim
      | inf => exact hy.elim
      | fin t n =>
        rw [fin_toE] at h
        have h' : signed s m.1 < 0 := by exact_mod_cast h
        have hm : m.1 ≠ 0 := by
          intro h0; rw [h0] at h'; cases s <;> simp [signed] at h'
        have hs : s = true := by
          cases s
          · simp only [signed, Bool.false_eq_true, if_false] at h'; linarith [m.2.nonneg]
          · rfl
        subst hs
        have hk : ¬ ∃ k : ℤ, signed t n.1 = k := by
          rintro ⟨k, hk⟩; exact hn k (by rw [fin_toE, hk])
        rw [powf, if_neg]
        · simp only [powfCore, if_neg hm, if_true, if_neg hk]; trivial
        · rintro (⟨-, h0⟩ | ⟨-, h1⟩)
          · exact hn 0 (by rw [h0]; simp)
          · rw [fin_toE] at h1
            have : signed true m.1 = 1 := by exact_mod_cast h1
            linarith
  powf_nan y hy := by
    change (powf nan y).isNaN
    rw [powf, if_neg]
    · cases y <;> trivial
    · rintro (⟨-, h⟩ | ⟨h, -⟩)
      · exact hy h
      · exact h trivial
  powf_nan' x hx := by
    change (powf x nan).isNaN
    rw [powf, if_neg]
    · cases x <;> trivial
    · rintro (⟨h, -⟩ | ⟨-, h⟩)
      · exact h trivial
      · exact hx h
  powf_ge_one x y hx hy h h' :=
    (powf_cases hx hy (lt_of_lt_of_le zero_lt_one h)).2.2.1 h h'
  powf_le_one x y hx hy h h' :=
    (powf_cases hx hy (lt_of_lt_of_le zero_lt_one h)).2.2.2 h h'
  exp_pos x hx := ⟨(exp_cases hx).1, (exp_cases hx).2.1⟩
  exp_nan := trivial
  exp_ge_one x hx := (exp_cases hx).2.2.1
  exp_le_one x hx := (exp_cases hx).2.2.2.1
  exp_overflow x hx := (exp_cases hx).2.2.2.2
  ln_nan := trivial
  ln_neg x hx := (ln_cases hx).1
  ln_pos x hx := (ln_cases hx).2.1
  ln_ge x hx := (ln_cases hx).2.2.1
  ln_le x hx := (ln_cases hx).2.2.2.1
  ln_ten x hx := (ln_cases hx).2.2.2.2.1
  ln_finite x hx := (ln_cases hx.not_nan).2.2.2.2.2 hx
  hypot_nan x y hx hy := (hypot_cases hx hy).1
  hypot_left x y hx hy := (hypot_cases hx hy).2.1
  hypot_right x y hx hy := (hypot_cases hx hy).2.2
  hypot_le _ _ _ hx hy hb h := hypot_upper hx hy hb h
  expM1_pos x hx h := by
    change ¬ (expM1 x).isNaN ∧ 0 ≤ (expM1 x).toE
    cases x with
    | nan => exact (hx trivial).elim
    | inf s =>
      cases s
      · exact ⟨id, le_top⟩
      · exact absurd h (by simp only [toE]; decide)
    | fin s m =>
      rw [fin_toE] at h
      exact ⟨ieeeBase.round_not_nan _ _, round_ge_zero (by
        have := Real.one_le_exp (x := signed s m.1) (by exact_mod_cast h)
        linarith)⟩
  expM1_nan := trivial
  ln1p_pos x hx h := by
    change ¬ (ln1p x).isNaN ∧ 0 ≤ (ln1p x).toE
    cases x with
    | nan => exact (hx trivial).elim
    | inf s =>
      cases s
      · exact ⟨id, le_top⟩
      · exact absurd h (by simp only [toE]; decide)
    | fin s m =>
      rw [fin_toE] at h
      have h' : 0 ≤ signed s m.1 := by exact_mod_cast h
      have e : ln1p (fin s m) = ieeeBase.round s (Real.log (1 + signed s m.1)) := by
        rw [ln1p, if_neg (by linarith), if_neg (by linarith)]
      rw [e]
      exact ⟨ieeeBase.round_not_nan _ _, round_ge_zero (Real.log_nonneg (by linarith))⟩
  ln1p_nan := trivial

end Skillratings
