import Mathlib.Data.Int.Log
import Mathlib.Analysis.SpecialFunctions.Log.Basic
import Mathlib.Analysis.Complex.ExponentialBounds
import Verif.Proofs.FPBounds
import Verif.Proofs.FPScores
import Verif.Proofs.Logistic
import Verif.FPInstance
import Verif.Spec.Accuracy
/-
Rounding errors: a calculus of absolute errors for the operations of reading 3.
-/

namespace Skillratings
open FP FPVal Spec
variable {E : FloatEnv}

/-- Every magnitude below `2 ^ 1023` lies between two neighbouring representable numbers. -/
theorem bracket {x : ℝ} (h0 : 0 ≤ x) (h1 : x < 2 ^ 1023) : ∃ lo hi : ℝ, Rep lo ∧ Rep hi ∧ lo ≤ x ∧
    x ≤ hi ∧ hi - lo ≤ 1 / 2 ^ 52 * x + 1 / 2 ^ 1074 := by
  have cell : ∀ (k : ℤ), -1074 ≤ k → k ≤ 970 → x < 2 ^ 53 * (2 : ℝ) ^ k → ∃ lo hi : ℝ, Rep lo ∧ Rep hi ∧
      lo ≤ x ∧ x ≤ hi ∧ hi - lo = (2 : ℝ) ^ k := by
    intro k hk1 hk2 hx
    have hp : (0 : ℝ) < 2 ^ k := by positivity
    have hn0 : 0 ≤ x / 2 ^ k := by positivity
    set n := ⌊x / (2 : ℝ) ^ k⌋₊ with hn
    have a1 : (n : ℝ) ≤ x / 2 ^ k := Nat.floor_le hn0
    have a2 : x / 2 ^ k < n + 1 := Nat.lt_floor_add_one _
    rw [le_div_iff₀ hp] at a1
    rw [div_lt_iff₀ hp] at a2
    have hlt : n < 2 ^ 53 := by
      have : (n : ℝ) * 2 ^ k < 2 ^ 53 * 2 ^ k := a1.trans_lt hx
      exact_mod_cast lt_of_mul_lt_mul_right this hp.le
    refine ⟨n * 2 ^ k, (n + 1) * 2 ^ k, ⟨n, k, hlt, hk1, by omega, rfl⟩, ?_, a1, a2.le, by ring⟩
    by_cases h : n + 1 < 2 ^ 53
    · exact ⟨n + 1, k, h, hk1, by omega, by push_cast; ring⟩
    · have e : n + 1 = 2 ^ 53 := by omega
      refine ⟨2 ^ 52, k + 1, by norm_num, by omega, by omega, ?_⟩
      have e' : (n : ℝ) + 1 = 2 ^ 53 := by exact_mod_cast e
      rw [e', zpow_add_one₀ (by norm_num)]
      push_cast
      ring
  by_cases hs : x < 2 ^ (-1022 : ℤ)
  · obtain ⟨lo, hi, r1, r2, b1, b2, b3⟩ := cell (-1074) le_rfl (by norm_num) (by
      refine hs.trans_le ?_
      rw [show (2 : ℝ) ^ 53 = 2 ^ (53 : ℤ) by norm_cast, ← zpow_add₀ (by norm_num)]
      exact zpow_le_zpow_right₀ (by norm_num) (by norm_num))
    refine ⟨lo, hi, r1, r2, b1, b2, ?_⟩
    rw [b3]
    have e : (2 : ℝ) ^ (-1074 : ℤ) = 1 / 2 ^ 1074 := by
      rw [zpow_neg, one_div]; norm_cast
    rw [e]
    have : 0 ≤ 1 / 2 ^ 52 * x := by positivity
    linarith
  · rw [not_lt] at hs
    have hx : 0 < x := lt_of_lt_of_le (by positivity) hs
    have l1 : (2 : ℝ) ^ (Int.log 2 x) ≤ x := by exact_mod_cast Int.zpow_log_le_self (b := 2) (by norm_num) hx
    have l2 : x < (2 : ℝ) ^ (Int.log 2 x + 1) := by
      exact_mod_cast Int.lt_zpow_succ_log_self (b := 2) (by norm_num) x
    set e := Int.log 2 x with he
    have e1 : -1022 ≤ e := by
      have : (2 : ℝ) ^ (-1022 : ℤ) < 2 ^ (e + 1) := hs.trans_lt l2
      have := (zpow_lt_zpow_iff_right₀ (by norm_num : (1 : ℝ) < 2)).1 this
      omega
    have e2 : e < 1023 := by
      have : (2 : ℝ) ^ e < 2 ^ (1023 : ℤ) := l1.trans_lt (by exact_mod_cast h1)
      exact (zpow_lt_zpow_iff_right₀ (by norm_num : (1 : ℝ) < 2)).1 this
    obtain ⟨lo, hi, r1, r2, b1, b2, b3⟩ := cell (e - 52) (by omega) (by omega) (by
      refine l2.trans_le (le_of_eq ?_)
      rw [show (2 : ℝ) ^ 53 = 2 ^ (53 : ℤ) by norm_cast, ← zpow_add₀ (by norm_num)]
      congr 1; ring)
    refine ⟨lo, hi, r1, r2, b1, b2, ?_⟩
    rw [b3, zpow_sub₀ (by norm_num)]
    have : (2 : ℝ) ^ e / 2 ^ (52 : ℤ) ≤ 1 / 2 ^ 52 * x := by
      rw [show (2 : ℝ) ^ (52 : ℤ) = 2 ^ 52 by norm_cast, div_mul_eq_mul_div, one_mul]
      exact div_le_div_of_nonneg_right l1 (by positivity)
    have : (0 : ℝ) < 1 / 2 ^ 1074 := by positivity
    linarith

/-- The error of one rounding. -/
theorem round_near (s : Bool) {x : ℝ} (h : |x| < 2 ^ 1023) : (E.round s x).isFinite ∧
    |(E.round s x).toR - x| ≤ 1 / 2 ^ 52 * |x| + 1 / 2 ^ 1074 := by
  obtain ⟨lo, hi, r1, r2, b1, b2, b3⟩ := bracket (abs_nonneg x) h
  have s1 : SRep lo := by rw [SRep, abs_of_nonneg r1.nonneg]; exact r1
  have s2 : SRep hi := by rw [SRep, abs_of_nonneg r2.nonneg]; exact r2
  rcases le_total 0 x with hx | hx
  · rw [abs_of_nonneg hx] at b1 b2
    have h1 := In.of_round (E := E) s s1 s2 b1 b2
    have h2 : lo ≤ (E.round s x).toR ∧ (E.round s x).toR ≤ hi := h1.toR
    exact ⟨h1.finite, by rw [abs_le]; constructor <;> linarith [h2.1, h2.2]⟩
  · rw [abs_of_nonpos hx] at b1 b2
    have h1 := In.of_round (E := E) s s2.neg s1.neg (by linarith : -hi ≤ x) (by linarith)
    have h2 : -hi ≤ (E.round s x).toR ∧ (E.round s x).toR ≤ -lo := h1.toR
    exact ⟨h1.finite, by rw [abs_le]; constructor <;> linarith [h2.1, h2.2]⟩

private theorem tiny : (1 : ℝ) / 2 ^ 1074 ≤ 1 / 2 ^ 52 * (1 / 2 ^ 1000) := by
  rw [div_mul_div_comm, one_mul, ← pow_add]
  exact one_div_le_one_div_of_le (by positivity) (pow_le_pow_right₀ (by norm_num) (by norm_num))

private theorem big {x : ℝ} (h : x ≤ 2 ^ 1000) : x < 2 ^ 1023 :=
  h.trans_lt (pow_lt_pow_right₀ (by norm_num) (by norm_num))

/-- Absolute form. -/
theorem round_abs (s : Bool) {x M : ℝ} (h : |x| ≤ M) (h1 : 1 ≤ M) (h2 : M ≤ 2 ^ 1000) :
    Near (E := E) (M / 2 ^ 51) (E.round s x) x := by
  obtain ⟨a, b⟩ := round_near (E := E) s (big (h.trans h2))
  refine ⟨a, b.trans ?_⟩
  have t := tiny
  have : (1 : ℝ) / 2 ^ 1000 ≤ 1 := by
    rw [div_le_one (by positivity)]; exact one_le_pow₀ (by norm_num)
  have e : M / 2 ^ 51 = 1 / 2 ^ 52 * M + 1 / 2 ^ 52 * M := by ring
  rw [e]
  have h3 := mul_le_mul_of_nonneg_left h (by positivity : (0 : ℝ) ≤ 1 / 2 ^ 52)
  have h4 := mul_le_mul_of_nonneg_left (this.trans h1) (by positivity : (0 : ℝ) ≤ 1 / 2 ^ 52)
  linarith

/-- Relative form. -/
theorem round_rel (s : Bool) {x : ℝ} (h1 : 1 / 2 ^ 1000 ≤ |x|) (h2 : |x| ≤ 2 ^ 1000) :
    Near (E := E) (|x| / 2 ^ 51) (E.round s x) x := by
  obtain ⟨a, b⟩ := round_near (E := E) s (big h2)
  refine ⟨a, b.trans ?_⟩
  have t := tiny
  have e : |x| / 2 ^ 51 = 1 / 2 ^ 52 * |x| + 1 / 2 ^ 52 * |x| := by ring
  rw [e]
  have h4 := mul_le_mul_of_nonneg_left h1 (by positivity : (0 : ℝ) ≤ 1 / 2 ^ 52)
  linarith

namespace FP
variable {x y z : FP E} {a b c ε δ γ M : ℝ}

theorem _root_.Skillratings.Spec.Near.mono (h : Near ε x a) (h' : ε ≤ δ) : Near δ x a := ⟨h.1, h.2.trans h'⟩

theorem _root_.Skillratings.Spec.Near.abs_le (h : Near ε x a) : |x.toR| ≤ |a| + ε := by
  have e : x.toR = a + (x.toR - a) := by ring
  rw [e]
  exact (abs_add_le _ _).trans (by linarith [h.2])

theorem near_self (h : x.isFinite) : Near 0 x x.toR := ⟨h, by simp⟩

theorem near_of_in {v : ℝ} (h : In (E := E) (v : EReal) (v : EReal) x) : Near 0 x v :=
  ⟨h.finite, by rw [le_antisymm h.toR.2 h.toR.1]; simp⟩

theorem _root_.Skillratings.Spec.Near.neg (h : Near ε x a) : Near ε (-x) (-a) := by
  refine ⟨by simpa using h.1, ?_⟩
  rw [toR_neg', ← abs_neg]
  convert h.2 using 2
  ring

/-- Chains a computed value to a rounding of an exact one. -/
theorem _root_.Skillratings.Spec.Near.trans {s : Bool} {v : ℝ} (h : Near (E := E) γ (E.round s v) v) (hv : |v - a| ≤ ε)
    (e : x = E.round s v) : Near (ε + γ) x a := by
  subst e
  refine ⟨h.1, ?_⟩
  have e : (E.round s v).toR - a = ((E.round s v).toR - v) + (v - a) := by ring
  have := h.2
  change |FP.toR (E := E) (E.round s v) - a| ≤ _
  rw [e]
  exact (abs_add_le _ _).trans (by linarith)

theorem near_add (hx : Near ε x a) (hy : Near δ y b) (hM : |a + b| + (ε + δ) ≤ M) (h1 : 1 ≤ M)
    (h2 : M ≤ 2 ^ 1000) : Near (ε + δ + M / 2 ^ 51) (x + y) (a + b) := by
  obtain ⟨s, e⟩ := add_fin hx.1 hy.1
  have hv : |x.toR + y.toR - (a + b)| ≤ ε + δ := by
    have : x.toR + y.toR - (a + b) = (x.toR - a) + (y.toR - b) := by ring
    rw [this]
    exact (abs_add_le _ _).trans (add_le_add hx.2 hy.2)
  refine Near.trans (round_abs s ?_ h1 h2) hv e
  have e2 : x.toR + y.toR = (a + b) + (x.toR + y.toR - (a + b)) := by ring
  rw [e2]
  exact (abs_add_le _ _).trans (by linarith)

theorem near_sub (hx : Near ε x a) (hy : Near δ y b) (hM : |a - b| + (ε + δ) ≤ M) (h1 : 1 ≤ M)
    (h2 : M ≤ 2 ^ 1000) : Near (ε + δ + M / 2 ^ 51) (x - y) (a - b) := by
  have := near_add hx hy.neg (by rwa [← sub_eq_add_neg]) h1 h2
  rwa [← sub_eq_add_neg, ← sub_eq] at this

theorem near_mul_err (hx : Near ε x a) (hy : Near δ y b) :
    |x.toR * y.toR - a * b| ≤ ε * |b| + |a| * δ + ε * δ := by
  have hε : 0 ≤ ε := (abs_nonneg _).trans hx.2
  have e : x.toR * y.toR - a * b
      = (x.toR - a) * b + a * (y.toR - b) + (x.toR - a) * (y.toR - b) := by ring
  rw [e]
  refine (abs_add_le _ _).trans (add_le_add ((abs_add_le _ _).trans (add_le_add ?_ ?_)) ?_)
  · rw [abs_mul]; exact mul_le_mul_of_nonneg_right hx.2 (abs_nonneg _)
  · rw [abs_mul]; exact mul_le_mul_of_nonneg_left hy.2 (abs_nonneg _)
  · rw [abs_mul]; exact mul_le_mul hx.2 hy.2 (abs_nonneg _) hε

theorem near_mul (hx : Near ε x a) (hy : Near δ y b)
    (hM : |a * b| + (ε * |b| + |a| * δ + ε * δ) ≤ M) (h1 : 1 ≤ M)
    (h2 : M ≤ 2 ^ 1000) : Near (ε * |b| + |a| * δ + ε * δ + M / 2 ^ 51) (x * y) (a * b) := by
  obtain ⟨s, e⟩ := mul_fin hx.1 hy.1
  have hv := near_mul_err hx hy
  refine Near.trans (round_abs s ?_ h1 h2) hv e
  have e2 : x.toR * y.toR = a * b + (x.toR * y.toR - a * b) := by ring
  rw [e2]
  exact (abs_add_le _ _).trans (by linarith)

theorem near_mulAdd (hx : Near ε x a) (hy : Near δ y b) (hz : Near γ z c)
    (hM : |a * b + c| + (ε * |b| + |a| * δ + ε * δ + γ) ≤ M) (h1 : 1 ≤ M)
    (h2 : M ≤ 2 ^ 1000) :
    Near (ε * |b| + |a| * δ + ε * δ + γ + M / 2 ^ 51) (Flt.mulAdd x y z) (a * b + c) := by
  obtain ⟨s, e⟩ := mulAdd_fin hx.1 hy.1 hz.1
  have hv : |x.toR * y.toR + z.toR - (a * b + c)| ≤ ε * |b| + |a| * δ + ε * δ + γ := by
    have e : x.toR * y.toR + z.toR - (a * b + c) = (x.toR * y.toR - a * b) + (z.toR - c) := by ring
    rw [e]
    exact (abs_add_le _ _).trans (add_le_add (near_mul_err hx hy) hz.2)
  refine Near.trans (round_abs s ?_ h1 h2) hv e
  have e2 : x.toR * y.toR + z.toR = (a * b + c) + (x.toR * y.toR + z.toR - (a * b + c)) := by ring
  rw [e2]
  exact (abs_add_le _ _).trans (by linarith)

/-- Division by an exact constant. -/
theorem near_div_const (hx : Near ε x a) (hy : Near 0 y b) (hb : 0 < b)
    (hM : (|a| + ε) / b ≤ M) (h1 : 1 ≤ M) (h2 : M ≤ 2 ^ 1000) :
    Near (ε / b + M / 2 ^ 51) (x / y) (a / b) := by
  have ey : y.toR = b := by
    have := abs_nonpos_iff.1 hy.2; linarith
  obtain ⟨s, e⟩ := div_fin hx.1 hy.1 (by rw [ey]; exact hb.ne')
  rw [ey] at e
  refine Near.trans (round_abs s ?_ h1 h2) ?_ e
  · rw [abs_div, abs_of_pos hb]
    exact (div_le_div_of_nonneg_right hx.abs_le hb.le).trans hM
  · rw [← sub_div, abs_div, abs_of_pos hb]
    exact div_le_div_of_nonneg_right hx.2 hb.le

end FP

/-! ### Logistic scores -/

private theorem ten_pow_sub_one {s : ℝ} (h : |s| ≤ 1 / 4) : |(10 : ℝ) ^ s - 1| ≤ 5 * |s| := by
  have hl : Real.log 10 ≤ 5 / 2 := by have := log_ten_lt; linarith
  have hl0 := log_ten_pos
  rw [Real.rpow_def_of_pos (by norm_num)]
  have h1 : |Real.log 10 * s| ≤ 5 / 2 * |s| := by
    rw [abs_mul, abs_of_pos hl0]
    exact mul_le_mul_of_nonneg_right hl (abs_nonneg _)
  have := Real.abs_exp_sub_one_le (x := Real.log 10 * s) (by linarith)
  linarith

private theorem ten_big : ∃ B : ℝ, (∀ {x : ℝ}, x ≤ B → x ≤ 2 ^ 1000) ∧
    (∀ {x : ℝ}, 1 / B ≤ x → 1 / 2 ^ 1000 ≤ x) ∧ 2 * (1 + (10 : ℝ) ^ (200 : ℝ)) ≤ B := by
  refine ⟨2 ^ 1000, fun h => h, fun h => h, ?_⟩
  have h3 : (10 : ℝ) ^ (200 : ℝ) = 10 ^ (200 : ℕ) := by
    rw [← Real.rpow_natCast]; norm_num
  have h4 : (10 : ℝ) ^ 200 ≤ 16 ^ 200 := pow_le_pow_left₀ (by norm_num) (by norm_num) _
  have h5 : (1 : ℝ) ≤ 16 ^ 200 := one_le_pow₀ (by norm_num)
  have h6 : (16 : ℝ) ^ 200 * 4 ≤ 2 ^ 1000 := by
    rw [show (16 : ℝ) = 2 ^ 4 by norm_num, ← pow_mul, show (4 : ℝ) = 2 ^ 2 by norm_num, ← pow_add]
    exact pow_le_pow_right₀ (by norm_num) (by norm_num)
  rw [h3]
  generalize (2 : ℝ) ^ 1000 = b at *
  generalize (16 : ℝ) ^ 200 = c at *
  generalize (10 : ℝ) ^ 200 = d at *
  linarith

set_option maxHeartbeats 1000000 in
/-- `1 + w` and its reciprocal, where `w` is a power of ten of an inaccurate exponent. -/
theorem near_logistic_core {t p w : FP E} {z δ : ℝ} (ht : Near δ t z)
    (hδ : δ ≤ 1 / 2 ^ 10) (hz : |z| ≤ 200)
    (hp : Near (10 ^ t.toR / 2 ^ 50) p (10 ^ t.toR))
    (hw : ∃ s, w = E.round s (1 + p.toR)) :
    Near (12 * δ + 1 / 2 ^ 46) (Flt.recip w) (1 / (1 + 10 ^ z)) := by
  have hδ0 : 0 ≤ δ := (abs_nonneg _).trans ht.2
  set P : ℝ := 10 ^ z with hP
  have hP0 : 0 < P := by positivity
  have hPbig : P ≤ 10 ^ (200 : ℝ) :=
    Real.rpow_le_rpow_of_exponent_le (by norm_num) (le_of_abs_le hz)
  -- the power
  have hs : |(10 : ℝ) ^ (t.toR - z) - 1| ≤ 5 * δ :=
    (ten_pow_sub_one (by
      have : (1 : ℝ) / 2 ^ 10 ≤ 1 / 4 := by norm_num
      linarith [ht.2])).trans (by linarith [ht.2])
  have e1 : (10 : ℝ) ^ t.toR = P * 10 ^ (t.toR - z) := by
    rw [hP, ← Real.rpow_add (by norm_num)]; congr 1; ring
  set θ : ℝ := 5 * δ + (1 + 5 * δ) / 2 ^ 50 with hθ
  have hT : |(10 : ℝ) ^ t.toR - P| ≤ P * (5 * δ) := by
    rw [e1, show P * (10 : ℝ) ^ (t.toR - z) - P = P * (10 ^ (t.toR - z) - 1) by ring, abs_mul,
      abs_of_pos hP0]
    exact mul_le_mul_of_nonneg_left hs hP0.le
  have hT' : (10 : ℝ) ^ t.toR ≤ P * (1 + 5 * δ) := by
    have := le_of_abs_le hT; linarith
  have hpP : |p.toR - P| ≤ P * θ := by
    have e : p.toR - P = (p.toR - 10 ^ t.toR) + (10 ^ t.toR - P) := by ring
    rw [e]
    have h2 : (10 : ℝ) ^ t.toR / 2 ^ 50 ≤ P * ((1 + 5 * δ) / 2 ^ 50) := by
      rw [mul_div_assoc']
      exact div_le_div_of_nonneg_right hT' (by positivity)
    refine (abs_add_le _ _).trans ?_
    rw [hθ]
    have := hp.2
    linarith
  have hθ1 : θ ≤ 1 / 2 := by
    rw [hθ]; norm_num at hδ ⊢; linarith
  have hθ0 : 0 ≤ θ := by positivity
  -- one plus the power
  set W : ℝ := 1 + P with hW
  have hW1 : 1 ≤ W := by linarith
  have hW0 : 0 < W := by linarith
  obtain ⟨s, ew⟩ := hw
  have hw1 : |1 + p.toR - W| ≤ W * θ := by
    have e : 1 + p.toR - W = p.toR - P := by rw [hW]; ring
    rw [e]
    exact hpP.trans (mul_le_mul_of_nonneg_right (by linarith) hθ0)
  have hlow : W / 2 ≤ 1 + p.toR := by
    have := neg_le_of_abs_le hw1
    nlinarith
  have hup : 1 + p.toR ≤ 2 * W := by
    have := le_of_abs_le hw1
    nlinarith
  have hpos : 0 < 1 + p.toR := by linarith
  obtain ⟨B, hB, hB', hPB⟩ := ten_big
  have hWbig : 2 * W ≤ B := by
    have : 2 * (1 + P) ≤ 2 * (1 + 10 ^ (200 : ℝ)) := by linarith
    exact this.trans hPB
  have hB2 : 2 ≤ B := by linarith
  have hsmall : 1 / B ≤ 1 / 2 := one_div_le_one_div_of_le (by norm_num) hB2
  have hwr := round_rel (E := E) s (x := 1 + p.toR) (hB' (by rw [abs_of_pos hpos]; linarith))
    (hB (by rw [abs_of_pos hpos]; linarith))
  rw [abs_of_pos hpos, ← ew] at hwr
  have hw2 : |w.toR - W| ≤ W * (θ + 2 / 2 ^ 51) := by
    have e : w.toR - W = (w.toR - (1 + p.toR)) + (1 + p.toR - W) := by ring
    rw [e]
    refine (abs_add_le _ _).trans ?_
    have := hwr.2
    have h4 : (1 + p.toR) / 2 ^ 51 ≤ W * (2 / 2 ^ 51) := by
      rw [mul_div_assoc']
      exact div_le_div_of_nonneg_right (by linarith) (by positivity)
    linarith
  set φ : ℝ := θ + 2 / 2 ^ 51 with hφ
  have hφ0 : 0 ≤ φ := by positivity
  have hφ1 : φ ≤ 1 / 50 := by
    rw [hφ, hθ]; norm_num at hδ ⊢; linarith
  have hwlow : W * (1 - φ) ≤ w.toR := by
    have := neg_le_of_abs_le hw2; linarith
  have hwpos : 0 < w.toR := by
    have : 0 < W * (1 - φ) := mul_pos hW0 (by linarith)
    linarith
  have hwup : w.toR ≤ 2 * W := by
    have := le_of_abs_le hw2
    nlinarith
  -- the reciprocal
  have hfin : w.isFinite := hwr.1
  obtain ⟨s', e'⟩ := div_fin (E := E) (x := (1.0 : FP E)) one_in.finite hfin hwpos.ne'
  have h1R : (1.0 : FP E).toR = 1 := le_antisymm one_in.toR.2 one_in.toR.1
  rw [h1R] at e'
  rw [recip_eq]
  have hinv : |1 / w.toR - 1 / W| ≤ 1 / W * (φ / (1 - φ)) := by
    rw [div_sub_div _ _ hwpos.ne' hW0.ne', abs_div, abs_of_pos (mul_pos hwpos hW0), one_mul, mul_one,
      abs_sub_comm, div_mul_div_comm, one_mul]
    rw [div_le_div_iff₀ (mul_pos hwpos hW0) (mul_pos hW0 (by linarith))]
    have h1 : |w.toR - W| * (1 - φ) ≤ φ * w.toR := by
      have a1 := mul_le_mul_of_nonneg_right hw2 (by linarith : 0 ≤ 1 - φ)
      have a2 := mul_le_mul_of_nonneg_left hwlow hφ0
      nlinarith
    nlinarith [mul_le_mul_of_nonneg_right h1 hW0.le]
  have hr := round_rel (E := E) s' (x := 1 / w.toR) (hB' (by
      rw [abs_of_pos (by positivity)]
      exact one_div_le_one_div_of_le hwpos (by linarith))) (hB (by
      rw [abs_of_pos (by positivity), div_le_iff₀ hwpos]
      have h5 : 1 / 2 ≤ w.toR := by nlinarith
      nlinarith))
  have hW1' : 1 / W ≤ 1 := by rw [div_le_one hW0]; exact hW1
  have hinv2 : |1 / w.toR - 1 / W| ≤ φ / (1 - φ) := by
    refine hinv.trans (mul_le_of_le_one_left (div_nonneg hφ0 (by linarith)) hW1')
  have hfrac : φ / (1 - φ) ≤ 51 / 50 * φ * (51 / 50) := by
    rw [div_le_iff₀ (by linarith)]
    nlinarith
  rw [abs_of_pos (by positivity)] at hr
  refine (Near.trans hr hinv2 e').mono ?_
  have h6 : 1 / w.toR ≤ 2 := by
    rw [div_le_iff₀ hwpos]
    nlinarith
  have h7 : 1 / w.toR / 2 ^ 51 ≤ 2 / 2 ^ 51 := div_le_div_of_nonneg_right h6 (by positivity)
  have h8 : 51 / 50 * φ * (51 / 50) + 2 / 2 ^ 51 ≤ 12 * δ + 1 / 2 ^ 46 := by
    rw [hφ, hθ]
    norm_num at hδ ⊢
    nlinarith
  linarith

/-! ### The correctly rounded library is accurate -/

private theorem rounds_accurately {E : FloatEnv} {v z : ℝ} (e : v = Real.exp z) (hz : |z| ≤ 600) :
    Near (E := E) (v / 2 ^ 50) (E.round false v) v := by
  have hv : 0 < v := by rw [e]; exact Real.exp_pos _
  have hb : ∀ y : ℝ, y ≤ 600 → Real.exp y ≤ 2 ^ 1000 := by
    intro y hy
    have h2 : (2 : ℝ) ^ 1000 = Real.exp (1000 * Real.log 2) := by
      rw [show (1000 : ℝ) = ((1000 : ℕ) : ℝ) by norm_num, Real.exp_nat_mul, Real.exp_log (by norm_num)]
    rw [h2]
    exact Real.exp_le_exp.2 (by have := Real.log_two_gt_d9; linarith)
  have h1 : 1 / 2 ^ 1000 ≤ |v| := by
    rw [abs_of_pos hv, e, div_le_iff₀ (by positivity)]
    have h3 := hb (-z) (by have := neg_le_of_abs_le hz; linarith)
    have h4 := mul_le_mul_of_nonneg_left h3 (Real.exp_pos z).le
    rwa [← Real.exp_add, add_neg_cancel, Real.exp_zero] at h4
  have h2 : |v| ≤ 2 ^ 1000 := by
    rw [abs_of_pos hv, e]; exact hb z (le_of_abs_le hz)
  have := round_rel (E := E) false h1 h2
  rw [abs_of_pos hv] at this
  refine this.mono ?_
  exact div_le_div_of_nonneg_left hv.le (by positivity) (by norm_num)

theorem ieee_accurate : ieee.Accurate where
  powf_ten := by
    intro x y hx hy hb
    cases y with
    | nan => exact hy.elim
    | inf s => exact hy.elim
    | fin t n =>
      have hlog := log_ten_lt
      have hl0 := log_ten_pos
      change |signed t n.1| ≤ 250 at hb
      have hz : |Real.log 10 * signed t n.1| ≤ 600 := by
        rw [abs_mul, abs_of_pos hl0]
        nlinarith [abs_nonneg (signed t n.1)]
      have key := rounds_accurately (E := ieee) (Real.rpow_def_of_pos (by norm_num : (0 : ℝ) < 10) (signed t n.1)) hz
      change Near (E := ieee) ((10 : ℝ) ^ signed t n.1 / 2 ^ 50) (Ieee.powf x (fin t n))
        ((10 : ℝ) ^ signed t n.1)
      by_cases h : (¬ (fin t n : FPVal).isNaN ∧ (fin t n : FPVal).toE = 0) ∨ (¬ FPVal.isNaN x ∧ FPVal.toE x = 1)
      · rcases h with h | h
        · have h0 : signed t n.1 = 0 := by
            have := h.2
            rw [Ieee.fin_toE] at this
            exact_mod_cast this
          rw [h0, Real.rpow_zero] at key ⊢
          have e : Ieee.powf x (fin t n) = Ieee.one := by
            unfold Ieee.powf; exact if_pos (.inl h)
          rw [e]
          exact key
        · have h1 : ((10 : ℝ) : EReal) = 1 := hx.symm.trans h.2
          have : (10 : ℝ) = 1 := by exact_mod_cast h1
          norm_num at this
      · have e0 : Ieee.powf x (fin t n) = Ieee.powfCore x (fin t n) := by
          unfold Ieee.powf; exact if_neg h
        rw [e0]
        cases x with
        | nan =>
          have : ((0 : ℝ) : EReal) = ((10 : ℝ) : EReal) := hx
          have : (0 : ℝ) = 10 := by exact_mod_cast this
          norm_num at this
        | inf s =>
          cases s
          · have h2 : (⊤ : EReal) = ((10 : ℝ) : EReal) := hx
            exact absurd h2.symm (EReal.coe_ne_top _)
          · have h2 : (⊥ : EReal) = ((10 : ℝ) : EReal) := hx
            exact absurd h2.symm (EReal.coe_ne_bot _)
        | fin s m =>
          have hm : signed s m.1 = 10 := by
            have h2 : ((signed s m.1 : ℝ) : EReal) = ((10 : ℝ) : EReal) := hx
            exact_mod_cast h2
          have hs : s = false := by
            cases s
            · rfl
            · simp only [signed, if_true] at hm; linarith [m.2.nonneg]
          subst hs
          have hm' : m.1 = 10 := hm
          have e : Ieee.powfCore (fin false m) (fin t n)
              = ieeeBase.round false (m.1 ^ (signed t n.1)) := by
            simp only [Ieee.powfCore, if_neg (show m.1 ≠ 0 by rw [hm']; norm_num),
              Bool.false_eq_true, if_false]
          rw [e, hm']
          exact key
  exp := by
    intro x hx hb
    cases x with
    | nan => exact hx.elim
    | inf s => exact hx.elim
    | fin s m =>
      change |signed s m.1| ≤ 500 at hb
      exact rounds_accurately (E := ieee) rfl (by linarith : |signed s m.1| ≤ 600)

/-! ### The logistic map does not expand -/

theorem sigmoid_slope (a b : ℝ) : ∃ l, 0 ≤ l ∧ l ≤ 1 / 4 ∧
    Real.sigmoid a - Real.sigmoid b = l * (a - b) := by
  have key : ∀ {a b : ℝ}, a < b → ∃ l, 0 ≤ l ∧ l ≤ 1 / 4 ∧
      Real.sigmoid b - Real.sigmoid a = l * (b - a) := by
    intro a b hab
    obtain ⟨c, -, hc⟩ := exists_hasDerivAt_eq_slope Real.sigmoid
      (fun x => Real.sigmoid x * (1 - Real.sigmoid x)) hab
      (differentiable_sigmoid.continuous.continuousOn) (fun x _ => Real.hasDerivAt_sigmoid x)
    refine ⟨_, (sigmoid_mul_one_sub_pos c).le, sigmoid_mul_one_sub_le c, ?_⟩
    rw [hc]
    have : b - a ≠ 0 := by linarith
    field_simp
  rcases lt_trichotomy a b with h | h | h
  · obtain ⟨l, h0, h1, h2⟩ := key h
    exact ⟨l, h0, h1, by linarith⟩
  · exact ⟨0, le_rfl, by norm_num, by rw [h]; ring⟩
  · exact key h

/-- A step along a logistic curve that is not too steep brings two pairs of ratings not further
apart than they were. -/
theorem step_nonexpansive {k c v x y x' y' ε : ℝ} (hk : 0 ≤ k) (hc : 0 ≤ c) (hkc : k * c ≤ 4)
    (hx : |x - x'| ≤ ε) (hy : |y - y'| ≤ ε) :
    |(k * (v - Real.sigmoid (c * (x - y))) + x) - (k * (v - Real.sigmoid (c * (x' - y'))) + x')| ≤ ε := by
  obtain ⟨l, l0, l1, hl⟩ := sigmoid_slope (c * (x - y)) (c * (x' - y'))
  set μ := k * c * l with hμ
  have m0 : 0 ≤ μ := by positivity
  have m1 : μ ≤ 1 := by
    have := mul_le_mul hkc l1 l0 (by norm_num)
    linarith
  have e : (k * (v - Real.sigmoid (c * (x - y))) + x) - (k * (v - Real.sigmoid (c * (x' - y'))) + x')
      = (1 - μ) * (x - x') + μ * (y - y') := by
    have : (k * (v - Real.sigmoid (c * (x - y))) + x) - (k * (v - Real.sigmoid (c * (x' - y'))) + x')
      = (x - x') - k * (Real.sigmoid (c * (x - y)) - Real.sigmoid (c * (x' - y'))) := by ring
    rw [this, hl, hμ]
    ring
  rw [e]
  refine (abs_add_le _ _).trans ?_
  rw [abs_mul, abs_mul, abs_of_nonneg m0, abs_of_nonneg (by linarith : 0 ≤ 1 - μ)]
  nlinarith [mul_le_mul_of_nonneg_left hx (by linarith : 0 ≤ 1 - μ), mul_le_mul_of_nonneg_left hy m0]

/-- The same for the opponent. -/
theorem step_nonexpansive' {k c v x y x' y' ε : ℝ} (hk : 0 ≤ k) (hc : 0 ≤ c) (hkc : k * c ≤ 4)
    (hx : |x - x'| ≤ ε) (hy : |y - y'| ≤ ε) :
    |(k * (v - (1 - Real.sigmoid (c * (x - y)))) + y)
      - (k * (v - (1 - Real.sigmoid (c * (x' - y')))) + y')| ≤ ε := by
  have := step_nonexpansive (v := v) hk hc hkc hy hx
  have e : ∀ u w : ℝ, 1 - Real.sigmoid (c * (u - w)) = Real.sigmoid (c * (w - u)) := by
    intro u w
    rw [← Real.sigmoid_neg]; congr 1; ring
  rwa [e, e]

/-- Two tournaments of the same games, one of them in another arithmetic. -/
theorem tournament_related {ι γ γ' R R' : Type} [DecidableEq ι]
    (rate : R → R → Outcomes → γ → R × R) (rate' : R' → R' → Outcomes → γ' → R' × R') (f : γ → γ')
    (P : ℕ → R → R' → Prop) (Q : γ → Prop) (N : ℕ)
    (hmono : ∀ n a a', P n a a' → P (n + 1) a a')
    (h : ∀ n a b a' b' o c, n + 1 ≤ N → Q c → P n a a' → P n b b' →
      P (n + 1) (rate a b o c).1 (rate' a' b' o (f c)).1 ∧
      P (n + 1) (rate a b o c).2 (rate' a' b' o (f c)).2)
    (pool : ι → R) (pool' : ι → R') (games : List (Spec.Game ι γ)) (m : ℕ) (hN : m + games.length ≤ N)
    (hQ : ∀ g ∈ games, Q g.config) (hp : ∀ i, P m (pool i) (pool' i)) (i : ι) :
    P (m + games.length) (Spec.tournament rate pool games i)
      (Spec.tournament rate' pool' (games.map (Spec.Game.mapConfig f)) i) := by
  induction games generalizing pool pool' m with
  | nil => exact hp i
  | cons g gs ih =>
    have e : Spec.tournament rate pool (g :: gs)
        = Spec.tournament rate (Spec.playGame rate pool g) gs := rfl
    have e' : Spec.tournament rate' pool' ((g :: gs).map (Spec.Game.mapConfig f))
        = Spec.tournament rate' (Spec.playGame rate' pool' (Spec.Game.mapConfig f g))
            (gs.map (Spec.Game.mapConfig f)) := rfl
    rw [e, e']
    simp only [List.length_cons] at hN ⊢
    have := ih (Spec.playGame rate pool g) (Spec.playGame rate' pool' (Spec.Game.mapConfig f g)) (m + 1)
      (by omega) (fun g' hg' => hQ g' (List.mem_cons_of_mem _ hg')) (by
        intro j
        have hg := h m (pool g.first) (pool g.second) (pool' g.first) (pool' g.second) g.outcome g.config
          (by omega) (hQ g List.mem_cons_self) (hp _) (hp _)
        simp only [Spec.playGame, Spec.Game.mapConfig]
        by_cases h2 : j = g.second
        · subst h2; rw [Function.update_self, Function.update_self]; exact hg.2
        · rw [Function.update_of_ne h2, Function.update_of_ne h2]
          by_cases h1 : j = g.first
          · subst h1; rw [Function.update_self, Function.update_self]; exact hg.1
          · rw [Function.update_of_ne h1, Function.update_of_ne h1]; exact hmono _ _ _ (hp j))
    rwa [show m + 1 + gs.length = m + (gs.length + 1) by ring] at this

end Skillratings
