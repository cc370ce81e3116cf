import Verif.Proofs.FPVolNoise
import Verif.Proofs.FPSecant
/-
The computed function of step 5 of Glicko-2 as the iteration needs it.
-/
namespace Skillratings
open FP FPVal Spec
variable {E : FloatEnv}

/-! ### The grid of the floating-point numbers -/

/-- A number of at least `2 ^ k` is a multiple of `2 ^ (k - 52)`. -/
theorem SRep.grid {v : ℝ} {k : ℤ} (h : SRep v) (hk : (2 : ℝ) ^ k ≤ |v|) : ∃ N : ℤ, v = N * 2 ^ (k - 52) := by
  have main : ∃ N : ℤ, |v| = N * 2 ^ (k - 52) := by
    obtain ⟨n, q, hn, -, -, e⟩ := h
    have hq : k - 52 ≤ q := by
      by_contra hc
      have h1 : q + 53 ≤ k := by omega
      have h2 : (n : ℝ) * 2 ^ q < 2 ^ 53 * 2 ^ q :=
        mul_lt_mul_of_pos_right (by exact_mod_cast hn) (by positivity)
      have h3 : (2 : ℝ) ^ 53 * 2 ^ q = 2 ^ (q + 53) := by rw [zpow_add₀ (by norm_num), mul_comm]; norm_num
      have h4 : (2 : ℝ) ^ (q + 53) ≤ 2 ^ k := zpow_le_zpow_right₀ (by norm_num) h1
      rw [e] at hk
      linarith
    obtain ⟨j, hj⟩ := Int.eq_ofNat_of_zero_le (by omega : 0 ≤ q - (k - 52))
    refine ⟨(n : ℤ) * 2 ^ j, ?_⟩
    rw [e, show q = (j : ℤ) + (k - 52) by omega, zpow_add₀ (by norm_num), zpow_natCast]
    push_cast
    ring
  obtain ⟨N, hN⟩ := main
  rcases abs_cases v with ⟨h1, -⟩ | ⟨h1, -⟩
  · exact ⟨N, by rw [← hN, h1]⟩
  · exact ⟨-N, by push_cast; rw [neg_mul, ← hN, h1]; ring⟩

/-- Two different numbers, one of which is not small, are not too close. -/
theorem SRep.gap {v w : ℝ} {k : ℤ} (hv : SRep v) (hw : SRep w) (h : (2 : ℝ) ^ k ≤ |v|) :
    v = w ∨ (2 : ℝ) ^ (k - 53) ≤ |v - w| := by
  have e : (2 : ℝ) ^ k = 2 * 2 ^ (k - 1) := by
    rw [zpow_sub₀ (by norm_num), zpow_one]; ring
  rcases le_or_gt ((2 : ℝ) ^ (k - 1)) |w| with h' | h'
  · obtain ⟨M, hM⟩ := hw.grid h'
    obtain ⟨N, hN⟩ := hv.grid (k := k - 1) (by rw [e] at h; linarith [zpow_pos (two_pos : (0:ℝ) < 2) (k - 1)])
    rw [show k - 1 - 52 = k - 53 by ring] at hM hN
    rcases eq_or_ne N M with h0 | h0
    · left; rw [hM, hN, h0]
    · right
      rw [hM, hN, ← sub_mul, abs_mul, abs_of_pos (by positivity : (0 : ℝ) < 2 ^ (k - 53))]
      have : (1 : ℝ) ≤ |(N : ℝ) - M| := by
        have := Int.one_le_abs (sub_ne_zero.2 h0)
        exact_mod_cast this
      exact le_mul_of_one_le_left (by positivity) this
  · right
    have h1 := abs_sub_abs_le_abs_sub v w
    have h2 : (2 : ℝ) ^ (k - 53) ≤ 2 ^ (k - 1) := zpow_le_zpow_right₀ (by norm_num) (by omega)
    rw [e] at h
    linarith

/-- Finite numbers of the same non-zero value are the same. -/
theorem FP.toR_inj_ne {x y : FP E} (hx : x.isFinite) (hy : y.isFinite) (h0 : x.toR ≠ 0) (h : x.toR = y.toR) :
    x = y := by
  change FPVal at x y
  cases x with
  | nan => exact hx.elim
  | inf => exact hx.elim
  | fin s m =>
    cases y with
    | nan => exact hy.elim
    | inf => exact hy.elim
    | fin u n =>
      change signed s m.1 = signed u n.1 at h
      change signed s m.1 ≠ 0 at h0
      have h1 := m.2.nonneg
      have h2 := n.2.nonneg
      have key : s = u ∧ m.1 = n.1 := by
        cases s <;> cases u <;> simp only [signed, if_true, if_false, Bool.false_eq_true] at h h0 ⊢
        · exact ⟨trivial, h⟩
        · exfalso; apply h0; linarith
        · exfalso; apply h0; linarith
        · exact ⟨trivial, by linarith⟩
      rw [key.1]
      congr 1
      exact Subtype.ext key.2

/-- Rounding does not go below a power of two. -/
theorem abs_round_ge {s : Bool} {v : ℝ} (k : ℕ) (hk : k ≤ 1074) (hf : (E.round s v).isFinite)
    (h : 1 / 2 ^ k ≤ |v|) : 1 / 2 ^ k ≤ |(E.round s v).toR| := by
  have hr := SRep.inv_two_pow k hk
  rcases abs_cases v with ⟨h1, -⟩ | ⟨h1, -⟩
  · rw [h1] at h
    exact (le_round_of hf hr h).trans (le_abs_self _)
  · rw [h1] at h
    have := round_le_of hf hr.neg (by linarith : v ≤ -(1 / 2 ^ k))
    rw [abs_of_nonpos (this.trans (by rw [neg_nonpos]; positivity))]
    linarith

theorem round_zero_toR (s : Bool) : (E.round s 0).toR = 0 := by
  have hf := E.round_finite s SRep.zero
  have := E.round_rep s SRep.zero
  rw [isFinite.toE_eq hf] at this
  exact_mod_cast this

theorem sub_zero_or {x y : FP E} (hx : x.isFinite) (hy : y.isFinite) (hf : (x - y).isFinite) (k : ℕ)
    (hk : k ≤ 1074) (h : x.toR = y.toR ∨ 1 / 2 ^ k ≤ |x.toR - y.toR|) :
    (x - y).toR = 0 ∨ 1 / 2 ^ k ≤ |(x - y).toR| := by
  obtain ⟨s, e⟩ := sub_fin hx hy
  rw [e] at hf ⊢
  rcases h with h | h
  · left; rw [h, sub_self]; exact round_zero_toR s
  · right; exact abs_round_ge k hk hf h

theorem mul_zero_or {x y : FP E} (hx : x.isFinite) (hy : y.isFinite) (hf : (x * y).isFinite) (k : ℕ)
    (hk : k ≤ 1074) (h : x.toR * y.toR = 0 ∨ 1 / 2 ^ k ≤ |x.toR * y.toR|) :
    (x * y).toR = 0 ∨ 1 / 2 ^ k ≤ |(x * y).toR| := by
  obtain ⟨s, e⟩ := mul_fin hx hy
  rw [e] at hf ⊢
  rcases h with h | h
  · left; rw [h]; exact round_zero_toR s
  · right; exact abs_round_ge k hk hf h

theorem div_zero_or {x y : FP E} (hx : x.isFinite) (hy : y.isFinite) (h0 : y.toR ≠ 0) (hf : (x / y).isFinite)
    (k : ℕ) (hk : k ≤ 1074) (h : x.toR = 0 ∨ 1 / 2 ^ k ≤ |x.toR / y.toR|) :
    (x / y).toR = 0 ∨ 1 / 2 ^ k ≤ |(x / y).toR| := by
  obtain ⟨s, e⟩ := div_fin hx hy h0
  rw [e] at hf ⊢
  rcases h with h | h
  · left; rw [h, zero_div]; exact round_zero_toR s
  · right; exact abs_round_ge k hk hf h

theorem gap_nat {x y : FP E} (hx : x.isFinite) (hy : y.isFinite) {k l : ℕ} (hl : l = k + 53)
    (h : 1 / 2 ^ k ≤ |x.toR|) : x.toR = y.toR ∨ 1 / 2 ^ l ≤ |x.toR - y.toR| := by
  have := SRep.gap (k := -(k : ℤ)) (isFinite.srep hx) (isFinite.srep hy)
    (by rw [zpow_neg, zpow_natCast, ← one_div]; exact h)
  rwa [show -(k : ℤ) - 53 = -((l : ℕ) : ℤ) by rw [hl]; push_cast; ring, zpow_neg, zpow_natCast, ← one_div] at this

namespace Glicko2
variable {Q P V vol tau x : FP E} {c d a₀ t r : ℝ}

/-- The computed function vanishes or is not very small, near the zero. -/
theorem fValue_tiny (L : E.Lib) (A : E.Accurate) (I : VolInput Q P V vol tau c d a₀ t) (hx : x.isFinite)
    (h1 : -20 ≤ x.toR) (h2 : x.toR ≤ -4) :
    (fValue x Q P V vol tau).toR = 0 ∨ 1 / 2 ^ 253 ≤ |(fValue x Q P V vol tau).toR| := by
  have h64 : |x.toR| ≤ 64 := by rw [abs_le]; constructor <;> linarith
  have ht := I.tpos
  have hd := I.dpos
  have hp := Real.exp_pos x.toR
  -- the exponential
  have he := exp_rel A hx h64
  have he1 : 1 / 2 ^ 40 ≤ Real.exp x.toR := by
    have h3 : Real.exp 20 ≤ 2 ^ 40 := by
      rw [show (20 : ℝ) = ((20 : ℕ) : ℝ) * 1 by norm_num, Real.exp_nat_mul]
      calc Real.exp 1 ^ 20 ≤ 4 ^ 20 := pow_le_pow_left₀ (Real.exp_pos 1).le
            ((Real.exp_one_lt_d9.le).trans (by norm_num)) _
        _ = 2 ^ 40 := by norm_num
    refine le_trans ?_ (Real.exp_le_exp.2 h1)
    rw [Real.exp_neg, ← one_div]
    exact one_div_le_one_div_of_le (Real.exp_pos _) h3
  have he2 : Real.exp x.toR ≤ 1 := by rw [← Real.exp_zero]; exact Real.exp_le_exp.2 (by linarith)
  obtain ⟨ep, elo, -⟩ := he.pos (by norm_num) hp
  have ee : 1 / 2 ^ 41 ≤ |(Flt.exp x).toR| := by
    rw [abs_of_pos ep]
    norm_num at he1 ⊢
    linarith
  -- the finite parts
  have hI := volI_sm L A I hx h64
  have hJ := volJ_sm (x := x) I hx h64
  have hF := (fValue_noise L A I hx h64).1
  have hden := den_rel L A I hx h64
  have hden0 : 0 < 2 * (d + Real.exp x.toR) ^ 2 := by positivity
  obtain ⟨dp, -, dhi⟩ := hden.pos (by norm_num) hden0
  have dhi' : ((2.0 : FP E) * Flt.powi (P + V + Flt.exp x) 2).toR ≤ 2 ^ 65 := by
    refine dhi.trans ?_
    have : d + Real.exp x.toR ≤ 2 ^ 31 := by
      have := I.d1
      norm_num at this ⊢
      linarith
    have := pow_le_pow_left₀ (by positivity) this 2
    norm_num at this ⊢
    linarith
  have fden := hden.1
  obtain ⟨n3, num, -, -⟩ := num_sm A I hx h64
  -- the first part
  have z1 := sub_zero_or I.cf he.1 n3.1.1 94 (by norm_num) (by
    rcases gap_nat he.1 I.cf (l := 94) rfl ee with g | g
    · exact Or.inl g.symm
    · exact Or.inr (by rw [abs_sub_comm]; exact g))
  have z2 := mul_zero_or he.1 n3.1.1 num.1.1 135 (by norm_num) (by
    rcases z1 with g | g
    · left; rw [g, mul_zero]
    · right
      rw [abs_mul, show (1 : ℝ) / 2 ^ 135 = 1 / 2 ^ 41 * (1 / 2 ^ 94) by norm_num]
      exact mul_le_mul ee g (by positivity) (abs_nonneg _))
  have z3 := div_zero_or num.1.1 fden dp.ne' hI.1.1 200 (by norm_num) (by
    rcases z2 with g | g
    · exact Or.inl g
    · right
      rw [abs_div, abs_of_pos dp, show (1 : ℝ) / 2 ^ 200 = 1 / 2 ^ 135 / 2 ^ 65 by norm_num]
      exact div_le_div₀ (abs_nonneg _) g dp dhi')
  -- the second part
  have hs : (x - Flt.ln (Flt.powi vol 2)).isFinite := (volS_sm I hx h64).1.1
  have z4 := sub_zero_or hx I.af hs 53 (by norm_num) (gap_nat hx I.af (k := 0) rfl (by
    rw [abs_of_neg (by linarith)]; norm_num; linarith))
  have z5 := div_zero_or hs I.tf (by rw [I.te]; exact ht.ne') hJ.1.1 54 (by norm_num) (by
    rcases z4 with g | g
    · exact Or.inl g
    · right
      rw [abs_div, I.te, abs_of_pos ht, show (1 : ℝ) / 2 ^ 54 = 1 / 2 ^ 53 / 2 by norm_num]
      exact div_le_div₀ (abs_nonneg _) g ht (by linarith [I.t1]))
  -- the difference
  refine sub_zero_or hI.1.1 hJ.1.1 hF 253 (by norm_num) ?_
  rcases z3 with g | g
  · rcases z5 with g' | g'
    · left; rw [g, g']
    · right
      rw [g, zero_sub, abs_neg]
      exact le_trans (by norm_num) g'
  · exact gap_nat hI.1.1 hJ.1.1 rfl g

/-- The computed function follows the line through the zero. -/
theorem fValue_line (L : E.Lib) (A : E.Accurate) (I : VolInput Q P V vol tau c d a₀ t)
    (h0 : volF c d a₀ t r = 0) (hr : |r - a₀| ≤ 2 / 100) (hx : x.isFinite) (h : |x.toR - r| ≤ 41) :
    (fValue x Q P V vol tau).isFinite ∧
      ∃ k n : ℝ, t * (fValue x Q P V vol tau).toR = -(k * (x.toR - r)) + n ∧
        36 / 100 ≤ k ∧ k ≤ 22 / 10 ∧ |n| ≤ 1 / 2 ^ 40 ∧
        (|x.toR - r| ≤ 1 / 10 → 98 / 100 ≤ k ∧ k ≤ 102 / 100 ∧ |n| ≤ (27 / 100 + 4 * |x.toR - r|) / 2 ^ 50) := by
  have hr' := abs_le.1 hr
  have h' := abs_le.1 h
  have h64 : |x.toR| ≤ 64 := by
    rw [abs_le]; constructor <;> linarith [I.a0, I.a1]
  obtain ⟨hf, hn⟩ := fValue_noise L A I hx h64
  obtain ⟨k, e, k1, k2, k3⟩ := I.toVolParams.line h0 hr x.toR
  refine ⟨hf, k, t * (fValue x Q P V vol tau).toR - t * volF c d a₀ t x.toR, by rw [e]; ring, k1, k2, ?_, ?_⟩
  · refine hn.trans ?_
    have hF : |t * volF c d a₀ t x.toR| ≤ 22 / 10 * 41 := by
      rw [e, abs_neg, abs_mul, abs_of_nonneg (by linarith)]
      exact mul_le_mul k2 h (abs_nonneg _) (by norm_num)
    have hB := I.toVolParams.bound_one x.toR
    have ha : |x.toR - a₀| ≤ 42 := by
      rw [abs_le]; constructor <;> linarith
    have h1 : (1 : ℝ) / 2 ^ 200 ≤ 1 := by norm_num
    rw [div_le_iff₀ (by positivity)]
    generalize (1 : ℝ) / 2 ^ 200 = ζ at h1 ⊢
    generalize |t * volF c d a₀ t x.toR| = W at hF ⊢
    norm_num
    linarith
  · intro hx1
    obtain ⟨k4, k5⟩ := k3 hx1
    refine ⟨k4, k5, hn.trans ?_⟩
    have hx1' := abs_le.1 hx1
    have hF : |t * volF c d a₀ t x.toR| ≤ 102 / 100 * |x.toR - r| := by
      rw [e, abs_neg, abs_mul, abs_of_nonneg (by linarith)]
      exact mul_le_mul_of_nonneg_right k5 (abs_nonneg _)
    have hB := I.toVolParams.bound_at (x := x.toR) (y := 12 / 100) (by linarith) (by norm_num)
    have ha : |x.toR - a₀| ≤ |x.toR - r| + 2 / 100 := by
      have := abs_add_le (x.toR - r) (r - a₀)
      rw [sub_add_sub_cancel] at this
      linarith
    have h1 : (1 : ℝ) / 2 ^ 200 ≤ 1 / 10000 := by norm_num
    have h2 := abs_nonneg (x.toR - r)
    apply div_le_div_of_nonneg_right _ (by positivity)
    generalize (1 : ℝ) / 2 ^ 200 = ζ at h1 ⊢
    norm_num at hB
    linarith

/-- What the iteration needs to know of the function. -/
theorem fValue_zero (L : E.Lib) (A : E.Accurate) (I : VolInput Q P V vol tau c d a₀ t)
    (h0 : volF c d a₀ t r = 0) (hr : |r - a₀| ≤ 2 / 100) :
    Zero (fun x => fValue x Q P V vol tau) r (1 / (4 * t)) (1 / 2 ^ 43) 40 := by
  have ht := I.tpos
  have hr' := abs_le.1 hr
  have hw : (40 : ℝ) + 1 / 2 ^ 43 ≤ 41 := by norm_num
  have far : ∀ x : FP E, x.isFinite → 1 / 2 ^ 51 ≤ |x.toR - r| → |x.toR - r| ≤ 40 + 1 / 2 ^ 43 →
      (fValue x Q P V vol tau).toR * (x.toR - r) < 0 ∧
        1 / (4 * t) * |x.toR - r| ≤ |(fValue x Q P V vol tau).toR| ∧
        |(fValue x Q P V vol tau).toR| ≤ 12 * (1 / (4 * t)) * |x.toR - r| := by
    intro x hx h1 h2
    obtain ⟨-, k, n, e, k1, k2, k3, k4⟩ := fValue_line L A I h0 hr hx (h2.trans hw)
    have hu : 0 < |x.toR - r| := lt_of_lt_of_le (by positivity) h1
    -- the noise is small against the distance
    have hn : ∃ κ : ℝ, |n| ≤ κ * |x.toR - r| ∧ 1 / 4 + κ ≤ k ∧ k + κ ≤ 3 := by
      rcases le_or_gt |x.toR - r| (1 / 10) with h3 | h3
      · obtain ⟨k5, k6, k7⟩ := k4 h3
        refine ⟨6 / 10, k7.trans ?_, by linarith, by linarith⟩
        rw [div_le_iff₀ (by positivity)]
        norm_num at h1 ⊢
        linarith
      · refine ⟨1 / 10, k3.trans ?_, by linarith, by linarith⟩
        norm_num
        linarith
    obtain ⟨κ, n1, n2, n3⟩ := hn
    have key : t * |(fValue x Q P V vol tau).toR| = |(-(k * (x.toR - r)) + n)| := by
      rw [← e, abs_mul, abs_of_pos ht]
    have hk : |k * (x.toR - r)| = k * |x.toR - r| := by rw [abs_mul, abs_of_nonneg (by linarith)]
    refine ⟨?_, ?_, ?_⟩
    · have : t * ((fValue x Q P V vol tau).toR * (x.toR - r)) < 0 := by
        rw [← mul_assoc, e]
        have e1 : (-(k * (x.toR - r)) + n) * (x.toR - r) = -(k * |x.toR - r| ^ 2) + n * (x.toR - r) := by
          rw [sq_abs]; ring
        rw [e1]
        have e2 : n * (x.toR - r) ≤ κ * |x.toR - r| ^ 2 := by
          refine (le_abs_self _).trans ?_
          rw [abs_mul, pow_two, ← mul_assoc]
          exact mul_le_mul_of_nonneg_right n1 hu.le
        nlinarith [pow_pos hu 2]
      by_contra hc
      exact absurd this (not_lt.2 (mul_nonneg ht.le (not_lt.1 hc)))
    · rw [one_div_mul_eq_div, div_le_iff₀ (by positivity), mul_comm, mul_assoc, key]
      have := abs_sub_abs_le_abs_sub (k * (x.toR - r)) n
      rw [show -(k * (x.toR - r)) + n = -(k * (x.toR - r) - n) by ring, abs_neg]
      nlinarith
    · rw [show 12 * (1 / (4 * t)) * |x.toR - r| = 3 * |x.toR - r| / t by field_simp; norm_num, le_div_iff₀ ht,
        mul_comm, key]
      have := abs_add_le (-(k * (x.toR - r))) n
      rw [abs_neg] at this
      nlinarith
  have hθ : (1 : ℝ) / 2 ^ 43 / 256 = 1 / 2 ^ 51 := by norm_num
  refine ⟨by positivity, by positivity, ?_, ?_, by norm_num, ?_, ?_, ?_, ?_, ?_⟩
  · have h1 : 1 / 2 ^ 3 ≤ 1 / (4 * t) := one_div_le_one_div_of_le (by positivity) (by linarith [I.t1])
    refine le_trans (b := 1 / 2 ^ 3 * (1 / 2 ^ 43)) ?_ (mul_le_mul_of_nonneg_right h1 (by positivity))
    rw [div_mul_div_comm, one_mul, ← pow_add]
    exact one_div_le_one_div_of_le (by positivity) (pow_le_pow_right₀ (by norm_num) (by norm_num))
  · have h1 : 1 / (4 * t) ≤ 2 ^ 8 := by
      rw [div_le_iff₀ (by positivity)]
      have := I.t0
      norm_num at this ⊢
      linarith
    have h2 : 12 * (1 / (4 * t)) * (40 + 1 / 2 ^ 43) ≤ 12 * 2 ^ 8 * 41 := by
      apply mul_le_mul (by linarith) hw (by positivity) (by positivity)
    exact h2.trans (by norm_num)
  · intro x hx h
    exact (fValue_line L A I h0 hr hx (h.trans hw)).1
  · intro x hx h1 h2
    rw [hθ] at h1
    exact far x hx h1 h2
  · intro x hx h
    rw [hθ] at h ⊢
    obtain ⟨-, k, n, e, -, -, -, k4⟩ := fValue_line L A I h0 hr hx (h.le.trans (by norm_num))
    obtain ⟨k5, k6, k7⟩ := k4 (h.le.trans (by norm_num))
    have key : t * |(fValue x Q P V vol tau).toR| = |(-(k * (x.toR - r)) + n)| := by
      rw [← e, abs_mul, abs_of_pos ht]
    rw [show 12 * (1 / (4 * t)) * (1 / 2 ^ 51) = 3 * (1 / 2 ^ 51) / t by field_simp; norm_num, le_div_iff₀ ht,
      mul_comm]
    change t * |(fValue x Q P V vol tau).toR| ≤ _
    rw [key]
    have h1 := abs_add_le (-(k * (x.toR - r))) n
    rw [abs_neg, abs_mul, abs_of_nonneg (by linarith : 0 ≤ k)] at h1
    have h2 : k * |x.toR - r| ≤ 102 / 100 * (1 / 2 ^ 51) := mul_le_mul k6 h.le (abs_nonneg _) (by norm_num)
    have h3 : |n| ≤ (3 / 10) / 2 ^ 50 := k7.trans (by
      apply div_le_div_of_nonneg_right _ (by positivity)
      norm_num at h ⊢
      linarith)
    norm_num at h2 h3 ⊢
    linarith
  · intro x y hx hy h1 h2
    rw [hθ] at h1 h2
    have h1' := abs_lt.1 h1
    have h2' := abs_lt.1 h2
    have hs : (1 : ℝ) / 2 ^ 51 ≤ 1 / 100 := by norm_num
    have x4 : x.toR ≤ -4 := by linarith [I.a1]
    have y4 : y.toR ≤ -4 := by linarith [I.a1]
    obtain ⟨N, hN⟩ := (isFinite.srep hx).grid (k := 2) (by rw [abs_of_neg (by linarith)]; norm_num; linarith)
    obtain ⟨M, hM⟩ := (isFinite.srep hy).grid (k := 2) (by rw [abs_of_neg (by linarith)]; norm_num; linarith)
    have e50 : (2 : ℝ) ^ ((2 : ℤ) - 52) = 1 / 2 ^ 50 := by
      rw [show (2 : ℤ) - 52 = -((50 : ℕ) : ℤ) by norm_num, zpow_neg, zpow_natCast, ← one_div]
    rw [e50] at hN hM
    replace hN : x.toR = N * (1 / 2 ^ 50) := hN
    replace hM : y.toR = M * (1 / 2 ^ 50) := hM
    have hNM : N = M := by
      by_contra hne
      have h3 : (1 : ℝ) ≤ |(N : ℝ) - M| := by
        have := Int.one_le_abs (sub_ne_zero.2 hne)
        exact_mod_cast this
      have h4 : |x.toR - y.toR| = |(N : ℝ) - M| * (1 / 2 ^ 50) := by
        rw [hN, hM, ← sub_mul, abs_mul, abs_of_pos (by positivity : (0 : ℝ) < 1 / 2 ^ 50)]
      have h5 : |x.toR - y.toR| < 1 / 2 ^ 50 := by
        rw [abs_lt]
        norm_num at h1' h2' ⊢
        constructor <;> linarith [h1'.1, h1'.2, h2'.1, h2'.2]
      rw [h4] at h5
      norm_num at h5
      linarith
    exact FP.toR_inj_ne hx hy (by linarith) (by rw [hN, hM, hNM])
  · intro x hx h
    rcases le_or_gt (1 / 2 ^ 51) |x.toR - r| with h1 | h1
    · right
      have h2 := (far x hx h1 h).2.1
      refine le_trans ?_ h2
      have h3 : 1 / 2 ^ 3 ≤ 1 / (4 * t) := one_div_le_one_div_of_le (by positivity) (by linarith [I.t1])
      refine le_trans (b := 1 / 2 ^ 3 * (1 / 2 ^ 51)) ?_ (mul_le_mul h3 h1 (by positivity) (by positivity))
      rw [div_mul_div_comm, one_mul, ← pow_add]
      exact one_div_le_one_div_of_le (by positivity) (pow_le_pow_right₀ (by norm_num) (by norm_num))
    · have h1' := abs_lt.1 h1
      have hs : (1 : ℝ) / 2 ^ 51 ≤ 1 / 100 := by norm_num
      rcases fValue_tiny L A I hx (by linarith [I.a0]) (by linarith [I.a1]) with g | g
      · exact Or.inl g
      · exact Or.inr (le_trans (one_div_le_one_div_of_le (by positivity)
          (pow_le_pow_right₀ (by norm_num) (by norm_num))) g)

end Glicko2
end Skillratings
