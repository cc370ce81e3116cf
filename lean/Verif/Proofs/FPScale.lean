import Verif.Spec.Scales
import Verif.FPInstance
import Verif.Proofs.FPOps
/-
Rounding to nearest, ties to even, commutes with halving.
-/
namespace Skillratings
open FPVal FP

theorem Rep.halve {m : ℝ} (h : Rep m) (h1 : 1 / 2 ^ 900 ≤ m) : Rep (m / 2) := by
  obtain ⟨n, k, hn, hk1, hk2, rfl⟩ := h
  refine ⟨n, k - 1, hn, ?_, by omega, ?_⟩
  · by_contra hc
    have hk : k = -1074 := by omega
    have h2 : (n : ℝ) < 2 ^ 53 := by exact_mod_cast hn
    have h3 : (n : ℝ) * 2 ^ k < 2 ^ 53 * 2 ^ k := by
      apply mul_lt_mul_of_pos_right h2; positivity
    have h4 : (2 : ℝ) ^ 53 * 2 ^ k = 1 / 2 ^ 1021 := by
      rw [hk, ← zpow_natCast (2 : ℝ) 53, ← zpow_add₀ (by norm_num), one_div, ← zpow_natCast (2 : ℝ) 1021,
        ← zpow_neg]
      norm_num
    have h5 : (1 : ℝ) / 2 ^ 1021 ≤ 1 / 2 ^ 900 :=
      one_div_le_one_div_of_le (by positivity) (pow_le_pow_right₀ (by norm_num) (by norm_num))
    linarith
  · rw [zpow_sub₀ (by norm_num)]; norm_num; ring

theorem Rep.double {m : ℝ} (h : Rep m) (h1 : m ≤ 2 ^ 900) : Rep (2 * m) := by
  obtain ⟨n, k, hn, hk1, hk2, rfl⟩ := h
  rcases Nat.eq_zero_or_pos n with h0 | h0
  · rw [h0]; simpa using Rep.zero
  refine ⟨n, k + 1, hn, by omega, ?_, ?_⟩
  · by_contra hc
    have hk : k = 971 := by omega
    have h2 : (1 : ℝ) ≤ n := by exact_mod_cast h0
    have h3 : (2 : ℝ) ^ k ≤ n * 2 ^ k := le_mul_of_one_le_left (by positivity) h2
    have h4 : (2 : ℝ) ^ k = 2 ^ 971 := by
      rw [hk, show (971 : ℤ) = ((971 : ℕ) : ℤ) by norm_num, zpow_natCast]
    have h5 : (2 : ℝ) ^ 900 < 2 ^ 971 := pow_lt_pow_right₀ (by norm_num) (by norm_num)
    exact absurd (h4.symm.le.trans (h3.trans h1)) (not_le.2 h5)
  · rw [zpow_add₀ (by norm_num)]; norm_num; ring

private theorem p900 : (1 : ℝ) / 2 ^ 900 ≤ 2 ^ 900 := by
  have h : (1 : ℝ) ≤ 2 ^ 900 := one_le_pow₀ (by norm_num)
  calc (1 : ℝ) / 2 ^ 900 ≤ 1 / 1 := one_div_le_one_div_of_le one_pos h
    _ ≤ 2 ^ 900 := by rw [div_one]; exact h

private theorem rep_lo : Rep (1 / 2 ^ 901) := by
  have := SRep.inv_two_pow 901 (by norm_num)
  rwa [SRep, abs_of_pos (by positivity)] at this

private theorem rep_lo' : Rep (1 / 2 ^ 900) := by
  have := SRep.inv_two_pow 900 (by norm_num)
  rwa [SRep, abs_of_pos (by positivity)] at this

private theorem rep_hi : Rep (2 ^ 900) := by
  refine ⟨1, 900, by norm_num, by norm_num, by norm_num, ?_⟩
  rw [show (900 : ℤ) = ((900 : ℕ) : ℤ) by norm_num, zpow_natCast]; norm_num

section
variable {x : ℝ}

theorem clamp_of (h1 : 0 ≤ x) (h2 : x ≤ 2 ^ 900) : clamp x = x := by
  rw [clamp, max_eq_left h1, min_eq_left (h2.trans (pow_le_pow_right₀ (by norm_num) (by norm_num)))]

/-- Neighbours of a number of moderate size. -/
theorem lower_fin (h1 : 1 / 2 ^ 901 ≤ x) (h2 : x ≤ 2 ^ 900) :
    ∃ m : Mag, lower x = m ∧ 1 / 2 ^ 901 ≤ m.1 ∧ m.1 ≤ x ∧ ∀ c : ℝ, Rep c → c ≤ x → c ≤ m.1 := by
  have h0 : 0 ≤ x := le_trans (by positivity) h1
  have hc := clamp_of h0 h2
  have hmax : ∀ c : ℝ, Rep c → c ≤ x → c ≤ cval (lower x) := fun c hr hle =>
    cval_strictMono.monotone (le_lower (c := some (⟨c, hr⟩ : Mag)) (by rw [hc]; exact hle))
  have hle := cval_lower x
  rw [hc] at hle
  have hlt : lower x ≠ ⊤ := by
    intro h
    rw [h, cval_top] at hle
    have : (2 : ℝ) ^ 900 < 2 ^ 1024 := pow_lt_pow_right₀ (by norm_num) (by norm_num)
    exact absurd (hle.trans h2) (not_le.2 this)
  obtain ⟨m, hm⟩ := WithTop.ne_top_iff_exists.1 hlt
  rw [← hm, cval_coe] at hmax hle
  exact ⟨m, hm.symm, hmax _ rep_lo h1, hle, hmax⟩

theorem upper_fin (h1 : 1 / 2 ^ 901 ≤ x) (h2 : x ≤ 2 ^ 900) :
    ∃ m : Mag, upper x = m ∧ m.1 ≤ 2 ^ 900 ∧ x ≤ m.1 ∧ ∀ c : ℝ, Rep c → x ≤ c → m.1 ≤ c := by
  have h0 : 0 ≤ x := le_trans (by positivity) h1
  have hc := clamp_of h0 h2
  have hmin : ∀ c : ℝ, Rep c → x ≤ c → cval (upper x) ≤ c := fun c hr hle =>
    cval_strictMono.monotone (upper_le (c := some (⟨c, hr⟩ : Mag)) (by rw [hc]; exact hle))
  have hle := cval_upper x
  rw [hc] at hle
  have hlt : upper x ≠ ⊤ := by
    intro h
    have hq := hmin _ rep_hi h2
    rw [h, cval_top] at hq
    have : (2 : ℝ) ^ 900 < 2 ^ 1024 := pow_lt_pow_right₀ (by norm_num) (by norm_num)
    exact absurd hq (not_le.2 this)
  obtain ⟨m, hm⟩ := WithTop.ne_top_iff_exists.1 hlt
  rw [← hm, cval_coe] at hmin hle
  exact ⟨m, hm.symm, hmin _ rep_hi h2, hle, hmin⟩

private theorem big_exponent {n : ℕ} {m : ℝ} (hn : n < 2 ^ 53) (h : m = n * 2 ^ (-1074 : ℤ)) :
    m < 1 / 2 ^ 1000 := by
  have h2 : (n : ℝ) < 2 ^ 53 := by exact_mod_cast hn
  have h3 : (n : ℝ) * 2 ^ (-1074 : ℤ) < 2 ^ 53 * 2 ^ (-1074 : ℤ) := by
    apply mul_lt_mul_of_pos_right h2; positivity
  have h4 : (2 : ℝ) ^ 53 * 2 ^ (-1074 : ℤ) = 1 / 2 ^ 1021 := by
    rw [← zpow_natCast (2 : ℝ) 53, ← zpow_add₀ (by norm_num), one_div, ← zpow_natCast (2 : ℝ) 1021,
      ← zpow_neg]
    norm_num
  have h5 : (1 : ℝ) / 2 ^ 1021 ≤ 1 / 2 ^ 1000 :=
    one_div_le_one_div_of_le (by positivity) (pow_le_pow_right₀ (by norm_num) (by norm_num))
  rw [h]; linarith

theorem even_half {m m' : Mag} (h : m'.1 = m.1 / 2) (h1 : 1 / 2 ^ 901 ≤ m'.1) :
    evenSignificand (m' : WithTop Mag) ↔ evenSignificand (m : WithTop Mag) := by
  have hlo : (1 : ℝ) / 2 ^ 1000 ≤ 1 / 2 ^ 901 :=
    one_div_le_one_div_of_le (by positivity) (pow_le_pow_right₀ (by norm_num) (by norm_num))
  constructor
  · rintro ⟨n, k, he, hn, hk, hm⟩
    refine ⟨n, k + 1, he, hn, ?_, ?_⟩
    · rcases hk with hk | hk
      · exact Or.inl hk
      · subst hk
        have := big_exponent hn hm
        linarith
    · rw [zpow_add₀ (by norm_num)]; norm_num; linarith
  · rintro ⟨n, k, he, hn, hk, hm⟩
    refine ⟨n, k - 1, he, hn, ?_, ?_⟩
    · rcases hk with hk | hk
      · exact Or.inl hk
      · subst hk
        have := big_exponent hn hm
        have h0 : (0 : ℝ) < 1 / 2 ^ 901 := by positivity
        linarith
    · rw [zpow_sub₀ (by norm_num)]; norm_num; linarith

open Classical in
theorem nearest_half (h1 : 1 / 2 ^ 900 ≤ x) (h2 : x ≤ 2 ^ 900) :
    ∃ m m' : Mag, nearest x = m ∧ nearest (x / 2) = m' ∧ m'.1 = m.1 / 2 := by
  have h901 : (1 : ℝ) / 2 ^ 901 = 1 / 2 ^ 900 / 2 := by rw [pow_succ]; field_simp
  have h0 : 0 < (1 : ℝ) / 2 ^ 900 := by positivity
  have hx : 0 < x := lt_of_lt_of_le h0 h1
  have a1 : 1 / 2 ^ 901 ≤ x := by rw [h901]; linarith
  have b1 : 1 / 2 ^ 901 ≤ x / 2 := by rw [h901]; linarith
  have b2 : x / 2 ≤ 2 ^ 900 := (by linarith : x / 2 ≤ x).trans h2
  obtain ⟨l, hl, hl1, hl2, hl3⟩ := lower_fin a1 h2
  obtain ⟨u, hu, hu1, hu2, hu3⟩ := upper_fin a1 h2
  obtain ⟨l', hl', hl1', hl2', hl3'⟩ := lower_fin b1 b2
  obtain ⟨u', hu', hu1', hu2', hu3'⟩ := upper_fin b1 b2
  have el : l'.1 = l.1 / 2 := by
    apply le_antisymm
    · have := hl3 _ (l'.2.double (hl2'.trans b2)) (by linarith)
      linarith
    · exact hl3' _ (l.2.halve (hl3 _ rep_lo' h1)) (by linarith)
  have eu : u'.1 = u.1 / 2 := by
    apply le_antisymm
    · exact hu3' _ (u.2.halve (h1.trans hu2)) (by linarith)
    · have := hu3 _ (u'.2.double hu1') (by linarith)
      linarith
  have hev := even_half el hl1'
  have c1 := clamp_of hx.le h2
  have c2 := clamp_of (by linarith : 0 ≤ x / 2) b2
  have n1 : nearest x = if x - l.1 < u.1 - x then (l : WithTop Mag)
      else if u.1 - x < x - l.1 then (u : WithTop Mag)
      else if evenSignificand (l : WithTop Mag) then (l : WithTop Mag) else u := by
    rw [nearest, hl, hu, c1, cval_coe, cval_coe]
  have n2 : nearest (x / 2) = if x / 2 - l'.1 < u'.1 - x / 2 then (l' : WithTop Mag)
      else if u'.1 - x / 2 < x / 2 - l'.1 then (u' : WithTop Mag)
      else if evenSignificand (l' : WithTop Mag) then (l' : WithTop Mag) else u' := by
    rw [nearest, hl', hu', c2, cval_coe, cval_coe]
  by_cases d1 : x - l.1 < u.1 - x
  · exact ⟨l, l', by rw [n1, if_pos d1], by rw [n2, if_pos (by rw [el, eu]; linarith)], el⟩
  · have d1' : ¬ x / 2 - l'.1 < u'.1 - x / 2 := by rw [el, eu]; intro h; exact d1 (by linarith)
    by_cases d2 : u.1 - x < x - l.1
    · exact ⟨u, u', by rw [n1, if_neg d1, if_pos d2],
        by rw [n2, if_neg d1', if_pos (by rw [el, eu]; linarith)], eu⟩
    · have d2' : ¬ u'.1 - x / 2 < x / 2 - l'.1 := by rw [el, eu]; intro h; exact d2 (by linarith)
      by_cases d3 : evenSignificand (l : WithTop Mag)
      · exact ⟨l, l', by rw [n1, if_neg d1, if_neg d2, if_pos d3],
          by rw [n2, if_neg d1', if_neg d2', if_pos (hev.2 d3)], el⟩
      · exact ⟨u, u', by rw [n1, if_neg d1, if_neg d2, if_neg d3],
          by rw [n2, if_neg d1', if_neg d2', if_neg (fun h => d3 (hev.1 h))], eu⟩

end

/-- Round to nearest, ties to even, commutes with halving. -/
theorem ieee_scales : ieee.Scales where
  half s x h1 h2 := by
    have h0 : (0 : ℝ) < 1 / 2 ^ 900 := by positivity
    have hx : x ≠ 0 := by
      intro h; rw [h, abs_zero] at h1; linarith
    obtain ⟨m, m', e1, e2, e3⟩ := nearest_half h1 h2
    have hx2 : x / 2 ≠ 0 := by intro h; apply hx; linarith
    have ea : |x / 2| = |x| / 2 := by rw [abs_div]; norm_num
    have es : decide (x / 2 < 0) = decide (x < 0) := by
      congr 1
      apply propext
      constructor <;> intro h <;> linarith
    have r1 : ieee.round s (x / 2) = FPVal.fin (decide (x < 0)) m' := by
      rw [FloatEnv.round, if_neg hx2, ea, es]
      show FloatEnv.ofMag _ (nearest (|x| / 2)) = _
      rw [e2]; rfl
    have r2 : ieee.round s x = FPVal.fin (decide (x < 0)) m := by
      rw [FloatEnv.round, if_neg hx]
      show FloatEnv.ofMag _ (nearest |x|) = _
      rw [e1]; rfl
    rw [r1, r2]
    show signed _ m'.1 = signed _ m.1 / 2
    rw [e3, signed, signed]
    split <;> ring

end Skillratings
