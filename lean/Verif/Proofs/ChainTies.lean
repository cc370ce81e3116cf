import Verif.Proofs.DrawMessage
import Verif.Proofs.ChainBounds
/-
Bounds for the chain of teams when some neighbours tie and others do not (C97).
-/
namespace Skillratings
namespace TrueSkill
open Real Spec
open Field (Sane Later hear_sane hear_later tellDown_sane tellUp_sane told tellDown_later)

/-- What a win says about the difference. -/
theorem compare_won {L : League} {m : Talk} {k : ℕ} {x : Info} (hv : L.v k = tsVWin) (hw : L.w k = tsWWin)
    (hS : Sane L m) (hk : k + 1 < L.n) (h : L.compare m k = some x) :
    L.margin k < x.mean ∧
      x.mean ≤ max (L.δ m k) (L.margin k) + 2 * √2 * √(L.C m k) := by
  have hC := hS.C hk
  obtain ⟨h0, h1, rfl⟩ := compare_eq h
  have hs := sqrt_pos.2 hC
  rw [of_mean (div_pos (mul_pos hC (by linarith)) h0)]
  have e1 : L.δ m k = √(L.C m k) * (L.δ m k / √(L.C m k)) := by field_simp
  have e2 : L.margin k = √(L.C m k) * (L.margin k / √(L.C m k)) := by field_simp
  simp only [League.W, League.V, hv, hw] at h0 h1 ⊢
  obtain ⟨a, b⟩ := win_message h0 h1
  generalize L.δ m k / √(L.C m k) = t at *
  generalize L.margin k / √(L.C m k) = ε at *
  rw [e1, e2, ← mul_max_of_nonneg _ _ hs.le]
  constructor
  · calc √(L.C m k) * ε < √(L.C m k) * (t + tsVWin t ε / tsWWin t ε) := by gcongr
      _ = _ := by ring
  · calc √(L.C m k) * t + √(L.C m k) * tsVWin t ε / tsWWin t ε
        = √(L.C m k) * (t + tsVWin t ε / tsWWin t ε) := by ring
      _ ≤ √(L.C m k) * (max t ε + 2 * √2) := by gcongr
      _ = _ := by ring

/-- What a tie says about the difference. -/
theorem compare_tie {L : League} {m : Talk} {k : ℕ} (hv : L.v k = tsVDraw) (hw : L.w k = tsWDraw)
    (hS : Sane L m) (hk : k + 1 < L.n) (h1 : √(L.C m k) + |L.δ m k| ≤ 100 * L.margin k)
    (h2 : |L.δ m k| ≤ 25 * √(L.C m k)) :
    ∃ x, L.compare m k = some x ∧ |x.mean| ≤ 1.002 * L.margin k := by
  have hC := hS.C hk
  have hs := sqrt_pos.2 hC
  have e1 : L.δ m k = √(L.C m k) * (L.δ m k / √(L.C m k)) := by field_simp
  have e2 : L.margin k = √(L.C m k) * (L.margin k / √(L.C m k)) := by field_simp
  have a1 : |L.δ m k / √(L.C m k)| ≤ 25 := by
    rw [abs_div, abs_of_pos hs, div_le_iff₀ hs]; exact h2
  have a2 : 0.01 * (1 + |L.δ m k / √(L.C m k)|) ≤ L.margin k / √(L.C m k) := by
    rw [abs_div, abs_of_pos hs, le_div_iff₀ hs]
    refine le_trans (le_of_eq ?_) (show (√(L.C m k) + |L.δ m k|) / 100 ≤ _ by linarith)
    field_simp
    ring
  obtain ⟨w0, w1, w2⟩ := draw_message a2 a1
  have hW : L.W m k = tsWDraw (L.δ m k / √(L.C m k)) (L.margin k / √(L.C m k)) := by
    rw [League.W, hw]
  have hV : L.V m k = tsVDraw (L.δ m k / √(L.C m k)) (L.margin k / √(L.C m k)) := by
    rw [League.V, hv]
  rw [← hW] at w0 w1 w2
  rw [← hV] at w2
  refine ⟨_, if_pos ⟨w0, w1⟩, ?_⟩
  rw [of_mean (div_pos (mul_pos hC (by linarith)) w0)]
  have e3 : L.δ m k + √(L.C m k) * L.V m k / L.W m k
      = √(L.C m k) * (L.δ m k / √(L.C m k) + L.V m k / L.W m k) := by field_simp
  rw [e3, abs_mul, abs_of_pos hs, e2]
  refine (mul_le_mul_of_nonneg_left w2 hs.le).trans (le_of_eq ?_)
  generalize √(L.C m k) = c at *
  field_simp

/-- The teams and margins of a league within bounds; `s k` is what a win between `k` and `k + 1`
adds, and zero if they tie. -/
structure Mixed (L : League) (lo hi q Q f : ℝ) (s : ℕ → ℝ) : Prop where
  two : 2 ≤ L.n
  kind : ∀ k, k + 1 < L.n → (L.v k = tsVWin ∧ L.w k = tsWWin ∧ s k = 2 * √2 * √(2 * Q)) ∨
    (L.v k = tsVDraw ∧ L.w k = tsWDraw ∧ s k = 0 ∧
      √(2 * Q) + (hi - lo + 3 * (L.n - 1) * f + ∑ j ∈ Finset.range (L.n - 1), s j) ≤ 100 * L.margin k)
  step : ∀ k, 0 ≤ s k
  margin : ∀ k, k + 1 < L.n → 0 ≤ L.margin k ∧ 1.002 * L.margin k ≤ f
  pos : ∀ k < L.n, 0 < (L.team k).prec
  lo : ∀ k < L.n, lo ≤ (L.team k).mean
  hi : ∀ k < L.n, (L.team k).mean ≤ hi
  q : ∀ k < L.n, (L.team k).prec ≤ q
  Q : ∀ k < L.n, (L.team k).variance ≤ Q

/-- Bounds of everything that is said. -/
structure Calm (L : League) (lo hi q f : ℝ) (s : ℕ → ℝ) (m : Talk) : Prop where
  sane : Sane L m
  downLo : ∀ k, (lo - ((L.n - 1 + k) * f + ∑ j ∈ Finset.range k, s j)) * (m.down k).prec ≤ (m.down k).pm
  downHi : ∀ k, (m.down k).pm ≤ (hi + k * f) * (m.down k).prec
  upLo : ∀ k < L.n, (lo - (L.n - 1 - k) * f) * (m.up k).prec ≤ (m.up k).pm
  upHi : ∀ k < L.n, (m.up k).pm ≤ (hi + ((2 * (L.n - 1) - k) * f
    + (∑ j ∈ Finset.range (L.n - 1), s j - ∑ j ∈ Finset.range k, s j))) * (m.up k).prec
  downPrec : ∀ k, (m.down k).prec ≤ k * q
  upPrec : ∀ k < L.n, (m.up k).prec ≤ (L.n - 1 - k : ℝ) * q

section
variable {L : League} {lo hi q Q f : ℝ} {s : ℕ → ℝ} {m : Talk}

theorem Mixed.f_nonneg (hW : Mixed L lo hi q Q f s) : 0 ≤ f := by
  have := hW.margin 0 hW.two
  norm_num at this
  linarith [this.1, this.2]

theorem Mixed.q_pos (hW : Mixed L lo hi q Q f s) : 0 < q := by
  have h := hW.two
  exact lt_of_lt_of_le (hW.pos 0 (by omega)) (hW.q 0 (by omega))

theorem Mixed.sum_nonneg (hW : Mixed L lo hi q Q f s) (k : ℕ) : 0 ≤ ∑ j ∈ Finset.range k, s j :=
  Finset.sum_nonneg fun j _ => hW.step j

theorem Mixed.sum_mono (hW : Mixed L lo hi q Q f s) {k l : ℕ} (h : k ≤ l) :
    ∑ j ∈ Finset.range k, s j ≤ ∑ j ∈ Finset.range l, s j :=
  Finset.sum_le_sum_of_subset_of_nonneg (Finset.range_mono h) fun j _ _ => hW.step j

theorem cast_lt_sub {k n : ℕ} (h : k + 1 ≤ n) : (k : ℝ) ≤ n - 1 := by
  have : ((k + 1 : ℕ) : ℝ) ≤ n := Nat.cast_le.2 h
  push_cast at this; linarith

theorem weighted_le {a b : Info} {x y : ℝ} (ha : 0 ≤ a.prec) (h : x * a.prec ≤ a.pm) (hy : y * b.prec ≤ b.pm)
    (hxy : y ≤ x) : y * (a + b).prec ≤ (a + b).pm := by
  rw [add_prec, add_pm]
  have := mul_le_mul_of_nonneg_right hxy ha
  linarith

theorem le_weighted {a b : Info} {x y : ℝ} (ha : 0 ≤ a.prec) (h : a.pm ≤ x * a.prec) (hy : b.pm ≤ y * b.prec)
    (hxy : x ≤ y) : (a + b).pm ≤ y * (a + b).prec := by
  rw [add_prec, add_pm]
  have := mul_le_mul_of_nonneg_right hxy ha
  linarith

theorem Calm.le_above (hW : Mixed L lo hi q Q f s) (h : Calm L lo hi q f s m) {k : ℕ} (hk : k < L.n) :
    lo - ((L.n - 1 + k) * f + ∑ j ∈ Finset.range k, s j) ≤ (L.above m k).mean := by
  rw [le_mean (h.sane.above hk), League.above]
  have h1 := hW.f_nonneg
  have h2 := hW.sum_nonneg k
  have h3 := cast_lt_sub (k := 0) (n := L.n) (by omega)
  have h4 : 0 ≤ ((L.n : ℝ) - 1 + k) * f :=
    mul_nonneg (add_nonneg (by simpa using h3) (Nat.cast_nonneg k)) h1
  exact weighted_le (hW.pos k hk).le ((le_mean (hW.pos k hk)).1 (hW.lo k hk)) (h.downLo k) (by linarith)

theorem Calm.above_le (hW : Mixed L lo hi q Q f s) (h : Calm L lo hi q f s m) {k : ℕ} (hk : k < L.n) :
    (L.above m k).mean ≤ hi + k * f := by
  rw [mean_le (h.sane.above hk), League.above]
  have h4 : 0 ≤ (k : ℝ) * f := mul_nonneg (Nat.cast_nonneg k) hW.f_nonneg
  exact le_weighted (hW.pos k hk).le ((mean_le (hW.pos k hk)).1 (hW.hi k hk)) (h.downHi k) (by linarith)

theorem Calm.le_below (hW : Mixed L lo hi q Q f s) (h : Calm L lo hi q f s m) {k : ℕ} (hk : k < L.n) :
    lo - (L.n - 1 - k) * f ≤ (L.below m k).mean := by
  rw [le_mean (h.sane.below hk), League.below]
  have h3 := cast_lt_sub (k := k) (n := L.n) (by omega)
  have h4 : 0 ≤ ((L.n : ℝ) - 1 - k) * f := mul_nonneg (by linarith) hW.f_nonneg
  exact weighted_le (hW.pos k hk).le ((le_mean (hW.pos k hk)).1 (hW.lo k hk)) (h.upLo k hk) (by linarith)

theorem Calm.below_le (hW : Mixed L lo hi q Q f s) (h : Calm L lo hi q f s m) {k : ℕ} (hk : k < L.n) :
    (L.below m k).mean ≤ hi + ((2 * (L.n - 1) - k) * f
      + (∑ j ∈ Finset.range (L.n - 1), s j - ∑ j ∈ Finset.range k, s j)) := by
  rw [mean_le (h.sane.below hk), League.below]
  have h3 := cast_lt_sub (k := k) (n := L.n) (by omega)
  have h0 : (0 : ℝ) ≤ k := Nat.cast_nonneg k
  have h4 : 0 ≤ (2 * ((L.n : ℝ) - 1) - k) * f := mul_nonneg (by linarith) hW.f_nonneg
  have h5 := hW.sum_mono (show k ≤ L.n - 1 by omega)
  exact le_weighted (hW.pos k hk).le ((mean_le (hW.pos k hk)).1 (hW.hi k hk)) (h.upHi k hk) (by linarith)

/-- How far apart the teams can seem. -/
noncomputable def reach (L : League) (lo hi f : ℝ) (s : ℕ → ℝ) : ℝ :=
  hi - lo + 3 * (L.n - 1) * f + ∑ j ∈ Finset.range (L.n - 1), s j

theorem Calm.diff (hW : Mixed L lo hi q Q f s) (h : Calm L lo hi q f s m) {k : ℕ} (hk : k + 1 < L.n) :
    f - reach L lo hi f s ≤ L.δ m k ∧ L.δ m k ≤ reach L lo hi f s := by
  have a1 := h.le_above hW (k := k) (by omega)
  have a2 := h.above_le hW (k := k) (by omega)
  have b1 := h.le_below hW hk
  have b2 := h.below_le hW hk
  have s1 := hW.sum_mono (Nat.le_succ k)
  have s2 := hW.sum_nonneg (L.n - 1)
  have hf := hW.f_nonneg
  have hn := cast_lt_sub (k := k + 1) (n := L.n) (by omega)
  have hk0 : (0 : ℝ) ≤ k := Nat.cast_nonneg k
  have hδ : L.δ m k = (L.above m k).mean - (L.below m (k + 1)).mean := rfl
  rw [hδ, reach]
  push_cast at hn b1 b2
  have n1 : 0 ≤ ((L.n : ℝ) - 1) * f := mul_nonneg (by linarith) hf
  constructor
  · have e : 3 * ((L.n : ℝ) - 1) * f = (L.n - 1 + k) * f + (2 * (L.n - 1) - (k + 1)) * f + f := by ring
    rw [e]; linarith
  · have e : 3 * ((L.n : ℝ) - 1) * f = k * f + (L.n - 1 - (k + 1)) * f + f + 2 * ((L.n - 1) * f) := by ring
    rw [e]; linarith

theorem Calm.C_le (hW : Mixed L lo hi q Q f s) (h : Calm L lo hi q f s m) {k : ℕ}
    (hk : k + 1 < L.n) : √(L.C m k) ≤ √(2 * Q) := by
  apply sqrt_le_sqrt
  have h1 := variance_le (hW.pos k (by omega)) (h.sane.down k)
  have h2 := variance_le (hW.pos (k + 1) hk) (h.sane.up (k + 1))
  have h3 := hW.Q k (by omega)
  have h4 := hW.Q (k + 1) hk
  unfold League.C League.above League.below
  linarith

theorem Calm.C_ge (hW : Mixed L lo hi q Q f s) (h : Calm L lo hi q f s m) {k : ℕ}
    (hk : k + 1 < L.n) : 4 / (L.n * q) ≤ L.C m k := by
  have hq := hW.q_pos
  have a1 : (L.above m k).prec ≤ (k + 1) * q := by
    rw [League.above, add_prec]
    have := hW.q k (by omega)
    have := h.downPrec k
    linarith
  have b1 : (L.below m (k + 1)).prec ≤ (L.n - 1 - k : ℝ) * q := by
    rw [League.below, add_prec]
    have := hW.q (k + 1) hk
    have := h.upPrec (k + 1) hk
    push_cast at this
    linarith
  have a0 := h.sane.above (k := k) (by omega)
  have b0 := h.sane.below hk
  have hk0 : (0 : ℝ) ≤ k := Nat.cast_nonneg k
  have hkn : (0 : ℝ) < L.n - 1 - k := by
    have : ((k + 1 : ℕ) : ℝ) < L.n := Nat.cast_lt.2 hk
    push_cast at this; linarith
  have h1 : 1 / ((k + 1) * q) ≤ (L.above m k).variance := one_div_le_one_div_of_le a0 a1
  have h2 : 1 / ((L.n - 1 - k : ℝ) * q) ≤ (L.below m (k + 1)).variance :=
    one_div_le_one_div_of_le b0 b1
  have h3 : 4 / (L.n * q) ≤ 1 / ((k + 1) * q) + 1 / ((L.n - 1 - k : ℝ) * q) := by
    generalize hx : (L.n - 1 - k : ℝ) = x at *
    have hn : (L.n : ℝ) = (k + 1) + x := by linarith
    rw [hn]
    generalize (k : ℝ) + 1 = y at *
    have hy : 0 < y := by
      have := lt_of_lt_of_le a0 a1
      exact (pos_iff_pos_of_mul_pos this).2 hq
    rw [div_add_div _ _ (by positivity) (by positivity), div_le_div_iff₀ (by positivity) (by positivity)]
    have : 0 ≤ q ^ 3 * ((y + x) * (y - x) ^ 2) := by positivity
    nlinarith [mul_nonneg (pow_pos hq 2).le (sq_nonneg (y - x))]
  exact h3.trans (add_le_add h1 h2)

/-- In the units of the comparison. -/
theorem Calm.scaled (hW : Mixed L lo hi q Q f s) (h : Calm L lo hi q f s m)
    (hcond : reach L lo hi f s ≤ 50 * √(1 / (L.n * q))) {k : ℕ} (hk : k + 1 < L.n) :
    reach L lo hi f s ≤ 25 * √(L.C m k) := by
  have : 2 * √(1 / (L.n * q)) = √(4 / (L.n * q)) := by
    rw [show (4 : ℝ) / (L.n * q) = 2 ^ 2 * (1 / (L.n * q)) by ring,
      sqrt_mul (by norm_num), sqrt_sq (by norm_num)]
  have h2 := sqrt_le_sqrt (h.C_ge hW hk)
  linarith

/-- What is heard: at least something, and bounded. -/
theorem Calm.compare (hW : Mixed L lo hi q Q f s) (h : Calm L lo hi q f s m)
    (hcond : reach L lo hi f s ≤ 50 * √(1 / (L.n * q))) {k : ℕ} (hk : k + 1 < L.n) :
    ∃ x, L.compare m k = some x ∧
      ((L.above m k).mean - x.mean ≤ hi + (k + 1) * f) ∧
      (lo - ((L.n - 1 + (k + 1)) * f + ∑ j ∈ Finset.range (k + 1), s j) ≤ (L.above m k).mean - x.mean) ∧
      (lo - (L.n - 1 - k) * f ≤ (L.below m (k + 1)).mean + x.mean) ∧
      ((L.below m (k + 1)).mean + x.mean ≤ hi + ((2 * (L.n - 1) - k) * f
        + (∑ j ∈ Finset.range (L.n - 1), s j - ∑ j ∈ Finset.range k, s j))) := by
  have a1 := h.le_above hW (k := k) (by omega)
  have a2 := h.above_le hW (k := k) (by omega)
  have b1 := h.le_below hW hk
  have b2 := h.below_le hW hk
  obtain ⟨d1, d2⟩ := h.diff hW hk
  have sc := h.scaled hW hcond hk
  have cl := h.C_le hW hk
  have hf := hW.f_nonneg
  obtain ⟨m0, m1⟩ := hW.margin k hk
  have m2 : L.margin k ≤ f := by norm_num at m1; linarith
  have hδ : L.δ m k = (L.above m k).mean - (L.below m (k + 1)).mean := rfl
  have hsum : ∑ j ∈ Finset.range (k + 1), s j = ∑ j ∈ Finset.range k, s j + s k := Finset.sum_range_succ _ _
  have hmono := hW.sum_mono (show k + 1 ≤ L.n - 1 by omega)
  have hs0 := hW.step k
  have hn := cast_lt_sub (k := k + 1) (n := L.n) (by omega)
  have hk0 : (0 : ℝ) ≤ k := Nat.cast_nonneg k
  have hkf : 0 ≤ (k : ℝ) * f := by positivity
  push_cast at hn b1 b2
  have n1 : 0 ≤ ((L.n : ℝ) - 1 - (k + 1)) * f := mul_nonneg (by linarith) hf
  have n2 : 0 ≤ ((L.n : ℝ) - 1) * f := mul_nonneg (by linarith) hf
  have e1 : ((L.n : ℝ) - 1 + (k + 1)) * f = (L.n - 1 + k) * f + f := by ring
  have e2 : ((k : ℝ) + 1) * f = k * f + f := by ring
  have e3 : ((L.n : ℝ) - 1 - k) * f = (L.n - 1 - (k + 1)) * f + f := by ring
  have e4 : (2 * ((L.n : ℝ) - 1) - k) * f = (2 * (L.n - 1) - (k + 1)) * f + f := by ring
  have e5 : (2 * ((L.n : ℝ) - 1) - k) * f = k * f + (2 * (((L.n : ℝ) - 1 - (k + 1)) * f) + 2 * f) := by ring
  have e6 : ((L.n : ℝ) - 1 + k) * f = (L.n - 1 - (k + 1)) * f + (2 * (k * f) + f) := by ring
  rcases hW.kind k hk with ⟨hv, hw, hs⟩ | ⟨hv, hw, hs, htie⟩
  · have hC := h.sane.C hk
    have hsC := sqrt_pos.2 hC
    have hy : -26 ≤ L.δ m k / √(L.C m k) - L.margin k / √(L.C m k) := by
      rw [← sub_div, le_div_iff₀ hsC]
      linarith
    have ht := cdf_ge_tiny hy
    have hWw : L.W m k = tsWWin (L.δ m k / √(L.C m k)) (L.margin k / √(L.C m k)) := by
      rw [League.W, hw]
    have h01 : 0 < L.W m k ∧ L.W m k < 1 := by
      rw [hWw]; exact ⟨tsWWin_pos ht, tsWWin_lt_one ht⟩
    have hx : L.compare m k = some _ := if_pos h01
    obtain ⟨w1, w2⟩ := compare_won hv hw h.sane hk hx
    refine ⟨_, hx, ?_⟩
    generalize Info.mean _ = x at w1 w2 ⊢
    have w3 : 2 * √2 * √(L.C m k) ≤ s k := by
      rw [hs]; gcongr
    have w4 : x ≤ L.δ m k + s k ∨ x ≤ L.margin k + s k := by
      rcases max_cases (L.δ m k) (L.margin k) with ⟨hm, -⟩ | ⟨hm, -⟩ <;> rw [hm] at w2
      · left; linarith
      · right; linarith
    refine ⟨by rw [e2]; linarith, ?_, by rw [e3]; linarith, ?_⟩
    · rw [e1, hsum]
      rcases w4 with w4 | w4
      · have := hW.sum_nonneg k
        rw [e6]; linarith
      · linarith
    · rcases w4 with w4 | w4
      · rw [e5]; linarith
      · rw [e4]; linarith
  · obtain ⟨x, hx, hm⟩ := compare_tie hv hw h.sane hk (by
      have : |L.δ m k| ≤ reach L lo hi f s := abs_le.2 ⟨by linarith, d2⟩
      change √(2 * Q) + reach L lo hi f s ≤ _ at htie
      linarith) ((abs_le.2 ⟨by linarith, d2⟩).trans sc)
    have hm' := abs_le.1 (hm.trans m1)
    refine ⟨x, hx, by rw [e2]; linarith, by rw [e1, hsum]; linarith, by rw [e3]; linarith,
      by rw [e4]; linarith⟩

theorem kept_calm (hW : Mixed L lo hi q Q f s) (hcond : reach L lo hi f s ≤ 50 * √(1 / (L.n * q))) :
    Kept L (Calm L lo hi q f s) := by
  refine ⟨fun _ h => h.sane, fun m k x hk h hc => ?_⟩
  obtain ⟨x', hx', c1, c2, c3, c4⟩ := h.compare hW hcond hk
  obtain rfl : x' = x := Option.some.inj (hx'.symm.trans hc)
  have hx := compare_pos h.sane hk hc
  obtain ⟨s1, s2, s3⟩ := (kept_sane L).step m k x' hk h.sane hc
  have hr : ((m.hear k x').result k) = x' := by simp [Talk.hear]
  have hV := variance_pos hx
  have hA := h.sane.above (k := k) (by omega)
  have hB := h.sane.below hk
  refine ⟨⟨s1, h.downLo, h.downHi, h.upLo, h.upHi, h.downPrec, h.upPrec⟩,
    ⟨s2, fun j => ?_, fun j => ?_, h.upLo, h.upHi, fun j => ?_, h.upPrec⟩,
    ⟨s3, h.downLo, h.downHi, fun j hj => ?_, fun j hj => ?_, h.downPrec, fun j hj => ?_⟩⟩
  · simp only [League.tellDown, Function.update_apply]
    split_ifs with hj
    · rw [hr, hj]
      apply le_of (add_pos (variance_pos hA) hV)
      push_cast
      exact c2
    · exact h.downLo j
  · simp only [League.tellDown, Function.update_apply]
    split_ifs with hj
    · rw [hr, hj]
      apply of_le (add_pos (variance_pos hA) hV)
      push_cast
      exact c1
    · exact h.downHi j
  · simp only [League.tellDown, Function.update_apply]
    split_ifs with hj
    · rw [hr, hj]
      refine (of_prec_le hA hV.le).trans ?_
      change (L.team k + m.down k).prec ≤ _
      rw [add_prec]
      have := hW.q k (by omega)
      have := h.downPrec k
      push_cast
      linarith
    · exact h.downPrec j
  · simp only [League.tellUp, Function.update_apply]
    split_ifs with hjk
    · rw [hr, hjk]
      apply le_of (add_pos (variance_pos hB) hV)
      exact c3
    · exact h.upLo j hj
  · simp only [League.tellUp, Function.update_apply]
    split_ifs with hjk
    · rw [hr, hjk]
      apply of_le (add_pos (variance_pos hB) hV)
      exact c4
    · exact h.upHi j hj
  · simp only [League.tellUp, Function.update_apply]
    split_ifs with hjk
    · rw [hr, hjk]
      refine (of_prec_le hB hV.le).trans ?_
      change (L.team (k + 1) + m.up (k + 1)).prec ≤ _
      rw [add_prec]
      have := hW.q (k + 1) hk
      have := h.upPrec (k + 1) hk
      push_cast at this
      linarith
    · exact h.upPrec j hj

/-- No result is numerically impossible. -/
theorem heard_mixed (hW : Mixed L lo hi q Q f s) (hcond : reach L lo hi f s ≤ 50 * √(1 / (L.n * q))) :
    ∃ x, L.heard = some x := by
  have hq := hW.q_pos
  have start : Calm L lo hi q f s ⟨fun _ => .none, fun _ => .none, fun _ => .none⟩ := by
    refine ⟨sane_start hW.pos, fun k => by simp [Info.none], fun k => by simp [Info.none],
      fun k _ => by simp [Info.none], fun k _ => by simp [Info.none], fun k => ?_, fun k hk => ?_⟩
    · simp only [Info.none]; positivity
    · simp only [Info.none]
      have := cast_lt_sub (k := k) (n := L.n) (by omega)
      have : (0 : ℝ) ≤ L.n - 1 - k := by linarith
      positivity
  obtain ⟨b, hb⟩ := rounds_total (kept_calm hW hcond) hW.two (fun m k hk h => by
    obtain ⟨x, hx, -⟩ := h.compare hW hcond hk
    exact ⟨x, hx⟩) 10 _ start
  exact ⟨_, by rw [League.heard, hb]; rfl⟩

end

end TrueSkill
end Skillratings
