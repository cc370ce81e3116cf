import Verif.Proofs.ChainBounds
import Verif.Proofs.DrawW
/-
The teams at the ends of the chain hear less than their neighbours.
-/
namespace Skillratings
namespace TrueSkill
open Spec Field

/-- What holds at the two ends of the chain. -/
structure Ends (L : League) (m : Talk) : Prop where
  sane : Sane L m
  down0 : (m.down 0).prec = 0
  upn : (m.up (L.n - 1)).prec = 0
  first : 0 < (m.result 0).prec →
    (m.down 1).prec = 1 / ((L.team 0).variance + (m.result 0).variance)
  last : 0 < (m.result (L.n - 2)).prec →
    (m.up (L.n - 2)).prec = 1 / ((L.team (L.n - 1)).variance + (m.result (L.n - 2)).variance)

section
variable {L : League} {m : Talk} {μ Q : ℝ}

theorem ends_start (ht : ∀ k < L.n, 0 < (L.team k).prec) :
    Ends L ⟨fun _ => .none, fun _ => .none, fun _ => .none⟩ where
  sane := sane_start ht
  down0 := rfl
  upn := rfl
  first h := absurd h (lt_irrefl _)
  last h := absurd h (lt_irrefl _)

theorem forward_ends {k : ℕ} (hk : k + 2 < L.n) (a b : Talk × ℝ) (ha : Ends L a.1)
    (h : L.forward a k = some b) : Ends L b.1 := by
  have hs := (forward_kept (kept_sane L) (by omega) a b ha.sane h).1
  rw [League.forward, Option.map_eq_some_iff] at h
  obtain ⟨x, hc, rfl⟩ := h
  refine ⟨hs, ?_, ?_, ?_, ?_⟩
  · simpa [League.tellDown, Talk.hear, Function.update_of_ne] using ha.down0
  · exact ha.upn
  · intro h
    by_cases h0 : k = 0
    · subst h0
      simp only [League.tellDown, zero_add, Function.update_self, Info.of]
      congr 2
      simp [League.above, Info.variance, add_prec, Talk.hear, ha.down0]
    · have h1 : (1 : ℕ) ≠ k + 1 := by omega
      have h2 : (0 : ℕ) ≠ k := by omega
      simp only [League.tellDown, Talk.hear, Function.update_of_ne h1, Function.update_of_ne h2] at h ⊢
      exact ha.first h
  · have h2 : L.n - 2 ≠ k := by omega
    intro h
    simp only [League.tellDown, Talk.hear, Function.update_of_ne h2] at h ⊢
    exact ha.last h

theorem backward_ends {k : ℕ} (hk0 : 0 < k) (hk : k + 1 < L.n) (a b : Talk × ℝ) (ha : Ends L a.1)
    (h : L.backward a k = some b) :
    Ends L b.1 ∧ (∀ j, 0 < (a.1.up j).prec → 0 < (b.1.up j).prec) ∧ 0 < (b.1.up k).prec := by
  have hs := (backward_kept (kept_sane L) (by omega) a b ha.sane h)
  rw [League.backward, Option.map_eq_some_iff] at h
  obtain ⟨x, hc, rfl⟩ := h
  have hx := compare_pos ha.sane (by omega) hc
  have hup : 0 < ((L.tellUp (a.1.hear k x) k).up k).prec := by
    simp only [League.tellUp, Function.update_self]
    exact of_prec_pos _ (add_pos (variance_pos ((hear_sane ha.sane hx).below (by omega)))
      (variance_pos (by simpa [Talk.hear] using hx)))
  refine ⟨⟨hs.1, ha.down0, ?_, ?_, ?_⟩, ?_, hup⟩
  · have h1 : L.n - 1 ≠ k := by omega
    simp only [League.tellUp, Function.update_of_ne h1]
    exact ha.upn
  · intro h
    have h2 : (0 : ℕ) ≠ k := by omega
    simp only [League.tellUp, Talk.hear, Function.update_of_ne h2] at h ⊢
    exact ha.first h
  · intro h
    by_cases h0 : k = L.n - 2
    · subst h0
      have e : L.n - 2 + 1 = L.n - 1 := by omega
      simp only [League.tellUp, Function.update_self, Info.of, e]
      congr 2
      simp [League.below, Info.variance, add_prec, Talk.hear, ha.upn]
    · have h2 : L.n - 2 ≠ k := fun h => h0 h.symm
      simp only [League.tellUp, Talk.hear, Function.update_of_ne h2] at h ⊢
      exact ha.last h
  · intro j hj
    by_cases h0 : j = k
    · subst h0; exact hup
    · simp only [League.tellUp, Function.update_of_ne h0]
      exact hj

theorem round_ends (hn : 3 ≤ L.n) (m : Talk) (b : Talk × ℝ) (hm : Ends L m)
    (h : L.round m = some b) : Ends L b.1 ∧ ∀ k, 0 < k → k + 1 < L.n → 0 < (b.1.up k).prec := by
  rw [League.round, if_neg (by omega)] at h
  obtain ⟨c, hc, h⟩ := Option.bind_eq_some_iff.1 h
  obtain ⟨i1, -, -⟩ := foldlM_inv (α := Talk × ℝ) (I := fun a => Ends L a.1)
    (Later := fun _ _ => True) (P := fun _ _ => True) (fun _ => trivial)
    (fun _ _ _ _ _ => trivial) (fun _ _ _ _ _ => trivial) (List.range (L.n - 2))
    (fun k hk a b ha hb => ⟨forward_ends (by have := List.mem_range.1 hk; omega) a b ha hb,
      trivial, trivial⟩) _ _ hm hc
  obtain ⟨i2, -, p2⟩ := foldlM_inv (α := Talk × ℝ) (I := fun a => Ends L a.1)
    (Later := fun a b => ∀ j, 0 < (a.1.up j).prec → 0 < (b.1.up j).prec)
    (P := fun k a => 0 < (a.1.up k).prec) (fun _ _ h => h)
    (fun _ _ _ h1 h2 j h => h2 j (h1 j h)) (fun _ _ k l h => l k h)
    ((List.range (L.n - 2)).map (· + 1)).reverse
    (fun k hk a b ha hb => by
      rw [List.mem_reverse, List.mem_map] at hk
      obtain ⟨j, hj, rfl⟩ := hk
      have := List.mem_range.1 hj
      exact backward_ends (by omega) (by omega) a b ha hb) _ _ i1 h
  exact ⟨i2, fun k h0 hk => p2 k (by simp; exact ⟨k - 1, by omega, by omega⟩)⟩

theorem rounds_ends (hn : 3 ≤ L.n) : ∀ (r : ℕ) (m b : Talk), Ends L m →
    L.rounds (r + 1) m = some b →
    Ends L b ∧ ∀ k, 0 < k → k + 1 < L.n → 0 < (b.up k).prec := by
  intro r
  induction r with
  | zero =>
    intro m b hm h
    rw [League.rounds] at h
    obtain ⟨c, hc, h⟩ := Option.bind_eq_some_iff.1 h
    have := round_ends hn m c hm hc
    split_ifs at h with hd
    · cases h; exact this
    · rw [League.rounds] at h; cases h; exact this
  | succ r ih =>
    intro m b hm h
    rw [League.rounds] at h
    obtain ⟨c, hc, h⟩ := Option.bind_eq_some_iff.1 h
    have := round_ends hn m c hm hc
    split_ifs at h with hd
    · cases h; exact this
    · exact ih _ _ this.1 h

/-- Knowledge that passes through a comparison loses weight. -/
theorem pass_lt {Q R u : ℝ} (hQ : 0 < Q) (hR : 0 < R) (hu : 0 < u) :
    1 / (1 / (1 / Q + u) + R) < 1 / (Q + R) + u := by
  have h1 : 0 < 1 + u * Q := by positivity
  have e1 : 1 / (1 / (1 / Q + u) + R) = (1 + u * Q) / (Q + R * (1 + u * Q)) := by
    field_simp
  have e2 : 1 / (Q + R) + u = (1 + u * (Q + R)) / (Q + R) := by field_simp
  rw [e1, e2, div_lt_div_iff₀ (by positivity) (by positivity)]
  nlinarith [mul_pos hu hR, mul_pos (mul_pos hu hR) hQ, mul_pos (mul_pos hu hR) (mul_pos hu hR),
    mul_pos (mul_pos (mul_pos hu hR) (mul_pos hu hR)) hQ, mul_pos (mul_pos hu hR) hR,
    mul_pos (mul_pos hu hR) (mul_pos hu hQ)]

/-- Of the first team less is heard than of the second if they are alike a priori, and of the last
less than of the one before. -/
theorem heard_ends {x : ℕ → Info} (hn : 3 ≤ L.n) (ht : ∀ k < L.n, 0 < (L.team k).prec)
    (hx : L.heard = some x) :
    ((L.team 0).prec = (L.team 1).prec → (x 0).prec < (x 1).prec) ∧
    ((L.team (L.n - 1)).prec = (L.team (L.n - 2)).prec →
      (x (L.n - 1)).prec < (x (L.n - 2)).prec) := by
  rw [League.heard, Option.map_eq_some_iff] at hx
  obtain ⟨m, hm, rfl⟩ := hx
  obtain ⟨S, t⟩ := rounds_kept (kept_sane L) (by omega) 9 _ _ (sane_start ht) hm
  obtain ⟨e, u⟩ := rounds_ends hn 9 _ _ (ends_start ht) hm
  have hr0 := (t 0 (by omega)).1
  have hr2 := (t (L.n - 2) (by omega)).1
  constructor
  · intro heq
    have hQ := ht 0 (by omega)
    have a1 : (0 : ℕ) ≠ L.n - 2 + 1 := by omega
    have a2 : (1 : ℕ) ≠ L.n - 2 + 1 := by omega
    have a3 : (1 : ℕ) ≠ 0 := by omega
    simp only [add_prec, League.tellDown, League.tellUp, Function.update_of_ne a1,
      Function.update_of_ne a2, Function.update_of_ne a3, Function.update_self, e.down0, zero_add,
      e.first hr0, Info.of]
    have hu := u 1 (by omega) (by omega)
    have := pass_lt (Q := (L.team 0).variance) (variance_pos hQ) (variance_pos hr0) hu
    simp only [League.below, Info.variance, add_prec, one_div_one_div, heq] at this ⊢
    exact this
  · intro heq
    have hQ := ht (L.n - 1) (by omega)
    have a1 : L.n - 1 ≠ 0 := by omega
    have a2 : L.n - 2 ≠ 0 := by omega
    have a3 : L.n - 2 ≠ L.n - 1 := by omega
    have a4 : L.n - 2 + 1 = L.n - 1 := by omega
    simp only [add_prec, League.tellDown, League.tellUp, Function.update_of_ne a1,
      Function.update_of_ne a2, Function.update_of_ne a3, a4, Function.update_self, e.upn, add_zero,
      e.last hr2, Info.of]
    have hu := (t (L.n - 2) (by omega)).2 (by omega)
    have := pass_lt (Q := (L.team (L.n - 1)).variance) (variance_pos hQ) (variance_pos hr2) hu
    simp only [League.above, Info.variance, add_prec, one_div_one_div, heq] at this ⊢
    rw [add_comm (m.down (L.n - 2)).prec]
    exact this

/-! ### A league in which equals tie all along -/

/-- All pairs of neighbours tie, all teams have the mean `μ` and a variance of at most `Q`, and
the draw margins are not small. -/
structure Level (L : League) (μ Q : ℝ) : Prop where
  v : ∀ k, k + 1 < L.n → L.v k = tsVDraw
  w : ∀ k, k + 1 < L.n → L.w k = tsWDraw
  pos : ∀ k < L.n, 0 < (L.team k).prec
  mean : ∀ k < L.n, (L.team k).pm = μ * (L.team k).prec
  variance : ∀ k < L.n, (L.team k).variance ≤ Q
  margin : ∀ k, k + 1 < L.n → 0.006 * √(2 * Q) ≤ L.margin k

/-- Every message has the mean `μ`, and every result says that there is no difference. -/
structure Flat (L : League) (μ : ℝ) (m : Talk) : Prop where
  sane : Sane L m
  down : ∀ k, (m.down k).pm = μ * (m.down k).prec
  up : ∀ k, (m.up k).pm = μ * (m.up k).prec
  result : ∀ k, (m.result k).pm = 0

theorem Flat.above (h : Flat L μ m) (hL : Level L μ Q) {k : ℕ} (hk : k < L.n) :
    (L.above m k).mean = μ := by
  have hp := h.sane.above hk
  rw [Info.mean, div_eq_iff hp.ne', League.above, add_prec, add_pm, h.down k, hL.mean k hk]
  ring

theorem Flat.below (h : Flat L μ m) (hL : Level L μ Q) {k : ℕ} (hk : k < L.n) :
    (L.below m k).mean = μ := by
  have hp := h.sane.below hk
  rw [Info.mean, div_eq_iff hp.ne', League.below, add_prec, add_pm, h.up k, hL.mean k hk]
  ring

theorem Flat.margin (h : Flat L μ m) (hL : Level L μ Q) {k : ℕ} (hk : k + 1 < L.n) :
    0.004 ≤ L.margin k / √(L.C m k) / √2 := by
  have hC := h.sane.C hk
  have hC2 : L.C m k ≤ 2 * Q := by
    have h1 := (variance_le (hL.pos k (by omega)) (h.sane.down k)).trans (hL.variance k (by omega))
    have h2 := (variance_le (hL.pos (k + 1) hk) (h.sane.up (k + 1))).trans (hL.variance (k + 1) hk)
    simp only [League.C, League.above, League.below]
    linarith
  have hs : 0 < √(L.C m k) := Real.sqrt_pos.2 hC
  have hs2 := Real.sqrt_le_sqrt hC2
  have hm := hL.margin k hk
  have h2 : √(2 : ℝ) ≤ 1.5 := Real.sqrt_le_iff.2 ⟨by norm_num, by norm_num⟩
  have h20 : 0 < √(2 : ℝ) := by positivity
  rw [le_div_iff₀ h20, le_div_iff₀ hs]
  have h3 : 0.004 * √2 * √(L.C m k) ≤ 0.006 * √(2 * Q) := by
    have : 0.004 * √(2 : ℝ) ≤ 0.006 := by norm_num at h2 ⊢; linarith
    gcongr
  exact h3.trans hm

theorem Flat.compare (h : Flat L μ m) (hL : Level L μ Q) {k : ℕ} (hk : k + 1 < L.n) :
    ∃ x, L.compare m k = some x ∧ x.pm = 0 := by
  have hδ : L.δ m k = 0 := by
    rw [League.δ, h.above hL (by omega), h.below hL hk, sub_self]
  have hm := h.margin hL hk
  have hW : 0 < L.W m k ∧ L.W m k < 1 := by
    rw [League.W, hL.w k hk, hδ, zero_div]
    exact wDraw_mem hm
  have hV : L.V m k = 0 := by
    rw [League.V, hL.v k hk, hδ, zero_div]
    exact vDraw_equal hm
  rw [League.compare, if_pos hW, hδ, hV]
  exact ⟨_, rfl, by simp [Info.of]⟩

theorem kept_flat (hL : Level L μ Q) : Kept L (Flat L μ) := by
  refine ⟨fun _ h => h.sane, fun m k x hk h hc => ?_⟩
  have hx := compare_pos h.sane hk hc
  obtain ⟨y, hy, hy0⟩ := h.compare hL hk
  have hxy : x = y := Option.some.inj (hc.symm.trans hy)
  subst hxy
  have hS := (kept_sane L).step m k x hk h.sane hc
  have hh : Flat L μ (m.hear k x) := by
    refine ⟨hS.1, h.down, h.up, fun j => ?_⟩
    simp only [Talk.hear, Function.update_apply]
    split_ifs
    · exact hy0
    · exact h.result j
  refine ⟨hh, ⟨hS.2.1, fun j => ?_, h.up, hh.result⟩, ⟨hS.2.2, h.down, fun j => ?_, hh.result⟩⟩
  · simp only [League.tellDown, Function.update_apply]
    split_ifs
    · rw [hh.above hL (by omega), Info.mean, hh.result k]
      simp only [Info.of, zero_div, sub_zero]
      ring
    · exact h.down j
  · simp only [League.tellUp, Function.update_apply]
    split_ifs
    · rw [hh.below hL hk, Info.mean, hh.result k]
      simp only [Info.of, zero_div, add_zero]
      ring
    · exact h.up j

theorem flat_start (hL : Level L μ Q) :
    Flat L μ ⟨fun _ => .none, fun _ => .none, fun _ => .none⟩ :=
  ⟨sane_start hL.pos, fun _ => by simp [Info.none], fun _ => by simp [Info.none], fun _ => rfl⟩

/-- A level league comes to an end, and what is heard of every team is its own mean. -/
theorem heard_level (hn : 2 ≤ L.n) (hL : Level L μ Q) :
    ∃ x, L.heard = some x ∧ ∀ k < L.n, (x k).mean = μ := by
  obtain ⟨b, hb⟩ := rounds_total (kept_flat hL) hn
    (fun m k hk hm => (hm.compare hL hk).imp fun _ h => h.1) 10 _ (flat_start hL)
  have hx : L.heard = some (fun k => (L.tellDown (L.tellUp b 0) (L.n - 2)).down k +
      (L.tellDown (L.tellUp b 0) (L.n - 2)).up k) := by rw [League.heard, hb]; rfl
  refine ⟨_, hx, fun k hk => ?_⟩
  obtain ⟨F, t⟩ := rounds_kept (kept_flat hL) hn 9 _ _ (flat_start hL) hb
  have hp := heard_pos hn hL.pos hx k hk
  rw [Info.mean, div_eq_iff hp.ne', add_pm, add_prec]
  have hr0 := (t 0 (by omega)).1
  have S1 := tellUp_sane F.sane (k := 0) (by omega) hr0
  have F1 : Flat L μ (L.tellUp b 0) := by
    refine ⟨S1, F.down, fun j => ?_, F.result⟩
    simp only [League.tellUp, Function.update_apply]
    split_ifs
    · rw [F.below hL (by omega), Info.mean, F.result 0]
      simp only [Info.of, zero_div, add_zero]
      ring
    · exact F.up j
  have e1 : ((L.tellDown (L.tellUp b 0) (L.n - 2)).down k).pm
      = μ * ((L.tellDown (L.tellUp b 0) (L.n - 2)).down k).prec := by
    simp only [League.tellDown, Function.update_apply]
    split_ifs
    · rw [F1.above hL (by omega), Info.mean, F1.result]
      simp only [Info.of, zero_div, sub_zero]
      ring
    · exact F1.down k
  rw [e1, show ((L.tellDown (L.tellUp b 0) (L.n - 2)).up k).pm = _ from F1.up k]
  simp only [League.tellDown]
  ring

end

end TrueSkill
end Skillratings
