import Verif.Proofs.TrueSkillW
import Verif.Proofs.Chain
/-
Bounds for the chain of teams when every result is decided (C97, C99).
-/
namespace Skillratings
namespace TrueSkill
open Real Spec

/-! ### The ratio `φ/Φ` stays away from the line `-y` -/

theorem gap_poly {t : ℝ} (h0 : 0.05 ≤ t) (h1 : t ≤ 1) :
    0 ≤ -fitQ t - 1.2655122 + (t - t ^ 2 / 8) + (t - t ^ 2 / 8) ^ 2 / 2
      + (t - t ^ 2 / 8) ^ 3 / 3 := by
  have e : -fitQ t - 1.2655122 + (t - t ^ 2 / 8) + (t - t ^ 2 / 8) ^ 2 / 2
      + (t - t ^ 2 / 8) ^ 3 / 3 = 0.00000003 + t * (0.00090804 * t - 0.00002368) + t ^ 3 * (
      (16732373 / 150000000) * t ^ 0 * (1 - t) ^ 6
      + (18459887 / 25000000) * t ^ 1 * (1 - t) ^ 5
      + (175549703 / 100000000) * t ^ 2 * (1 - t) ^ 4
      + (120142773 / 40000000) * t ^ 3 * (1 - t) ^ 3
      + (107997097 / 40000000) * t ^ 4 * (1 - t) ^ 2
      + (242120949 / 200000000) * t ^ 5 * (1 - t) ^ 1
      + (128833903 / 600000000) * t ^ 6 * (1 - t) ^ 0) := by
    unfold fitQ; ring
  rw [e]
  have b : 0 ≤ 1 - t := by linarith
  have t0 : 0 ≤ t := by norm_num at h0; linarith
  have c : 0 ≤ 0.00090804 * t - 0.00002368 := by norm_num at h0 ⊢; linarith
  positivity

theorem lower_gap {t : ℝ} (h0 : 0.05 ≤ t) (h1 : t ≤ 1) :
    2 * √π * (1 - t + t ^ 2 / 8) ≤ exp (-fitQ t) := by
  have hp : 0 ≤ 2 * √π := by positivity
  have t0 : 0 ≤ t := by norm_num at h0; linarith
  have hu0 : 0 ≤ t - t ^ 2 / 8 := by nlinarith
  have hu1 : t - t ^ 2 / 8 ≤ 1 := by nlinarith [sq_nonneg t]
  have hone := one_sub_le_exp hu0 hu1
  have hpoly := gap_poly h0 h1
  calc 2 * √π * (1 - t + t ^ 2 / 8) = 2 * √π * (1 - (t - t ^ 2 / 8)) := by ring
    _ ≤ exp 1.2655122 * exp (-((t - t ^ 2 / 8) + (t - t ^ 2 / 8) ^ 2 / 2
        + (t - t ^ 2 / 8) ^ 3 / 3)) :=
        mul_le_mul two_sqrt_pi_le hone (by linarith) (exp_pos _).le
    _ = exp (1.2655122 - ((t - t ^ 2 / 8) + (t - t ^ 2 / 8) ^ 2 / 2
        + (t - t ^ 2 / 8) ^ 3 / 3)) := by rw [← exp_add]; rfl
    _ ≤ exp (-fitQ t) := by apply exp_le_exp.2; linarith

/-- Below the mean: `1/(v + y) ≤ 2 √2 - y`. -/
theorem gap_neg {y : ℝ} (hy : y ≤ 0) (h : tsTiny ≤ normalCdf y) :
    1 ≤ (normalPdf y / normalCdf y + y) * (2 * √2 - y) := by
  obtain ⟨t, E, h0, h1, hE, hy', hr, hc⟩ := ratio_neg hy
  have s2 : √2 ^ 2 = (2 : ℝ) := sq_sqrt (by norm_num)
  have hp : 0 < √π := sqrt_pos.2 pi_pos
  have ht : 0.09 ≤ t := by
    by_contra h'
    rw [hc] at h
    have := fit_tiny h0 (not_le.1 h')
    linarith
  have hl : 2 * (1 - t + t ^ 2 / 8) ≤ E := by
    rw [hE, le_div_iff₀ hp]
    have := lower_gap (t := t) (by norm_num at ht ⊢; linarith) h1
    linarith
  have e : (normalPdf y / normalCdf y + y) * (2 * √2 - y) = 4 * (E - 2 * (1 - t)) / t ^ 2 := by
    rw [hr, hy']
    field_simp
    linear_combination (2 * (E - 2 * (1 - t))) * s2
  rw [e, le_div_iff₀ (by positivity)]
  linarith

/-- Above the mean: `1/(v + y) ≤ 2 √2`. -/
theorem gap_pos {y : ℝ} (hy : 0 ≤ y) :
    1 ≤ (normalPdf y / normalCdf y + y) * (2 * √2) := by
  have hs : (1.4 : ℝ) < √2 := by
    apply lt_sqrt_of_sq_lt; norm_num
  have hv : 0.39 * (1 - y ^ 2 / 2) ≤ normalPdf y / normalCdf y := by
    have h1 := normalPdf_pos y
    have h2 := normalCdf_pos y
    have h3 := normalCdf_lt_one y
    have h4 : normalPdf y ≤ normalPdf y / normalCdf y := by
      rw [le_div_iff₀ h2]; nlinarith
    refine le_trans ?_ h4
    rw [normalPdf, le_div_iff₀ (by positivity)]
    have h5 : √(2 * π) ≤ 2.51 := by
      rw [sqrt_le_left (by norm_num)]
      have := pi_lt_d20
      norm_num at this ⊢
      linarith
    have h6 := add_one_le_exp (-y ^ 2 / 2)
    have h7 := exp_pos (-y ^ 2 / 2)
    have h8 : 0 ≤ √(2 * π) := sqrt_nonneg _
    by_cases hneg : 1 - y ^ 2 / 2 ≤ 0
    · nlinarith
    · push Not at hneg
      nlinarith
  have hv0 : 0 < normalPdf y / normalCdf y := div_pos (normalPdf_pos y) (normalCdf_pos y)
  have hb : 0.36 ≤ normalPdf y / normalCdf y + y := by
    by_cases h : y ≤ 0.36
    · nlinarith
    · push Not at h; linarith
  nlinarith

/-- What a decided result says, in units of the deviation: not more than `2 √2` beyond what was
expected, and more than nothing. -/
theorem win_message {t ε : ℝ} (h0 : 0 < tsWWin t ε) (h1 : tsWWin t ε < 1) :
    ε < t + tsVWin t ε / tsWWin t ε ∧
      t + tsVWin t ε / tsWWin t ε ≤ max t ε + 2 * √2 := by
  have hc : tsTiny ≤ normalCdf (t - ε) := by
    by_contra h
    rw [tsWWin, if_pos (not_le.1 h)] at h0 h1
    split_ifs at h0 h1 <;> linarith
  have hW : tsWWin t ε = tsVWin t ε * (tsVWin t ε + (t - ε)) := by
    rw [tsWWin, if_neg (not_lt.2 hc), add_sub_assoc]
  have hv := tsVWin_pos t ε
  have hV : tsVWin t ε = normalPdf (t - ε) / normalCdf (t - ε) := by
    rw [tsVWin, if_neg (not_lt.2 hc)]
  have hg1 : t - ε ≤ 0 → 1 ≤ (tsVWin t ε + (t - ε)) * (2 * √2 - (t - ε)) := by
    intro h; rw [hV]; exact gap_neg h hc
  have hg2 : 0 ≤ t - ε → 1 ≤ (tsVWin t ε + (t - ε)) * (2 * √2) := by
    intro h; rw [hV]; exact gap_pos h
  rw [hW] at h0 h1 ⊢
  generalize tsVWin t ε = v at *
  have hp : 0 < v + (t - ε) := by
    by_contra h; push Not at h; nlinarith
  have e : v / (v * (v + (t - ε))) = 1 / (v + (t - ε)) := by field_simp
  rw [e]
  constructor
  · have : 0 < (t - ε) + 1 / (v + (t - ε)) := by
      by_cases hy : 0 ≤ t - ε
      · have : 0 < 1 / (v + (t - ε)) := by positivity
        linarith
      · push Not at hy
        rw [← sub_neg_eq_add, sub_neg_eq_add, ← neg_lt_iff_pos_add', lt_div_iff₀ hp]
        nlinarith
    linarith
  · rcases le_total t ε with hle | hle
    · have := hg1 (by linarith)
      have : 1 / (v + (t - ε)) ≤ 2 * √2 - (t - ε) := by
        rw [div_le_iff₀ hp]; linarith
      rw [max_eq_right hle]; linarith
    · have := hg2 (by linarith)
      have : 1 / (v + (t - ε)) ≤ 2 * √2 := by
        rw [div_le_iff₀ hp]; linarith
      rw [max_eq_left hle]; linarith

/-! ### Invariants of the rounds -/

open Field (Sane Later hear_sane hear_later tellDown_sane tellUp_sane told tellDown_later)

theorem compare_eq {L : League} {m : Talk} {k : ℕ} {x : Info} (h : L.compare m k = some x) :
    0 < L.W m k ∧ L.W m k < 1 ∧
      x = .of (L.δ m k + √(L.C m k) * L.V m k / L.W m k) (L.C m k * (1 - L.W m k) / L.W m k) := by
  unfold League.compare at h
  split_ifs at h with hW
  exact ⟨hW.1, hW.2, (Option.some.inj h).symm⟩

theorem compare_pos {L : League} {m : Talk} {k : ℕ} {x : Info} (hS : Sane L m) (hk : k + 1 < L.n)
    (h : L.compare m k = some x) : 0 < x.prec := by
  obtain ⟨h0, h1, rfl⟩ := compare_eq h
  have := hS.C hk
  exact of_prec_pos _ (div_pos (mul_pos this (by linarith)) h0)

theorem foldlM_inv {α β : Type} {f : α → β → Option α} {I : α → Prop} {Later : α → α → Prop}
    {P : β → α → Prop} (refl : ∀ a, Later a a)
    (trans : ∀ a b c, Later a b → Later b c → Later a c)
    (keep : ∀ a b k, Later a b → P k a → P k b) (ks : List β)
    (hf : ∀ k ∈ ks, ∀ a b, I a → f a k = some b → I b ∧ Later a b ∧ P k b) :
    ∀ a b, I a → ks.foldlM f a = some b → I b ∧ Later a b ∧ ∀ k ∈ ks, P k b := by
  induction ks with
  | nil =>
    intro a b ha h
    simp only [List.foldlM_nil, pure, Option.some.injEq] at h
    subst h
    exact ⟨ha, refl a, by simp⟩
  | cons k ks ih =>
    intro a b ha h
    rw [List.foldlM_cons] at h
    obtain ⟨c, hc, h⟩ := Option.bind_eq_some_iff.1 h
    obtain ⟨i1, l1, p1⟩ := hf k (by simp) a c ha hc
    obtain ⟨i2, l2, p2⟩ := ih (fun k hk => hf k (by simp [hk])) c b i1 h
    refine ⟨i2, trans _ _ _ l1 l2, ?_⟩
    intro j hj
    rcases List.mem_cons.1 hj with rfl | hj
    · exact keep _ _ _ l2 p1
    · exact p2 j hj

theorem foldlM_total {α β : Type} {f : α → β → Option α} {I : α → Prop} (ks : List β)
    (hf : ∀ k ∈ ks, ∀ a, I a → ∃ b, f a k = some b ∧ I b) :
    ∀ a, I a → ∃ b, ks.foldlM f a = some b ∧ I b := by
  induction ks with
  | nil => intro a ha; exact ⟨a, rfl, ha⟩
  | cons k ks ih =>
    intro a ha
    obtain ⟨c, hc, hi⟩ := hf k (by simp) a ha
    obtain ⟨b, hb, hib⟩ := ih (fun k hk => hf k (by simp [hk])) c hi
    exact ⟨b, by rw [List.foldlM_cons, hc]; exact hb, hib⟩

/-- A property of the talk that comparisons and the messages after them preserve. -/
structure Kept (L : League) (I : Talk → Prop) : Prop where
  sane : ∀ m, I m → Sane L m
  step : ∀ m k x, k + 1 < L.n → I m → L.compare m k = some x →
    I (m.hear k x) ∧ I (L.tellDown (m.hear k x) k) ∧ I (L.tellUp (m.hear k x) k)

theorem kept_sane (L : League) : Kept L (Sane L) := by
  refine ⟨fun _ h => h, fun m k x hk hS hc => ?_⟩
  have hx := compare_pos hS hk hc
  have hr : 0 < ((m.hear k x).result k).prec := by simpa [Talk.hear] using hx
  exact ⟨hear_sane hS hx, tellDown_sane (hear_sane hS hx) hk hr,
    tellUp_sane (hear_sane hS hx) hk hr⟩

section
variable {L : League} {I : Talk → Prop}

/-- Every pair has been compared, and the teams in the middle have been told. -/
def AllTold (L : League) (m : Talk) : Prop :=
  ∀ k, k + 1 < L.n → 0 < (m.result k).prec ∧ (0 < k → 0 < (m.down k).prec)

theorem tellUp_later (L : League) (m : Talk) (k : ℕ) : Later m (L.tellUp m k) :=
  fun _ => ⟨id, id⟩

theorem forward_kept (K : Kept L I) {k : ℕ} (hk : k + 1 < L.n) (a b : Talk × ℝ) (ha : I a.1)
    (h : L.forward a k = some b) :
    I b.1 ∧ Later a.1 b.1 ∧ 0 < (b.1.result k).prec ∧ 0 < (b.1.down (k + 1)).prec := by
  rw [League.forward, Option.map_eq_some_iff] at h
  obtain ⟨x, hc, rfl⟩ := h
  have hS := K.sane _ ha
  have hx := compare_pos hS hk hc
  have hr : 0 < ((a.1.hear k x).result k).prec := by simpa [Talk.hear] using hx
  exact ⟨(K.step _ _ _ hk ha hc).2.1,
    (hear_later hx).trans (tellDown_later (hear_sane hS hx) hk hr), hr,
    told (hear_sane hS hx) hk hr⟩

theorem backward_kept (K : Kept L I) {k : ℕ} (hk : k + 1 < L.n) (a b : Talk × ℝ) (ha : I a.1)
    (h : L.backward a k = some b) :
    I b.1 ∧ Later a.1 b.1 ∧ 0 < (b.1.result k).prec := by
  rw [League.backward, Option.map_eq_some_iff] at h
  obtain ⟨x, hc, rfl⟩ := h
  have hS := K.sane _ ha
  have hx := compare_pos hS hk hc
  have hr : 0 < ((a.1.hear k x).result k).prec := by simpa [Talk.hear] using hx
  exact ⟨(K.step _ _ _ hk ha hc).2.2, (hear_later hx).trans (tellUp_later _ _ _), hr⟩

theorem round_kept (K : Kept L I) (hn : 2 ≤ L.n) (m : Talk) (b : Talk × ℝ) (hm : I m)
    (h : L.round m = some b) : I b.1 ∧ AllTold L b.1 := by
  rw [League.round] at h
  split_ifs at h with h2
  · rw [Option.map_eq_some_iff] at h
    obtain ⟨x, hc, rfl⟩ := h
    have hx := compare_pos (K.sane _ hm) (by omega) hc
    refine ⟨(K.step _ _ _ (by omega) hm hc).1, fun k hk => ?_⟩
    have : k = 0 := by omega
    subst this
    exact ⟨by simpa [Talk.hear] using hx, by omega⟩
  · obtain ⟨c, hc, h⟩ := Option.bind_eq_some_iff.1 h
    obtain ⟨i1, -, p1⟩ := foldlM_inv (α := Talk × ℝ) (I := fun a => I a.1)
      (Later := fun a b => Later a.1 b.1)
      (P := fun k a => 0 < (a.1.result k).prec ∧ 0 < (a.1.down (k + 1)).prec)
      (fun a => .refl _) (fun _ _ _ h h' => Later.trans h h')
      (fun a b k l h => ⟨(l _).1 h.1, (l _).2 h.2⟩) (List.range (L.n - 2))
      (fun k hk a b ha hb => forward_kept K (by have := List.mem_range.1 hk; omega) a b ha hb)
      _ _ hm hc
    obtain ⟨i2, l2, p2⟩ := foldlM_inv (α := Talk × ℝ) (I := fun a => I a.1)
      (Later := fun a b => Later a.1 b.1)
      (P := fun k a => 0 < (a.1.result k).prec)
      (fun a => .refl _) (fun _ _ _ h h' => Later.trans h h')
      (fun a b k l h => (l _).1 h) ((List.range (L.n - 2)).map (· + 1)).reverse
      (fun k hk a b ha hb => backward_kept K (by
        rw [List.mem_reverse, List.mem_map] at hk
        obtain ⟨j, hj, rfl⟩ := hk
        have := List.mem_range.1 hj; omega) a b ha hb)
      _ _ i1 h
    refine ⟨i2, fun k hk => ?_⟩
    by_cases hk0 : k = 0
    · subst hk0
      exact ⟨(l2 0).1 (p1 0 (by simp; omega)).1, by omega⟩
    · refine ⟨p2 k (by simp; exact ⟨k - 1, by omega, by omega⟩), fun _ => ?_⟩
      have := (l2 (k - 1 + 1)).2 (p1 (k - 1) (by simp; omega)).2
      rwa [Nat.sub_add_cancel (by omega)] at this

theorem rounds_kept (K : Kept L I) (hn : 2 ≤ L.n) : ∀ (r : ℕ) (m b : Talk), I m →
    L.rounds (r + 1) m = some b → I b ∧ AllTold L b := by
  intro r
  induction r with
  | zero =>
    intro m b hm h
    rw [League.rounds] at h
    obtain ⟨c, hc, h⟩ := Option.bind_eq_some_iff.1 h
    have := round_kept K hn m c hm hc
    split_ifs at h with hd
    · cases h; exact this
    · rw [League.rounds] at h; cases h; exact this
  | succ r ih =>
    intro m b hm h
    rw [League.rounds] at h
    obtain ⟨c, hc, h⟩ := Option.bind_eq_some_iff.1 h
    have := round_kept K hn m c hm hc
    split_ifs at h with hd
    · cases h; exact this
    · exact ih _ _ this.1 h

theorem rounds_total (K : Kept L I) (hn : 2 ≤ L.n)
    (hs : ∀ m k, k + 1 < L.n → I m → ∃ x, L.compare m k = some x) :
    ∀ (r : ℕ) (m : Talk), I m → ∃ b, L.rounds r m = some b := by
  have hround : ∀ m, I m → ∃ b, L.round m = some b ∧ I b.1 := by
    intro m hm
    rw [League.round]
    split_ifs with h2
    · obtain ⟨x, hx⟩ := hs m 0 (by omega) hm
      exact ⟨_, by rw [hx]; rfl, (K.step _ _ _ (by omega) hm hx).1⟩
    · obtain ⟨b, hb, ib⟩ := foldlM_total (f := L.forward) (I := fun a => I a.1)
        (List.range (L.n - 2)) (fun k hk a ha => by
          have hk' := List.mem_range.1 hk
          obtain ⟨x, hx⟩ := hs a.1 k (by omega) ha
          exact ⟨_, by rw [League.forward, hx]; rfl, (K.step _ _ _ (by omega) ha hx).2.1⟩) (m, 0) hm
      obtain ⟨c, hc, ic⟩ := foldlM_total (f := L.backward) (I := fun a => I a.1)
        ((List.range (L.n - 2)).map (· + 1)).reverse (fun k hk a ha => by
          rw [List.mem_reverse, List.mem_map] at hk
          obtain ⟨j, hj, rfl⟩ := hk
          have := List.mem_range.1 hj
          obtain ⟨x, hx⟩ := hs a.1 (j + 1) (by omega) ha
          exact ⟨_, by rw [League.backward, hx]; rfl, (K.step _ _ _ (by omega) ha hx).2.2⟩) b ib
      exact ⟨c, by rw [hb]; exact hc, ic⟩
  intro r
  induction r with
  | zero => intro m _; exact ⟨m, rfl⟩
  | succ r ih =>
    intro m hm
    obtain ⟨b, hb, ib⟩ := hround m hm
    rw [League.rounds, hb]
    simp only [Option.bind_some]
    split_ifs
    · exact ⟨_, rfl⟩
    · exact ih _ ib

theorem sane_start (ht : ∀ k < L.n, 0 < (L.team k).prec) :
    Sane L ⟨fun _ => .none, fun _ => .none, fun _ => .none⟩ :=
  ⟨ht, fun _ => le_rfl, fun _ => le_rfl, fun _ => le_rfl⟩

/-- What is heard in the end, by the state after the rounds. -/
theorem heard_eq {x : ℕ → Info} (K : Kept L I) (hn : 2 ≤ L.n)
    (h0 : I ⟨fun _ => .none, fun _ => .none, fun _ => .none⟩) (hx : L.heard = some x) :
    ∃ m, I m ∧ AllTold L m ∧
      x = fun k => (L.tellDown (L.tellUp m 0) (L.n - 2)).down k +
        (L.tellDown (L.tellUp m 0) (L.n - 2)).up k := by
  rw [League.heard, Option.map_eq_some_iff] at hx
  obtain ⟨m, hm, rfl⟩ := hx
  obtain ⟨i, t⟩ := rounds_kept K hn 9 _ _ h0 hm
  exact ⟨m, i, t, rfl⟩

/-- Something is heard of every team. -/
theorem heard_pos {x : ℕ → Info} (hn : 2 ≤ L.n) (ht : ∀ k < L.n, 0 < (L.team k).prec)
    (hx : L.heard = some x) : ∀ k < L.n, 0 < (x k).prec := by
  obtain ⟨m, S, t, rfl⟩ := heard_eq (kept_sane L) hn (sane_start ht) hx
  have S1 := tellUp_sane S (k := 0) (by omega) (t 0 (by omega)).1
  have hr2 : 0 < ((L.tellUp m 0).result (L.n - 2)).prec := (t (L.n - 2) (by omega)).1
  have S2 := tellDown_sane S1 (k := L.n - 2) (by omega) hr2
  intro k hk
  have hd := S2.down k
  have hu := S2.up k
  rw [add_prec]
  by_cases h0 : k = 0
  · subst h0
    have : 0 < ((L.tellUp m 0).up 0).prec := by
      simp only [League.tellUp, Function.update_self]
      exact of_prec_pos _ (add_pos (variance_pos (S.below (by omega)))
        (variance_pos (t 0 (by omega)).1))
    have : 0 < ((L.tellDown (L.tellUp m 0) (L.n - 2)).up 0).prec := this
    linarith
  · have : 0 < ((L.tellDown (L.tellUp m 0) (L.n - 2)).down k).prec := by
      by_cases h1 : k = L.n - 2 + 1
      · rw [h1]; exact told S1 (by omega) hr2
      · exact (tellDown_later S1 (by omega) hr2 k).2 ((t k (by omega)).2 (by omega))
    linarith

end

/-! ### Decided results -/

/-- Every result between neighbours is a win of the better placed team. -/
structure Decided (L : League) : Prop where
  v : ∀ k, k + 1 < L.n → L.v k = tsVWin
  w : ∀ k, k + 1 < L.n → L.w k = tsWWin
  margin : ∀ k, k + 1 < L.n → 0 ≤ L.margin k

theorem compare_win {L : League} {m : Talk} {k : ℕ} {x : Info} (hD : Decided L) (hS : Sane L m)
    (hk : k + 1 < L.n) (h : L.compare m k = some x) :
    L.margin k < x.mean ∧
      x.mean ≤ max (L.δ m k) (L.margin k) + 2 * √2 * √(L.C m k) := by
  have hC := hS.C hk
  obtain ⟨h0, h1, rfl⟩ := compare_eq h
  have hs := sqrt_pos.2 hC
  rw [of_mean (div_pos (mul_pos hC (by linarith)) h0)]
  have e1 : L.δ m k = √(L.C m k) * (L.δ m k / √(L.C m k)) := by field_simp
  have e2 : L.margin k = √(L.C m k) * (L.margin k / √(L.C m k)) := by field_simp
  simp only [League.W, League.V, hD.v k hk, hD.w k hk] at h0 h1 ⊢
  obtain ⟨a, b⟩ := win_message h0 h1
  generalize L.δ m k / √(L.C m k) = t at *
  generalize L.margin k / √(L.C m k) = ε at *
  rw [e1, e2, ← mul_max_of_nonneg _ _ hs.le]
  constructor
  · calc √(L.C m k) * ε < √(L.C m k) * (t + tsVWin t ε / tsWWin t ε) := by gcongr
      _ = _ := by ring
  · calc √(L.C m k) * t + √(L.C m k) * tsVWin t ε / tsWWin t ε
        = √(L.C m k) * (t + tsVWin t ε / tsWWin t ε) := by ring
      _ ≤ √(L.C m k) * (max t ε + 2 * √2) := by gcongr
      _ = _ := by ring

theorem le_mean {a : Info} (h : 0 < a.prec) {c : ℝ} : c ≤ a.mean ↔ c * a.prec ≤ a.pm := by
  rw [Info.mean, le_div_iff₀ h]

theorem mean_le {a : Info} (h : 0 < a.prec) {c : ℝ} : a.mean ≤ c ↔ a.pm ≤ c * a.prec := by
  rw [Info.mean, div_le_iff₀ h]

theorem le_of {μ V c : ℝ} (hV : 0 < V) (h : c ≤ μ) : c * (Info.of μ V).prec ≤ (Info.of μ V).pm :=
  (le_mean (of_prec_pos μ hV)).1 (by rw [of_mean hV]; exact h)

theorem of_le {μ V c : ℝ} (hV : 0 < V) (h : μ ≤ c) : (Info.of μ V).pm ≤ c * (Info.of μ V).prec :=
  (mean_le (of_prec_pos μ hV)).1 (by rw [of_mean hV]; exact h)

/-- In a decided league nothing that is said of a team from above lifts it over `hi`, and nothing
that is said from below puts it under `lo`. -/
structure Dir (L : League) (lo hi : ℝ) (m : Talk) : Prop where
  sane : Sane L m
  up : ∀ k, lo * (m.up k).prec ≤ (m.up k).pm
  down : ∀ k, (m.down k).pm ≤ hi * (m.down k).prec
  result : ∀ k, k + 1 < L.n → 0 < (m.result k).prec → L.margin k < (m.result k).mean
  first : m.down 0 = .none
  last : ∀ k, k + 1 = L.n → m.up k = .none

section
variable {L : League} {lo hi : ℝ} {m : Talk}

theorem Dir.above_le (h : Dir L lo hi m)
    (hhi : ∀ k, k + 1 < L.n → (L.team k).pm ≤ hi * (L.team k).prec) {k : ℕ} (hk : k + 1 < L.n) :
    (L.above m k).mean ≤ hi := by
  rw [mean_le (h.sane.above (by omega)), League.above, add_prec, add_pm]
  have := hhi k hk
  have := h.down k
  linarith

theorem Dir.le_below (h : Dir L lo hi m)
    (hlo : ∀ k, 0 < k → k < L.n → lo * (L.team k).prec ≤ (L.team k).pm) {k : ℕ} (hk0 : 0 < k)
    (hk : k < L.n) : lo ≤ (L.below m k).mean := by
  rw [le_mean (h.sane.below hk), League.below, add_prec, add_pm]
  have := hlo k hk0 hk
  have := h.up k
  linarith

theorem Dir.hear (h : Dir L lo hi m) {k : ℕ} {x : Info} (hx : 0 < x.prec)
    (hm : L.margin k < x.mean) : Dir L lo hi (m.hear k x) := by
  refine ⟨hear_sane h.sane hx, h.up, h.down, fun j hj hp => ?_, h.first, h.last⟩
  simp only [Talk.hear, Function.update_apply] at hp ⊢
  split_ifs at hp ⊢ with hjk
  · rw [hjk]; exact hm
  · exact h.result j hj hp

theorem Dir.tellDown (hD : Decided L) (h : Dir L lo hi m)
    (hhi : ∀ k, k + 1 < L.n → (L.team k).pm ≤ hi * (L.team k).prec) {k : ℕ} (hk : k + 1 < L.n)
    (hr : 0 < (m.result k).prec) : Dir L lo hi (L.tellDown m k) := by
  refine ⟨tellDown_sane h.sane hk hr, h.up, fun j => ?_, h.result, ?_, h.last⟩
  · simp only [League.tellDown, Function.update_apply]
    split_ifs
    · apply of_le (add_pos (variance_pos (h.sane.above (by omega))) (variance_pos hr))
      have := h.above_le hhi hk
      have := h.result k hk hr
      have := hD.margin k hk
      linarith
    · exact h.down j
  · simp only [League.tellDown, Function.update_apply]
    rw [if_neg (by omega)]
    exact h.first

theorem Dir.tellUp (hD : Decided L) (h : Dir L lo hi m)
    (hlo : ∀ k, 0 < k → k < L.n → lo * (L.team k).prec ≤ (L.team k).pm) {k : ℕ} (hk : k + 1 < L.n)
    (hr : 0 < (m.result k).prec) : Dir L lo hi (L.tellUp m k) := by
  refine ⟨tellUp_sane h.sane hk hr, fun j => ?_, h.down, h.result, h.first, fun j hj => ?_⟩
  · simp only [League.tellUp, Function.update_apply]
    split_ifs
    · apply le_of (add_pos (variance_pos (h.sane.below (by omega))) (variance_pos hr))
      have := h.le_below hlo (Nat.succ_pos k) hk
      have := h.result k hk hr
      have := hD.margin k hk
      linarith
    · exact h.up j
  · simp only [League.tellUp, Function.update_apply]
    rw [if_neg (by omega)]
    exact h.last j hj

theorem kept_dir (hD : Decided L)
    (hlo : ∀ k, 0 < k → k < L.n → lo * (L.team k).prec ≤ (L.team k).pm)
    (hhi : ∀ k, k + 1 < L.n → (L.team k).pm ≤ hi * (L.team k).prec) : Kept L (Dir L lo hi) := by
  refine ⟨fun _ h => h.sane, fun m k x hk h hc => ?_⟩
  have hx := compare_pos h.sane hk hc
  have hh := h.hear hx (compare_win hD h.sane hk hc).1
  have hr : 0 < ((m.hear k x).result k).prec := by simpa [Talk.hear] using hx
  exact ⟨hh, hh.tellDown hD hhi hk hr, hh.tellUp hD hlo hk hr⟩

theorem none_add (a : Info) : Info.none + a = a := info_ext (by simp [add_prec, Info.none])
  (by simp [add_pm, Info.none])

theorem add_none (a : Info) : a + Info.none = a := info_ext (by simp [add_prec, Info.none])
  (by simp [add_pm, Info.none])

theorem dir_start (ht : ∀ k < L.n, 0 < (L.team k).prec) :
    Dir L lo hi ⟨fun _ => .none, fun _ => .none, fun _ => .none⟩ :=
  ⟨sane_start ht, fun _ => by simp [Info.none], fun _ => by simp [Info.none],
    fun _ _ h => absurd h (lt_irrefl _), rfl, fun _ _ => rfl⟩

/-- What is heard of the first team is better than `lo`, by more than the draw margin. -/
theorem heard_first (hn : 2 ≤ L.n) (hD : Decided L) (ht : ∀ k < L.n, 0 < (L.team k).prec)
    (hlo : ∀ k, 0 < k → k < L.n → lo * (L.team k).prec ≤ (L.team k).pm) {x : ℕ → Info}
    (hx : L.heard = some x) : lo + L.margin 0 < (x 0).mean := by
  obtain ⟨hi, hhi⟩ : ∃ hi : ℝ, ∀ k, k + 1 < L.n → (L.team k).pm ≤ hi * (L.team k).prec := by
    obtain ⟨M, hM⟩ := ((Finset.range L.n).image fun k => (L.team k).mean).exists_le
    exact ⟨M, fun k hk => (mean_le (ht k (by omega))).1
      (hM _ (Finset.mem_image_of_mem _ (by simp; omega)))⟩
  obtain ⟨m, d, t, rfl⟩ := heard_eq (kept_dir hD hlo hhi) hn (dir_start ht) hx
  have hr := (t 0 (by omega)).1
  have e : (L.tellDown (L.tellUp m 0) (L.n - 2)).down 0 = .none := by
    simp only [League.tellDown, League.tellUp, Function.update_apply]
    rw [if_neg (by omega)]
    exact d.first
  simp only [e, none_add]
  have e2 : (L.tellDown (L.tellUp m 0) (L.n - 2)).up 0 = .of
      ((L.below m 1).mean + (m.result 0).mean)
      ((L.below m 1).variance + (m.result 0).variance) := by
    simp [League.tellDown, League.tellUp]
  rw [e2, of_mean (add_pos (variance_pos (d.sane.below (by omega))) (variance_pos hr))]
  have := d.le_below hlo (k := 1) (by omega) (by omega)
  have := d.result 0 (by omega) hr
  linarith

/-- What is heard of the last team is worse than `hi`, by more than the draw margin. -/
theorem heard_last (hn : 2 ≤ L.n) (hD : Decided L) (ht : ∀ k < L.n, 0 < (L.team k).prec)
    (hhi : ∀ k, k + 1 < L.n → (L.team k).pm ≤ hi * (L.team k).prec) {x : ℕ → Info}
    (hx : L.heard = some x) : (x (L.n - 1)).mean < hi - L.margin (L.n - 2) := by
  obtain ⟨lo, hlo⟩ : ∃ lo : ℝ, ∀ k, 0 < k → k < L.n → lo * (L.team k).prec ≤ (L.team k).pm := by
    obtain ⟨M, hM⟩ := ((Finset.range L.n).image fun k => -(L.team k).mean).exists_le
    exact ⟨-M, fun k _ hk => (le_mean (ht k hk)).1 (by
      have := hM _ (Finset.mem_image_of_mem (fun k => -(L.team k).mean) (Finset.mem_range.2 hk))
      linarith)⟩
  obtain ⟨m, d, t, rfl⟩ := heard_eq (kept_dir hD hlo hhi) hn (dir_start ht) hx
  have hr := (t (L.n - 2) (by omega)).1
  have e : (L.tellDown (L.tellUp m 0) (L.n - 2)).up (L.n - 1) = .none := by
    simp only [League.tellDown, League.tellUp, Function.update_apply]
    rw [if_neg (by omega)]
    exact d.last _ (by omega)
  simp only [e, add_none]
  have e2 : (L.tellDown (L.tellUp m 0) (L.n - 2)).down (L.n - 1) = .of
      ((L.above m (L.n - 2)).mean - (m.result (L.n - 2)).mean)
      ((L.above m (L.n - 2)).variance + (m.result (L.n - 2)).variance) := by
    simp only [League.tellDown, Function.update_apply]
    rw [if_pos (by omega)]
    rfl
  rw [e2, of_mean (add_pos (variance_pos (d.sane.above (by omega))) (variance_pos hr))]
  have := d.above_le hhi (k := L.n - 2) (by omega)
  have := d.result (L.n - 2) (by omega) hr
  linarith

end

/-! ### When no result is numerically impossible -/

theorem cdf_ge_tiny {y : ℝ} (hy : -26 ≤ y) : tsTiny ≤ normalCdf y := by
  have htiny : tsTiny ≤ 0.04 := by unfold tsTiny; norm_num
  rcases le_or_gt y 0 with h0 | h0
  · have s2 : (0 : ℝ) < √2 := by positivity
    have s22 : √2 ^ 2 = (2 : ℝ) := sq_sqrt (by norm_num)
    have s14 : (1.4 : ℝ) < √2 := by apply lt_sqrt_of_sq_lt; norm_num
    have hz : 0 ≤ -y / √2 := div_nonneg (by linarith) s2.le
    have hc : normalCdf y = fit (-y / √2) / 2 := by
      rw [normalCdf, erfcFit, if_neg (not_lt.2 hz), erfcTail_eq hz]
    have hz2 : (-y / √2) ^ 2 ≤ 338 := by
      rw [div_pow, s22, neg_sq]
      nlinarith
    have hz1 : -y / √2 ≤ 19 := by
      rw [div_le_iff₀ s2]; nlinarith
    rw [hc, fit]
    set z := -y / √2
    have ht : (0.05 : ℝ) ≤ (1 + z / 2)⁻¹ := by
      rw [le_inv_comm₀ (by norm_num) (by linarith)]
      norm_num; linarith
    have ht1 : (1 + z / 2)⁻¹ ≤ 1 := inv_le_one_of_one_le₀ (by linarith)
    set t := (1 + z / 2)⁻¹
    have hq : -3 ≤ fitQ t := by
      have t0 : 0 ≤ t := by norm_num at ht; linarith
      have p4 : t ^ 4 ≤ 1 := pow_le_one₀ t0 ht1
      have p6 : t ^ 6 ≤ 1 := pow_le_one₀ t0 ht1
      have p8 : t ^ 8 ≤ 1 := pow_le_one₀ t0 ht1
      have p2 : 0 ≤ t ^ 2 := by positivity
      have p3 : 0 ≤ t ^ 3 := by positivity
      have p5 : 0 ≤ t ^ 5 := by positivity
      have p7 : 0 ≤ t ^ 7 := by positivity
      have p9 : 0 ≤ t ^ 9 := by positivity
      have e : fitQ t = -1.26551223 + 1.00002368 * t + 0.37409196 * t ^ 2 + 0.09678418 * t ^ 3
          - 0.18628806 * t ^ 4 + 0.27886807 * t ^ 5 - 1.13520398 * t ^ 6 + 1.48851587 * t ^ 7
          - 0.82215223 * t ^ 8 + 0.17087277 * t ^ 9 := by unfold fitQ; ring
      rw [e]
      nlinarith
    have he : exp (-341 : ℝ) ≤ exp (fitQ t - z ^ 2) := exp_le_exp.2 (by linarith)
    have h1 : exp (-341 : ℝ) = (exp 1 ^ 341)⁻¹ := by
      rw [← exp_nat_mul, ← exp_neg]; norm_num
    have h2 : exp 1 ^ 341 ≤ (2.72 : ℝ) ^ 341 := by
      gcongr
      exact le_of_lt (lt_trans exp_one_lt_d9 (by norm_num))
    have h3 : (2.72 : ℝ) ^ 341 ≤ 60300 ^ 31 := by
      rw [show 341 = 11 * 31 from rfl, pow_mul]
      gcongr
      norm_num
    have h4 : ((60300 : ℝ) ^ 31)⁻¹ ≤ exp (-341) := by
      rw [h1]; exact inv_anti₀ (by positivity) (h2.trans h3)
    have h5 : (0.05 : ℝ) * ((60300 : ℝ) ^ 31)⁻¹ ≤ t * exp (fitQ t - z ^ 2) :=
      mul_le_mul ht (h4.trans he) (by positivity) (by norm_num at ht; linarith)
    have h6 : tsTiny ≤ (0.05 : ℝ) * ((60300 : ℝ) ^ 31)⁻¹ / 2 := by
      unfold tsTiny; norm_num
    linarith
  · exact htiny.trans (normalCdf_ge_of_nonneg h0.le).le

/-- Bounds of everything that is said in a decided league. -/
structure Tame (L : League) (lo hi c q : ℝ) (m : Talk) : Prop where
  dir : Dir L lo hi m
  down : ∀ k, (lo - k * c) * (m.down k).prec ≤ (m.down k).pm
  up : ∀ k < L.n, (m.up k).pm ≤ (hi + (L.n - 1 - k : ℝ) * c) * (m.up k).prec
  downPrec : ∀ k, (m.down k).prec ≤ k * q
  upPrec : ∀ k < L.n, (m.up k).prec ≤ (L.n - 1 - k : ℝ) * q

/-- The teams and margins of a decided league within bounds. -/
structure Within (L : League) (lo hi q Q e : ℝ) : Prop where
  two : 2 ≤ L.n
  decided : Decided L
  pos : ∀ k < L.n, 0 < (L.team k).prec
  lo : ∀ k < L.n, lo ≤ (L.team k).mean
  hi : ∀ k < L.n, (L.team k).mean ≤ hi
  q : ∀ k < L.n, (L.team k).prec ≤ q
  Q : ∀ k < L.n, (L.team k).variance ≤ Q
  e : ∀ k, k + 1 < L.n → L.margin k ≤ e

section
variable {L : League} {lo hi q Q e : ℝ} {m : Talk}

theorem variance_le {a b : Info} (ha : 0 < a.prec) (hb : 0 ≤ b.prec) :
    (a + b).variance ≤ a.variance := by
  rw [Info.variance, Info.variance, add_prec]
  exact one_div_le_one_div_of_le ha (by linarith)

theorem of_prec_le {μ : ℝ} {a : Info} {V : ℝ} (ha : 0 < a.prec) (hV : 0 ≤ V) :
    (Info.of μ (a.variance + V)).prec ≤ a.prec := by
  have h1 := variance_pos ha
  have h2 : a.prec = 1 / a.variance := by rw [Info.variance, one_div_one_div]
  rw [h2]
  exact one_div_le_one_div_of_le h1 (by linarith)

/-- The step from team to team. -/
noncomputable def drift (Q e : ℝ) : ℝ := e + 2 * √2 * √(2 * Q)

theorem Within.loPm (hW : Within L lo hi q Q e) {k : ℕ} (hk : k < L.n) :
    lo * (L.team k).prec ≤ (L.team k).pm := (le_mean (hW.pos k hk)).1 (hW.lo k hk)

theorem Within.hiPm (hW : Within L lo hi q Q e) {k : ℕ} (hk : k < L.n) :
    (L.team k).pm ≤ hi * (L.team k).prec := (mean_le (hW.pos k hk)).1 (hW.hi k hk)

theorem Within.e_nonneg (hW : Within L lo hi q Q e) : 0 ≤ e :=
  (hW.decided.margin 0 hW.two).trans (hW.e 0 hW.two)

theorem Within.drift_nonneg (hW : Within L lo hi q Q e) : 0 ≤ drift Q e := by
  have := hW.e_nonneg
  unfold drift; positivity

theorem Within.q_pos (hW : Within L lo hi q Q e) : 0 < q := by
  have h := hW.two
  exact lt_of_lt_of_le (hW.pos 0 (by omega)) (hW.q 0 (by omega))

theorem Tame.le_above (hW : Within L lo hi q Q e) (h : Tame L lo hi (drift Q e) q m) {k : ℕ}
    (hk : k < L.n) : lo - k * drift Q e ≤ (L.above m k).mean := by
  rw [le_mean (h.dir.sane.above hk), League.above, add_prec, add_pm]
  have h1 := hW.loPm hk
  have h2 := h.down k
  have h3 : 0 ≤ k * drift Q e * (L.team k).prec := by
    have := hW.drift_nonneg; have := hW.pos k hk; positivity
  linarith

theorem Tame.below_le (hW : Within L lo hi q Q e) (h : Tame L lo hi (drift Q e) q m) {k : ℕ}
    (hk : k < L.n) : (L.below m k).mean ≤ hi + (L.n - 1 - k : ℝ) * drift Q e := by
  rw [mean_le (h.dir.sane.below hk), League.below, add_prec, add_pm]
  have h1 := hW.hiPm hk
  have h2 := h.up k hk
  have h3 : 0 ≤ (L.n - 1 - k : ℝ) * drift Q e * (L.team k).prec := by
    have h4 := hW.drift_nonneg
    have h5 := hW.pos k hk
    have h6 : (0 : ℝ) ≤ L.n - 1 - k := by
      have : ((k + 1 : ℕ) : ℝ) ≤ L.n := Nat.cast_le.2 hk
      push_cast at this; linarith
    positivity
  linarith

theorem Tame.C_le (hW : Within L lo hi q Q e) (h : Tame L lo hi (drift Q e) q m) {k : ℕ}
    (hk : k + 1 < L.n) : √(L.C m k) ≤ √(2 * Q) := by
  apply sqrt_le_sqrt
  have h1 := variance_le (hW.pos k (by omega)) (h.dir.sane.down k)
  have h2 := variance_le (hW.pos (k + 1) hk) (h.dir.sane.up (k + 1))
  have h3 := hW.Q k (by omega)
  have h4 := hW.Q (k + 1) hk
  unfold League.C League.above League.below
  linarith

theorem Tame.C_ge (hW : Within L lo hi q Q e) (h : Tame L lo hi (drift Q e) q m) {k : ℕ}
    (hk : k + 1 < L.n) : 4 / (L.n * q) ≤ L.C m k := by
  have hq := hW.q_pos
  have a1 : (L.above m k).prec ≤ (k + 1) * q := by
    rw [League.above, add_prec]
    have := hW.q k (by omega)
    have := h.downPrec k
    linarith
  have b1 : (L.below m (k + 1)).prec ≤ (L.n - 1 - k : ℝ) * q := by
    rw [League.below, add_prec]
    have := hW.q (k + 1) hk
    have := h.upPrec (k + 1) hk
    push_cast at this
    linarith
  have a0 := h.dir.sane.above (k := k) (by omega)
  have b0 := h.dir.sane.below hk
  have hk0 : (0 : ℝ) ≤ k := Nat.cast_nonneg k
  have hkn : (0 : ℝ) < L.n - 1 - k := by
    have : ((k + 1 : ℕ) : ℝ) < L.n := Nat.cast_lt.2 hk
    push_cast at this; linarith
  have h1 : 1 / ((k + 1) * q) ≤ (L.above m k).variance := one_div_le_one_div_of_le a0 a1
  have h2 : 1 / ((L.n - 1 - k : ℝ) * q) ≤ (L.below m (k + 1)).variance :=
    one_div_le_one_div_of_le b0 b1
  have h3 : 4 / (L.n * q) ≤ 1 / ((k + 1) * q) + 1 / ((L.n - 1 - k : ℝ) * q) := by
    generalize hx : (L.n - 1 - k : ℝ) = x at *
    have hn : (L.n : ℝ) = (k + 1) + x := by linarith
    rw [hn]
    generalize (k : ℝ) + 1 = y at *
    have hy : 0 < y := by
      have := lt_of_lt_of_le a0 a1
      exact (pos_iff_pos_of_mul_pos this).2 hq
    rw [div_add_div _ _ (by positivity) (by positivity), div_le_div_iff₀ (by positivity) (by positivity)]
    have : 0 ≤ q ^ 3 * ((y + x) * (y - x) ^ 2) := by positivity
    nlinarith [mul_nonneg (pow_pos hq 2).le (sq_nonneg (y - x))]
  exact h3.trans (add_le_add h1 h2)

theorem kept_tame (hW : Within L lo hi q Q e) : Kept L (Tame L lo hi (drift Q e) q) := by
  have KD := kept_dir hW.decided (lo := lo) (hi := hi) (fun k _ hk => hW.loPm hk)
    (fun k hk => hW.hiPm (by omega))
  refine ⟨fun _ h => h.dir.sane, fun m k x hk h hc => ?_⟩
  have hx := compare_pos h.dir.sane hk hc
  obtain ⟨d1, d2, d3⟩ := KD.step m k x hk h.dir hc
  obtain ⟨w1, w2⟩ := compare_win hW.decided h.dir.sane hk hc
  have hr : ((m.hear k x).result k) = x := by simp [Talk.hear]
  have hV := variance_pos hx
  have hA := h.dir.sane.above (k := k) (by omega)
  have hB := h.dir.sane.below hk
  have hdr := hW.drift_nonneg
  have he := hW.e k hk
  have he0 := hW.e_nonneg
  have hsC : 2 * √2 * √(L.C m k) ≤ 2 * √2 * √(2 * Q) := by
    have := h.C_le hW hk
    gcongr
  have hδ : L.δ m k = (L.above m k).mean - (L.below m (k + 1)).mean := rfl
  have hk0 : (0 : ℝ) ≤ k * drift Q e := by positivity
  have hkn : (0 : ℝ) ≤ L.n - 1 - (k + 1) := by
    have : ((k + 1 + 1 : ℕ) : ℝ) ≤ L.n := Nat.cast_le.2 hk
    push_cast at this; linarith
  refine ⟨⟨d1, h.down, h.up, h.downPrec, h.upPrec⟩, ⟨d2, fun j => ?_, h.up, fun j => ?_, h.upPrec⟩,
    ⟨d3, h.down, fun j hj => ?_, h.downPrec, fun j hj => ?_⟩⟩
  · simp only [League.tellDown, Function.update_apply]
    split_ifs with hj
    · rw [hr, hj]
      apply le_of (add_pos (variance_pos hA) hV)
      change _ ≤ (L.above m k).mean - x.mean
      have h1 := h.le_above hW (k := k) (by omega)
      have h2 := h.dir.le_below (fun k _ hk => hW.loPm hk) (Nat.succ_pos k) hk
      have h3 : max (L.δ m k) (L.margin k) ≤ max ((L.above m k).mean - lo) e :=
        max_le_max (by linarith) he
      have h4 : max ((L.above m k).mean - lo) e ≤ (L.above m k).mean - lo + k * drift Q e + e :=
        max_le (by linarith) (by linarith)
      have h5 : ((k + 1 : ℕ) : ℝ) * drift Q e = k * drift Q e + e + 2 * √2 * √(2 * Q) := by
        push_cast; rw [add_mul, one_mul]; unfold drift; ring
      rw [h5]
      linarith
    · exact h.down j
  · simp only [League.tellDown, Function.update_apply]
    split_ifs with hj
    · rw [hr, hj]
      refine (of_prec_le hA hV.le).trans ?_
      change (L.team k + m.down k).prec ≤ _
      rw [add_prec]
      have := hW.q k (by omega)
      have := h.downPrec k
      push_cast
      linarith
    · exact h.downPrec j
  · simp only [League.tellUp, Function.update_apply]
    split_ifs with hjk
    · rw [hr, hjk]
      apply of_le (add_pos (variance_pos hB) hV)
      change (L.below m (k + 1)).mean + x.mean ≤ _
      have h1 := h.below_le hW hk
      have h2 := h.dir.above_le (fun k hk => hW.hiPm (by omega)) hk
      have h3 : max (L.δ m k) (L.margin k) ≤ max (hi - (L.below m (k + 1)).mean) e :=
        max_le_max (by linarith) he
      have h0 : 0 ≤ (L.n - 1 - (k + 1) : ℝ) * drift Q e := by positivity
      push_cast at h1
      have h4 : max (hi - (L.below m (k + 1)).mean) e ≤
          hi - (L.below m (k + 1)).mean + (L.n - 1 - (k + 1) : ℝ) * drift Q e + e :=
        max_le (by linarith) (by linarith)
      have h5 : (L.n - 1 - k : ℝ) * drift Q e =
          (L.n - 1 - (k + 1) : ℝ) * drift Q e + e + 2 * √2 * √(2 * Q) := by
        have : (L.n - 1 - k : ℝ) = (L.n - 1 - (k + 1) : ℝ) + 1 := by ring
        rw [this, add_mul, one_mul, drift]; ring
      rw [h5]
      linarith
    · exact h.up j hj
  · simp only [League.tellUp, Function.update_apply]
    split_ifs with hjk
    · rw [hr, hjk]
      refine (of_prec_le hB hV.le).trans ?_
      change (L.team (k + 1) + m.up (k + 1)).prec ≤ _
      rw [add_prec]
      have := hW.q (k + 1) hk
      have := h.upPrec (k + 1) hk
      push_cast at this
      linarith
    · exact h.upPrec j hj

/-- No result is numerically impossible. -/
theorem heard_some (hW : Within L lo hi q Q e)
    (hcond : hi - lo + (L.n - 1) * drift Q e ≤ 52 * √(1 / (L.n * q))) :
    ∃ x, L.heard = some x := by
  have hq := hW.q_pos
  have hn : (0 : ℝ) < L.n := by
    have := hW.two
    exact Nat.cast_pos.2 (by omega)
  have start : Tame L lo hi (drift Q e) q ⟨fun _ => .none, fun _ => .none, fun _ => .none⟩ := by
    refine ⟨dir_start hW.pos, fun k => by simp [Info.none], fun k _ => by simp [Info.none],
      fun k => ?_, fun k hk => ?_⟩
    · simp only [Info.none]; positivity
    · simp only [Info.none]
      have : ((k + 1 : ℕ) : ℝ) ≤ L.n := Nat.cast_le.2 hk
      push_cast at this
      have : (0 : ℝ) ≤ L.n - 1 - k := by linarith
      positivity
  have hs : ∀ m k, k + 1 < L.n → Tame L lo hi (drift Q e) q m → ∃ x, L.compare m k = some x := by
    intro m k hk h
    have hC := h.dir.sane.C hk
    have hsC := sqrt_pos.2 hC
    have h1 := h.le_above hW (k := k) (by omega)
    have h2 := h.below_le hW hk
    have hge : 2 * √(1 / (L.n * q)) ≤ √(L.C m k) := by
      have : 2 * √(1 / (L.n * q)) = √(4 / (L.n * q)) := by
        rw [show (4 : ℝ) / (L.n * q) = 2 ^ 2 * (1 / (L.n * q)) by ring,
          sqrt_mul (by norm_num), sqrt_sq (by norm_num)]
      rw [this]
      exact sqrt_le_sqrt (h.C_ge hW hk)
    have hy : -26 ≤ L.δ m k / √(L.C m k) - L.margin k / √(L.C m k) := by
      rw [← sub_div, le_div_iff₀ hsC]
      have h3 := hW.e k hk
      have h4 : L.δ m k = (L.above m k).mean - (L.below m (k + 1)).mean := rfl
      have h5 : e ≤ drift Q e := by
        have : 0 ≤ 2 * √2 * √(2 * Q) := by positivity
        unfold drift; linarith
      push_cast at h2
      have h6 : (L.n - 1 : ℝ) * drift Q e = k * drift Q e + drift Q e +
          (L.n - 1 - (k + 1)) * drift Q e := by ring
      rw [h6] at hcond
      linarith
    have ht := cdf_ge_tiny hy
    have hw : L.W m k = tsWWin (L.δ m k / √(L.C m k)) (L.margin k / √(L.C m k)) := by
      rw [League.W, hW.decided.w k hk]
    have h01 : 0 < L.W m k ∧ L.W m k < 1 := by
      rw [hw]; exact ⟨tsWWin_pos ht, tsWWin_lt_one ht⟩
    exact ⟨_, if_pos h01⟩
  obtain ⟨b, hb⟩ := rounds_total (kept_tame hW) hW.two hs 10 _ start
  exact ⟨_, by rw [League.heard, hb]; rfl⟩

end

end TrueSkill
end Skillratings
