import Verif.Proofs.FPErfc
import Verif.Props.TrueSkillBayes
/-
C124: TrueSkill's probabilities in double precision, against probability theory.
-/

namespace Skillratings
open FP FPVal Spec MeasureTheory
variable {E : FloatEnv}

namespace TrueSkill

/-- The same player in exact arithmetic. -/
noncomputable def tsExact (a : TrueSkillRating (FP E)) : TrueSkillRating ℝ :=
  ⟨a.rating.toR, a.uncertainty.toR⟩

/-- The normal probability of a computed lead `d` over a computed scale `c`. -/
theorem probability_fp (A : E.Accurate) {d c : FP E} {D C k δ : ℝ} {n : ℕ} (hd : Near δ d D) (hc : Ap k n c C)
    (hk : k ≤ 2 ^ 8) (hδ : δ ≤ C / 2 ^ 37) (hD : |D| ≤ 28 * C) :
    (cdf (d / c) (0.0 : FP E) (1.0 : FP E)).isFinite ∧
      |(cdf (d / c) (0.0 : FP E) (1.0 : FP E)).toR - Phi (D / C)| ≤ 6.1e-7 * Phi (D / C) ∧
      |(cdf (d / c) (0.0 : FP E) (1.0 : FP E)).toR - Phi (D / C)| ≤ 3.1e-7 := by
  have hC := hc.2.pos
  have hk0 := hc.1.nonneg
  have h1 : |d.toR| / C ≤ 29 := by
    rw [div_le_iff₀ hC]
    have := hd.abs_le
    norm_num at hδ ⊢; linarith
  have q := near_quotient hd.1 hc.1 hC h1 (by norm_num) (by norm_num) (by norm_num at hk ⊢; linarith)
  have q' : Near (1 / 2 ^ 36) (d / c) (D / C) := by
    refine ⟨q.1, ?_⟩
    rw [show (d / c).toR - D / C = ((d / c).toR - d.toR / C) + (d.toR - D) / C by ring]
    refine (abs_add_le _ _).trans ?_
    rw [abs_div (d.toR - D), abs_of_pos hC]
    have h2 : |d.toR - D| / C ≤ 1 / 2 ^ 37 := by
      rw [div_le_iff₀ hC]; linarith [hd.2]
    refine (add_le_add q.2 h2).trans ?_
    norm_num at hk ⊢; linarith
  refine cdf_fp A q' le_rfl ?_
  rw [abs_div, abs_of_pos hC, div_le_iff₀ hC]
  norm_num at hD ⊢; linarith

/-- A player with an uncertainty between `2 ^ -20` and `2 ^ 20` and a finite rating. -/
def TsUsual (a : TrueSkillRating (FP E)) : Prop :=
  a.rating.isFinite ∧ Between (1 / 2 ^ 20) (2 ^ 20) a.uncertainty

theorem scale_ap (L : E.Lib) {β : FP E} {a b : TrueSkillRating (FP E)} (hβ : Between (1 / 2 ^ 20) (2 ^ 20) β)
    (ha : TsUsual a) (hb : TsUsual b) :
    Ap 4 50 (Flt.sqrt (Flt.mulAdd b.uncertainty b.uncertainty
      (Flt.mulAdd (2.0 : FP E) (Flt.powi β 2) (Flt.powi a.uncertainty 2))))
      (tsC β.toR (solo (tsExact a)) (solo (tsExact b))) ∧
    1.4 * β.toR ≤ tsC β.toR (solo (tsExact a)) (solo (tsExact b)) := by
  have hβ' := FP.Spec.Between.ap' hβ
  have hσ := FP.Spec.Between.ap' ha.2
  have hτ := FP.Spec.Between.ap' hb.2
  have h2 : Ap 0 1 (2.0 : FP E) 2 := ⟨lit_rel (lit_in (E := E) (m := 20) (s := true) (e := 1) (v := 2)
    (by norm_num) (SRep.ofNat 2 (by norm_num))), by norm_num, by norm_num⟩
  have s2 := h2.mulAdd (hβ'.sq L (by norm_num) (by norm_num))
    ((hσ.sq L (by norm_num) (by norm_num)).mono (k' := 1) (n' := 41) (by norm_num) (by norm_num))
    (by norm_num) (by norm_num) (by norm_num) (by norm_num)
  have s1 := (hτ.mono (k' := 1) (n' := 21) (by norm_num) (by norm_num)).mulAdd
    (hτ.mono (k' := 1) (n' := 21) (by norm_num) (by norm_num))
    (s2.mono (k' := 2) (n' := 42) (by norm_num) (by norm_num))
    (by norm_num) (by norm_num) (by norm_num) (by norm_num)
  have s3 := s1.sqrt (by norm_num) (by norm_num)
  have e : tsC β.toR (solo (tsExact a)) (solo (tsExact b)) = √(b.uncertainty.toR * b.uncertainty.toR
      + (2 * β.toR ^ 2 + a.uncertainty.toR ^ 2)) := by
    rw [tsC]
    congr 1
    simp only [solo, tsExact]
    push_cast; ring
  refine ⟨by rw [e]; exact s3.mono (by norm_num) (by norm_num), ?_⟩
  rw [e]
  refine Real.le_sqrt_of_sq_le ?_
  nlinarith [_root_.sq_nonneg a.uncertainty.toR, _root_.sq_nonneg b.uncertainty.toR, _root_.sq_nonneg β.toR]

theorem lead_near {r s β : FP E} (hβ : Between (1 / 2 ^ 20) (2 ^ 20) β) (hr : r.isFinite) (hs : s.isFinite)
    (h : |r.toR - s.toR| ≤ 39 * β.toR) : Near (40 * β.toR / 2 ^ 51) (r - s) (r.toR - s.toR) := by
  have b1 := hβ.2.1
  have b2 := hβ.2.2
  refine (small_sub (near_self hr) (near_self hs) (M := 40 * β.toR) ?_ ?_ ?_).mono (by simp)
  · norm_num at b1 ⊢; linarith
  · refine le_trans (one_div_le_one_div_of_le (by positivity)
      (pow_le_pow_right₀ (by norm_num) (by norm_num : 20 ≤ 900))) ?_
    norm_num at b1 ⊢; linarith
  · refine le_trans ?_ (pow_le_pow_right₀ (by norm_num) (by norm_num : 30 ≤ 900))
    norm_num at b2 ⊢; linarith

/-- The probability of each player to win. -/
theorem expected_fp (L : E.Lib) (A : E.Accurate) {a b : TrueSkillRating (FP E)} {c : TrueSkillConfig (FP E)}
    (hβ : Between (1 / 2 ^ 20) (2 ^ 20) c.beta) (ha : TsUsual a) (hb : TsUsual b)
    (h : |a.rating.toR - b.rating.toR| ≤ 39 * c.beta.toR) :
    let p := Phi ((a.rating.toR - b.rating.toR) / tsC c.beta.toR (solo (tsExact a)) (solo (tsExact b)))
    Near (6.1e-7 * p) (expectedScore a b c).1 p ∧ Near 3.1e-7 (expectedScore a b c).1 p ∧
      Near 3.2e-7 (expectedScore a b c).2 (1 - p) := by
  intro p
  obtain ⟨s1, s2⟩ := scale_ap L hβ ha hb
  have hl := lead_near hβ ha.1 hb.1 h
  have hβ0 := (FP.Spec.Between.ap' hβ).2.pos
  obtain ⟨g1, g2, g3⟩ := probability_fp A hl s1 (by norm_num) (by norm_num at s2 ⊢; linarith)
    (by norm_num at s2 ⊢; linarith)
  refine ⟨⟨g1, g2⟩, ⟨g1, g3⟩, ?_⟩
  have p0 : 0 < p := Phi_pos _
  have p1 : p < 1 := Phi_lt_one _
  refine (near_sub (near_of_in one_in) (show Near _ _ p from ⟨g1, g3⟩) (M := 2) ?_ (by norm_num)
    (le_huge 1 (by norm_num) (by norm_num))).mono (by norm_num)
  rw [abs_of_pos (by linarith)]; norm_num; linarith

/-! ### Teams -/

theorem near_sum_of {β : Type} (l : List β) (f : β → FP E) {M : ℝ} (hM1 : 1 / 2 ^ 800 ≤ M) (hM2 : M ≤ 2 ^ 800)
    (n : ℕ) (hn : l.length ≤ n) (hn' : n ≤ 2 ^ 10) (hf : ∀ r ∈ l, (f r).isFinite ∧ |(f r).toR| ≤ M) :
    Near (l.length * ((n + 1) * M / 2 ^ 51)) (Flt.sum (l.map f)) (l.map fun r => (f r).toR).sum ∧
      |(l.map fun r => (f r).toR).sum| ≤ l.length * M := by
  have hM0 : 0 < M := lt_of_lt_of_le (by positivity) hM1
  have nn : ((n : ℝ) + 1) ≤ 2 ^ 11 := by
    have : n + 1 ≤ 2 ^ 11 := by omega
    exact_mod_cast this
  have n0 : (0 : ℝ) ≤ n := Nat.cast_nonneg n
  set η := ((n : ℝ) + 1) * M / 2 ^ 51 with hη
  have hη0 : 0 ≤ η := by positivity
  have hηM : (n : ℝ) * η ≤ M := by
    rw [hη, mul_div_assoc', div_le_iff₀ (by positivity)]
    have h1 : (n : ℝ) * (n + 1) ≤ 2 ^ 11 * 2 ^ 11 := mul_le_mul (by linarith) nn (by positivity) (by positivity)
    calc (n : ℝ) * ((n + 1) * M) = n * (n + 1) * M := by ring
      _ ≤ 2 ^ 51 * M := mul_le_mul_of_nonneg_right (h1.trans (by norm_num)) hM0.le
      _ = _ := by ring
  have key : ∀ (l : List β) (acc : FP E) (A : ℝ) (k : ℕ), k + l.length ≤ n →
      (∀ r ∈ l, (f r).isFinite ∧ |(f r).toR| ≤ M) → Near (k * η) acc A → |A| ≤ k * M →
      Near ((k + l.length) * η) ((l.map f).foldl (· + ·) acc) (A + (l.map fun r => (f r).toR).sum) ∧
        |A + (l.map fun r => (f r).toR).sum| ≤ (k + l.length) * M := by
    intro l
    induction l with
    | nil => intro acc A k _ _ h1 h2; simpa only [List.map_nil, List.foldl_nil, List.sum_nil, add_zero, List.length_nil, Nat.cast_zero] using And.intro h1 h2
    | cons r l ih =>
      intro acc A k hk hl h1 h2
      obtain ⟨r1, r2⟩ := hl r (by simp)
      have hk' : (k : ℝ) + 1 ≤ n := by
        have : k + 1 ≤ n := by simp only [List.length_cons] at hk; omega
        exact_mod_cast this
      have h3 : |A + (f r).toR| ≤ (k + 1) * M := (abs_add_le _ _).trans (by linarith)
      have h4 : (k : ℝ) * η ≤ M := (mul_le_mul_of_nonneg_right (by linarith) hη0).trans hηM
      have h5 := (small_add h1 (near_self r1) (M := (n + 1) * M) (by
          have := mul_le_mul_of_nonneg_right hk' hM0.le
          linarith)
        ((one_div_le_one_div_of_le (by positivity) (pow_le_pow_right₀ (by norm_num) (by norm_num : 800 ≤ 900))).trans
          (hM1.trans (le_mul_of_one_le_left hM0.le (by linarith))))
        (le_trans (mul_le_mul nn hM2 hM0.le (by positivity))
          (by rw [← pow_add]; exact pow_le_pow_right₀ (by norm_num) (by norm_num)))).mono
          (δ := ((k + 1 : ℕ) : ℝ) * η) (by push_cast; rw [← hη]; linarith)
      have := ih (acc + f r) (A + (f r).toR) (k + 1) (by simp only [List.length_cons] at hk; omega)
        (fun r' hr' => hl r' (List.mem_cons_of_mem _ hr')) h5 (by push_cast; exact h3)
      simp only [List.map_cons, List.foldl_cons, List.sum_cons, List.length_cons]
      push_cast at this ⊢
      rw [show A + ((f r).toR + (l.map fun r => (f r).toR).sum) = A + (f r).toR + (l.map fun r => (f r).toR).sum by ring,
        show (k : ℝ) + (l.length + 1) = k + 1 + l.length by ring]
      exact this
  have := key l Flt.sumZero 0 0 (by omega) hf (by
    rw [Nat.cast_zero, zero_mul]
    exact sumZero_near) (by simp)
  simpa [Flt.sum] using this

/-- Sums of positive numbers, from any zero. -/
theorem foldl_ap {β : Type} (l : List β) (f : β → FP E) (h : β → ℝ) {k : ℝ} {n m : ℕ} {start : FP E}
    (hst : Near 0 start 0) (hk : k ≤ 2 ^ 20)
    (hn : n + m ≤ 800) (hl : l ≠ []) (hl' : l.length ≤ 2 ^ m) (hm : m ≤ 10)
    (hf : ∀ r ∈ l, Ap k n (f r) (h r)) :
    Ap (k + l.length) (n + m) ((l.map f).foldl (· + ·) start) (l.map h).sum := by
  have key : ∀ (l : List β) (acc : FP E) (A : ℝ) (j : ℕ), j + l.length ≤ 2 ^ m →
      (∀ r ∈ l, Ap k n (f r) (h r)) → Near ((k + j) / 2 ^ 50 * A) acc A → 0 ≤ A → A ≤ j * 2 ^ n →
      Near ((k + (j + l.length)) / 2 ^ 50 * (A + (l.map h).sum)) ((l.map f).foldl (· + ·) acc) (A + (l.map h).sum) ∧
        0 ≤ (l.map h).sum ∧ A + (l.map h).sum ≤ (j + l.length) * 2 ^ n := by
    intro l
    induction l with
    | nil => intro acc A j _ _ h1 h2 h3; simpa only [List.map_nil, List.foldl_nil, List.sum_nil, add_zero, List.length_nil, Nat.cast_zero, le_refl, true_and] using And.intro h1 h3
    | cons r l ih =>
      intro acc A j hj hl h1 h2 h3
      have hr := hl r (by simp)
      have k0 := hr.1.nonneg
      have hr0 := hr.2.pos
      have hj' : (j : ℝ) + 1 ≤ 2 ^ m := by
        have : j + 1 ≤ 2 ^ m := by simp only [List.length_cons] at hj; omega
        exact_mod_cast this
      have h2m : (2 : ℝ) ^ m ≤ 2 ^ 10 := pow_le_pow_right₀ (by norm_num) hm
      have h4 : A + h r ≤ (j + 1) * 2 ^ n := by linarith [hr.2.2]
      have j0 : (0 : ℝ) ≤ j := Nat.cast_nonneg j
      have hu : (k + j) / 2 ^ 50 ≤ 1 / 2 := by norm_num at hk h2m ⊢; linarith
      have hrn := (hr.1.near hr0.le).mono (δ := (k + j) / 2 ^ 50 * h r) (by gcongr; linarith)
      have hM : A + h r ≤ 2 ^ (n + m) := by
        refine h4.trans ?_
        rw [pow_add, mul_comm]
        exact mul_le_mul_of_nonneg_left hj' (by positivity)
      have hu' := mul_le_mul_of_nonneg_right hu (by linarith : 0 ≤ A + h r)
      have h5 := (small_add h1 hrn (M := 2 * (A + h r)) (by
          rw [abs_of_nonneg (by linarith)]; linarith)
        (le_trans (one_div_le_one_div_of_le (by positivity) (pow_le_pow_right₀ (by norm_num) (by omega : n ≤ 900)))
          (hr.2.1.trans (by linarith)))
        (le_trans (mul_le_mul_of_nonneg_left hM (by norm_num)) (by
          rw [mul_comm, ← pow_succ]; exact pow_le_pow_right₀ (by norm_num) (by omega)))).mono
          (δ := (k + ((j + 1 : ℕ) : ℝ)) / 2 ^ 50 * (A + h r)) (by
            push_cast
            exact le_of_eq (by ring))
      have := ih (acc + f r) (A + h r) (j + 1) (by simp only [List.length_cons] at hj; omega)
        (fun r' hr' => hl r' (List.mem_cons_of_mem _ hr')) h5 (by linarith) (by push_cast; exact h4)
      obtain ⟨i1, i2, i3⟩ := this
      simp only [List.map_cons, List.foldl_cons, List.sum_cons, List.length_cons]
      push_cast at i1 i3 ⊢
      rw [show A + (h r + (l.map h).sum) = A + h r + (l.map h).sum by ring,
        show (j : ℝ) + (l.length + 1) = j + 1 + l.length by ring]
      exact ⟨i1, by linarith, i3⟩
  obtain ⟨i1, i2, i3⟩ := key l start 0 0 (by omega) hf (by
    rw [mul_zero]
    exact hst) le_rfl (by simp)
  simp only [zero_add, Nat.cast_zero] at i1 i2 i3
  have hlen : (l.length : ℝ) ≤ 2 ^ m := by exact_mod_cast hl'
  have hlow : 1 / 2 ^ n ≤ (l.map h).sum := by
    cases l with
    | nil => exact absurd rfl hl
    | cons r l =>
      have hr := hf r (by simp)
      have : 0 ≤ (l.map h).sum := by
        apply List.sum_nonneg
        intro x hx
        obtain ⟨y, hy, rfl⟩ := List.mem_map.1 hx
        exact (hf y (List.mem_cons_of_mem _ hy)).2.pos.le
      rw [List.map_cons, List.sum_cons]
      linarith [hr.2.1]
  have hmid : Mid (n + m) (l.map h).sum := by
    constructor
    · exact (one_div_le_one_div_of_le (by positivity) (pow_le_pow_right₀ (by norm_num) (by omega))).trans hlow
    · refine i3.trans ?_
      rw [pow_add, mul_comm]
      exact mul_le_mul_of_nonneg_left hlen (by positivity)
  exact ⟨Rel.of_near hmid.pos i1, hmid⟩

/-- Sums of positive numbers. -/
theorem sum_ap {β : Type} (l : List β) (f : β → FP E) (h : β → ℝ) {k : ℝ} {n m : ℕ} (hk : k ≤ 2 ^ 10)
    (hn : n + m ≤ 800) (hl : l ≠ []) (hl' : l.length ≤ 2 ^ m) (hm : m ≤ 10)
    (hf : ∀ r ∈ l, Ap k n (f r) (h r)) :
    Ap (k + l.length) (n + m) (Flt.sum (l.map f)) (l.map h).sum :=
  foldl_ap l f h sumZero_near (hk.trans (by norm_num)) hn hl hl' hm hf

theorem ofNat_ap {n : ℕ} (h1 : 1 ≤ n) (h2 : n ≤ 2 ^ 10) : Ap 0 10 (Flt.ofNat n : FP E) n := by
  have hr : SRep (n : ℝ) := SRep.nat (by omega)
  have e : In (E := E) ((n : ℝ) : EReal) ((n : ℝ) : EReal) (Flt.ofNat n : FP E) :=
    In.of_round false hr hr le_rfl le_rfl
  have h1' : (1 : ℝ) ≤ n := by exact_mod_cast h1
  have h2' : (n : ℝ) ≤ 2 ^ 10 := by exact_mod_cast h2
  exact ⟨Rel.of_eq e.finite (le_antisymm e.toR.2 e.toR.1), by norm_num; linarith, h2'⟩

/-- A member of a team: an uncertainty between `2 ^ -20` and `2 ^ 20` and a rating of at most 64 `beta`. -/
def TsMember (c : TrueSkillConfig (FP E)) (a : TrueSkillRating (FP E)) : Prop :=
  TsUsual a ∧ |a.rating.toR| ≤ 64 * c.beta.toR

/-- The probability of two teams to win. -/
theorem expected_teams_fp (L : E.Lib) (A : E.Accurate) {s t : List (TrueSkillRating (FP E))}
    {c : TrueSkillConfig (FP E)} (hβ : Between (1 / 2 ^ 20) (2 ^ 20) c.beta) (hs : s ≠ []) (ht : t ≠ [])
    (hn : s.length + t.length ≤ 32) (hs' : ∀ a ∈ s, TsMember c a) (ht' : ∀ a ∈ t, TsMember c a)
    (h : |(side (s.map tsExact)).μ - (side (t.map tsExact)).μ| ≤
      28 * tsC c.beta.toR (side (s.map tsExact)) (side (t.map tsExact))) :
    let p := Phi (((side (s.map tsExact)).μ - (side (t.map tsExact)).μ)
      / tsC c.beta.toR (side (s.map tsExact)) (side (t.map tsExact)))
    Near (6.1e-7 * p) (expectedScoreTwoTeams s t c).1 p ∧ Near 3.1e-7 (expectedScoreTwoTeams s t c).1 p ∧
      Near 3.2e-7 (expectedScoreTwoTeams s t c).2 (1 - p) := by
  intro p
  have hβ' := FP.Spec.Between.ap' hβ
  have hβ0 := hβ'.2.pos
  have b1 := hβ.2.1
  have b2 := hβ.2.2
  have ls : 0 < s.length := List.length_pos_iff.2 hs
  have lt : 0 < t.length := List.length_pos_iff.2 ht
  have v1 := sum_ap s (fun a => Flt.powi a.uncertainty 2) (fun a => a.uncertainty.toR ^ 2) (k := 1) (n := 40)
    (m := 10) (by norm_num) (by norm_num) hs (by omega) le_rfl
    (fun a ha => ((FP.Spec.Between.ap' (hs' a ha).1.2).sq L (by norm_num) (by norm_num)).mono (by norm_num) (by norm_num))
  have v2 := sum_ap t (fun a => Flt.powi a.uncertainty 2) (fun a => a.uncertainty.toR ^ 2) (k := 1) (n := 40)
    (m := 10) (by norm_num) (by norm_num) ht (by omega) le_rfl
    (fun a ha => ((FP.Spec.Between.ap' (ht' a ha).1.2).sq L (by norm_num) (by norm_num)).mono (by norm_num) (by norm_num))
  have n1 := ofNat_ap (E := E) (n := s.length + t.length) (by omega) (by omega)
  have ls' : (s.length : ℝ) ≤ 32 := by exact_mod_cast (by omega : s.length ≤ 32)
  have lt' : (t.length : ℝ) ≤ 32 := by exact_mod_cast (by omega : t.length ≤ 32)
  have c1 := (n1.mono (k' := 33) (n' := 10) (by norm_num) le_rfl).mulAdd
    ((hβ'.sq L (by norm_num) (by norm_num)).mono (k' := 33) (n' := 40) (by norm_num) (by norm_num))
    (v1.mono (k' := 33) (n' := 50) (by linarith) (by norm_num))
    (by norm_num) (by norm_num) (by norm_num) (by norm_num)
  have c2 := (v2.mono (k' := 67) (n' := 51) (by linarith) (by norm_num)).add
    (c1.mono (k' := 67) (n' := 51) (by norm_num) (by norm_num)) (by norm_num) (by norm_num)
  have c3 := c2.sqrt (by norm_num) (by norm_num)
  set C := tsC c.beta.toR (side (s.map tsExact)) (side (t.map tsExact)) with hC
  have e : C = √((t.map fun a => a.uncertainty.toR ^ 2).sum
      + (((s.length + t.length : ℕ) : ℝ) * c.beta.toR ^ 2 + (s.map fun a => a.uncertainty.toR ^ 2).sum)) := by
    rw [hC, tsC]
    congr 1
    simp only [side, List.length_map, List.map_map, Function.comp_def, tsExact]
    ring
  rw [← e] at c3
  have hC0 := c3.2.pos
  have hC2 : ((s.length + t.length : ℕ) : ℝ) * c.beta.toR ^ 2 ≤ C ^ 2 := by
    have p1 := v1.2.pos
    have p2 := v2.2.pos
    rw [e, Real.sq_sqrt (by positivity)]
    linarith
  have tiny : (1 : ℝ) / 2 ^ 800 ≤ 1 / 2 ^ 20 :=
    one_div_le_one_div_of_le (by positivity) (pow_le_pow_right₀ (by norm_num) (by norm_num))
  have hM1 : 1 / 2 ^ 800 ≤ 64 * c.beta.toR := tiny.trans (by norm_num at b1 ⊢; linarith)
  have hM2 : 64 * c.beta.toR ≤ 2 ^ 800 :=
    le_trans (b := 2 ^ 30) (by norm_num at b2 ⊢; linarith) (pow_le_pow_right₀ (by norm_num) (by norm_num))
  have m1 := near_sum_of s (fun a => a.rating) hM1 hM2 s.length le_rfl (by omega)
    (fun a ha => ⟨(hs' a ha).1.1, (hs' a ha).2⟩)
  have m2 := near_sum_of t (fun a => a.rating) hM1 hM2 t.length le_rfl (by omega)
    (fun a ha => ⟨(ht' a ha).1.1, (ht' a ha).2⟩)
  have es : (side (s.map tsExact)).μ = (s.map fun a => a.rating.toR).sum := by
    simp only [side, List.map_map, Function.comp_def, tsExact]
  have et : (side (t.map tsExact)).μ = (t.map fun a => a.rating.toR).sum := by
    simp only [side, List.map_map, Function.comp_def, tsExact]
  rw [← es] at m1
  rw [← et] at m2
  set x : ℝ := (s.length : ℝ) with hx
  set y : ℝ := (t.length : ℝ) with hy
  have x1 : 1 ≤ x := by rw [hx]; exact_mod_cast ls
  have y1 : 1 ≤ y := by rw [hy]; exact_mod_cast lt
  have hxy : x + y ≤ 32 := by rw [hx, hy]; exact_mod_cast hn
  have hN : ((s.length + t.length : ℕ) : ℝ) = x + y := Nat.cast_add _ _
  rw [hN] at hC2
  have hb : (x + y) ^ 2 * c.beta.toR ≤ 182 * C := by
    refine abs_le_of_sq_le_sq' ?_ (by positivity) |>.2
    have h1 : (x + y) ^ 3 ≤ 32 ^ 3 := pow_le_pow_left₀ (by linarith) hxy 3
    calc ((x + y) ^ 2 * c.beta.toR) ^ 2 = (x + y) ^ 3 * ((x + y) * c.beta.toR ^ 2) := by ring
      _ ≤ 32 ^ 3 * C ^ 2 := mul_le_mul h1 hC2 (by positivity) (by positivity)
      _ ≤ (182 * C) ^ 2 := by nlinarith [_root_.sq_nonneg C]
  have hcβ : c.beta.toR ≤ C := by
    refine abs_le_of_sq_le_sq' ?_ hC0.le |>.2
    nlinarith [_root_.sq_nonneg c.beta.toR]
  have hd := small_sub m1.1 m2.1 (M := 29 * C) (by
      have : x * ((x + 1) * (64 * c.beta.toR) / 2 ^ 51) + y * ((y + 1) * (64 * c.beta.toR) / 2 ^ 51)
          ≤ C := by
        rw [show x * ((x + 1) * (64 * c.beta.toR) / 2 ^ 51) + y * ((y + 1) * (64 * c.beta.toR) / 2 ^ 51)
          = (x ^ 2 + y ^ 2 + x + y) * c.beta.toR * (64 / 2 ^ 51) by ring]
        have : (x ^ 2 + y ^ 2 + x + y) * c.beta.toR ≤ 2 * ((x + y) ^ 2 * c.beta.toR) := by
          rw [← mul_assoc]
          exact mul_le_mul_of_nonneg_right (by nlinarith) hβ0.le
        norm_num at this ⊢
        linarith
      linarith)
    ((one_div_le_one_div_of_le (by positivity) (pow_le_pow_right₀ (by norm_num) (by norm_num : 20 ≤ 900))).trans
      (by linarith))
    (le_trans (b := 2 ^ 60) (by have := c3.2.2; norm_num at this ⊢; linarith)
      (pow_le_pow_right₀ (by norm_num) (by norm_num)))
  obtain ⟨g1, g2, g3⟩ := probability_fp A hd c3 (by norm_num) (by
      rw [show x * ((x + 1) * (64 * c.beta.toR) / 2 ^ 51) + y * ((y + 1) * (64 * c.beta.toR) / 2 ^ 51)
          = (x ^ 2 + y ^ 2 + x + y) * c.beta.toR * (64 / 2 ^ 51) by ring]
      have : (x ^ 2 + y ^ 2 + x + y) * c.beta.toR ≤ (x + y) ^ 2 * c.beta.toR * 1 := by
        rw [mul_one]
        exact mul_le_mul_of_nonneg_right (by nlinarith) hβ0.le
      norm_num at this ⊢
      linarith) h
  refine ⟨⟨g1, g2⟩, ⟨g1, g3⟩, ?_⟩
  have p0 : 0 < p := Phi_pos _
  have p1 : p < 1 := Phi_lt_one _
  refine (near_sub (near_of_in one_in) (show Near _ _ p from ⟨g1, g3⟩) (M := 2) ?_ (by norm_num)
    (le_huge 1 (by norm_num) (by norm_num))).mono (by norm_num)
  rw [abs_of_pos (by linarith)]; norm_num; linarith

section
variable {Ω : Type*} [MeasurableSpace Ω] {P : Measure Ω} [IsProbabilityMeasure P]

theorem duel_probability (a b : TrueSkillRating ℝ) {β : ℝ} (hβ : β ≠ 0) {X N : Fin 2 → Ω → ℝ}
    (h : IsContest P X N ![a.rating, b.rating] ![a.uncertainty ^ 2, b.uncertainty ^ 2] β) :
    P.real {ω | 0 < lead duel X N ω} = Phi ((a.rating - b.rating) / tsC β (solo a) (solo b)) ∧
    P.real {ω | lead duel X N ω < 0} = 1 - Phi ((a.rating - b.rating) / tsC β (solo a) (solo b)) := by
  have hv : ∀ i, 0 ≤ ![a.uncertainty ^ 2, b.uncertainty ^ 2] i := by
    intro i; fin_cases i <;> simp <;> positivity
  have hc := tsC_duel_pos hβ a b
  have hc2 := duel_var a b (f := β) (τ := 0) (β := β) (by ring)
  simp only [ne_eq, OfNat.ofNat_ne_zero, not_false_eq_true, zero_pow, add_zero] at hc2
  have h1 := (h.posterior_win hv _ hc hc2 0 rfl).1
  have hc2' : tsC β (solo a) (solo b) ^ 2 = ∑ i, (-duel i) ^ 2 *
      (![a.uncertainty ^ 2, b.uncertainty ^ 2] i + β ^ 2) := by
    simp only [neg_sq]; exact hc2
  have h2 := (h.posterior_win hv (fun i => -duel i) hc hc2' 0 rfl).1
  have hset : {ω | 0 < lead (fun i => -duel i) X N ω} = {ω | lead duel X N ω < 0} := by
    ext ω
    simp only [Set.mem_ofPred_eq, lead_neg]
    constructor <;> intro h <;> linarith
  have hn : (∑ i, -duel i * ![a.rating, b.rating] i - 0) / tsC β (solo a) (solo b)
      = -((a.rating - b.rating) / tsC β (solo a) (solo b)) := by
    simp only [neg_mul, Finset.sum_neg_distrib, duel_mean]; ring
  rw [hset, hn, Phi_neg] at h2
  rw [duel_mean, sub_zero] at h1
  exact ⟨h1, h2⟩

/-- The expected scores of two players, computed in double precision, are the probabilities that the
first, respectively the second, has the better performance: the relative error of the first is below
6.1e-7, and both absolute errors are below 3.2e-7. -/
theorem C124_trueskill_expected (L : E.Lib) (A : E.Accurate) (a b : TrueSkillRating (FP E))
    (c : TrueSkillConfig (FP E)) (hβ : Between (1 / 2 ^ 20) (2 ^ 20) c.beta) (ha : TsUsual a) (hb : TsUsual b)
    (hd : |a.rating.toR - b.rating.toR| ≤ 39 * c.beta.toR) {X N : Fin 2 → Ω → ℝ}
    (h : IsContest P X N ![a.rating.toR, b.rating.toR] ![a.uncertainty.toR ^ 2, b.uncertainty.toR ^ 2]
      c.beta.toR) :
    Near (6.1e-7 * P.real {ω | 0 < lead duel X N ω}) (expectedScore a b c).1
      (P.real {ω | 0 < lead duel X N ω}) ∧
    Near 3.1e-7 (expectedScore a b c).1 (P.real {ω | 0 < lead duel X N ω}) ∧
    Near 3.2e-7 (expectedScore a b c).2 (P.real {ω | lead duel X N ω < 0}) := by
  have hβ0 : c.beta.toR ≠ 0 := (FP.Spec.Between.ap' hβ).2.pos.ne'
  obtain ⟨e1, e2⟩ := duel_probability (tsExact a) (tsExact b) hβ0 h
  rw [e1, e2]
  exact expected_fp L A hβ ha hb hd

/-- The same for every opponent of a rating period. -/
theorem C124_trueskill_expected_period (L : E.Lib) (A : E.Accurate) (a : TrueSkillRating (FP E))
    (opponents : List (TrueSkillRating (FP E))) (c : TrueSkillConfig (FP E))
    (hβ : Between (1 / 2 ^ 20) (2 ^ 20) c.beta) (ha : TsUsual a) (i : ℕ) (hi : i < opponents.length)
    (hb : TsUsual opponents[i]) (hd : |a.rating.toR - opponents[i].rating.toR| ≤ 39 * c.beta.toR)
    {X N : Fin 2 → Ω → ℝ}
    (h : IsContest P X N ![a.rating.toR, opponents[i].rating.toR]
      ![a.uncertainty.toR ^ 2, opponents[i].uncertainty.toR ^ 2] c.beta.toR) :
    ∃ e, (expectedScoreRatingPeriod a opponents c)[i]? = some e ∧
      Near (6.1e-7 * P.real {ω | 0 < lead duel X N ω}) e (P.real {ω | 0 < lead duel X N ω}) ∧
      Near 3.1e-7 e (P.real {ω | 0 < lead duel X N ω}) := by
  obtain ⟨h1, h2, -⟩ := C124_trueskill_expected L A a opponents[i] c hβ ha hb hd h
  refine ⟨(expectedScore a opponents[i] c).1, ?_, h1, h2⟩
  rw [expectedScoreRatingPeriod, List.getElem?_map, List.getElem?_eq_getElem hi]
  rfl

theorem versus_probability (s t : List (TrueSkillRating ℝ)) {β : ℝ} (hβ : β ≠ 0) (hs : s ≠ [])
    {X N : Fin s.length ⊕ Fin t.length → Ω → ℝ}
    (h : IsContest P X N (both s t (·.rating)) (both s t (·.uncertainty ^ 2)) β) :
    P.real {ω | 0 < lead (versus s.length t.length) X N ω}
      = Phi (((side s).μ - (side t).μ) / tsC β (side s) (side t)) ∧
    P.real {ω | lead (versus s.length t.length) X N ω < 0}
      = 1 - Phi (((side s).μ - (side t).μ) / tsC β (side s) (side t)) := by
  have hv : ∀ i, 0 ≤ both s t (·.uncertainty ^ 2) i := by
    rintro (i | i) <;> simp only [both, Sum.elim_inl, Sum.elim_inr] <;> positivity
  have hc := tsC_teams_pos hβ s t hs
  have hc2 := versus_var s t (f := β) (τ := 0) (β := β) (by ring)
  simp only [ne_eq, OfNat.ofNat_ne_zero, not_false_eq_true, zero_pow, add_zero] at hc2
  have h1 := (h.posterior_win hv _ hc hc2 0 rfl).1
  have hc2' : tsC β (side s) (side t) ^ 2 = ∑ i, (-versus s.length t.length i) ^ 2 *
      (both s t (·.uncertainty ^ 2) i + β ^ 2) := by
    simp only [neg_sq]; exact hc2
  have h2 := (h.posterior_win hv (fun i => -versus s.length t.length i) hc hc2' 0 rfl).1
  have hset : {ω | 0 < lead (fun i => -versus s.length t.length i) X N ω}
      = {ω | lead (versus s.length t.length) X N ω < 0} := by
    ext ω
    simp only [Set.mem_ofPred_eq, lead_neg]
    constructor <;> intro h <;> linarith
  have hn : (∑ i, -versus s.length t.length i * both s t (·.rating) i - 0)
      / tsC β (side s) (side t) = -(((side s).μ - (side t).μ) / tsC β (side s) (side t)) := by
    simp only [neg_mul, Finset.sum_neg_distrib, versus_mean]; ring
  rw [hset, hn, Phi_neg] at h2
  rw [versus_mean, sub_zero] at h1
  exact ⟨h1, h2⟩

/-- The same for two teams of together at most 32 players: the sums over the teams are included. -/
theorem C124_trueskill_two_teams_expected (L : E.Lib) (A : E.Accurate) (s t : List (TrueSkillRating (FP E)))
    (c : TrueSkillConfig (FP E)) (hβ : Between (1 / 2 ^ 20) (2 ^ 20) c.beta) (hs : s ≠ []) (ht : t ≠ [])
    (hn : s.length + t.length ≤ 32) (hs' : ∀ a ∈ s, TsMember c a) (ht' : ∀ a ∈ t, TsMember c a)
    (hd : |(side (s.map tsExact)).μ - (side (t.map tsExact)).μ| ≤
      28 * tsC c.beta.toR (side (s.map tsExact)) (side (t.map tsExact)))
    {X N : Fin (s.map tsExact).length ⊕ Fin (t.map tsExact).length → Ω → ℝ}
    (h : IsContest P X N (both (s.map tsExact) (t.map tsExact) (·.rating))
      (both (s.map tsExact) (t.map tsExact) (·.uncertainty ^ 2)) c.beta.toR) :
    let W := P.real {ω | 0 < lead (versus (s.map tsExact).length (t.map tsExact).length) X N ω}
    Near (6.1e-7 * W) (expectedScoreTwoTeams s t c).1 W ∧ Near 3.1e-7 (expectedScoreTwoTeams s t c).1 W ∧
    Near 3.2e-7 (expectedScoreTwoTeams s t c).2
      (P.real {ω | lead (versus (s.map tsExact).length (t.map tsExact).length) X N ω < 0}) := by
  intro W
  have hβ0 : c.beta.toR ≠ 0 := (FP.Spec.Between.ap' hβ).2.pos.ne'
  obtain ⟨e1, e2⟩ := versus_probability (s.map tsExact) (t.map tsExact) hβ0 (by simpa using hs) h
  rw [show W = _ from e1, e2]
  exact expected_teams_fp L A hβ hs ht hn hs' ht' hd

end

/-! ### The hypotheses are satisfiable -/

/-- A configuration with `beta = 4`. -/
noncomputable def cfg4 : TrueSkillConfig (FP ieee) := ⟨0.1, 4.0, 0.0⟩

/-- The player 25 ± 8. -/
noncomputable def tom : TrueSkillRating (FP ieee) := ⟨25.0, 8.0⟩

theorem four_in : In (E := ieee) ((4 : ℝ) : EReal) ((4 : ℝ) : EReal) (4.0 : FP ieee) :=
  lit_in (E := ieee) (m := 40) (s := true) (e := 1) (v := 4) (by norm_num) (SRep.ofNat 4 (by norm_num))

theorem cfg4_beta : cfg4.beta.toR = 4 := le_antisymm four_in.toR.2 four_in.toR.1

theorem cfg4_usual : Between (1 / 2 ^ 20) (2 ^ 20) cfg4.beta :=
  ⟨four_in.finite, by rw [cfg4_beta]; norm_num, by rw [cfg4_beta]; norm_num⟩

theorem tom_member : TsMember cfg4 tom := by
  have h25 := lit_in (E := ieee) (m := 250) (s := true) (e := 1) (v := 25) (by norm_num)
    (SRep.ofNat 25 (by norm_num))
  have h8 := lit_in (E := ieee) (m := 80) (s := true) (e := 1) (v := 8) (by norm_num)
    (SRep.ofNat 8 (by norm_num))
  have e8 : tom.uncertainty.toR = 8 := le_antisymm h8.toR.2 h8.toR.1
  have e25 : tom.rating.toR = 25 := le_antisymm h25.toR.2 h25.toR.1
  refine ⟨⟨h25.finite, h8.finite, ?_, ?_⟩, ?_⟩
  · rw [e8]; norm_num
  · rw [e8]; norm_num
  · rw [e25, cfg4_beta]; norm_num

example : ∃ (X N : Fin 2 → (Fin 2 ⊕ Fin 2 → ℝ) → ℝ) (P : Measure (Fin 2 ⊕ Fin 2 → ℝ)),
    IsProbabilityMeasure P ∧ Near 3.1e-7 (expectedScore tom tom cfg4).1 (P.real {ω | 0 < lead duel X N ω}) := by
  obtain ⟨X, N, P, hP, h⟩ := exists_contest ![tom.rating.toR, tom.rating.toR]
    ![tom.uncertainty.toR ^ 2, tom.uncertainty.toR ^ 2] cfg4.beta.toR
  refine ⟨X, N, P, hP, ?_⟩
  have hd : |tom.rating.toR - tom.rating.toR| ≤ 39 * cfg4.beta.toR := by rw [cfg4_beta]; norm_num
  exact (C124_trueskill_expected ieee_lib ieee_accurate tom tom cfg4 cfg4_usual tom_member.1 tom_member.1 hd h).2.1

example : ∃ (X N : Fin 2 → (Fin 2 ⊕ Fin 2 → ℝ) → ℝ) (P : Measure (Fin 2 ⊕ Fin 2 → ℝ)) (e : FP ieee),
    IsProbabilityMeasure P ∧ (expectedScoreRatingPeriod tom [tom, tom] cfg4)[1]? = some e ∧
      Near 3.1e-7 e (P.real {ω | 0 < lead duel X N ω}) := by
  obtain ⟨X, N, P, hP, h⟩ := exists_contest ![tom.rating.toR, tom.rating.toR]
    ![tom.uncertainty.toR ^ 2, tom.uncertainty.toR ^ 2] cfg4.beta.toR
  have hd : |tom.rating.toR - tom.rating.toR| ≤ 39 * cfg4.beta.toR := by rw [cfg4_beta]; norm_num
  obtain ⟨e, h1, -, h2⟩ := C124_trueskill_expected_period ieee_lib ieee_accurate tom [tom, tom] cfg4 cfg4_usual
    tom_member.1 1 (by simp) tom_member.1 hd h
  exact ⟨X, N, P, e, hP, h1, h2⟩

example : cfg4.beta.toR = 4 ∧ (∀ a ∈ [tom, tom], TsMember cfg4 a) ∧ (∀ a ∈ [tom], TsMember cfg4 a) ∧
    |(side ([tom, tom].map tsExact)).μ - (side ([tom].map tsExact)).μ| ≤
      28 * tsC cfg4.beta.toR (side ([tom, tom].map tsExact)) (side ([tom].map tsExact)) := by
  refine ⟨cfg4_beta, by simp [tom_member], by simp [tom_member], ?_⟩
  have h := tom_member.2
  rw [cfg4_beta] at h ⊢
  have e : (side ([tom, tom].map tsExact)).μ - (side ([tom].map tsExact)).μ = tom.rating.toR := by
    simp [side, tsExact]
  have h25 := lit_in (E := ieee) (m := 250) (s := true) (e := 1) (v := 25) (by norm_num)
    (SRep.ofNat 25 (by norm_num))
  have e25 : tom.rating.toR = 25 := le_antisymm h25.toR.2 h25.toR.1
  rw [e, e25]
  have : (4 : ℝ) ≤ tsC 4 (side ([tom, tom].map tsExact)) (side ([tom].map tsExact)) := by
    refine Real.le_sqrt_of_sq_le ?_
    have h1 := side_v_nonneg ([tom, tom].map tsExact)
    have h2 := side_v_nonneg ([tom].map tsExact)
    have e3 : ((((side ([tom, tom].map tsExact)).n + (side ([tom].map tsExact)).n : ℕ)) : ℝ) = 3 := by
      simp [side]
    rw [e3]
    linarith
  rw [abs_of_nonneg (by norm_num)]
  linarith

end TrueSkill
end Skillratings
