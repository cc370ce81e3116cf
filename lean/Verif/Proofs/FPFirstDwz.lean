import Verif.Proofs.FPDwz
/-
The first DWZ rating in floating-point arithmetic.
-/

namespace Skillratings
open FP FPVal Spec
variable {E : FloatEnv}

namespace FP

theorem near_abs {x : FP E} {v ε : ℝ} (h : Near ε x v) : Near ε (Flt.abs x) |v| := by
  have e : FP.toR (Flt.abs x) = |x.toR| ∧ FP.isFinite (Flt.abs x) := by
    have hf := h.1
    change FPVal.toR (FPVal.abs x) = |FPVal.toR x| ∧ FPVal.isFinite (FPVal.abs x)
    cases x with
    | nan => exact hf.elim
    | inf => exact hf.elim
    | fin s m =>
      refine ⟨?_, trivial⟩
      change signed false m.1 = |signed s m.1|
      rw [signed_abs]
      rfl
  refine ⟨e.2, ?_⟩
  rw [e.1]
  exact (abs_abs_sub_abs_le _ _).trans h.2

/-- Rounding to an integer. -/
theorem roundToInt_fp {x : FP E} (hx : x.isFinite) (h0 : 0 ≤ x.toR) (h1 : x.toR ≤ 1000) :
    Flt.roundToInt x = ⌊x.toR + 1 / 2⌋ := by
  change FPVal.roundToInt x = ⌊FPVal.toR x + 1 / 2⌋
  cases x with
  | nan => exact hx.elim
  | inf => exact hx.elim
  | fin s m =>
    change 0 ≤ signed s m.1 at h0
    change signed s m.1 ≤ 1000 at h1
    change max (-2 ^ 63) (min (if s then -⌊m.1 + 1 / 2⌋ else ⌊m.1 + 1 / 2⌋) (2 ^ 63 - 1)) = ⌊signed s m.1 + 1 / 2⌋
    have m0 := m.2.nonneg
    have key : (if s then -⌊m.1 + 1 / 2⌋ else ⌊m.1 + 1 / 2⌋) = ⌊signed s m.1 + 1 / 2⌋ := by
      cases s
      · rfl
      · have hm : m.1 = 0 := by
          simp only [signed, if_true] at h0
          linarith
        simp only [signed, if_true, hm]
        norm_num
    rw [key]
    have b0 : 0 ≤ ⌊signed s m.1 + 1 / 2⌋ := Int.floor_nonneg.2 (by linarith)
    have b1 : ⌊signed s m.1 + 1 / 2⌋ ≤ 1001 := by
      have := Int.floor_le (signed s m.1 + 1 / 2)
      have h3 : ((⌊signed s m.1 + 1 / 2⌋ : ℤ) : ℝ) ≤ ((1001 : ℤ) : ℝ) := by push_cast; linarith
      exact_mod_cast h3
    omega

/-- An integer number of halves. -/
theorem srep_half {k : ℕ} (h : k < 2 ^ 53) : SRep ((k : ℝ) / 2) := by
  have := SRep.scale (n := k) (k := -1) h (by norm_num) (by norm_num)
  rwa [zpow_neg_one, ← div_eq_mul_inv] at this

/-- The points of a list of results are added without error. -/
theorem score_exact {R : Type} (rs : List (R × Outcomes)) (hn : rs.length ≤ 2 ^ 10) :
    Near 0 (Flt.sum (rs.map fun r => (r.2.toChessPoints : FP E))) (score rs) ∧ ∃ k : ℕ, k ≤ 2 * rs.length ∧ score rs = k / 2 := by
  have half : ∀ o : Outcomes, ∃ k : ℕ, k ≤ 2 ∧ points o = k / 2 := by
    intro o; cases o
    · exact ⟨2, le_rfl, by norm_num [points]⟩
    · exact ⟨0, by norm_num, by norm_num [points]⟩
    · exact ⟨1, by norm_num, by norm_num [points]⟩
  have key : ∀ (rs : List (R × Outcomes)) (acc : FP E) (j : ℕ), j + 2 * rs.length ≤ 2 ^ 12 → Near 0 acc ((j : ℝ) / 2) →
      Near 0 ((rs.map fun r => (r.2.toChessPoints : FP E)).foldl (· + ·) acc) ((j : ℝ) / 2 + score rs) ∧
        ∃ k : ℕ, k ≤ 2 * rs.length ∧ score rs = k / 2 := by
    intro rs
    induction rs with
    | nil => intro acc j _ h; exact ⟨by simpa [score] using h, 0, le_rfl, by simp [score]⟩
    | cons r rs ih =>
      intro acc j hj h
      simp only [List.length_cons] at hj
      obtain ⟨k, hk, ek⟩ := half r.2
      have hs := near_of_in (points_in (E := E) r.2)
      rw [pointsR_eq] at hs
      have hsum : Near 0 (acc + (r.2.toChessPoints : FP E)) (((j + k : ℕ) : ℝ) / 2) := by
        obtain ⟨s, e⟩ := add_fin h.1 hs.1
        rw [e, h.eq, hs.eq, ek]
        have : (j : ℝ) / 2 + k / 2 = ((j + k : ℕ) : ℝ) / 2 := by push_cast; ring
        rw [this]
        have hr := srep_half (k := j + k) (by omega)
        exact near_of_in (In.of_round s hr hr le_rfl le_rfl)
      obtain ⟨i1, k', hk', ek'⟩ := ih _ (j + k) (by omega) hsum
      have e : score (r :: rs) = points r.2 + score rs := by simp [score]
      refine ⟨?_, k + k', by simp only [List.length_cons]; omega, ?_⟩
      · simp only [List.map_cons, List.foldl_cons]
        rw [e, ek]
        push_cast at i1
        rw [show (j : ℝ) / 2 + ((k : ℝ) / 2 + score rs) = ((j : ℝ) + k) / 2 + score rs by ring]
        exact i1
      · rw [e, ek, ek']; push_cast; ring
  obtain ⟨h1, h2⟩ := key rs Flt.sumZero 0 (by omega) (by simpa using sumZero_near)
  exact ⟨by simpa [Flt.sum] using h1, h2⟩

end FP

theorem dwz_entry {m : ℕ} {z : ℤ} (h : (OfScientific.ofScientific m true 1 : ℝ) = ((-z : ℤ) : ℝ)) (hz : z ≤ 0)
    (hz' : -1000 ≤ z) : Near 0 (-(OfScientific.ofScientific m true 1 : FP E)) (z : ℝ) := by
  have hs : SRep ((-z : ℤ) : ℝ) := by
    obtain ⟨k, hk⟩ := Int.eq_ofNat_of_zero_le (show 0 ≤ -z by omega)
    rw [hk]
    have := SRep.nat (n := k) (by omega)
    exact_mod_cast this
  have := (lit_exact (E := E) h hs).neg
  push_cast at this
  rwa [neg_neg] at this

theorem dwz_table : List.Forall₂ (fun (e : Int × FP E) (i : Int × Int) => e.1 = i.1 ∧ Near 0 e.2 (i.2 : ℝ))
    (Dwz.probabilityTable (F := FP E)) Dwz.intTable := by
  unfold Dwz.probabilityTable Dwz.intTable
  repeat' (first
    | exact List.Forall₂.nil
    | refine List.Forall₂.cons ⟨rfl, dwz_entry (by norm_num) (by norm_num) (by norm_num)⟩ ?_)

theorem dwz_lookup (k : ℤ) : Near 0 (((Dwz.probabilityTable (F := FP E)).lookup k).getD 0.0)
    (((Dwz.intTable.lookup k).getD 0 : ℤ) : ℝ) := by
  have key : ∀ (l : List (Int × FP E)) (t : List (Int × Int)),
      List.Forall₂ (fun (e : Int × FP E) (i : Int × Int) => e.1 = i.1 ∧ Near 0 e.2 (i.2 : ℝ)) l t →
      Near 0 ((l.lookup k).getD 0.0) (((t.lookup k).getD 0 : ℤ) : ℝ) := by
    intro l t h
    induction h with
    | nil => simpa using lit_exact (E := E) (m := 0) (s := true) (e := 1) (v := 0) (by norm_num) SRep.zero
    | @cons a b l t hab _ ih =>
      obtain ⟨a1, a2⟩ := a
      obtain ⟨b1, b2⟩ := b
      obtain ⟨h1, h2⟩ := hab
      dsimp only at h1 h2
      subst h1
      rw [List.lookup_cons, List.lookup_cons]
      cases (k == a1)
      · exact ih
      · exact h2
  exact key _ _ dwz_table

/-- The rating difference of a percentage. -/
theorem dwz_difference_near {p : ℕ} (hp : p ≤ 100) :
    Near 0 (if (p : ℤ) > 50 then
        Flt.abs (((Dwz.probabilityTable (F := FP E)).lookup (((p : ℤ) - 100).natAbs : Int)).getD 0.0)
      else ((Dwz.probabilityTable (F := FP E)).lookup (p : ℤ)).getD 0.0) (performanceDifference p : ℝ) := by
  rw [← Dwz.lookup_spec p hp 0, Dwz.table_int, Dwz.lookup_map_snd, Dwz.lookup_map_snd]
  have e : ∀ k : ℤ, ((Dwz.intTable.lookup k).map fun x : ℤ => (x : ℝ)).getD 0 = (((Dwz.intTable.lookup k).getD 0 : ℤ) : ℝ) := by
    intro k
    cases Dwz.intTable.lookup k <;> simp
  split_ifs
  · have := near_abs (dwz_lookup (E := E) (((p : ℤ) - 100).natAbs : Int))
    rw [← e] at this
    exact this
  · have := dwz_lookup (E := E) (p : ℤ)
    rw [← e] at this
    exact this

/-- The check of the code for full points or no points. -/
theorem first_check {R : Type} (rs : List (R × Outcomes)) (hn : rs.length ≤ 2 ^ 10) :
    ((Flt.abs (Flt.sum (rs.map fun r => (r.2.toChessPoints : FP E)) - Flt.ofNat rs.length) <? Flt.epsilon)
      || (Flt.sum (rs.map fun r => (r.2.toChessPoints : FP E)) ==? 0.0)) = true ↔
      score rs = rs.length ∨ score rs = 0 := by
  obtain ⟨h, k, hk, ek⟩ := score_exact (E := E) rs hn
  have hN := ofNat_near (E := E) (n := rs.length) (by omega)
  have hsub : Near 0 (Flt.sum (rs.map fun r => (r.2.toChessPoints : FP E)) - Flt.ofNat rs.length)
      (score rs - rs.length) := by
    obtain ⟨s, e⟩ := sub_fin h.1 hN.1
    rw [e, h.eq, hN.eq]
    have hr : SRep (score rs - rs.length) := by
      have := (srep_half (k := 2 * rs.length - k) (by omega)).neg
      rw [Nat.cast_sub hk] at this
      rw [ek]
      convert this using 1
      push_cast
      ring
    exact near_of_in (In.of_round s hr hr le_rfl le_rfl)
  have heps : Near 0 (Flt.epsilon : FP E) (1 / 2 ^ 52) := by
    have hr := SRep.scale (n := 1) (k := -52) (by norm_num) (by norm_num) (by norm_num)
    have e : ((1 : ℕ) : ℝ) * 2 ^ (-52 : ℤ) = 1 / 2 ^ 52 := by norm_num
    rw [e] at hr
    have := near_of_in (In.of_round (E := E) false hr hr le_rfl le_rfl)
    have e2 : (2 : ℝ) ^ (-52 : ℤ) = 1 / 2 ^ 52 := by norm_num
    change Near 0 (E.round false (2 ^ (-52 : ℤ))) _
    rw [e2]
    exact this
  have h0 : Near 0 (0.0 : FP E) 0 := lit_exact (E := E) (by norm_num) SRep.zero
  have ha := near_abs hsub
  rw [Bool.or_eq_true, lt_iff_toR ha.1 heps.1, feq_iff_toR h.1 h0.1, ha.eq, heps.eq, h.eq, h0.eq]
  refine or_congr ?_ Iff.rfl
  constructor
  · intro hlt
    rw [ek] at hlt ⊢
    by_contra hne
    have hz : ((2 * rs.length - k : ℕ) : ℝ) = 2 * rs.length - k := by rw [Nat.cast_sub hk]; push_cast; ring
    have h1 : 1 ≤ 2 * rs.length - k := by
      by_contra hc
      have h2 : 2 * rs.length = k := by omega
      apply hne
      rw [← h2]
      push_cast
      ring
    have h1' : (1 : ℝ) ≤ ((2 * rs.length - k : ℕ) : ℝ) := by exact_mod_cast h1
    rw [hz] at h1'
    have := neg_abs_le ((k : ℝ) / 2 - rs.length)
    norm_num at hlt
    linarith
  · intro he
    rw [he]
    norm_num

/-- Rounding twice to the same integer. -/
theorem floor_stable {n k : ℕ} (hn : 0 < n) (hn' : n ≤ 2 ^ 10) {y : ℝ}
    (hy : |y - 50 * k / n| ≤ 1 / 2 ^ 20) (ht : ∀ j : ℕ, 100 * k ≠ (2 * j + 1) * n) :
    ⌊y + 1 / 2⌋ = ⌊(50 : ℝ) * k / n + 1 / 2⌋ := by
  have n0 : (0 : ℝ) < n := by exact_mod_cast hn
  set q := ⌊(50 : ℝ) * k / n + 1 / 2⌋ with hq
  have q1 : (q : ℝ) ≤ (50 : ℝ) * k / n + 1 / 2 := Int.floor_le _
  have q2 : (50 : ℝ) * k / n + 1 / 2 < q + 1 := Int.lt_floor_add_one _
  have q0 : 0 ≤ q := Int.floor_nonneg.2 (by positivity)
  obtain ⟨j, hj⟩ := Int.eq_ofNat_of_zero_le q0
  have hnR : (n : ℝ) ≤ 1024 := by exact_mod_cast hn'
  -- the lower and the upper gap, multiplied by `2 n`
  have i1 : (2 * (j : ℤ) - 1) * n ≤ 100 * k := by
    have : ((2 * (j : ℤ) - 1 : ℤ) : ℝ) * n ≤ 100 * k := by
      rw [hj] at q1
      have : (q : ℝ) - 1 / 2 ≤ 50 * k / n := by rw [hj]; linarith
      rw [le_div_iff₀ n0, hj] at this
      push_cast at this ⊢
      nlinarith
    exact_mod_cast this
  have i2 : (100 : ℤ) * k < (2 * j + 1) * n := by
    have : (100 : ℝ) * k < (2 * j + 1) * n := by
      have : (50 : ℝ) * k / n < q + 1 / 2 := by linarith
      rw [div_lt_iff₀ n0, hj] at this
      push_cast at this
      nlinarith
    exact_mod_cast this
  have i1' : (2 * (j : ℤ) - 1) * n + 1 ≤ 100 * k := by
    rcases i1.lt_or_eq with h | h
    · exact h
    · exfalso
      rcases Nat.eq_zero_or_pos j with h0 | h0
      · subst h0
        have : (0 : ℤ) ≤ 100 * k := by positivity
        have : (0 : ℤ) < n := by exact_mod_cast hn
        push_cast at h
        linarith
      · apply ht (j - 1)
        have : 2 * (j - 1) + 1 = 2 * j - 1 := by omega
        rw [this]
        zify [show 1 ≤ 2 * j by omega]
        linarith
  have r1 : (2 * (j : ℝ) - 1) * n + 1 ≤ 100 * k := by exact_mod_cast i1'
  have r2 : (100 : ℝ) * k + 1 ≤ (2 * j + 1) * n := by exact_mod_cast i2
  obtain ⟨y1, y2⟩ := abs_le.1 hy
  have g1 : (j : ℝ) - 1 / 2 + 1 / 2048 ≤ 50 * k / n := by
    rw [le_div_iff₀ n0]; nlinarith
  have g2 : 50 * (k : ℝ) / n + 1 / 2048 ≤ j + 1 / 2 := by
    rw [← le_sub_iff_add_le, div_le_iff₀ n0]; nlinarith
  rw [hj, Int.floor_eq_iff]
  push_cast
  norm_num at y1 y2
  constructor <;> linarith

/-- In any case the rounded percentages differ by at most one, downwards. -/
theorem floor_close {x y : ℝ} (h : |y - x| ≤ 1 / 2 ^ 20) : ⌊y + 1 / 2⌋ ≤ ⌊x + 1 / 2⌋ + 1 ∧ ⌊x + 1 / 2⌋ - 1 ≤ ⌊y + 1 / 2⌋ := by
  obtain ⟨y1, y2⟩ := abs_le.1 h
  norm_num at y1 y2
  constructor
  · rw [← Int.floor_add_one]
    exact Int.floor_mono (by linarith)
  · rw [← Int.floor_sub_one]
    exact Int.floor_mono (by linarith)

theorem performanceDifference_bound : ∀ p : Fin 101, performanceDifference p ≤ 728 ∧ -728 ≤ performanceDifference p := by
  decide

end Skillratings
