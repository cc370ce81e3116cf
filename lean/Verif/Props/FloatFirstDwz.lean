import Verif.Proofs.FPFirstDwz
import Verif.Props.FloatAccuracyDwz
import Verif.Props.Dwz
import Verif.FPInstance
/-
C130: the first DWZ rating in double precision.
-/

namespace Skillratings
open FP FPVal Spec
variable {E : FloatEnv}

/-- The first rating of a performance: the performance itself, or, up to 800, an eighth of it above 700. -/
noncomputable def firstRating (x : ℝ) : ℝ := if x ≤ 800 then 700 + x / 8 else x

/-- The percentage of points lies exactly half-way between two integers. -/
def HalfPercent {R : Type} (rs : List (R × Outcomes)) : Prop := ∃ j : ℕ, 200 * score rs = (2 * j + 1) * rs.length

theorem firstRating_lipschitz (x y : ℝ) : |firstRating x - firstRating y| ≤ |x - y| := by
  have h1 := le_abs_self (x - y)
  have h2 := neg_abs_le (x - y)
  unfold firstRating
  rw [abs_le]
  split_ifs <;> constructor <;> linarith

theorem firstRating_near {x : FP E} {v ε : ℝ} (h : Near ε x v) (hv : |v| ≤ 2 ^ 15) (hε : ε ≤ 1) :
    Near (ε + 1 / 2 ^ 34) (if (x <=? 800.0) = true then 700.0 + x / 8.0 else x) (firstRating v) := by
  have h800 : Near 0 (800.0 : FP E) 800 := lit_exact (E := E) (by norm_num) (SRep.ofNat 800 (by norm_num))
  have h700 : Near 0 (700.0 : FP E) 700 := lit_exact (E := E) (by norm_num) (SRep.ofNat 700 (by norm_num))
  have h8 : Near 0 (8.0 : FP E) 8 := lit_exact (E := E) (by norm_num) (SRep.ofNat 8 (by norm_num))
  have hx : |x.toR| ≤ 2 ^ 15 + 1 := by
    have := abs_sub_abs_le_abs_sub x.toR v
    have := h.2
    linarith
  have hL := firstRating_lipschitz x.toR v
  have hself : Near 0 x x.toR := ⟨h.1, by simp⟩
  have key : Near (1 / 2 ^ 34) (if (x <=? 800.0) = true then 700.0 + x / 8.0 else x) (firstRating x.toR) := by
    unfold firstRating
    have hc : (x <=? (800.0 : FP E)) = true ↔ x.toR ≤ 800 := by rw [le_iff_toR h.1 h800.1, h800.eq]
    by_cases hle : x.toR ≤ 800
    · rw [if_pos (hc.2 hle), if_pos hle]
      have d := near_div_const hself h8 (by norm_num) (M := 2 ^ 13)
        (by norm_num at hx ⊢; linarith) (by norm_num) (le_huge 14 (by norm_num) (by norm_num))
      have b : |700 + x.toR / 8| ≤ 2 ^ 13 := by
        rw [abs_le] at hx ⊢
        norm_num at hx ⊢
        constructor <;> linarith [hx.1, hx.2]
      refine (near_add h700 d (M := 2 ^ 14) (by generalize |700 + x.toR / 8| = z at *; norm_num at *; linarith)
        (by norm_num) (le_huge 15 (by norm_num) (by norm_num))).mono (by norm_num)
    · rw [if_neg (fun h => hle (hc.1 h)), if_neg hle]
      exact hself.mono (by norm_num)
  refine ⟨key.1, ?_⟩
  have e : FP.toR (if (x <=? 800.0) = true then 700.0 + x / 8.0 else x) - firstRating v
    = (FP.toR (if (x <=? 800.0) = true then 700.0 + x / 8.0 else x) - firstRating x.toR)
      + (firstRating x.toR - firstRating v) := by ring
  rw [e]
  refine (abs_add_le _ _).trans ?_
  have h1 := key.2
  have h2 := h.2
  linarith

/-- The percentage as the code computes it. -/
theorem first_percent {R : Type} (rs : List (R × Outcomes)) (hn : rs.length ≤ 2 ^ 10) (hne : rs ≠ []) :
    ∃ p : ℕ, p ≤ 100 ∧
      Flt.roundToInt (Flt.sum (rs.map fun r => (r.2.toChessPoints : FP E)) / Flt.ofNat rs.length * 100.0) = (p : ℤ) ∧
      (p ≤ percent rs + 1 ∧ percent rs ≤ p + 1) ∧ (¬ HalfPercent rs → p = percent rs) := by
  obtain ⟨h, k, hk, ek⟩ := score_exact (E := E) rs hn
  have hN := ofNat_near (E := E) (n := rs.length) (by omega)
  have hpos : 0 < rs.length := List.length_pos_iff.2 hne
  have n0 : (0 : ℝ) < rs.length := by exact_mod_cast hpos
  have h100 : Near 0 (100.0 : FP E) 100 := lit_exact (E := E) (by norm_num) (SRep.ofNat 100 (by norm_num))
  have s0 : 0 ≤ score rs := by rw [ek]; positivity
  have s1 : score rs ≤ rs.length := by
    have : (k : ℝ) ≤ 2 * rs.length := by exact_mod_cast hk
    rw [ek]; linarith
  have q0 : 0 ≤ score rs / rs.length := by positivity
  have q1 : score rs / rs.length ≤ 1 := (div_le_one n0).2 s1
  have d := near_div_const h hN n0 (M := 1) (by rw [abs_of_nonneg s0, add_zero]; exact q1) le_rfl
    (one_le_pow₀ (by norm_num))
  have m := near_mul d h100 (M := 128)
    (by
      rw [abs_of_nonneg (show 0 ≤ score rs / rs.length by exact q0)]
      generalize score rs / (rs.length : ℝ) = z at *
      norm_num
      rw [abs_of_nonneg q0]
      linarith) (by norm_num) (le_huge 7 (by norm_num) (by norm_num))
  have m' := m.mono (δ := 1 / 2 ^ 40) (by norm_num)
  set y := Flt.sum (rs.map fun r => (r.2.toChessPoints : FP E)) / Flt.ofNat rs.length * 100.0 with hy
  have hyn : 0 ≤ y.toR := by
    obtain ⟨s, e⟩ := div_fin h.1 hN.1 (by rw [hN.eq]; exact n0.ne')
    have d1 : 0 ≤ FP.toR (Flt.sum (rs.map fun r => (r.2.toChessPoints : FP E)) / Flt.ofNat rs.length) := by
      rw [e, h.eq, hN.eq]
      exact (In.of_round (E := E) s SRep.zero SRep.one q0 q1).toR.1
    have d2 : FP.toR (Flt.sum (rs.map fun r => (r.2.toChessPoints : FP E)) / Flt.ofNat rs.length) ≤ 1 := by
      rw [e, h.eq, hN.eq]
      exact (In.of_round (E := E) s SRep.zero SRep.one q0 q1).toR.2
    obtain ⟨s', e'⟩ := mul_fin d.1 h100.1
    rw [hy, e', h100.eq]
    exact (In.of_round (E := E) s' SRep.zero (SRep.ofNat 100 (by norm_num)) (by linarith) (by linarith)).toR.1
  have hx : score rs / rs.length * 100 = 50 * k / rs.length := by rw [ek]; ring
  rw [hx] at m'
  have hx100 : 50 * (k : ℝ) / rs.length ≤ 100 := by rw [← hx]; linarith
  have hclose : |y.toR - 50 * k / rs.length| ≤ 1 / 2 ^ 20 := m'.2.trans (by norm_num)
  have hy1 : y.toR ≤ 101 := by
    have := (abs_le.1 hclose).2
    norm_num at this
    linarith
  have hper : ((percent rs : ℕ) : ℤ) = ⌊(50 : ℝ) * k / rs.length + 1 / 2⌋ := by
    unfold percent
    rw [Int.natCast_floor_eq_floor (by positivity), ek]
    congr 2
    ring
  have hfl0 : 0 ≤ ⌊y.toR + 1 / 2⌋ := Int.floor_nonneg.2 (by linarith)
  refine ⟨⌊y.toR + 1 / 2⌋.toNat, ?_, ?_, ?_, ?_⟩
  · have : ⌊y.toR + 1 / 2⌋ < 101 := by
      rw [Int.floor_lt]
      have := (abs_le.1 hclose).2
      norm_num at this ⊢
      linarith
    omega
  · rw [Int.toNat_of_nonneg hfl0]
    exact roundToInt_fp m'.1 hyn (by linarith)
  · have := floor_close hclose
    omega
  · intro ht
    have := floor_stable hpos hn hclose (fun j hj => ht ⟨j, by
      rw [ek]
      have : ((100 * k : ℕ) : ℝ) = (((2 * j + 1) * rs.length : ℕ) : ℝ) := by rw [hj]
      push_cast at this
      linarith⟩)
    omega

/-- `NotEnoughGames` is returned for less than five games, whatever the ratings. -/
theorem C130_first_dwz_not_enough (age : ℕ) (rs : List (Dwz.DWZRating (FP E) × Outcomes)) :
    Dwz.getFirstDwz age rs = .error .NotEnoughGames ↔ rs.length < 5 := by
  by_cases h : rs.length < 5
  · simp [Dwz.getFirstDwz, h]
  · simp only [h, iff_false]
    intro he
    simp only [Dwz.getFirstDwz, if_neg h] at he
    split at he <;> cases he

/-- `InvalidWinRate` is returned exactly when all games are won or all are lost, whatever the ratings: the points
are added without error and a single draw is noticed. -/
theorem C130_first_dwz_invalid (age : ℕ) (rs : List (Dwz.DWZRating (FP E) × Outcomes)) (hn : rs.length ≤ 2 ^ 10) :
    Dwz.getFirstDwz age rs = .error .InvalidWinRate ↔
      5 ≤ rs.length ∧ ((∀ r ∈ rs, r.2 = .WIN) ∨ (∀ r ∈ rs, r.2 = .LOSS)) := by
  by_cases h : rs.length < 5
  · have : ¬ 5 ≤ rs.length := by omega
    simp [Dwz.getFirstDwz, h, this]
  · have h5 : 5 ≤ rs.length := by omega
    have hc := first_check (E := E) rs hn
    simp only [Dwz.getFirstDwz, if_neg h, h5, true_and]
    have hsc : (score rs = rs.length ∨ score rs = 0) ↔ ((∀ r ∈ rs, r.2 = .WIN) ∨ (∀ r ∈ rs, r.2 = .LOSS)) := by
      refine or_congr ⟨fun hs => ?_, Dwz.score_all_wins rs⟩ ⟨fun hs => ?_, Dwz.score_all_losses rs⟩
      · by_contra hw
        push Not at hw
        have := Dwz.score_not_all_wins rs hw
        linarith
      · by_contra hw
        push Not at hw
        have := Dwz.score_not_all_losses rs hw
        linarith
    rw [← hsc, ← hc]
    by_cases hh : ((Flt.abs (Flt.sum (rs.map fun r => (r.2.toChessPoints : FP E)) - Flt.ofNat rs.length) <? Flt.epsilon)
      || (Flt.sum (rs.map fun r => (r.2.toChessPoints : FP E)) ==? 0.0)) = true
    · rw [if_pos hh]; exact iff_of_true rfl hh
    · rw [if_neg hh]; exact iff_of_false (fun he => nomatch he) hh

/-- The first rating, given the rounded percentage. -/
theorem first_core (age : ℕ) (rs : List (Dwz.DWZRating (FP E) × Outcomes)) (h5 : 5 ≤ rs.length)
    (hn : rs.length ≤ 2 ^ 10) (hw : ∃ r ∈ rs, r.2 ≠ .WIN) (hl : ∃ r ∈ rs, r.2 ≠ .LOSS)
    (hr : ∀ r ∈ rs, Within (2 ^ 14) r.1.rating) {p : ℕ} (p1 : p ≤ 100)
    (p2 : Flt.roundToInt (Flt.sum (rs.map fun r => (r.2.toChessPoints : FP E)) / Flt.ofNat rs.length * 100.0) = (p : ℤ)) :
    ∃ r : Dwz.DWZRating (FP E), Dwz.getFirstDwz age rs = .ok r ∧ r.index = 1 ∧ r.age = age ∧
      Near (1 / 2 ^ 24) r.rating
        (firstRating ((rs.map fun r => r.1.rating.toR).sum / rs.length + performanceDifference p)) := by
  have hne : rs ≠ [] := by rintro rfl; simp at h5
  have hc : ¬ (((Flt.abs (Flt.sum (rs.map fun r => (r.2.toChessPoints : FP E)) - Flt.ofNat rs.length) <? Flt.epsilon)
      || (Flt.sum (rs.map fun r => (r.2.toChessPoints : FP E)) ==? 0.0)) = true) := by
    rw [first_check rs hn]
    have s1 := Dwz.score_not_all_wins rs hw
    have s2 := Dwz.score_not_all_losses rs hl
    rintro (h | h) <;> linarith
  obtain ⟨a1, a2⟩ := average_near (E := E) rs (fun r => r.1.rating) hn hne hr
  have hd := dwz_difference_near (E := E) p1
  have hb := performanceDifference_bound ⟨p, by omega⟩
  dsimp only at hb
  have hb' : |(performanceDifference p : ℝ)| ≤ 728 := by
    rw [abs_le]
    constructor
    · have := hb.2; exact_mod_cast this
    · exact_mod_cast hb.1
  generalize hD : (if (p : ℤ) > 50 then
        Flt.abs (((Dwz.probabilityTable (F := FP E)).lookup (((p : ℤ) - 100).natAbs : Int)).getD 0.0)
      else ((Dwz.probabilityTable (F := FP E)).lookup (p : ℤ)).getD 0.0) = D at hd
  have habs : |(performanceDifference p : ℝ) + (rs.map fun r => r.1.rating.toR).sum / rs.length| ≤ 2 ^ 14 + 728 :=
    (abs_add_le _ _).trans (by linarith)
  have hsum := near_add hd a1 (M := 2 ^ 15) (by norm_num at habs ⊢; linarith) (by norm_num)
    (le_huge 16 (by norm_num) (by norm_num))
  have hfin := (firstRating_near hsum (by norm_num at habs ⊢; linarith) (by norm_num)).mono (δ := 1 / 2 ^ 24) (by norm_num)
  rw [add_comm (performanceDifference p : ℝ)] at hfin
  refine ⟨⟨_, 1, age⟩, ?_, rfl, rfl, hfin⟩
  simp only [Dwz.getFirstDwz, if_neg (show ¬ rs.length < 5 by omega), if_neg hc, p2]
  by_cases hp : (p : ℤ) > 50
  · rw [if_pos hp] at hD
    subst hD
    simp only [if_pos hp]
    rfl
  · rw [if_neg hp] at hD
    subst hD
    simp only [if_neg hp]
    rfl

/-- In all other cases there is a first rating: the one of a percentage `p` that is the exact one, or, when the
exact percentage lies half-way between two integers, possibly the other neighbour. -/
theorem C130_first_dwz_near_partial (age : ℕ) (rs : List (Dwz.DWZRating (FP E) × Outcomes)) (h5 : 5 ≤ rs.length)
    (hn : rs.length ≤ 2 ^ 10) (hw : ∃ r ∈ rs, r.2 ≠ .WIN) (hl : ∃ r ∈ rs, r.2 ≠ .LOSS)
    (hr : ∀ r ∈ rs, Within (2 ^ 14) r.1.rating) :
    ∃ (p : ℕ) (r : Dwz.DWZRating (FP E)), Dwz.getFirstDwz age rs = .ok r ∧ r.index = 1 ∧ r.age = age ∧
      Near (1 / 2 ^ 24) r.rating
        (firstRating ((rs.map fun r => r.1.rating.toR).sum / rs.length + performanceDifference p)) ∧
      (p ≤ percent rs + 1 ∧ percent rs ≤ p + 1) ∧ (¬ HalfPercent rs → p = percent rs) := by
  have hne : rs ≠ [] := by rintro rfl; simp at h5
  obtain ⟨p, p1, p2, p3, p4⟩ := first_percent (E := E) rs hn hne
  obtain ⟨r, h1, h2, h3, h4⟩ := first_core age rs h5 hn hw hl hr p1 p2
  exact ⟨p, r, h1, h2, h3, h4, p3, p4⟩

/-- The first rating of the code is the exact one, up to `2⁻²⁴`, unless the percentage lies half-way between
two integers. -/
theorem C130_first_dwz_near (age : ℕ) (rs : List (Dwz.DWZRating (FP E) × Outcomes)) (h5 : 5 ≤ rs.length)
    (hn : rs.length ≤ 2 ^ 10) (hw : ∃ r ∈ rs, r.2 ≠ .WIN) (hl : ∃ r ∈ rs, r.2 ≠ .LOSS)
    (hr : ∀ r ∈ rs, Within (2 ^ 14) r.1.rating) (ht : ¬ HalfPercent rs) :
    ∃ (r : Dwz.DWZRating (FP E)) (q : Dwz.DWZRating ℝ), Dwz.getFirstDwz age rs = .ok r ∧
      Dwz.getFirstDwz age (rs.map fun r => (dwzExact r.1, r.2)) = .ok q ∧
      r.index = q.index ∧ r.age = q.age ∧ Near (1 / 2 ^ 24) r.rating q.rating := by
  obtain ⟨p, r, h1, h2, h3, h4, -, h6⟩ := C130_first_dwz_near_partial age rs h5 hn hw hl hr
  obtain ⟨w, w1, w2⟩ := hw
  obtain ⟨l, l1, l2⟩ := hl
  have hsc : score (rs.map fun r => (dwzExact r.1, r.2)) = score rs := by
    simp [score, Function.comp_def]
  have hper : percent (rs.map fun r => (dwzExact r.1, r.2)) = percent rs := by
    simp only [percent, hsc, List.length_map]
  have hq := Dwz.getFirstDwz_real age (rs.map fun r => (dwzExact r.1, r.2)) (by simpa using h5)
    ⟨_, List.mem_map.2 ⟨w, w1, rfl⟩, w2⟩ ⟨_, List.mem_map.2 ⟨l, l1, rfl⟩, l2⟩
  refine ⟨r, _, h1, hq, h2, h3, ?_⟩
  rw [h6 ht] at h4
  simp only [hper, List.length_map, List.map_map, Function.comp_def]
  rw [add_comm (performanceDifference (percent rs) : ℝ)]
  exact h4

/-! ### A half-way case -/

/-- Large representable numbers are multiples of a power of two. -/
theorem rep_multiple {m : ℝ} (h : Rep m) {k : ℤ} (hk : 2 ^ (k + 52) ≤ m) : ∃ j : ℤ, m = j * 2 ^ k := by
  obtain ⟨n, l, hn, -, -, rfl⟩ := h
  have h1 : (n : ℝ) < 2 ^ (53 : ℤ) := by exact_mod_cast hn
  have h2 : (2 : ℝ) ^ (k + 52) < 2 ^ (53 + l) := by
    rw [zpow_add₀ (by norm_num : (2 : ℝ) ≠ 0) 53 l]
    exact hk.trans_lt (mul_lt_mul_of_pos_right h1 (by positivity))
  have h3 : k + 52 < 53 + l := (zpow_lt_zpow_iff_right₀ (by norm_num)).1 h2
  obtain ⟨d, hd⟩ := Int.eq_ofNat_of_zero_le (show 0 ≤ l - k by omega)
  refine ⟨n * 2 ^ d, ?_⟩
  rw [show l = d + k by omega, zpow_add₀ (by norm_num : (2 : ℝ) ≠ 0), zpow_natCast]
  push_cast
  ring

/-- Rounding to nearest of a number that is closer than half a unit to a multiple of the unit. -/
theorem nearest_grid {x : ℝ} {j : ℤ} {k : ℤ} (hrep : Rep (j * 2 ^ k)) (hx : 2 ^ (k + 52) + 2 ^ k ≤ x)
    (hx' : x ≤ 2 ^ 1000) (hj : |x - j * 2 ^ k| < 2 ^ k / 2) (s : Bool) : FPVal.toR (ieee.round s x) = j * 2 ^ k := by
  have hk : (0 : ℝ) < 2 ^ k := by positivity
  have hk' : (0 : ℝ) < 2 ^ (k + 52) := by positivity
  have x0 : 0 < x := by linarith
  have hmax : (2 : ℝ) ^ 1000 ≤ 2 ^ 1024 := pow_le_pow_right₀ (by norm_num) (by norm_num)
  have hlt : (2 : ℝ) ^ 1000 < 2 ^ 1024 := pow_lt_pow_right₀ (by norm_num) (by norm_num)
  let g : Mag := ⟨_, hrep⟩
  have hn : |x - cval (nearest x)| ≤ |x - cval (g : WithTop Mag)| := nearest_nearest x0.le (hx'.trans hmax) _
  rw [cval_coe] at hn
  change _ ≤ |x - j * 2 ^ k| at hn
  have hr : ieee.round s x = FloatEnv.ofMag false (nearest x) := by
    unfold FloatEnv.round
    rw [if_neg x0.ne', abs_of_pos x0, decide_eq_false (by linarith)]
    rfl
  rw [hr]
  cases hm : nearest x with
  | top =>
    exfalso
    have := (nearest_mono (show x ≤ 2 ^ 1000 from hx'))
    rw [hm] at this
    have hp : Rep ((2 : ℝ) ^ 1000) := by
      refine ⟨2 ^ 52, 948, by norm_num, by norm_num, by norm_num, ?_⟩
      rw [Nat.cast_pow, show (948 : ℤ) = ((948 : ℕ) : ℤ) by norm_num, zpow_natCast, Nat.cast_ofNat, ← pow_add]
    rw [nearest_rep ⟨_, hp⟩, top_le_iff] at this
    exact WithTop.coe_ne_top this
  | coe m =>
    change FPVal.signed false m.1 = _
    simp only [FPVal.signed, Bool.false_eq_true, if_false]
    rw [hm, cval_coe] at hn
    have hclose : |x - m.1| < 2 ^ k / 2 := hn.trans_lt hj
    obtain ⟨i, hi⟩ := rep_multiple m.2 (k := k) (by have := (abs_lt.1 hclose).2; linarith)
    rw [hi] at hclose ⊢
    have hd : |((i - j : ℤ) : ℝ) * 2 ^ k| < 2 ^ k := by
      have e : ((i - j : ℤ) : ℝ) * 2 ^ k = (x - j * 2 ^ k) - (x - i * 2 ^ k) := by push_cast; ring
      rw [e]
      refine (abs_sub _ _).trans_lt ?_
      linarith
    rw [abs_mul, abs_of_pos hk] at hd
    have hd' : |((i - j : ℤ) : ℝ)| < 1 := by
      by_contra hc
      have := mul_le_mul_of_nonneg_right (not_lt.1 hc) hk.le
      linarith
    have : |i - j| < 1 := by exact_mod_cast hd'
    have : i = j := by
      have := Int.abs_lt_one_iff.1 this
      omega
    rw [this]

/-- An opponent rated 1500. -/
noncomputable def opponent1500 : Dwz.DWZRating (FP ieee) := ⟨1500.0, 20, 30⟩

/-- Forty games against opponents rated 1500: 23 won and 17 lost. -/
noncomputable def fortyGames : List (Dwz.DWZRating (FP ieee) × Outcomes) :=
  List.replicate 23 (opponent1500, .WIN) ++ List.replicate 17 (opponent1500, .LOSS)

theorem fortyGames_length : fortyGames.length = 40 := by simp [fortyGames]

theorem fortyGames_score : score fortyGames = 23 := by
  norm_num [fortyGames, score, points]

theorem fortyGames_percent : percent fortyGames = 58 := by
  unfold percent
  rw [fortyGames_score, fortyGames_length, Nat.floor_eq_iff (by norm_num)]
  norm_num

/-- `23 / 40 * 100` is less than 57.5 in double precision. -/
theorem fortyGames_rounded :
    Flt.roundToInt (Flt.sum (fortyGames.map fun r => (r.2.toChessPoints : FP ieee)) / Flt.ofNat fortyGames.length * 100.0)
      = ((57 : ℕ) : ℤ) := by
  obtain ⟨h, -⟩ := score_exact (E := ieee) fortyGames (by rw [fortyGames_length]; norm_num)
  have hN := ofNat_near (E := ieee) (n := fortyGames.length) (by rw [fortyGames_length]; norm_num)
  have h100 : Near 0 (100.0 : FP ieee) 100 := lit_exact (by norm_num) (SRep.ofNat 100 (by norm_num))
  rw [fortyGames_score] at h
  rw [fortyGames_length] at hN ⊢
  generalize Flt.sum (fortyGames.map fun r => (r.2.toChessPoints : FP ieee)) = S at *
  have hd := near_div_const h hN (by norm_num) (M := 1) (by norm_num) le_rfl (one_le_pow₀ (by norm_num))
  have hm := near_mul hd h100 (M := 128) (by norm_num) (by norm_num) (le_huge 7 (by norm_num) (by norm_num))
  obtain ⟨s, e⟩ := div_fin h.1 hN.1 (by rw [hN.eq]; norm_num)
  obtain ⟨s', e'⟩ := mul_fin hd.1 h100.1
  have v1 : FP.toR (S / Flt.ofNat 40 : FP ieee) = ((5179139571476070 : ℤ) : ℝ) * 2 ^ (-53 : ℤ) := by
    rw [e, h.eq, hN.eq]
    refine nearest_grid ⟨5179139571476070, -53, by norm_num, by norm_num, by norm_num, by norm_num⟩ (by norm_num)
      (le_huge 1 (by norm_num) (by norm_num)) ?_ s
    norm_num [abs_lt]
  have v2 : FP.toR (S / Flt.ofNat 40 * 100.0 : FP ieee) = ((8092405580431359 : ℤ) : ℝ) * 2 ^ (-47 : ℤ) := by
    rw [e', v1, h100.eq]
    refine nearest_grid ⟨8092405580431359, -47, by norm_num, by norm_num, by norm_num, by norm_num⟩ (by norm_num)
      (le_huge 7 (by norm_num) (by norm_num)) ?_ s'
    norm_num [abs_lt]
  rw [roundToInt_fp hm.1 (by rw [v2]; norm_num) (by rw [v2]; norm_num), v2, Int.floor_eq_iff]
  norm_num

/-- With 23 points in 40 games the percentage is 57.5, which rounds to 58 and gives 1554. The code gives less than
1548: it rounds to 57. -/
theorem C130_first_dwz_half_percent_fails :
    HalfPercent fortyGames ∧ (∀ r ∈ fortyGames, r.1.rating.toR = 1500) ∧
    ∃ (r : Dwz.DWZRating (FP ieee)) (q : Dwz.DWZRating ℝ), Dwz.getFirstDwz 30 fortyGames = .ok r ∧
      Dwz.getFirstDwz 30 (fortyGames.map fun r => (dwzExact r.1, r.2)) = .ok q ∧
      q.rating = 1554 ∧ r.rating.toR < 1548 := by
  have h1500 : Near 0 (1500.0 : FP ieee) 1500 := lit_exact (by norm_num) (SRep.ofNat 1500 (by norm_num))
  have hall : ∀ r ∈ fortyGames, r.1 = opponent1500 := by
    intro r hr
    rcases List.mem_append.1 hr with h | h <;> rw [List.eq_of_mem_replicate h]
  have hrat : ∀ r ∈ fortyGames, r.1.rating.toR = 1500 := fun r hr => by rw [hall r hr]; exact h1500.eq
  have w : (opponent1500, Outcomes.WIN) ∈ fortyGames := List.mem_append_left _ (List.mem_replicate.2 ⟨by norm_num, rfl⟩)
  have l : (opponent1500, Outcomes.LOSS) ∈ fortyGames := List.mem_append_right _ (List.mem_replicate.2 ⟨by norm_num, rfl⟩)
  have hsum : (fortyGames.map fun r => r.1.rating.toR).sum = 60000 := by
    have e : FP.toR opponent1500.rating = 1500 := h1500.eq
    simp only [fortyGames, List.map_append, List.map_replicate, List.sum_append, List.sum_replicate, e]
    norm_num
  refine ⟨⟨57, by rw [fortyGames_score, fortyGames_length]; norm_num⟩, hrat, ?_⟩
  obtain ⟨r, r1, -, -, r4⟩ := first_core 30 fortyGames (by rw [fortyGames_length]; norm_num)
    (by rw [fortyGames_length]; norm_num) ⟨_, l, by simp⟩ ⟨_, w, by simp⟩
    (fun r hr => ⟨by rw [hall r hr]; exact h1500.1, by rw [hrat r hr]; norm_num⟩) (by norm_num) fortyGames_rounded
  have hq := Dwz.getFirstDwz_real 30 (fortyGames.map fun r => (dwzExact r.1, r.2))
    (by rw [List.length_map, fortyGames_length]; norm_num)
    ⟨_, List.mem_map.2 ⟨_, l, rfl⟩, by simp⟩ ⟨_, List.mem_map.2 ⟨_, w, rfl⟩, by simp⟩
  have hsc : score (fortyGames.map fun r => (dwzExact r.1, r.2)) = score fortyGames := by
    simp [score, Function.comp_def]
  have hper : percent (fortyGames.map fun r => (dwzExact r.1, r.2)) = 58 := by
    rw [← fortyGames_percent]
    simp only [percent, hsc, List.length_map]
  refine ⟨r, _, r1, hq, ?_, ?_⟩
  · simp only [hper, List.length_map, List.map_map, Function.comp_def]
    change (if (performanceDifference 58 : ℝ) + (fortyGames.map fun r => r.1.rating.toR).sum / fortyGames.length ≤ 800
      then _ else (performanceDifference 58 : ℝ) + (fortyGames.map fun r => r.1.rating.toR).sum / fortyGames.length) = _
    rw [hsum, fortyGames_length, show performanceDifference 58 = 54 by decide]
    norm_num
  · rw [hsum, fortyGames_length, show performanceDifference 57 = 47 by decide] at r4
    have := (abs_le.1 r4.2).2
    norm_num [firstRating] at this
    linarith

/-- Two wins, two draws and a loss: the hypotheses of the positive statement hold. -/
example : ¬ HalfPercent [(opponent1500, Outcomes.WIN), (opponent1500, .WIN), (opponent1500, .DRAW), (opponent1500, .DRAW),
    (opponent1500, .LOSS)] := by
  rintro ⟨j, hj⟩
  norm_num [score, points] at hj
  have : (120 : ℝ) = 2 * j + 1 := by linarith
  have : 120 = 2 * j + 1 := by exact_mod_cast this
  omega

end Skillratings
