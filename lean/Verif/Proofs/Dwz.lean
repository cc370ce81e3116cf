import Verif.Proofs.Logistic
import Verif.Model.Dwz
import Verif.Spec.Dwz
/-
Helper lemmas for the DWZ properties.
-/
namespace Skillratings.Dwz
open Real

theorem expectedScore_real (a b : DWZRating ℝ) :
    expectedScore a b = (sigmoid (log 10 / 400 * (a.rating - b.rating)),
      1 - sigmoid (log 10 / 400 * (a.rating - b.rating))) := by
  simp only [expectedScore, flt, inv_one_add_pow]
  rw [show -(log 10 * (-400⁻¹ * (a.rating - b.rating))) = log 10 / 400 * (a.rating - b.rating) by
    ring]

theorem eValue_real (r : ℝ) (age : ℕ) (s e : ℝ) (i : ℕ) :
    eValue r age s e i =
      let j : ℝ := if age ≤ 20 then 5 else if age ≤ 25 then 10 else 15
      let a : ℝ := if age < 20 ∧ e ≤ s then r / 2000 else 1
      let b : ℝ := if r < 1300 ∧ s ≤ e then exp ((1300 - r) / 150) - 1 else 0
      let x := a * ((r / 1000) ^ 4 + j) + b
      if x ≤ 5 then 5 else
      if b = 0 then (if min 30 (5 * (i : ℝ)) ≤ x then min 30 (5 * (i : ℝ)) else x)
      else if 150 ≤ x then 150 else x := by
  simp only [eValue, flt, Bool.and_eq_true, decide_eq_true_eq]

theorem eValue_nonneg (r : ℝ) (age : ℕ) (s e : ℝ) (i : ℕ) : 0 ≤ eValue r age s e i := by
  rw [eValue_real]
  dsimp only
  generalize (if age < 20 ∧ e ≤ s then r / 2000 else 1 : ℝ)
    * ((r / 1000) ^ 4 + if age ≤ 20 then 5 else if age ≤ 25 then 10 else 15)
    + (if r < 1300 ∧ s ≤ e then exp ((1300 - r) / 150) - 1 else 0) = x
  have : (0 : ℝ) ≤ i := Nat.cast_nonneg i
  split_ifs <;> first | positivity | linarith

theorem eValue_spec (r : ℝ) (age : ℕ) (s e : ℝ) (i : ℕ) (hi : 1 ≤ i) :
    eValue r age s e i = Spec.dwzCoefficient r age s e i := by
  rw [eValue_real, Spec.dwzCoefficient]
  dsimp only
  generalize (if age < 20 ∧ e ≤ s then r / 2000 else 1 : ℝ)
    * ((r / 1000) ^ 4 + if age ≤ 20 then 5 else if age ≤ 25 then 10 else 15)
    + (if r < 1300 ∧ s ≤ e then exp ((1300 - r) / 150) - 1 else 0) = x
  generalize (if r < 1300 ∧ s ≤ e then exp ((1300 - r) / 150) - 1 else 0 : ℝ) = b
  have h1 : (1 : ℝ) ≤ i := by exact_mod_cast hi
  have hm : (5 : ℝ) ≤ min 30 (5 * (i : ℝ)) := by
    apply _root_.le_min
    · norm_num
    · linarith
  generalize min 30 (5 * (i : ℝ)) = m at *
  by_cases hb : b = 0
  · simp only [hb, if_true]
    by_cases hx : x ≤ 5
    · simp [hx]
    · rw [if_neg hx]
      push Not at hx
      split_ifs with h
      · rw [min_eq_right h, max_eq_right hm]
      · push Not at h
        rw [min_eq_left h.le, max_eq_right hx.le]
  · simp only [hb, if_false]
    by_cases hx : x ≤ 5
    · simp [hx]
    · rw [if_neg hx]
      push Not at hx
      split_ifs with h
      · rw [min_eq_right h]; norm_num
      · push Not at h
        rw [min_eq_left h.le, max_eq_right hx.le]

theorem dwz_fst_real (a b : DWZRating ℝ) (o : Outcomes) :
    (dwz a b o).1.rating =
      800 / (eValue a.rating a.age (Spec.points o) (expectedScore a b).1 a.index + 1)
        * (Spec.points o - (expectedScore a b).1) + a.rating := by
  simp only [dwz, newRating, flt]

theorem dwz_snd_real (a b : DWZRating ℝ) (o : Outcomes) :
    (dwz a b o).2.rating =
      800 / (eValue b.rating b.age (1 - Spec.points o) (expectedScore a b).2 b.index + 1)
        * (1 - Spec.points o - (expectedScore a b).2) + b.rating := by
  simp only [dwz, newRating, flt]

/-! ### The performance table -/

/-- The table of the code, in integers. -/
def intTable : List (Int × Int) :=
  [(0, -728), (1, -614), (2, -555), (3, -513), (4, -480), (5, -453), (6, -429),
   (7, -408), (8, -389), (9, -371), (10, -355), (11, -340), (12, -326),
   (13, -312), (14, -300), (15, -288), (16, -276), (17, -265), (18, -254),
   (19, -244), (20, -234), (21, -224), (22, -214), (23, -205), (24, -196),
   (25, -187), (26, -178), (27, -170), (28, -161), (29, -153), (30, -145),
   (31, -137), (32, -129), (33, -121), (34, -113), (35, -106), (36, -98),
   (37, -91), (38, -83), (39, -76), (40, -69), (41, -61), (42, -54), (43, -47),
   (44, -40), (45, -32), (46, -25), (47, -18), (48, -11), (49, -4), (50, 0)]

theorem table_int : probabilityTable (F := ℝ) = intTable.map fun e => (e.1, (e.2 : ℝ)) := by
  norm_num [probabilityTable, intTable]

theorem lookup_map_snd (l : List (Int × Int)) (k : Int) :
    (l.map fun e => (e.1, (e.2 : ℝ))).lookup k = (l.lookup k).map (fun v : Int => (v : ℝ)) := by
  induction l with
  | nil => rfl
  | cons e l ih =>
    obtain ⟨e1, e2⟩ := e
    simp only [List.map_cons, List.lookup_cons, ih]
    by_cases h : k == e1 <;> simp [h]

theorem intTable_low : ∀ p : Fin 51,
    intTable.lookup ((p : ℕ) : ℤ) = some (Spec.performanceDifference p) := by decide

theorem intTable_high : ∀ p : Fin 50,
    intTable.lookup (((((p : ℕ) + 51 : ℕ) : ℤ) - 100).natAbs : ℤ)
      = some (-Spec.performanceDifference (p + 51)) ∧ 0 < Spec.performanceDifference (p + 51) := by
  decide

/-- The two branches of the code, for a percentage between 0 and 100: the lookup does not miss
and the difference is the published one. -/
theorem lookup_spec (p : ℕ) (hp : p ≤ 100) (dflt : ℝ) :
    (if (p : ℤ) > 50 then
      |((probabilityTable (F := ℝ)).lookup (((p : ℤ) - 100).natAbs : Int)).getD dflt|
    else ((probabilityTable (F := ℝ)).lookup (p : ℤ)).getD dflt) =
      (Spec.performanceDifference p : ℝ) := by
  rw [table_int, lookup_map_snd, lookup_map_snd]
  split_ifs with h
  · obtain ⟨q, rfl⟩ : ∃ q : ℕ, p = q + 51 := ⟨p - 51, by omega⟩
    obtain ⟨h1, h2⟩ := intTable_high ⟨q, by omega⟩
    rw [h1]
    have h2' : (0 : ℝ) < Spec.performanceDifference (q + 51) := by exact_mod_cast h2
    simp [abs_of_pos h2']
  · rw [intTable_low ⟨p, by omega⟩]
    simp

theorem performanceDifference_step : ∀ p : Fin 100,
    Spec.performanceDifference p < Spec.performanceDifference (p + 1) := by decide

theorem performanceDifference_antisymm : ∀ p : Fin 101,
    Spec.performanceDifference (100 - p) = -Spec.performanceDifference p := by decide

theorem performanceDifference_strictMono {p q : ℕ} (h : p < q) (hq : q ≤ 100) :
    Spec.performanceDifference p < Spec.performanceDifference q := by
  induction q with
  | zero => omega
  | succ q ih =>
    have hs := performanceDifference_step ⟨q, by omega⟩
    rcases Nat.lt_succ_iff_lt_or_eq.1 h with h | h
    · exact (ih h (by omega)).trans hs
    · rw [h]; exact hs

/-! ### Points of a list of results -/

variable {R : Type}

open Spec (score percent)

theorem score_cons (r : R × Outcomes) (rs : List (R × Outcomes)) :
    score (r :: rs) = Spec.points r.2 + score rs := by simp [score]

theorem score_nonneg (rs : List (R × Outcomes)) : 0 ≤ score rs := by
  induction rs with
  | nil => simp [score]
  | cons r rs ih => rw [score_cons]; linarith [points_nonneg r.2]

theorem score_le (rs : List (R × Outcomes)) : score rs ≤ rs.length := by
  induction rs with
  | nil => simp [score]
  | cons r rs ih => rw [score_cons]; push_cast [List.length_cons]; linarith [points_le_one r.2]

theorem score_all_wins (rs : List (R × Outcomes)) (h : ∀ r ∈ rs, r.2 = .WIN) :
    score rs = rs.length := by
  induction rs with
  | nil => simp [score]
  | cons r rs ih =>
    rw [score_cons, ih fun r hr => h r (List.mem_cons_of_mem _ hr), h r List.mem_cons_self]
    push_cast [List.length_cons]; simp [Spec.points]; ring

theorem score_not_all_wins (rs : List (R × Outcomes)) (h : ∃ r ∈ rs, r.2 ≠ .WIN) :
    score rs ≤ rs.length - 1 / 2 := by
  induction rs with
  | nil => simp at h
  | cons r rs ih =>
    rw [score_cons]; push_cast [List.length_cons]
    by_cases hr : r.2 = .WIN
    · have : ∃ r ∈ rs, r.2 ≠ .WIN := by
        obtain ⟨x, hx, hx'⟩ := h
        rcases List.mem_cons.1 hx with rfl | hx
        · exact absurd hr hx'
        · exact ⟨x, hx, hx'⟩
      have := ih this
      linarith [points_le_one r.2]
    · have h1 := score_le rs
      have : Spec.points r.2 ≤ 1 / 2 := by
        rcases r with ⟨_, o⟩
        cases o
        · exact absurd rfl hr
        · simp [Spec.points]
        · simp [Spec.points]
      linarith

theorem score_all_losses (rs : List (R × Outcomes)) (h : ∀ r ∈ rs, r.2 = .LOSS) :
    score rs = 0 := by
  induction rs with
  | nil => simp [score]
  | cons r rs ih =>
    rw [score_cons, ih fun r hr => h r (List.mem_cons_of_mem _ hr), h r List.mem_cons_self]
    simp [Spec.points]

theorem score_not_all_losses (rs : List (R × Outcomes)) (h : ∃ r ∈ rs, r.2 ≠ .LOSS) :
    0 < score rs := by
  induction rs with
  | nil => simp at h
  | cons r rs ih =>
    rw [score_cons]
    by_cases hr : r.2 = .LOSS
    · have : ∃ r ∈ rs, r.2 ≠ .LOSS := by
        obtain ⟨x, hx, hx'⟩ := h
        rcases List.mem_cons.1 hx with rfl | hx
        · exact absurd hr hx'
        · exact ⟨x, hx, hx'⟩
      have := ih this
      linarith [points_nonneg r.2]
    · have h1 := score_nonneg rs
      have : 1 / 2 ≤ Spec.points r.2 := by
        rcases r with ⟨_, o⟩
        cases o
        · norm_num [Spec.points]
        · exact absurd rfl hr
        · simp [Spec.points]
      linarith

theorem round_nat {y : ℝ} (hy : 0 ≤ y) : Flt.roundToInt y = ((⌊y + 1 / 2⌋₊ : ℕ) : ℤ) := by
  rw [Flt.roundToInt_real, if_pos hy, Int.natCast_floor_eq_floor (by linarith)]

theorem percent_le (rs : List (R × Outcomes)) (h : rs ≠ []) : percent rs ≤ 100 := by
  have hl : (0 : ℝ) < rs.length := by
    have := List.length_pos_iff.2 h
    exact_mod_cast this
  rw [percent]
  have : 100 * score rs / rs.length ≤ 100 := by
    rw [div_le_iff₀ hl]; linarith [score_le rs]
  have h2 : ⌊100 * score rs / rs.length + 1 / 2⌋₊ < 101 := by
    rw [Nat.floor_lt']
    · push_cast; linarith
    · norm_num
  omega

theorem getFirstDwz_real (age : ℕ) (rs : List (DWZRating ℝ × Outcomes)) (h5 : 5 ≤ rs.length)
    (hw : ∃ r ∈ rs, r.2 ≠ .WIN) (hl : ∃ r ∈ rs, r.2 ≠ .LOSS) :
    getFirstDwz age rs =
      let x : ℝ := Spec.performanceDifference (percent rs)
        + (rs.map fun r => r.1.rating).sum / rs.length
      .ok ⟨if x ≤ 800 then 700 + x / 8 else x, 1, age⟩ := by
  have h1 : ¬ rs.length < 5 := by omega
  have hlen : (0 : ℝ) < rs.length := by
    have : 0 < rs.length := by omega
    exact_mod_cast this
  have hs1 := score_not_all_wins rs hw
  have hs2 := score_not_all_losses rs hl
  have e : (rs.map fun r => (r.2.toChessPoints : ℝ)) = rs.map fun r => Spec.points r.2 := by
    simp only [flt]
  have hne : rs ≠ [] := by rintro rfl; simp at h5
  have hc : ((Flt.abs (score rs - (rs.length : ℝ)) <? Flt.epsilon) || (score rs ==? 0)) = false := by
    rw [Bool.or_eq_false_iff]
    constructor
    · simp only [flt]
      rw [abs_of_nonpos (by linarith)]
      refine le_trans (b := 1 / 2) ?_ (by linarith)
      norm_num
    · simp only [flt]; exact hs2.ne'
  have hp := percent_le rs hne
  simp only [getFirstDwz, if_neg h1]
  rw [Flt.sum_real, Flt.sum_real, e]
  change (if ((Flt.abs (score rs - (rs.length : ℝ)) <? Flt.epsilon) || (score rs ==? 0.0)) = true
    then _ else _) = _
  rw [Flt.lit_0, hc]
  have hround : Flt.roundToInt (score rs / (rs.length : ℝ) * 100.0) = ((percent rs : ℕ) : ℤ) := by
    rw [Flt.lit_100, round_nat (by positivity), percent]
    congr 3
    ring
  simp only [flt] at hround
  simp only [flt, score] at *
  rw [hround]
  simp only [Bool.false_eq_true, if_false, ← lookup_spec (percent rs) hp 0]
  split_ifs <;> rfl

end Skillratings.Dwz
