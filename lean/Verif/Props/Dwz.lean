import Verif.Proofs.Dwz
import Verif.Proofs.Tournament
/-
Properties of /repo/src/dwz.rs: C12 - C17.
-/
namespace Skillratings.Dwz
open Real Spec

/-! ### C12: expected scores are probabilities -/

theorem C12_dwz_expected_probability (a b : DWZRating ℝ) :
    ProbabilityPair (expectedScore a b) := by
  rw [expectedScore_real]; exact probabilityPair_sigmoid _

theorem C12_dwz_expected_swap (a b : DWZRating ℝ) :
    expectedScore b a = ((expectedScore a b).2, (expectedScore a b).1) := by
  have h : log 10 / 400 * (b.rating - a.rating) = -(log 10 / 400 * (a.rating - b.rating)) := by
    ring
  simp [expectedScore_real, h, sigmoid_neg]

theorem C12_dwz_expected_odds (a b : DWZRating ℝ) :
    odds (expectedScore a b).1 = (10 : ℝ) ^ ((a.rating - b.rating) / 400) := by
  rw [expectedScore_real, odds_sigmoid, ← exp_log_ten_mul]
  congr 1; ring

theorem C12_dwz_expected_strictMono_own (a a' b : DWZRating ℝ) (h : a.rating < a'.rating) :
    (expectedScore a b).1 < (expectedScore a' b).1 := by
  simp only [expectedScore_real, sigmoid_lt_iff]
  have := log_ten_pos
  gcongr

theorem C12_dwz_expected_strictAnti_opponent (a b b' : DWZRating ℝ)
    (h : b.rating < b'.rating) : (expectedScore a b').1 < (expectedScore a b).1 := by
  simp only [expectedScore_real, sigmoid_lt_iff]
  have := log_ten_pos
  gcongr

/-- The list variant is the pairwise function, in any arithmetic. -/
theorem C12_dwz_expected_list {F : Type} [Flt F] (a : DWZRating F) (os : List (DWZRating F)) :
    expectedScoreRatingPeriod a os = os.map fun o => (expectedScore a o).1 := rfl

/-- A 400 point favourite is expected to score 10/11. -/
example : (expectedScore ⟨1900, 12, 40⟩ ⟨1500, 1, 12⟩ : ℝ × ℝ).1 = 10 / 11 := by
  have h := C12_dwz_expected_odds ⟨1900, 12, 40⟩ ⟨1500, 1, 12⟩
  have p := C12_dwz_expected_probability ⟨1900, 12, 40⟩ ⟨1500, 1, 12⟩
  have := p.fst_lt_one
  rw [odds, div_eq_iff (by linarith)] at h
  norm_num at h
  linarith

/-! ### C13: changes follow the result and are bounded -/

/-- The published update, for players who have an index: the change is
`800 / (E + n) (W - We)` with the development coefficient `E`. -/
theorem C13_dwz_formula (a b : DWZRating ℝ) (o : Outcomes) (ha : 1 ≤ a.index)
    (hb : 1 ≤ b.index) :
    let ea := 1 / (1 + (10 : ℝ) ^ ((b.rating - a.rating) / 400))
    let eb := 1 / (1 + (10 : ℝ) ^ ((a.rating - b.rating) / 400))
    (dwz a b o).1.rating = a.rating
        + 800 / (dwzCoefficient a.rating a.age (points o) ea a.index + 1) * (points o - ea) ∧
      (dwz a b o).2.rating = b.rating
        + 800 / (dwzCoefficient b.rating b.age (points (mirror o)) eb b.index + 1)
          * (points (mirror o) - eb) := by
  have e1 : 1 / (1 + (10 : ℝ) ^ ((b.rating - a.rating) / 400)) = (expectedScore a b).1 := by
    rw [one_div, inv_one_add_pow, expectedScore_real]
    congr 1; ring
  have e2 : 1 / (1 + (10 : ℝ) ^ ((a.rating - b.rating) / 400)) = (expectedScore a b).2 := by
    rw [one_div, inv_one_add_pow, expectedScore_real, ← sigmoid_neg]
    congr 1; ring
  dsimp only
  rw [e1, e2, dwz_fst_real, dwz_snd_real, eValue_spec _ _ _ _ _ ha, eValue_spec _ _ _ _ _ hb,
    points_mirror]
  constructor <;> ring

/-- The same for a rating period. -/
theorem C13_dwz_period_formula (p : DWZRating ℝ) (rs : List (DWZRating ℝ × Outcomes))
    (hp : 1 ≤ p.index) :
    let e := (rs.map fun r => 1 / (1 + (10 : ℝ) ^ ((r.1.rating - p.rating) / 400))).sum
    (dwzRatingPeriod p rs).rating = p.rating
        + 800 / (dwzCoefficient p.rating p.age (score rs) e p.index + rs.length)
          * (score rs - e) := by
  have e1 : ∀ b : DWZRating ℝ,
      1 / (1 + (10 : ℝ) ^ ((b.rating - p.rating) / 400)) = (expectedScore p b).1 := by
    intro b
    rw [one_div, inv_one_add_pow, expectedScore_real]
    congr 1; ring
  have e : (rs.map fun r => (r.2.toChessPoints : ℝ)) = rs.map fun r => Spec.points r.2 := by
    simp only [flt]
  dsimp only
  simp only [e1, dwzRatingPeriod, ← eValue_spec _ _ _ _ _ hp]
  rw [Flt.sum_real, Flt.sum_real, e]
  simp only [flt, score]
  ring

theorem C13_dwz_coefficient_range (r : ℝ) (age : ℕ) (s e : ℝ) (i : ℕ) :
    5 ≤ dwzCoefficient r age s e i ∧ dwzCoefficient r age s e i ≤ 150 ∧
      (1300 ≤ r ∨ e < s → 1 ≤ i →
        dwzCoefficient r age s e i ≤ 30 ∧ dwzCoefficient r age s e i ≤ 5 * i) := by
  unfold dwzCoefficient
  dsimp only
  refine ⟨?_, ?_, ?_⟩
  · split_ifs <;> exact le_max_left _ _
  · generalize (if r < 1300 ∧ s ≤ e then exp ((1300 - r) / 150) - 1 else 0 : ℝ) = b
    by_cases hb : b = 0
    · rw [if_pos hb]
      apply max_le (by norm_num)
      exact ((min_le_right _ _).trans (min_le_left _ _)).trans (by norm_num)
    · rw [if_neg hb]
      exact max_le (by norm_num) (min_le_right _ _)
  · intro h hi
    have hi' : (1 : ℝ) ≤ i := by exact_mod_cast hi
    have : ¬ (r < 1300 ∧ s ≤ e) := by
      rintro ⟨h1, h2⟩
      rcases h with h | h <;> linarith
    simp only [this, if_false, if_true]
    constructor
    · exact max_le (by norm_num) ((min_le_right _ _).trans (min_le_left _ _))
    · exact max_le (by linarith) ((min_le_right _ _).trans (min_le_right _ _))

theorem C13_dwz_win (a b : DWZRating ℝ) :
    a.rating < (dwz a b .WIN).1.rating ∧ (dwz a b .WIN).2.rating < b.rating := by
  have h := C12_dwz_expected_probability a b
  have h1 := eValue_nonneg a.rating a.age (points .WIN) (expectedScore a b).1 a.index
  have h2 := eValue_nonneg b.rating b.age (1 - points .WIN) (expectedScore a b).2 b.index
  rw [dwz_fst_real, dwz_snd_real]
  have hx := h.fst_lt_one
  have hy := h.snd_pos
  generalize eValue a.rating a.age _ _ _ = e1 at *
  generalize eValue b.rating b.age _ _ _ = e2 at *
  simp only [points]
  constructor
  · have : 0 < 800 / (e1 + 1) * (1 - (expectedScore a b).1) := by
      apply mul_pos (by positivity) (by linarith)
    linarith
  · have : 0 < 800 / (e2 + 1) * (expectedScore a b).2 := by positivity
    have e : (1 : ℝ) - 1 - (expectedScore a b).2 = -(expectedScore a b).2 := by ring
    rw [e]; linarith

theorem C13_dwz_loss (a b : DWZRating ℝ) :
    (dwz a b .LOSS).1.rating < a.rating ∧ b.rating < (dwz a b .LOSS).2.rating := by
  have h := C12_dwz_expected_probability a b
  have h1 := eValue_nonneg a.rating a.age (points .LOSS) (expectedScore a b).1 a.index
  have h2 := eValue_nonneg b.rating b.age (1 - points .LOSS) (expectedScore a b).2 b.index
  rw [dwz_fst_real, dwz_snd_real]
  have hx := h.snd_lt_one
  have hy := h.fst_pos
  generalize eValue a.rating a.age _ _ _ = e1 at *
  generalize eValue b.rating b.age _ _ _ = e2 at *
  simp only [points]
  constructor
  · have : 0 < 800 / (e1 + 1) * (expectedScore a b).1 := by positivity
    have e : (0 : ℝ) - (expectedScore a b).1 = -(expectedScore a b).1 := by ring
    rw [e]; linarith
  · have : 0 < 800 / (e2 + 1) * (1 - (expectedScore a b).2) := by
      apply mul_pos (by positivity) (by linarith)
    simp only [sub_zero]
    linarith

theorem abs_change_lt {e x : ℝ} (he : 5 ≤ e) (hx : |x| < 1) : |800 / (e + 1) * x| < 800 / 6 := by
  rw [abs_mul, abs_of_pos (by positivity)]
  have h : 800 / (e + 1) ≤ 800 / 6 := by
    apply div_le_div_of_nonneg_left <;> linarith
  calc 800 / (e + 1) * |x| < 800 / (e + 1) * 1 := by
        apply mul_lt_mul_of_pos_left hx (by positivity)
    _ ≤ 800 / 6 := by linarith

theorem C13_dwz_bound (a b : DWZRating ℝ) (o : Outcomes) (ha : 1 ≤ a.index) (hb : 1 ≤ b.index) :
    |(dwz a b o).1.rating - a.rating| < 800 / 6 ∧
      |(dwz a b o).2.rating - b.rating| < 800 / 6 := by
  have h := C12_dwz_expected_probability a b
  have h1 := h.fst_pos
  have h2 := h.fst_lt_one
  have h3 := h.snd_pos
  have h4 := h.snd_lt_one
  rw [dwz_fst_real, dwz_snd_real, eValue_spec _ _ _ _ _ ha, eValue_spec _ _ _ _ _ hb,
    add_sub_cancel_right, add_sub_cancel_right]
  constructor
  · apply abs_change_lt (C13_dwz_coefficient_range _ _ _ _ _).1
    rw [abs_lt]
    constructor <;> cases o <;> simp only [points] <;> linarith
  · apply abs_change_lt (C13_dwz_coefficient_range _ _ _ _ _).1
    rw [abs_lt]
    constructor <;> cases o <;> simp only [points] <;> linarith

/-- A new player has index 1. -/
example : 1 ≤ (DWZRating.new 26 : DWZRating ℝ).index := le_rfl

/-- A 30 year old with 2000 points and index 20 has coefficient 30. -/
example : dwzCoefficient 2000 30 1 (1 / 2) 20 = 30 := by
  norm_num [dwzCoefficient]

/-- A 15 year old with 1000 points who wins has coefficient 5 (index 3). -/
example : dwzCoefficient 1000 15 1 (1 / 2) 3 = 5 := by
  norm_num [dwzCoefficient]

/-! ### C14: bookkeeping -/

section
variable {F : Type} [Flt F]

theorem C14_dwz_game (a b : DWZRating F) (o : Outcomes) :
    (dwz a b o).1.index = a.index + 1 ∧ (dwz a b o).1.age = a.age ∧
      (dwz a b o).2.index = b.index + 1 ∧ (dwz a b o).2.age = b.age := by
  simp [dwz]

theorem C14_dwz_period (p : DWZRating F) (rs : List (DWZRating F × Outcomes)) :
    (dwzRatingPeriod p rs).index = p.index + 1 ∧ (dwzRatingPeriod p rs).age = p.age := by
  simp [dwzRatingPeriod]

theorem C14_dwz_first (age : ℕ) (rs : List (DWZRating F × Outcomes)) (r : DWZRating F)
    (h : getFirstDwz age rs = .ok r) : r.index = 1 ∧ r.age = age := by
  unfold getFirstDwz at h
  split at h
  · cases h
  · dsimp only at h
    split at h
    · cases h
    · cases h; exact ⟨rfl, rfl⟩

/-- In a tournament, the index of everyone grows by the number of games played, and no age
changes. -/
theorem C14_dwz_tournament {ι : Type} [DecidableEq ι] (pool : ι → DWZRating F)
    (games : List (Game ι Unit)) (i : ι) :
    (tournament (fun a b o _ => dwz a b o) pool games i).index =
        (pool i).index + games.countP (fun g => g.first = i ∨ g.second = i) ∧
      (tournament (fun a b o _ => dwz a b o) pool games i).age = (pool i).age := by
  induction games generalizing pool with
  | nil => exact ⟨rfl, rfl⟩
  | cons g gs ih =>
    have h := ih (playGame (fun a b o _ => dwz a b o) pool g)
    have e : tournament (fun a b o (_ : Unit) => dwz a b o) pool (g :: gs)
      = tournament (fun a b o _ => dwz a b o) (playGame (fun a b o _ => dwz a b o) pool g) gs := rfl
    have hg := C14_dwz_game (pool g.first) (pool g.second) g.outcome
    rw [e, h.1, h.2, List.countP_cons]
    simp only [playGame]
    by_cases h2 : i = g.second
    · subst h2
      simp [hg]
      omega
    · rw [Function.update_of_ne h2]
      by_cases h1 : i = g.first
      · subst h1
        simp [hg]
        omega
      · rw [Function.update_of_ne h1]
        simp [Ne.symm h1, Ne.symm h2]

/-- Two games of three players. -/
example (pool : Fin 3 → DWZRating F) :
    (tournament (fun a b o (_ : Unit) => dwz a b o) pool
      [⟨0, 1, by decide, .WIN, ()⟩, ⟨2, 0, by decide, .DRAW, ()⟩] 0).index = (pool 0).index + 2 := by
  rw [(C14_dwz_tournament pool _ 0).1]; rfl

end

/-! ### C15: periods -/

theorem C15_dwz_period_single (p b : DWZRating ℝ) (o : Outcomes) :
    dwzRatingPeriod p [(b, o)] = (dwz p b o).1 := by
  simp [dwzRatingPeriod, dwz, newRating, flt]

theorem C15_dwz_period_perm (p : DWZRating ℝ) (rs ss : List (DWZRating ℝ × Outcomes))
    (h : rs.Perm ss) : dwzRatingPeriod p rs = dwzRatingPeriod p ss := by
  simp only [dwzRatingPeriod, flt, h.length_eq, (h.map fun r => points r.2).sum_eq,
    (h.map fun r => (expectedScore p r.1).1).sum_eq]

/-- An empty period changes the index only (for players with an index). -/
theorem C15_dwz_period_nil (p : DWZRating ℝ) :
    dwzRatingPeriod p [] = { p with index := p.index + 1 } := by
  simp [dwzRatingPeriod, flt]

example (x y : DWZRating ℝ) :
    [(x, Outcomes.WIN), (y, .LOSS)].Perm [(y, .LOSS), (x, .WIN)] := List.Perm.swap _ _ _

/-! ### C16: get_first_dwz fails exactly as documented -/

theorem C16_first_not_enough (age : ℕ) (rs : List (DWZRating ℝ × Outcomes)) :
    getFirstDwz age rs = .error .NotEnoughGames ↔ rs.length < 5 := by
  by_cases h : rs.length < 5
  · simp [getFirstDwz, h]
  · simp only [h, iff_false]
    intro he
    simp only [getFirstDwz, if_neg h] at he
    split at he <;> cases he

theorem C16_first_invalid (age : ℕ) (rs : List (DWZRating ℝ × Outcomes)) :
    getFirstDwz age rs = .error .InvalidWinRate ↔
      5 ≤ rs.length ∧ ((∀ r ∈ rs, r.2 = .WIN) ∨ (∀ r ∈ rs, r.2 = .LOSS)) := by
  by_cases h : rs.length < 5
  · have : ¬ 5 ≤ rs.length := by omega
    simp [getFirstDwz, h, this]
  · have h5 : 5 ≤ rs.length := by omega
    have e : (rs.map fun r => (r.2.toChessPoints : ℝ)).sum = score rs := by
      simp only [flt, score]
    by_cases hw : ∀ r ∈ rs, r.2 = .WIN
    · have hs := score_all_wins rs hw
      have h0 : (0 : ℝ) < 2 ^ (-52 : ℤ) := by positivity
      refine iff_of_true ?_ ⟨h5, Or.inl hw⟩
      simp only [getFirstDwz, h, if_false]
      rw [Flt.sum_real, e, if_pos]
      rw [Bool.or_eq_true]
      left
      rw [Flt.lt_real, hs, Flt.ofNat_real, sub_self, Flt.abs_real, abs_zero]
      exact h0
    · by_cases hl : ∀ r ∈ rs, r.2 = .LOSS
      · have hs := score_all_losses rs hl
        refine iff_of_true ?_ ⟨h5, Or.inr hl⟩
        simp only [getFirstDwz, h, if_false]
        rw [Flt.sum_real, e, if_pos]
        rw [Bool.or_eq_true]
        right
        rw [Flt.feq_real, hs, Flt.lit_0]
      · have := getFirstDwz_real age rs h5 (by push Not at hw; exact hw) (by push Not at hl; exact hl)
        rw [this]
        refine iff_of_false (by simp) ?_
        rintro ⟨-, hh⟩
        exact hh.elim hw hl

/-- The messages of the two errors differ. -/
theorem C16_display_injective (e e' : GetFirstDWZError) (h : e.display = e'.display) : e = e' := by
  cases e <;> cases e' <;> first | rfl | (simp [GetFirstDWZError.display] at h)

theorem C16_first_success (age : ℕ) (rs : List (DWZRating ℝ × Outcomes)) :
    (∃ r, getFirstDwz age rs = .ok r) ↔
      5 ≤ rs.length ∧ (∃ r ∈ rs, r.2 ≠ .WIN) ∧ (∃ r ∈ rs, r.2 ≠ .LOSS) := by
  have h1 := C16_first_not_enough age rs
  have h2 := C16_first_invalid age rs
  cases h : getFirstDwz age rs with
  | error e =>
    cases e
    · have := h1.1 h
      simp; intro; omega
    · have := h2.1 h
      simp
      intro _ a o ha ho
      rcases this.2 with h | h
      · exact absurd (h _ ha) ho
      · intro a' o' h'; exact h _ h'
  | ok r =>
    simp only [h] at h1 h2
    simp only [reduceCtorEq, false_iff, not_lt, not_and, not_or] at h1 h2
    have := h2 h1
    push Not at this
    simp [h1, this.1, this.2]

/-! ### C17: get_first_dwz rates by performance -/

/-- The rating before the compression of low ratings: the average rating of the opponents plus
the published difference of the percentage. -/
noncomputable def performance (rs : List (DWZRating ℝ × Outcomes)) : ℝ :=
  (rs.map fun r => r.1.rating).sum / rs.length + performanceDifference (percent rs)

theorem C17_first_formula (age : ℕ) (rs : List (DWZRating ℝ × Outcomes)) (r : DWZRating ℝ)
    (h : getFirstDwz age rs = .ok r) :
    r.rating = if performance rs ≤ 800 then 700 + performance rs / 8 else performance rs := by
  obtain ⟨h5, hw, hl⟩ := (C16_first_success age rs).1 ⟨r, h⟩
  rw [getFirstDwz_real age rs h5 hw hl] at h
  cases h
  simp only [performance, add_comm]

/-- The percentage is one of 0, ..., 100, where the published table is defined, so that the lookup
of the code never takes its default. -/
theorem C17_first_percent_le (rs : List (DWZRating ℝ × Outcomes)) (h : rs ≠ []) :
    percent rs ≤ 100 := percent_le rs h

theorem C17_first_table_antisymm (p : ℕ) (hp : p ≤ 100) :
    performanceDifference (100 - p) = -performanceDifference p :=
  performanceDifference_antisymm ⟨p, by omega⟩

theorem C17_first_table_strictMono (p q : ℕ) (h : p < q) (hq : q ≤ 100) :
    performanceDifference p < performanceDifference q := performanceDifference_strictMono h hq

theorem C17_first_at_least_600 (age : ℕ) (rs : List (DWZRating ℝ × Outcomes)) (r : DWZRating ℝ)
    (h : getFirstDwz age rs = .ok r) (hx : -800 ≤ performance rs) : 600 ≤ r.rating := by
  rw [C17_first_formula age rs r h]
  split_ifs with h1 <;> linarith

/-- More points against the same opponents never give a lower first rating. -/
theorem C17_first_mono (age : ℕ) (rs ss : List (DWZRating ℝ × Outcomes)) (r s : DWZRating ℝ)
    (h : getFirstDwz age rs = .ok r) (h' : getFirstDwz age ss = .ok s)
    (hopp : rs.map (fun r => r.1.rating) = ss.map (fun r => r.1.rating))
    (hs : score rs ≤ score ss) : r.rating ≤ s.rating := by
  have hlen : rs.length = ss.length := by simpa using congrArg List.length hopp
  obtain ⟨h5, -, -⟩ := (C16_first_success age ss).1 ⟨s, h'⟩
  have hne : ss ≠ [] := by rintro rfl; simp at h5
  have hp : percent rs ≤ percent ss := by
    unfold percent
    rw [hlen]
    gcongr
  have hd : (performanceDifference (percent rs) : ℝ) ≤ performanceDifference (percent ss) := by
    rcases hp.lt_or_eq with hlt | heq
    · exact_mod_cast (performanceDifference_strictMono hlt (percent_le ss hne)).le
    · rw [heq]
  have hperf : performance rs ≤ performance ss := by
    unfold performance
    rw [hopp, hlen]
    linarith
  rw [C17_first_formula age rs r h, C17_first_formula age ss s h']
  split_ifs <;> linarith

/-- Five games, of which three are won: success. -/
example (x : DWZRating ℝ) : ∃ r, getFirstDwz 20
    [(x, .WIN), (x, .WIN), (x, .LOSS), (x, .WIN), (x, .LOSS)] = .ok r :=
  (C16_first_success _ _).2 ⟨by simp, ⟨(x, .LOSS), by simp⟩, ⟨(x, .WIN), by simp⟩⟩

/-- ... with 60 % and a performance 69 points above the average. -/
example (x : DWZRating ℝ) :
    percent [(x, .WIN), (x, .WIN), (x, .LOSS), (x, .WIN), (x, .LOSS)] = 60 ∧
      performanceDifference 60 = 69 := by
  refine ⟨?_, by decide⟩
  norm_num [percent, score, points]
  rw [Nat.floor_eq_iff (by norm_num)]
  norm_num

end Skillratings.Dwz
