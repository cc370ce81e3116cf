import Mathlib.Analysis.SpecialFunctions.Log.Base
import Verif.Proofs.DrawOrder
import Verif.Proofs.Fifa
import Verif.Proofs.WengLin
import Verif.Props.Ingo
import Verif.Props.Glicko
import Verif.Props.Seats
/-
C148: a draw brings two players closer together and nobody overtakes (C06 has Elo).
-/
namespace Skillratings
open Real Spec

/-- Two ratings come closer and the lower one stays the lower one. -/
def ComeCloser (before after : ℝ × ℝ) : Prop :=
  after.1 < after.2 ∧ after.2 - after.1 < before.2 - before.1

/-- All settings: knockout protection keeps the higher rating. -/
theorem C148_fifa_draw (a b : Fifa.FifaRating ℝ) (c : Fifa.FifaConfig ℝ)
    (hk0 : 0 < c.importance) (hk : c.importance * log 10 < 1200) (h : a.rating < b.rating) :
    ComeCloser (a.rating, b.rating)
      ((Fifa.fifa a b .DRAW c).1.rating, (Fifa.fifa a b .DRAW c).2.rating) ∧
    ComeCloser (a.rating, b.rating)
      ((Fifa.fifa b a .DRAW c).2.rating, (Fifa.fifa b a .DRAW c).1.rating) := by
  have hx : 0 < log 10 / 600 * (b.rating - a.rating) := by
    have := log_ten_pos
    have := sub_pos.2 h
    positivity
  have hT := half_lt_sigmoid hx
  have hT1 := sigmoid_sub_half_le hx.le
  have e : log 10 / 600 * (a.rating - b.rating) = -(log 10 / 600 * (b.rating - a.rating)) := by ring
  have c1 : Fifa.credit .DRAW c = 1 / 2 := by unfold Fifa.credit; split_ifs <;> simp_all [points]
  have c2 : Fifa.credit2 .DRAW c = 1 / 2 := by unfold Fifa.credit2; split_ifs <;> simp_all [points] <;> norm_num
  simp only [Fifa.fifa_real, e, sigmoid_neg, c1, c2, ComeCloser]
  generalize hTT : sigmoid (log 10 / 600 * (b.rating - a.rating)) - 1 / 2 = T at *
  have e' : sigmoid (log 10 / 600 * (b.rating - a.rating)) = T + 1 / 2 := by linarith
  rw [e']
  have hm := mul_pos hk0 hT
  have hD := sub_pos.2 h
  have hle : c.importance * T < (b.rating - a.rating) / 2 := by
    have := mul_le_mul_of_nonneg_left hT1 hk0.le
    have := mul_lt_mul_of_pos_right hk hD
    nlinarith
  unfold Fifa.guarded
  have m1 : max a.rating (c.importance * (1 / 2 - (1 - (T + 1 / 2))) + a.rating)
      = a.rating + c.importance * T := by rw [max_eq_right] <;> linarith
  have m2 : max b.rating (c.importance * (1 / 2 - (1 - (1 - (T + 1 / 2)))) + b.rating) = b.rating :=
    max_eq_left (by linarith)
  have m3 : max a.rating (c.importance * (1 / 2 - (1 - (T + 1 / 2))) + a.rating)
      = a.rating + c.importance * T := m1
  have m4 : max b.rating (c.importance * (1 / 2 - (T + 1 / 2)) + b.rating) = b.rating :=
    max_eq_left (by linarith)
  split_ifs
  · simp only [m1, m2, m4]
    refine ⟨⟨?_, ?_⟩, ?_, ?_⟩ <;> linarith
  · refine ⟨⟨?_, ?_⟩, ?_, ?_⟩ <;> linarith

theorem C148_ingo_draw (a b : Ingo.IngoRating ℝ) (h : a.rating < b.rating) :
    ComeCloser (a.rating, b.rating)
      ((Ingo.ingo a b .DRAW).1.rating, (Ingo.ingo a b .DRAW).2.rating) ∧
    ComeCloser (a.rating, b.rating)
      ((Ingo.ingo b a .DRAW).2.rating, (Ingo.ingo b a .DRAW).1.rating) := by
  have key : ComeCloser (a.rating, b.rating)
      ((Ingo.ingo a b .DRAW).1.rating, (Ingo.ingo a b .DRAW).2.rating) := by
    rw [(Ingo.C24_ingo_formula a b .DRAW).1, (Ingo.C24_ingo_formula a b .DRAW).2]
    simp only [ComeCloser]
    have key : ∀ x : ℕ, 0 < 1 / (1 + Ingo.development x) ∧ 1 / (1 + Ingo.development x) ≤ 1 / 11 := by
      intro x
      have : 10 ≤ Ingo.development x := by unfold Ingo.development; split_ifs <;> norm_num
      exact ⟨by positivity, one_div_le_one_div_of_le (by norm_num) (by linarith)⟩
    have hd : ∀ x : ℕ, ∀ p r : ℝ, (p + Ingo.development x * r) / (1 + Ingo.development x)
        = r + 1 / (1 + Ingo.development x) * (p - r) := by
      intro x p r
      have := Ingo.development_pos x
      field_simp
      ring
    obtain ⟨x0, x1⟩ := key a.age
    obtain ⟨y0, y1⟩ := key b.age
    rw [hd, hd]
    simp only [Ingo.perf, points, mirror]
    have hD := sub_pos.2 h
    have m1 := mul_pos x0 hD
    have m2 := mul_pos y0 hD
    have m3 := mul_le_mul_of_nonneg_right x1 hD.le
    have m4 := mul_le_mul_of_nonneg_right y1 hD.le
    constructor <;> nlinarith
  have hs : Ingo.ingo b a .DRAW = (Ingo.ingo a b .DRAW).swap := C108_ingo_seats a b .DRAW
  rw [hs]
  exact ⟨key, key⟩

/-- Players with an index of at least 1, the index of a first rating. -/
theorem C148_dwz_draw (a b : Dwz.DWZRating ℝ) (ha : 1 ≤ a.index) (hb : 1 ≤ b.index)
    (h : a.rating < b.rating) :
    ComeCloser (a.rating, b.rating)
      ((Dwz.dwz a b .DRAW).1.rating, (Dwz.dwz a b .DRAW).2.rating) ∧
    ComeCloser (a.rating, b.rating)
      ((Dwz.dwz b a .DRAW).2.rating, (Dwz.dwz b a .DRAW).1.rating) := by
  have key : ComeCloser (a.rating, b.rating)
      ((Dwz.dwz a b .DRAW).1.rating, (Dwz.dwz a b .DRAW).2.rating) := by
    have hx : 0 < log 10 / 400 * (b.rating - a.rating) := by
      have := log_ten_pos
      have := sub_pos.2 h
      positivity
    have hT := half_lt_sigmoid hx
    have hT1 := sigmoid_sub_half_le hx.le
    have e : log 10 / 400 * (a.rating - b.rating) = -(log 10 / 400 * (b.rating - a.rating)) := by ring
    simp only [ComeCloser]
    rw [Dwz.dwz_fst_real, Dwz.dwz_snd_real]
    have k1 := Dwz.eValue_ge_five a.rating a.age (points .DRAW) (Dwz.expectedScore a b).1 ha
    have k2 := Dwz.eValue_ge_five b.rating b.age (1 - points .DRAW) (Dwz.expectedScore a b).2 hb
    generalize Dwz.eValue a.rating a.age (points .DRAW) (Dwz.expectedScore a b).1 a.index = x at *
    generalize Dwz.eValue b.rating b.age (1 - points .DRAW) (Dwz.expectedScore a b).2 b.index = y at *
    simp only [Dwz.expectedScore_real, e, sigmoid_neg, points]
    have hl := log_ten_lt
    have hD := sub_pos.2 h
    have hT2 : sigmoid (log 10 / 400 * (b.rating - a.rating)) - 1 / 2
        ≤ 0.0015 * (b.rating - a.rating) := by nlinarith
    generalize sigmoid (log 10 / 400 * (b.rating - a.rating)) = E at *
    have q1 : 0 < 800 / (x + 1) := by positivity
    have q2 : 0 < 800 / (y + 1) := by positivity
    have q3 : 800 / (x + 1) ≤ 134 := by rw [div_le_iff₀ (by linarith)]; linarith
    have q4 : 800 / (y + 1) ≤ 134 := by rw [div_le_iff₀ (by linarith)]; linarith
    generalize 800 / (x + 1) = K at *
    generalize 800 / (y + 1) = L at *
    have u1 := mul_pos q1 hT
    have u2 := mul_pos q2 hT
    have u3 := mul_le_mul q3 hT2 hT.le (by norm_num)
    have u4 := mul_le_mul q4 hT2 hT.le (by norm_num)
    constructor <;> linarith
  have hs : Dwz.dwz b a .DRAW = (Dwz.dwz a b .DRAW).swap := C108_dwz_seats a b .DRAW
  rw [hs]
  exact ⟨key, key⟩

/-- With index 0 the factor is 800 and two players swap places. -/
theorem C148_dwz_index_zero : ∃ a b : Dwz.DWZRating ℝ, a.index = 0 ∧ b.index = 0 ∧
    a.rating < b.rating ∧ (Dwz.dwz a b .DRAW).2.rating < (Dwz.dwz a b .DRAW).1.rating := by
  have hlog : logb 10 2 < 1 / 2 := by
    rw [Real.logb_lt_iff_lt_rpow (by norm_num) (by norm_num), ← Real.sqrt_eq_rpow]
    exact Real.lt_sqrt_of_sq_lt (by norm_num)
  have hlog0 : 0 < logb 10 2 := Real.logb_pos (by norm_num) (by norm_num)
  have he : ∀ r : ℝ, 1300 ≤ r → ∀ s e, Dwz.eValue r 30 s e 0 = 0 := by
    intro r hr s e
    rw [Dwz.eValue_real]
    have h1 : ¬ (r < 1300 ∧ s ≤ e) := fun h => absurd h.1 (not_lt.2 hr)
    have h2 : (0 : ℝ) ≤ (r / 1000) ^ 4 := by positivity
    simp only [h1, if_false]
    norm_num
    rw [if_neg (by linarith), if_pos (by linarith)]
  have hE : ∀ b : Dwz.DWZRating ℝ, b.rating = 1500 + 400 * logb 10 2 →
      Dwz.expectedScore ⟨1500, 0, 30⟩ b = (1 / 3, 2 / 3) := by
    intro b hb
    have e : log 10 / 400 * (1500 - (1500 + 400 * logb 10 2)) = -log 2 := by
      rw [Real.logb]; have := log_ten_pos; field_simp; ring
    have e2 : sigmoid (-log 2) = 1 / 3 := by
      rw [sigmoid_def, neg_neg, Real.exp_log (by norm_num)]; norm_num
    rw [Dwz.expectedScore_real, hb, e, e2]
    norm_num
  refine ⟨⟨1500, 0, 30⟩, ⟨1500 + 400 * logb 10 2, 0, 30⟩, rfl, rfl, by simp only; linarith, ?_⟩
  rw [Dwz.dwz_fst_real, Dwz.dwz_snd_real, hE _ rfl, he 1500 (by norm_num),
    he (1500 + 400 * logb 10 2) (by linarith)]
  simp only [points]
  linarith

/-- Even games of players below the ceiling. -/
theorem C148_egf_draw (a b : Egf.EGFRating ℝ) (h : a.rating < b.rating) (h0 : -900 ≤ a.rating)
    (h1 : b.rating < 3300) :
    ComeCloser (a.rating, b.rating)
      ((Egf.egf a b .DRAW ⟨0⟩).1.rating, (Egf.egf a b .DRAW ⟨0⟩).2.rating) ∧
    ComeCloser (a.rating, b.rating)
      ((Egf.egf b a .DRAW ⟨0⟩).2.rating, (Egf.egf b a .DRAW ⟨0⟩).1.rating) := by
  have key : ComeCloser (a.rating, b.rating)
      ((Egf.egf a b .DRAW ⟨0⟩).1.rating, (Egf.egf a b .DRAW ⟨0⟩).2.rating) := by
    obtain ⟨hT, hp⟩ := Egf.drawPull_lt h h0 h1
    obtain ⟨hb0, hb1⟩ := Egf.bonus_close h.le
    have e1 := sigmoid_neg (egfBeta b.rating - egfBeta a.rating)
    rw [neg_sub] at e1
    have c1 := Egf.egfCon_pos (h.trans h1)
    have c2 := Egf.egfCon_pos h1
    have b1 := Egf.egfBonus_pos a.rating
    have f1 : egfFirst a.rating 0 = a.rating := by simp [egfFirst]
    have f2 : egfSecond b.rating 0 = b.rating := by simp [egfSecond, egfStones]
    simp only [ComeCloser, Egf.egf_real, Egf.expectedScore_real, f1, f2, e1, egfRating, points]
    generalize hTT : sigmoid (egfBeta b.rating - egfBeta a.rating) - 1 / 2 = T at *
    have e' : sigmoid (egfBeta b.rating - egfBeta a.rating) = T + 1 / 2 := by linarith
    rw [e']
    have m1 := mul_pos c1 hT
    have m2 := mul_pos c2 hT
    rw [max_eq_left (by linarith), max_eq_left (by linarith)]
    constructor <;> linarith
  have hs : Egf.egf b a .DRAW ⟨0⟩ = (Egf.egf a b .DRAW ⟨0⟩).swap := by
    have := C108_egf_seats a b .DRAW ⟨0⟩
    rwa [neg_zero] at this
  rw [hs]
  exact ⟨key, key⟩

/-- The move of the first player in a drawn game. -/
theorem uscf_draw_move (a b : Uscf.USCFRating ℝ) (c : Uscf.USCFConfig ℝ) (ha : 1 ≤ a.games)
    (h100 : 9 ≤ a.games → 100 ≤ a.rating) : ∃ w : ℝ, 0 < w ∧ w ≤ 1 / 2 ∧ (2 ≤ a.games → w ≤ 1 / 3) ∧
      (Uscf.uscf a b .DRAW c).1.rating = max (a.rating + w * (b.rating - a.rating)) 100 := by
  have hg : (1 : ℝ) ≤ a.games := by exact_mod_cast ha
  rcases Nat.lt_or_ge a.games 9 with h9 | h9
  · refine ⟨1 / (a.games + 1), by positivity, ?_, ?_, ?_⟩
    · exact one_div_le_one_div_of_le (by norm_num) (by linarith)
    · intro h2
      have : (2 : ℝ) ≤ a.games := by exact_mod_cast h2
      exact one_div_le_one_div_of_le (by norm_num) (by linarith)
    · rw [Uscf.C54_uscf_provisional a b .DRAW c (by omega)]
      congr 1
      simp only [Uscf.balance]
      field_simp
      ring
  · rcases eq_or_ne a.rating b.rating with hab | hab
    · refine ⟨1 / 3, by norm_num, by norm_num, fun _ => le_rfl, ?_⟩
      rw [Uscf.C54_uscf_established a b .DRAW c h9, Uscf.logisticExpected_eq, hab]
      simp only [sub_self, mul_zero, sigmoid_zero, points]
      norm_num
    · have hN := Uscf.effective_ge h9 (h100 h9)
      have hK : 0 < uscfK a.rating a.games 1 := by unfold uscfK; positivity
      have hK1 : uscfK a.rating a.games 1 ≤ 100 := by
        unfold uscfK
        rw [div_le_iff₀ (by push_cast; linarith)]
        push_cast
        linarith
      set D := b.rating - a.rating with hD
      have hD0 : D ≠ 0 := sub_ne_zero.2 hab.symm
      have hl := log_ten_pos
      have hl1 := log_ten_lt
      -- the slope of the logistic function between the two ratings
      have hsl : ∀ x : ℝ, x ≠ 0 → 0 < (sigmoid x - 1 / 2) / x ∧ (sigmoid x - 1 / 2) / x ≤ 1 / 4 := by
        have pos : ∀ x : ℝ, 0 < x → 0 < (sigmoid x - 1 / 2) / x ∧ (sigmoid x - 1 / 2) / x ≤ 1 / 4 :=
          fun x hx => ⟨div_pos (half_lt_sigmoid hx) hx, by
            rw [div_le_iff₀ hx]; have := sigmoid_sub_half_le hx.le; linarith⟩
        intro x hx
        rcases lt_or_gt_of_ne hx with h | h
        · have := pos (-x) (by linarith)
          rw [sigmoid_neg, show (1 - sigmoid x - 1 / 2) / -x = (sigmoid x - 1 / 2) / x by
            rw [div_neg, ← neg_div]; congr 1; ring] at this
          exact this
        · exact pos x h
      have hx0 : log 10 / 400 * D ≠ 0 := mul_ne_zero (by positivity) hD0
      obtain ⟨s0, s1⟩ := hsl _ hx0
      set m := (sigmoid (log 10 / 400 * D) - 1 / 2) / (log 10 / 400 * D) with hm
      have hw : uscfK a.rating a.games 1 * (log 10 / 400) * m ≤ 1 / 3 := by
        calc uscfK a.rating a.games 1 * (log 10 / 400) * m ≤ 100 * (2.3025850934 / 400) * (1 / 4) := by
              gcongr
          _ ≤ 1 / 3 := by norm_num
      refine ⟨uscfK a.rating a.games 1 * (log 10 / 400) * m, by positivity, by linarith, fun _ => hw, ?_⟩
      rw [Uscf.C54_uscf_established a b .DRAW c h9, Uscf.logisticExpected_eq]
      congr 2
      have e : log 10 / 400 * (a.rating - b.rating) = -(log 10 / 400 * D) := by rw [hD]; ring
      have e2 : sigmoid (log 10 / 400 * D) = 1 / 2 + m * (log 10 / 400 * D) := by
        rw [hm, div_mul_cancel₀ _ hx0]; ring
      rw [e, sigmoid_neg, e2, points]
      ring

/-- Players with at least one game, not both with exactly one; ratings of at least 100. -/
theorem C148_uscf_draw (a b : Uscf.USCFRating ℝ) (c : Uscf.USCFConfig ℝ) (ha : 1 ≤ a.games)
    (hb : 1 ≤ b.games) (hab : 3 ≤ a.games + b.games) (h100 : 100 ≤ a.rating) (h : a.rating < b.rating) :
    ComeCloser (a.rating, b.rating)
      ((Uscf.uscf a b .DRAW c).1.rating, (Uscf.uscf a b .DRAW c).2.rating) ∧
    ComeCloser (a.rating, b.rating)
      ((Uscf.uscf b a .DRAW c).2.rating, (Uscf.uscf b a .DRAW c).1.rating) := by
  have hs : Uscf.uscf b a .DRAW c = (Uscf.uscf a b .DRAW c).swap := C108_uscf_seats a b .DRAW c
  have key : ComeCloser (a.rating, b.rating)
      ((Uscf.uscf a b .DRAW c).1.rating, (Uscf.uscf a b .DRAW c).2.rating) := by
    obtain ⟨w, w0, w1, w2, hw⟩ := uscf_draw_move a b c ha (fun _ => h100)
    obtain ⟨v, v0, v1, v2, hv⟩ := uscf_draw_move b a c hb (fun _ => by linarith)
    rw [hs] at hv
    change (Uscf.uscf a b .DRAW c).2.rating = _ at hv
    have hD := sub_pos.2 h
    have hsum : w + v ≤ 5 / 6 := by
      rcases Nat.lt_or_ge a.games 2 with h2 | h2
      · have := v2 (by omega); linarith
      · have := w2 h2; linarith
    have m1 := mul_pos w0 hD
    have m2 := mul_pos v0 hD
    have m3 := mul_le_mul_of_nonneg_right hsum hD.le
    have m4 := mul_le_mul_of_nonneg_right v1 hD.le
    simp only [ComeCloser, hw, hv]
    rw [max_eq_left (by linarith), max_eq_left (by nlinarith)]
    constructor <;> nlinarith
  rw [hs]
  exact ⟨key, key⟩

/-- With exactly one game each, both get the average. -/
theorem C148_uscf_one_game_each (a b : Uscf.USCFRating ℝ) (c : Uscf.USCFConfig ℝ) (ha : a.games = 1)
    (hb : b.games = 1) :
    (Uscf.uscf a b .DRAW c).1.rating = max ((a.rating + b.rating) / 2) 100 ∧
      (Uscf.uscf a b .DRAW c).2.rating = max ((a.rating + b.rating) / 2) 100 := by
  rw [Uscf.C54_uscf_provisional a b _ c (by omega), Uscf.C54_uscf_provisional_second a b _ c (by omega),
    ha, hb]
  simp only [Uscf.balance]
  constructor <;> congr 1 <;> push_cast <;> ring

/-- A newcomer without games gets the opponent's old rating, and the opponent falls below it. -/
theorem C148_uscf_newcomer (a b : Uscf.USCFRating ℝ) (c : Uscf.USCFConfig ℝ) (ha : a.games = 0)
    (ha0 : 100 ≤ a.rating) (h : a.rating < b.rating) :
    (Uscf.uscf a b .DRAW c).1.rating = b.rating ∧ (Uscf.uscf a b .DRAW c).2.rating < b.rating := by
  constructor
  · rw [Uscf.C54_uscf_provisional a b _ c (by omega), ha]
    simp only [Uscf.balance]
    norm_num
    linarith
  · rcases Nat.eq_zero_or_pos b.games with hb | hb
    · rw [Uscf.C54_uscf_provisional_second a b _ c (by omega), hb]
      simp only [Uscf.balance]
      norm_num
      exact ⟨h, by linarith⟩
    · obtain ⟨v, v0, v1, v2, hv⟩ := uscf_draw_move b a c hb (fun _ => by linarith)
      have hs : Uscf.uscf b a .DRAW c = (Uscf.uscf a b .DRAW c).swap := C108_uscf_seats a b .DRAW c
      rw [hs] at hv
      change (Uscf.uscf a b .DRAW c).2.rating = _ at hv
      rw [hv]
      have := mul_pos v0 (sub_pos.2 h)
      exact max_lt (by nlinarith) (by linarith)

/-- All deviations, and values of `c` up to 175. -/
theorem C148_glicko_draw (a b : Glicko.GlickoRating ℝ) (c : Glicko.GlickoConfig ℝ)
    (ha : 0 < a.deviation) (hb : 0 < b.deviation) (hc : |c.c| ≤ 175) (h : a.rating < b.rating) :
    ComeCloser (a.rating, b.rating)
      ((Glicko.glicko a b .DRAW c).1.rating, (Glicko.glicko a b .DRAW c).2.rating) ∧
    ComeCloser (a.rating, b.rating)
      ((Glicko.glicko b a .DRAW c).2.rating, (Glicko.glicko b a .DRAW c).1.rating) := by
  have key : ComeCloser (a.rating, b.rating)
      ((Glicko.glicko a b .DRAW c).1.rating, (Glicko.glicko a b .DRAW c).2.rating) := by
    have hD := sub_pos.2 h
    have e : b.rating = a.rating + (b.rating - a.rating) := by ring
    have l1 := Glicko.rated_lower a.rating (b.rating - a.rating) a.deviation b.deviation c.c
    have l2 := Glicko.rated_upper a.rating (b.rating - a.rating) b.deviation a.deviation c.c
    rw [← e] at l1 l2
    have h12 : (1 : ℝ) - 1 / 2 = 1 / 2 := by norm_num
    simp only [ComeCloser, Glicko.glicko_real, points, h12, l1, l2]
    have p1 := Glicko.drawPull_pos (rdj := b.deviation) (c := c.c) ha hD
    have p2 := Glicko.drawPull_pos (rdj := a.deviation) (c := c.c) hb hD
    have p3 := Glicko.drawPull_lt ha hb hc hD
    constructor <;> linarith
  have hs : Glicko.glicko b a .DRAW c = (Glicko.glicko a b .DRAW c).swap := Glicko.C31_glicko_swap a b .DRAW c
  rw [hs]
  exact ⟨key, key⟩

/-- With `c = 350` two players with deviation 30 can swap places. -/
theorem C148_glicko_large_c : ∃ a b : Glicko.GlickoRating ℝ, a.deviation = 30 ∧ b.deviation = 30 ∧
    a.rating < b.rating ∧
    (Glicko.glicko a b .DRAW ⟨350⟩).2.rating < (Glicko.glicko a b .DRAW ⟨350⟩).1.rating := by
  have hq := glickoQ_pos
  have hg := glickoG_pos 30
  have hq1 : 0.00575 < glickoQ := by have := log_ten_gt; rw [glickoQ]; linarith
  have hq2 : glickoQ < 0.00576 := by have := log_ten_lt; rw [glickoQ]; linarith
  set g := glickoG 30 with hgd
  have hg2 : 0.99 ≤ g ^ 2 := by
    rw [hgd, glickoG, div_pow, one_pow, Real.sq_sqrt (by positivity), le_div_iff₀ (by positivity)]
    have h3 : 3 * glickoQ ^ 2 * 30 ^ 2 / π ^ 2 ≤ 0.01 := by
      rw [div_le_iff₀ (by positivity)]
      have := Real.pi_gt_three
      nlinarith
    linarith
  have hl5 : 0 < log 5 := Real.log_pos (by norm_num)
  set D := log 5 / (glickoQ * g) with hD
  have hDpos : 0 < D := by positivity
  have hu : glickoQ * (g * D) = log 5 := by rw [hD]; field_simp
  have hσ : sigmoid (log 5) = 5 / 6 := by
    rw [sigmoid_def, Real.exp_neg, Real.exp_log (by norm_num)]; norm_num
  have hon : glickoOnset 30 350 = 350 := by
    rw [glickoOnset, min_eq_right]
    exact Real.le_sqrt_of_sq_le (by norm_num)
  refine ⟨⟨1500, 30⟩, ⟨1500 + D, 30⟩, rfl, rfl, by simp only; linarith, ?_⟩
  have h12 : (1 : ℝ) - 1 / 2 = 1 / 2 := by norm_num
  simp only [Glicko.glicko_real, points, h12, Glicko.rated_lower, Glicko.rated_upper]
  suffices hh : D < 2 * Glicko.drawPull 30 30 350 D by linarith
  rw [Glicko.drawPull, ← hgd, hu, hσ, hon, posterior, hD, div_lt_iff₀ (by positivity)]
  have hy : 3.27e-5 ≤ glickoQ ^ 2 * g ^ 2 := by
    have : (0.00575 : ℝ) ^ 2 ≤ glickoQ ^ 2 := by gcongr
    nlinarith
  have e : 2 * (glickoQ * (1 / (1 / 350 ^ 2 + glickoQ ^ 2 * g ^ 2 * (5 / 6 * (1 - 5 / 6))))
      * (g * (5 / 6 - 1 / 2))) * (glickoQ * g)
      = glickoQ ^ 2 * g ^ 2 * (2 / 3) / (1 / 350 ^ 2 + glickoQ ^ 2 * g ^ 2 * (5 / 36)) := by ring
  rw [e]
  generalize glickoQ ^ 2 * g ^ 2 = y at *
  rw [lt_div_iff₀ (by positivity)]
  have := Real.log_five_lt_d9
  nlinarith

theorem C148_wengLin_draw (a b : WengLin.WengLinRating ℝ) (c : WengLin.WengLinConfig ℝ)
    (hu : 0 < a.uncertainty ∨ 0 < b.uncertainty) (h : a.rating < b.rating) :
    ComeCloser (a.rating, b.rating)
      ((WengLin.wengLin a b .DRAW c).1.rating, (WengLin.wengLin a b .DRAW c).2.rating) ∧
    ComeCloser (a.rating, b.rating)
      ((WengLin.wengLin b a .DRAW c).2.rating, (WengLin.wengLin b a .DRAW c).1.rating) := by
  have key : ComeCloser (a.rating, b.rating)
      ((WengLin.wengLin a b .DRAW c).1.rating, (WengLin.wengLin a b .DRAW c).2.rating) := by
    have hV : 0 < a.uncertainty ^ 2 + b.uncertainty ^ 2 := by
      rcases hu with hu | hu <;> positivity
    have hd2 : wlC c.beta (a.uncertainty ^ 2) (b.uncertainty ^ 2) ^ 2
        = a.uncertainty ^ 2 + b.uncertainty ^ 2 + 2 * c.beta ^ 2 := by
      rw [wlC, Real.sq_sqrt (by positivity)]
    have hd0 : 0 < wlC c.beta (a.uncertainty ^ 2) (b.uncertainty ^ 2) := Real.sqrt_pos.2 (by positivity)
    simp only [ComeCloser, WengLin.wengLin_real, points, WengLin.wlP_eq]
    generalize wlC c.beta (a.uncertainty ^ 2) (b.uncertainty ^ 2) = d at *
    have hx : 0 < (b.rating - a.rating) / d := div_pos (sub_pos.2 h) hd0
    have e : (a.rating - b.rating) / d = -((b.rating - a.rating) / d) := by ring
    rw [e, sigmoid_neg]
    have hT := half_lt_sigmoid hx
    have hT1 := sigmoid_sub_half_le hx.le
    have m : (a.uncertainty ^ 2 + b.uncertainty ^ 2) / d * (sigmoid ((b.rating - a.rating) / d) - 1 / 2)
        ≤ (b.rating - a.rating) / 4 := by
      calc _ ≤ d ^ 2 / d * ((b.rating - a.rating) / d / 4) := by
            refine mul_le_mul ?_ hT1 hT.le (by positivity)
            refine div_le_div_of_nonneg_right ?_ hd0.le
            nlinarith [sq_nonneg c.beta]
        _ = _ := by field_simp
    have m' : 0 < (a.uncertainty ^ 2 + b.uncertainty ^ 2) / d
        * (sigmoid ((b.rating - a.rating) / d) - 1 / 2) := by positivity
    rw [add_div] at m m'
    generalize sigmoid ((b.rating - a.rating) / d) = E at *
    have hD := sub_pos.2 h
    constructor <;> nlinarith
  have hs : WengLin.wengLin b a .DRAW c = (WengLin.wengLin a b .DRAW c).swap :=
    C108_wengLin_seats a b .DRAW c
  rw [hs]
  exact ⟨key, key⟩

/-! Concrete cases. -/
example : ComeCloser (1000, 1600) ((Fifa.fifa (⟨1000⟩ : Fifa.FifaRating ℝ) ⟨1600⟩ .DRAW ⟨60, true, true⟩).1.rating,
    (Fifa.fifa (⟨1000⟩ : Fifa.FifaRating ℝ) ⟨1600⟩ .DRAW ⟨60, true, true⟩).2.rating) :=
  (C148_fifa_draw ⟨1000⟩ ⟨1600⟩ ⟨60, true, true⟩ (by norm_num)
    (by have := log_ten_lt; norm_num at this ⊢; linarith) (by norm_num)).1
example : ComeCloser (80, 200) ((Ingo.ingo (⟨80, 17⟩ : Ingo.IngoRating ℝ) ⟨200, 50⟩ .DRAW).1.rating,
    (Ingo.ingo (⟨80, 17⟩ : Ingo.IngoRating ℝ) ⟨200, 50⟩ .DRAW).2.rating) :=
  (C148_ingo_draw ⟨80, 17⟩ ⟨200, 50⟩ (by norm_num)).1
example : ComeCloser (1000, 1600) ((Dwz.dwz (⟨1000, 1, 15⟩ : Dwz.DWZRating ℝ) ⟨1600, 20, 40⟩ .DRAW).1.rating,
    (Dwz.dwz (⟨1000, 1, 15⟩ : Dwz.DWZRating ℝ) ⟨1600, 20, 40⟩ .DRAW).2.rating) :=
  (C148_dwz_draw ⟨1000, 1, 15⟩ ⟨1600, 20, 40⟩ (by norm_num) (by norm_num) (by norm_num)).1
example : ComeCloser (-900, 3200) ((Egf.egf (⟨-900⟩ : Egf.EGFRating ℝ) ⟨3200⟩ .DRAW ⟨0⟩).1.rating,
    (Egf.egf (⟨-900⟩ : Egf.EGFRating ℝ) ⟨3200⟩ .DRAW ⟨0⟩).2.rating) :=
  (C148_egf_draw ⟨-900⟩ ⟨3200⟩ (by norm_num) (by norm_num) (by norm_num)).1
example (c : Uscf.USCFConfig ℝ) :
    ComeCloser (1200, 1800) ((Uscf.uscf (⟨1200, 1⟩ : Uscf.USCFRating ℝ) ⟨1800, 40⟩ .DRAW c).1.rating,
      (Uscf.uscf (⟨1200, 1⟩ : Uscf.USCFRating ℝ) ⟨1800, 40⟩ .DRAW c).2.rating) :=
  (C148_uscf_draw ⟨1200, 1⟩ ⟨1800, 40⟩ c (by norm_num) (by norm_num) (by norm_num) (by norm_num)
    (by norm_num)).1
example : (Uscf.uscf (⟨1300, 0⟩ : Uscf.USCFRating ℝ) ⟨1800, 40⟩ .DRAW ⟨14⟩).1.rating = 1800 :=
  (C148_uscf_newcomer ⟨1300, 0⟩ ⟨1800, 40⟩ ⟨14⟩ rfl (by norm_num) (by norm_num)).1
example : ComeCloser (1500, 1501) ((Glicko.glicko (⟨1500, 350⟩ : Glicko.GlickoRating ℝ) ⟨1501, 350⟩ .DRAW ⟨63.2⟩).1.rating,
    (Glicko.glicko (⟨1500, 350⟩ : Glicko.GlickoRating ℝ) ⟨1501, 350⟩ .DRAW ⟨63.2⟩).2.rating) :=
  (C148_glicko_draw ⟨1500, 350⟩ ⟨1501, 350⟩ ⟨63.2⟩ (by norm_num) (by norm_num)
    (by norm_num [abs_of_pos]) (by norm_num)).1
example (c : WengLin.WengLinConfig ℝ) :
    ComeCloser (25, 40) ((WengLin.wengLin (⟨25, 8⟩ : WengLin.WengLinRating ℝ) ⟨40, 2⟩ .DRAW c).1.rating,
      (WengLin.wengLin (⟨25, 8⟩ : WengLin.WengLinRating ℝ) ⟨40, 2⟩ .DRAW c).2.rating) :=
  (C148_wengLin_draw ⟨25, 8⟩ ⟨40, 2⟩ c (Or.inl (by norm_num)) (by norm_num)).1

end Skillratings
