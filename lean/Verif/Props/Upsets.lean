import Verif.Props.Fairness
import Verif.Props.Uscf
import Verif.Props.Seats
/-
C93: the stronger the opponent, the better for the rating after the same result.
-/
namespace Skillratings
open Spec Real

/-! ### Elo -/

theorem C93_elo_opponent (a b b' : Elo.EloRating ℝ) (o : Outcomes) (c : Elo.EloConfig ℝ)
    (hk : 0 < c.k) (h : b.rating < b'.rating) :
    (Elo.elo a b o c).1.rating < (Elo.elo a b' o c).1.rating ∧
      (Elo.elo b a o c).2.rating < (Elo.elo b' a o c).2.rating := by
  have h1 := Elo.C01_elo_expected_strictAnti_opponent a b b' h
  have h2 := Elo.C01_elo_expected_strictMono_own b b' a h
  simp only [Elo.expectedScore_real] at h1 h2
  simp only [Elo.elo_real]
  constructor <;> nlinarith

example : (Elo.elo (⟨1500⟩ : Elo.EloRating ℝ) ⟨1400⟩ .WIN ⟨32⟩).1.rating
    < (Elo.elo ⟨1500⟩ ⟨1900⟩ .WIN ⟨32⟩).1.rating :=
  (C93_elo_opponent ⟨1500⟩ ⟨1400⟩ ⟨1900⟩ .WIN ⟨32⟩ (by norm_num) (by norm_num)).1

/-! ### FIFA -/

/-- With every configuration; strictly outside of knockout matches. -/
theorem C93_fifa_opponent (a b b' : Fifa.FifaRating ℝ) (o : Outcomes) (c : Fifa.FifaConfig ℝ)
    (hi : 0 < c.importance) (h : b.rating < b'.rating) :
    (Fifa.fifa a b o c).1.rating ≤ (Fifa.fifa a b' o c).1.rating ∧
      (Fifa.fifa b a o c).2.rating ≤ (Fifa.fifa b' a o c).2.rating ∧
      (c.knockout = false →
        (Fifa.fifa a b o c).1.rating < (Fifa.fifa a b' o c).1.rating ∧
          (Fifa.fifa b a o c).2.rating < (Fifa.fifa b' a o c).2.rating) := by
  have hl := log_ten_pos
  have h1 : sigmoid (log 10 / 600 * (a.rating - b'.rating))
      < sigmoid (log 10 / 600 * (a.rating - b.rating)) := by
    rw [sigmoid_lt_iff]; gcongr
  have h2 : sigmoid (log 10 / 600 * (b.rating - a.rating))
      < sigmoid (log 10 / 600 * (b'.rating - a.rating)) := by
    rw [sigmoid_lt_iff]; gcongr
  have k1 : c.importance * (Fifa.credit o c - sigmoid (log 10 / 600 * (a.rating - b.rating)))
      + a.rating < c.importance * (Fifa.credit o c
        - sigmoid (log 10 / 600 * (a.rating - b'.rating))) + a.rating := by nlinarith
  have k2 : c.importance * (Fifa.credit2 o c
        - (1 - sigmoid (log 10 / 600 * (b.rating - a.rating)))) + a.rating
      < c.importance * (Fifa.credit2 o c
        - (1 - sigmoid (log 10 / 600 * (b'.rating - a.rating)))) + a.rating := by nlinarith
  simp only [Fifa.fifa_real, Fifa.guarded]
  refine ⟨?_, ?_, fun hk => ?_⟩
  · split_ifs
    · exact max_le_max le_rfl k1.le
    · exact k1.le
  · split_ifs
    · exact max_le_max le_rfl k2.le
    · exact k2.le
  · simp only [hk, Bool.false_eq_true, if_false]
    exact ⟨k1, k2⟩

example : (Fifa.fifa (⟨1300⟩ : Fifa.FifaRating ℝ) ⟨1200⟩ .DRAW ⟨25, false, false⟩).1.rating
    < (Fifa.fifa ⟨1300⟩ ⟨1500⟩ .DRAW ⟨25, false, false⟩).1.rating :=
  ((C93_fifa_opponent ⟨1300⟩ ⟨1200⟩ ⟨1500⟩ .DRAW ⟨25, false, false⟩ (by norm_num)
    (by norm_num)).2.2 rfl).1

/-! ### Ingo: lower numbers are better -/

theorem C93_ingo_opponent (a b b' : Ingo.IngoRating ℝ) (o : Outcomes) (h : b.rating < b'.rating) :
    (Ingo.ingo a b o).1.rating < (Ingo.ingo a b' o).1.rating ∧
      (Ingo.ingo b a o).2.rating < (Ingo.ingo b' a o).2.rating := by
  have := Ingo.development_pos a.age
  rw [(Ingo.C24_ingo_formula a b o).1, (Ingo.C24_ingo_formula a b' o).1,
    (Ingo.C24_ingo_formula b a o).2, (Ingo.C24_ingo_formula b' a o).2]
  simp only [Ingo.perf]
  constructor <;> gcongr

example : (Ingo.ingo (⟨150, 30⟩ : Ingo.IngoRating ℝ) ⟨90, 30⟩ .LOSS).1.rating
    < (Ingo.ingo ⟨150, 30⟩ ⟨200, 30⟩ .LOSS).1.rating :=
  (C93_ingo_opponent ⟨150, 30⟩ ⟨90, 30⟩ ⟨200, 30⟩ .LOSS (by norm_num)).1

/-! ### EGF -/

theorem C93_egf_opponent (a b b' : Egf.EGFRating ℝ) (o : Outcomes) (c : Egf.EGFConfig ℝ)
    (h : b.rating < b'.rating) (hb : Egf.BelowCeiling a b' c) (ha : a.rating < 3300) :
    (Egf.egf a b o c).1.rating ≤ (Egf.egf a b' o c).1.rating ∧
      (-900 < (Egf.egf a b' o c).1.rating →
        (Egf.egf a b o c).1.rating < (Egf.egf a b' o c).1.rating) := by
  have hs : egfSecond b.rating c.handicap < egfSecond b'.rating c.handicap := by
    unfold egfSecond; split_ifs <;> linarith
  have h1 : (Egf.expectedScore a b' c).1 < (Egf.expectedScore a b c).1 := by
    simp only [Egf.expectedScore_real, sigmoid_lt_iff, egfBeta]
    have := Real.log_lt_log (show 0 < 3300 - egfSecond b'.rating c.handicap by linarith [hb.2])
      (show 3300 - egfSecond b'.rating c.handicap < 3300 - egfSecond b.rating c.handicap by linarith)
    linarith
  have hc : 0 < egfCon a.rating := by
    have : 0 < (3300 - a.rating) / 200 := by linarith
    unfold egfCon; positivity
  simp only [Egf.egf_real, egfRating]
  have k : a.rating + egfCon a.rating * (points o - (Egf.expectedScore a b c).1)
      + egfBonus a.rating < a.rating + egfCon a.rating * (points o - (Egf.expectedScore a b' c).1)
      + egfBonus a.rating := by nlinarith
  refine ⟨max_le_max k.le le_rfl, fun hf => ?_⟩
  exact max_lt (lt_max_of_lt_left k) hf

/-- The same for the player in the second seat. -/
theorem C93_egf_opponent_second (a b b' : Egf.EGFRating ℝ) (o : Outcomes) (c : Egf.EGFConfig ℝ)
    (h : b.rating < b'.rating) (hb : Egf.BelowCeiling b' a c) (ha : a.rating < 3300) :
    (Egf.egf b a o c).2.rating ≤ (Egf.egf b' a o c).2.rating ∧
      (-900 < (Egf.egf b' a o c).2.rating →
        (Egf.egf b a o c).2.rating < (Egf.egf b' a o c).2.rating) := by
  have e : ∀ x : Egf.EGFRating ℝ, (Egf.egf x a o c).2 = (Egf.egf a x (mirror o) ⟨-c.handicap⟩).1 := by
    intro x
    rw [C108_egf_seats x a o c]; rfl
  rw [e, e]
  refine C93_egf_opponent a b b' (mirror o) ⟨-c.handicap⟩ h ?_ ha
  have h1 := hb.1
  have h2 := hb.2
  constructor
  · change egfFirst a.rating (-c.handicap) < 3300
    rcases lt_trichotomy c.handicap 0 with h | h | h
    · simp_all [egfFirst, egfSecond, not_lt.2 h.le]
    · simp_all [egfFirst, egfSecond, egfStones]
    · simp_all [egfFirst, egfSecond, not_lt.2 h.le]
  · change egfSecond b'.rating (-c.handicap) < 3300
    rcases lt_trichotomy c.handicap 0 with h | h | h
    · simp_all [egfFirst, egfSecond, not_lt.2 h.le]
    · simp_all [egfFirst, egfSecond, egfStones]
    · simp_all [egfFirst, egfSecond, not_lt.2 h.le]

example : Egf.BelowCeiling (⟨1900⟩ : Egf.EGFRating ℝ) ⟨2400⟩ ⟨3⟩ := by
  constructor <;> norm_num [egfFirst, egfSecond, egfStones]

/-! ### DWZ -/

/-- A change `K (s - e)` whose factor only depends on the side on which the result lies of the
expectation is strictly decreasing in the expectation. -/
theorem dwz_change_lt {r : ℝ} {age i : ℕ} {s e e' : ℝ} (h : e' < e) :
    800 / (dwzCoefficient r age s e i + 1) * (s - e)
      < 800 / (dwzCoefficient r age s e' i + 1) * (s - e') := by
  have p1 := coefficient_ge r age i s e
  have p2 := coefficient_ge r age i s e'
  have q1 : 0 < 800 / (dwzCoefficient r age s e i + 1) := by positivity
  have q2 : 0 < 800 / (dwzCoefficient r age s e' i + 1) := by positivity
  rcases lt_trichotomy e s with hs | hs | hs
  · have : dwzCoefficient r age s e' i = dwzCoefficient r age s e i := by
      simp only [dwzCoefficient, hs.le, (h.trans hs).le, not_le.2 hs, not_le.2 (h.trans hs)]
    rw [this] at q2 ⊢
    exact mul_lt_mul_of_pos_left (by linarith) q2
  · rw [hs, sub_self, mul_zero]
    apply mul_pos q2; linarith
  · rcases lt_or_ge s e' with hs' | hs'
    · have : dwzCoefficient r age s e' i = dwzCoefficient r age s e i := by
        simp only [dwzCoefficient, hs.le, hs'.le, not_le.2 hs, not_le.2 hs']
      rw [this] at q2 ⊢
      exact mul_lt_mul_of_pos_left (by linarith) q2
    · have : 800 / (dwzCoefficient r age s e i + 1) * (s - e) < 0 :=
        mul_neg_of_pos_of_neg q1 (by linarith)
      have : 0 ≤ 800 / (dwzCoefficient r age s e' i + 1) * (s - e') :=
        mul_nonneg q2.le (by linarith)
      linarith

theorem C93_dwz_opponent (a b b' : Dwz.DWZRating ℝ) (o : Outcomes) (ha : 1 ≤ a.index)
    (h : b.rating < b'.rating) :
    (Dwz.dwz a b o).1.rating < (Dwz.dwz a b' o).1.rating ∧
      (Dwz.dwz b a o).2.rating < (Dwz.dwz b' a o).2.rating := by
  have h1 := Dwz.C12_dwz_expected_strictAnti_opponent a b b' h
  have h2 : (Dwz.expectedScore b' a).2 < (Dwz.expectedScore b a).2 := by
    have := Dwz.C12_dwz_expected_strictMono_own b b' a h
    have e1 := (Dwz.C12_dwz_expected_probability b a).sum_eq_one
    have e2 := (Dwz.C12_dwz_expected_probability b' a).sum_eq_one
    linarith
  simp only [Dwz.dwz_fst_real, Dwz.dwz_snd_real, Dwz.eValue_spec _ _ _ _ _ ha]
  constructor
  · linarith [dwz_change_lt (r := a.rating) (age := a.age) (i := a.index) (s := points o) h1]
  · linarith [dwz_change_lt (r := a.rating) (age := a.age) (i := a.index) (s := 1 - points o) h2]

example : (Dwz.dwz (⟨1500, 4, 17⟩ : Dwz.DWZRating ℝ) ⟨1300, 3, 33⟩ .DRAW).1.rating
    < (Dwz.dwz ⟨1500, 4, 17⟩ ⟨1700, 22, 50⟩ .DRAW).1.rating :=
  (C93_dwz_opponent ⟨1500, 4, 17⟩ ⟨1300, 3, 33⟩ ⟨1700, 22, 50⟩ .DRAW (by norm_num)
    (by norm_num)).1

/-! ### Glicko -/

/-- `(x - t) / (A + B x (1 - x))` is strictly increasing between 0 and 1. -/
theorem ratio_lt {A B t x y : ℝ} (hA : 0 < A) (hB : 0 ≤ B) (ht0 : 0 ≤ t) (ht1 : t ≤ 1)
    (hx0 : 0 < x) (hxy : x < y) (hy1 : y < 1) :
    (x - t) / (A + B * (x * (1 - x))) < (y - t) / (A + B * (y * (1 - y))) := by
  have dx : 0 < A + B * (x * (1 - x)) := by
    have : 0 ≤ B * (x * (1 - x)) := mul_nonneg hB (mul_nonneg hx0.le (by linarith))
    linarith
  have dy : 0 < A + B * (y * (1 - y)) := by
    have : 0 ≤ B * (y * (1 - y)) := mul_nonneg hB (mul_nonneg (by linarith) (by linarith))
    linarith
  rw [div_lt_div_iff₀ dx dy]
  have key : (y - t) * (A + B * (x * (1 - x))) - (x - t) * (A + B * (y * (1 - y)))
      = (y - x) * (A + B * (t * ((1 - x) * (1 - y)) + (1 - t) * (x * y))) := by ring
  have h1 : 0 ≤ t * ((1 - x) * (1 - y)) :=
    mul_nonneg ht0 (mul_nonneg (by linarith) (by linarith))
  have h2 : 0 ≤ (1 - t) * (x * y) :=
    mul_nonneg (by linarith) (mul_nonneg hx0.le (by linarith))
  have h3 : 0 < (y - x) * (A + B * (t * ((1 - x) * (1 - y)) + (1 - t) * (x * y))) :=
    mul_pos (by linarith) (by nlinarith [mul_nonneg hB (add_nonneg h1 h2)])
  linarith

theorem rated_lt {r rd rj rj' rdj s c : ℝ} (hrd : 0 < rd) (hs0 : 0 ≤ s) (hs1 : s ≤ 1)
    (h : rj < rj') :
    (Glicko.rated r rd rj rdj s c).rating < (Glicko.rated r rd rj' rdj s c).rating := by
  have hq := glickoQ_pos
  have hg := glickoG_pos rdj
  have hp := glickoOnset_pos c hrd
  have hE : glickoE r rj' rdj < glickoE r rj rdj := by
    rw [glickoE_eq, glickoE_eq, sigmoid_lt_iff]; gcongr
  have k := ratio_lt (A := 1 / glickoOnset rd c ^ 2) (B := glickoQ ^ 2 * glickoG rdj ^ 2)
    (t := 1 - s) (x := 1 - glickoE r rj rdj) (y := 1 - glickoE r rj' rdj) (by positivity)
    (by positivity) (by linarith) (by linarith) (by linarith [glickoE_lt_one r rj rdj])
    (by linarith) (by linarith [glickoE_pos r rj' rdj])
  have e : ∀ x, (Glicko.rated r rd x rdj s c).rating = r + glickoQ * glickoG rdj *
      ((1 - glickoE r x rdj - (1 - s)) / (1 / glickoOnset rd c ^ 2 + glickoQ ^ 2 * glickoG rdj ^ 2
        * ((1 - glickoE r x rdj) * (1 - (1 - glickoE r x rdj))))) := by
    intro x
    have e2 : glickoInfo r x rdj = glickoQ ^ 2 * glickoG rdj ^ 2
        * ((1 - glickoE r x rdj) * (1 - (1 - glickoE r x rdj))) := by
      unfold glickoInfo; ring
    simp only [Glicko.rated, posterior, ← e2]
    ring
  rw [e, e]
  have : 0 < glickoQ * glickoG rdj := by positivity
  gcongr

/-- Although the step of Glicko also depends on the opponent, a better opponent always pays. -/
theorem C93_glicko_opponent (a b b' : Glicko.GlickoRating ℝ) (o : Outcomes)
    (c : Glicko.GlickoConfig ℝ) (ha : 0 < a.deviation) (h : b.rating < b'.rating)
    (hd : b.deviation = b'.deviation) :
    (Glicko.glicko a b o c).1.rating < (Glicko.glicko a b' o c).1.rating ∧
      (Glicko.glicko b a o c).2.rating < (Glicko.glicko b' a o c).2.rating := by
  have p0 := points_nonneg o
  have p1 := points_le_one o
  simp only [Glicko.glicko_real, hd]
  exact ⟨rated_lt ha p0 p1 h, rated_lt ha (by linarith) (by linarith) h⟩

example : (Glicko.glicko (⟨1500, 200⟩ : Glicko.GlickoRating ℝ) ⟨1400, 80⟩ .LOSS ⟨30⟩).1.rating
    < (Glicko.glicko ⟨1500, 200⟩ ⟨1600, 80⟩ .LOSS ⟨30⟩).1.rating :=
  (C93_glicko_opponent ⟨1500, 200⟩ ⟨1400, 80⟩ ⟨1600, 80⟩ .LOSS ⟨30⟩ (by norm_num) (by norm_num)
    rfl).1

/-! ### Weng-Lin -/

theorem C93_wengLin_opponent (a b b' : WengLin.WengLinRating ℝ) (o : Outcomes)
    (c : WengLin.WengLinConfig ℝ) (ha : 0 < a.uncertainty) (hb : 0 < b.uncertainty)
    (h : b.rating < b'.rating) (hu : b.uncertainty = b'.uncertainty) :
    (WengLin.wengLin a b o c).1.rating < (WengLin.wengLin a b' o c).1.rating ∧
      (WengLin.wengLin b a o c).2.rating < (WengLin.wengLin b' a o c).2.rating := by
  have hb' : 0 < b'.uncertainty := hu ▸ hb
  simp only [WengLin.C88_wengLin_formula _ _ _ _ ha hb, WengLin.C88_wengLin_formula _ _ _ _ ha hb',
    WengLin.C88_wengLin_formula _ _ _ _ hb ha, WengLin.C88_wengLin_formula _ _ _ _ hb' ha,
    wlDelta, hu]
  have hC : 0 < wlC c.beta (a.uncertainty ^ 2) (b'.uncertainty ^ 2) :=
    WengLin.wlC_pos (sq_nonneg _) (sq_nonneg _) (.inl (by positivity))
  set C := wlC c.beta (a.uncertainty ^ 2) (b'.uncertainty ^ 2)
  have hP : wlP C a.rating b'.rating < wlP C a.rating b.rating := by
    rw [WengLin.wlP_eq, WengLin.wlP_eq, sigmoid_lt_iff]
    gcongr
  have hK : 0 < a.uncertainty ^ 2 / C := by positivity
  constructor <;> nlinarith

example : (WengLin.wengLin (⟨25, 8⟩ : WengLin.WengLinRating ℝ) ⟨20, 6⟩ .WIN
      ⟨25 / 6, 1 / 10000⟩).1.rating
    < (WengLin.wengLin ⟨25, 8⟩ ⟨35, 6⟩ .WIN ⟨25 / 6, 1 / 10000⟩).1.rating :=
  (C93_wengLin_opponent ⟨25, 8⟩ ⟨20, 6⟩ ⟨35, 6⟩ .WIN ⟨25 / 6, 1 / 10000⟩ (by norm_num)
    (by norm_num) (by norm_num) rfl).1

/-! ### USCF -/

/-- In both regimes; strictly above the floor. -/
theorem C93_uscf_opponent (a b b' : Uscf.USCFRating ℝ) (o : Outcomes) (c : Uscf.USCFConfig ℝ)
    (h : b.rating < b'.rating) :
    (Uscf.uscf a b o c).1.rating ≤ (Uscf.uscf a b' o c).1.rating ∧
      (100 < (Uscf.uscf a b' o c).1.rating →
        (Uscf.uscf a b o c).1.rating < (Uscf.uscf a b' o c).1.rating) := by
  have hl := log_ten_pos
  have hE : Uscf.eValue a.rating b'.rating < Uscf.eValue a.rating b.rating := by
    rw [Uscf.eValue_real, Uscf.eValue_real, sigmoid_lt_iff]; gcongr
  have key : (if a.games ≤ 8 then
      Uscf.newRatingProvisional a.rating a.games 1 b.rating
        (Uscf.fromBool (o = .WIN)) (Uscf.fromBool (o = .LOSS))
     else Uscf.newRating a.rating a.games 1 o.toChessPoints (Uscf.eValue a.rating b.rating) c)
    < (if a.games ≤ 8 then
      Uscf.newRatingProvisional a.rating a.games 1 b'.rating
        (Uscf.fromBool (o = .WIN)) (Uscf.fromBool (o = .LOSS))
     else Uscf.newRating a.rating a.games 1 o.toChessPoints (Uscf.eValue a.rating b'.rating) c) := by
    split_ifs with hg
    · rw [Uscf.provisional_real, Uscf.provisional_real, uscfProvisional, uscfProvisional]
      push_cast
      gcongr
    · have hne := Uscf.uscfEffective_pos a.rating (g := a.games) (by omega)
      have hK : 0 < uscfK a.rating a.games 1 := by unfold uscfK; positivity
      rw [Uscf.newRating_real, Uscf.newRating_real]
      simp only [uscfBonus, show (1 : ℕ) < 3 by norm_num, if_true]
      nlinarith
  simp only [Uscf.uscf, Flt.lit_100, Flt.fmax_real]
  refine ⟨max_le_max key.le le_rfl, fun hf => max_lt (lt_max_of_lt_left key) hf⟩

/-- The same for the player in the second seat. -/
theorem C93_uscf_opponent_second (a b b' : Uscf.USCFRating ℝ) (o : Outcomes) (c : Uscf.USCFConfig ℝ)
    (h : b.rating < b'.rating) :
    (Uscf.uscf b a o c).2.rating ≤ (Uscf.uscf b' a o c).2.rating ∧
      (100 < (Uscf.uscf b' a o c).2.rating →
        (Uscf.uscf b a o c).2.rating < (Uscf.uscf b' a o c).2.rating) := by
  have e : ∀ x : Uscf.USCFRating ℝ, (Uscf.uscf x a o c).2 = (Uscf.uscf a x (mirror o) c).1 := by
    intro x
    rw [C108_uscf_seats x a o c]; rfl
  rw [e, e]
  exact C93_uscf_opponent a b b' (mirror o) c h

example : ∃ a b b' : Uscf.USCFRating ℝ, b.rating < b'.rating ∧ a.games ≤ 8 :=
  ⟨⟨1300, 4⟩, ⟨1200, 30⟩, ⟨1800, 30⟩, by norm_num, by norm_num⟩

end Skillratings
