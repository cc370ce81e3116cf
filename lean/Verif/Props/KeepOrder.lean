import Mathlib.Analysis.SpecialFunctions.Log.Base
import Verif.Proofs.KeepOrder
import Verif.Proofs.Elo
import Verif.Proofs.Fifa
import Verif.Proofs.Dwz
import Verif.Proofs.WengLin
import Verif.Props.Ingo
import Verif.Props.Glicko
/-
C147: two players with the same games, the same results and everything but the rating in common: where
the order of their ratings is kept, and where it is not.
-/
namespace Skillratings
open Real Spec

/-! ### Kept -/

theorem C147_elo_keeps (a a' b : Elo.EloRating ℝ) (o : Outcomes) (c : Elo.EloConfig ℝ)
    (hk0 : 0 ≤ c.k) (hk : c.k * log 10 < 1600) (h : a.rating < a'.rating) :
    (Elo.elo a b o c).1.rating < (Elo.elo a' b o c).1.rating ∧
      (Elo.elo b a o c).2.rating < (Elo.elo b a' o c).2.rating := by
  have hα : (0 : ℝ) ≤ log 10 / 400 := by have := log_ten_pos; positivity
  have hkα : c.k * (log 10 / 400) < 4 := by linarith
  have e : ∀ x : ℝ, 1 - sigmoid (log 10 / 400 * (b.rating - x))
      = sigmoid (log 10 / 400 * (x - b.rating)) := fun x => by
    rw [← sigmoid_neg]; congr 1; ring
  have k1 := logistic_keeps (s := points o) (b := b.rating) hα hk0 hkα h
  have k2 := logistic_keeps (s := 1 - points o) (b := b.rating) hα hk0 hkα h
  rw [← e, ← e] at k2
  simp only [Elo.elo_real]
  constructor <;> linarith

/-- With and without knockout protection and penalty shootouts. -/
theorem C147_fifa_keeps (a a' b : Fifa.FifaRating ℝ) (o : Outcomes) (c : Fifa.FifaConfig ℝ)
    (hk0 : 0 ≤ c.importance) (hk : c.importance * log 10 < 2400) (h : a.rating < a'.rating) :
    (Fifa.fifa a b o c).1.rating < (Fifa.fifa a' b o c).1.rating ∧
      (Fifa.fifa b a o c).2.rating < (Fifa.fifa b a' o c).2.rating := by
  have hα : (0 : ℝ) ≤ log 10 / 600 := by have := log_ten_pos; positivity
  have hkα : c.importance * (log 10 / 600) < 4 := by linarith
  have e : ∀ x : ℝ, 1 - sigmoid (log 10 / 600 * (b.rating - x))
      = sigmoid (log 10 / 600 * (x - b.rating)) := fun x => by
    rw [← sigmoid_neg]; congr 1; ring
  have k1 := logistic_keeps (s := Fifa.credit o c) (b := b.rating) hα hk0 hkα h
  have k2 := logistic_keeps (s := Fifa.credit2 o c) (b := b.rating) hα hk0 hkα h
  rw [← e, ← e] at k2
  have g : ∀ {x x' y y' : ℝ}, x < x' → y < y' → Fifa.guarded c x y < Fifa.guarded c x' y' := by
    intro x x' y y' h1 h2
    unfold Fifa.guarded
    split_ifs
    · exact max_lt_max h1 h2
    · exact h2
  simp only [Fifa.fifa_real]
  exact ⟨g h k1, g h k2⟩

theorem C147_ingo_keeps (a a' b : Ingo.IngoRating ℝ) (o : Outcomes) (hage : a'.age = a.age)
    (h : a.rating < a'.rating) :
    (Ingo.ingo a b o).1.rating < (Ingo.ingo a' b o).1.rating ∧
      (Ingo.ingo b a o).2.rating < (Ingo.ingo b a' o).2.rating := by
  have hd := Ingo.development_pos a.age
  have := mul_lt_mul_of_pos_left h hd
  rw [(Ingo.C24_ingo_formula a b o).1, (Ingo.C24_ingo_formula a' b o).1,
    (Ingo.C24_ingo_formula b a o).2, (Ingo.C24_ingo_formula b a' o).2, hage]
  constructor <;> exact div_lt_div_of_pos_right (by linarith) (by linarith)

/-- Single games; at the floor of -900 both may end up equal. Someone who receives handicap stones must
not come near the ceiling by them. -/
theorem C147_egf_keeps (a a' b : Egf.EGFRating ℝ) (o : Outcomes) (c : Egf.EGFConfig ℝ)
    (h : a.rating < a'.rating) (h0 : -900 ≤ a.rating) (h1 : a'.rating < 3300) :
    ((0 ≤ c.handicap ∨ egfFirst a'.rating c.handicap ≤ 3000) →
      (Egf.egf a b o c).1.rating < (Egf.egf a' b o c).1.rating ∨
        (Egf.egf a b o c).1.rating = -900 ∧ (Egf.egf a' b o c).1.rating = -900) ∧
    ((c.handicap ≤ 0 ∨ egfSecond a'.rating c.handicap ≤ 3000) →
      (Egf.egf b a o c).2.rating < (Egf.egf b a' o c).2.rating ∨
        (Egf.egf b a o c).2.rating = -900 ∧ (Egf.egf b a' o c).2.rating = -900) := by
  have hp0 : 0 ≤ points o := by cases o <;> norm_num [points]
  have hp1 : points o ≤ 1 := by cases o <;> norm_num [points]
  have hmax : ∀ {x y : ℝ}, x < y → max x (-900) < max y (-900) ∨
      max x (-900) = -900 ∧ max y (-900) = -900 := by
    intro x y hxy
    rcases le_or_gt y (-900) with h | h
    · exact Or.inr ⟨max_eq_right (hxy.le.trans h), max_eq_right h⟩
    · rw [max_eq_left h.le]; exact Or.inl (max_lt hxy h)
  have key : ∀ (t B s : ℝ), 0 ≤ s → s ≤ 1 → (t = 0 ∨ a'.rating + t ≤ 3000) →
      egfRating a.rating s (sigmoid (egfBeta (a.rating + t) - B))
        < egfRating a'.rating s (sigmoid (egfBeta (a'.rating + t) - B)) ∨
      egfRating a.rating s (sigmoid (egfBeta (a.rating + t) - B)) = -900 ∧
        egfRating a'.rating s (sigmoid (egfBeta (a'.rating + t) - B)) = -900 := by
    intro t B s hs0 hs1 ht
    have ht1 : a'.rating + t < 3300 := by rcases ht with ht | ht <;> linarith
    exact hmax (Egf.raw_keeps (B := B) h h0 h1 ht1 (ht.imp (fun e => e.le) id) hs0 hs1)
  constructor
  · intro hc
    simp only [Egf.egf_real, Egf.expectedScore_real]
    rcases lt_or_ge c.handicap 0 with hh | hh
    · have hc' := hc.resolve_left (not_le.2 hh)
      simp only [egfFirst, hh, if_true] at hc' ⊢
      exact key _ _ _ hp0 hp1 (Or.inr hc')
    · have := key 0 (egfBeta (egfSecond b.rating c.handicap)) _ hp0 hp1 (Or.inl rfl)
      simpa only [egfFirst, not_lt.2 hh, if_false, add_zero] using this
  · intro hc
    have e : ∀ x y : ℝ, 1 - sigmoid (x - y) = sigmoid (y - x) := fun x y => by
      rw [← sigmoid_neg, neg_sub]
    simp only [Egf.egf_real, Egf.expectedScore_real, e]
    rcases lt_trichotomy c.handicap 0 with hh | hh | hh
    · have := key 0 (egfBeta (egfFirst b.rating c.handicap)) (1 - points o) (by linarith) (by linarith)
        (Or.inl rfl)
      simpa only [egfSecond, hh, if_true, add_zero] using this
    · have := key 0 (egfBeta (egfFirst b.rating c.handicap)) (1 - points o) (by linarith) (by linarith)
        (Or.inl rfl)
      simpa only [egfSecond, hh, lt_irrefl, if_false, egfStones, if_true, add_zero] using this
    · have hc' := hc.resolve_left (not_le.2 hh)
      simp only [egfSecond, not_lt.2 hh.le, if_false] at hc' ⊢
      exact key _ _ _ (by linarith) (by linarith) (Or.inr hc')

/-- Players with at least one game; at the floor of 100 both may end up equal. -/
theorem C147_uscf_keeps (a a' b : Uscf.USCFRating ℝ) (o : Outcomes) (c : Uscf.USCFConfig ℝ)
    (hgames : a'.games = a.games) (h : a.rating < a'.rating) (hg : 1 ≤ a.games)
    (hr : 9 ≤ a.games → 100 ≤ a.rating ∧ (a'.rating < 2355 ∨ 2355 ≤ a.rating)) :
    ((Uscf.uscf a b o c).1.rating < (Uscf.uscf a' b o c).1.rating ∨
      (Uscf.uscf a b o c).1.rating = 100 ∧ (Uscf.uscf a' b o c).1.rating = 100) ∧
    ((Uscf.uscf b a o c).2.rating < (Uscf.uscf b a' o c).2.rating ∨
      (Uscf.uscf b a o c).2.rating = 100 ∧ (Uscf.uscf b a' o c).2.rating = 100) := by
  have hp0 : 0 ≤ points o := by cases o <;> norm_num [points]
  have hp1 : points o ≤ 1 := by cases o <;> norm_num [points]
  have hmax : ∀ {x y : ℝ}, x < y → max x 100 < max y 100 ∨ max x 100 = 100 ∧ max y 100 = 100 := by
    intro x y hxy
    rcases le_or_gt y 100 with h | h
    · exact Or.inr ⟨max_eq_right (hxy.le.trans h), max_eq_right h⟩
    · rw [max_eq_left h.le]; exact Or.inl (max_lt hxy h)
  rcases Nat.lt_or_ge a.games 9 with h9 | h9
  · have h8 : a.games ≤ 8 := by omega
    rw [Uscf.C54_uscf_provisional a b o c h8, Uscf.C54_uscf_provisional a' b o c (hgames ▸ h8),
      Uscf.C54_uscf_provisional_second b a o c h8,
      Uscf.C54_uscf_provisional_second b a' o c (hgames ▸ h8), hgames]
    have hg' : (0 : ℝ) < a.games := by exact_mod_cast hg
    have := mul_lt_mul_of_pos_left h hg'
    constructor <;> apply hmax <;> exact div_lt_div_of_pos_right (by linarith) (by positivity)
  · obtain ⟨h100, hside⟩ := hr h9
    rw [Uscf.C54_uscf_established a b o c h9, Uscf.C54_uscf_established a' b o c (hgames ▸ h9),
      Uscf.C54_uscf_established_second b a o c h9,
      Uscf.C54_uscf_established_second b a' o c (hgames ▸ h9), hgames, points_mirror]
    simp only [Uscf.logisticExpected_eq]
    exact ⟨hmax (Uscf.raw_keeps h9 h100 h hside hp0 hp1),
      hmax (Uscf.raw_keeps h9 h100 h hside (by linarith) (by linarith))⟩

/-- Single games of players with the same deviation. It depends on the limit
of 350 for deviations: the proof needs it, and without it there are counterexamples from about 400 on
(not proved here). -/
theorem C147_glicko_keeps (a a' b : Glicko.GlickoRating ℝ) (o : Outcomes) (c : Glicko.GlickoConfig ℝ)
    (hd : a'.deviation = a.deviation) (hpos : 0 < a.deviation) (h : a.rating < a'.rating) :
    (Glicko.glicko a b o c).1.rating < (Glicko.glicko a' b o c).1.rating ∧
      (Glicko.glicko b a o c).2.rating < (Glicko.glicko b a' o c).2.rating := by
  have hp0 : 0 ≤ points o := by cases o <;> norm_num [points]
  have hp1 : points o ≤ 1 := by cases o <;> norm_num [points]
  simp only [Glicko.glicko_real, hd]
  exact ⟨Glicko.rated_keeps h hpos hp0 hp1, Glicko.rated_keeps h hpos (by linarith) (by linarith)⟩

/-- Single games of players with the same uncertainty. -/
theorem C147_wengLin_keeps (a a' b : WengLin.WengLinRating ℝ) (o : Outcomes)
    (c : WengLin.WengLinConfig ℝ) (hu : a'.uncertainty = a.uncertainty) (h : a.rating < a'.rating) :
    (WengLin.wengLin a b o c).1.rating < (WengLin.wengLin a' b o c).1.rating ∧
      (WengLin.wengLin b a o c).2.rating < (WengLin.wengLin b a' o c).2.rating := by
  have key : ∀ (d s : ℝ), 0 ≤ d → a.uncertainty ^ 2 ≤ d ^ 2 →
      a.rating + a.uncertainty ^ 2 / d * (s - sigmoid ((a.rating - b.rating) / d))
        < a'.rating + a.uncertainty ^ 2 / d * (s - sigmoid ((a'.rating - b.rating) / d)) := by
    intro d s hd hv
    have hk : a.uncertainty ^ 2 / d * (1 / d) < 4 := by
      have : a.uncertainty ^ 2 / d * (1 / d) = a.uncertainty ^ 2 / d ^ 2 := by
        rw [div_mul_div_comm, mul_one, sq d]
      rw [this]
      have := div_le_one_of_le₀ hv (sq_nonneg d)
      linarith
    have := logistic_keeps (s := s) (b := b.rating) (by positivity : 0 ≤ 1 / d)
      (by positivity : 0 ≤ a.uncertainty ^ 2 / d) hk h
    simp only [one_div_mul_eq_div] at this
    linarith
  have hsq : ∀ x y : ℝ, 0 ≤ x → 0 ≤ y → x ≤ wlC c.beta x y ^ 2 ∧ x ≤ wlC c.beta y x ^ 2 := by
    intro x y hx hy
    have := sq_nonneg c.beta
    unfold wlC
    constructor <;> rw [Real.sq_sqrt (by positivity)] <;> linarith
  have hn : ∀ x y : ℝ, 0 ≤ wlC c.beta x y := fun x y => Real.sqrt_nonneg _
  have h2 := hsq (a.uncertainty ^ 2) (b.uncertainty ^ 2) (sq_nonneg _) (sq_nonneg _)
  simp only [WengLin.wengLin_real, hu]
  have e : ∀ x y d : ℝ, 1 - wlP d x y = sigmoid ((y - x) / d) := fun x y d => by
    rw [← WengLin.wlP_symm, WengLin.wlP_eq]
  simp only [e]
  simp only [WengLin.wlP_eq]
  exact ⟨key _ _ (hn _ _) h2.1, key _ _ (hn _ _) h2.2⟩

/-! Concrete cases: k = 32 and importance 60 are far below the bounds; an EGF beginner at the floor; a
USCF pair that stays on one side of 2355; a Glicko newcomer. -/
example : (Elo.elo (⟨1000⟩ : Elo.EloRating ℝ) ⟨1500⟩ .WIN ⟨32⟩).1.rating
    < (Elo.elo (⟨1001⟩ : Elo.EloRating ℝ) ⟨1500⟩ .WIN ⟨32⟩).1.rating :=
  (C147_elo_keeps _ _ _ _ _ (by norm_num) (by have := log_ten_lt; norm_num at this ⊢; linarith)
    (by norm_num)).1
example : (Fifa.fifa (⟨1500⟩ : Fifa.FifaRating ℝ) ⟨1000⟩ .LOSS ⟨60, true, false⟩).2.rating
    < (Fifa.fifa (⟨1500⟩ : Fifa.FifaRating ℝ) ⟨1001⟩ .LOSS ⟨60, true, false⟩).2.rating :=
  (C147_fifa_keeps _ _ _ _ _ (by norm_num) (by have := log_ten_lt; norm_num at this ⊢; linarith)
    (by norm_num)).2
example : (Ingo.ingo (⟨100, 18⟩ : Ingo.IngoRating ℝ) ⟨150, 40⟩ .WIN).1.rating
    < (Ingo.ingo (⟨101, 18⟩ : Ingo.IngoRating ℝ) ⟨150, 40⟩ .WIN).1.rating :=
  (C147_ingo_keeps ⟨100, 18⟩ ⟨101, 18⟩ ⟨150, 40⟩ .WIN rfl (by norm_num)).1
example (o : Outcomes) : (Egf.egf (⟨2000⟩ : Egf.EGFRating ℝ) ⟨2400⟩ o ⟨-3⟩).1.rating
    < (Egf.egf (⟨2001⟩ : Egf.EGFRating ℝ) ⟨2400⟩ o ⟨-3⟩).1.rating ∨
    (Egf.egf (⟨2000⟩ : Egf.EGFRating ℝ) ⟨2400⟩ o ⟨-3⟩).1.rating = -900 ∧
      (Egf.egf (⟨2001⟩ : Egf.EGFRating ℝ) ⟨2400⟩ o ⟨-3⟩).1.rating = -900 :=
  (C147_egf_keeps _ _ _ o _ (by norm_num) (by norm_num) (by norm_num)).1
    (Or.inr (by norm_num [egfFirst, egfStones]))
example (o : Outcomes) (c : Uscf.USCFConfig ℝ) :
    (Uscf.uscf (⟨1500, 20⟩ : Uscf.USCFRating ℝ) ⟨1800, 30⟩ o c).1.rating
      < (Uscf.uscf (⟨1501, 20⟩ : Uscf.USCFRating ℝ) ⟨1800, 30⟩ o c).1.rating ∨
    (Uscf.uscf (⟨1500, 20⟩ : Uscf.USCFRating ℝ) ⟨1800, 30⟩ o c).1.rating = 100 ∧
      (Uscf.uscf (⟨1501, 20⟩ : Uscf.USCFRating ℝ) ⟨1800, 30⟩ o c).1.rating = 100 :=
  (C147_uscf_keeps ⟨1500, 20⟩ ⟨1501, 20⟩ ⟨1800, 30⟩ o c rfl (by norm_num) (by norm_num)
    fun _ => ⟨by norm_num, Or.inl (by norm_num)⟩).1
example (o : Outcomes) (c : Glicko.GlickoConfig ℝ) :
    (Glicko.glicko (⟨1500, 350⟩ : Glicko.GlickoRating ℝ) ⟨1900, 30⟩ o c).1.rating
      < (Glicko.glicko (⟨1501, 350⟩ : Glicko.GlickoRating ℝ) ⟨1900, 30⟩ o c).1.rating :=
  (C147_glicko_keeps ⟨1500, 350⟩ ⟨1501, 350⟩ ⟨1900, 30⟩ o c rfl (by norm_num) (by norm_num)).1
example (o : Outcomes) (c : WengLin.WengLinConfig ℝ) :
    (WengLin.wengLin (⟨25, 8⟩ : WengLin.WengLinRating ℝ) ⟨40, 2⟩ o c).1.rating
      < (WengLin.wengLin (⟨26, 8⟩ : WengLin.WengLinRating ℝ) ⟨40, 2⟩ o c).1.rating :=
  (C147_wengLin_keeps ⟨25, 8⟩ ⟨26, 8⟩ ⟨40, 2⟩ o c rfl (by norm_num)).1

/-! ### Not kept -/

/-- DWZ: two adults in their first evaluation lose to a player rated 1300. The one rated 1300 falls by
67 points, the one rated 1299, who has the surcharge for weak players, by less than 23. -/
theorem C147_dwz_fails : ∃ (a a' b : Dwz.DWZRating ℝ), a.rating < a'.rating ∧ a'.age = a.age ∧
    a'.index = a.index ∧
    (Dwz.dwz a' b .LOSS).1.rating + 40 < (Dwz.dwz a b .LOSS).1.rating := by
  refine ⟨⟨1299, 1, 30⟩, ⟨1300, 1, 30⟩, ⟨1300, 1, 30⟩, by norm_num, rfl, rfl, ?_⟩
  have hE' : (Dwz.expectedScore (⟨1300, 1, 30⟩ : Dwz.DWZRating ℝ) ⟨1300, 1, 30⟩).1 = 1 / 2 := by
    rw [Dwz.expectedScore_real]
    simp only [sub_self, mul_zero, sigmoid_zero]; norm_num
  obtain ⟨E, hE, h0, h1⟩ : ∃ E, (Dwz.expectedScore (⟨1299, 1, 30⟩ : Dwz.DWZRating ℝ) ⟨1300, 1, 30⟩).1
      = E ∧ 0 < E ∧ E < 1 / 2 := by
    refine ⟨_, rfl, ?_, ?_⟩
    · rw [Dwz.expectedScore_real]; exact sigmoid_pos _
    · rw [Dwz.expectedScore_real]
      have : sigmoid (log 10 / 400 * (1299 - 1300)) < sigmoid 0 :=
        sigmoid_strictMono (by have := log_ten_pos; linarith)
      rw [sigmoid_zero] at this
      norm_num at this ⊢
      linarith
  have he' : Dwz.eValue (1300 : ℝ) 30 0 (1 / 2) 1 = 5 := by
    rw [Dwz.eValue_real]; norm_num
  have he : 17 ≤ Dwz.eValue (1299 : ℝ) 30 0 E 1 := by
    rw [Dwz.eValue_real]
    have hb : 0 < exp ((1300 - 1299 : ℝ) / 150) - 1 := by
      have := Real.add_one_le_exp ((1300 - 1299 : ℝ) / 150)
      have : (0 : ℝ) < (1300 - 1299 : ℝ) / 150 := by norm_num
      linarith
    have hc : ((1299 : ℝ) < 1300 ∧ 0 ≤ E) := ⟨by norm_num, h0.le⟩
    simp only [hc, and_self, if_true]
    generalize exp ((1300 - 1299 : ℝ) / 150) - 1 = t at *
    norm_num
    split_ifs <;> linarith
  rw [Dwz.dwz_fst_real, Dwz.dwz_fst_real]
  simp only [hE, hE', points, he']
  generalize Dwz.eValue (1299 : ℝ) 30 0 E 1 = e at *
  have : 800 / (e + 1) * E ≤ 800 / 18 * (1 / 2) :=
    mul_le_mul (div_le_div_of_nonneg_left (by norm_num) (by norm_num) (by linarith)) h1.le h0.le
      (by norm_num)
  linarith

/-- USCF: a jump of the factor at 2355. -/
theorem C147_uscf_fails (c : Uscf.USCFConfig ℝ) : ∃ (a a' b : Uscf.USCFRating ℝ),
    a.rating < a'.rating ∧ a'.games = a.games ∧
    (Uscf.uscf a' b .WIN c).1.rating < (Uscf.uscf a b .WIN c).1.rating := by
  refine ⟨⟨2355 - 1 / 10000, 50⟩, ⟨2355, 50⟩, ⟨2355, 50⟩, by norm_num, rfl, ?_⟩
  rw [Uscf.C54_uscf_established _ _ _ c (by norm_num), Uscf.C54_uscf_established _ _ _ c (by norm_num)]
  simp only [Uscf.logisticExpected_eq, points]
  have hE : sigmoid (log 10 / 400 * (2355 - 1 / 10000 - 2355)) ≤ 1 / 2 := by
    have : sigmoid (log 10 / 400 * (2355 - 1 / 10000 - 2355)) ≤ sigmoid 0 :=
      sigmoid_monotone (by have := log_ten_pos; linarith)
    rw [sigmoid_zero] at this
    norm_num at this ⊢
    linarith
  have hE' : sigmoid (log 10 / 400 * (2355 - 2355)) = 1 / 2 := by
    rw [sub_self, mul_zero, sigmoid_zero]; norm_num
  have hK' : uscfK 2355 50 1 = 800 / 51 := by norm_num [uscfK, uscfEffective]
  have hK : 800 / 50.991 ≤ uscfK (2355 - 1 / 10000) 50 1 := by
    have hs : (1.0002 : ℝ) ≤ √(0.662 + 0.00000739 * (2569 - (2355 - 1 / 10000)) ^ 2) :=
      Real.le_sqrt_of_sq_le (by norm_num)
    have hN : uscfEffective (2355 - 1 / 10000) 50
        = 50 / √(0.662 + 0.00000739 * (2569 - (2355 - 1 / 10000)) ^ 2) := by
      rw [uscfEffective, if_pos (by norm_num)]
      refine min_eq_left ?_
      push_cast
      rw [min_self]
      exact div_le_self (by norm_num) (by linarith)
    have h1 : 50 / √(0.662 + 0.00000739 * (2569 - (2355 - 1 / 10000 : ℝ)) ^ 2) ≤ 50 / 1.0002 :=
      div_le_div_of_nonneg_left (by norm_num) (by norm_num) hs
    have h2 : 0 ≤ 50 / √(0.662 + 0.00000739 * (2569 - (2355 - 1 / 10000 : ℝ)) ^ 2) := by positivity
    rw [uscfK, hN]
    generalize √(0.662 + 0.00000739 * (2569 - (2355 - 1 / 10000 : ℝ)) ^ 2) = S at *
    refine div_le_div_of_nonneg_left (by norm_num) (by push_cast; linarith) ?_
    push_cast
    norm_num at h1 ⊢
    linarith
  rw [hE', hK']
  refine lt_max_of_lt_left (max_lt ?_ ?_)
  · have : uscfK (2355 - 1 / 10000) 50 1 * (1 / 2)
        ≤ uscfK (2355 - 1 / 10000) 50 1 * (1 - sigmoid (log 10 / 400 * (2355 - 1 / 10000 - 2355))) :=
      mul_le_mul_of_nonneg_left (by linarith) (by norm_num at hK; linarith)
    norm_num at hK this ⊢
    linarith
  · have : 0 ≤ uscfK (2355 - 1 / 10000) 50 1
        * (1 - sigmoid (log 10 / 400 * (2355 - 1 / 10000 - 2355))) :=
      mul_nonneg (by norm_num at hK; linarith) (by linarith)
    linarith

/-- Glicko rating periods: two new players win both of their games against the same two opponents; the
one who was rated lower ends up 40 points above the other. -/
theorem C147_glicko_period_fails (c : Glicko.GlickoConfig ℝ) : ∃ (a a' b : Glicko.GlickoRating ℝ),
    a.rating < a'.rating ∧ a.deviation = 350 ∧ a'.deviation = 350 ∧
    (Glicko.glickoRatingPeriod a' [(b, .WIN), (b, .WIN)] c).rating + 40
      < (Glicko.glickoRatingPeriod a [(b, .WIN), (b, .WIN)] c).rating := by
  have hg : glickoG 0 = 1 := by simp [glickoG]
  have hon : glickoOnset 350 c.c = 350 := by
    rw [glickoOnset, min_eq_right]
    exact Real.le_sqrt_of_sq_le (by nlinarith [sq_nonneg c.c])
  have hE : ∀ x : ℝ, 0 < x → glickoE (1500 - 400 * logb 10 x) 1500 0 = 1 / (1 + x) := by
    intro x hx
    rw [glickoE, hg, show -(1 * (1500 - 400 * logb 10 x - 1500) / 400) = logb 10 x by ring,
      Real.rpow_logb (by norm_num) (by norm_num) hx]
  have hl10 := log_ten_pos
  have hll : logb 10 9 - logb 10 5 = log (9 / 5) / log 10 := by
    rw [logb, logb, ← sub_div, Real.log_div (by norm_num) (by norm_num)]
  have hl9 : log (9 / 5) ≤ 0.7 := by
    have h1 : log (9 / 5) ≤ log (1.35 ^ 2) := Real.log_le_log (by norm_num) (by norm_num)
    rw [Real.log_pow] at h1
    have := Real.log_le_sub_one_of_pos (by norm_num : (0 : ℝ) < 1.35)
    push_cast at h1
    linarith
  have hlt : logb 10 (5 : ℝ) < logb 10 9 := Real.logb_lt_logb (by norm_num) (by norm_num) (by norm_num)
  refine ⟨⟨1500 - 400 * logb 10 9, 350⟩, ⟨1500 - 400 * logb 10 5, 350⟩, ⟨1500, 0⟩,
    by simp only; linarith, rfl, rfl, ?_⟩
  rw [(Glicko.C29_glicko_period_formula _ _ c (by simp)).1,
    (Glicko.C29_glicko_period_formula _ _ c (by simp)).1]
  simp only [List.map_cons, List.map_nil, List.sum_cons, List.sum_nil, glickoInfo, hg, hE 9 (by norm_num),
    hE 5 (by norm_num), hon, points, posterior]
  have hq1 : 0.00575 < glickoQ := by have := log_ten_gt; rw [glickoQ]; linarith
  have hq2 : glickoQ < 0.00576 := by have := log_ten_lt; rw [glickoQ]; linarith
  have hll' : 400 * (logb 10 9 - logb 10 5) * glickoQ = log (9 / 5) := by
    rw [hll, glickoQ]; field_simp
  generalize glickoQ = q at *
  generalize logb 10 (9 : ℝ) = u at *
  generalize logb 10 (5 : ℝ) = w at *
  have e5 : q * (1 / (1 / 350 ^ 2 + (q ^ 2 * 1 ^ 2 * (1 / (1 + 5)) * (1 - 1 / (1 + 5))
      + (q ^ 2 * 1 ^ 2 * (1 / (1 + 5)) * (1 - 1 / (1 + 5)) + 0))))
      * (1 * (1 - 1 / (1 + 5)) + (1 * (1 - 1 / (1 + 5)) + 0)) ≤ 554 := by
    rw [mul_one_div, div_mul_eq_mul_div, div_le_iff₀ (by positivity)]
    nlinarith
  have e9 : 732 ≤ q * (1 / (1 / 350 ^ 2 + (q ^ 2 * 1 ^ 2 * (1 / (1 + 9)) * (1 - 1 / (1 + 9))
      + (q ^ 2 * 1 ^ 2 * (1 / (1 + 9)) * (1 - 1 / (1 + 9)) + 0))))
      * (1 * (1 - 1 / (1 + 9)) + (1 * (1 - 1 / (1 + 9)) + 0)) := by
    rw [mul_one_div, div_mul_eq_mul_div, le_div_iff₀ (by positivity)]
    nlinarith
  have huw : 400 * (u - w) ≤ 122 := by
    by_contra hc
    nlinarith
  linarith

end Skillratings
