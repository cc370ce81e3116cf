import Mathlib.Analysis.Real.Pi.Bounds
import Verif.Proofs.Elo
import Verif.Proofs.Fifa
import Verif.Props.Dwz
import Verif.Props.Ingo
import Verif.Props.Uscf
import Verif.Props.Glicko
import Verif.Props.WengLin
/-
C161: whether a rating rises exactly if the player scores more than the forecast functions predict.
-/
namespace Skillratings
open Spec Real

/-- `new` is above, at or below `old` exactly as `scored` is above, at or below `forecast`. -/
def MovesWith (old new forecast scored : ℝ) : Prop :=
  (old < new ↔ forecast < scored) ∧ (new < old ↔ scored < forecast)

theorem neg_of_factor {t x : ℝ} (ht : 0 < t) : t * x < 0 ↔ x < 0 := by
  constructor
  · intro h; by_contra h'; exact absurd h (mul_nonneg ht.le (not_lt.1 h')).not_gt
  · exact mul_neg_of_pos_of_neg ht

theorem movesWith_factor {r t f s : ℝ} (ht : 0 < t) : MovesWith r (r + t * (s - f)) f s := by
  constructor
  · rw [lt_add_iff_pos_right, mul_pos_iff_of_pos_left ht, sub_pos]
  · rw [add_lt_iff_neg_left, neg_of_factor ht, sub_neg]

/-! ### Single games -/

theorem C161_elo_game (a b : Elo.EloRating ℝ) (o : Outcomes) (c : Elo.EloConfig ℝ) (hk : 0 < c.k) :
    MovesWith a.rating (Elo.elo a b o c).1.rating (Elo.expectedScore a b).1 (points o) ∧
    MovesWith b.rating (Elo.elo a b o c).2.rating (Elo.expectedScore a b).2 (1 - points o) := by
  simp only [Elo.elo_real, Elo.expectedScore_real]
  rw [add_comm _ a.rating, add_comm _ b.rating]
  exact ⟨movesWith_factor hk, movesWith_factor hk⟩

theorem C161_fifa_game (a b : Fifa.FifaRating ℝ) (o : Outcomes) (k : ℝ) (hk : 0 < k) :
    MovesWith a.rating (Fifa.fifa a b o ⟨k, false, false⟩).1.rating (Fifa.expectedScore a b).1
      (points o) ∧
    MovesWith b.rating (Fifa.fifa a b o ⟨k, false, false⟩).2.rating (Fifa.expectedScore a b).2
      (1 - points o) := by
  simp only [Fifa.fifa_real, Fifa.expectedScore_real, Fifa.guarded, Fifa.credit, Fifa.credit2,
    Bool.false_eq_true, if_false]
  rw [add_comm _ a.rating, add_comm _ b.rating]
  exact ⟨movesWith_factor hk, movesWith_factor hk⟩

theorem C161_wengLin_game (a b : WengLin.WengLinRating ℝ) (o : Outcomes) (c : WengLin.WengLinConfig ℝ)
    (ha : a.uncertainty ≠ 0) (hb : b.uncertainty ≠ 0) :
    MovesWith a.rating (WengLin.wengLin a b o c).1.rating (WengLin.expectedScore a b c).1 (points o) ∧
    MovesWith b.rating (WengLin.wengLin a b o c).2.rating (WengLin.expectedScore a b c).2
      (1 - points o) := by
  simp only [WengLin.wengLin_real, WengLin.expected_real]
  have hc : 0 < wlC c.beta (a.uncertainty ^ 2) (b.uncertainty ^ 2) :=
    WengLin.wlC_pos (sq_nonneg _) (sq_nonneg _) (Or.inl (by positivity))
  exact ⟨movesWith_factor (by positivity), movesWith_factor (by positivity)⟩

/-- Glicko: in a single game the direction agrees with the forecast, although the forecast counts the
player's own deviation and the update does not. -/
theorem C161_glicko_game (a b : Glicko.GlickoRating ℝ) (o : Outcomes) (c : Glicko.GlickoConfig ℝ)
    (ha : 0 < a.deviation) :
    MovesWith a.rating (Glicko.glicko a b o c).1.rating (Glicko.expectedScore a b).1 (points o) := by
  have hv := posterior_pos (v := glickoOnset a.deviation c.c ^ 2)
    (by have := glickoOnset_pos c.c ha; positivity) (glickoInfo_pos a.rating b.rating b.deviation).le
  have hg := glickoG_pos b.deviation
  have hq := glickoQ_pos
  have e1 : (Glicko.glicko a b o c).1.rating = a.rating +
      glickoQ * posterior (glickoOnset a.deviation c.c ^ 2) (glickoInfo a.rating b.rating b.deviation)
        * glickoG b.deviation * (points o - glickoE a.rating b.rating b.deviation) := by
    rw [Glicko.glicko_real]; simp only [Glicko.rated]; ring
  have m := movesWith_factor (r := a.rating) (f := glickoE a.rating b.rating b.deviation)
    (s := points o) (mul_pos (mul_pos hq hv) hg)
  rw [← e1] at m
  have sign : ∀ d : ℝ, (glickoE a.rating b.rating d < 1 / 2 ↔ a.rating < b.rating) ∧
      (1 / 2 < glickoE a.rating b.rating d ↔ b.rating < a.rating) := by
    intro d
    have e0 : (1 / 2 : ℝ) = sigmoid 0 := by rw [sigmoid_zero]; norm_num
    have hgd := glickoG_pos d
    rw [e0, glickoE_eq, sigmoid_lt_iff, sigmoid_lt_iff, neg_of_factor hq,
      neg_of_factor hgd, mul_pos_iff_of_pos_left hq, mul_pos_iff_of_pos_left hgd,
      sub_neg, sub_pos]
    exact ⟨Iff.rfl, Iff.rfl⟩
  refine ⟨m.1.trans ?_, m.2.trans ?_⟩ <;> rw [Glicko.expectedScore_real] <;> dsimp only
  · cases o <;> simp only [points]
    · simp [glickoE_lt_one]
    · exact ⟨fun h => absurd h (glickoE_pos _ _ _).not_gt, fun h => absurd h (glickoE_pos _ _ _).not_gt⟩
    · rw [(sign _).1, (sign _).1]
  · cases o <;> simp only [points]
    · exact ⟨fun h => absurd h (glickoE_lt_one _ _ _).not_gt, fun h => absurd h (glickoE_lt_one _ _ _).not_gt⟩
    · simp [glickoE_pos]
    · rw [(sign _).2, (sign _).2]

/-! ### Rating periods -/

theorem C161_dwz_period (p : Dwz.DWZRating ℝ) (rs : List (Dwz.DWZRating ℝ × Outcomes)) (hr : rs ≠ []) :
    MovesWith p.rating (Dwz.dwzRatingPeriod p rs).rating
      (Dwz.expectedScoreRatingPeriod p (rs.map Prod.fst)).sum (score rs) := by
  have e : (Dwz.expectedScoreRatingPeriod p (rs.map Prod.fst)) =
      rs.map fun r => (Dwz.expectedScore p r.1).1 := by
    simp [Dwz.expectedScoreRatingPeriod, Dwz.expectedScore, List.map_map, Function.comp_def]
  have hl : (0 : ℝ) < rs.length := by exact_mod_cast List.length_pos_iff.2 hr
  rw [e]
  simp only [Dwz.dwzRatingPeriod, toChessPoints_real, Flt.sum_real]
  have hs : (rs.map fun r => points r.2).sum = score rs := rfl
  rw [hs]
  have h0 := Dwz.eValue_nonneg p.rating p.age (score rs)
    (rs.map fun r => (Dwz.expectedScore p r.1).1).sum p.index
  simp only [flt]
  rw [add_comm _ p.rating]
  exact movesWith_factor (by positivity)

/-- Ingo: lower ratings are better. -/
theorem C161_ingo_period (p : Ingo.IngoRating ℝ) (rs : List (Ingo.IngoRating ℝ × Outcomes))
    (hr : rs ≠ []) :
    MovesWith (Ingo.ingoRatingPeriod p rs).rating p.rating
      (Ingo.expectedScoreRatingPeriod p (rs.map Prod.fst)).sum (score rs) := by
  have hl : (0 : ℝ) < rs.length := by exact_mod_cast List.length_pos_iff.2 hr
  have hd : 0 < Ingo.development p.age := by
    unfold Ingo.development; split_ifs <;> norm_num
  have e : (Ingo.expectedScoreRatingPeriod p (rs.map Prod.fst)).sum =
      rs.length / 2 + ((rs.map fun r => r.1.rating).sum - rs.length * p.rating) / 100 := by
    clear hr hl hd
    induction rs with
    | nil => simp [Ingo.expectedScoreRatingPeriod]
    | cons r rs ih =>
      simp only [Ingo.expectedScoreRatingPeriod, List.map_cons, List.sum_cons, List.length_cons,
        flt] at ih ⊢
      rw [ih]; push_cast; ring
  have f : p.rating = (Ingo.ingoRatingPeriod p rs).rating + 100 / (rs.length + Ingo.development p.age)
      * (score rs - (Ingo.expectedScoreRatingPeriod p (rs.map Prod.fst)).sum) := by
    rw [Ingo.C24_ingo_period_formula, e]
    simp only [Ingo.perf]
    field_simp
    ring
  have m := movesWith_factor (r := (Ingo.ingoRatingPeriod p rs).rating)
    (f := (Ingo.expectedScoreRatingPeriod p (rs.map Prod.fst)).sum) (s := score rs)
    (show 0 < 100 / (rs.length + Ingo.development p.age) by positivity)
  rwa [← f] at m

/-- USCF: established players, with the bonus. -/
theorem C161_uscf_period (p : Uscf.USCFRating ℝ) (rs : List (Uscf.USCFRating ℝ × Outcomes))
    (c : Uscf.USCFConfig ℝ) (hg : 9 ≤ p.games) (hr : rs ≠ []) (ht : 0 ≤ c.t) :
    MovesWith p.rating (Uscf.uscfRatingPeriod p rs c).rating
      (Uscf.expectedScoreRatingPeriod p (rs.map Prod.fst)).sum (score rs) := by
  have e := Uscf.C54_uscf_period_established p rs c hg hr
  dsimp only at e
  have hx : (Uscf.expectedScoreRatingPeriod p (rs.map Prod.fst)) =
      rs.map fun r => logisticExpected p.rating r.1.rating := by
    simp [Uscf.expectedScoreRatingPeriod, Uscf.eValue_real, Uscf.logisticExpected_eq, List.map_map,
      Function.comp_def]
  rw [e, hx]
  have hK : 0 < uscfK p.rating p.games rs.length := by
    have := Uscf.uscfEffective_pos p.rating (show 0 < p.games by omega)
    unfold uscfK; positivity
  generalize (rs.map fun r => logisticExpected p.rating r.1.rating).sum = E
  generalize score rs = S
  have hth : 0 ≤ c.t * √(min rs.length 4 : ℕ) := by positivity
  generalize c.t * √(min rs.length 4 : ℕ) = θ at *
  generalize uscfK p.rating p.games rs.length = K at *
  have m := movesWith_factor (r := p.rating) (f := E) (s := S) hK
  have hb : 0 ≤ uscfBonus rs.length (K * (S - E)) θ ∧
      (K * (S - E) ≤ 0 → uscfBonus rs.length (K * (S - E)) θ = 0) := by
    unfold uscfBonus
    split_ifs
    · exact ⟨le_refl _, fun _ => rfl⟩
    · exact ⟨le_max_left _ _, fun h => max_eq_left (by linarith)⟩
  generalize uscfBonus rs.length (K * (S - E)) θ = B at *
  rcases le_or_gt (K * (S - E)) 0 with h | h
  · rw [hb.2 h, add_zero]; exact m
  · have hs : E < S := m.1.1 (by linarith)
    exact ⟨⟨fun _ => hs, fun _ => by linarith [hb.1]⟩,
      ⟨fun h' => absurd h' (by linarith [hb.1]), fun h' => absurd h' (by linarith)⟩⟩

/-- Glicko: over a period the forecast can be beaten and points lost all the same.  A newcomer rated 1900
wins seven of eight games against a well-known player rated 1500. -/
theorem C161_glicko_period_fails (c : Glicko.GlickoConfig ℝ) :
    let p : Glicko.GlickoRating ℝ := ⟨1900, 350⟩
    let rs : List (Glicko.GlickoRating ℝ × Outcomes) :=
      (⟨1500, 0⟩, .LOSS) :: List.replicate 7 (⟨1500, 0⟩, .WIN)
    (Glicko.expectedScoreRatingPeriod p (rs.map Prod.fst)).sum < score rs ∧
      (Glicko.glickoRatingPeriod p rs c).rating < p.rating := by
  intro p rs
  have hq := glickoQ_pos
  have hg0 : glickoG 0 = 1 := by norm_num [glickoG]
  constructor
  · have h1 : Glicko.expectedScoreRatingPeriod p (rs.map Prod.fst) =
        List.replicate 8 (glickoE 1900 1500 350) := by
      have e : ∀ os, Glicko.expectedScoreRatingPeriod p os = os.map fun o => (Glicko.expectedScore p o).1 :=
        fun _ => rfl
      have e2 : (Glicko.expectedScore p ⟨1500, 0⟩).1 = glickoE 1900 1500 350 := by
        rw [Glicko.expectedScore_real]
        simp [p]
      rw [e]
      simp [rs, List.replicate, e2]
    have h2 : glickoE 1900 1500 350 < 7 / 8 := by
      have hq2 : 0.005 < glickoQ := by
        unfold glickoQ
        have h1 : (2 : ℝ) < log 10 := by
          rw [Real.lt_log_iff_exp_lt (by norm_num)]
          have e : exp 2 = exp 1 * exp 1 := by rw [← Real.exp_add]; norm_num
          have := Real.exp_one_lt_d9
          have := Real.exp_pos 1
          nlinarith
        linarith
      have hG : glickoG 350 ≤ 4 / 5 := by
        unfold glickoG
        have hpi : π ^ 2 < 10 := by
          have := Real.pi_lt_d2
          have := Real.pi_pos
          nlinarith
        have hpp : 0 < π ^ 2 := by positivity
        have hq3 : 0.005 ^ 2 < glickoQ ^ 2 := pow_lt_pow_left₀ hq2 (by norm_num) (by norm_num)
        have h5 : (5 / 4 : ℝ) ≤ √(1 + 3 * glickoQ ^ 2 * 350 ^ 2 / π ^ 2) := by
          apply Real.le_sqrt_of_sq_le
          have : (9 / 16 : ℝ) ≤ 3 * glickoQ ^ 2 * 350 ^ 2 / π ^ 2 := by
            rw [le_div_iff₀ hpp]; nlinarith
          linarith
        calc 1 / √(1 + 3 * glickoQ ^ 2 * 350 ^ 2 / π ^ 2) ≤ 1 / (5 / 4) :=
              one_div_le_one_div_of_le (by norm_num) h5
          _ = 4 / 5 := by norm_num
      have h7 : (10 : ℝ) ^ (glickoG 350) < 7 := by
        calc (10 : ℝ) ^ (glickoG 350) ≤ 10 ^ (4 / 5 : ℝ) :=
              Real.rpow_le_rpow_of_exponent_le (by norm_num) hG
          _ < 7 := by
              have : (10 : ℝ) ^ (4 / 5 : ℝ) = (10 ^ 4 : ℝ) ^ (1 / 5 : ℝ) := by
                rw [← Real.rpow_natCast, ← Real.rpow_mul (by norm_num)]; norm_num
              rw [this]
              have k : ((7 : ℝ) ^ 5) ^ (1 / 5 : ℝ) = 7 := by
                rw [← Real.rpow_natCast, ← Real.rpow_mul (by norm_num)]; norm_num
              calc ((10 : ℝ) ^ 4) ^ (1 / 5 : ℝ) < ((7 : ℝ) ^ 5) ^ (1 / 5 : ℝ) :=
                    Real.rpow_lt_rpow (by norm_num) (by norm_num) (by norm_num)
                _ = 7 := k
      have h8 : 0 < (10 : ℝ) ^ (glickoG 350) := Real.rpow_pos_of_pos (by norm_num) _
      have h9 : (10 : ℝ) ^ (-(glickoG 350)) = ((10 : ℝ) ^ (glickoG 350))⁻¹ :=
        Real.rpow_neg (by norm_num) _
      unfold glickoE
      have e : -(glickoG 350 * (1900 - 1500) / 400) = -glickoG 350 := by ring
      rw [e, h9, div_lt_iff₀ (by positivity)]
      have : (1 / 7 : ℝ) < ((10 : ℝ) ^ (glickoG 350))⁻¹ := by
        rw [one_div]; exact inv_strictAnti₀ h8 h7
      linarith
    have h3 : score rs = 7 := by norm_num [score, rs, List.replicate, points]
    rw [h1, h3]
    simp only [List.sum_replicate, nsmul_eq_mul]
    push_cast
    linarith
  · have hE : glickoE 1900 1500 0 = 10 / 11 := by
      simp only [glickoE, hg0]
      norm_num
    rw [Glicko.period_real p rs c (by simp [rs])]
    dsimp only
    have hsum : (rs.map fun r => glickoG r.1.deviation * (points r.2 -
        glickoE p.rating r.1.rating r.1.deviation)).sum = 7 - 80 / 11 := by
      simp only [rs, p, List.replicate, List.map_cons, List.map_nil, List.sum_cons, List.sum_nil,
        hE, hg0, points]
      norm_num
    rw [hsum]
    have hi : 0 ≤ (rs.map fun r => glickoInfo p.rating r.1.rating r.1.deviation).sum :=
      List.sum_nonneg (by
        intro x hx
        obtain ⟨y, _, rfl⟩ := List.mem_map.1 hx
        exact (glickoInfo_pos _ _ _).le)
    have hv := posterior_pos (v := glickoOnset p.deviation c.c ^ 2)
      (by have := glickoOnset_pos c.c (show 0 < p.deviation by norm_num [p]); positivity) hi
    have := mul_pos hq hv
    nlinarith

/-! ### Concrete cases -/

/-- A draw against a stronger opponent. -/
example : (1500 : ℝ) < (Elo.elo ⟨1500⟩ ⟨1600⟩ .DRAW ⟨32⟩ : _ × Elo.EloRating ℝ).1.rating := by
  refine ((C161_elo_game ⟨1500⟩ ⟨1600⟩ .DRAW ⟨32⟩ (by norm_num)).1.1).2 ?_
  rw [Elo.expectedScore_real]
  have : sigmoid (log 10 / 400 * (1500 - 1600)) < sigmoid 0 := by
    rw [sigmoid_lt_iff]
    have := Real.log_pos (show (1 : ℝ) < 10 by norm_num)
    linarith
  rw [sigmoid_zero] at this
  simp only [points]
  linarith

example (p : Uscf.USCFRating ℝ) (rs : List (Uscf.USCFRating ℝ × Outcomes)) (h : 9 ≤ p.games)
    (hr : rs ≠ []) (hw : (Uscf.expectedScoreRatingPeriod p (rs.map Prod.fst)).sum < score rs) :
    p.rating < (Uscf.uscfRatingPeriod p rs ⟨14⟩).rating :=
  (C161_uscf_period p rs ⟨14⟩ h hr (by norm_num)).1.2 hw

end Skillratings
