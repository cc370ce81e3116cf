import Verif.Spec.Fairness
import Verif.Props.Elo
import Verif.Props.Fifa
import Verif.Props.Dwz
import Verif.Props.Egf
import Verif.Props.Ingo
import Verif.Props.Glicko
import Verif.Props.WengLin
/-
C92: the average effect of a game with a random result.
-/
namespace Skillratings
open Spec Real

namespace Spec.Forecast

theorem average_affine (p : Forecast) (f : Outcomes → ℝ) (k d : ℝ)
    (h : ∀ o, f o = k * points o + d) : p.average f = k * p.average points + d := by
  have := p.total
  simp only [average, h]
  linear_combination d * this

theorem average_mono (p : Forecast) {f g : Outcomes → ℝ} (h : ∀ o, f o ≤ g o) :
    p.average f ≤ p.average g := by
  have h1 := mul_le_mul_of_nonneg_left (h .WIN) p.win_nonneg
  have h2 := mul_le_mul_of_nonneg_left (h .DRAW) p.draw_nonneg
  have h3 := mul_le_mul_of_nonneg_left (h .LOSS) p.loss_nonneg
  simp only [average]; linarith

end Spec.Forecast

/-- A forecast with 40 % wins, 30 % draws and 30 % losses: 0.55 points. -/
noncomputable def sampleForecast : Forecast where
  win := 2 / 5
  draw := 3 / 10
  loss := 3 / 10
  win_nonneg := by norm_num
  draw_nonneg := by norm_num
  loss_nonneg := by norm_num
  total := by norm_num

/-- Wins and losses only, with winning probability `e`. -/
noncomputable def bernoulli (e : ℝ) (h0 : 0 ≤ e) (h1 : e ≤ 1) : Forecast where
  win := e
  draw := 0
  loss := 1 - e
  win_nonneg := h0
  draw_nonneg := le_rfl
  loss_nonneg := by linarith
  total := by ring

theorem bernoulli_expects (e : ℝ) (h0 : 0 ≤ e) (h1 : e ≤ 1) :
    (bernoulli e h0 h1).Expects e := by
  simp [Forecast.Expects, Forecast.average, bernoulli, points]

example : sampleForecast.Expects (11 / 20) := by
  norm_num [Forecast.Expects, Forecast.average, sampleForecast, points]

/-- Every number of points between 0 and 1 is expected by some forecast. -/
theorem exists_forecast (e : ℝ) (h0 : 0 ≤ e) (h1 : e ≤ 1) : ∃ p : Forecast, p.Expects e :=
  ⟨_, bernoulli_expects e h0 h1⟩

/-! ### Elo -/

/-- If the results follow the predicted score, both ratings stand still on average. -/
theorem C92_elo_unbiased (a b : Elo.EloRating ℝ) (c : Elo.EloConfig ℝ) (p : Forecast)
    (hp : p.Expects (Elo.expectedScore a b).1) :
    p.average (fun o => (Elo.elo a b o c).1.rating) = a.rating ∧
      p.average (fun o => (Elo.elo a b o c).2.rating) = b.rating := by
  rw [Forecast.Expects, Elo.expectedScore_real] at hp
  simp only [Elo.elo_real]
  constructor
  · rw [p.average_affine _ c.k
      (c.k * -sigmoid (log 10 / 400 * (a.rating - b.rating)) + a.rating) fun o => by ring, hp]
    ring
  · rw [p.average_affine _ (-c.k)
      (c.k * sigmoid (log 10 / 400 * (a.rating - b.rating)) + b.rating) fun o => by ring, hp]
    ring

/-- A rating stands still on average only if the average score is the predicted one: somebody who
really scores more than predicted gains points, `k` times the excess per game. -/
theorem C92_elo_drift (a b : Elo.EloRating ℝ) (c : Elo.EloConfig ℝ) (p : Forecast) (e : ℝ)
    (hp : p.Expects e) :
    p.average (fun o => (Elo.elo a b o c).1.rating)
        = a.rating + c.k * (e - (Elo.expectedScore a b).1) := by
  rw [Forecast.Expects] at hp
  simp only [Elo.elo_real, Elo.expectedScore_real]
  rw [p.average_affine _ c.k
      (c.k * -sigmoid (log 10 / 400 * (a.rating - b.rating)) + a.rating) fun o => by ring, hp]
  ring

/-- A favourite of 400 points who wins ten games of eleven. -/
example : ∃ p : Forecast, p.Expects (Elo.expectedScore (⟨1800⟩ : Elo.EloRating ℝ) ⟨1400⟩).1 :=
  exists_forecast _ (Elo.C01_elo_expected_probability _ _).fst_pos.le
    (Elo.C01_elo_expected_probability _ _).fst_lt_one.le

/-! ### FIFA -/

theorem C92_fifa_unbiased (a b : Fifa.FifaRating ℝ) (c : Fifa.FifaConfig ℝ) (p : Forecast)
    (hp : p.Expects (Fifa.expectedScore a b).1) (hk : c.knockout = false)
    (hs : c.penalties = false) :
    p.average (fun o => (Fifa.fifa a b o c).1.rating) = a.rating ∧
      p.average (fun o => (Fifa.fifa a b o c).2.rating) = b.rating := by
  rw [Forecast.Expects, Fifa.expectedScore_real] at hp
  simp only [Fifa.fifa_real, Fifa.guarded, hk, Fifa.credit, Fifa.credit2, hs, Bool.false_eq_true,
    if_false]
  constructor
  · rw [p.average_affine _ c.importance
      (c.importance * -sigmoid (log 10 / 600 * (a.rating - b.rating)) + a.rating)
      fun o => by ring, hp]
    ring
  · rw [p.average_affine _ (-c.importance)
      (c.importance * sigmoid (log 10 / 600 * (a.rating - b.rating)) + b.rating)
      fun o => by ring, hp]
    ring

/-- The knockout rule inflates: even if the results follow the prediction, both teams gain on
average, strictly if both a win and a loss are possible. -/
theorem C92_fifa_knockout_inflates (a b : Fifa.FifaRating ℝ) (c : Fifa.FifaConfig ℝ)
    (p : Forecast) (hk : c.knockout = true) (hs : c.penalties = false) (hi : 0 < c.importance)
    (hw : 0 < p.win) (hl : 0 < p.loss) :
    a.rating < p.average (fun o => (Fifa.fifa a b o c).1.rating) ∧
      b.rating < p.average (fun o => (Fifa.fifa a b o c).2.rating) := by
  simp only [Fifa.fifa_real, Fifa.guarded, hk, Fifa.credit, Fifa.credit2, hs, Bool.false_eq_true,
    if_false, if_true, Forecast.average]
  have t := p.total
  have s0 := sigmoid_pos (log 10 / 600 * (a.rating - b.rating))
  have s1 := sigmoid_lt_one (log 10 / 600 * (a.rating - b.rating))
  generalize sigmoid (log 10 / 600 * (a.rating - b.rating)) = e at *
  have key : ∀ (r x y z w d l : ℝ), 0 < w → 0 ≤ d → 0 ≤ l → w + d + l = 1 → r < x →
      r < w * max r x + d * max r y + l * max r z := by
    intro r x y z w d l h1 h2 h3 h4 h5
    have m1 : w * r < w * max r x := mul_lt_mul_of_pos_left (lt_max_of_lt_right h5) h1
    have m2 : d * r ≤ d * max r y := mul_le_mul_of_nonneg_left (le_max_left _ _) h2
    have m3 : l * r ≤ l * max r z := mul_le_mul_of_nonneg_left (le_max_left _ _) h3
    have e : w * r + d * r + l * r = r := by rw [← add_mul, ← add_mul, h4, one_mul]
    linarith
  constructor
  · refine key _ _ _ _ _ _ _ hw p.draw_nonneg p.loss_nonneg t ?_
    simp only [points]; nlinarith
  · have := key b.rating (c.importance * (1 - points .LOSS - (1 - e)) + b.rating)
      (c.importance * (1 - points .DRAW - (1 - e)) + b.rating)
      (c.importance * (1 - points .WIN - (1 - e)) + b.rating) p.loss p.draw p.win hl p.draw_nonneg
      p.win_nonneg (by linarith) (by simp only [points]; nlinarith)
    linarith

/-- The forecast above meets the hypotheses. -/
example : 0 < sampleForecast.win ∧ 0 < sampleForecast.loss := by
  norm_num [sampleForecast]

/-! ### Ingo -/

/-- Also the linear expected score of Ingo is the one at which both ratings stand still. -/
theorem C92_ingo_unbiased (a b : Ingo.IngoRating ℝ) (p : Forecast)
    (hp : p.Expects (Ingo.expectedScore a b).1) :
    p.average (fun o => (Ingo.ingo a b o).1.rating) = a.rating ∧
      p.average (fun o => (Ingo.ingo a b o).2.rating) = b.rating := by
  have d1 := Ingo.development_pos a.age
  have d2 := Ingo.development_pos b.age
  have e : (Ingo.expectedScore a b).1 = 1 / 2 + (b.rating - a.rating) / 100 := by
    simp only [Ingo.expectedScore, flt]
  rw [Forecast.Expects, e] at hp
  simp only [fun o => (Ingo.C24_ingo_formula a b o).1, fun o => (Ingo.C24_ingo_formula a b o).2,
    points_mirror, Ingo.perf]
  constructor
  · rw [p.average_affine _ (-100 / (1 + Ingo.development a.age))
      ((b.rating + 50 + Ingo.development a.age * a.rating) / (1 + Ingo.development a.age))
      fun o => by field_simp; ring, hp]
    field_simp; ring
  · rw [p.average_affine _ (100 / (1 + Ingo.development b.age))
      ((a.rating - 50 + Ingo.development b.age * b.rating) / (1 + Ingo.development b.age))
      fun o => by field_simp; ring, hp]
    field_simp; ring

example : sampleForecast.Expects
    (Ingo.expectedScore (⟨100, 30⟩ : Ingo.IngoRating ℝ) ⟨105, 18⟩).1 := by
  have e : (Ingo.expectedScore (⟨100, 30⟩ : Ingo.IngoRating ℝ) ⟨105, 18⟩).1
      = 1 / 2 + (105 - 100) / 100 := by
    simp only [Ingo.expectedScore, flt]
  rw [e]; norm_num [Forecast.Expects, Forecast.average, sampleForecast, points]

/-! ### EGF -/

/-- EGF is biased by its bonus: if the results follow the prediction, the average rating is the
old one plus the bonus, or more because of the floor. -/
theorem C92_egf_inflates (a b : Egf.EGFRating ℝ) (c : Egf.EGFConfig ℝ) (p : Forecast)
    (hp : p.Expects (Egf.expectedScore a b c).1) :
    a.rating + egfBonus a.rating ≤ p.average (fun o => (Egf.egf a b o c).1.rating) ∧
      b.rating + egfBonus b.rating ≤ p.average (fun o => (Egf.egf a b o c).2.rating) ∧
      (-900 ≤ a.rating - egfCon a.rating → 0 ≤ egfCon a.rating →
        p.average (fun o => (Egf.egf a b o c).1.rating) = a.rating + egfBonus a.rating) := by
  rw [Forecast.Expects] at hp
  have hs : (Egf.expectedScore a b c).2 = 1 - (Egf.expectedScore a b c).1 := by
    rw [Egf.expectedScore_real]
  have e1 : (Egf.expectedScore a b c).1 < 1 := by
    rw [Egf.expectedScore_real]; exact sigmoid_lt_one _
  simp only [Egf.egf_real, hs, egfRating]
  generalize (Egf.expectedScore a b c).1 = e at *
  have key1 : p.average (fun o => a.rating + egfCon a.rating * (points o - e) + egfBonus a.rating)
      = a.rating + egfBonus a.rating := by
    rw [p.average_affine _ (egfCon a.rating)
      (a.rating - egfCon a.rating * e + egfBonus a.rating) fun o => by ring, hp]
    ring
  refine ⟨?_, ?_, fun h hc => ?_⟩
  · rw [← key1]
    exact p.average_mono fun o => le_max_left _ _
  · refine le_of_eq_of_le ?_ (p.average_mono (f := fun o =>
      b.rating + egfCon b.rating * (1 - points o - (1 - e)) + egfBonus b.rating)
      fun o => le_max_left _ _)
    rw [p.average_affine _ (-egfCon b.rating)
      (b.rating + egfCon b.rating * e + egfBonus b.rating) fun o => by ring, hp]
    ring
  · rw [← key1]
    congr 1; funext o
    apply max_eq_left
    have := Egf.egfBonus_pos a.rating
    have := points_nonneg o
    nlinarith

/-- A player of 1000 points never touches the floor. -/
example : (-900 : ℝ) ≤ 1000 - egfCon 1000 ∧ 0 ≤ egfCon 1000 := by
  have h : egfCon 1000 ≤ (23 / 2 : ℝ) ^ (2 : ℝ) := by
    unfold egfCon
    rw [show ((3300 : ℝ) - 1000) / 200 = 23 / 2 by norm_num]
    exact Real.rpow_le_rpow_of_exponent_le (by norm_num) (by norm_num)
  norm_num at h
  constructor
  · linarith
  · unfold egfCon; positivity

/-! ### Weng-Lin -/

theorem C92_wengLin_unbiased (a b : WengLin.WengLinRating ℝ) (c : WengLin.WengLinConfig ℝ)
    (p : Forecast) (hp : p.Expects (WengLin.expectedScore a b c).1)
    (ha : 0 < a.uncertainty) (hb : 0 < b.uncertainty) :
    p.average (fun o => (WengLin.wengLin a b o c).1.rating) = a.rating ∧
      p.average (fun o => (WengLin.wengLin a b o c).2.rating) = b.rating := by
  rw [Forecast.Expects, WengLin.expected_real] at hp
  simp only [fun o => WengLin.C88_wengLin_formula a b o c ha hb, wlDelta, points_mirror]
  rw [WengLin.wlC_comm c.beta (b.uncertainty ^ 2), WengLin.wlP_symm _ a.rating b.rating]
  set C := wlC c.beta (a.uncertainty ^ 2) (b.uncertainty ^ 2)
  set P := wlP C a.rating b.rating
  constructor
  · rw [p.average_affine _ (a.uncertainty ^ 2 / C) (a.rating - a.uncertainty ^ 2 / C * P)
      fun o => by ring, hp]
    ring
  · rw [p.average_affine _ (-(b.uncertainty ^ 2 / C)) (b.rating + b.uncertainty ^ 2 / C * P)
      fun o => by ring, hp]
    ring

/-- The same for every member of two teams. -/
theorem C92_wengLin_two_teams_unbiased (s t : List (WengLin.WengLinRating ℝ))
    (c : WengLin.WengLinConfig ℝ) (p : Forecast)
    (hp : p.Expects (WengLin.expectedScoreTwoTeams s t c).1) (hs : s ≠ []) (ht : t ≠ []) (n : ℕ) :
    (∀ x, s[n]? = some x → p.average (fun o =>
        ((WengLin.wengLinTwoTeams s t o c).1[n]?.map fun y => y.rating).getD 0) = x.rating) ∧
      ∀ x, t[n]? = some x → p.average (fun o =>
        ((WengLin.wengLinTwoTeams s t o c).2[n]?.map fun y => y.rating).getD 0) = x.rating := by
  rw [Forecast.Expects, WengLin.expectedTwo_real] at hp
  simp only [fun o => WengLin.C88_wengLin_two_teams_formula s t o c hs ht, wlDelta, wlRating,
    points_mirror]
  change p.average points = wlP (wlC c.beta (t := ((t.map fun p => p.uncertainty ^ 2).sum))
    ((s.map fun p => p.uncertainty ^ 2).sum)) (s.map fun p => p.rating).sum
    (t.map fun p => p.rating).sum at hp
  rw [WengLin.wlC_comm c.beta (t.map fun p => p.uncertainty ^ 2).sum,
    WengLin.wlP_symm _ (s.map fun p => p.rating).sum (t.map fun p => p.rating).sum]
  set V := (s.map fun p => p.uncertainty ^ 2).sum
  set W := (t.map fun p => p.uncertainty ^ 2).sum
  set C := wlC c.beta V W
  set P := wlP C (s.map fun p => p.rating).sum (t.map fun p => p.rating).sum
  constructor
  · intro x hx
    simp only [List.getElem?_map, hx, Option.map_some, Option.getD_some]
    rw [p.average_affine _ (x.uncertainty ^ 2 / V * (V / C))
      (x.rating - x.uncertainty ^ 2 / V * (V / C) * P) fun o => by ring, hp]
    ring
  · intro x hx
    simp only [List.getElem?_map, hx, Option.map_some, Option.getD_some]
    rw [p.average_affine _ (-(x.uncertainty ^ 2 / W * (W / C)))
      (x.rating + x.uncertainty ^ 2 / W * (W / C) * P) fun o => by ring, hp]
    ring

example (a b : WengLin.WengLinRating ℝ) (c : WengLin.WengLinConfig ℝ) :
    ∃ p : Forecast, p.Expects (WengLin.expectedScore a b c).1 :=
  exists_forecast _ (WengLin.C58_wengLin_expected_probability a b c).fst_pos.le
    (WengLin.C58_wengLin_expected_probability a b c).fst_lt_one.le

/-! ### Glicko -/

/-- Glicko stands still at the score that `expected_score` predicts for a player without
uncertainty of their own. -/
theorem C92_glicko_unbiased (a b : Glicko.GlickoRating ℝ) (c : Glicko.GlickoConfig ℝ)
    (p : Forecast) (hp : p.Expects (Glicko.expectedScore { a with deviation := 0 } b).1) :
    p.average (fun o => (Glicko.glicko a b o c).1.rating) = a.rating := by
  rw [Forecast.Expects, Glicko.expectedScore_real] at hp
  have hE : glickoE a.rating b.rating √((0 : ℝ) ^ 2 + b.deviation ^ 2)
      = glickoE a.rating b.rating b.deviation := by
    have hG : glickoG √((0 : ℝ) ^ 2 + b.deviation ^ 2) = glickoG b.deviation := by
      unfold glickoG
      rw [Real.sq_sqrt (by positivity)]; simp
    rw [glickoE, glickoE, hG]
  simp only [hE] at hp
  simp only [Glicko.glicko_real, Glicko.rated]
  set e := glickoE a.rating b.rating b.deviation
  set k := glickoQ * posterior (glickoOnset a.deviation c.c ^ 2)
    (glickoInfo a.rating b.rating b.deviation)
  rw [p.average_affine _ (k * glickoG b.deviation)
    (a.rating - k * glickoG b.deviation * e) fun o => by ring, hp]
  ring

/-- But the score that `expected_score` predicts for the player as they are includes their own
uncertainty: a favourite who scores exactly as predicted loses rating on average. -/
theorem C92_glicko_favourite_drifts_down (a b : Glicko.GlickoRating ℝ) (c : Glicko.GlickoConfig ℝ)
    (p : Forecast) (hp : p.Expects (Glicko.expectedScore a b).1) (ha : 0 < a.deviation)
    (hf : b.rating < a.rating) :
    p.average (fun o => (Glicko.glicko a b o c).1.rating) < a.rating := by
  rw [Forecast.Expects, Glicko.expectedScore_real] at hp
  simp only at hp
  have hq := glickoQ_pos
  have hE : glickoE a.rating b.rating √(a.deviation ^ 2 + b.deviation ^ 2)
      < glickoE a.rating b.rating b.deviation := by
    rw [glickoE_eq, glickoE_eq, sigmoid_lt_iff]
    have hG : glickoG √(a.deviation ^ 2 + b.deviation ^ 2) < glickoG b.deviation := by
      apply glickoG_lt_of_sq_lt
      rw [Real.sq_sqrt (by positivity)]
      have : 0 < a.deviation ^ 2 := by positivity
      linarith
    have : 0 < a.rating - b.rating := by linarith
    gcongr
  have h1 := posterior_pos (pow_pos (glickoOnset_pos c.c ha) 2)
    (glickoInfo_pos a.rating b.rating b.deviation).le
  have h2 := glickoG_pos b.deviation
  simp only [Glicko.glicko_real, Glicko.rated]
  set e := glickoE a.rating b.rating b.deviation
  set k := glickoQ * posterior (glickoOnset a.deviation c.c ^ 2)
    (glickoInfo a.rating b.rating b.deviation)
  have hk : 0 < k := mul_pos hq h1
  rw [p.average_affine _ (k * glickoG b.deviation)
    (a.rating - k * glickoG b.deviation * e) fun o => by ring, hp]
  have : 0 < k * glickoG b.deviation := mul_pos hk h2
  nlinarith

example : ∃ p : Forecast, p.Expects
    (Glicko.expectedScore (⟨1700, 200⟩ : Glicko.GlickoRating ℝ) ⟨1500, 50⟩).1 :=
  exists_forecast _ (Glicko.C28_glicko_expected_probability _ _).fst_pos.le
    (Glicko.C28_glicko_expected_probability _ _).fst_lt_one.le

/-! ### DWZ -/

/-- The development coefficient of a result that is not better than expected is at least the one of
a better result, for adults and for youths up to 2000 points. -/
theorem coefficient_le {r : ℝ} {age i : ℕ} {s e s' : ℝ} (h : 20 ≤ age ∨ 0 ≤ r ∧ r ≤ 2000)
    (hi : 1 ≤ i) (hs : e < s) (hs' : s' < e) :
    dwzCoefficient r age s e i ≤ dwzCoefficient r age s' e i := by
  have hn1 : ¬ s ≤ e := not_le.2 hs
  have hn2 : ¬ e ≤ s' := not_le.2 hs'
  have i1 : (1 : ℝ) ≤ i := by exact_mod_cast hi
  simp only [dwzCoefficient, hs.le, hs'.le, hn1, hn2, and_true, and_false, if_false, if_true]
  have hx : (if age < 20 then r / 2000 else 1 : ℝ)
      * ((r / 1000) ^ 4 + (if age ≤ 20 then 5 else if age ≤ 25 then 10 else 15))
      ≤ (r / 1000) ^ 4 + (if age ≤ 20 then 5 else if age ≤ 25 then 10 else 15) := by
    have hp : (0 : ℝ) ≤ (r / 1000) ^ 4 + (if age ≤ 20 then 5 else if age ≤ 25 then 10 else 15) := by
      have : (0 : ℝ) ≤ (r / 1000) ^ 4 := by positivity
      split_ifs <;> linarith
    apply mul_le_of_le_one_left hp
    split_ifs with hage
    · rcases h with h | h
      · omega
      · linarith [h.2]
    · exact le_rfl
  set x := (r / 1000) ^ 4 + (if age ≤ 20 then 5 else if age ≤ 25 then 10 else 15 : ℝ)
  set y := (if age < 20 then r / 2000 else 1 : ℝ) * x
  have e1 : max 5 (min (y + 0) (min 30 (5 * (i : ℝ)))) ≤ max 5 (min x (min 30 (5 * (i : ℝ)))) := by
    gcongr; linarith
  have hexp : r < 1300 → 0 < exp ((1300 - r) / 150) - 1 := by
    intro hr
    have : 0 < (1300 - r) / 150 := by linarith
    have := Real.add_one_lt_exp this.ne'
    linarith
  by_cases hr : r < 1300
  · have h0 := hexp hr
    simp only [hr, if_true, h0.ne', if_false, one_mul]
    refine e1.trans ?_
    apply max_le_max le_rfl
    apply le_min
    · exact (min_le_left _ _).trans (by linarith)
    · exact (min_le_right _ _).trans ((min_le_left _ _).trans (by norm_num))
  · simp only [hr, if_false, if_true, one_mul, add_zero]
    simpa using e1

theorem coefficient_ge (r : ℝ) (age i : ℕ) (s e : ℝ) : 5 ≤ dwzCoefficient r age s e i := by
  simp only [dwzCoefficient]
  split_ifs <;> exact le_max_left _ _

/-- DWZ does not deflate: for adults, and for youths with 0 to 2000 points, the average rating after
a game that follows the prediction is at least the old one. -/
theorem C92_dwz_no_deflation (a b : Dwz.DWZRating ℝ) (p : Forecast)
    (hp : p.Expects (Dwz.expectedScore a b).1) (hi : 1 ≤ a.index)
    (h : 20 ≤ a.age ∨ 0 ≤ a.rating ∧ a.rating ≤ 2000) :
    a.rating ≤ p.average (fun o => (Dwz.dwz a b o).1.rating) := by
  rw [Forecast.Expects] at hp
  have P := Dwz.C12_dwz_expected_probability a b
  have e0 := P.fst_pos
  have e1 := P.fst_lt_one
  simp only [Dwz.dwz_fst_real, Dwz.eValue_spec _ _ _ _ _ hi]
  generalize (Dwz.expectedScore a b).1 = e at *
  simp only [Forecast.average, points] at hp ⊢
  have w0 := p.win_nonneg
  have d0 := p.draw_nonneg
  have l0 := p.loss_nonneg
  have t := p.total
  have hK : ∀ s s', e < s → s' < e →
      800 / (dwzCoefficient a.rating a.age s' e a.index + 1)
        ≤ 800 / (dwzCoefficient a.rating a.age s e a.index + 1) := by
    intro s s' h1 h2
    have := coefficient_le h hi h1 h2
    have := coefficient_ge a.rating a.age a.index s e
    gcongr
  have hW := hK 1 0 e1 e0
  have c0 : 0 < 800 / (dwzCoefficient a.rating a.age 0 e a.index + 1) := by
    have := coefficient_ge a.rating a.age a.index 0 e
    positivity
  -- the draw is compared with a win if it is bad and with a loss if it is good
  have key : 800 / (dwzCoefficient a.rating a.age 0 e a.index + 1) * (1 / 2 - e)
      ≤ 800 / (dwzCoefficient a.rating a.age (1 / 2) e a.index + 1) * (1 / 2 - e) ∨
      800 / (dwzCoefficient a.rating a.age 1 e a.index + 1) * (1 / 2 - e)
      ≤ 800 / (dwzCoefficient a.rating a.age (1 / 2) e a.index + 1) * (1 / 2 - e) := by
    rcases lt_trichotomy e (1 / 2) with h' | h' | h'
    · left
      exact mul_le_mul_of_nonneg_right (hK _ _ h' e0) (by linarith)
    · left; simp [h']
    · right
      exact mul_le_mul_of_nonpos_right (hK _ _ e1 h') (by linarith)
  set K1 := 800 / (dwzCoefficient a.rating a.age 1 e a.index + 1)
  set K0 := 800 / (dwzCoefficient a.rating a.age 0 e a.index + 1)
  set Kd := 800 / (dwzCoefficient a.rating a.age (1 / 2) e a.index + 1)
  have A : p.loss * (K0 * e) ≤ p.loss * (K1 * e) :=
    mul_le_mul_of_nonneg_left (mul_le_mul_of_nonneg_right hW e0.le) l0
  have B : p.win * (K0 * (1 - e)) ≤ p.win * (K1 * (1 - e)) :=
    mul_le_mul_of_nonneg_left (mul_le_mul_of_nonneg_right hW (by linarith)) w0
  have hl : p.loss = 1 - p.win - p.draw := by linarith
  rcases key with key | key
  · have D := mul_le_mul_of_nonneg_left key d0
    have z : p.win * (K0 * (1 - e)) + p.draw * (K0 * (1 / 2 - e)) + p.loss * (K0 * (0 - e)) = 0 := by
      rw [hl, ← hp]; ring
    linear_combination B + D - z - a.rating * t
  · have D := mul_le_mul_of_nonneg_left key d0
    have z : p.win * (K1 * (1 - e)) + p.draw * (K1 * (1 / 2 - e)) + p.loss * (K1 * (0 - e)) = 0 := by
      rw [hl, ← hp]; ring
    linear_combination A + D - z - a.rating * t

/-- The youth factor works against strong youths: above 2000 points a good result has the larger
coefficient. -/
theorem coefficient_youth {r : ℝ} {age i : ℕ} {s e s' : ℝ} (h : age < 20) (hr : 2000 ≤ r)
    (hs : e < s) (hs' : s' < e) :
    dwzCoefficient r age s' e i ≤ dwzCoefficient r age s e i := by
  have hn1 : ¬ s ≤ e := not_le.2 hs
  have hn2 : ¬ e ≤ s' := not_le.2 hs'
  have hn3 : ¬ r < 1300 := by linarith
  simp only [dwzCoefficient, hs.le, hs'.le, hn1, hn2, hn3, h, h.le, and_true, and_false, false_and,
    if_false, if_true]
  have hp : (0 : ℝ) ≤ (r / 1000) ^ 4 + 5 := by positivity
  gcongr
  linarith

/-- For youths of 2000 points or more it is the other way round: the average rating after a game
that follows the prediction is at most the old one. -/
theorem C92_dwz_strong_youth_deflates (a b : Dwz.DWZRating ℝ) (p : Forecast)
    (hp : p.Expects (Dwz.expectedScore a b).1) (hi : 1 ≤ a.index) (h : a.age < 20)
    (hr : 2000 ≤ a.rating) :
    p.average (fun o => (Dwz.dwz a b o).1.rating) ≤ a.rating := by
  rw [Forecast.Expects] at hp
  have P := Dwz.C12_dwz_expected_probability a b
  have e0 := P.fst_pos
  have e1 := P.fst_lt_one
  simp only [Dwz.dwz_fst_real, Dwz.eValue_spec _ _ _ _ _ hi]
  generalize (Dwz.expectedScore a b).1 = e at *
  simp only [Forecast.average, points] at hp ⊢
  have w0 := p.win_nonneg
  have d0 := p.draw_nonneg
  have l0 := p.loss_nonneg
  have t := p.total
  have hK : ∀ s s', e < s → s' < e →
      800 / (dwzCoefficient a.rating a.age s e a.index + 1)
        ≤ 800 / (dwzCoefficient a.rating a.age s' e a.index + 1) := by
    intro s s' h1 h2
    have := coefficient_youth (i := a.index) h hr h1 h2
    have := coefficient_ge a.rating a.age a.index s' e
    gcongr
  have hW := hK 1 0 e1 e0
  have key : 800 / (dwzCoefficient a.rating a.age (1 / 2) e a.index + 1) * (1 / 2 - e)
      ≤ 800 / (dwzCoefficient a.rating a.age 0 e a.index + 1) * (1 / 2 - e) ∨
      800 / (dwzCoefficient a.rating a.age (1 / 2) e a.index + 1) * (1 / 2 - e)
      ≤ 800 / (dwzCoefficient a.rating a.age 1 e a.index + 1) * (1 / 2 - e) := by
    rcases lt_trichotomy e (1 / 2) with h' | h' | h'
    · left
      exact mul_le_mul_of_nonneg_right (hK _ _ h' e0) (by linarith)
    · left; simp [h']
    · right
      exact mul_le_mul_of_nonpos_right (hK _ _ e1 h') (by linarith)
  set K1 := 800 / (dwzCoefficient a.rating a.age 1 e a.index + 1)
  set K0 := 800 / (dwzCoefficient a.rating a.age 0 e a.index + 1)
  set Kd := 800 / (dwzCoefficient a.rating a.age (1 / 2) e a.index + 1)
  have A : p.loss * (K1 * e) ≤ p.loss * (K0 * e) :=
    mul_le_mul_of_nonneg_left (mul_le_mul_of_nonneg_right hW e0.le) l0
  have B : p.win * (K1 * (1 - e)) ≤ p.win * (K0 * (1 - e)) :=
    mul_le_mul_of_nonneg_left (mul_le_mul_of_nonneg_right hW (by linarith)) w0
  have hl : p.loss = 1 - p.win - p.draw := by linarith
  rcases key with key | key
  · have D := mul_le_mul_of_nonneg_left key d0
    have z : p.win * (K0 * (1 - e)) + p.draw * (K0 * (1 / 2 - e)) + p.loss * (K0 * (0 - e)) = 0 := by
      rw [hl, ← hp]; ring
    linear_combination B + D + z + a.rating * t
  · have D := mul_le_mul_of_nonneg_left key d0
    have z : p.win * (K1 * (1 - e)) + p.draw * (K1 * (1 / 2 - e)) + p.loss * (K1 * (0 - e)) = 0 := by
      rw [hl, ← hp]; ring
    linear_combination A + D + z + a.rating * t

example : ∃ p : Forecast, p.Expects
    (Dwz.expectedScore (⟨1100, 3, 15⟩ : Dwz.DWZRating ℝ) ⟨1300, 9, 40⟩).1 :=
  exists_forecast _ (Dwz.C12_dwz_expected_probability _ _).fst_pos.le
    (Dwz.C12_dwz_expected_probability _ _).fst_lt_one.le

end Skillratings
