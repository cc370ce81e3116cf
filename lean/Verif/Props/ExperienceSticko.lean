import Verif.Props.Experience
import Verif.Props.Sticko
/-
C149 for Sticko.  The pull towards the opponents is the same for everybody, so the less established
player moves further from the rating that the pull alone would give.
-/
namespace Skillratings
open Spec Real Sticko

/-- Two players of the same rating and different deviations, the same games. -/
theorem sticko_update_experience (P : StickoParams) (r : ℝ) {d d' : ℝ} (xs : List StickoGame)
    (h0 : 0 < d) (h : d ≤ d') (hh : 0 ≤ P.h) :
    (stickoUpdate P r d xs).1 ∈
      Set.uIcc (r + P.lambda / 100 * ((xs.map StickoGame.rating).sum / xs.length - r))
        (stickoUpdate P r d' xs).1 ∧
    (stickoUpdate P r d xs).2 ≤ (stickoUpdate P r d' xs).2 := by
  have ho := glickoOnset_pos P.c h0
  have hm := onset_mono P.c h0 h
  have hp := pow_le_pow_left₀ ho.le hm 2
  have hi : 0 ≤ (xs.map (stickoInfo P r)).sum := List.sum_nonneg (by
    intro x hx
    obtain ⟨y, _, rfl⟩ := List.mem_map.1 hx
    exact (stickoInfo_pos _ _ _).le)
  have hv := est_posterior_mono (v := glickoOnset d P.c ^ 2) (by positivity) hp hi
  have hw := est_posterior_mono (v := glickoOnset d P.c ^ 2 + P.h * xs.length)
    (v' := glickoOnset d' P.c ^ 2 + P.h * xs.length) (by positivity) (by linarith) hi
  have hq := glickoQ_pos
  constructor
  · simp only [stickoUpdate]
    rw [add_right_comm r (glickoQ * posterior (glickoOnset d P.c ^ 2) _ * _),
      add_right_comm r (glickoQ * posterior (glickoOnset d' P.c ^ 2) _ * _)]
    exact factor_less (mul_nonneg hq.le hv.1) (mul_le_mul_of_nonneg_left hv.2 hq.le)
  · exact min_le_min_right _ (Real.sqrt_le_sqrt hw.2)

/-- A single game, either seat: measured from the pulled rating. -/
theorem C149_sticko_game (a a' b : StickoRating ℝ) (o : Outcomes) (c : StickoConfig ℝ)
    (hr : a'.rating = a.rating) (h0 : 0 < a.deviation) (h : a.deviation ≤ a'.deviation)
    (hh : 0 ≤ c.h) :
    let pulled := a.rating + c.lambda / 100 * (b.rating - a.rating)
    (sticko a b o c).1.rating ∈ Set.uIcc pulled (sticko a' b o c).1.rating ∧
    (sticko a b o c).1.deviation ≤ (sticko a' b o c).1.deviation ∧
    (sticko b a o c).2.rating ∈ Set.uIcc pulled (sticko b a' o c).2.rating ∧
    (sticko b a o c).2.deviation ≤ (sticko b a' o c).2.deviation := by
  have k1 := sticko_update_experience (params c) a.rating [game (b, o, true)] h0 h hh
  have k2 := sticko_update_experience (params c) a.rating [game (b, mirror o, false)] h0 h hh
  simp only [List.map_cons, List.map_nil, List.sum_cons, List.sum_nil, add_zero,
    List.length_singleton, Nat.cast_one, div_one, game, params] at k1 k2
  simp only [sticko_real, hr, game, params]
  exact ⟨k1.1, k1.2, k2.1, k2.2⟩

/-- A rating period with any number of games, measured from the pulled rating. -/
theorem C149_sticko_period (a a' : StickoRating ℝ) (rs : List (StickoRating ℝ × Outcomes × Bool))
    (c : StickoConfig ℝ) (hrs : rs ≠ []) (hr : a'.rating = a.rating) (h0 : 0 < a.deviation)
    (h : a.deviation ≤ a'.deviation) (hh : 0 ≤ c.h) :
    let mean := (rs.map fun r => r.1.rating).sum / rs.length
    (stickoRatingPeriod a rs c).rating ∈
      Set.uIcc (a.rating + c.lambda / 100 * (mean - a.rating)) (stickoRatingPeriod a' rs c).rating ∧
    (stickoRatingPeriod a rs c).deviation ≤ (stickoRatingPeriod a' rs c).deviation := by
  have k := sticko_update_experience (params c) a.rating (rs.map game) h0 h hh
  rw [List.map_map, List.length_map] at k
  simp only [period_real _ rs c hrs, hr]
  exact k

/-- With the pull the directions can differ (default configuration): a win against an opponent 400 points below lowers the
rating of an established player and raises that of a newcomer. -/
theorem C149_sticko_pull_opposite :
    let c : StickoConfig ℝ := StickoConfig.new
    (sticko ⟨1500, 10⟩ ⟨1100, 0⟩ .WIN c).1.rating < 1500 ∧
      1500 < (sticko ⟨1500, 350⟩ ⟨1100, 0⟩ .WIN c).1.rating := by
  intro c
  have hc1 : c.beta = 0 := by simp only [c, StickoConfig.new, flt]
  have hc2 : c.lambda = 2 := by simp only [c, StickoConfig.new, flt]
  have hc3 : c.gamma = 0 := by simp only [c, StickoConfig.new, flt]
  have hc4 : c.c = 10 := by simp only [c, StickoConfig.new, flt]
  have hq := glickoQ_pos
  have hq1 := glickoQ_lt
  have hq2 : 0.005 < glickoQ := by
    unfold glickoQ
    have h1 : (2 : ℝ) < log 10 := by
      rw [Real.lt_log_iff_exp_lt (by norm_num)]
      have e : exp 2 = exp 1 * exp 1 := by rw [← Real.exp_add]; norm_num
      have := Real.exp_one_lt_d9
      have := Real.exp_pos 1
      nlinarith
    linarith
  have hE : stickoE (params c) 1500 ⟨1100, 0, 1, true⟩ = 10 / 11 := by
    simp only [stickoE, glickoE, glickoG, params, hc3, colour]
    norm_num
  have hg : glickoG 0 = 1 := by norm_num [glickoG]
  have hi : stickoInfo (params c) 1500 ⟨1100, 0, 1, true⟩ = glickoQ ^ 2 * (10 / 121) := by
    rw [stickoInfo, hE, hg]; ring
  have key : ∀ d : ℝ, (sticko ⟨1500, d⟩ ⟨1100, 0⟩ .WIN c).1.rating =
      1500 + glickoQ * posterior (glickoOnset d 10 ^ 2) (glickoQ ^ 2 * (10 / 121)) / 11 - 8 := by
    intro d
    rw [sticko_real]
    simp only [stickoUpdate, game, points, List.map_cons, List.map_nil, List.sum_cons,
      List.sum_nil, add_zero, List.length_singleton, hE, hi, hg]
    rw [show (params c).c = 10 from hc4, show (params c).beta = 0 from hc1,
      show (params c).lambda = 2 from hc2]
    norm_num
    ring
  have o1 : glickoOnset 10 10 ^ 2 ≤ 200 := by
    have h1 : glickoOnset 10 10 ≤ √(10 ^ 2 + 10 ^ 2) := min_le_left _ _
    have h2 := pow_le_pow_left₀ (glickoOnset_pos 10 (show (0 : ℝ) < 10 by norm_num)).le h1 2
    rw [Real.sq_sqrt (by norm_num)] at h2
    linarith
  have o2 : glickoOnset 350 10 = 350 :=
    min_eq_right (Real.le_sqrt' (by norm_num) |>.2 (by norm_num))
  have o3 := glickoOnset_pos 10 (show (0 : ℝ) < 10 by norm_num)
  rw [key 10, key 350, o2]
  have hs : 0 ≤ glickoQ ^ 2 * (10 / 121) := by positivity
  constructor
  · have h1 : posterior (glickoOnset 10 10 ^ 2) (glickoQ ^ 2 * (10 / 121)) ≤ 200 := by
      have h2 : 1 / 200 ≤ 1 / glickoOnset 10 10 ^ 2 :=
        one_div_le_one_div_of_le (by positivity) o1
      rw [posterior, div_le_iff₀ (by positivity)]; linarith
    have h2 : glickoQ * posterior (glickoOnset 10 10 ^ 2) (glickoQ ^ 2 * (10 / 121))
        ≤ glickoQ * 200 := mul_le_mul_of_nonneg_left h1 hq.le
    linarith
  · have hsq : glickoQ ^ 2 < 0.0057565 ^ 2 := pow_lt_pow_left₀ hq1 hq.le (by norm_num)
    have h1 : 80000 ≤ posterior ((350 : ℝ) ^ 2) (glickoQ ^ 2 * (10 / 121)) := by
      rw [posterior, le_div_iff₀ (by positivity)]
      nlinarith
    have h2 : glickoQ * 80000 ≤ glickoQ * posterior ((350 : ℝ) ^ 2) (glickoQ ^ 2 * (10 / 121)) :=
      mul_le_mul_of_nonneg_left h1 hq.le
    linarith

/-- Without pull: the same direction, as with Glicko. -/
example (o : Outcomes) (b : StickoRating ℝ) :
    (sticko ⟨1500, 50⟩ b o ⟨10, 0, 0, 30, 10⟩).1.rating ∈
      Set.uIcc 1500 (sticko ⟨1500, 350⟩ b o ⟨10, 0, 0, 30, 10⟩).1.rating := by
  simpa using (C149_sticko_game ⟨1500, 50⟩ ⟨1500, 350⟩ b o ⟨10, 0, 0, 30, 10⟩ rfl (by norm_num)
    (by norm_num) (by norm_num)).1

example (rs : List (StickoRating ℝ × Outcomes × Bool)) (hrs : rs ≠ [])
    (c : StickoConfig ℝ) (hc : 0 ≤ c.h) :
    (stickoRatingPeriod ⟨1500, 50⟩ rs c).deviation ≤ (stickoRatingPeriod ⟨1500, 350⟩ rs c).deviation :=
  (C149_sticko_period ⟨1500, 50⟩ ⟨1500, 350⟩ rs c hrs rfl (by norm_num) (by norm_num) hc).2

end Skillratings
