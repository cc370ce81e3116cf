import Verif.Proofs.WlStable
import Verif.Props.PeriodOrder
import Verif.Props.FloatAccuracyWengLin
/-
C137: Weng-Lin games and rating periods are stable: a small change of the player's rating and
uncertainty, such as a rounding error, stays small.
-/

namespace Skillratings
open Spec

namespace WengLin

theorem step_eq (p q : WengLinRating ℝ) (o : Outcomes) (cfg : WengLinConfig ℝ) (hp : 0 < p.uncertainty) :
    let D := q.uncertainty ^ 2 + 2 * cfg.beta ^ 2
    let c := tot D p.uncertainty
    periodStep cfg p (q, o) = ⟨p.rating + p.uncertainty ^ 2 / c * (points o - Real.sigmoid ((p.rating - q.rating) / c)),
      max (p.uncertainty * √(1 - (p.uncertainty / c) ^ 3 * (Real.sigmoid ((p.rating - q.rating) / c)
        * (1 - Real.sigmoid ((p.rating - q.rating) / c))))) (p.uncertainty * √cfg.uncertaintyTolerance)⟩ := by
  intro D c
  have h := periodStep_real p q o cfg
  have e : wlC cfg.beta (p.uncertainty ^ 2) (q.uncertainty ^ 2) = c := by
    rw [wlC]; simp only [c, tot, D]; rw [add_assoc]
  rw [h, e]
  simp only [wlP_eq]
  rw [← sqrt_max hp.le, mul_assoc]

/-- The uncertainty stays positive. -/
theorem step_pos (p q : WengLinRating ℝ) (o : Outcomes) (cfg : WengLinConfig ℝ) (hp : 0 < p.uncertainty) :
    0 < (periodStep cfg p (q, o)).uncertainty := by
  rw [step_eq p q o cfg hp]
  refine lt_max_of_lt_left (mul_pos hp (Real.sqrt_pos.2 ?_))
  have hD : 0 ≤ q.uncertainty ^ 2 + 2 * cfg.beta ^ 2 := by positivity
  have hc := tot_pos hD hp
  have h1 := pow_le_one₀ (div_nonneg hp.le hc.le) ((div_le_one hc).2 (le_tot hD hp)) (n := 3)
  have h2 := sigmoid_var ((p.rating - q.rating) / tot (q.uncertainty ^ 2 + 2 * cfg.beta ^ 2) p.uncertainty)
  have := mul_le_mul h1 h2.2 h2.1 (by norm_num)
  linarith

/-- Two players who meet the same opponent with the same result: their distance `|Δ rating| +
4 |Δ uncertainty|` grows at most by the factor 1.6. -/
theorem C137_wengLin_game_stable (p p' q : WengLinRating ℝ) (o : Outcomes) (cfg : WengLinConfig ℝ)
    (hp : 0 < p.uncertainty) (hp' : 0 < p'.uncertainty) (hκ : cfg.uncertaintyTolerance ≤ 1) :
    |(wengLin p q o cfg).1.rating - (wengLin p' q o cfg).1.rating|
        + 4 * |(wengLin p q o cfg).1.uncertainty - (wengLin p' q o cfg).1.uncertainty|
      ≤ 8 / 5 * (|p.rating - p'.rating| + 4 * |p.uncertainty - p'.uncertainty|) := by
  change |(periodStep cfg p (q, o)).rating - (periodStep cfg p' (q, o)).rating|
        + 4 * |(periodStep cfg p (q, o)).uncertainty - (periodStep cfg p' (q, o)).uncertainty| ≤ _
  rw [step_eq p q o cfg hp, step_eq p' q o cfg hp']
  have hD : 0 ≤ q.uncertainty ^ 2 + 2 * cfg.beta ^ 2 := by positivity
  simp only
  set D := q.uncertainty ^ 2 + 2 * cfg.beta ^ 2
  set r := p.rating
  set r' := p'.rating
  set s := p.uncertainty
  set s' := p'.uncertainty
  set x := points o
  have a1 := gain_rating (x := x) hD hp r r' q.rating
  have a2 := gain_lip (d := r' - q.rating) (x := x) hD ⟨points_nonneg o, points_le_one o⟩ hp hp'
  have a3 := shrink_rating hD hp r r' q.rating
  have a4 := shrink_lip (d := r' - q.rating) hD hp hp'
  have hκ' : √cfg.uncertaintyTolerance ≤ 1 := Real.sqrt_le_one.2 hκ
  have b1 : |(r + s ^ 2 / tot D s * (x - Real.sigmoid ((r - q.rating) / tot D s)))
      - (r' + s' ^ 2 / tot D s' * (x - Real.sigmoid ((r' - q.rating) / tot D s')))|
      ≤ |r - r'| + 1.34 * |s - s'| := by
    refine le_trans ?_ (add_le_add a1 a2)
    refine le_trans (le_of_eq ?_) (abs_add_le _ _)
    congr 1; ring
  have b2 : |max (s * √(1 - (s / tot D s) ^ 3 * (Real.sigmoid ((r - q.rating) / tot D s)
        * (1 - Real.sigmoid ((r - q.rating) / tot D s))))) (s * √cfg.uncertaintyTolerance)
      - max (s' * √(1 - (s' / tot D s') ^ 3 * (Real.sigmoid ((r' - q.rating) / tot D s')
        * (1 - Real.sigmoid ((r' - q.rating) / tot D s'))))) (s' * √cfg.uncertaintyTolerance)|
      ≤ 0.145 * |r - r'| + 1.25 * |s - s'| := by
    refine (abs_max_sub_max_le_max _ _ _ _).trans (max_le ?_ ?_)
    · refine le_trans ?_ (add_le_add a3 a4)
      refine le_trans (le_of_eq ?_) (abs_add_le _ _)
      congr 1; ring
    · rw [← sub_mul, abs_mul, abs_of_nonneg (Real.sqrt_nonneg _)]
      have := mul_le_of_le_one_right (abs_nonneg (s - s')) hκ'
      have := abs_nonneg (s - s')
      have := abs_nonneg (r - r')
      norm_num; linarith
  have := abs_nonneg (s - s')
  have := abs_nonneg (r - r')
  norm_num at b1 b2 ⊢
  linarith

/-- A rating period of `n` games: the distance grows at most by the factor `1.6 ^ n`. -/
theorem C137_wengLin_period_stable (p p' : WengLinRating ℝ) (rs : List (WengLinRating ℝ × Outcomes))
    (cfg : WengLinConfig ℝ) (hp : 0 < p.uncertainty) (hp' : 0 < p'.uncertainty) (hκ : cfg.uncertaintyTolerance ≤ 1) :
    |(wengLinRatingPeriod p rs cfg).rating - (wengLinRatingPeriod p' rs cfg).rating|
        + 4 * |(wengLinRatingPeriod p rs cfg).uncertainty - (wengLinRatingPeriod p' rs cfg).uncertainty|
      ≤ (8 / 5) ^ rs.length * (|p.rating - p'.rating| + 4 * |p.uncertainty - p'.uncertainty|) := by
  induction rs generalizing p p' with
  | nil => simp [wengLinRatingPeriod]
  | cons g rs ih =>
    have h := ih (periodStep cfg p g) (periodStep cfg p' g) (step_pos p g.1 g.2 cfg hp) (step_pos p' g.1 g.2 cfg hp')
    have h1 : |(periodStep cfg p g).rating - (periodStep cfg p' g).rating|
        + 4 * |(periodStep cfg p g).uncertainty - (periodStep cfg p' g).uncertainty| ≤ _ :=
      C137_wengLin_game_stable p p' g.1 g.2 cfg hp hp' hκ
    refine h.trans ((mul_le_mul_of_nonneg_left h1 (by positivity)).trans (le_of_eq ?_))
    rw [List.length_cons, pow_succ, mul_assoc]

end WengLin

/-! ### The hypotheses are satisfiable -/

namespace WengLin

example : |(wengLinRatingPeriod ⟨25, 8⟩ [(⟨30, 2⟩, .WIN), (⟨10, 5⟩, .DRAW)] ⟨4, 0⟩).rating
      - (wengLinRatingPeriod ⟨26, 8⟩ [(⟨30, 2⟩, .WIN), (⟨10, 5⟩, .DRAW)] ⟨4, 0⟩ : WengLinRating ℝ).rating| ≤ 2.56 := by
  have h := C137_wengLin_period_stable ⟨25, 8⟩ ⟨26, 8⟩ [(⟨30, 2⟩, .WIN), (⟨10, 5⟩, .DRAW)] ⟨4, 0⟩
    (by norm_num) (by norm_num) (by norm_num)
  have h0 := abs_nonneg ((wengLinRatingPeriod ⟨25, 8⟩ [(⟨30, 2⟩, .WIN), (⟨10, 5⟩, .DRAW)] ⟨4, 0⟩).uncertainty
      - (wengLinRatingPeriod ⟨26, 8⟩ [(⟨30, 2⟩, .WIN), (⟨10, 5⟩, .DRAW)] ⟨4, 0⟩ : WengLinRating ℝ).uncertainty)
  norm_num at h ⊢
  linarith

example : |(wengLin ⟨25, 8⟩ ⟨30, 2⟩ .LOSS ⟨4, 0⟩).1.rating
    - (wengLin ⟨25, 9⟩ ⟨30, 2⟩ .LOSS ⟨4, 0⟩ : WengLinRating ℝ × _).1.rating| ≤ 6.4 := by
  have h := C137_wengLin_game_stable ⟨25, 8⟩ ⟨25, 9⟩ ⟨30, 2⟩ .LOSS ⟨4, 0⟩ (by norm_num) (by norm_num) (by norm_num)
  have h0 := abs_nonneg ((wengLin ⟨25, 8⟩ ⟨30, 2⟩ .LOSS ⟨4, 0⟩).1.uncertainty
    - (wengLin ⟨25, 9⟩ ⟨30, 2⟩ .LOSS ⟨4, 0⟩ : WengLinRating ℝ × _).1.uncertainty)
  norm_num at h ⊢
  linarith

end WengLin

/-! ### Double precision -/

namespace WengLin
open FP
variable {E : FloatEnv}

/-- A player with `n` games to come, against a `beta`. -/
structure Ready (n : ℕ) (c : WengLinConfig (FP E)) (a : WengLinRating (FP E)) : Prop where
  rating : a.rating.isFinite
  uncertainty : a.uncertainty.isFinite
  bound : |a.rating.toR| + (2 * n + 9) * a.uncertainty.toR ≤ 250 * c.beta.toR
  low : max (1 / 2 ^ 20) (c.beta.toR / 2 ^ 20) ≤ (6 / 7) ^ n * a.uncertainty.toR
  high : (1 + 1 / 2 ^ 36) ^ n * a.uncertainty.toR ≤ 2 ^ 20

theorem Ready.pos {n : ℕ} {c : WengLinConfig (FP E)} {a : WengLinRating (FP E)} (h : Ready n c a) :
    0 < a.uncertainty.toR := by
  have h1 : (0 : ℝ) < (6 / 7) ^ n * a.uncertainty.toR :=
    lt_of_lt_of_le (by norm_num) ((le_max_left _ _).trans h.low)
  exact pos_of_mul_pos_right h1 (by positivity)

theorem Ready.usual {n : ℕ} {c : WengLinConfig (FP E)} {a : WengLinRating (FP E)} (h : Ready n c a) :
    WlUsual c a ∧ c.beta.toR / 2 ^ 20 ≤ a.uncertainty.toR := by
  have h0 := h.pos
  have h1 : (6 / 7 : ℝ) ^ n * a.uncertainty.toR ≤ a.uncertainty.toR :=
    mul_le_of_le_one_left h0.le (pow_le_one₀ (by norm_num) (by norm_num))
  have h2 : a.uncertainty.toR ≤ (1 + 1 / 2 ^ 36) ^ n * a.uncertainty.toR :=
    le_mul_of_one_le_left h0.le (one_le_pow₀ (by norm_num))
  have h3 := h.bound
  have h4 : 0 ≤ (2 * n + 9) * a.uncertainty.toR := by positivity
  exact ⟨⟨h.rating, by linarith, h.uncertainty, ((le_max_left _ _).trans h.low).trans h1, h2.trans h.high⟩,
    ((le_max_right _ _).trans h.low).trans h1⟩

/-- One game of the period in exact arithmetic. -/
theorem step_bounds (p q : WengLinRating ℝ) (o : Outcomes) (cfg : WengLinConfig ℝ) (hp : 0 < p.uncertainty)
    (hκ : cfg.uncertaintyTolerance ≤ 1) :
    |(periodStep cfg p (q, o)).rating| ≤ |p.rating| + p.uncertainty ∧
      0.866 * p.uncertainty ≤ (periodStep cfg p (q, o)).uncertainty ∧
      (periodStep cfg p (q, o)).uncertainty ≤ p.uncertainty := by
  rw [step_eq p q o cfg hp]
  have hD : 0 ≤ q.uncertainty ^ 2 + 2 * cfg.beta ^ 2 := by positivity
  have hc := tot_pos hD hp
  have hl := le_tot hD hp
  simp only
  set c := tot (q.uncertainty ^ 2 + 2 * cfg.beta ^ 2) p.uncertainty
  set z := (p.rating - q.rating) / c
  have h1 := pow_le_one₀ (div_nonneg hp.le hc.le) ((div_le_one hc).2 hl) (n := 3)
  have h2 := sigmoid_var z
  have h3 := mul_le_mul h1 h2.2 h2.1 (by norm_num)
  have h4 := mul_nonneg (pow_nonneg (div_nonneg hp.le hc.le) 3) h2.1
  refine ⟨?_, ?_, ?_⟩
  · refine (abs_add_le _ _).trans ?_
    rw [abs_mul, abs_of_nonneg (by positivity : 0 ≤ p.uncertainty ^ 2 / c)]
    have b1 : p.uncertainty ^ 2 / c ≤ p.uncertainty := by
      rw [div_le_iff₀ hc, pow_two]; exact mul_le_mul_of_nonneg_left hl hp.le
    have b2 : |points o - Real.sigmoid z| ≤ 1 := by
      have := Real.sigmoid_nonneg z
      have := Real.sigmoid_le_one z
      have := points_nonneg o
      have := points_le_one o
      exact abs_le.2 ⟨by linarith, by linarith⟩
    have := mul_le_mul b1 b2 (abs_nonneg _) hp.le
    linarith
  · refine le_trans ?_ (le_max_left _ _)
    rw [mul_comm]
    refine mul_le_mul_of_nonneg_left (Real.le_sqrt_of_sq_le ?_) hp.le
    norm_num at h3 ⊢; linarith
  · refine max_le (mul_le_of_le_one_right hp.le (Real.sqrt_le_one.2 (by linarith)))
      (mul_le_of_le_one_right hp.le (Real.sqrt_le_one.2 hκ))

/-- A game leaves the player ready for the remaining games. -/
theorem Ready.step (L : E.Lib) (A : E.Accurate) {n : ℕ} {c : WengLinConfig (FP E)} {a b : WengLinRating (FP E)}
    (o : Outcomes) (hc : WlUsualConfig c) (ha : Ready (n + 1) c a) (hb : WlUsual c b) :
    Ready n c (periodStep c a (b, o)) ∧
      |(periodStep c a (b, o)).rating.toR| + (2 * n + 9) * (periodStep c a (b, o)).uncertainty.toR
        ≤ |a.rating.toR| + (2 * (n + 1 : ℕ) + 9) * a.uncertainty.toR := by
  obtain ⟨⟨g1, g2⟩, -⟩ := C123_wengLin_game L A a b o c hc ha.usual.1 hb
  change Near _ (periodStep c a (b, o)).rating (periodStep (wlConfigExact c) (wlExact a) (wlExact b, o)).rating at g1
  change Near _ (periodStep c a (b, o)).uncertainty
    (periodStep (wlConfigExact c) (wlExact a) (wlExact b, o)).uncertainty at g2
  have h0 := ha.pos
  obtain ⟨e1, e2, e3⟩ := step_bounds (wlExact a) (wlExact b) o (wlConfigExact c) h0 (le_of_abs_le hc.2.2)
  change _ ≤ |a.rating.toR| + a.uncertainty.toR at e1
  change 0.866 * a.uncertainty.toR ≤ _ at e2
  change _ ≤ a.uncertainty.toR at e3
  set y := periodStep (wlConfigExact c) (wlExact a) (wlExact b, o)
  set x := periodStep c a (b, o)
  have f1 := g1.abs_le
  have f2 := abs_le.1 g2.2
  have u1 : x.uncertainty.toR ≤ (1 + 1 / 2 ^ 36) * a.uncertainty.toR := by
    norm_num at f2 ⊢; linarith [f2.2]
  have u2 : 6 / 7 * a.uncertainty.toR ≤ x.uncertainty.toR := by
    norm_num at f2 e2 ⊢; linarith [f2.1]
  have hβ := ha.usual.2
  have hr := ha.usual.1.2.1
  have hb1 := ha.bound
  have small : (|a.rating.toR| + a.uncertainty.toR) / 2 ^ 37 + (2 * n + 9) * (1 / 2 ^ 36 * a.uncertainty.toR)
      ≤ a.uncertainty.toR := by
    have h5 : (2 * (n + 1 : ℕ) + 9) * a.uncertainty.toR ≤ 250 * c.beta.toR := by linarith [abs_nonneg a.rating.toR]
    push_cast at h5
    have h6 : (2 * n + 9) * (1 / 2 ^ 36 * a.uncertainty.toR) ≤ 250 * c.beta.toR / 2 ^ 36 := by
      rw [show (2 * n + 9) * (1 / 2 ^ 36 * a.uncertainty.toR) = ((2 * n + 9) * a.uncertainty.toR) / 2 ^ 36 by ring]
      exact div_le_div_of_nonneg_right (by linarith) (by positivity)
    norm_num at h6 hβ ⊢
    linarith
  have fb : |x.rating.toR| + (2 * n + 9) * x.uncertainty.toR
      ≤ |a.rating.toR| + (2 * (n + 1 : ℕ) + 9) * a.uncertainty.toR := by
    have h7 : (2 * n + 9) * x.uncertainty.toR ≤ (2 * n + 9) * ((1 + 1 / 2 ^ 36) * a.uncertainty.toR) :=
      mul_le_mul_of_nonneg_left u1 (by positivity)
    push_cast
    linarith
  refine ⟨⟨g1.1, g2.1, fb.trans hb1, ha.low.trans ?_, le_trans ?_ ha.high⟩, fb⟩
  · rw [pow_succ _ n, mul_assoc]
    exact mul_le_mul_of_nonneg_left u2 (by positivity)
  · rw [pow_succ _ n, mul_assoc]
    exact mul_le_mul_of_nonneg_left u1 (by positivity)

/-- The opponents and results of a period in exact arithmetic. -/
noncomputable def gamesExact (rs : List (WengLinRating (FP E) × Outcomes)) : List (WengLinRating ℝ × Outcomes) :=
  rs.map fun g => (wlExact g.1, g.2)

theorem period_error (L : E.Lib) (A : E.Accurate) (c : WengLinConfig (FP E)) (hc : WlUsualConfig c)
    (rs : List (WengLinRating (FP E) × Outcomes)) (a : WengLinRating (FP E)) (hrs : ∀ g ∈ rs, WlUsual c g.1)
    (ha : Ready rs.length c a) :
    (wengLinRatingPeriod a rs c).rating.isFinite ∧ (wengLinRatingPeriod a rs c).uncertainty.isFinite ∧
    |(wengLinRatingPeriod a rs c).rating.toR
        - (wengLinRatingPeriod (wlExact a) (gamesExact rs) (wlConfigExact c)).rating|
      + 4 * |(wengLinRatingPeriod a rs c).uncertainty.toR
        - (wengLinRatingPeriod (wlExact a) (gamesExact rs) (wlConfigExact c)).uncertainty|
      ≤ ((8 / 5) ^ rs.length - 1) * ((|a.rating.toR| + (2 * rs.length + 9) * a.uncertainty.toR) / 2 ^ 36) := by
  induction rs generalizing a with
  | nil =>
    refine ⟨ha.rating, ha.uncertainty, ?_⟩
    simp [wengLinRatingPeriod, gamesExact, wlExact]
  | cons g rs ih =>
    obtain ⟨b, o⟩ := g
    have hb := hrs (b, o) (by simp)
    rw [List.length_cons] at ha
    obtain ⟨h1, h2⟩ := ha.step L A o hc hb
    obtain ⟨i1, i2, i3⟩ := ih (periodStep c a (b, o)) (fun g hg => hrs g (by simp [hg])) h1
    refine ⟨i1, i2, ?_⟩
    obtain ⟨⟨g1, g2⟩, -⟩ := C123_wengLin_game L A a b o c hc ha.usual.1 hb
    change Near _ (periodStep c a (b, o)).rating (periodStep (wlConfigExact c) (wlExact a) (wlExact b, o)).rating at g1
    change Near _ (periodStep c a (b, o)).uncertainty
      (periodStep (wlConfigExact c) (wlExact a) (wlExact b, o)).uncertainty at g2
    have h0 := ha.pos
    have st := C137_wengLin_period_stable (wlExact (periodStep c a (b, o)))
      (periodStep (wlConfigExact c) (wlExact a) (wlExact b, o)) (gamesExact rs) (wlConfigExact c) h1.pos
      (step_pos _ _ _ _ h0) (le_of_abs_le hc.2.2)
    have e : (gamesExact rs).length = rs.length := by simp [gamesExact]
    rw [e] at st
    change |(wengLinRatingPeriod (periodStep c a (b, o)) rs c).rating.toR
        - (wengLinRatingPeriod (periodStep (wlConfigExact c) (wlExact a) (wlExact b, o)) (gamesExact rs)
          (wlConfigExact c)).rating|
      + 4 * |(wengLinRatingPeriod (periodStep c a (b, o)) rs c).uncertainty.toR
        - (wengLinRatingPeriod (periodStep (wlConfigExact c) (wlExact a) (wlExact b, o)) (gamesExact rs)
          (wlConfigExact c)).uncertainty| ≤ _
    set x := periodStep c a (b, o)
    set y := periodStep (wlConfigExact c) (wlExact a) (wlExact b, o)
    set W := |a.rating.toR| + (2 * ((rs.length + 1 : ℕ) : ℝ) + 9) * a.uncertainty.toR with hW
    set K : ℝ := (8 / 5) ^ rs.length with hK
    have hK1 : 1 ≤ K := one_le_pow₀ (by norm_num)
    have st' : |(wlExact x).rating - y.rating| + 4 * |(wlExact x).uncertainty - y.uncertainty|
        ≤ 3 / 5 * (W / 2 ^ 36) := by
      have k1 := g1.2
      have k2 := g2.2
      have hw : |a.rating.toR| + 9 * a.uncertainty.toR ≤ W := by
        rw [hW]; push_cast; nlinarith [h0, (Nat.cast_nonneg rs.length : (0 : ℝ) ≤ rs.length)]
      change |x.rating.toR - y.rating| + 4 * |x.uncertainty.toR - y.uncertainty| ≤ _
      have := abs_nonneg a.rating.toR
      norm_num at k1 k2 ⊢
      linarith
    have t1 := mul_le_mul_of_nonneg_left st' (by linarith : 0 ≤ K)
    have t2 : (K - 1) * ((|x.rating.toR| + (2 * rs.length + 9) * x.uncertainty.toR) / 2 ^ 36) ≤ (K - 1) * (W / 2 ^ 36) :=
      mul_le_mul_of_nonneg_left (by gcongr) (by linarith)
    have t3 := i3.trans t2
    have t4 := st.trans t1
    have a1 := abs_sub_le (wengLinRatingPeriod x rs c).rating.toR
      (wengLinRatingPeriod (wlExact x) (gamesExact rs) (wlConfigExact c)).rating
      (wengLinRatingPeriod y (gamesExact rs) (wlConfigExact c)).rating
    have a2 := abs_sub_le (wengLinRatingPeriod x rs c).uncertainty.toR
      (wengLinRatingPeriod (wlExact x) (gamesExact rs) (wlConfigExact c)).uncertainty
      (wengLinRatingPeriod y (gamesExact rs) (wlConfigExact c)).uncertainty
    rw [List.length_cons, pow_succ, ← hK, ← hW]
    have : (K * (8 / 5) - 1) * (W / 2 ^ 36) = (K - 1) * (W / 2 ^ 36) + K * (3 / 5 * (W / 2 ^ 36)) := by ring
    rw [this]
    linarith

/-- A Weng-Lin rating period of `n` games in double precision: rating and uncertainty are within
`1.6 ^ n (|rating| + (2 n + 9) uncertainty) / 2 ^ 36` (the uncertainty within a quarter of it) of the
exact formulas. -/
theorem C137_wengLin_period_float (L : E.Lib) (A : E.Accurate) (c : WengLinConfig (FP E)) (hc : WlUsualConfig c)
    (rs : List (WengLinRating (FP E) × Outcomes)) (a : WengLinRating (FP E)) (hrs : ∀ g ∈ rs, WlUsual c g.1)
    (hn : rs.length ≤ 40) (hr : a.rating.isFinite) (hu : a.uncertainty.isFinite)
    (h1 : |a.rating.toR| + (2 * rs.length + 9) * a.uncertainty.toR ≤ 250 * c.beta.toR)
    (h2 : max 1 c.beta.toR / 2 ^ 20 ≤ (6 / 7) ^ rs.length * a.uncertainty.toR) (h3 : a.uncertainty.toR ≤ 2 ^ 19) :
    let B := (8 / 5) ^ rs.length * ((|a.rating.toR| + (2 * rs.length + 9) * a.uncertainty.toR) / 2 ^ 36)
    let y := wengLinRatingPeriod (wlExact a) (gamesExact rs) (wlConfigExact c)
    Near B (wengLinRatingPeriod a rs c).rating y.rating ∧
      Near (B / 4) (wengLinRatingPeriod a rs c).uncertainty y.uncertainty := by
  intro B y
  have hpos : 0 < a.uncertainty.toR := by
    have : (0 : ℝ) < max 1 c.beta.toR / 2 ^ 20 := div_pos (lt_max_of_lt_left one_pos) (by positivity)
    exact pos_of_mul_pos_right (lt_of_lt_of_le this h2) (by positivity)
  have hready : Ready rs.length c a := by
    refine ⟨hr, hu, h1, ?_, ?_⟩
    · refine le_trans (max_le ?_ ?_) h2
      · gcongr; exact le_max_left _ _
      · gcongr; exact le_max_right _ _
    · have : (1 + 1 / 2 ^ 36 : ℝ) ^ rs.length ≤ 2 := by
        calc _ ≤ (1 + 1 / 2 ^ 36 : ℝ) ^ 40 := pow_le_pow_right₀ (by norm_num) hn
          _ ≤ 2 := by norm_num
      calc _ ≤ 2 * (2 : ℝ) ^ 19 := mul_le_mul this h3 hpos.le (by norm_num)
        _ = _ := by norm_num
  obtain ⟨i1, i2, i3⟩ := period_error L A c hc rs a hrs hready
  have hB : ((8 / 5 : ℝ) ^ rs.length - 1) * ((|a.rating.toR| + (2 * rs.length + 9) * a.uncertainty.toR) / 2 ^ 36) ≤ B := by
    have : 0 ≤ (|a.rating.toR| + (2 * rs.length + 9) * a.uncertainty.toR) / 2 ^ 36 := by positivity
    simp only [B]
    linarith
  have n1 := abs_nonneg ((wengLinRatingPeriod a rs c).rating.toR - y.rating)
  have n2 := abs_nonneg ((wengLinRatingPeriod a rs c).uncertainty.toR - y.uncertainty)
  exact ⟨⟨i1, by linarith⟩, ⟨i2, by linarith⟩⟩

example : Near (1 / 2 ^ 26)
    (wengLinRatingPeriod (F := FP ieee) ⟨25.0, 8.0⟩ [(⟨25.0, 8.0⟩, .WIN), (⟨25.0, 8.0⟩, .DRAW)] ⟨4.0, 0.0⟩).rating
    (wengLinRatingPeriod ⟨25, 8⟩ [(⟨25, 8⟩, .WIN), (⟨25, 8⟩, .DRAW)] ⟨4, 0⟩ : WengLinRating ℝ).rating := by
  have h4 := lit_in (E := ieee) (m := 40) (s := true) (e := 1) (v := 4) (by norm_num)
    (SRep.ofNat 4 (by norm_num))
  have h0 := lit_in (E := ieee) (m := 0) (s := true) (e := 1) (v := 0) (by norm_num) SRep.zero
  have h25 := lit_in (E := ieee) (m := 250) (s := true) (e := 1) (v := 25) (by norm_num)
    (SRep.ofNat 25 (by norm_num))
  have h8 := lit_in (E := ieee) (m := 80) (s := true) (e := 1) (v := 8) (by norm_num)
    (SRep.ofNat 8 (by norm_num))
  have e4 : (4.0 : FP ieee).toR = 4 := le_antisymm h4.toR.2 h4.toR.1
  have e0 : (0.0 : FP ieee).toR = 0 := le_antisymm h0.toR.2 h0.toR.1
  have e8 : (8.0 : FP ieee).toR = 8 := le_antisymm h8.toR.2 h8.toR.1
  have e25 : (25.0 : FP ieee).toR = 25 := le_antisymm h25.toR.2 h25.toR.1
  have h := C137_wengLin_period_float ieee_lib ieee_accurate ⟨4.0, 0.0⟩ usual_wengLin_config
    [(⟨25.0, 8.0⟩, .WIN), (⟨25.0, 8.0⟩, .DRAW)] ⟨25.0, 8.0⟩ (by simp [usual_wengLin]) (by simp) h25.finite h8.finite
    (by simp only [e25, e8, e4, List.length_cons, List.length_nil]; norm_num [abs_of_pos])
    (by simp only [e8, e4, List.length_cons, List.length_nil]; norm_num)
    (by rw [e8]; norm_num)
  have h' := h.1
  simp only [gamesExact, List.map_cons, List.map_nil, wlExact, wlConfigExact, e25, e8, e4, e0, List.length_cons,
    List.length_nil] at h'
  refine h'.mono ?_
  norm_num [abs_of_pos]

end WengLin
end Skillratings
