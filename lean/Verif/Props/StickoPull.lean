import Verif.Props.Sticko
import Verif.Props.LongRun
/-
C141: the parameter `lambda` of Sticko (src/sticko.rs:183-185, 341-342, 504-505) and the range of
the ratings.
-/
namespace Skillratings.Sticko
open Real Spec Filter Topology

/-- The player after a game from either seat. -/
noncomputable def afterGame (c : StickoConfig ℝ) (p b : StickoRating ℝ) (o : Outcomes)
    (first : Bool) : StickoRating ℝ :=
  if first then (sticko p b o c).1 else (sticko b p o c).2

/-- A rating after some games is the weighted mean of the old rating and the mean rating of the
opponents, up to 706 points (and the bonus) for each game. -/
theorem update_near_mean (P : StickoParams) (r rd : ℝ) (xs : List StickoGame) (h : 0 < rd)
    (hx : ∀ x ∈ xs, 0 ≤ x.points ∧ x.points ≤ 1) :
    |(stickoUpdate P r rd xs).1 - ((1 - P.lambda / 100) * r
      + P.lambda / 100 * ((xs.map StickoGame.rating).sum / xs.length))|
      ≤ 706 * (1 + |P.beta|) * xs.length := by
  have ho := glickoOnset_pos P.c h
  have ho' := glickoOnset_le rd P.c
  have hq := glickoQ_pos
  have hq' := glickoQ_lt
  have hi : 0 ≤ (xs.map (stickoInfo P r)).sum := List.sum_nonneg fun y hy => by
    obtain ⟨x, _, rfl⟩ := List.mem_map.1 hy
    exact (stickoInfo_pos P r x).le
  have hv := posterior_pos (v := glickoOnset rd P.c ^ 2) (by positivity) hi
  have hv' := posterior_le (v := glickoOnset rd P.c ^ 2) (by positivity) hi
  have hk : glickoQ * posterior (glickoOnset rd P.c ^ 2) (xs.map (stickoInfo P r)).sum ≤ 706 := by
    have h1 : glickoOnset rd P.c ^ 2 ≤ 122500 := by nlinarith
    nlinarith
  have hs : ∀ ys : List StickoGame, (∀ x ∈ ys, 0 ≤ x.points ∧ x.points ≤ 1) →
      |(ys.map fun x => glickoG x.deviation * (x.points - stickoE P r x + P.beta)).sum|
        ≤ (1 + |P.beta|) * ys.length := by
    intro ys
    induction ys with
    | nil => intro _; simp
    | cons y ys ih =>
      intro hy
      rw [List.map_cons, List.sum_cons]
      have h1 := ih fun x hx => hy x (List.mem_cons_of_mem _ hx)
      have h2 := hy y List.mem_cons_self
      have h3 := stickoE_pos P r y
      have h4 := stickoE_lt_one P r y
      have h5 : |glickoG y.deviation * (y.points - stickoE P r y + P.beta)| ≤ 1 + |P.beta| := by
        rw [abs_mul, abs_of_pos (glickoG_pos _)]
        have h6 : |y.points - stickoE P r y + P.beta| ≤ 1 + |P.beta| :=
          (abs_add_le _ _).trans (add_le_add_left (abs_le.2 ⟨by linarith, by linarith⟩) _)
        calc _ ≤ 1 * |y.points - stickoE P r y + P.beta| :=
              mul_le_mul_of_nonneg_right (glickoG_le_one _) (abs_nonneg _)
          _ ≤ _ := by rw [one_mul]; exact h6
      refine (abs_add_le _ _).trans ?_
      rw [List.length_cons]
      push_cast
      linarith
  have e : (stickoUpdate P r rd xs).1 - ((1 - P.lambda / 100) * r
      + P.lambda / 100 * ((xs.map StickoGame.rating).sum / xs.length))
      = glickoQ * posterior (glickoOnset rd P.c ^ 2) (xs.map (stickoInfo P r)).sum
        * (xs.map fun x => glickoG x.deviation * (x.points - stickoE P r x + P.beta)).sum := by
    simp only [stickoUpdate]; ring
  rw [e, abs_mul, abs_of_pos (mul_pos hq hv), mul_assoc 706]
  exact mul_le_mul hk (hs xs hx) (abs_nonneg _) (by norm_num)

/-- The rating after a game is that of the specification. -/
theorem afterGame_rating (c : StickoConfig ℝ) (p b : StickoRating ℝ) (o : Outcomes)
    (first : Bool) : ∃ s f, 0 ≤ s ∧ s ≤ 1 ∧ (afterGame c p b o first).rating
      = (stickoUpdate (params c) p.rating p.deviation [⟨b.rating, b.deviation, s, f⟩]).1 := by
  cases first
  · exact ⟨points (mirror o), false, points_nonneg _, points_le_one _, by
      rw [afterGame, if_neg (by simp), sticko_real]; rfl⟩
  · exact ⟨points o, true, points_nonneg _, points_le_one _, by
      rw [afterGame, if_pos rfl, sticko_real]; rfl⟩

theorem dev_pos (c : StickoConfig ℝ) (hh : 0 ≤ c.h) (a b : ℕ → StickoRating ℝ)
    (o : ℕ → Outcomes) (first : ℕ → Bool) (hd : 0 < (a 0).deviation)
    (h : ∀ n, a (n + 1) = afterGame c (a n) (b n) (o n) (first n)) (n : ℕ) :
    0 < (a n).deviation := by
  induction n with
  | zero => exact hd
  | succ n ih =>
    rw [h, afterGame]
    split
    · exact (C49_sticko_event (a n) (.first (b n) (o n) c) ih hh).1
    · exact (C49_sticko_event (a n) (.second (b n) (o n) c) ih hh).1

/-- The mean of numbers up to `B` in absolute value. -/
theorem abs_mean_le {B : ℝ} (l : List ℝ) (hl : l ≠ []) (h : ∀ x ∈ l, |x| ≤ B) :
    |l.sum / l.length| ≤ B := by
  have key : ∀ l : List ℝ, (∀ x ∈ l, |x| ≤ B) → |l.sum| ≤ B * l.length := by
    intro l
    induction l with
    | nil => intro _; simp
    | cons a l ih =>
      intro h
      have h1 := ih fun x hx => h x (List.mem_cons_of_mem _ hx)
      have h2 := h a List.mem_cons_self
      rw [List.sum_cons, List.length_cons]
      push_cast
      exact (abs_add_le _ _).trans (by linarith)
  have hn : (0 : ℝ) < l.length := by
    have := List.length_pos_iff.2 hl
    exact_mod_cast this
  rw [abs_div, abs_of_pos hn, div_le_iff₀ hn]
  exact key l h

/-- A rating that is pulled by the fraction `t` towards something bounded and pushed by at most
`G`. -/
theorem pulled_bound {x : ℕ → ℝ} {t B G : ℝ} (ht : 0 < t) (ht1 : t ≤ 1) (hG : 0 ≤ G)
    (h : ∀ n, |x (n + 1)| ≤ (1 - t) * |x n| + t * B + G) (n : ℕ) (hB : 0 ≤ B) :
    |x n| ≤ B + G / t + (1 - t) ^ n * |x 0| := by
  induction n with
  | zero =>
    have : 0 ≤ G / t := by positivity
    simp only [pow_zero, one_mul]
    linarith
  | succ n ih =>
    have h1 := h n
    have h2 := mul_le_mul_of_nonneg_left ih (by linarith : 0 ≤ 1 - t)
    have h3 : t * (G / t) = G := by field_simp
    rw [pow_succ]
    nlinarith

/-- Sticko, any series of games from either seat, against opponents rated at most `B` in absolute
value: the rating stays within a fixed distance of zero for ever, and the initial rating is
forgotten at the rate `1 - lambda/100`. -/
theorem C141_sticko_bounded (c : StickoConfig ℝ) (hh : 0 ≤ c.h) (hl : 0 < c.lambda)
    (hl' : c.lambda ≤ 100) (a b : ℕ → StickoRating ℝ) (o : ℕ → Outcomes) (first : ℕ → Bool)
    (B : ℝ) (hd : 0 < (a 0).deviation) (hb : ∀ n, |(b n).rating| ≤ B)
    (h : ∀ n, a (n + 1) = afterGame c (a n) (b n) (o n) (first n)) (n : ℕ) :
    |(a n).rating| ≤ B + 70600 * (1 + |c.beta|) / c.lambda
      + (1 - c.lambda / 100) ^ n * |(a 0).rating| := by
  have hdev := dev_pos c hh a b o first hd h
  have hB : 0 ≤ B := (abs_nonneg _).trans (hb 0)
  have step : ∀ n, |(a (n + 1)).rating| ≤ (1 - c.lambda / 100) * |(a n).rating|
      + c.lambda / 100 * B + 706 * (1 + |c.beta|) := by
    intro n
    obtain ⟨s, f, hs0, hs1, e⟩ := afterGame_rating c (a n) (b n) (o n) (first n)
    have h2 := update_near_mean (params c) (a n).rating (a n).deviation
      [⟨(b n).rating, (b n).deviation, s, f⟩] (hdev n) (by simp [hs0, hs1])
    rw [← e, ← h n] at h2
    simp only [List.map_cons, List.map_nil, List.sum_cons, List.sum_nil, add_zero,
      List.length_singleton, Nat.cast_one, div_one, mul_one, params] at h2
    have h3 := abs_le.1 h2
    have h4 := abs_le.1 (hb n)
    have h5 := neg_abs_le (a n).rating
    have h6 := le_abs_self (a n).rating
    have h7 : 0 ≤ 1 - c.lambda / 100 := by linarith
    rw [abs_le]
    constructor <;> nlinarith
  have := pulled_bound (x := fun n => (a n).rating) (t := c.lambda / 100) (by positivity)
    (by linarith) (by positivity) step n hB
  refine this.trans (le_of_eq ?_)
  field_simp
  ring

/-- The same for rating periods of up to `N` games each. -/
theorem C141_sticko_periods_bounded (c : StickoConfig ℝ) (hh : 0 ≤ c.h) (hl : 0 < c.lambda)
    (hl' : c.lambda ≤ 100) (a : ℕ → StickoRating ℝ)
    (rs : ℕ → List (StickoRating ℝ × Outcomes × Bool)) (N : ℕ) (B : ℝ)
    (hd : 0 < (a 0).deviation) (hN : ∀ n, rs n ≠ [] ∧ (rs n).length ≤ N)
    (hb : ∀ n, ∀ r ∈ rs n, |r.1.rating| ≤ B)
    (h : ∀ n, a (n + 1) = stickoRatingPeriod (a n) (rs n) c) (n : ℕ) :
    |(a n).rating| ≤ B + 70600 * (1 + |c.beta|) * N / c.lambda
      + (1 - c.lambda / 100) ^ n * |(a 0).rating| := by
  have hdev : ∀ n, 0 < (a n).deviation := by
    intro n
    induction n with
    | zero => exact hd
    | succ n ih =>
      rw [h]
      exact (C49_sticko_event (a n) (.period (rs n) c) ih hh).1
  have hB : 0 ≤ B := by
    obtain ⟨r, hr⟩ := List.exists_mem_of_ne_nil _ (hN 0).1
    exact (abs_nonneg _).trans (hb 0 r hr)
  have step : ∀ n, |(a (n + 1)).rating| ≤ (1 - c.lambda / 100) * |(a n).rating|
      + c.lambda / 100 * B + 706 * (1 + |c.beta|) * N := by
    intro n
    rw [h, period_real _ _ _ (hN n).1]
    have h2 := update_near_mean (params c) (a n).rating (a n).deviation ((rs n).map game) (hdev n)
      (by
        intro x hx
        obtain ⟨r, _, rfl⟩ := List.mem_map.1 hx
        exact ⟨points_nonneg _, points_le_one _⟩)
    have hm := abs_mean_le (B := B) (((rs n).map game).map StickoGame.rating)
      (by simpa using (hN n).1) (by
        intro x hx
        rw [List.map_map] at hx
        obtain ⟨r, hr, rfl⟩ := List.mem_map.1 hx
        exact hb n r hr)
    rw [List.length_map] at hm
    have h3 := abs_le.1 h2
    have h4 := abs_le.1 hm
    have h5 := neg_abs_le (a n).rating
    have h6 := le_abs_self (a n).rating
    have h7 : 0 ≤ 1 - c.lambda / 100 := by linarith
    have h8 : 706 * (1 + |c.beta|) * (((rs n).map game).length : ℝ)
        ≤ 706 * (1 + |c.beta|) * N := by
      refine mul_le_mul_of_nonneg_left ?_ (by positivity)
      rw [List.length_map]
      exact_mod_cast (hN n).2
    simp only [params] at h3 h4 h8 ⊢
    rw [abs_le]
    constructor <;> nlinarith
  have := pulled_bound (x := fun n => (a n).rating) (t := c.lambda / 100) (by positivity)
    (by linarith) (by positivity) step n hB
  refine this.trans (le_of_eq ?_)
  field_simp
  ring

/-- Without the pull (and bonus and `h`) a winning streak has no bound, as in Glicko. -/
theorem C141_sticko_no_pull (k : ℝ) (a b : ℕ → StickoRating ℝ) (B D : ℝ)
    (hd : 0 < (a 0).deviation) (hb : ∀ n, B ≤ (b n).rating)
    (hD : ∀ n, 0 < (b n).deviation ∧ (b n).deviation ≤ D)
    (h : ∀ n, a (n + 1) = (sticko (a n) (b n) .WIN ⟨0, 0, 0, 0, k⟩).1) :
    Tendsto (fun n => (a n).rating) atTop atTop := by
  have hdev : ∀ n, 0 < (a n).deviation := by
    intro n
    induction n with
    | zero => exact hd
    | succ n ih =>
      rw [h]
      exact (C49_sticko_event (a n) (.first (b n) .WIN ⟨0, 0, 0, 0, k⟩) ih le_rfl).1
  exact C111_glicko_winning_streak ⟨k⟩ (fun n => ⟨(a n).rating, (a n).deviation⟩)
    (fun n => ⟨(b n).rating, (b n).deviation⟩) B D hd hb
    (fun n => by rw [abs_of_pos (hD n).1]; exact (hD n).2)
    (fun n => by
      have := C47_sticko_neutral (a n) (b n) .WIN k (hdev n) (hD n).1
      simp only [h n, this])

/-- A pull of more than 200 percent: against opponents of one rating, whatever the results are, a
player who starts far enough away moves away from them without bound. -/
theorem C141_sticko_overshoot (c : StickoConfig ℝ) (hh : 0 ≤ c.h) (hl : 200 < c.lambda)
    (a b : ℕ → StickoRating ℝ) (o : ℕ → Outcomes) (first : ℕ → Bool) (R : ℝ)
    (hd : 0 < (a 0).deviation) (hb : ∀ n, (b n).rating = R)
    (h0 : 70600 * (1 + |c.beta|) / (c.lambda - 200) < |(a 0).rating - R|)
    (h : ∀ n, a (n + 1) = afterGame c (a n) (b n) (o n) (first n)) :
    Tendsto (fun n => |(a n).rating - R|) atTop atTop := by
  have hdev := dev_pos c hh a b o first hd h
  set L := c.lambda / 100 with hL
  have hL2 : 2 < L := by rw [hL, lt_div_iff₀ (by norm_num)]; linarith
  set G := 706 * (1 + |c.beta|) with hG
  have step : ∀ n, (L - 1) * |(a n).rating - R| - G ≤ |(a (n + 1)).rating - R| := by
    intro n
    obtain ⟨s, f, hs0, hs1, e⟩ := afterGame_rating c (a n) (b n) (o n) (first n)
    have h2 := update_near_mean (params c) (a n).rating (a n).deviation
        [⟨(b n).rating, (b n).deviation, s, f⟩] (hdev n) (by simp [hs0, hs1])
    simp only [List.map_cons, List.map_nil, List.sum_cons, List.sum_nil, add_zero,
      List.length_singleton, Nat.cast_one, div_one, mul_one] at h2
    rw [← e, ← h n, hb n] at h2
    change |_ - ((1 - L) * _ + L * R)| ≤ G at h2
    have h3 := abs_sub_abs_le_abs_sub ((L - 1) * ((a n).rating - R))
      (-((a (n + 1)).rating - R))
    rw [abs_mul, abs_neg, abs_of_pos (by linarith : 0 < L - 1)] at h3
    have h4 : (L - 1) * ((a n).rating - R) - -((a (n + 1)).rating - R)
        = (a (n + 1)).rating - ((1 - L) * (a n).rating + L * R) := by ring
    rw [h4] at h3
    linarith
  have h1 : G / (L - 2) = 70600 * (1 + |c.beta|) / (c.lambda - 200) := by
    rw [hG, hL, div_eq_div_iff (by linarith) (by linarith)]
    ring
  rw [← h1] at h0
  have hG2 : (L - 2) * (G / (L - 2)) = G := by
    have : L - 2 ≠ 0 := by linarith
    field_simp
  have key : ∀ n, G / (L - 2) + (L - 1) ^ n * (|(a 0).rating - R| - G / (L - 2))
      ≤ |(a n).rating - R| := by
    intro n
    induction n with
    | zero => simp
    | succ n ih =>
      have h5 := mul_le_mul_of_nonneg_left ih (by linarith : 0 ≤ L - 1)
      have h6 := step n
      rw [pow_succ]
      nlinarith
  refine tendsto_atTop_mono key (tendsto_atTop_add_const_left _ _ ?_)
  exact (tendsto_pow_atTop_atTop_of_one_lt (by linarith)).atTop_mul_const (by linarith)

/-- The default configuration: against opponents rated between 0 and 3000 a player starting
at 1500 is never rated above 39800, whatever the results. -/
example (a b : ℕ → StickoRating ℝ) (o : ℕ → Outcomes) (first : ℕ → Bool)
    (h0 : a 0 = ⟨1500, 350⟩) (hb : ∀ n, |(b n).rating| ≤ 3000)
    (h : ∀ n, a (n + 1) = afterGame ⟨10, 0, 2, 0, 10⟩ (a n) (b n) (o n) (first n)) (n : ℕ) :
    |(a n).rating| ≤ 39800 := by
  refine (C141_sticko_bounded ⟨10, 0, 2, 0, 10⟩ (by norm_num) (by norm_num) (by norm_num) a b o
    first 3000 (by rw [h0]; norm_num) hb h n).trans ?_
  rw [h0]
  have : ((1 : ℝ) - 2 / 100) ^ n ≤ 1 := pow_le_one₀ (by norm_num) (by norm_num)
  simp only [abs_zero, add_zero, mul_one]
  rw [abs_of_pos (by norm_num : (0 : ℝ) < 1500)]
  linarith

/-- `lambda` = 300: a player 1000 points from opponents of rating 1500 is already lost. -/
example (a b : ℕ → StickoRating ℝ) (h0 : a 0 = ⟨2500, 350⟩) (hb : ∀ n, b n = ⟨1500, 50⟩)
    (h : ∀ n, a (n + 1) = afterGame ⟨10, 0, 300, 0, 10⟩ (a n) (b n) .DRAW true) :
    Tendsto (fun n => |(a n).rating - 1500|) atTop atTop :=
  C141_sticko_overshoot ⟨10, 0, 300, 0, 10⟩ (by norm_num) (by norm_num) a b (fun _ => .DRAW)
    (fun _ => true) 1500 (by rw [h0]; norm_num) (fun n => by rw [hb])
    (by rw [h0]; norm_num [abs_of_pos]) h

end Skillratings.Sticko
