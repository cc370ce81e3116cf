import Verif.Proofs.Sticko
import Verif.Proofs.Glicko
/-
Properties of /repo/src/sticko.rs: C33, C34, C47 - C50, C85.
-/
namespace Skillratings.Sticko
open Real Spec

/-! ### C85: the published update -/

/-- Rating periods follow the published formula. -/
theorem C85_sticko_period_formula (p : StickoRating ℝ)
    (rs : List (StickoRating ℝ × Outcomes × Bool)) (c : StickoConfig ℝ) (h : rs ≠ []) :
    let u := stickoUpdate ⟨c.h, c.beta, c.lambda, c.gamma, c.c⟩ p.rating p.deviation
      (rs.map fun r => ⟨r.1.rating, r.1.deviation, points r.2.1, r.2.2⟩)
    (stickoRatingPeriod p rs c).rating = u.1 ∧ (stickoRatingPeriod p rs c).deviation = u.2 := by
  rw [period_real p rs c h]
  exact ⟨rfl, rfl⟩

/-- Single games follow the published formula for both players. -/
theorem C85_sticko_formula (a b : StickoRating ℝ) (o : Outcomes) (c : StickoConfig ℝ) :
    let P : StickoParams := ⟨c.h, c.beta, c.lambda, c.gamma, c.c⟩
    let u := stickoUpdate P a.rating a.deviation [⟨b.rating, b.deviation, points o, true⟩]
    let v := stickoUpdate P b.rating b.deviation
      [⟨a.rating, a.deviation, points (mirror o), false⟩]
    (sticko a b o c).1.rating = u.1 ∧ (sticko a b o c).1.deviation = u.2 ∧
      (sticko a b o c).2.rating = v.1 ∧ (sticko a b o c).2.deviation = v.2 := by
  rw [sticko_real]
  exact ⟨rfl, rfl, rfl, rfl⟩

/-- The rating is an increasing affine function of the points, the deviation does not depend on
them. -/
theorem update_points (P : StickoParams) (r rd rj rdj : ℝ) (f : Bool) (h : 0 < rd) :
    ∃ k d t, 0 < k ∧ ∀ s, stickoUpdate P r rd [⟨rj, rdj, s, f⟩] = (k * s + t, d) := by
  have h1 := glickoOnset_pos P.c h
  have h2 := glickoG_pos rdj
  have h3 := glickoQ_pos
  have h4 : 0 < posterior (glickoOnset rd P.c ^ 2) (stickoInfo P r ⟨rj, rdj, 0, f⟩) :=
    posterior_pos (by positivity) (stickoInfo_pos _ _ _).le
  refine ⟨glickoQ * posterior (glickoOnset rd P.c ^ 2) (stickoInfo P r ⟨rj, rdj, 0, f⟩)
    * glickoG rdj, (stickoUpdate P r rd [⟨rj, rdj, 0, f⟩]).2,
    (stickoUpdate P r rd [⟨rj, rdj, 0, f⟩]).1, by positivity, fun s => ?_⟩
  simp only [stickoUpdate, List.map_cons, List.map_nil, List.sum_cons, List.sum_nil, add_zero,
    List.length_singleton]
  rw [Prod.mk.injEq]
  constructor
  · simp only [stickoInfo, stickoE]; ring
  · simp only [stickoInfo, stickoE]

/-- A better result gives a strictly better rating and the same deviation. -/
theorem C85_sticko_order (a b : StickoRating ℝ) (c : StickoConfig ℝ)
    (ha : 0 < a.deviation) (hb : 0 < b.deviation) :
    (sticko a b .LOSS c).1.rating < (sticko a b .DRAW c).1.rating ∧
      (sticko a b .DRAW c).1.rating < (sticko a b .WIN c).1.rating ∧
      (sticko a b .WIN c).2.rating < (sticko a b .DRAW c).2.rating ∧
      (sticko a b .DRAW c).2.rating < (sticko a b .LOSS c).2.rating ∧
      ∀ o o', (sticko a b o c).1.deviation = (sticko a b o' c).1.deviation ∧
        (sticko a b o c).2.deviation = (sticko a b o' c).2.deviation := by
  obtain ⟨k, d, t, hk, e⟩ := update_points (params c) a.rating a.deviation b.rating b.deviation
    true ha
  obtain ⟨k', d', t', hk', e'⟩ := update_points (params c) b.rating b.deviation a.rating
    a.deviation false hb
  simp only [sticko_real, game, e, e', mirror, points]
  refine ⟨by linarith, by linarith, by linarith, by linarith, fun o o' => ?_⟩
  simp

/-- Without bonus and pull a win raises and a loss lowers the rating. -/
theorem C85_sticko_direction (a b : StickoRating ℝ) (c : StickoConfig ℝ)
    (ha : 0 < a.deviation) (hb : 0 < b.deviation) (hbeta : c.beta = 0) (hl : c.lambda = 0) :
    a.rating < (sticko a b .WIN c).1.rating ∧ (sticko a b .WIN c).2.rating < b.rating ∧
      (sticko a b .LOSS c).1.rating < a.rating ∧ b.rating < (sticko a b .LOSS c).2.rating := by
  have h1 := glickoOnset_pos c.c ha
  have h1' := glickoOnset_pos c.c hb
  have h2 := glickoG_pos a.deviation
  have h2' := glickoG_pos b.deviation
  have h3 := glickoQ_pos
  have h4 : ∀ x, 0 < posterior (glickoOnset a.deviation c.c ^ 2)
      (stickoInfo (params c) a.rating x) := fun x =>
    posterior_pos (by positivity) (stickoInfo_pos _ _ _).le
  have h4' : ∀ x, 0 < posterior (glickoOnset b.deviation c.c ^ 2)
      (stickoInfo (params c) b.rating x) := fun x =>
    posterior_pos (by positivity) (stickoInfo_pos _ _ _).le
  have h5 := fun x => stickoE_pos (params c) a.rating x
  have h6 := fun x => stickoE_lt_one (params c) a.rating x
  have h5' := fun x => stickoE_pos (params c) b.rating x
  have h6' := fun x => stickoE_lt_one (params c) b.rating x
  simp only [sticko_real, stickoUpdate, List.map_cons, List.map_nil, List.sum_cons, List.sum_nil,
    add_zero, game, mirror, points, show (params c).beta = 0 from hbeta,
    show (params c).lambda = 0 from hl, zero_div, zero_mul, show (params c).c = c.c from rfl]
  refine ⟨lt_add_of_pos_right _ (mul_pos (mul_pos h3 (h4 _)) (mul_pos h2' ?_)),
    add_lt_of_neg_right _ (mul_neg_of_pos_of_neg (mul_pos h3 (h4' _))
      (mul_neg_of_pos_of_neg h2 ?_)),
    add_lt_of_neg_right _ (mul_neg_of_pos_of_neg (mul_pos h3 (h4 _))
      (mul_neg_of_pos_of_neg h2' ?_)),
    lt_add_of_pos_right _ (mul_pos (mul_pos h3 (h4' _)) (mul_pos h2 ?_))⟩
  · linarith [h6 ⟨b.rating, b.deviation, 1, true⟩]
  · linarith [h5' ⟨a.rating, a.deviation, 0, false⟩]
  · linarith [h5 ⟨b.rating, b.deviation, 0, true⟩]
  · linarith [h6' ⟨a.rating, a.deviation, 1, false⟩]

example : 0 < (⟨1500, 350⟩ : StickoRating ℝ).deviation ∧
    (⟨10, 0, 0, 30, 10⟩ : StickoConfig ℝ).beta = 0 := ⟨by norm_num, rfl⟩

/-- With no information about the opponent's strength beyond the pull: `lambda` moves the
player by that percentage of the difference. -/
example (c : ℝ) (rd : ℝ) : (sticko (⟨1500, rd⟩ : StickoRating ℝ) ⟨1500, rd⟩ .DRAW
    ⟨0, 0, 2, 0, c⟩).1.rating = 1500 := by
  rw [(C85_sticko_formula _ _ _ _).1]
  simp [stickoUpdate, points, stickoE, glickoE]
  norm_num

/-! ### C47: Sticko with neutral parameters is Glicko -/

theorem C47_sticko_neutral (a b : StickoRating ℝ) (o : Outcomes) (k : ℝ)
    (ha : 0 < a.deviation) (hb : 0 < b.deviation) :
    let g := Glicko.glicko ⟨a.rating, a.deviation⟩ ⟨b.rating, b.deviation⟩ o ⟨k⟩
    sticko a b o ⟨0, 0, 0, 0, k⟩ =
      (⟨g.1.rating, g.1.deviation⟩, ⟨g.2.rating, g.2.deviation⟩) := by
  have key : ∀ r rd rj rdj s (f : Bool), 0 < rd →
      stickoUpdate ⟨0, 0, 0, 0, k⟩ r rd [⟨rj, rdj, s, f⟩] =
        ((Glicko.rated r rd rj rdj s k).rating, (Glicko.rated r rd rj rdj s k).deviation) := by
    intro r rd rj rdj s f hrd
    have hlt := Glicko.rated_deviation_lt r rj rdj s k hrd
    have hle : (Glicko.rated r rd rj rdj s k).deviation ≤ 350 :=
      hlt.le.trans (glickoOnset_le _ _)
    simp only [Glicko.rated, glickoInfo] at hle
    simp only [stickoUpdate, List.map_cons, List.map_nil, List.sum_cons, List.sum_nil, add_zero,
      stickoInfo, stickoE, zero_mul, zero_div, Glicko.rated, glickoInfo]
    rw [min_eq_left hle]
  simp only [sticko_real, Glicko.glicko_real, game, params, key _ _ _ _ _ _ ha,
    key _ _ _ _ _ _ hb, points_mirror]

theorem C47_sticko_neutral_decay (p : StickoRating ℝ) (k : ℝ) :
    decayDeviation p ⟨0, 0, 0, 0, k⟩ =
      ⟨(Glicko.decayDeviation ⟨p.rating, p.deviation⟩ ⟨k⟩).rating,
       (Glicko.decayDeviation ⟨p.rating, p.deviation⟩ ⟨k⟩).deviation⟩ := rfl

theorem C47_sticko_neutral_expected (a b : StickoRating ℝ) (h β l k : ℝ) :
    expectedScore a b ⟨h, β, l, 0, k⟩ =
      Glicko.expectedScore ⟨a.rating, a.deviation⟩ ⟨b.rating, b.deviation⟩ := by
  rw [expectedScore_real, Glicko.expectedScore_real]
  simp

theorem C47_sticko_neutral_period (p : StickoRating ℝ)
    (rs : List (StickoRating ℝ × Outcomes × Bool)) (k : ℝ) (hp : 0 < p.deviation) :
    let g := Glicko.glickoRatingPeriod ⟨p.rating, p.deviation⟩
      (rs.map fun r => (⟨r.1.rating, r.1.deviation⟩, r.2.1)) ⟨k⟩
    stickoRatingPeriod p rs ⟨0, 0, 0, 0, k⟩ = ⟨g.rating, g.deviation⟩ := by
  by_cases hr : rs = []
  · subst hr; exact C47_sticko_neutral_decay p k
  intro g
  have hr' : (rs.map fun r => ((⟨r.1.rating, r.1.deviation⟩ : Glicko.GlickoRating ℝ), r.2.1)) ≠ []
    := by simpa using hr
  have e1 : (List.map (stickoInfo ⟨0, 0, 0, 0, k⟩ p.rating) (rs.map game)).sum =
      (List.map (fun r : Glicko.GlickoRating ℝ × Outcomes =>
        glickoInfo p.rating r.1.rating r.1.deviation)
        (rs.map fun r => ((⟨r.1.rating, r.1.deviation⟩ : Glicko.GlickoRating ℝ), r.2.1))).sum := by
    simp only [List.map_map, Function.comp_def, stickoInfo, stickoE, glickoInfo, game, zero_mul,
      add_zero]
  have e2 : (List.map (fun x => glickoG x.deviation *
      (x.points - stickoE ⟨0, 0, 0, 0, k⟩ p.rating x + 0)) (rs.map game)).sum =
      (List.map (fun r : Glicko.GlickoRating ℝ × Outcomes => glickoG r.1.deviation *
        (points r.2 - glickoE p.rating r.1.rating r.1.deviation))
        (rs.map fun r => ((⟨r.1.rating, r.1.deviation⟩ : Glicko.GlickoRating ℝ), r.2.1))).sum := by
    simp only [List.map_map, Function.comp_def, stickoE, game, zero_mul, add_zero]
  have hg : g = _ := Glicko.period_real ⟨p.rating, p.deviation⟩ _ ⟨k⟩ hr'
  have h1 := glickoOnset_pos k hp
  have hi : 0 ≤ (List.map (stickoInfo ⟨0, 0, 0, 0, k⟩ p.rating) (rs.map game)).sum := by
    apply List.sum_nonneg
    intro y hy
    obtain ⟨x, -, rfl⟩ := List.mem_map.1 hy
    exact (stickoInfo_pos _ _ x).le
  have hle : √(posterior (glickoOnset p.deviation k ^ 2)
      (List.map (stickoInfo ⟨0, 0, 0, 0, k⟩ p.rating) (rs.map game)).sum) ≤ 350 := by
    apply (Real.sqrt_le_sqrt (posterior_le (by positivity) hi)).trans
    rw [Real.sqrt_sq h1.le]
    exact glickoOnset_le _ _
  rw [period_real p rs _ hr, hg, stickoUpdate]
  simp only [params, zero_div, zero_mul, add_zero] at hle e2 ⊢
  rw [min_eq_left hle, e1, e2]

theorem C47_sticko_neutral_expected_list (p : StickoRating ℝ) (os : List (StickoRating ℝ × Bool))
    (h β l k : ℝ) :
    expectedScoreRatingPeriod p os ⟨h, β, l, 0, k⟩ =
      Glicko.expectedScoreRatingPeriod ⟨p.rating, p.deviation⟩
        (os.map fun o => ⟨o.1.rating, o.1.deviation⟩) := by
  simp only [expectedScoreRatingPeriod, Glicko.expectedScoreRatingPeriod, List.map_map]
  congr 1
  funext o
  simp [Function.comp, gValue, Glicko.gValue]

example : 0 < (⟨1500, 200⟩ : StickoRating ℝ).deviation := by norm_num

/-! ### C48: expected scores -/

theorem C48_sticko_expected_formula (a b : StickoRating ℝ) (c : StickoConfig ℝ) :
    (expectedScore a b c).1 =
      glickoE (a.rating + c.gamma) b.rating √(a.deviation ^ 2 + b.deviation ^ 2) := by
  rw [expectedScore_real]

theorem C48_sticko_expected_probability (a b : StickoRating ℝ) (c : StickoConfig ℝ) :
    ProbabilityPair (expectedScore a b c) := by
  rw [expectedScore_real, glickoE_eq]; exact probabilityPair_sigmoid _

theorem C48_sticko_expected_swap (a b : StickoRating ℝ) (c : StickoConfig ℝ) :
    expectedScore b a { c with gamma := -c.gamma } =
      ((expectedScore a b c).2, (expectedScore a b c).1) := by
  have h : ∀ g : ℝ, glickoQ * (g * (b.rating + -c.gamma - a.rating))
      = -(glickoQ * (g * (a.rating + c.gamma - b.rating))) := fun g => by ring
  simp [expectedScore_real, glickoE_eq, h, sigmoid_neg, add_comm (b.deviation ^ 2)]

theorem C48_sticko_expected_mono (a b : StickoRating ℝ) (c : StickoConfig ℝ) (x : ℝ) :
    (a.rating < x → (expectedScore a b c).1 < (expectedScore { a with rating := x } b c).1) ∧
    (b.rating < x → (expectedScore a { b with rating := x } c).1 < (expectedScore a b c).1) ∧
    (c.gamma < x → (expectedScore a b c).1 < (expectedScore a b { c with gamma := x }).1) := by
  simp only [expectedScore_real, glickoE_eq, sigmoid_lt_iff]
  have := glickoQ_pos
  have := glickoG_pos √(a.deviation ^ 2 + b.deviation ^ 2)
  refine ⟨fun h => ?_, fun h => ?_, fun h => ?_⟩ <;> gcongr

/-- The list variant honours the colour flag, in any arithmetic. -/
theorem C48_sticko_expected_list {F : Type} [Flt F] (p : StickoRating F)
    (os : List (StickoRating F × Bool)) (c : StickoConfig F) :
    expectedScoreRatingPeriod p os c = os.map fun o =>
      (expectedScore p o.1 { c with gamma := if o.2 then c.gamma else -c.gamma }).1 := rfl

/-- In particular an opponent who has the first move is seen as in the pairwise function with the
seats exchanged. -/
theorem C48_sticko_expected_list_black (p b : StickoRating ℝ) (c : StickoConfig ℝ) :
    expectedScoreRatingPeriod p [(b, false)] c = [(expectedScore b p c).2] := by
  rw [C48_sticko_expected_list]
  have := C48_sticko_expected_swap b p c
  simp [this]

/-! ### C49: deviations stay in range -/

/-- What can happen to a player. -/
inductive Event
  | first (opponent : StickoRating ℝ) (outcome : Outcomes) (config : StickoConfig ℝ)
  | second (opponent : StickoRating ℝ) (outcome : Outcomes) (config : StickoConfig ℝ)
  | period (results : List (StickoRating ℝ × Outcomes × Bool)) (config : StickoConfig ℝ)
  | decay (config : StickoConfig ℝ)

/-- The configuration in force. -/
def Event.config : Event → StickoConfig ℝ
  | .first _ _ c | .second _ _ c | .period _ c | .decay c => c

/-- The player after an event. -/
noncomputable def Event.apply (p : StickoRating ℝ) : Event → StickoRating ℝ
  | .first b o c => (sticko p b o c).1
  | .second a o c => (sticko a p o c).2
  | .period rs c => stickoRatingPeriod p rs c
  | .decay c => decayDeviation p c

theorem C49_sticko_event (p : StickoRating ℝ) (e : Event) (h : 0 < p.deviation)
    (hc : 0 ≤ e.config.h) : 0 < (e.apply p).deviation ∧ (e.apply p).deviation ≤ 350 := by
  cases e with
  | first b o c =>
    simp only [Event.apply, sticko_real]
    exact update_deviation _ _ _ _ h hc
  | second a o c =>
    simp only [Event.apply, sticko_real]
    exact update_deviation _ _ _ _ h hc
  | period rs c =>
    by_cases hr : rs = []
    · subst hr
      change 0 < (decayDeviation p c).deviation ∧ (decayDeviation p c).deviation ≤ 350
      rw [decay_real]
      exact ⟨glickoOnset_pos _ h, glickoOnset_le _ _⟩
    · simp only [Event.apply, period_real p rs c hr]
      exact update_deviation _ _ _ _ h hc
  | decay c =>
    simp only [Event.apply, decay_real]
    exact ⟨glickoOnset_pos _ h, glickoOnset_le _ _⟩

theorem C49_sticko_history (p : StickoRating ℝ) (es : List Event)
    (h : 0 < p.deviation ∧ p.deviation ≤ 350) (hc : ∀ e ∈ es, 0 ≤ e.config.h) :
    0 < (es.foldl Event.apply p).deviation ∧ (es.foldl Event.apply p).deviation ≤ 350 := by
  induction es generalizing p with
  | nil => exact h
  | cons e es ih =>
    rw [List.foldl_cons]
    exact ih _ (C49_sticko_event p e h.1 (hc e (by simp))) fun e he => hc e (by simp [he])

example : 0 ≤ (StickoConfig.new : StickoConfig ℝ).h := by norm_num [StickoConfig.new]

/-! ### C50: periods -/

theorem C50_sticko_period_nil {F : Type} [Flt F] (p : StickoRating F) (c : StickoConfig F) :
    stickoRatingPeriod p [] c = decayDeviation p c ∧ (decayDeviation p c).rating = p.rating :=
  ⟨rfl, rfl⟩

theorem C50_sticko_period_single_first (p b : StickoRating ℝ) (o : Outcomes)
    (c : StickoConfig ℝ) : stickoRatingPeriod p [(b, o, true)] c = (sticko p b o c).1 := by
  rw [period_real p _ c (by simp), sticko_real]; rfl

theorem C50_sticko_period_single_second (p b : StickoRating ℝ) (o : Outcomes)
    (c : StickoConfig ℝ) :
    stickoRatingPeriod p [(b, o, false)] c = (sticko b p (mirror o) c).2 := by
  rw [period_real p _ c (by simp), sticko_real]
  cases o <;> rfl

theorem C50_sticko_period_perm (p : StickoRating ℝ)
    (rs ss : List (StickoRating ℝ × Outcomes × Bool)) (c : StickoConfig ℝ) (h : rs.Perm ss) :
    stickoRatingPeriod p rs c = stickoRatingPeriod p ss c := by
  by_cases hr : rs = []
  · subst hr; rw [h.symm.eq_nil]
  · have hs : ss ≠ [] := by rintro rfl; exact hr h.eq_nil
    rw [period_real p rs c hr, period_real p ss c hs]
    simp only [stickoUpdate, ((h.map _).map _).sum_eq, List.length_map, h.length_eq]

example (x y : StickoRating ℝ) :
    [(x, Outcomes.WIN, true), (y, .LOSS, false)].Perm [(y, .LOSS, false), (x, .WIN, true)] :=
  List.Perm.swap _ _ _

/-! ### C33, C34: decay and confidence intervals -/

theorem C33_sticko_decay_n (p : StickoRating ℝ) (c : StickoConfig ℝ) (n : ℕ)
    (h : 0 ≤ p.deviation) (h' : p.deviation ≤ 350) :
    (fun p => decayDeviation p c)^[n] p =
      ⟨p.rating, min √(p.deviation ^ 2 + n * c.c ^ 2) 350⟩ := by
  have key : (fun p => decayDeviation p c)^[n] p =
      ⟨p.rating, (fun x => glickoOnset x c.c)^[n] p.deviation⟩ := by
    induction n with
    | zero => rfl
    | succ n ih =>
      rw [Function.iterate_succ_apply', Function.iterate_succ_apply', ih, decay_real]
  have h1 := onset_iterate p.deviation c.c n
  rw [min_eq_left h'] at h1
  rcases h1 with h1 | h1
  · rw [key, h1]
  · linarith

theorem C33_sticko_decay_mono (p : StickoRating ℝ) (c : StickoConfig ℝ)
    (h : p.deviation ≤ 350) : p.deviation ≤ (decayDeviation p c).deviation := by
  rw [decay_real]
  apply le_min _ h
  apply Real.le_sqrt_of_sq_le
  nlinarith [sq_nonneg c.c]

example : 0 ≤ (⟨1500, 50⟩ : StickoRating ℝ).deviation ∧
    (⟨1500, 50⟩ : StickoRating ℝ).deviation ≤ 350 := by norm_num

theorem C34_sticko_confidence (p : StickoRating ℝ) :
    ((confidenceInterval p).1 + (confidenceInterval p).2) / 2 = p.rating ∧
      (confidenceInterval p).2 - (confidenceInterval p).1 = 3.92 * p.deviation ∧
      (0 ≤ p.deviation → (confidenceInterval p).1 ≤ p.rating ∧
        p.rating ≤ (confidenceInterval p).2) := by
  simp only [confidenceInterval, Flt.mulAdd_real]
  refine ⟨by ring, by ring, fun h => ⟨by linarith, by linarith⟩⟩

theorem C34_sticko_confidence_mono (r d d' : ℝ) (h : d ≤ d') :
    (confidenceInterval (⟨r, d'⟩ : StickoRating ℝ)).1 ≤ (confidenceInterval (⟨r, d⟩ : StickoRating ℝ)).1 ∧
      (confidenceInterval (⟨r, d⟩ : StickoRating ℝ)).2 ≤ (confidenceInterval (⟨r, d'⟩ : StickoRating ℝ)).2 := by
  simp only [confidenceInterval, Flt.mulAdd_real]
  constructor <;> linarith

end Skillratings.Sticko
