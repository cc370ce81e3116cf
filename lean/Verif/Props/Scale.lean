import Verif.Props.Fifa
import Verif.Props.Ingo
import Verif.Proofs.Glicko
import Verif.Proofs.Sticko
import Verif.Proofs.GlickoBoost
import Verif.Props.WengLin
import Verif.Props.TrueSkill
import Verif.Props.Egf
import Verif.Props.Uscf
import Verif.Proofs.Dwz
/-
C109: the zero point of a rating scale, and for Weng-Lin and TrueSkill also its unit, are
conventions: moving all ratings moves the results, and measuring ratings, uncertainties and the
dimensioned parameters in another unit gives the results in that unit.
(Elo is C04, a game of Glicko is C31, Glicko-2 is C87.)
-/
namespace Skillratings
open Real Spec

/-! ### FIFA -/

theorem C109_fifa_zero_point (a b : Fifa.FifaRating ℝ) (o : Outcomes) (c : Fifa.FifaConfig ℝ)
    (t : ℝ) :
    Fifa.fifa ⟨a.rating + t⟩ ⟨b.rating + t⟩ o c =
      (⟨(Fifa.fifa a b o c).1.rating + t⟩, ⟨(Fifa.fifa a b o c).2.rating + t⟩) := by
  have h : ∀ x y : ℝ, Fifa.guarded c (x + t) (y + (x + t)) = Fifa.guarded c x (y + x) + t := by
    intro x y
    unfold Fifa.guarded
    split_ifs
    · rw [← add_assoc, max_add_add_right]
    · ring
  simp only [Fifa.fifa_real, h, add_sub_add_right_eq_sub]

theorem C109_fifa_period_zero_point (p : Fifa.FifaRating ℝ)
    (rs : List (Fifa.FifaRating ℝ × Outcomes × Fifa.FifaConfig ℝ)) (t : ℝ) :
    Fifa.fifaRatingPeriod ⟨p.rating + t⟩ (rs.map fun r => (⟨r.1.rating + t⟩, r.2)) =
      ⟨(Fifa.fifaRatingPeriod p rs).rating + t⟩ := by
  rw [Fifa.C10_fifa_period_gauntlet, Fifa.C10_fifa_period_gauntlet]
  induction rs generalizing p with
  | nil => rfl
  | cons r rs ih =>
    simp only [gauntlet, List.map_cons, List.foldl_cons] at ih ⊢
    rw [C109_fifa_zero_point]
    exact ih _

/-! ### Ingo -/

theorem C109_ingo_zero_point (a b : Ingo.IngoRating ℝ) (o : Outcomes) (t : ℝ) :
    Ingo.ingo { a with rating := a.rating + t } { b with rating := b.rating + t } o =
      ({ (Ingo.ingo a b o).1 with rating := (Ingo.ingo a b o).1.rating + t },
       { (Ingo.ingo a b o).2 with rating := (Ingo.ingo a b o).2.rating + t }) := by
  have h1 := Ingo.development_pos a.age
  have h2 := Ingo.development_pos b.age
  simp only [Ingo.ingo, Ingo.performance_real, Ingo.development_real]
  simp only [flt, Ingo.perf, Prod.mk.injEq, Ingo.IngoRating.mk.injEq, and_true]
  constructor <;> field_simp <;> ring

theorem C109_ingo_period_zero_point (p : Ingo.IngoRating ℝ)
    (rs : List (Ingo.IngoRating ℝ × Outcomes)) (t : ℝ) (h : rs ≠ []) :
    (Ingo.ingoRatingPeriod { p with rating := p.rating + t }
        (rs.map fun r => ({ r.1 with rating := r.1.rating + t }, r.2))).rating =
      (Ingo.ingoRatingPeriod p rs).rating + t := by
  have h1 := Ingo.development_pos p.age
  have h2 : (0 : ℝ) < rs.length := by
    have := List.length_pos_iff.2 h
    exact_mod_cast this
  have h3 : (rs.map fun r => r.1.rating + t).sum
      = (rs.map fun r => r.1.rating).sum + rs.length * t := by
    rw [List.sum_map_add]; simp
  simp only [Ingo.C24_ingo_period_formula, List.length_map, List.map_map, Function.comp_def, h3,
    score]
  simp only [Ingo.perf]
  field_simp
  ring

example : ([(⟨100, 30⟩, .WIN)] : List (Ingo.IngoRating ℝ × Outcomes)) ≠ [] := by simp

/-! ### Glicko, Sticko and Glicko-Boost -/

private theorem glickoE_shift (r s rd t : ℝ) : glickoE (r + t) (s + t) rd = glickoE r s rd := by
  simp [glickoE]

theorem C109_glicko_period_zero_point (p : Glicko.GlickoRating ℝ)
    (rs : List (Glicko.GlickoRating ℝ × Outcomes)) (c : Glicko.GlickoConfig ℝ) (t : ℝ) :
    Glicko.glickoRatingPeriod { p with rating := p.rating + t }
        (rs.map fun r => ({ r.1 with rating := r.1.rating + t }, r.2)) c =
      { Glicko.glickoRatingPeriod p rs c with
        rating := (Glicko.glickoRatingPeriod p rs c).rating + t } := by
  by_cases h : rs = []
  · subst h; rfl
  rw [Glicko.period_real _ _ _ (by simpa using h), Glicko.period_real _ _ _ h]
  simp only [List.map_map, Function.comp_def, glickoInfo, glickoE_shift,
    Glicko.GlickoRating.mk.injEq, and_true]
  ring

private theorem stickoE_shift (P : StickoParams) (r : ℝ) (x : StickoGame) (t : ℝ) :
    stickoE P (r + t) { x with rating := x.rating + t } = stickoE P r x := by
  simp only [stickoE]
  rw [add_right_comm, glickoE_shift]

private theorem stickoInfo_shift (P : StickoParams) (r : ℝ) (x : StickoGame) (t : ℝ) :
    stickoInfo P (r + t) { x with rating := x.rating + t } = stickoInfo P r x := by
  simp only [stickoInfo, stickoE_shift]

private theorem boostE_shift (P : BoostParams) (r : ℝ) (x : StickoGame) (t : ℝ) :
    boostE P (r + t) { x with rating := x.rating + t } = boostE P r x := by
  simp only [boostE]
  rw [add_right_comm, glickoE_shift]

private theorem boostVar_shift (P : BoostParams) (r : ℝ) (x : StickoGame) (t : ℝ) :
    boostVar P (r + t) { x with rating := x.rating + t } = boostVar P r x := by
  simp only [boostVar, boostE_shift]

private theorem boostDelta_shift (P : BoostParams) (r : ℝ) (x : StickoGame) (t : ℝ) :
    boostDelta P (r + t) { x with rating := x.rating + t } = boostDelta P r x := by
  simp only [boostDelta, boostE_shift]

private theorem stickoUpdate_shift (P : StickoParams) (r rd : ℝ) (xs : List StickoGame) (t : ℝ)
    (h : xs ≠ []) :
    stickoUpdate P (r + t) rd (xs.map fun x => { x with rating := x.rating + t }) =
      ((stickoUpdate P r rd xs).1 + t, (stickoUpdate P r rd xs).2) := by
  have h2 : (xs.length : ℝ) ≠ 0 := by
    have := List.length_pos_iff.2 h
    positivity
  have h3 : (xs.map fun x => x.rating + t).sum
      = (xs.map StickoGame.rating).sum + xs.length * t := by
    rw [List.sum_map_add]; simp
  simp only [stickoUpdate, List.map_map, Function.comp_def, stickoInfo_shift, stickoE_shift,
    List.length_map, h3, Prod.mk.injEq, and_true, add_div, mul_div_cancel_left₀ _ h2]
  ring

theorem C109_sticko_zero_point (a b : Sticko.StickoRating ℝ) (o : Outcomes)
    (c : Sticko.StickoConfig ℝ) (t : ℝ) :
    Sticko.sticko { a with rating := a.rating + t } { b with rating := b.rating + t } o c =
      ({ (Sticko.sticko a b o c).1 with rating := (Sticko.sticko a b o c).1.rating + t },
       { (Sticko.sticko a b o c).2 with rating := (Sticko.sticko a b o c).2.rating + t }) := by
  have h1 := stickoUpdate_shift (Sticko.params c) a.rating a.deviation [Sticko.game (b, o, true)] t
    (by simp)
  have h2 := stickoUpdate_shift (Sticko.params c) b.rating b.deviation
    [Sticko.game (a, mirror o, false)] t (by simp)
  simp only [List.map_cons, List.map_nil, Sticko.game] at h1 h2
  simp only [Sticko.sticko_real, Sticko.game, h1, h2]

theorem C109_sticko_period_zero_point (p : Sticko.StickoRating ℝ)
    (rs : List (Sticko.StickoRating ℝ × Outcomes × Bool)) (c : Sticko.StickoConfig ℝ) (t : ℝ) :
    Sticko.stickoRatingPeriod { p with rating := p.rating + t }
        (rs.map fun r => ({ r.1 with rating := r.1.rating + t }, r.2)) c =
      { Sticko.stickoRatingPeriod p rs c with
        rating := (Sticko.stickoRatingPeriod p rs c).rating + t } := by
  by_cases h : rs = []
  · subst h; rfl
  have h1 := stickoUpdate_shift (Sticko.params c) p.rating p.deviation (rs.map Sticko.game) t
    (by simpa using h)
  rw [List.map_map] at h1
  rw [Sticko.period_real _ _ _ (by simpa using h), Sticko.period_real _ _ _ h]
  simp only [List.map_map]
  simp only [Function.comp_def, Sticko.game] at h1 ⊢
  simp only [h1]

private theorem boost_shift (P : BoostParams) (r rd : ℝ) (xs : List StickoGame) (t : ℝ) :
    boostRating P (r + t) rd (xs.map fun x => { x with rating := x.rating + t }) =
        boostRating P r rd xs + t ∧
      boostRd1 P (r + t) rd (xs.map fun x => { x with rating := x.rating + t }) =
        boostRd1 P r rd xs := by
  have h2 : boostRd1 P (r + t) rd (xs.map fun x => { x with rating := x.rating + t }) =
        boostRd1 P r rd xs := by
    have hz : boostZ P (r + t) (xs.map fun x => { x with rating := x.rating + t })
        = boostZ P r xs := by
      simp only [boostZ, List.map_map, Function.comp_def, boostVar_shift, boostDelta_shift]
    have hi : boostInfo P (r + t) (xs.map fun x => { x with rating := x.rating + t })
        = boostInfo P r xs := by
      simp only [boostInfo, List.map_map, Function.comp_def, boostVar_shift]
    simp only [boostRd1, boostPre, hz, hi]
  refine ⟨?_, h2⟩
  simp only [boostRating, h2, List.map_map, Function.comp_def, boostDelta_shift]
  ring

/-- Glicko-Boost: the ratings move along.  (Nothing is said of the deviations: their increase at
the end of a period depends on the rating.) -/
theorem C109_glickoBoost_zero_point (a b : GlickoBoost.GlickoBoostRating ℝ) (o : Outcomes)
    (c : GlickoBoost.GlickoBoostConfig ℝ) (t : ℝ) :
    (GlickoBoost.glickoBoost { a with rating := a.rating + t } { b with rating := b.rating + t }
        o c).1.rating = (GlickoBoost.glickoBoost a b o c).1.rating + t ∧
    (GlickoBoost.glickoBoost { a with rating := a.rating + t } { b with rating := b.rating + t }
        o c).2.rating = (GlickoBoost.glickoBoost a b o c).2.rating + t := by
  have h1 := boost_shift (GlickoBoost.params c) a.rating a.deviation
    [GlickoBoost.game (b, o, true)] t
  have h2 := boost_shift (GlickoBoost.params c) b.rating b.deviation
    [GlickoBoost.game (a, mirror o, false)] t
  simp only [List.map_cons, List.map_nil, GlickoBoost.game] at h1 h2
  simp only [GlickoBoost.glickoBoost_real, GlickoBoost.updated, GlickoBoost.game, h1.1, h2.1,
    and_self]

theorem C109_glickoBoost_period_zero_point (p : GlickoBoost.GlickoBoostRating ℝ)
    (rs : List (GlickoBoost.GlickoBoostRating ℝ × Outcomes × Bool))
    (c : GlickoBoost.GlickoBoostConfig ℝ) (t : ℝ) :
    (GlickoBoost.glickoBoostRatingPeriod { p with rating := p.rating + t }
        (rs.map fun r => ({ r.1 with rating := r.1.rating + t }, r.2)) c).rating =
      (GlickoBoost.glickoBoostRatingPeriod p rs c).rating + t := by
  by_cases h : rs = []
  · subst h; rfl
  have h1 := (boost_shift (GlickoBoost.params c) p.rating p.deviation (rs.map GlickoBoost.game) t).1
  rw [List.map_map] at h1
  rw [GlickoBoost.period_real _ _ _ (by simpa using h), GlickoBoost.period_real _ _ _ h]
  simp only [List.map_map, GlickoBoost.updated]
  simp only [Function.comp_def, GlickoBoost.game] at h1 ⊢
  simp only [h1]

/-! ### Weng-Lin -/

/-- The same strength on another scale: `s` is the new size of the unit and `t` the new place
of the zero. -/
def WengLin.rescale (s t : ℝ) (p : WengLin.WengLinRating ℝ) : WengLin.WengLinRating ℝ :=
  ⟨s * p.rating + t, s * p.uncertainty⟩

section WengLin
open WengLin

private theorem wlC_scale {s : ℝ} (hs : 0 < s) (β v w : ℝ) :
    wlC (s * β) (s ^ 2 * v) (s ^ 2 * w) = s * wlC β v w := by
  unfold wlC
  rw [show s ^ 2 * v + s ^ 2 * w + 2 * (s * β) ^ 2 = s ^ 2 * (v + w + 2 * β ^ 2) by ring,
    Real.sqrt_mul (sq_nonneg s), Real.sqrt_sq hs.le]

private theorem wlP_scale {s : ℝ} (hs : 0 < s) (c μ ν m n : ℝ) (h : m = n) :
    wlP (s * c) (s * μ + m) (s * ν + n) = wlP c μ ν := by
  subst h
  rw [wlP_eq, wlP_eq, add_sub_add_right_eq_sub, ← mul_sub, mul_div_mul_left _ _ hs.ne']

theorem C109_wengLin_scale (a b : WengLinRating ℝ) (o : Outcomes) (cfg : WengLinConfig ℝ)
    (s t : ℝ) (hs : 0 < s) :
    wengLin (rescale s t a) (rescale s t b) o { cfg with beta := s * cfg.beta } =
      (rescale s t (wengLin a b o cfg).1, rescale s t (wengLin a b o cfg).2) := by
  have h1 : ∀ x c y : ℝ, s ^ 2 * x / (s * c) * y = s * (x / c * y) := by
    intro x c y
    rw [sq, mul_assoc, mul_div_mul_left _ _ hs.ne']; ring
  have h2 : ∀ x y : ℝ, √(s ^ 2 * x * y) = s * √(x * y) := by
    intro x y
    rw [mul_assoc, Real.sqrt_mul (sq_nonneg s), Real.sqrt_sq hs.le]
  simp only [wengLin_real, rescale, mul_pow, wlC_scale hs, wlP_scale hs _ _ _ _ _ rfl, h1, h2,
    mul_div_mul_left _ _ hs.ne', Prod.mk.injEq, WengLinRating.mk.injEq, and_true]
  constructor <;> ring

theorem C109_wengLin_period_scale (p : WengLinRating ℝ) (rs : List (WengLinRating ℝ × Outcomes))
    (cfg : WengLinConfig ℝ) (s t : ℝ) (hs : 0 < s) :
    wengLinRatingPeriod (rescale s t p) (rs.map fun r => (rescale s t r.1, r.2))
        { cfg with beta := s * cfg.beta } =
      rescale s t (wengLinRatingPeriod p rs cfg) := by
  rw [C60_wengLin_period_fold, C60_wengLin_period_fold]
  induction rs generalizing p with
  | nil => rfl
  | cons r rs ih =>
    simp only [gauntlet, List.map_cons, List.foldl_cons] at ih ⊢
    rw [C109_wengLin_scale _ _ _ _ _ _ hs]
    exact ih _

private theorem side_scale (s t : ℝ) (T : List (WengLinRating ℝ)) :
    side (T.map (rescale s t)) = ⟨s * (side T).μ + T.length * t, s ^ 2 * (side T).v⟩ := by
  simp only [side, List.map_map, Function.comp_def, rescale, mul_pow, List.sum_map_add,
    List.sum_map_mul_left, List.map_const', List.sum_replicate, nsmul_eq_mul]

private theorem update_scale {s : ℝ} (hs : 0 < s) (t κ Ω Δ : ℝ) (T : List (WengLinRating ℝ)) :
    update (T.map (rescale s t)) κ (s * Ω) Δ = (update T κ Ω Δ).map (rescale s t) := by
  have h2 : ∀ x y : ℝ, √(s ^ 2 * x * y) = s * √(x * y) := by
    intro x y
    rw [mul_assoc, Real.sqrt_mul (sq_nonneg s), Real.sqrt_sq hs.le]
  simp only [update, side_scale, List.map_map, Function.comp_def, rescale, mul_pow, wlRating,
    wlUncertainty, mul_div_mul_left _ _ (pow_pos hs 2).ne', h2]
  congr 1
  funext p
  congr 1
  ring

private theorem delta_scale {s : ℝ} (hs : 0 < s) (t β x : ℝ) (S T : List (WengLinRating ℝ))
    (h : S.length = T.length ∨ t = 0) :
    wlDelta (s * β) (side (S.map (rescale s t))) (side (T.map (rescale s t))) x
        = s * wlDelta β (side S) (side T) x ∧
      wlEta (s * β) (side (S.map (rescale s t))) (side (T.map (rescale s t)))
        = wlEta β (side S) (side T) := by
  have h1 : (S.length : ℝ) * t = T.length * t := by
    rcases h with h | h
    · rw [h]
    · rw [h]; simp
  have h2 : ∀ v : ℝ, √(s ^ 2 * v) = s * √v := by
    intro v
    rw [Real.sqrt_mul (sq_nonneg s), Real.sqrt_sq hs.le]
  simp only [wlDelta, wlEta, side_scale, wlC_scale hs, wlP_scale hs _ _ _ _ _ h1,
    wlP_scale hs _ _ _ _ _ h1.symm, h2, mul_div_mul_left _ _ hs.ne', and_true]
  rw [sq, mul_assoc, mul_div_mul_left _ _ hs.ne']
  ring

/-- Teams: moving the zero needs teams of the same size, changing the unit does not. -/
theorem C109_wengLin_teams_scale (S T : List (WengLinRating ℝ)) (o : Outcomes)
    (cfg : WengLinConfig ℝ) (s t : ℝ) (hs : 0 < s) (h : S.length = T.length ∨ t = 0) :
    wengLinTwoTeams (S.map (rescale s t)) (T.map (rescale s t)) o
        { cfg with beta := s * cfg.beta } =
      ((wengLinTwoTeams S T o cfg).1.map (rescale s t),
       (wengLinTwoTeams S T o cfg).2.map (rescale s t)) := by
  by_cases h0 : S = [] ∨ T = []
  · rcases h0 with rfl | rfl <;> simp [wengLinTwoTeams]
  · push Not at h0
    rw [twoTeams_real _ _ _ _ h0.1 h0.2, twoTeams_real _ _ _ _ (by simpa using h0.1)
      (by simpa using h0.2)]
    obtain ⟨d1, e1⟩ := delta_scale hs t cfg.beta (points o) S T h
    obtain ⟨d2, e2⟩ := delta_scale hs t cfg.beta (1 - points o) T S (h.imp_left Eq.symm)
    simp only [d1, d2, e1, e2, update_scale hs]

theorem C109_wengLin_multi_scale (L : List (List (WengLinRating ℝ) × MultiTeamOutcome))
    (cfg : WengLinConfig ℝ) (s t : ℝ) (hs : 0 < s)
    (h : (∀ x ∈ L, ∀ y ∈ L, x.1.length = y.1.length) ∨ t = 0) :
    wengLinMultiTeam (L.map fun x => (x.1.map (rescale s t), x.2))
        { cfg with beta := s * cfg.beta } =
      (wengLinMultiTeam L cfg).map (List.map (rescale s t)) := by
  obtain ⟨n, T, rfl⟩ : ∃ n, ∃ T : Match n, L = List.ofFn T :=
    ⟨L.length, L.get, (List.ofFn_get L).symm⟩
  rw [List.map_ofFn]
  by_cases h0 : ∀ i, (T i).1 ≠ []
  · rw [multi_real _ _ h0, multi_real _ _ (by simpa using h0), List.map_ofFn]
    congr 1
    funext i
    have hl : ∀ q, (T i).1.length = (T q).1.length ∨ t = 0 := fun q =>
      h.imp_left fun h => h _ (List.mem_ofFn.2 ⟨i, rfl⟩) _ (List.mem_ofFn.2 ⟨q, rfl⟩)
    have hO : Omega (s * cfg.beta) ((fun x => (x.1.map (rescale s t), x.2)) ∘ T) i
        = s * Omega cfg.beta T i := by
      simp only [Omega, Function.comp, (delta_scale hs t cfg.beta _ _ _ (hl _)).1, Finset.mul_sum]
    have hD : Delta (s * cfg.beta) ((fun x => (x.1.map (rescale s t), x.2)) ∘ T) i
        = Delta cfg.beta T i := by
      simp only [Delta, Function.comp, (delta_scale hs t cfg.beta 0 _ _ (hl _)).2]
    simp only [hO, hD]
    exact update_scale hs _ _ _ _ _
  · push Not at h0
    obtain ⟨i, hi⟩ := h0
    rw [C59_wengLin_multi_empty_team _ _ ⟨_, List.mem_ofFn.2 ⟨i, rfl⟩, by simp [hi]⟩,
      C59_wengLin_multi_empty_team _ _ ⟨_, List.mem_ofFn.2 ⟨i, rfl⟩, hi⟩]
    simp [List.map_ofFn, Function.comp_def]

theorem C109_wengLin_expected_scale (a b : WengLinRating ℝ) (cfg : WengLinConfig ℝ)
    (s t : ℝ) (hs : 0 < s) :
    expectedScore (rescale s t a) (rescale s t b) { cfg with beta := s * cfg.beta } =
      expectedScore a b cfg := by
  simp only [expectedScore, c_real', pValue_real, rescale, mul_pow, wlC_scale hs,
    wlP_scale hs _ _ _ _ _ rfl]

theorem C109_wengLin_expected_teams_scale (S T : List (WengLinRating ℝ)) (cfg : WengLinConfig ℝ)
    (s t : ℝ) (hs : 0 < s) (h : S.length = T.length ∨ t = 0) :
    expectedScoreTwoTeams (S.map (rescale s t)) (T.map (rescale s t))
        { cfg with beta := s * cfg.beta } = expectedScoreTwoTeams S T cfg := by
  have h1 : (S.length : ℝ) * t = T.length * t := by
    rcases h with h | h
    · rw [h]
    · rw [h]; simp
  simp only [expectedScoreTwoTeams, teamRating_real, teamUncertaintySq_real, c_real, pValue_real,
    side_scale, wlC_scale hs, wlP_scale hs _ _ _ _ _ h1]

theorem C109_wengLin_expected_multi_scale (L : List (List (WengLinRating ℝ)))
    (cfg : WengLinConfig ℝ) (s t : ℝ) (hs : 0 < s)
    (h : (∀ x ∈ L, ∀ y ∈ L, x.length = y.length) ∨ t = 0) :
    expectedScoreMultiTeam (L.map (List.map (rescale s t))) { cfg with beta := s * cfg.beta } =
      expectedScoreMultiTeam L cfg := by
  obtain ⟨m, hm⟩ : ∃ m : ℝ, ∀ x ∈ L, (x.length : ℝ) * t = m := by
    rcases h with h | h
    · cases L with
      | nil => exact ⟨0, by simp⟩
      | cons y L =>
        exact ⟨y.length * t, fun x hx => by rw [h x hx y (by simp)]⟩
    · exact ⟨0, by simp [h]⟩
  simp only [expectedScoreMultiTeam, List.map_map, Function.comp_def, teamRating_real,
    teamUncertaintySq_real, side_scale, Flt.sum_real]
  have hu : L.map teamUncertaintySq = L.map fun x => (side x).v :=
    List.map_congr_left fun x _ => teamUncertaintySq_real x
  rw [hu]
  have hv : ((L.map fun x => s ^ 2 * (side x).v)).sum = s ^ 2 * (L.map fun x => (side x).v).sum :=
    List.sum_map_mul_left _ _ _
  have hc : Flt.sqrt (Flt.mulAdd 2.0 (Flt.powi (s * cfg.beta) 2)
      ((L.map fun x => s ^ 2 * (side x).v)).sum)
      = s * Flt.sqrt (Flt.mulAdd 2.0 (Flt.powi cfg.beta 2) (L.map fun x => (side x).v).sum) := by
    simp only [flt, hv]
    rw [show 2 * (s * cfg.beta) ^ 2 + s ^ 2 * (L.map fun x => (side x).v).sum
      = s ^ 2 * (2 * cfg.beta ^ 2 + (L.map fun x => (side x).v).sum) by ring,
      Real.sqrt_mul (sq_nonneg s), Real.sqrt_sq hs.le]
  rw [hc]
  generalize (Flt.sqrt (Flt.mulAdd 2.0 (Flt.powi cfg.beta 2) (L.map fun x => (side x).v).sum) : ℝ)
    = c
  have e : ∀ x ∈ L, Flt.exp ((s * (side x).μ + x.length * t) / (s * c))
      = exp (m / (s * c)) * Flt.exp ((side x).μ / c) := by
    intro x hx
    rw [hm x hx, Flt.exp_real, Flt.exp_real, ← Real.exp_add, add_div,
      mul_div_mul_left _ _ hs.ne', add_comm]
  have hf : ∀ (l : List (List (WengLinRating ℝ))) (a : ℝ), (∀ x ∈ l, x ∈ L) →
      List.foldl (fun x1 x2 : ℝ => x1 + x2) (exp (m / (s * c)) * a)
        (l.map fun x => Flt.exp ((s * (side x).μ + x.length * t) / (s * c)))
      = exp (m / (s * c)) * List.foldl (fun x1 x2 : ℝ => x1 + x2) a
          (l.map fun x => Flt.exp ((side x).μ / c)) := by
    intro l
    induction l with
    | nil => intro a _; rfl
    | cons y l ih =>
      intro a hl
      simp only [List.map_cons, List.foldl_cons]
      rw [e y (hl y (by simp)), ← mul_add]
      exact ih _ fun x hx => hl x (by simp [hx])
  have h0 := hf L 0 fun _ hx => hx
  rw [mul_zero] at h0
  simp only [Flt.lit_0]
  apply List.map_congr_left
  intro x hx
  rw [e x hx, h0, mul_div_mul_left _ _ (Real.exp_pos _).ne']

end WengLin

/-! ### TrueSkill -/

/-- The same strength on another scale. -/
def TrueSkill.rescale (s t : ℝ) (p : TrueSkill.TrueSkillRating ℝ) : TrueSkill.TrueSkillRating ℝ :=
  ⟨s * p.rating + t, s * p.uncertainty⟩

/-- The parameters in another unit: the draw probability is a pure number. -/
def TrueSkill.rescaleConfig (s : ℝ) (c : TrueSkill.TrueSkillConfig ℝ) :
    TrueSkill.TrueSkillConfig ℝ :=
  { c with beta := s * c.beta, dynamicsFactor := s * c.dynamicsFactor }

section TrueSkill
open TrueSkill

private theorem ts_side_scale (s t : ℝ) (T : List (TrueSkillRating ℝ)) :
    side (T.map (rescale s t))
      = ⟨(side T).n, s * (side T).μ + (side T).n * t, s ^ 2 * (side T).v⟩ := by
  simp only [side, List.map_map, Function.comp_def, rescale, mul_pow, List.sum_map_add,
    List.sum_map_mul_left, List.map_const', List.sum_replicate, nsmul_eq_mul, List.length_map]

private theorem tsC_scale {s : ℝ} (hs : 0 < s) (β x y : ℝ) (a b : TsSide) :
    tsC (s * β) ⟨a.n, x, s ^ 2 * a.v⟩ ⟨b.n, y, s ^ 2 * b.v⟩ = s * tsC β a b := by
  unfold tsC
  rw [show ((a.n + b.n : ℕ) : ℝ) * (s * β) ^ 2 + s ^ 2 * a.v + s ^ 2 * b.v
    = s ^ 2 * ((a.n + b.n : ℕ) * β ^ 2 + a.v + b.v) by ring,
    Real.sqrt_mul (sq_nonneg s), Real.sqrt_sq hs.le]

private theorem match_scale {s : ℝ} (hs : 0 < s) (t : ℝ) (cfg : TrueSkillConfig ℝ) (o : Outcomes)
    (a b : TsSide) (h : a.n = b.n ∨ t = 0) :
    matchV (rescaleConfig s cfg) o ⟨a.n, s * a.μ + a.n * t, s ^ 2 * a.v⟩
        ⟨b.n, s * b.μ + b.n * t, s ^ 2 * b.v⟩ = matchV cfg o a b ∧
      matchW (rescaleConfig s cfg) o ⟨a.n, s * a.μ + a.n * t, s ^ 2 * a.v⟩
        ⟨b.n, s * b.μ + b.n * t, s ^ 2 * b.v⟩ = matchW cfg o a b := by
  have h1 : (a.n : ℝ) * t = b.n * t := by
    rcases h with h | h
    · rw [h]
    · rw [h]; simp
  have h2 : ∀ n : ℕ, tsMargin cfg.drawProbability (s * cfg.beta) n
      = s * tsMargin cfg.drawProbability cfg.beta n := by
    intro n; simp only [tsMargin]; ring
  simp only [matchV, matchW, rescaleConfig, tsC_scale hs, h1, add_sub_add_right_eq_sub, ← mul_sub,
    h2, mul_div_mul_left _ _ hs.ne', and_self]

private theorem upd_scale {s : ℝ} (hs : 0 < s) (t : ℝ) (p : TrueSkillRating ℝ) (τ c V W : ℝ) :
    upd (rescale s t p) (s * τ) (s * c) V W = rescale s t (upd p τ c V W) := by
  have e : (s * p.uncertainty) ^ 2 + (s * τ) ^ 2 = s ^ 2 * (p.uncertainty ^ 2 + τ ^ 2) := by ring
  simp only [upd, rescale, tsRating, tsUncertainty, e, mul_pow s c, TrueSkillRating.mk.injEq,
    mul_div_mul_left _ _ (pow_pos hs 2).ne']
  constructor
  · rw [sq, mul_assoc, mul_div_mul_left _ _ hs.ne']; ring
  · rw [mul_assoc, Real.sqrt_mul (sq_nonneg s), Real.sqrt_sq hs.le]

theorem C109_trueskill_teams_scale (S T : List (TrueSkillRating ℝ)) (o : Outcomes)
    (cfg : TrueSkillConfig ℝ) (s t : ℝ) (hs : 0 < s) (h : S.length = T.length ∨ t = 0) :
    trueskillTwoTeams (S.map (rescale s t)) (T.map (rescale s t)) o (rescaleConfig s cfg) =
      ((trueskillTwoTeams S T o cfg).1.map (rescale s t),
       (trueskillTwoTeams S T o cfg).2.map (rescale s t)) := by
  by_cases h0 : S = [] ∨ T = []
  · rcases h0 with rfl | rfl <;> simp [trueskillTwoTeams]
  · push Not at h0
    rw [twoTeams_real _ _ _ _ h0.1 h0.2, twoTeams_real _ _ _ _ (by simpa using h0.1)
      (by simpa using h0.2)]
    obtain ⟨d1, e1⟩ := match_scale hs t cfg o (side S) (side T) h
    simp only [ts_side_scale, d1, e1, List.map_map, Function.comp_def]
    simp only [rescaleConfig, tsC_scale hs, upd_scale hs]

theorem C109_trueskill_scale (a b : TrueSkillRating ℝ) (o : Outcomes)
    (cfg : TrueSkillConfig ℝ) (s t : ℝ) (hs : 0 < s) :
    trueskill (rescale s t a) (rescale s t b) o (rescaleConfig s cfg) =
      (rescale s t (trueskill a b o cfg).1, rescale s t (trueskill a b o cfg).2) := by
  obtain ⟨d1, e1⟩ := match_scale hs t cfg o (solo a) (solo b) (.inl rfl)
  have h : ∀ p : TrueSkillRating ℝ, solo (rescale s t p)
      = ⟨(solo p).n, s * (solo p).μ + (solo p).n * t, s ^ 2 * (solo p).v⟩ := by
    intro p; simp [solo, rescale, mul_pow]
  simp only [trueskill_real, h, d1, e1]
  simp only [rescaleConfig, tsC_scale hs, upd_scale hs]

theorem C109_trueskill_period_scale (p : TrueSkillRating ℝ)
    (rs : List (TrueSkillRating ℝ × Outcomes)) (cfg : TrueSkillConfig ℝ) (s t : ℝ) (hs : 0 < s) :
    trueskillRatingPeriod (rescale s t p) (rs.map fun r => (rescale s t r.1, r.2))
        (rescaleConfig s cfg) =
      rescale s t (trueskillRatingPeriod p rs cfg) := by
  rw [C66_trueskill_period, C66_trueskill_period]
  induction rs generalizing p with
  | nil => rfl
  | cons r rs ih =>
    simp only [gauntlet, List.map_cons, List.foldl_cons] at ih ⊢
    rw [C109_trueskill_scale _ _ _ _ _ _ hs]
    exact ih _

private theorem root_scale {s : ℝ} (hs : 0 < s) (n β v w : ℝ) :
    √(s ^ 2 * w + (n * (s * β) ^ 2 + s ^ 2 * v)) = s * √(w + (n * β ^ 2 + v)) := by
  rw [show s ^ 2 * w + (n * (s * β) ^ 2 + s ^ 2 * v) = s ^ 2 * (w + (n * β ^ 2 + v)) by ring,
    Real.sqrt_mul (sq_nonneg s), Real.sqrt_sq hs.le]

theorem C109_trueskill_expected_scale (a b : TrueSkillRating ℝ) (cfg : TrueSkillConfig ℝ)
    (s t : ℝ) (hs : 0 < s) :
    expectedScore (rescale s t a) (rescale s t b) (rescaleConfig s cfg) =
      expectedScore a b cfg := by
  have h := root_scale hs 2 cfg.beta (a.uncertainty ^ 2) (b.uncertainty ^ 2)
  simp only [expectedScore, rescale, rescaleConfig, Flt.sqrt_real, Flt.mulAdd_real, Flt.powi_two,
    Flt.lit_2, add_sub_add_right_eq_sub, ← mul_sub]
  rw [show s * b.uncertainty * (s * b.uncertainty) + (2 * (s * cfg.beta) ^ 2
    + (s * a.uncertainty) ^ 2) = s ^ 2 * b.uncertainty ^ 2 + (2 * (s * cfg.beta) ^ 2
      + s ^ 2 * a.uncertainty ^ 2) by ring, h, mul_div_mul_left _ _ hs.ne', sq b.uncertainty]

private theorem pair_scale {s : ℝ} (hs : 0 < s) (t : ℝ) (S T : List (TrueSkillRating ℝ)) (n : ℝ)
    (cfg : TrueSkillConfig ℝ) (h : S.length = T.length ∨ t = 0) :
    pairProbability (S.map (rescale s t)) (T.map (rescale s t)) n (rescaleConfig s cfg)
      = pairProbability S T n cfg := by
  have h1 : (S.length : ℝ) * t = T.length * t := by
    rcases h with h | h
    · rw [h]
    · rw [h]; simp
  have e1 : ∀ T : List (TrueSkillRating ℝ), teamRating (T.map (rescale s t))
      = s * teamRating T + T.length * t := by
    intro T
    simp only [teamRating, Flt.sum_real, List.map_map, Function.comp_def, rescale,
      List.sum_map_add, List.sum_map_mul_left, List.map_const', List.sum_replicate, nsmul_eq_mul]
  have e2 : ∀ T : List (TrueSkillRating ℝ), teamUncertaintySq (T.map (rescale s t))
      = s ^ 2 * teamUncertaintySq T := by
    intro T
    simp only [teamUncertaintySq, Flt.sum_real, List.map_map, Function.comp_def, rescale,
      Flt.powi_two, mul_pow, List.sum_map_mul_left]
  simp only [pairProbability, e1, e2, h1, rescaleConfig, Flt.sqrt_real, Flt.mulAdd_real,
    Flt.powi_two, add_sub_add_right_eq_sub, ← mul_sub, root_scale hs,
    mul_div_mul_left _ _ hs.ne']

theorem C109_trueskill_expected_teams_scale (S T : List (TrueSkillRating ℝ))
    (cfg : TrueSkillConfig ℝ) (s t : ℝ) (hs : 0 < s) (h : S.length = T.length ∨ t = 0) :
    expectedScoreTwoTeams (S.map (rescale s t)) (T.map (rescale s t)) (rescaleConfig s cfg) =
      expectedScoreTwoTeams S T cfg := by
  have := pair_scale hs t S T (Flt.ofNat (S.length + T.length)) cfg h
  simp only [pairProbability] at this
  simp only [expectedScoreTwoTeams, List.length_map, this]

theorem C109_trueskill_expected_multi_scale (L : List (List (TrueSkillRating ℝ)))
    (cfg : TrueSkillConfig ℝ) (s t : ℝ) (hs : 0 < s)
    (h : (∀ x ∈ L, ∀ y ∈ L, x.length = y.length) ∨ t = 0) :
    expectedScoreMultiTeam (L.map (List.map (rescale s t))) (rescaleConfig s cfg) =
      expectedScoreMultiTeam L cfg := by
  have hw : ∀ x ∈ L.zipIdx, ∀ n : ℝ,
      winProbabilities (L.map (List.map (rescale s t))) (x.1.map (rescale s t)) x.2 n
        (rescaleConfig s cfg) = winProbabilities L x.1 x.2 n cfg := by
    intro x hx n
    have hx' : x.1 ∈ L := by
      have := List.mem_zipIdx hx
      rw [this.2.2]; exact List.getElem_mem _
    simp only [winProbabilities, List.zipIdx_map, List.filter_map, List.map_map, Function.comp_def]
    apply List.map_congr_left
    intro y hy
    have hy' : y.1 ∈ L := by
      have := List.mem_zipIdx (List.mem_filter.1 hy).1
      rw [this.2.2]; exact List.getElem_mem _
    exact pair_scale hs t _ _ _ _ (h.imp_left fun h => h _ hx' _ hy')
  have hn : ((L.map (List.map (rescale s t))).map List.length) = L.map List.length := by
    simp [Function.comp_def]
  have hW : ∀ n : ℝ, ((L.map (List.map (rescale s t))).zipIdx.map fun ti =>
      winProbabilities (L.map (List.map (rescale s t))) ti.1 ti.2 n (rescaleConfig s cfg))
      = L.zipIdx.map fun ti => winProbabilities L ti.1 ti.2 n cfg := by
    intro n
    rw [List.zipIdx_map, List.map_map]
    apply List.map_congr_left
    intro x hx
    exact hw x hx n
  simp only [expectedScoreMultiTeam, hn, hW]

/-- Two pairs of players. -/
example : ([⟨25, 8⟩, ⟨30, 2⟩] : List (TrueSkillRating ℝ)).length
    = ([⟨20, 3⟩, ⟨10, 1⟩] : List (TrueSkillRating ℝ)).length ∨ (7 : ℝ) = 0 := .inl rfl

/-- From the scale of the default player (25, 25/3) to that of Elo-like numbers. -/
example : (0 : ℝ) < 40 ∧ (([[TrueSkillRating.new, TrueSkillRating.new]] :
    List (List (TrueSkillRating ℝ))).length = 1 ∧ rescale 40 500 (⟨25, 5⟩ : TrueSkillRating ℝ)
      = ⟨1500, 200⟩) := by
  refine ⟨by norm_num, rfl, ?_⟩
  simp only [rescale]; norm_num

end TrueSkill

/-! ### Where the zero point matters -/

/-- EGF and USCF have an absolute floor, so no shift that pushes a result below it commutes with
the update. -/
theorem C109_egf_zero_point_matters (a b : Egf.EGFRating ℝ) (o : Outcomes) (c : Egf.EGFConfig ℝ)
    (t : ℝ) (h : (Egf.egf a b o c).1.rating + t < -900) :
    Egf.egf ⟨a.rating + t⟩ ⟨b.rating + t⟩ o c ≠
      (⟨(Egf.egf a b o c).1.rating + t⟩, ⟨(Egf.egf a b o c).2.rating + t⟩) := by
  intro he
  have h1 := (Egf.C19_egf_floor ⟨a.rating + t⟩ ⟨b.rating + t⟩ o c).1
  rw [he] at h1
  exact absurd h1 (not_le.2 h)

theorem C109_uscf_zero_point_matters (a b : Uscf.USCFRating ℝ) (o : Outcomes)
    (c : Uscf.USCFConfig ℝ) (t : ℝ) (h : (Uscf.uscf a b o c).1.rating + t < 100) :
    (Uscf.uscf { a with rating := a.rating + t } { b with rating := b.rating + t } o c).1.rating ≠
      (Uscf.uscf a b o c).1.rating + t := by
  intro he
  have h1 := (Uscf.C52_uscf_floor { a with rating := a.rating + t }
    { b with rating := b.rating + t } o c).1
  rw [he] at h1
  exact absurd h1 (not_le.2 h)

/-- In DWZ the same win over an equal opponent is worth less at a higher rating. -/
theorem C109_dwz_zero_point_matters :
    ∃ (a b : Dwz.DWZRating ℝ) (o : Outcomes) (t : ℝ),
      (Dwz.dwz { a with rating := a.rating + t } { b with rating := b.rating + t } o).1.rating ≠
        (Dwz.dwz a b o).1.rating + t := by
  refine ⟨⟨1000, 20, 40⟩, ⟨1000, 20, 40⟩, .WIN, 1000, ?_⟩
  rw [Dwz.dwz_fst_real, Dwz.dwz_fst_real]
  simp only [Dwz.expectedScore_real, Dwz.eValue_real, sub_self, mul_zero, sigmoid_zero, points]
  norm_num

/-- The rating of a team is the sum of the ratings of its players, so between teams of different
sizes the zero point matters. -/
theorem C109_wengLin_teams_zero_point_matters (p q r : WengLin.WengLinRating ℝ)
    (cfg : WengLin.WengLinConfig ℝ) (t : ℝ) (ht : 0 < t) (hp : p.uncertainty ≠ 0) :
    (WengLin.expectedScoreTwoTeams [p, q] [r] cfg).1 <
      (WengLin.expectedScoreTwoTeams ([p, q].map (WengLin.rescale 1 t))
        ([r].map (WengLin.rescale 1 t)) cfg).1 := by
  simp only [WengLin.expectedScoreTwoTeams, WengLin.teamRating_real, WengLin.teamUncertaintySq_real,
    WengLin.c_real, WengLin.pValue_real, WengLin.wlP_eq]
  have hc : 0 < wlC cfg.beta (WengLin.side [p, q]).v (WengLin.side [r]).v :=
    WengLin.wlC_pos (WengLin.side_v_nonneg _) (WengLin.side_v_nonneg _)
      (.inl (WengLin.side_v_pos (p := p) (by simp) hp))
  simp only [side_scale, one_pow, one_mul, List.length_cons, List.length_nil]
  apply sigmoid_strictMono
  apply div_lt_div_of_pos_right _ hc
  push_cast
  linarith

end Skillratings
