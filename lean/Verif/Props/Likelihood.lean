import Verif.Proofs.Elo
import Verif.Proofs.Fifa
import Verif.Proofs.Glicko
import Verif.Proofs.Glicko2
import Verif.Proofs.GlickoBoost
import Verif.Proofs.Likelihood
import Verif.Proofs.Sticko
import Verif.Proofs.WengLin
import Verif.Props.Glicko2
/-
C117, C118: rating updates as statistical estimation.
C117: Elo, FIFA and Weng-Lin move the ratings along the gradient of the log-likelihood of the result.
C118: the systems of the Glicko family perform one step of Newton's method for the most probable
rating.
-/
namespace Skillratings
open Real Spec

/-! ### C117: steps along the gradient -/

/-- Elo: the change is `k · 400/ln 10` times the slope of the log-likelihood of the result, as a
function of the rating of the player. -/
theorem C117_elo_gradient (a b : Elo.EloRating ℝ) (o : Outcomes) (c : Elo.EloConfig ℝ) :
    (∃ d, HasDerivAt (fun r => logLik (points o) (log 10 / 400 * (r - b.rating))) d a.rating ∧
      (Elo.elo a b o c).1.rating = a.rating + c.k * (400 / log 10) * d) ∧
    (∃ d, HasDerivAt (fun r => logLik (points o) (log 10 / 400 * (a.rating - r))) d b.rating ∧
      (Elo.elo a b o c).2.rating = b.rating + c.k * (400 / log 10) * d) := by
  have hl := log_ten_pos.ne'
  refine ⟨⟨_, hasDerivAt_logLik_comp (points o) (hasDerivAt_lin (log 10 / 400) b.rating _), ?_⟩,
    ⟨_, hasDerivAt_logLik_comp (points o) (hasDerivAt_lin' (log 10 / 400) a.rating _), ?_⟩⟩
  all_goals
    rw [Elo.elo_real]
    simp only
    field_simp
    ring

/-- FIFA, without penalties and outside of knockout matches. -/
theorem C117_fifa_gradient (a b : Fifa.FifaRating ℝ) (o : Outcomes) (c : Fifa.FifaConfig ℝ)
    (hp : c.penalties = false) (hk : c.knockout = false) :
    (∃ d, HasDerivAt (fun r => logLik (points o) (log 10 / 600 * (r - b.rating))) d a.rating ∧
      (Fifa.fifa a b o c).1.rating = a.rating + c.importance * (600 / log 10) * d) ∧
    (∃ d, HasDerivAt (fun r => logLik (points o) (log 10 / 600 * (a.rating - r))) d b.rating ∧
      (Fifa.fifa a b o c).2.rating = b.rating + c.importance * (600 / log 10) * d) := by
  have hl := log_ten_pos.ne'
  refine ⟨⟨_, hasDerivAt_logLik_comp (points o) (hasDerivAt_lin (log 10 / 600) b.rating _), ?_⟩,
    ⟨_, hasDerivAt_logLik_comp (points o) (hasDerivAt_lin' (log 10 / 600) a.rating _), ?_⟩⟩
  all_goals
    rw [Fifa.fifa_real]
    simp only [Fifa.guarded, Fifa.credit, Fifa.credit2, hp, hk, Bool.false_eq_true, if_false]
    field_simp
    ring

/-- A final with importance 40, decided in the regular time. -/
example : (⟨40, false, false⟩ : Fifa.FifaConfig ℝ).penalties = false ∧
    (⟨40, false, false⟩ : Fifa.FifaConfig ℝ).knockout = false := ⟨rfl, rfl⟩

/-- The log-likelihood of the results of team `i` against all others, if the rating of one of its
players changes by `x`: a win against team `q` has log odds `(μᵢ + x - μ_q)/c_{iq}`. -/
noncomputable def wlLogLik {n : ℕ} (β : ℝ) (S : Fin n → WlSide) (rank : Fin n → MultiTeamOutcome)
    (i : Fin n) (x : ℝ) : ℝ :=
  ∑ q ∈ Finset.univ.erase i, logLik (rankPoints (rank i) (rank q))
    (((S i).μ + x - (S q).μ) / wlC β (S i).v (S q).v)

/-- Weng-Lin: every player moves by the square of the uncertainty times the slope of the
log-likelihood of the results of the team. -/
theorem C117_wengLin_multi_gradient {n : ℕ}
    (t : Fin n → List (WengLin.WengLinRating ℝ) × MultiTeamOutcome) (cfg : WengLin.WengLinConfig ℝ)
    (h : ∀ i, (t i).1 ≠ []) (i : Fin n) (hu : ∃ p ∈ (t i).1, p.uncertainty ≠ 0) :
    let S : Fin n → WlSide := fun i =>
      ⟨((t i).1.map fun p => p.rating).sum, ((t i).1.map fun p => p.uncertainty ^ 2).sum⟩
    ∃ d, HasDerivAt (wlLogLik cfg.beta S (fun i => (t i).2) i) d 0 ∧
      ∃ team, (WengLin.wengLinMultiTeam (List.ofFn t) cfg)[i.val]? = some team ∧
        team.map (·.rating) = (t i).1.map fun p => p.rating + p.uncertainty ^ 2 * d := by
  intro S
  have hS : ∀ i, S i = WengLin.side (t i).1 := fun i => rfl
  have hv : 0 < (S i).v := by
    obtain ⟨p, hp, hp0⟩ := hu
    rw [hS]
    have : p.uncertainty ^ 2 ≤ (WengLin.side (t i).1).v :=
      List.single_le_sum (by
        intro x hx
        obtain ⟨p, -, rfl⟩ := List.mem_map.1 hx
        positivity) _ (List.mem_map.2 ⟨p, hp, rfl⟩)
    have : 0 < p.uncertainty ^ 2 := by positivity
    linarith
  have hd : HasDerivAt (wlLogLik cfg.beta S (fun i => (t i).2) i)
      (∑ q ∈ Finset.univ.erase i, (rankPoints (t i).2 (t q).2
        - sigmoid (((S i).μ - (S q).μ) / wlC cfg.beta (S i).v (S q).v))
          * (1 / wlC cfg.beta (S i).v (S q).v)) 0 := by
    refine HasDerivAt.fun_sum fun q _ => ?_
    have hg : HasDerivAt (fun x : ℝ => ((S i).μ + x - (S q).μ) / wlC cfg.beta (S i).v (S q).v)
        (1 / wlC cfg.beta (S i).v (S q).v) 0 :=
      (((hasDerivAt_id (0 : ℝ)).const_add (S i).μ).sub_const (S q).μ).div_const _
    have := (hasDerivAt_logLik (rankPoints (t i).2 (t q).2)
      (((S i).μ + 0 - (S q).μ) / wlC cfg.beta (S i).v (S q).v)).comp 0 hg
    rw [add_zero] at this
    exact this
  refine ⟨_, hd, WengLin.update (t i).1 cfg.uncertaintyTolerance (WengLin.Omega cfg.beta t i)
    (WengLin.Delta cfg.beta t i), by rw [WengLin.multi_real t cfg h]; simp, ?_⟩
  simp only [WengLin.update, List.map_map]
  apply List.map_congr_left
  intro p hp
  simp only [Function.comp, wlRating, WengLin.Omega, wlDelta, WengLin.wlP_eq, ← hS]
  rw [Finset.mul_sum, Finset.mul_sum]
  congr 1
  apply Finset.sum_congr rfl
  intro q _
  field_simp

/-- Two players. -/
theorem C117_wengLin_gradient (a b : WengLin.WengLinRating ℝ) (o : Outcomes)
    (cfg : WengLin.WengLinConfig ℝ) :
    let c := wlC cfg.beta (a.uncertainty ^ 2) (b.uncertainty ^ 2)
    (∃ d, HasDerivAt (fun r => logLik (points o) ((r - b.rating) / c)) d a.rating ∧
      (WengLin.wengLin a b o cfg).1.rating = a.rating + a.uncertainty ^ 2 * d) ∧
    (∃ d, HasDerivAt (fun r => logLik (points o) ((a.rating - r) / c)) d b.rating ∧
      (WengLin.wengLin a b o cfg).2.rating = b.rating + b.uncertainty ^ 2 * d) := by
  intro c
  refine ⟨⟨_, hasDerivAt_logLik_comp (points o) (hasDerivAt_frac c b.rating _), ?_⟩,
    ⟨_, hasDerivAt_logLik_comp (points o) (hasDerivAt_frac' c a.rating _), ?_⟩⟩
  all_goals
    rw [WengLin.wengLin_real]
    simp only [WengLin.wlP_eq]
    ring

/-- Two teams: the rating of every player of the first team moves by the square of the uncertainty
times the slope of the log-likelihood in the rating of the team, and likewise for the second. -/
theorem C117_wengLin_two_teams_gradient (s t : List (WengLin.WengLinRating ℝ)) (o : Outcomes)
    (cfg : WengLin.WengLinConfig ℝ) (hs : s ≠ []) (ht : t ≠ [])
    (hus : ∃ p ∈ s, p.uncertainty ≠ 0) (hut : ∃ p ∈ t, p.uncertainty ≠ 0) :
    let μ := (s.map fun p => p.rating).sum
    let ν := (t.map fun p => p.rating).sum
    let c := wlC cfg.beta (s.map fun p => p.uncertainty ^ 2).sum (t.map fun p => p.uncertainty ^ 2).sum
    (∃ d, HasDerivAt (fun x => logLik (points o) ((x - ν) / c)) d μ ∧
      (WengLin.wengLinTwoTeams s t o cfg).1.map (·.rating)
        = s.map fun p => p.rating + p.uncertainty ^ 2 * d) ∧
    (∃ d, HasDerivAt (fun x => logLik (points o) ((μ - x) / c)) d ν ∧
      (WengLin.wengLinTwoTeams s t o cfg).2.map (·.rating)
        = t.map fun p => p.rating + p.uncertainty ^ 2 * d) := by
  intro μ ν c
  have hpos : ∀ l : List (WengLin.WengLinRating ℝ), (∃ p ∈ l, p.uncertainty ≠ 0) →
      0 < (WengLin.side l).v := by
    rintro l ⟨p, hp, hp0⟩
    have : p.uncertainty ^ 2 ≤ (WengLin.side l).v :=
      List.single_le_sum (by
        intro x hx
        obtain ⟨p, -, rfl⟩ := List.mem_map.1 hx
        positivity) _ (List.mem_map.2 ⟨p, hp, rfl⟩)
    have : 0 < p.uncertainty ^ 2 := by positivity
    linarith
  have h1 := (hpos s hus).ne'
  have h2 := (hpos t hut).ne'
  refine ⟨⟨_, hasDerivAt_logLik_comp (points o) (hasDerivAt_frac c ν μ), ?_⟩,
    ⟨_, hasDerivAt_logLik_comp (points o) (hasDerivAt_frac' c μ ν), ?_⟩⟩
  · rw [WengLin.twoTeams_real s t o cfg hs ht]
    simp only [WengLin.update, List.map_map]
    apply List.map_congr_left
    intro p _
    simp only [Function.comp, wlRating, wlDelta, WengLin.wlP_eq]
    rw [show (WengLin.side s).μ = μ from rfl, show (WengLin.side t).μ = ν from rfl,
      show wlC cfg.beta (WengLin.side s).v (WengLin.side t).v = c from rfl]
    field_simp
  · rw [WengLin.twoTeams_real s t o cfg hs ht]
    simp only [WengLin.update, List.map_map]
    apply List.map_congr_left
    intro p _
    simp only [Function.comp, wlRating, wlDelta, WengLin.wlP_eq]
    rw [WengLin.wlC_comm, show (WengLin.side s).μ = μ from rfl, show (WengLin.side t).μ = ν from rfl,
      show wlC cfg.beta (WengLin.side s).v (WengLin.side t).v = c from rfl,
      show (ν - μ) / c = -((μ - ν) / c) by ring, sigmoid_neg]
    field_simp
    ring

/-- Two teams, the second with one player. -/
example : ([⟨25, 8⟩, ⟨30, 2⟩] : List (WengLin.WengLinRating ℝ)) ≠ [] ∧
    ∃ p ∈ ([⟨25, 8⟩, ⟨30, 2⟩] : List (WengLin.WengLinRating ℝ)), p.uncertainty ≠ 0 := by
  simp

/-- The curvature of the log-likelihood reduces the uncertainty: for two players the square of the
uncertainty is multiplied by `1 + (σ/c) σ² d₂`, `d₂` being the second derivative, but at least by the
tolerance. -/
theorem C117_wengLin_curvature (a b : WengLin.WengLinRating ℝ) (o : Outcomes)
    (cfg : WengLin.WengLinConfig ℝ) :
    let c := wlC cfg.beta (a.uncertainty ^ 2) (b.uncertainty ^ 2)
    (∃ d, HasDerivAt (deriv fun r => logLik (points o) ((r - b.rating) / c)) d a.rating ∧
      (WengLin.wengLin a b o cfg).1.uncertainty = √(a.uncertainty ^ 2 *
        max (1 + a.uncertainty / c * (a.uncertainty ^ 2 * d)) cfg.uncertaintyTolerance)) ∧
    (∃ d, HasDerivAt (deriv fun r => logLik (points o) ((a.rating - r) / c)) d b.rating ∧
      (WengLin.wengLin a b o cfg).2.uncertainty = √(b.uncertainty ^ 2 *
        max (1 + b.uncertainty / c * (b.uncertainty ^ 2 * d)) cfg.uncertaintyTolerance)) := by
  intro c
  have e1 : (deriv fun r => logLik (points o) ((r - b.rating) / c))
      = fun r => (points o - sigmoid ((r - b.rating) / c)) * (1 / c) := funext fun r =>
    (hasDerivAt_logLik_comp (points o) (hasDerivAt_frac c b.rating r)).deriv
  have e2 : (deriv fun r => logLik (points o) ((a.rating - r) / c))
      = fun r => (points o - sigmoid ((a.rating - r) / c)) * (-1 / c) := funext fun r =>
    (hasDerivAt_logLik_comp (points o) (hasDerivAt_frac' c a.rating r)).deriv
  rw [e1, e2]
  refine ⟨⟨_, ((hasDerivAt_sigmoid_comp (hasDerivAt_frac c b.rating _)).const_sub
      (points o)).mul_const (1 / c), ?_⟩,
    ⟨_, ((hasDerivAt_sigmoid_comp (hasDerivAt_frac' c a.rating _)).const_sub
      (points o)).mul_const (-1 / c), ?_⟩⟩
  all_goals
    rw [WengLin.wengLin_real]
    simp only [WengLin.wlP_eq]
    congr 3
    ring

/-! ### C118: steps of Newton's method -/

/-- A game against an opponent of the Glicko system. -/
noncomputable def glickoGame (r rd s : ℝ) : LikGame := ⟨log 10 / 400 * glickoG rd, r, s⟩

theorem glickoE_sigmoid (r rj rdj : ℝ) :
    glickoE r rj rdj = sigmoid (log 10 / 400 * glickoG rdj * (r - rj)) := by
  rw [glickoE, one_div, inv_one_add_pow]
  congr 1
  ring

theorem glicko_score {α : Type*} (xs : List α) (f : α → LikGame) (rj rdj s : α → ℝ) (r : ℝ)
    (hf : ∀ x, f x = glickoGame (rj x) (rdj x) (s x)) :
    score (xs.map f) r
      = glickoQ * (xs.map fun x => glickoG (rdj x) * (s x - glickoE r (rj x) (rdj x))).sum ∧
    information (xs.map f) r = (xs.map fun x => glickoInfo r (rj x) (rdj x)).sum := by
  constructor
  · rw [score, List.map_map, ← List.sum_map_mul_left]
    congr 1
    apply List.map_congr_left
    intro x _
    simp only [Function.comp, hf, glickoGame, glickoE_sigmoid, glickoQ]
    ring
  · rw [information, List.map_map]
    congr 1
    apply List.map_congr_left
    intro x _
    simp only [Function.comp, hf, glickoGame, glickoInfo, glickoE_sigmoid, glickoQ]
    ring

theorem onset_pos {rd : ℝ} (h : rd ≠ 0) (c : ℝ) : 0 < glickoOnset rd c := by
  have : 0 < rd ^ 2 := by positivity
  exact lt_min (Real.sqrt_pos.2 (by positivity)) (by norm_num)

/-- A rating period of Glicko is one step of Newton's method for the maximum of the posterior
density, starting at the old rating; the new deviation belongs to the curvature there. -/
theorem C118_glicko_period_newton (p : Glicko.GlickoRating ℝ)
    (rs : List (Glicko.GlickoRating ℝ × Outcomes)) (c : Glicko.GlickoConfig ℝ)
    (h : rs ≠ []) (hd : p.deviation ≠ 0) :
    let f := logPosterior p.rating (min √(p.deviation ^ 2 + c.c ^ 2) 350 ^ 2)
      (rs.map fun x => glickoGame x.1.rating x.1.deviation (points x.2))
    let p' := Glicko.glickoRatingPeriod p rs c
    IsNewtonStep f p.rating p'.rating (p'.deviation ^ 2) ∧ MovesTowardsMode f p.rating p'.rating := by
  intro f p'
  have hv : 0 < glickoOnset p.deviation c.c ^ 2 := by have := onset_pos hd c.c; positivity
  have key := newton_logPosterior (m := p.rating) hv
    (rs.map fun x => glickoGame x.1.rating x.1.deviation (points x.2))
  obtain ⟨e1, e2⟩ := glicko_score rs _ (fun x => x.1.rating) (fun x => x.1.deviation)
    (fun x => points x.2) p.rating fun x => rfl
  have hi := information_nonneg (rs.map fun x => glickoGame x.1.rating x.1.deviation (points x.2))
    p.rating
  rw [e2] at hi
  rw [e1, e2] at key
  have hN : IsNewtonStep f p.rating p'.rating (p'.deviation ^ 2) := by
    simp only [p', f]
    rw [Glicko.period_real p rs c h]
    simp only [posterior]
    rw [Real.sq_sqrt (by positivity)]
    exact key.of_eq (by ring) rfl
  exact ⟨hN, newton_towards hv _ hN⟩

/-- One game of Glicko. -/
theorem C118_glicko_newton (a b : Glicko.GlickoRating ℝ) (o : Outcomes) (c : Glicko.GlickoConfig ℝ)
    (ha : a.deviation ≠ 0) (hb : b.deviation ≠ 0) :
    let f := logPosterior a.rating (min √(a.deviation ^ 2 + c.c ^ 2) 350 ^ 2)
      [glickoGame b.rating b.deviation (points o)]
    let g := logPosterior b.rating (min √(b.deviation ^ 2 + c.c ^ 2) 350 ^ 2)
      [glickoGame a.rating a.deviation (1 - points o)]
    let r := Glicko.glicko a b o c
    (IsNewtonStep f a.rating r.1.rating (r.1.deviation ^ 2) ∧ MovesTowardsMode f a.rating r.1.rating) ∧
    (IsNewtonStep g b.rating r.2.rating (r.2.deviation ^ 2) ∧
      MovesTowardsMode g b.rating r.2.rating) := by
  have gen : ∀ x y : Glicko.GlickoRating ℝ, ∀ s : ℝ, x.deviation ≠ 0 →
      IsNewtonStep (logPosterior x.rating (glickoOnset x.deviation c.c ^ 2)
        [glickoGame y.rating y.deviation s]) x.rating
        (Glicko.rated x.rating x.deviation y.rating y.deviation s c.c).rating
        ((Glicko.rated x.rating x.deviation y.rating y.deviation s c.c).deviation ^ 2) ∧
      MovesTowardsMode (logPosterior x.rating (glickoOnset x.deviation c.c ^ 2)
        [glickoGame y.rating y.deviation s]) x.rating
        (Glicko.rated x.rating x.deviation y.rating y.deviation s c.c).rating := by
    intro x y s hx
    have hv : 0 < glickoOnset x.deviation c.c ^ 2 := by have := onset_pos hx c.c; positivity
    have key := newton_logPosterior (m := x.rating) hv [glickoGame y.rating y.deviation s]
    obtain ⟨e1, e2⟩ := glicko_score [()] (fun _ => glickoGame y.rating y.deviation s)
      (fun _ => y.rating) (fun _ => y.deviation) (fun _ => s) x.rating fun x => rfl
    simp only [List.map_cons, List.map_nil, List.sum_cons, List.sum_nil, add_zero] at e1 e2
    have hi := information_nonneg [glickoGame y.rating y.deviation s] x.rating
    rw [e2] at hi
    rw [e1, e2] at key
    have hN : IsNewtonStep (logPosterior x.rating (glickoOnset x.deviation c.c ^ 2)
        [glickoGame y.rating y.deviation s]) x.rating
        (Glicko.rated x.rating x.deviation y.rating y.deviation s c.c).rating
        ((Glicko.rated x.rating x.deviation y.rating y.deviation s c.c).deviation ^ 2) := by
      simp only [Glicko.rated, posterior]
      rw [Real.sq_sqrt (by positivity)]
      exact key.of_eq (by ring) rfl
    exact ⟨hN, newton_towards hv _ hN⟩
  intro f g r
  simp only [r, Glicko.glicko_real]
  exact ⟨gen a b _ ha, gen b a _ hb⟩

example : (⟨1500, 350⟩ : Glicko.GlickoRating ℝ).deviation ≠ 0 := by norm_num

/-- A game against an opponent of the Glicko-2 system, on the public scale. -/
noncomputable def glicko2Game (r rd s : ℝ) : LikGame :=
  ⟨glicko2G (rd / 173.7178) / 173.7178, r, s⟩

theorem scale_pos : (0 : ℝ) < glicko2Scale := by norm_num [glicko2Scale]

theorem glicko2_score (rs : List (Glicko2.Glicko2Rating ℝ × Outcomes)) (r : ℝ) :
    score (rs.map fun x => glicko2Game x.1.rating x.1.deviation (points x.2)) r
      = glicko2Gain (glicko2Mu r) (rs.map Glicko2.game) / glicko2Scale ∧
    information (rs.map fun x => glicko2Game x.1.rating x.1.deviation (points x.2)) r
      = 1 / glicko2V (glicko2Mu r) (rs.map Glicko2.game) / glicko2Scale ^ 2 := by
  have hs := scale_pos.ne'
  have eE : ∀ x : Glicko2.Glicko2Rating ℝ × Outcomes,
      glicko2E (glicko2Mu r) (Glicko2.game x).μ (Glicko2.game x).φ
      = sigmoid (glicko2G (x.1.deviation / 173.7178) / 173.7178 * (r - x.1.rating)) := by
    intro x
    rw [Glicko2.E_eq]
    congr 1
    simp only [Glicko2.game, glicko2Mu, glicko2Phi, glicko2Scale]
    ring
  constructor
  · rw [score, glicko2Gain, List.map_map, List.map_map, div_eq_inv_mul, ← List.sum_map_mul_left]
    congr 1
    apply List.map_congr_left
    intro x _
    simp only [Function.comp, eE, glicko2Game]
    simp only [Glicko2.game, glicko2Phi, glicko2Scale]
    ring
  · rw [information, glicko2V, List.map_map, List.map_map, one_div_one_div, div_eq_inv_mul,
      ← List.sum_map_mul_left]
    congr 1
    apply List.map_congr_left
    intro x _
    simp only [Function.comp, eE, glicko2Game]
    simp only [Glicko2.game, glicko2Phi, glicko2Scale]
    ring

theorem glicko2_newton (p : Glicko2.Glicko2Rating ℝ)
    (rs : List (Glicko2.Glicko2Rating ℝ × Outcomes)) (σ : ℝ) (hd : p.deviation ≠ 0) :
    let f := logPosterior p.rating (p.deviation ^ 2 + (173.7178 * σ) ^ 2)
      (rs.map fun x => glicko2Game x.1.rating x.1.deviation (points x.2))
    let p' := Glicko2.updated p.rating p.deviation (rs.map Glicko2.game) σ
    IsNewtonStep f p.rating p'.rating (p'.deviation ^ 2) ∧ MovesTowardsMode f p.rating p'.rating := by
  intro f p'
  simp only [p', Glicko2.updated]
  have hv : 0 < p.deviation ^ 2 + (173.7178 * σ) ^ 2 := by
    have : 0 < p.deviation ^ 2 := by positivity
    positivity
  have key := newton_logPosterior (m := p.rating) hv
    (rs.map fun x => glicko2Game x.1.rating x.1.deviation (points x.2))
  obtain ⟨e1, e2⟩ := glicko2_score rs p.rating
  have hi := information_nonneg (rs.map fun x => glicko2Game x.1.rating x.1.deviation (points x.2))
    p.rating
  rw [e2] at hi
  rw [e1, e2] at key
  have hs := scale_pos
  set V := glicko2V (glicko2Mu p.rating) (rs.map Glicko2.game)
  set G := glicko2Gain (glicko2Mu p.rating) (rs.map Glicko2.game)
  have hV : 0 ≤ 1 / V := by
    have h2 := mul_nonneg hi (sq_nonneg glicko2Scale)
    rwa [div_mul_cancel₀ _ (by positivity)] at h2
  have hprior : p.deviation ^ 2 + (173.7178 * σ) ^ 2
      = glicko2Scale ^ 2 * (glicko2Phi p.deviation ^ 2 + σ ^ 2) := by
    simp only [glicko2Phi, glicko2Scale]; ring
  have hq : 0 < glicko2Phi p.deviation ^ 2 + σ ^ 2 := by
    rw [hprior] at hv
    exact pos_of_mul_pos_right hv (by positivity)
  set q := glicko2Phi p.deviation ^ 2 + σ ^ 2
  have hphi : glicko2NewPhi (glicko2Phi p.deviation) σ V ^ 2 = 1 / (1 / q + 1 / V) := by
    rw [glicko2NewPhi, div_pow, one_pow, Real.sq_sqrt (by positivity)]
  have hinv : 1 / (1 / (p.deviation ^ 2 + (173.7178 * σ) ^ 2) + 1 / V / glicko2Scale ^ 2)
      = glicko2Scale ^ 2 * (1 / (1 / q + 1 / V)) := by
    have hpos : 0 < 1 / q + 1 / V := by positivity
    rw [hprior, show 1 / (glicko2Scale ^ 2 * q) + 1 / V / glicko2Scale ^ 2
      = (1 / q + 1 / V) / glicko2Scale ^ 2 by field_simp]
    rw [one_div_div, ← mul_one_div]
  have hN : IsNewtonStep f p.rating (glicko2NewMu (glicko2Mu p.rating)
      (glicko2NewPhi (glicko2Phi p.deviation) σ V) G * glicko2Scale + 1500)
      ((glicko2NewPhi (glicko2Phi p.deviation) σ V * glicko2Scale) ^ 2) := by
    rw [hinv] at key
    refine key.of_eq ?_ ?_
    · rw [glicko2NewMu, hphi, glicko2Mu]
      field_simp
      ring
    · rw [mul_pow, hphi]; ring
  exact ⟨hN, newton_towards hv _ hN⟩

/-- A rating period of Glicko-2: the prior variance contains the new volatility. -/
theorem C118_glicko2_period_newton (p p' : Glicko2.Glicko2Rating ℝ)
    (rs : List (Glicko2.Glicko2Rating ℝ × Outcomes)) (c : Glicko2.Glicko2Config ℝ)
    (h : rs ≠ []) (hd : p.deviation ≠ 0) (hr : Glicko2.glicko2RatingPeriod p rs c = some p') :
    let f := logPosterior p.rating (p.deviation ^ 2 + (173.7178 * p'.volatility) ^ 2)
      (rs.map fun x => glicko2Game x.1.rating x.1.deviation (points x.2))
    IsNewtonStep f p.rating p'.rating (p'.deviation ^ 2) ∧ MovesTowardsMode f p.rating p'.rating := by
  rw [Glicko2.period_real p rs c h] at hr
  obtain ⟨σ, -, rfl⟩ := Option.map_eq_some_iff.1 hr
  exact glicko2_newton p rs σ hd

/-- One game of Glicko-2. -/
theorem C118_glicko2_newton (a b a' b' : Glicko2.Glicko2Rating ℝ) (o : Outcomes)
    (c : Glicko2.Glicko2Config ℝ) (ha : a.deviation ≠ 0) (hb : b.deviation ≠ 0)
    (hr : Glicko2.glicko2 a b o c = some (a', b')) :
    let f := logPosterior a.rating (a.deviation ^ 2 + (173.7178 * a'.volatility) ^ 2)
      [glicko2Game b.rating b.deviation (points o)]
    let g := logPosterior b.rating (b.deviation ^ 2 + (173.7178 * b'.volatility) ^ 2)
      [glicko2Game a.rating a.deviation (1 - points o)]
    (IsNewtonStep f a.rating a'.rating (a'.deviation ^ 2) ∧ MovesTowardsMode f a.rating a'.rating) ∧
    (IsNewtonStep g b.rating b'.rating (b'.deviation ^ 2) ∧ MovesTowardsMode g b.rating b'.rating) := by
  rw [Glicko2.glicko2_real] at hr
  obtain ⟨σ₁, -, hr⟩ := Option.bind_eq_some_iff.1 hr
  obtain ⟨σ₂, -, hr⟩ := Option.map_eq_some_iff.1 hr
  obtain ⟨rfl, rfl⟩ := Prod.mk.inj hr
  have h1 := glicko2_newton a [(b, o)] σ₁ ha
  have h2 := glicko2_newton b [(a, mirror o)] σ₂ hb
  simp only [List.map_cons, List.map_nil, points_mirror] at h1 h2
  exact ⟨h1, h2⟩

/-- A strong newcomer beats a master. -/
example : (⟨1500, 350, 0.06⟩ : Glicko2.Glicko2Rating ℝ).deviation ≠ 0 ∧
    ∃ a' b', Glicko2.glicko2 (⟨1500, 350, 0.06⟩ : Glicko2.Glicko2Rating ℝ) ⟨2100, 40, 0.05⟩ .WIN
      Glicko2.Glicko2Config.new = some (a', b') := by
  refine ⟨by norm_num, ?_⟩
  obtain ⟨⟨a', b'⟩, h⟩ := Glicko2.C37_glicko2_returns_default (⟨1500, 350, 0.06⟩)
    (⟨2100, 40, 0.05⟩) .WIN (by norm_num)
  exact ⟨a', b', h⟩

/-- Glicko-Boost, unless the deviation is boosted or exceeds 350: the new rating is the result of a
step of Newton's method, the player of the first move having an advantage of `η` points. -/
theorem C118_glickoBoost_period_newton (p : GlickoBoost.GlickoBoostRating ℝ)
    (rs : List (GlickoBoost.GlickoBoostRating ℝ × Outcomes × Bool))
    (c : GlickoBoost.GlickoBoostConfig ℝ) (h : rs ≠ []) (hd : 0 < p.deviation)
    (hd2 : p.deviation ≤ 350)
    (hb : boostPre (GlickoBoost.params c) p.rating p.deviation (rs.map GlickoBoost.game)
      = p.deviation) :
    let f := logPosterior p.rating (p.deviation ^ 2)
      (rs.map fun x => glickoGame (x.1.rating - c.eta * colour x.2.2) x.1.deviation (points x.2.1))
    let p' := GlickoBoost.glickoBoostRatingPeriod p rs c
    ∃ v, IsNewtonStep f p.rating p'.rating v ∧ MovesTowardsMode f p.rating p'.rating := by
  intro f p'
  have hv : 0 < p.deviation ^ 2 := by positivity
  have key := newton_logPosterior (m := p.rating) hv (rs.map fun x =>
    glickoGame (x.1.rating - c.eta * colour x.2.2) x.1.deviation (points x.2.1))
  obtain ⟨e1, e2⟩ := glicko_score rs _ (fun x => x.1.rating - c.eta * colour x.2.2)
    (fun x => x.1.deviation) (fun x => points x.2.1) p.rating fun x => rfl
  have hi := information_nonneg (rs.map fun x =>
    glickoGame (x.1.rating - c.eta * colour x.2.2) x.1.deviation (points x.2.1)) p.rating
  rw [e2] at hi
  rw [e1, e2] at key
  have hE : ∀ x : GlickoBoost.GlickoBoostRating ℝ × Outcomes × Bool,
      glickoE p.rating (x.1.rating - c.eta * colour x.2.2) x.1.deviation
      = boostE (GlickoBoost.params c) p.rating (GlickoBoost.game x) := by
    intro x
    simp only [boostE, glickoE, GlickoBoost.game, GlickoBoost.params]
    congr 4
    ring
  have hsum : (rs.map fun x => glickoG x.1.deviation * (points x.2.1
      - glickoE p.rating (x.1.rating - c.eta * colour x.2.2) x.1.deviation)).sum
      = ((rs.map GlickoBoost.game).map (boostDelta (GlickoBoost.params c) p.rating)).sum := by
    rw [List.map_map]
    congr 1
    apply List.map_congr_left
    intro x _
    simp only [Function.comp, boostDelta, hE]
    rfl
  have hinfo : (rs.map fun x => glickoInfo p.rating (x.1.rating - c.eta * colour x.2.2)
      x.1.deviation).sum = boostInfo (GlickoBoost.params c) p.rating (rs.map GlickoBoost.game) := by
    rw [boostInfo, ← List.sum_map_mul_left, List.map_map]
    congr 1
    apply List.map_congr_left
    intro x _
    simp only [Function.comp, boostVar, glickoInfo, hE, GlickoBoost.game]
    ring
  rw [hinfo] at key hi
  rw [hsum] at key
  have hpost : posterior (p.deviation ^ 2)
      (boostInfo (GlickoBoost.params c) p.rating (rs.map GlickoBoost.game)) ≤ p.deviation ^ 2 := by
    rw [posterior, one_div_le (by positivity) hv]
    linarith
  have hp0 : 0 ≤ posterior (p.deviation ^ 2)
      (boostInfo (GlickoBoost.params c) p.rating (rs.map GlickoBoost.game)) := by
    rw [posterior]; positivity
  have hrd : boostRd1 (GlickoBoost.params c) p.rating p.deviation (rs.map GlickoBoost.game) ^ 2
      = posterior (p.deviation ^ 2)
        (boostInfo (GlickoBoost.params c) p.rating (rs.map GlickoBoost.game)) := by
    rw [boostRd1, hb, min_eq_left, Real.sq_sqrt hp0]
    refine (Real.sqrt_le_sqrt hpost).trans ?_
    rw [Real.sqrt_sq hd.le]
    exact hd2
  have hN : IsNewtonStep f p.rating p'.rating (posterior (p.deviation ^ 2)
        (boostInfo (GlickoBoost.params c) p.rating (rs.map GlickoBoost.game))) := by
    simp only [p']
    rw [GlickoBoost.period_real p rs c h]
    simp only [GlickoBoost.updated, boostRating, hrd]
    simp only [posterior]
    exact key.of_eq (by ring) rfl
  exact ⟨_, hN, newton_towards hv _ hN⟩

/-- Without the boost (`k = 0`), for a player of deviation 100. -/
example (c : GlickoBoost.GlickoBoostConfig ℝ) (hk : c.k = 0) (xs : List StickoGame) :
    (0 : ℝ) < 100 ∧ (100 : ℝ) ≤ 350 ∧ boostPre (GlickoBoost.params c) 1500 100 xs = 100 := by
  refine ⟨by norm_num, by norm_num, if_neg ?_⟩
  rintro ⟨-, h⟩
  exact h hk

/-- Sticko: the bonus `β` for every game counts as extra points, and after the step of Newton's method
the rating moves towards the mean rating of the opponents by `λ` percent of the difference. -/
theorem C118_sticko_period_newton (p : Sticko.StickoRating ℝ)
    (rs : List (Sticko.StickoRating ℝ × Outcomes × Bool)) (c : Sticko.StickoConfig ℝ)
    (h : rs ≠ []) (hd : p.deviation ≠ 0) :
    let f := logPosterior p.rating (min √(p.deviation ^ 2 + c.c ^ 2) 350 ^ 2)
      (rs.map fun x => glickoGame (x.1.rating - c.gamma * colour x.2.2) x.1.deviation
        (points x.2.1 + c.beta))
    let p' := Sticko.stickoRatingPeriod p rs c
    ∃ r v, IsNewtonStep f p.rating r v ∧ MovesTowardsMode f p.rating r ∧
      p'.rating = r + c.lambda / 100 * ((rs.map fun x => x.1.rating).sum / rs.length - p.rating) ∧
      (c.h = 0 → p'.deviation ^ 2 = v) := by
  intro f p'
  have hv : 0 < glickoOnset p.deviation c.c ^ 2 := by have := onset_pos hd c.c; positivity
  have key := newton_logPosterior (m := p.rating) hv (rs.map fun x =>
    glickoGame (x.1.rating - c.gamma * colour x.2.2) x.1.deviation (points x.2.1 + c.beta))
  obtain ⟨e1, e2⟩ := glicko_score rs _ (fun x => x.1.rating - c.gamma * colour x.2.2)
    (fun x => x.1.deviation) (fun x => points x.2.1 + c.beta) p.rating fun x => rfl
  have hi := information_nonneg (rs.map fun x =>
    glickoGame (x.1.rating - c.gamma * colour x.2.2) x.1.deviation (points x.2.1 + c.beta)) p.rating
  rw [e2] at hi
  rw [e1, e2] at key
  have hE : ∀ x : Sticko.StickoRating ℝ × Outcomes × Bool,
      glickoE p.rating (x.1.rating - c.gamma * colour x.2.2) x.1.deviation
      = stickoE (Sticko.params c) p.rating (Sticko.game x) := by
    intro x
    simp only [stickoE, glickoE, Sticko.game, Sticko.params]
    congr 4
    ring
  have hsum : (rs.map fun x => glickoG x.1.deviation * (points x.2.1 + c.beta
      - glickoE p.rating (x.1.rating - c.gamma * colour x.2.2) x.1.deviation)).sum
      = ((rs.map Sticko.game).map fun x => glickoG x.deviation *
        (x.points - stickoE (Sticko.params c) p.rating x + (Sticko.params c).beta)).sum := by
    rw [List.map_map]
    congr 1
    apply List.map_congr_left
    intro x _
    simp only [Function.comp, hE]
    simp only [Sticko.game, Sticko.params]
    ring
  have hinfo : (rs.map fun x => glickoInfo p.rating (x.1.rating - c.gamma * colour x.2.2)
      x.1.deviation).sum
      = ((rs.map Sticko.game).map (stickoInfo (Sticko.params c) p.rating)).sum := by
    rw [List.map_map]
    congr 1
    apply List.map_congr_left
    intro x _
    simp only [Function.comp, stickoInfo, glickoInfo, hE]
    simp only [Sticko.game]
  rw [hinfo] at key hi
  rw [hsum] at key
  refine ⟨_, _, key, newton_towards hv _ key, ?_, ?_⟩
  · simp only [p']
    rw [Sticko.period_real p rs c h]
    simp only [stickoUpdate, posterior, List.map_map, List.length_map]
    rw [show (Sticko.params c).c = c.c from rfl, show (Sticko.params c).lambda = c.lambda from rfl]
    rw [show (StickoGame.rating ∘ Sticko.game) = fun x : Sticko.StickoRating ℝ × Outcomes × Bool =>
      x.1.rating from rfl]
    ring
  · intro hh
    simp only [p']
    rw [Sticko.period_real p rs c h]
    simp only [stickoUpdate]
    rw [show (Sticko.params c).c = c.c from rfl, show (Sticko.params c).h = c.h from rfl, hh, zero_mul,
      add_zero]
    have hp0 : 0 ≤ posterior (glickoOnset p.deviation c.c ^ 2)
        ((rs.map Sticko.game).map (stickoInfo (Sticko.params c) p.rating)).sum := by
      rw [posterior]; positivity
    have hpost : posterior (glickoOnset p.deviation c.c ^ 2)
        ((rs.map Sticko.game).map (stickoInfo (Sticko.params c) p.rating)).sum
        ≤ glickoOnset p.deviation c.c ^ 2 := by
      rw [posterior, one_div_le (by positivity) hv]
      linarith
    rw [min_eq_left, Real.sq_sqrt hp0, posterior]
    refine (Real.sqrt_le_sqrt hpost).trans ?_
    rw [Real.sqrt_sq (onset_pos hd c.c).le]
    exact min_le_right _ _

example : (⟨1500, 350⟩ : Sticko.StickoRating ℝ).deviation ≠ 0 ∧
    ([(⟨1700, 60⟩, .DRAW, true)] : List (Sticko.StickoRating ℝ × Outcomes × Bool)) ≠ [] := by
  norm_num

end Skillratings
