import Mathlib.Analysis.SpecialFunctions.Sigmoid
import Verif.Proofs.ChainBounds
import Verif.Props.WengLin
import Verif.Props.TrueSkill
import Verif.Spec.Fairness
/-
C122: better results and ratings in Weng-Lin and TrueSkill.  A single match is monotone, a rating
period is not: a better result in an early game can leave a larger uncertainty, and then later losses
cost more than the better result was worth.
-/
namespace Skillratings.WengLin
open Real Spec Filter Topology

/-- A better result of a single game. -/
theorem C122_wengLin_mono (a b : WengLinRating ℝ) (o o' : Outcomes) (cfg : WengLinConfig ℝ)
    (ho : points o ≤ points o') :
    (wengLin a b o cfg).1.rating ≤ (wengLin a b o' cfg).1.rating ∧
    (wengLin a b o' cfg).2.rating ≤ (wengLin a b o cfg).2.rating ∧
    (wengLin a b o cfg).1.uncertainty = (wengLin a b o' cfg).1.uncertainty ∧
    (wengLin a b o cfg).2.uncertainty = (wengLin a b o' cfg).2.uncertainty := by
  rw [wengLin_real, wengLin_real]
  have hc : 0 ≤ wlC cfg.beta (a.uncertainty ^ 2) (b.uncertainty ^ 2) := Real.sqrt_nonneg _
  refine ⟨?_, ?_, rfl, rfl⟩ <;> dsimp only <;> gcongr

/-- A better result of a match of two teams. -/
theorem C122_wengLin_two_teams_mono (s t : List (WengLinRating ℝ)) (o o' : Outcomes)
    (cfg : WengLinConfig ℝ) (ho : points o ≤ points o') :
    List.Forall₂ (fun p p' : WengLinRating ℝ => p.rating ≤ p'.rating ∧ p.uncertainty = p'.uncertainty)
      (wengLinTwoTeams s t o cfg).1 (wengLinTwoTeams s t o' cfg).1 ∧
    List.Forall₂ (fun p p' : WengLinRating ℝ => p'.rating ≤ p.rating ∧ p.uncertainty = p'.uncertainty)
      (wengLinTwoTeams s t o cfg).2 (wengLinTwoTeams s t o' cfg).2 := by
  by_cases hs : s = []
  · subst hs
    simp [wengLinTwoTeams, List.forall₂_same]
  by_cases ht : t = []
  · subst ht
    simp [wengLinTwoTeams, List.forall₂_same]
  rw [twoTeams_real s t o cfg hs ht, twoTeams_real s t o' cfg hs ht]
  have hvs := side_v_nonneg s
  have hvt := side_v_nonneg t
  simp only [update, List.forall₂_map_left_iff, List.forall₂_map_right_iff, List.forall₂_same,
    wlRating, wlDelta]
  have hc : 0 ≤ wlC cfg.beta (side s).v (side t).v := Real.sqrt_nonneg _
  have hc' : 0 ≤ wlC cfg.beta (side t).v (side s).v := Real.sqrt_nonneg _
  refine ⟨fun p _ => ⟨?_, trivial⟩, fun p _ => ⟨?_, trivial⟩⟩ <;> gcongr

/-- A better rank of one team of a match of several teams. -/
theorem C122_wengLin_multi_mono {n : ℕ} (t t' : Fin n → List (WengLinRating ℝ) × MultiTeamOutcome)
    (cfg : WengLinConfig ℝ) (h : ∀ i, (t i).1 ≠ []) (hteams : ∀ i, (t' i).1 = (t i).1) (i : Fin n)
    (hrank : ∀ q, q ≠ i → rankPoints (t i).2 (t q).2 ≤ rankPoints (t' i).2 (t' q).2) :
    ∃ team team', (wengLinMultiTeam (List.ofFn t) cfg)[(i : ℕ)]? = some team ∧
      (wengLinMultiTeam (List.ofFn t') cfg)[(i : ℕ)]? = some team' ∧
      List.Forall₂ (fun p p' : WengLinRating ℝ =>
        p.rating ≤ p'.rating ∧ p.uncertainty = p'.uncertainty) team team' := by
  rw [multi_real t cfg h, multi_real t' cfg (fun i => by rw [hteams]; exact h i)]
  refine ⟨_, _, by simp only [List.getElem?_ofFn, Fin.is_lt, dif_pos, Fin.eta]; rfl,
    by simp only [List.getElem?_ofFn, Fin.is_lt, dif_pos, Fin.eta]; rfl, ?_⟩
  have hv := side_v_nonneg (t i).1
  have hD : Delta cfg.beta t' i = Delta cfg.beta t i := by simp only [Delta, hteams]
  have hO : Omega cfg.beta t i ≤ Omega cfg.beta t' i := by
    simp only [Omega, hteams]
    refine Finset.sum_le_sum fun q hq => ?_
    have hc : 0 ≤ wlC cfg.beta (side (t i).1).v (side (t q).1).v := Real.sqrt_nonneg _
    have := hrank q (Finset.ne_of_mem_erase hq)
    simp only [wlDelta]
    gcongr
  simp only [update, hteams, List.forall₂_map_left_iff, List.forall₂_map_right_iff,
    List.forall₂_same, wlRating, hD]
  exact fun p _ => ⟨by gcongr, trivial⟩

/-- A rating period whose last result is better. -/
theorem C122_wengLin_period_last_partial (p q : WengLinRating ℝ) (o o' : Outcomes)
    (rs : List (WengLinRating ℝ × Outcomes)) (cfg : WengLinConfig ℝ) (ho : points o ≤ points o') :
    (wengLinRatingPeriod p (rs ++ [(q, o)]) cfg).rating
      ≤ (wengLinRatingPeriod p (rs ++ [(q, o')]) cfg).rating ∧
    (wengLinRatingPeriod p (rs ++ [(q, o)]) cfg).uncertainty
      = (wengLinRatingPeriod p (rs ++ [(q, o')]) cfg).uncertainty := by
  simp only [wengLinRatingPeriod, List.foldl_append, List.foldl_cons, List.foldl_nil]
  have := C122_wengLin_mono (List.foldl (periodStep cfg) p rs) q o o' cfg ho
  exact ⟨this.1, this.2.2.1⟩

/-! ### Rating periods are not monotone -/

theorem periodStep_real (p q : WengLinRating ℝ) (o : Outcomes) (cfg : WengLinConfig ℝ) :
    let c := wlC cfg.beta (p.uncertainty ^ 2) (q.uncertainty ^ 2)
    let x := wlP c p.rating q.rating
    periodStep cfg p (q, o) = ⟨p.rating + p.uncertainty ^ 2 / c * (points o - x),
      √(p.uncertainty ^ 2 * max (1 - (p.uncertainty / c) ^ 3 * x * (1 - x))
        cfg.uncertaintyTolerance)⟩ := by
  have := congrArg Prod.fst (wengLin_real p q o cfg)
  exact this

/-- What a loss against a hopelessly weak opponent costs. -/
noncomputable def cost (β w u : ℝ) : ℝ := u ^ 2 / wlC β (u ^ 2) (w ^ 2)

theorem cost_lt {β w u u' : ℝ} (hu : 0 < u) (h : u < u') : cost β w u < cost β w u' := by
  have hu' : 0 < u' := hu.trans h
  have hc := wlC_pos (β := β) (sq_nonneg u) (sq_nonneg w) (.inl (by positivity))
  have hc' := wlC_pos (β := β) (sq_nonneg u') (sq_nonneg w) (.inl (by positivity))
  rw [cost, cost, div_lt_div_iff₀ hc hc']
  have hd : 0 ≤ w ^ 2 + 2 * β ^ 2 := by positivity
  have hx : 0 < u ^ 2 := by positivity
  have hxy : u ^ 2 < u' ^ 2 := by gcongr
  apply lt_of_pow_lt_pow_left₀ 2 (by positivity)
  rw [mul_pow, mul_pow, wlC, wlC, Real.sq_sqrt (by positivity), Real.sq_sqrt (by positivity)]
  set x := u ^ 2
  set y := u' ^ 2
  set d := w ^ 2 + 2 * β ^ 2
  have e1 : y + w ^ 2 + 2 * β ^ 2 = y + d := by ring
  have e2 : x + w ^ 2 + 2 * β ^ 2 = x + d := by ring
  rw [e1, e2]
  have hy : 0 < y := hx.trans hxy
  have h1 : 0 < x * y * (y - x) := mul_pos (mul_pos hx hy) (by linarith)
  have h2 : 0 ≤ d * ((y - x) * (y + x)) := mul_nonneg hd (mul_nonneg (by linarith) (by linarith))
  nlinarith

/-- A loss against an opponent whose rating tends to minus infinity. -/
theorem loss_limit {cfg : WengLinConfig ℝ} (hκ : cfg.uncertaintyTolerance ≤ 1) {w r u : ℝ}
    (hu : 0 < u) {x : ℝ → WengLinRating ℝ} (hr : Tendsto (fun t => (x t).rating) atTop (𝓝 r))
    (hx : Tendsto (fun t => (x t).uncertainty) atTop (𝓝 u)) :
    Tendsto (fun t => (periodStep cfg (x t) (⟨-t, w⟩, .LOSS)).rating) atTop
      (𝓝 (r - cost cfg.beta w u)) ∧
    Tendsto (fun t => (periodStep cfg (x t) (⟨-t, w⟩, .LOSS)).uncertainty) atTop (𝓝 u) := by
  have hc : 0 < wlC cfg.beta (u ^ 2) (w ^ 2) :=
    wlC_pos (sq_nonneg u) (sq_nonneg w) (.inl (by positivity))
  have hC : Tendsto (fun t => wlC cfg.beta ((x t).uncertainty ^ 2) (w ^ 2)) atTop
      (𝓝 (wlC cfg.beta (u ^ 2) (w ^ 2))) := by
    unfold wlC
    exact (((hx.pow 2).add_const _).add_const _).sqrt
  have hP : Tendsto (fun t => wlP (wlC cfg.beta ((x t).uncertainty ^ 2) (w ^ 2)) (x t).rating (-t))
      atTop (𝓝 1) := by
    simp only [wlP_eq, sub_neg_eq_add]
    refine Real.tendsto_sigmoid_atTop.comp ?_
    simp only [div_eq_mul_inv]
    exact (hr.add_atTop tendsto_id).atTop_mul_pos (inv_pos.2 hc) (hC.inv₀ hc.ne')
  simp only [periodStep_real, points]
  constructor
  · have h1 := hr.add (((hx.pow 2).div hC hc.ne').mul (hP.const_sub 0))
    have e : r + u ^ 2 / wlC cfg.beta (u ^ 2) (w ^ 2) * (0 - 1) = r - cost cfg.beta w u := by
      rw [cost]; ring
    rw [e] at h1
    exact h1
  · have h1 := ((hx.pow 2).mul ((((((hx.div hC hc.ne').pow 3).mul hP).mul
      (hP.const_sub 1)).const_sub 1).max
        (tendsto_const_nhds (x := cfg.uncertaintyTolerance)))).sqrt
    have e : √(u ^ 2 * max (1 - (u / wlC cfg.beta (u ^ 2) (w ^ 2)) ^ 3 * 1 * (1 - 1))
        cfg.uncertaintyTolerance) = u := by
      rw [sub_self, mul_zero, sub_zero, max_eq_left hκ, mul_one, Real.sqrt_sq hu.le]
    rw [e] at h1
    exact h1

/-- A series of such losses. -/
theorem losses_limit {cfg : WengLinConfig ℝ} (hκ : cfg.uncertaintyTolerance ≤ 1) {w u : ℝ}
    (hu : 0 < u) (p : WengLinRating ℝ) (hp : p.uncertainty = u) (m : ℕ) :
    Tendsto (fun t => (wengLinRatingPeriod p (List.replicate m (⟨-t, w⟩, .LOSS)) cfg).rating) atTop
      (𝓝 (p.rating - m * cost cfg.beta w u)) ∧
    Tendsto (fun t => (wengLinRatingPeriod p (List.replicate m (⟨-t, w⟩, .LOSS)) cfg).uncertainty)
      atTop (𝓝 u) := by
  induction m with
  | zero => simp [wengLinRatingPeriod, hp]
  | succ m ih =>
    have h := loss_limit (w := w) hκ hu ih.1 ih.2
    simp only [wengLinRatingPeriod, List.replicate_succ', List.foldl_append, List.foldl_cons,
      List.foldl_nil] at h ⊢
    have e : p.rating - ((m + 1 : ℕ) : ℝ) * cost cfg.beta w u
        = p.rating - m * cost cfg.beta w u - cost cfg.beta w u := by push_cast; ring
    rw [e]
    exact h

/-- For every player there is a rating period in which winning the first game instead of drawing it
ends in a lower rating: two games against equally rated opponents, and then losses against much
weaker ones. -/
theorem C122_wengLin_period_fails (p : WengLinRating ℝ) (w : ℝ) (cfg : WengLinConfig ℝ)
    (hp : 0 < p.uncertainty) (hκ : cfg.uncertaintyTolerance ≤ 3 / 4) :
    ∃ rs rs' : List (WengLinRating ℝ × Outcomes), NoWorse rs rs' ∧
      (∃ rest, rs = (⟨p.rating, w⟩, .DRAW) :: rest ∧ rs' = (⟨p.rating, w⟩, .WIN) :: rest) ∧
      (wengLinRatingPeriod p rs' cfg).rating < (wengLinRatingPeriod p rs cfg).rating := by
  set q : WengLinRating ℝ := ⟨p.rating, w⟩ with hq
  -- after the first game
  have hhalf : ∀ c : ℝ, wlP c p.rating p.rating = 1 / 2 := fun c => by
    rw [wlP_eq, sub_self, zero_div, sigmoid_zero]; norm_num
  have hratio : ∀ u : ℝ, 0 < u → 0 < u / wlC cfg.beta (u ^ 2) (w ^ 2) ∧
      u / wlC cfg.beta (u ^ 2) (w ^ 2) ≤ 1 := fun u hu => by
    have hc : 0 < wlC cfg.beta (u ^ 2) (w ^ 2) :=
      wlC_pos (sq_nonneg u) (sq_nonneg w) (.inl (by positivity))
    refine ⟨by positivity, ?_⟩
    rw [div_le_one hc, wlC]
    apply Real.le_sqrt_of_sq_le
    nlinarith [sq_nonneg w, sq_nonneg cfg.beta]
  have heta : ∀ u y : ℝ, 0 < u → 0 < y → y < 1 →
      max (1 - (u / wlC cfg.beta (u ^ 2) (w ^ 2)) ^ 3 * y * (1 - y)) cfg.uncertaintyTolerance
        = 1 - (u / wlC cfg.beta (u ^ 2) (w ^ 2)) ^ 3 * y * (1 - y) ∧
      0 < 1 - (u / wlC cfg.beta (u ^ 2) (w ^ 2)) ^ 3 * y * (1 - y) := fun u y hu hy hy1 => by
    obtain ⟨h0, h1⟩ := hratio u hu
    have h3 : (u / wlC cfg.beta (u ^ 2) (w ^ 2)) ^ 3 ≤ 1 := pow_le_one₀ h0.le h1
    have h30 : 0 < (u / wlC cfg.beta (u ^ 2) (w ^ 2)) ^ 3 := by positivity
    have hyy : y * (1 - y) ≤ 1 / 4 := by nlinarith [sq_nonneg (y - 1 / 2)]
    have hyy0 : 0 < y * (1 - y) := mul_pos hy (by linarith)
    have : (u / wlC cfg.beta (u ^ 2) (w ^ 2)) ^ 3 * y * (1 - y) ≤ 1 / 4 := by
      rw [mul_assoc]; nlinarith
    exact ⟨max_eq_left (by linarith), by linarith⟩
  set p₁ := periodStep cfg p (q, .DRAW) with hp₁
  set p₁' := periodStep cfg p (q, .WIN) with hp₁'
  have e₁ := periodStep_real p q .DRAW cfg
  have e₁' := periodStep_real p q .WIN cfg
  simp only [hq, hhalf, points] at e₁ e₁'
  rw [← hq, ← hp₁] at e₁
  rw [← hq, ← hp₁'] at e₁'
  have hc : 0 < wlC cfg.beta (p.uncertainty ^ 2) (w ^ 2) :=
    wlC_pos (sq_nonneg _) (sq_nonneg w) (.inl (by positivity))
  have r1 : p₁.rating = p.rating := by rw [e₁]; simp
  have r1' : p.rating < p₁'.rating := by
    rw [e₁']
    have : 0 < p.uncertainty ^ 2 / wlC cfg.beta (p.uncertainty ^ 2) (w ^ 2) * (1 - 1 / 2) := by
      positivity
    dsimp only
    linarith
  have u1 : p₁'.uncertainty = p₁.uncertainty := by rw [e₁, e₁']
  have u1pos : 0 < p₁.uncertainty := by
    rw [e₁]
    apply Real.sqrt_pos.2
    rw [(heta _ (1 / 2) hp (by norm_num) (by norm_num)).1]
    exact mul_pos (by positivity) (heta _ (1 / 2) hp (by norm_num) (by norm_num)).2
  -- after the second game
  set p₂ := periodStep cfg p₁ (q, .DRAW) with hp₂
  set p₂' := periodStep cfg p₁' (q, .DRAW) with hp₂'
  set v := p₁.uncertainty with hv
  set c := wlC cfg.beta (v ^ 2) (w ^ 2) with hcdef
  have e₂ := periodStep_real p₁ q .DRAW cfg
  have e₂' := periodStep_real p₁' q .DRAW cfg
  rw [← hp₂, ← hv] at e₂
  rw [← hp₂', u1] at e₂'
  simp only [hq, r1, hhalf] at e₂
  simp only [hq] at e₂'
  set y := wlP c p₁'.rating p.rating with hy
  have hc1 : 0 < c := wlC_pos (sq_nonneg _) (sq_nonneg w) (.inl (by positivity))
  have hy0 : 1 / 2 < y := by
    rw [hy, wlP_eq, one_div, ← sigmoid_zero]
    exact sigmoid_strictMono (div_pos (by linarith) hc1)
  have hy1 : y < 1 := wlP_lt_one _ _ _
  have u2 : p₂.uncertainty < p₂'.uncertainty := by
    rw [e₂, e₂']
    dsimp only
    apply Real.sqrt_lt_sqrt
    · rw [(heta v (1 / 2) u1pos (by norm_num) (by norm_num)).1]
      exact mul_nonneg (sq_nonneg _) (heta v (1 / 2) u1pos (by norm_num) (by norm_num)).2.le
    · rw [(heta v (1 / 2) u1pos (by norm_num) (by norm_num)).1, (heta v y u1pos (by linarith) hy1).1]
      have h3 : 0 < (v / c) ^ 3 := by have := (hratio v u1pos).1; positivity
      have hyy : y * (1 - y) < 1 / 2 * (1 - 1 / 2) := by
        nlinarith [mul_pos (sub_pos.2 hy0) (sub_pos.2 hy0)]
      have : (v / c) ^ 3 * y * (1 - y) < (v / c) ^ 3 * (1 / 2) * (1 - 1 / 2) := by
        rw [mul_assoc, mul_assoc]; gcongr
      have hv2 : 0 < v ^ 2 := by positivity
      gcongr
  have u2pos : 0 < p₂.uncertainty := by
    rw [e₂]
    apply Real.sqrt_pos.2
    rw [(heta v (1 / 2) u1pos (by norm_num) (by norm_num)).1]
    exact mul_pos (by positivity) (heta v (1 / 2) u1pos (by norm_num) (by norm_num)).2
  -- the losses
  have hcost := cost_lt (β := cfg.beta) (w := w) u2pos u2
  obtain ⟨m, hm⟩ := exists_nat_gt ((p₂'.rating - p₂.rating)
    / (cost cfg.beta w p₂'.uncertainty - cost cfg.beta w p₂.uncertainty))
  rw [div_lt_iff₀ (by linarith)] at hm
  have l := (losses_limit (w := w) (by linarith : cfg.uncertaintyTolerance ≤ 1) u2pos p₂ rfl m).1
  have l' := (losses_limit (w := w) (by linarith : cfg.uncertaintyTolerance ≤ 1) (u2pos.trans u2)
    p₂' rfl m).1
  obtain ⟨t, ht⟩ := (l'.eventually_lt l (by linarith)).exists
  refine ⟨(q, .DRAW) :: (q, .DRAW) :: List.replicate m (⟨-t, w⟩, .LOSS),
    (q, .WIN) :: (q, .DRAW) :: List.replicate m (⟨-t, w⟩, .LOSS), ?_, ⟨_, rfl, rfl⟩, ht⟩
  refine .cons ⟨rfl, by norm_num [points]⟩ ?_
  exact List.forall₂_same.2 fun _ _ => ⟨rfl, le_rfl⟩

/-- The default player and the default settings. -/
example : ∃ rs rs' : List (WengLinRating ℝ × Outcomes), NoWorse rs rs' ∧
    (wengLinRatingPeriod ⟨25, 25 / 3⟩ rs' ⟨25 / 6, 0.000001⟩).rating
      < (wengLinRatingPeriod ⟨25, 25 / 3⟩ rs ⟨25 / 6, 0.000001⟩).rating := by
  obtain ⟨rs, rs', h, -, hlt⟩ := C122_wengLin_period_fails ⟨25, 25 / 3⟩ (25 / 3) ⟨25 / 6, 0.000001⟩
    (by norm_num) (by norm_num)
  exact ⟨rs, rs', h, hlt⟩

end Skillratings.WengLin

namespace Skillratings.TrueSkill
open Real Spec

theorem cdf_tiny {y : ℝ} (h : y ≤ -30) : normalCdf y < tsTiny := by
  obtain ⟨t, E, h0, h1, -, hy, -, hc⟩ := ratio_neg (y := y) (by linarith)
  rw [hc]
  refine fit_tiny h0 ?_
  by_contra hn
  push Not at hn
  have s2 : √2 < 1.415 := by rw [Real.sqrt_lt' (by norm_num)]; norm_num
  have s0 : 0 < √2 := by positivity
  have h2 : 2 * (1 - t) / t ≤ 20.23 := by
    rw [div_le_iff₀ h0]; norm_num at hn ⊢; linarith
  have h3 : 0 ≤ 2 * (1 - t) / t := div_nonneg (by linarith) h0.le
  norm_num at s2 h2
  nlinarith

/-- Somewhere the distribution function crosses the threshold within a distance of `δ`. -/
theorem cross {δ : ℝ} (hδ : 0 < δ) : ∃ x, normalCdf x < tsTiny ∧ tsTiny ≤ normalCdf (x + δ) := by
  by_contra hn
  push Not at hn
  have : ∀ n : ℕ, normalCdf (-30 + n * δ) < tsTiny := by
    intro n
    induction n with
    | zero => exact cdf_tiny (by simp)
    | succ n ih =>
      have := hn _ ih
      rwa [show -30 + (n : ℝ) * δ + δ = -30 + ((n + 1 : ℕ) : ℝ) * δ by push_cast; ring] at this
  obtain ⟨n, h⟩ := exists_nat_gt (30 / δ)
  rw [div_lt_iff₀ hδ] at h
  have h1 := this n
  have h2 := cdf_ge_tiny (y := -30 + n * δ) (by linarith)
  linarith

theorem game_real (p q : TrueSkillRating ℝ) (o : Outcomes) (cfg : TrueSkillConfig ℝ) :
    periodStep cfg (drawMargin cfg.drawProbability cfg.beta 2.0) p (q, o)
      = upd p cfg.dynamicsFactor (tsC cfg.beta (solo p) (solo q)) (matchV cfg o (solo p) (solo q))
        (matchW cfg o (solo p) (solo q)) :=
  congrArg Prod.fst (trueskill_real p q o cfg)

/-- A game against an opponent whose uncertainty is `w`. -/
theorem game_parts (p q : TrueSkillRating ℝ) (o : Outcomes) (cfg : TrueSkillConfig ℝ) :
    let c := √(2 * cfg.beta ^ 2 + p.uncertainty ^ 2 + q.uncertainty ^ 2)
    let s := p.uncertainty ^ 2 + cfg.dynamicsFactor ^ 2
    let t := (p.rating - q.rating) / c
    let ε := tsMargin cfg.drawProbability cfg.beta (1 + 1) / c
    let p' := periodStep cfg (drawMargin cfg.drawProbability cfg.beta 2.0) p (q, o)
    p'.rating = p.rating + s / c * corrV o t ε ∧
      p'.uncertainty = √(s * (1 - corrW o t ε * (s / c ^ 2))) := by
  have hc : tsC cfg.beta (solo p) (solo q)
      = √(2 * cfg.beta ^ 2 + p.uncertainty ^ 2 + q.uncertainty ^ 2) := by
    simp only [tsC, solo]
    norm_num
  intro c s t ε p'
  have e : p' = _ := game_real p q o cfg
  rw [e]
  simp only [upd, matchV, matchW, hc]
  exact ⟨rfl, rfl⟩

/-- For every player there is a rating period of three games in which winning the first game instead
of losing it ends in a lower rating. -/
theorem C122_trueskill_period_fails (p : TrueSkillRating ℝ) (cfg : TrueSkillConfig ℝ)
    (hp : 0 < p.uncertainty) :
    ∃ q₁ q₂ q₃ : TrueSkillRating ℝ,
      (trueskillRatingPeriod p [(q₁, .WIN), (q₂, .WIN), (q₃, .LOSS)] cfg).rating
        < (trueskillRatingPeriod p [(q₁, .LOSS), (q₂, .WIN), (q₃, .LOSS)] cfg).rating := by
  set τ := cfg.dynamicsFactor with hτ
  set β := cfg.beta with hβ
  set M := tsMargin cfg.drawProbability β (1 + 1) with hM
  set w := |M| + |τ| + 1 with hw
  have hw0 : 0 < w := by positivity
  have hwτ : τ ^ 2 < w ^ 2 := by
    rw [← sq_abs τ]
    have := abs_nonneg M
    have := abs_nonneg τ
    gcongr
    rw [hw]; linarith
  have hwM : |M| ≤ w := by have := abs_nonneg τ; rw [hw]; linarith
  -- general facts about a game against an opponent of uncertainty `w`
  have hcsq : ∀ u : ℝ, √(2 * β ^ 2 + u ^ 2 + w ^ 2) ^ 2 = 2 * β ^ 2 + u ^ 2 + w ^ 2 := fun u =>
    Real.sq_sqrt (by positivity)
  have hcpos : ∀ u : ℝ, 0 < √(2 * β ^ 2 + u ^ 2 + w ^ 2) := fun u => Real.sqrt_pos.2 (by positivity)
  have hlt : ∀ u : ℝ, (u ^ 2 + τ ^ 2) / √(2 * β ^ 2 + u ^ 2 + w ^ 2) ^ 2 < 1 := fun u => by
    rw [hcsq, div_lt_one (by positivity)]
    nlinarith [sq_nonneg β]
  have hpos : ∀ {u W : ℝ}, 0 < u → 0 ≤ W → W ≤ 1 →
      0 < (u ^ 2 + τ ^ 2) * (1 - W * ((u ^ 2 + τ ^ 2) / √(2 * β ^ 2 + u ^ 2 + w ^ 2) ^ 2)) := by
    intro u W hu h0 h1
    have := hlt u
    have h2 : 0 ≤ (u ^ 2 + τ ^ 2) / √(2 * β ^ 2 + u ^ 2 + w ^ 2) ^ 2 := by positivity
    refine mul_pos (by positivity) ?_
    nlinarith
  -- the first game
  set q₁ : TrueSkillRating ℝ := ⟨p.rating, w⟩ with hq₁
  set a := periodStep cfg (drawMargin cfg.drawProbability cfg.beta 2.0) p (q₁, .LOSS) with ha
  set a' := periodStep cfg (drawMargin cfg.drawProbability cfg.beta 2.0) p (q₁, .WIN) with ha'
  have r1 : a.rating < a'.rating :=
    (C67_trueskill_loss p q₁ cfg hp hw0).1.trans (C67_trueskill_win p q₁ cfg hp hw0).1
  have ea : a.uncertainty = √((p.uncertainty ^ 2 + τ ^ 2) * (1 - tsWWin 0
      (M / √(2 * β ^ 2 + p.uncertainty ^ 2 + w ^ 2)) * ((p.uncertainty ^ 2 + τ ^ 2)
        / √(2 * β ^ 2 + p.uncertainty ^ 2 + w ^ 2) ^ 2))) := by
    have h := (game_parts p q₁ .LOSS cfg).2
    simp only [hq₁, sub_self, zero_div, corrW, neg_zero] at h
    exact h
  have ea' : a'.uncertainty = a.uncertainty := by
    have h := (game_parts p q₁ .WIN cfg).2
    simp only [hq₁, sub_self, zero_div, corrW] at h
    rw [ea]
    exact h
  have apos : 0 < a.uncertainty := by
    rw [ea]
    obtain ⟨h0, h1⟩ := tsWWin_bounds 0 (M / √(2 * β ^ 2 + p.uncertainty ^ 2 + w ^ 2))
    exact Real.sqrt_pos.2 (hpos hp h0 h1)
  -- the second game
  set u := a.uncertainty with hu
  set c := √(2 * β ^ 2 + u ^ 2 + w ^ 2) with hc
  have c0 : 0 < c := hcpos u
  have hε : M / c ≤ 1 := by
    rw [div_le_one c0]
    refine (le_abs_self M).trans (hwM.trans ?_)
    rw [hc]
    apply Real.le_sqrt_of_sq_le
    nlinarith [sq_nonneg β, sq_nonneg u]
  obtain ⟨x, hx, hx'⟩ := cross (δ := (a'.rating - a.rating) / c) (div_pos (by linarith) c0)
  have hx26 : x < -26 := by
    by_contra hn
    have := cdf_ge_tiny (not_lt.1 hn)
    linarith
  set q₂ : TrueSkillRating ℝ := ⟨a.rating - c * (x + M / c), w⟩ with hq₂
  have t1 : (a.rating - q₂.rating) / c = x + M / c := by
    rw [hq₂]; field_simp; ring
  have t2 : (a'.rating - q₂.rating) / c = x + (a'.rating - a.rating) / c + M / c := by
    rw [hq₂]; field_simp; ring
  set b := periodStep cfg (drawMargin cfg.drawProbability cfg.beta 2.0) a (q₂, .WIN) with hb
  set b' := periodStep cfg (drawMargin cfg.drawProbability cfg.beta 2.0) a' (q₂, .WIN) with hb'
  have W1 : tsWWin ((a.rating - q₂.rating) / c) (M / c) = 1 := by
    rw [t1, tsWWin, add_sub_cancel_right, if_pos hx, if_pos (by linarith)]
  have W2 : tsWWin ((a'.rating - q₂.rating) / c) (M / c) < 1 := by
    rw [t2]
    apply tsWWin_lt_one
    rwa [add_sub_cancel_right]
  have eb : b.uncertainty = √((u ^ 2 + τ ^ 2) * (1 - 1 * ((u ^ 2 + τ ^ 2) / c ^ 2))) := by
    have h : b.uncertainty = √((u ^ 2 + τ ^ 2) * (1 - tsWWin ((a.rating - q₂.rating) / c) (M / c)
      * ((u ^ 2 + τ ^ 2) / c ^ 2))) := (game_parts a q₂ .WIN cfg).2
    rwa [W1] at h
  have eb' : b'.uncertainty = √((u ^ 2 + τ ^ 2) * (1 - tsWWin ((a'.rating - q₂.rating) / c) (M / c)
      * ((u ^ 2 + τ ^ 2) / c ^ 2))) := by
    have h := (game_parts a' q₂ .WIN cfg).2
    simp only [ea'] at h
    exact h
  have bpos : 0 < b.uncertainty := by
    rw [eb]
    exact Real.sqrt_pos.2 (hpos apos zero_le_one le_rfl)
  have hbb : b.uncertainty < b'.uncertainty := by
    rw [eb, eb']
    apply Real.sqrt_lt_sqrt (hpos apos zero_le_one le_rfl).le
    have h1 : 0 < u ^ 2 + τ ^ 2 := by positivity
    have h2 : 0 < (u ^ 2 + τ ^ 2) / c ^ 2 := by positivity
    gcongr
  have hbb2 : b.uncertainty ^ 2 < b'.uncertainty ^ 2 := by gcongr
  -- the third game
  have final : ∀ s : TrueSkillRating ℝ, ∃ B D₀ : ℝ, ∀ D, D₀ ≤ D →
      (periodStep cfg (drawMargin cfg.drawProbability cfg.beta 2.0) s (⟨-D, w⟩, .LOSS)).rating
        = B - (s.uncertainty ^ 2 + τ ^ 2) / √(2 * β ^ 2 + s.uncertainty ^ 2 + w ^ 2) ^ 2 * D := by
    intro s
    set k := √(2 * β ^ 2 + s.uncertainty ^ 2 + w ^ 2) with hk
    have k0 : 0 < k := hcpos _
    refine ⟨s.rating - (s.uncertainty ^ 2 + τ ^ 2) / k * (M / k + s.rating / k),
      k * (30 + |M / k|) - s.rating, fun D hD => ?_⟩
    have h := (game_parts s ⟨-D, w⟩ .LOSS cfg).1
    simp only [corrV, sub_neg_eq_add] at h
    have hcdf : normalCdf (-((s.rating + D) / k) - M / k) < tsTiny := by
      apply cdf_tiny
      have h1 : 30 + |M / k| ≤ (s.rating + D) / k := by
        rw [le_div_iff₀ k0]; linarith
      have := neg_abs_le (M / k)
      linarith
    have hv : tsVWin (-((s.rating + D) / k)) (M / k) = M / k - -((s.rating + D) / k) := by
      rw [tsVWin, if_pos hcdf]
    refine h.trans ?_
    change s.rating + (s.uncertainty ^ 2 + τ ^ 2) / k
      * -tsVWin (-((s.rating + D) / k)) (M / k) = _
    rw [hv]
    field_simp
    ring
  obtain ⟨B, D₀, hf⟩ := final b
  obtain ⟨B', D₀', hf'⟩ := final b'
  have hA : (b.uncertainty ^ 2 + τ ^ 2) / √(2 * β ^ 2 + b.uncertainty ^ 2 + w ^ 2) ^ 2
      < (b'.uncertainty ^ 2 + τ ^ 2) / √(2 * β ^ 2 + b'.uncertainty ^ 2 + w ^ 2) ^ 2 := by
    rw [hcsq, hcsq, div_lt_div_iff₀ (by positivity) (by positivity)]
    have hd : 0 < 2 * β ^ 2 + w ^ 2 - τ ^ 2 := by nlinarith [sq_nonneg β]
    nlinarith [mul_pos hd (sub_pos.2 hbb2)]
  set A := (b.uncertainty ^ 2 + τ ^ 2) / √(2 * β ^ 2 + b.uncertainty ^ 2 + w ^ 2) ^ 2
  set A' := (b'.uncertainty ^ 2 + τ ^ 2) / √(2 * β ^ 2 + b'.uncertainty ^ 2 + w ^ 2) ^ 2
  set D := max (max D₀ D₀') ((B' - B) / (A' - A) + 1)
  have hD : B' - B < (A' - A) * D := by
    have h1 : (B' - B) / (A' - A) < D := by
      have := le_max_right (max D₀ D₀') ((B' - B) / (A' - A) + 1)
      linarith
    rw [div_lt_iff₀ (by linarith)] at h1
    linarith
  refine ⟨q₁, q₂, ⟨-D, w⟩, ?_⟩
  have g := hf D ((le_max_left _ _).trans (le_max_left _ _))
  have g' := hf' D ((le_max_right _ _).trans (le_max_left _ _))
  have h1 : (trueskillRatingPeriod p [(q₁, .WIN), (q₂, .WIN), (⟨-D, w⟩, .LOSS)] cfg).rating
      = B' - A' * D := g'
  have h2 : (trueskillRatingPeriod p [(q₁, .LOSS), (q₂, .WIN), (⟨-D, w⟩, .LOSS)] cfg).rating
      = B - A * D := g
  rw [h1, h2]
  linarith

/-- Losing and winning the last game of a rating period. Draws are treated in
`C122_trueskill_period_mono_partial`. -/
theorem C122_trueskill_period_last_partial (p q : TrueSkillRating ℝ)
    (rs : List (TrueSkillRating ℝ × Outcomes)) (cfg : TrueSkillConfig ℝ)
    (hp : 0 < (trueskillRatingPeriod p rs cfg).uncertainty) (hq : 0 < q.uncertainty) :
    (trueskillRatingPeriod p (rs ++ [(q, .LOSS)]) cfg).rating
      < (trueskillRatingPeriod p (rs ++ [(q, .WIN)]) cfg).rating := by
  have h1 := (C67_trueskill_loss (trueskillRatingPeriod p rs cfg) q cfg hp hq).1
  have h2 := (C67_trueskill_win (trueskillRatingPeriod p rs cfg) q cfg hp hq).1
  simp only [trueskillRatingPeriod, List.foldl_append, List.foldl_cons, List.foldl_nil] at h1 h2 ⊢
  exact h1.trans h2

/-- The default player and the default settings. -/
example : ∃ q₁ q₂ q₃ : TrueSkillRating ℝ,
    (trueskillRatingPeriod ⟨25, 25 / 3⟩ [(q₁, .WIN), (q₂, .WIN), (q₃, .LOSS)]
        ⟨0.1, 25 / 6, 25 / 300⟩).rating
      < (trueskillRatingPeriod ⟨25, 25 / 3⟩ [(q₁, .LOSS), (q₂, .WIN), (q₃, .LOSS)]
        ⟨0.1, 25 / 6, 25 / 300⟩).rating :=
  C122_trueskill_period_fails _ _ (by norm_num)

end Skillratings.TrueSkill
