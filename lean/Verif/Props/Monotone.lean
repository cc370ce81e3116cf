import Verif.Props.Upsets
import Verif.Props.Sticko
/-
C94: better results never make a rating worse.
-/
namespace Skillratings
open Spec Real

/-! ### Lists of results -/

theorem Spec.NoWorse.length {R : Type} {rs rs' : List (R × Outcomes)} (h : NoWorse rs rs') :
    rs.length = rs'.length := List.Forall₂.length_eq h

theorem Spec.NoWorse.map_fst {R : Type} {rs rs' : List (R × Outcomes)} (h : NoWorse rs rs') :
    rs.map Prod.fst = rs'.map Prod.fst := by
  induction h with
  | nil => rfl
  | cons h _ ih => simp [h.1, ih]

theorem Spec.NoWorse.map_eq {R α : Type} {rs rs' : List (R × Outcomes)} (h : NoWorse rs rs')
    (f : R → α) : (rs.map fun r => f r.1) = rs'.map fun r => f r.1 := by
  have := congrArg (List.map f) h.map_fst
  simpa [List.map_map, Function.comp_def] using this

theorem Spec.NoWorse.sum_le {R : Type} {rs rs' : List (R × Outcomes)} (h : NoWorse rs rs')
    (f : R → ℝ → ℝ) (hf : ∀ r, Monotone (f r)) :
    (rs.map fun r => f r.1 (points r.2)).sum ≤ (rs'.map fun r => f r.1 (points r.2)).sum := by
  induction h with
  | nil => rfl
  | cons h _ ih =>
    simp only [List.map_cons, List.sum_cons, h.1]
    exact add_le_add (hf _ h.2) ih

theorem Spec.NoWorse.score_le {R : Type} {rs rs' : List (R × Outcomes)} (h : NoWorse rs rs') :
    score rs ≤ score rs' := h.sum_le (fun _ x => x) fun _ _ _ h => h

theorem Spec.NoWorse₃.length {R γ : Type} {rs rs' : List (R × Outcomes × γ)} (h : NoWorse₃ rs rs') :
    rs.length = rs'.length := List.Forall₂.length_eq h

theorem Spec.NoWorse₃.map_eq {R γ α : Type} {rs rs' : List (R × Outcomes × γ)} (h : NoWorse₃ rs rs')
    (f : R → γ → α) : (rs.map fun r => f r.1 r.2.2) = rs'.map fun r => f r.1 r.2.2 := by
  induction h with
  | nil => rfl
  | cons h _ ih => simp [h.1, h.2.1, ih]

theorem Spec.NoWorse₃.sum_le {R γ : Type} {rs rs' : List (R × Outcomes × γ)} (h : NoWorse₃ rs rs')
    (f : R → γ → ℝ → ℝ) (hf : ∀ r c, Monotone (f r c)) :
    (rs.map fun r => f r.1 r.2.2 (points r.2.1)).sum
      ≤ (rs'.map fun r => f r.1 r.2.2 (points r.2.1)).sum := by
  induction h with
  | nil => rfl
  | cons h _ ih =>
    simp only [List.map_cons, List.sum_cons, h.1, h.2.1]
    exact add_le_add (hf _ _ h.2.2) ih

theorem Spec.NoWorse.ne_nil {R : Type} {rs rs' : List (R × Outcomes)} (h : NoWorse rs rs')
    (hr : rs ≠ []) : rs' ≠ [] := by
  rintro rfl
  exact hr (List.length_eq_zero_iff.1 h.length)

theorem Spec.NoWorse₃.ne_nil {R γ : Type} {rs rs' : List (R × Outcomes × γ)} (h : NoWorse₃ rs rs')
    (hr : rs ≠ []) : rs' ≠ [] := by
  rintro rfl
  exact hr (List.length_eq_zero_iff.1 h.length)

/-- A draw and a loss against a win and a loss. -/
example {R : Type} (x y : R) : NoWorse [(x, .DRAW), (y, .LOSS)] [(x, .WIN), (y, .LOSS)] := by
  refine .cons ⟨rfl, ?_⟩ (.cons ⟨rfl, le_rfl⟩ .nil)
  norm_num [points]

/-! ### Elo -/

/-- `x - k σ (c x)` is increasing as long as `k c ≤ 4`. -/
theorem sub_sigmoid_mono {k c : ℝ} (hk : 0 ≤ k) (hc : 0 ≤ c) (h : k * c ≤ 4) (r : ℝ) :
    Monotone fun x : ℝ => x - k * sigmoid (c * (x - r)) := by
  apply monotone_of_deriv_nonneg
  · apply Differentiable.sub differentiable_id
    apply Differentiable.const_mul
    exact differentiable_sigmoid.comp ((differentiable_id.sub_const r).const_mul c)
  · intro x
    have h1 : HasDerivAt (fun x : ℝ => c * (x - r)) (c * 1) x :=
      ((hasDerivAt_id x).sub_const r).const_mul c
    have h2 := (((hasDerivAt_sigmoid (c * (x - r))).comp x h1).const_mul k)
    have h3 := (hasDerivAt_id x).sub h2
    change 0 ≤ deriv (fun x : ℝ => x - k * sigmoid (c * (x - r))) x
    rw [show deriv (fun x : ℝ => x - k * sigmoid (c * (x - r))) x = _ from h3.deriv]
    have h4 := sigmoid_mul_one_sub_le (c * (x - r))
    have h5 := sigmoid_mul_one_sub_pos (c * (x - r))
    have : k * (sigmoid (c * (x - r)) * (1 - sigmoid (c * (x - r))) * (c * 1))
        = (k * c) * (sigmoid (c * (x - r)) * (1 - sigmoid (c * (x - r)))) := by ring
    rw [this]
    nlinarith

theorem elo_mono {a a' b b' : Elo.EloRating ℝ} {o o' : Outcomes} {c : Elo.EloConfig ℝ}
    (hk : 0 ≤ c.k) (hk' : c.k ≤ 1600 / log 10) (ha : a.rating ≤ a'.rating)
    (hb : b.rating ≤ b'.rating) (ho : points o ≤ points o') :
    (Elo.elo a b o c).1.rating ≤ (Elo.elo a' b' o' c).1.rating := by
  have hl := log_ten_pos
  have h1 : sigmoid (log 10 / 400 * (a'.rating - b'.rating))
      ≤ sigmoid (log 10 / 400 * (a'.rating - b.rating)) := by
    rw [sigmoid_le_iff]; gcongr
  have hkc : c.k * (log 10 / 400) ≤ 4 := by
    rw [le_div_iff₀ hl] at hk'; linarith
  have h2 := sub_sigmoid_mono hk (by positivity : 0 ≤ log 10 / 400) hkc b.rating ha
  simp only [Elo.elo_real]
  have h3 := mul_le_mul_of_nonneg_left ho hk
  have h4 := mul_le_mul_of_nonneg_left h1 hk
  dsimp only at h2
  linarith

/-- With `k` at most `1600 / ln 10` (about 694.9) the rating after a period is monotone in the
results, in the strength of the opponents and in the rating at the beginning. -/
theorem C94_elo_period_mono (p p' : Elo.EloRating ℝ) (rs rs' : List (Elo.EloRating ℝ × Outcomes))
    (c : Elo.EloConfig ℝ) (hk : 0 ≤ c.k) (hk' : c.k ≤ 1600 / log 10) (hp : p.rating ≤ p'.rating)
    (h : List.Forall₂ (fun r r' => r.1.rating ≤ r'.1.rating ∧ points r.2 ≤ points r'.2) rs rs') :
    (Elo.eloRatingPeriod p rs c).rating ≤ (Elo.eloRatingPeriod p' rs' c).rating := by
  rw [Elo.C05_elo_period_gauntlet, Elo.C05_elo_period_gauntlet]
  induction h generalizing p p' with
  | nil => exact hp
  | cons h _ ih => exact ih _ _ (elo_mono hk hk' hp h.1 h.2)

/-- The bound is sharp: with a larger `k` there are players of whom the stronger one falls behind
the weaker one after the same result against the same opponent. -/
theorem C94_elo_overshoot (c : Elo.EloConfig ℝ) (hk : 1600 / log 10 < c.k) (b : Elo.EloRating ℝ)
    (o : Outcomes) :
    ∃ a a' : Elo.EloRating ℝ, a.rating < a'.rating ∧
      (Elo.elo a' b o c).1.rating < (Elo.elo a b o c).1.rating := by
  have hl := log_ten_pos
  have hkc : 4 < c.k * (log 10 / 400) := by
    rw [div_lt_iff₀ hl] at hk; linarith
  have h1 : HasDerivAt (fun x : ℝ => log 10 / 400 * (x - b.rating)) (log 10 / 400 * 1) b.rating :=
    ((hasDerivAt_id b.rating).sub_const b.rating).const_mul _
  have h2 := (((hasDerivAt_sigmoid (log 10 / 400 * (b.rating - b.rating))).comp b.rating
    h1).const_mul c.k)
  have h3 := (hasDerivAt_id b.rating).sub h2
  by_contra hcon
  push Not at hcon
  have hmono : Monotone fun x : ℝ => x - c.k * sigmoid (log 10 / 400 * (x - b.rating)) := by
    intro x y hxy
    rcases hxy.eq_or_lt with rfl | hlt
    · exact le_rfl
    · have := hcon ⟨x⟩ ⟨y⟩ hlt
      simp only [Elo.elo_real] at this
      dsimp only
      linarith
  have hd : 0 ≤ deriv (fun x : ℝ => x - c.k * sigmoid (log 10 / 400 * (x - b.rating))) b.rating :=
    hmono.deriv_nonneg
  have e : deriv (fun x : ℝ => x - c.k * sigmoid (log 10 / 400 * (x - b.rating))) b.rating = _ :=
    h3.deriv
  rw [e] at hd
  simp only [sub_self, mul_zero, sigmoid_zero] at hd
  linarith

example : (0 : ℝ) ≤ 32 ∧ (32 : ℝ) ≤ 1600 / log 10 ∧ 1600 / log 10 < 700 := by
  have h1 := log_ten_pos
  have h2 := log_ten_lt
  have h3 := log_ten_gt
  refine ⟨by norm_num, ?_, ?_⟩
  · rw [le_div_iff₀ h1]; linarith
  · rw [div_lt_iff₀ h1]; linarith

/-! ### FIFA -/

theorem credit_mono {o o' : Outcomes} (c : Fifa.FifaConfig ℝ) (h : points o ≤ points o') :
    Fifa.credit o c ≤ Fifa.credit o' c := by
  unfold Fifa.credit
  cases o <;> cases o' <;> simp only [points, reduceCtorEq, if_true, if_false] at h ⊢ <;> split_ifs <;> linarith

/-- With importances up to `2400 / ln 10` (about 1042.3), including penalty shootouts and knockout
matches. -/
theorem C94_fifa_period_mono (p p' : Fifa.FifaRating ℝ)
    (rs rs' : List (Fifa.FifaRating ℝ × Outcomes × Fifa.FifaConfig ℝ)) (hp : p.rating ≤ p'.rating)
    (h : List.Forall₂ (fun r r' => r.1.rating ≤ r'.1.rating ∧ points r.2.1 ≤ points r'.2.1 ∧
      r.2.2 = r'.2.2 ∧ 0 ≤ r.2.2.importance ∧ r.2.2.importance ≤ 2400 / log 10) rs rs') :
    (Fifa.fifaRatingPeriod p rs).rating ≤ (Fifa.fifaRatingPeriod p' rs').rating := by
  rw [Fifa.C10_fifa_period_gauntlet, Fifa.C10_fifa_period_gauntlet]
  induction h generalizing p p' with
  | nil => exact hp
  | @cons r r' _ _ h _ ih =>
    refine ih _ _ ?_
    obtain ⟨hb, ho, hc, h0, h1⟩ := h
    have hl := log_ten_pos
    dsimp only
    rw [← hc]
    simp only [Fifa.fifa_real]
    set c := r.2.2
    have s1 : sigmoid (log 10 / 600 * (p'.rating - r'.1.rating))
        ≤ sigmoid (log 10 / 600 * (p'.rating - r.1.rating)) := by
      rw [sigmoid_le_iff]; gcongr
    have hkc : c.importance * (log 10 / 600) ≤ 4 := by
      rw [le_div_iff₀ hl] at h1; linarith
    have s2 := sub_sigmoid_mono h0 (by positivity : 0 ≤ log 10 / 600) hkc r.1.rating hp
    have s3 := mul_le_mul_of_nonneg_left (credit_mono c ho) h0
    have s4 := mul_le_mul_of_nonneg_left s1 h0
    dsimp only at s2
    have key : c.importance * (Fifa.credit r.2.1 c
          - sigmoid (log 10 / 600 * (p.rating - r.1.rating))) + p.rating
        ≤ c.importance * (Fifa.credit r'.2.1 c
          - sigmoid (log 10 / 600 * (p'.rating - r'.1.rating))) + p'.rating := by linarith
    unfold Fifa.guarded
    split_ifs
    · exact max_le_max hp key
    · exact key

example : (0 : ℝ) ≤ 60 ∧ (60 : ℝ) ≤ 2400 / log 10 := by
  have h1 := log_ten_pos
  have h2 := log_ten_lt
  refine ⟨by norm_num, ?_⟩
  rw [le_div_iff₀ h1]; linarith

/-! ### Glicko and Sticko -/

theorem C94_glicko_period_mono (p : Glicko.GlickoRating ℝ)
    (rs rs' : List (Glicko.GlickoRating ℝ × Outcomes)) (c : Glicko.GlickoConfig ℝ)
    (h : NoWorse rs rs') (hp : 0 < p.deviation) :
    (Glicko.glickoRatingPeriod p rs c).rating ≤ (Glicko.glickoRatingPeriod p rs' c).rating ∧
      (Glicko.glickoRatingPeriod p rs c).deviation
        = (Glicko.glickoRatingPeriod p rs' c).deviation := by
  by_cases hr : rs = []
  · subst hr
    cases h
    exact ⟨le_rfl, rfl⟩
  · rw [Glicko.period_real p rs c hr, Glicko.period_real p rs' c (h.ne_nil hr)]
    have e := h.map_eq fun r => glickoInfo p.rating r.rating r.deviation
    dsimp only
    rw [e]
    refine ⟨?_, rfl⟩
    have hi : 0 ≤ (rs'.map fun r => glickoInfo p.rating r.1.rating r.1.deviation).sum := by
      apply List.sum_nonneg
      intro x hx
      obtain ⟨a, -, rfl⟩ := List.mem_map.1 hx
      exact (glickoInfo_pos _ _ _).le
    have h1 := posterior_pos (pow_pos (glickoOnset_pos c.c hp) 2) hi
    have h2 := glickoQ_pos
    have h3 := h.sum_le (fun r x => glickoG r.deviation * (x - glickoE p.rating r.rating r.deviation))
      fun r x y hxy => mul_le_mul_of_nonneg_left (sub_le_sub_right hxy _) (glickoG_pos _).le
    gcongr

theorem C94_sticko_period_mono (p : Sticko.StickoRating ℝ)
    (rs rs' : List (Sticko.StickoRating ℝ × Outcomes × Bool)) (c : Sticko.StickoConfig ℝ)
    (h : NoWorse₃ rs rs') (hp : 0 < p.deviation) :
    (Sticko.stickoRatingPeriod p rs c).rating ≤ (Sticko.stickoRatingPeriod p rs' c).rating ∧
      (Sticko.stickoRatingPeriod p rs c).deviation
        = (Sticko.stickoRatingPeriod p rs' c).deviation := by
  by_cases hr : rs = []
  · subst hr
    cases h
    exact ⟨le_rfl, rfl⟩
  · rw [(Sticko.C85_sticko_period_formula p rs c hr).1, (Sticko.C85_sticko_period_formula p rs c hr).2,
      (Sticko.C85_sticko_period_formula p rs' c (h.ne_nil hr)).1,
      (Sticko.C85_sticko_period_formula p rs' c (h.ne_nil hr)).2]
    simp only [stickoUpdate, List.map_map, Function.comp_def, List.length_map]
    have e1 := h.map_eq fun r (f : Bool) => stickoInfo ⟨c.h, c.beta, c.lambda, c.gamma, c.c⟩
      p.rating ⟨r.rating, r.deviation, 0, f⟩
    have e2 := h.map_eq fun r (_ : Bool) => r.rating
    simp only [stickoInfo, stickoE] at e1 e2 ⊢
    rw [e1, e2, h.length]
    refine ⟨?_, rfl⟩
    set P : StickoParams := ⟨c.h, c.beta, c.lambda, c.gamma, c.c⟩
    have hi : 0 ≤ (rs'.map fun r => glickoQ ^ 2 * glickoG r.1.deviation ^ 2
        * glickoE (p.rating + c.gamma * colour r.2.2) r.1.rating r.1.deviation
        * (1 - glickoE (p.rating + c.gamma * colour r.2.2) r.1.rating r.1.deviation)).sum := by
      apply List.sum_nonneg
      intro x hx
      obtain ⟨a, -, rfl⟩ := List.mem_map.1 hx
      exact (glickoInfo_pos _ _ _).le
    have h1 := posterior_pos (pow_pos (glickoOnset_pos c.c hp) 2) hi
    have h2 := glickoQ_pos
    have h3 := h.sum_le (fun r f x => glickoG r.deviation
      * (x - glickoE (p.rating + c.gamma * colour f) r.rating r.deviation + c.beta))
      fun r f x y hxy => mul_le_mul_of_nonneg_left (by linarith) (glickoG_pos _).le
    have h4 := mul_le_mul_of_nonneg_left h3 (mul_pos h2 h1).le
    linarith

/-! ### EGF, DWZ, USCF and Ingo -/

theorem C94_egf_period_mono (p : Egf.EGFRating ℝ)
    (rs rs' : List (Egf.EGFRating ℝ × Outcomes × Egf.EGFConfig ℝ)) (h : NoWorse₃ rs rs')
    (hp : p.rating ≤ 3300) :
    (Egf.egfRatingPeriod p rs).rating ≤ (Egf.egfRatingPeriod p rs').rating := by
  have hc : 0 ≤ egfCon p.rating := by
    have : 0 ≤ (3300 - p.rating) / 200 := by linarith
    unfold egfCon; positivity
  rw [Egf.egfRatingPeriod_real, Egf.egfRatingPeriod_real]
  have := h.sum_le (fun r c x => egfRating p.rating x (Egf.expectedScore p r c).1 - p.rating)
    fun r c x y hxy => by
      dsimp only [egfRating]
      gcongr
  linarith

/-- A change `K (s - e)` whose factor only depends on the side on which the result lies of the
expectation is increasing in the result. -/
theorem dwz_change_le {r : ℝ} {age i n : ℕ} {s s' e : ℝ} (h : s ≤ s') :
    800 / (dwzCoefficient r age s e i + n) * (s - e)
      ≤ 800 / (dwzCoefficient r age s' e i + n) * (s' - e) := by
  have p1 := coefficient_ge r age i s e
  have p2 := coefficient_ge r age i s' e
  have q1 : 0 < 800 / (dwzCoefficient r age s e i + n) := by positivity
  have q2 : 0 < 800 / (dwzCoefficient r age s' e i + n) := by positivity
  rcases lt_trichotomy e s with hs | hs | hs
  · have hs' : e < s' := by linarith
    have : dwzCoefficient r age s' e i = dwzCoefficient r age s e i := by
      simp only [dwzCoefficient, hs.le, hs'.le, not_le.2 hs, not_le.2 hs']
    rw [this] at q2 ⊢
    exact mul_le_mul_of_nonneg_left (by linarith) q2.le
  · rw [show s - e = 0 by linarith, mul_zero]
    apply mul_nonneg q2.le; linarith
  · rcases lt_or_ge s' e with hs' | hs'
    · have : dwzCoefficient r age s' e i = dwzCoefficient r age s e i := by
        simp only [dwzCoefficient, hs.le, hs'.le, not_le.2 hs, not_le.2 hs']
      rw [this] at q2 ⊢
      exact mul_le_mul_of_nonneg_left (by linarith) q2.le
    · have : 800 / (dwzCoefficient r age s e i + n) * (s - e) < 0 :=
        mul_neg_of_pos_of_neg q1 (by linarith)
      have : 0 ≤ 800 / (dwzCoefficient r age s' e i + n) * (s' - e) :=
        mul_nonneg q2.le (by linarith)
      linarith

theorem C94_dwz_period_mono (p : Dwz.DWZRating ℝ) (rs rs' : List (Dwz.DWZRating ℝ × Outcomes))
    (h : NoWorse rs rs') (hp : 1 ≤ p.index) :
    (Dwz.dwzRatingPeriod p rs).rating ≤ (Dwz.dwzRatingPeriod p rs').rating := by
  rw [Dwz.C13_dwz_period_formula p rs hp, Dwz.C13_dwz_period_formula p rs' hp]
  have e := h.map_eq fun r => 1 / (1 + (10 : ℝ) ^ ((r.rating - p.rating) / 400))
  rw [e, h.length]
  linarith [dwz_change_le (r := p.rating) (age := p.age) (i := p.index) (n := rs'.length)
    (e := (rs'.map fun r => 1 / (1 + (10 : ℝ) ^ ((r.1.rating - p.rating) / 400))).sum) h.score_le]

theorem wins_sub_losses {R : Type} (rs : List (R × Outcomes)) :
    (wins rs : ℝ) - losses rs = 2 * score rs - rs.length := by
  induction rs with
  | nil => simp [wins, losses, score]
  | cons r rs ih =>
    obtain ⟨b, o⟩ := r
    simp only [wins, losses, score, List.map_cons, List.sum_cons, List.countP_cons,
      List.length_cons] at ih ⊢
    push_cast
    cases o
    · have : points .WIN = 1 := rfl
      simp [this]; linarith
    · have : points .LOSS = 0 := rfl
      simp [this]; linarith
    · have : points .DRAW = 1 / 2 := rfl
      simp [this]; linarith

theorem C94_uscf_period_mono (p : Uscf.USCFRating ℝ) (rs rs' : List (Uscf.USCFRating ℝ × Outcomes))
    (c : Uscf.USCFConfig ℝ) (h : NoWorse rs rs') :
    (Uscf.uscfRatingPeriod p rs c).rating ≤ (Uscf.uscfRatingPeriod p rs' c).rating := by
  by_cases hr : rs = []
  · subst hr
    cases h
    exact le_rfl
  have hs := h.score_le
  by_cases hg : p.games ≤ 8
  · rw [Uscf.C54_uscf_period_provisional p rs c hg hr,
      Uscf.C54_uscf_period_provisional p rs' c hg (h.ne_nil hr), wins_sub_losses, wins_sub_losses]
    have e := h.map_eq fun r => r.rating
    rw [e, h.length]
    gcongr
  · have h9 : 9 ≤ p.games := by omega
    rw [Uscf.C54_uscf_period_established p rs c h9 hr,
      Uscf.C54_uscf_period_established p rs' c h9 (h.ne_nil hr)]
    have e := h.map_eq fun r => logisticExpected p.rating r.rating
    rw [e, h.length]
    have hK : 0 ≤ uscfK p.rating p.games rs'.length := by
      have := Uscf.uscfEffective_pos p.rating (g := p.games) (by omega)
      unfold uscfK; positivity
    have hx := mul_le_mul_of_nonneg_left (sub_le_sub_right hs
      (rs'.map fun r => logisticExpected p.rating r.1.rating).sum) hK
    have hb : ∀ {x y t : ℝ} (n : ℕ), x ≤ y → uscfBonus n x t ≤ uscfBonus n y t := by
      intro x y t n hxy
      unfold uscfBonus
      split_ifs
      · exact le_rfl
      · exact max_le_max le_rfl (by linarith)
    have := hb (t := c.t * √(min rs'.length 4 : ℕ)) rs'.length hx
    linarith

/-- Ingo numbers are better if they are lower. -/
theorem C94_ingo_period_mono (p : Ingo.IngoRating ℝ) (rs rs' : List (Ingo.IngoRating ℝ × Outcomes))
    (h : NoWorse rs rs') :
    (Ingo.ingoRatingPeriod p rs').rating ≤ (Ingo.ingoRatingPeriod p rs).rating := by
  rw [Ingo.C24_ingo_period_formula, Ingo.C24_ingo_period_formula]
  have e := h.map_eq fun r => r.rating
  rw [e, h.length]
  have hd := Ingo.development_pos p.age
  have hs := h.score_le
  unfold Ingo.perf
  gcongr

/-- A win instead of a draw. -/
theorem sample_noWorse {R : Type} (x y : R) :
    NoWorse [(x, .DRAW), (y, .LOSS)] [(x, .WIN), (y, .LOSS)] :=
  .cons ⟨rfl, by norm_num [points]⟩ (.cons ⟨rfl, le_rfl⟩ .nil)

example : (Glicko.glickoRatingPeriod (⟨1500, 80⟩ : Glicko.GlickoRating ℝ)
        [(⟨1700, 30⟩, .DRAW), (⟨1400, 200⟩, .LOSS)] ⟨20⟩).rating
      ≤ (Glicko.glickoRatingPeriod ⟨1500, 80⟩
        [(⟨1700, 30⟩, .WIN), (⟨1400, 200⟩, .LOSS)] ⟨20⟩).rating :=
  (C94_glicko_period_mono _ _ _ _ (sample_noWorse _ _) (by norm_num)).1

example : (Dwz.dwzRatingPeriod (⟨1500, 3, 17⟩ : Dwz.DWZRating ℝ)
        [(⟨1700, 30, 40⟩, .DRAW), (⟨1400, 2, 10⟩, .LOSS)]).rating
      ≤ (Dwz.dwzRatingPeriod ⟨1500, 3, 17⟩
        [(⟨1700, 30, 40⟩, .WIN), (⟨1400, 2, 10⟩, .LOSS)]).rating :=
  C94_dwz_period_mono _ _ _ (sample_noWorse _ _) (by norm_num)

example : (Ingo.ingoRatingPeriod (⟨150, 17⟩ : Ingo.IngoRating ℝ)
        [(⟨120, 40⟩, .WIN), (⟨90, 10⟩, .LOSS)]).rating
      ≤ (Ingo.ingoRatingPeriod ⟨150, 17⟩
        [(⟨120, 40⟩, .DRAW), (⟨90, 10⟩, .LOSS)]).rating :=
  C94_ingo_period_mono _ _ _ (sample_noWorse _ _)

example : (Egf.egfRatingPeriod (⟨1500⟩ : Egf.EGFRating ℝ)
        [(⟨1700⟩, .DRAW, ⟨0⟩), (⟨1400⟩, .LOSS, ⟨2⟩)]).rating
      ≤ (Egf.egfRatingPeriod ⟨1500⟩ [(⟨1700⟩, .WIN, ⟨0⟩), (⟨1400⟩, .DRAW, ⟨2⟩)]).rating :=
  C94_egf_period_mono _ _ _
    (.cons ⟨rfl, rfl, by norm_num [points]⟩ (.cons ⟨rfl, rfl, by norm_num [points]⟩ .nil))
    (by norm_num)

example (c : Sticko.StickoConfig ℝ) : (Sticko.stickoRatingPeriod (⟨1500, 90⟩ : Sticko.StickoRating ℝ)
        [(⟨1700, 50⟩, .DRAW, true), (⟨1400, 60⟩, .LOSS, false)] c).rating
      ≤ (Sticko.stickoRatingPeriod ⟨1500, 90⟩
        [(⟨1700, 50⟩, .WIN, true), (⟨1400, 60⟩, .DRAW, false)] c).rating :=
  (C94_sticko_period_mono ⟨1500, 90⟩ [(⟨1700, 50⟩, .DRAW, true), (⟨1400, 60⟩, .LOSS, false)]
    [(⟨1700, 50⟩, .WIN, true), (⟨1400, 60⟩, .DRAW, false)] c
    (.cons ⟨rfl, rfl, by norm_num [points]⟩ (.cons ⟨rfl, rfl, by norm_num [points]⟩ .nil))
    (by norm_num)).1

/-- Three wins instead of two wins and a loss, for an established USCF player. -/
example (c : Uscf.USCFConfig ℝ) :
    (Uscf.uscfRatingPeriod (⟨1500, 30⟩ : Uscf.USCFRating ℝ)
        [(⟨1600, 9⟩, .WIN), (⟨1400, 2⟩, .LOSS), (⟨1700, 50⟩, .WIN)] c).rating
      ≤ (Uscf.uscfRatingPeriod ⟨1500, 30⟩
        [(⟨1600, 9⟩, .WIN), (⟨1400, 2⟩, .WIN), (⟨1700, 50⟩, .WIN)] c).rating := by
  apply C94_uscf_period_mono
  exact .cons ⟨rfl, le_rfl⟩ (.cons ⟨rfl, by norm_num [points]⟩ (.cons ⟨rfl, le_rfl⟩ .nil))

end Skillratings
