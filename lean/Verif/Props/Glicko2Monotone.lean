import Mathlib.Analysis.Real.Pi.Bounds
import Verif.Proofs.Volatility
import Verif.Props.Glicko2
import Verif.Props.Monotone
/-
C94 for Glicko-2: better results never make a rating worse.  The new volatility is known up to the
convergence tolerance only, which matters for very long rating periods.
-/
namespace Skillratings.Glicko2
open Real Spec

/-- A larger surprise has a larger solution of the volatility equation. -/
theorem zero_mono {Δ₁ Δ₂ φ v σ τ x₁ x₂ : ℝ} (hv : 0 < v) (hτ : 0 < τ)
    (h : Δ₂ ^ 2 ≤ (φ ^ 2 + v) * (1 + 27 / (2 * τ ^ 2))) (hΔ : Δ₁ ^ 2 ≤ Δ₂ ^ 2)
    (h1 : glicko2F Δ₁ φ v σ τ x₁ = 0) (h2 : glicko2F Δ₂ φ v σ τ x₂ = 0) : x₁ ≤ x₂ := by
  have hanti := F_unique Δ₂ φ v σ hv hτ h
  rw [← hanti.le_iff_ge, h2, ← h1, glicko2F, glicko2F]
  have hy := Real.exp_pos x₁
  have : exp x₁ * (Δ₁ ^ 2 - φ ^ 2 - v - exp x₁) / (2 * (φ ^ 2 + v + exp x₁) ^ 2)
      ≤ exp x₁ * (Δ₂ ^ 2 - φ ^ 2 - v - exp x₁) / (2 * (φ ^ 2 + v + exp x₁) ^ 2) := by
    gcongr
  linarith

/-- The factor between gain and change of the rating. -/
noncomputable def factor (φ v s : ℝ) : ℝ := glicko2NewPhi φ s v ^ 2

theorem factor_eq {φ v s : ℝ} (hv : 0 < v) (hs : 0 < s) :
    factor φ v s = 1 / (1 / (φ ^ 2 + s ^ 2) + 1 / v) := by
  have : 0 < 1 / (φ ^ 2 + s ^ 2) + 1 / v := by positivity
  rw [factor, glicko2NewPhi, div_pow, one_pow, Real.sq_sqrt this.le]

theorem factor_pos {φ v s : ℝ} (hv : 0 < v) (hs : 0 < s) : 0 < factor φ v s := by
  rw [factor_eq hv hs]; positivity

theorem factor_le {φ v s t q : ℝ} (hv : 0 < v) (hs : 0 < s) (ht : 0 < t) (hq : 1 ≤ q)
    (h : s ^ 2 ≤ q * t ^ 2) : factor φ v s ≤ q * factor φ v t := by
  rw [factor_eq hv hs, factor_eq hv ht]
  have hu : 0 < φ ^ 2 + s ^ 2 := by positivity
  have hw : 0 < φ ^ 2 + t ^ 2 := by positivity
  have huw : φ ^ 2 + s ^ 2 ≤ q * (φ ^ 2 + t ^ 2) := by nlinarith [sq_nonneg φ]
  set u := φ ^ 2 + s ^ 2
  set w := φ ^ 2 + t ^ 2
  have e1 : 1 / (1 / u + 1 / v) = u * v / (u + v) := by field_simp; ring
  have e2 : 1 / (1 / w + 1 / v) = w * v / (w + v) := by field_simp; ring
  rw [e1, e2, ← mul_div_assoc, div_le_div_iff₀ (by positivity) (by positivity)]
  have h1 : u * v * w ≤ q * (w * v) * u := by
    have : 0 ≤ u * v * w := by positivity
    nlinarith
  have h2 : u * v * v ≤ q * (w * v) * v := by
    have : 0 ≤ v * v := by positivity
    nlinarith
  nlinarith

theorem gain_mono {p : Glicko2Rating ℝ} {rs rs' : List (Glicko2Rating ℝ × Outcomes)}
    (h : NoWorse rs rs') : glicko2Gain (glicko2Mu p.rating) (games rs)
      ≤ glicko2Gain (glicko2Mu p.rating) (games rs') := by
  induction h with
  | nil => exact le_rfl
  | @cons r r' rs rs' h _ ih =>
    simp only [glicko2Gain, games, List.map_cons, List.sum_cons] at ih ⊢
    refine add_le_add ?_ ih
    simp only [game, h.1]
    have := (G_pos (glicko2Phi r'.1.deviation)).le
    have := h.2
    gcongr

theorem V_eq {p : Glicko2Rating ℝ} {rs rs' : List (Glicko2Rating ℝ × Outcomes)}
    (h : NoWorse rs rs') : glicko2V (glicko2Mu p.rating) (games rs)
      = glicko2V (glicko2Mu p.rating) (games rs') := by
  have e := h.map_eq fun r => glicko2G (glicko2Phi r.deviation) ^ 2
    * glicko2E (glicko2Mu p.rating) (glicko2Mu r.rating) (glicko2Phi r.deviation)
    * (1 - glicko2E (glicko2Mu p.rating) (glicko2Mu r.rating) (glicko2Phi r.deviation))
  simp only [glicko2V, games, List.map_map, Function.comp_def]
  rw [e]

theorem rating_change {p : Glicko2Rating ℝ} {xs : List Glicko2Game} (s : ℝ) :
    (updated p.rating p.deviation xs s).rating - p.rating
      = glicko2Scale * (factor (glicko2Phi p.deviation) (glicko2V (glicko2Mu p.rating) xs) s
        * glicko2Gain (glicko2Mu p.rating) xs) := by
  have hs := scale_pos
  simp only [updated, glicko2NewMu, factor]
  have : glicko2Mu p.rating * glicko2Scale + 1500 = p.rating := by
    rw [glicko2Mu]; field_simp; ring
  linear_combination this

/-- What two calls with better and worse results have to do with each other. -/
theorem mono_core {p p₁ p₂ : Glicko2Rating ℝ} {rs rs' : List (Glicko2Rating ℝ × Outcomes)}
    {c : Glicko2Config ℝ} (hr : rs ≠ []) (hτ : 0 < c.tau) (h : NoWorse rs rs')
    (hs : NoHugeSurprise p (games rs) c.tau) (hs' : NoHugeSurprise p (games rs') c.tau)
    (h1 : glicko2RatingPeriod p rs c = some p₁) (h2 : glicko2RatingPeriod p rs' c = some p₂) :
    ∃ A B : ℝ, 0 < A ∧ 0 < B ∧ 0 ≤ c.convergenceTolerance ∧
      p₁.rating - p.rating = A * glicko2Gain (glicko2Mu p.rating) (games rs) ∧
      p₂.rating - p.rating = B * glicko2Gain (glicko2Mu p.rating) (games rs') ∧
      (0 ≤ glicko2Gain (glicko2Mu p.rating) (games rs) →
        A ≤ exp (2 * c.convergenceTolerance) * B) ∧
      (glicko2Gain (glicko2Mu p.rating) (games rs') ≤ 0 →
        B ≤ exp (2 * c.convergenceTolerance) * A) ∧
      (glicko2Gain (glicko2Mu p.rating) (games rs) = glicko2Gain (glicko2Mu p.rating) (games rs') →
        A = B) := by
  have hr' : rs' ≠ [] := by rintro rfl; cases h; exact hr rfl
  obtain ⟨s, hs1, rfl⟩ := period_some hr h1
  obtain ⟨t, ht1, rfl⟩ := period_some hr' h2
  have hV := V_eq (p := p) h
  have hg := gain_mono (p := p) h
  have hv := V_pos (glicko2Mu p.rating) (games_ne_nil hr)
  obtain ⟨s0, x, hx, hxd⟩ := newVolatility_spec hv hτ hs1
  obtain ⟨t0, y, hy, hyd⟩ := newVolatility_spec (hV ▸ hv) hτ ht1
  have hsame : glicko2Gain (glicko2Mu p.rating) (games rs)
      = glicko2Gain (glicko2Mu p.rating) (games rs') → s = t := by
    intro he
    have : solve p.rating p.deviation p.volatility (games rs) c
        = solve p.rating p.deviation p.volatility (games rs') c := by
      rw [solve, solve, glicko2Delta, glicko2Delta, hV, he]
    rw [hs1, ht1] at this
    exact Option.some_injective _ this
  rw [NoHugeSurprise] at hs hs'
  rw [← hV] at hs' hy
  have hΔ : glicko2Delta (glicko2Mu p.rating) (games rs) = glicko2V (glicko2Mu p.rating) (games rs)
    * glicko2Gain (glicko2Mu p.rating) (games rs) := rfl
  have hΔ' : glicko2Delta (glicko2Mu p.rating) (games rs') = glicko2V (glicko2Mu p.rating) (games rs)
    * glicko2Gain (glicko2Mu p.rating) (games rs') := by rw [glicko2Delta, hV]
  have hsc := scale_pos
  have htol : 0 ≤ c.convergenceTolerance := (abs_nonneg _).trans hxd
  have key : ∀ {u w a b : ℝ}, 0 < u → 0 < w → |log (u ^ 2) - a| ≤ c.convergenceTolerance →
      |log (w ^ 2) - b| ≤ c.convergenceTolerance → a ≤ b →
      factor (glicko2Phi p.deviation) (glicko2V (glicko2Mu p.rating) (games rs)) u
        ≤ exp (2 * c.convergenceTolerance)
          * factor (glicko2Phi p.deviation) (glicko2V (glicko2Mu p.rating) (games rs)) w := by
    intro u w a b hu hw hua hwb hab
    refine factor_le hv hu hw (Real.one_le_exp (by linarith)) ?_
    have hu2 : 0 < u ^ 2 := by positivity
    have hw2 : 0 < w ^ 2 := by positivity
    rw [← Real.exp_log hu2, ← Real.exp_log hw2, ← Real.exp_add]
    apply Real.exp_le_exp.2
    rw [abs_le] at hua hwb
    linarith
  refine ⟨glicko2Scale * factor (glicko2Phi p.deviation) (glicko2V (glicko2Mu p.rating) (games rs)) s,
    glicko2Scale * factor (glicko2Phi p.deviation) (glicko2V (glicko2Mu p.rating) (games rs)) t,
    mul_pos hsc (factor_pos hv s0), mul_pos hsc (factor_pos hv t0), htol, ?_, ?_, ?_, ?_, ?_⟩
  · rw [rating_change]; ring
  · rw [rating_change, hV]; ring
  · intro h0
    have hsq : glicko2Delta (glicko2Mu p.rating) (games rs) ^ 2
        ≤ glicko2Delta (glicko2Mu p.rating) (games rs') ^ 2 := by
      rw [hΔ, hΔ']
      have := mul_nonneg hv.le h0
      gcongr
    have := key s0 t0 hxd hyd (zero_mono hv hτ hs' hsq hx hy)
    nlinarith
  · intro h0
    have hsq : glicko2Delta (glicko2Mu p.rating) (games rs') ^ 2
        ≤ glicko2Delta (glicko2Mu p.rating) (games rs) ^ 2 := by
      rw [hΔ, hΔ', mul_pow, mul_pow]
      have : glicko2Gain (glicko2Mu p.rating) (games rs') ^ 2
        ≤ glicko2Gain (glicko2Mu p.rating) (games rs) ^ 2 := by nlinarith
      gcongr
    have := key t0 s0 hyd hxd (zero_mono hv hτ hs hsq hy hx)
    nlinarith
  · intro he
    rw [hsame he]

/-- Better results: the gain of the worse results is at most `e^(2 tol)` times that of the better
ones, and the loss of the better results at most `e^(2 tol)` times that of the worse ones. -/
theorem C94_glicko2_period_mono_tolerance (p p₁ p₂ : Glicko2Rating ℝ)
    (rs rs' : List (Glicko2Rating ℝ × Outcomes)) (c : Glicko2Config ℝ) (hτ : 0 < c.tau)
    (h : NoWorse rs rs')
    (hs : NoHugeSurprise p (games rs) c.tau) (hs' : NoHugeSurprise p (games rs') c.tau)
    (h1 : glicko2RatingPeriod p rs c = some p₁) (h2 : glicko2RatingPeriod p rs' c = some p₂) :
    (p.rating ≤ p₁.rating →
      p₁.rating - p.rating ≤ exp (2 * c.convergenceTolerance) * (p₂.rating - p.rating)) ∧
    (p₂.rating ≤ p.rating →
      p.rating - p₂.rating ≤ exp (2 * c.convergenceTolerance) * (p.rating - p₁.rating)) := by
  by_cases hr : rs = []
  · subst hr
    cases h
    have e1 : p₁ = decayDeviation p := (Option.some_injective _ h1).symm
    have e2 : p₂ = decayDeviation p := (Option.some_injective _ h2).symm
    subst e1 e2
    simp [decayDeviation]
  obtain ⟨A, B, hA, hB, -, e1, e2, k1, k2, -⟩ := mono_core hr hτ h hs hs' h1 h2
  have hg := gain_mono (p := p) h
  have hE := Real.exp_pos (2 * c.convergenceTolerance)
  set S := glicko2Gain (glicko2Mu p.rating) (games rs)
  set S' := glicko2Gain (glicko2Mu p.rating) (games rs')
  set q := exp (2 * c.convergenceTolerance)
  constructor
  · intro h0
    have hS : 0 ≤ S := by
      by_contra hn; push Not at hn
      have := mul_neg_of_pos_of_neg hA hn
      linarith
    have k := k1 hS
    rw [e1, e2]
    calc A * S ≤ q * B * S := by gcongr
      _ ≤ q * B * S' := by gcongr
      _ = _ := by ring
  · intro h0
    have hS : S' ≤ 0 := by
      by_contra hn; push Not at hn
      have := mul_pos hB hn
      linarith
    have k := k2 hS
    have e1' : p.rating - p₁.rating = A * -S := by linear_combination -e1
    have e2' : p.rating - p₂.rating = B * -S' := by linear_combination -e2
    rw [e1', e2']
    have h3 : 0 ≤ -S' := by linarith
    calc B * -S' ≤ q * A * -S' := by gcongr
      _ ≤ q * A * -S := by gcongr
      _ = _ := by ring

theorem G_lower {d : ℝ} (h : |d| ≤ 350) : 3 / 5 ≤ glicko2G (glicko2Phi d) := by
  have h2 : glicko2Phi d ^ 2 ≤ 4.1 := by
    rw [glicko2Phi, div_pow, div_le_iff₀ (by have := scale_pos; positivity), glicko2Scale]
    have : d ^ 2 ≤ 350 ^ 2 := by rw [← sq_abs]; gcongr
    norm_num at this ⊢
    linarith
  have hpi : (9 : ℝ) ≤ Real.pi ^ 2 := by nlinarith [Real.pi_gt_three]
  rw [glicko2G, le_div_iff₀ (by positivity)]
  have : √(1 + 3 * glicko2Phi d ^ 2 / Real.pi ^ 2) ≤ 5 / 3 := by
    rw [Real.sqrt_le_left (by norm_num)]
    have : 3 * glicko2Phi d ^ 2 / Real.pi ^ 2 ≤ 3 * 4.1 / 9 := by gcongr
    norm_num at this ⊢
    linarith
  linarith

theorem gain_abs (μ : ℝ) (rs : List (Glicko2Rating ℝ × Outcomes)) :
    |glicko2Gain μ (games rs)| ≤ rs.length := by
  induction rs with
  | nil => simp [glicko2Gain, games]
  | cons r rs ih =>
    simp only [glicko2Gain, games, List.map_cons, List.sum_cons, List.length_cons] at ih ⊢
    push_cast
    refine (abs_add_le _ _).trans ?_
    rw [add_comm]
    refine add_le_add ih ?_
    have hg0 := G_pos (glicko2Phi r.1.deviation)
    have hg1 := G_le_one (glicko2Phi r.1.deviation)
    have hE0 := E_pos μ (glicko2Mu r.1.rating) (glicko2Phi r.1.deviation)
    have hE1 := E_lt_one μ (glicko2Mu r.1.rating) (glicko2Phi r.1.deviation)
    rw [abs_mul, abs_of_pos hg0]
    have : |points r.2 - glicko2E μ (glicko2Mu r.1.rating) (glicko2Phi r.1.deviation)| ≤ 1 := by
      rw [abs_le]
      cases r.2 <;> simp only [points] <;> constructor <;> linarith
    nlinarith [abs_nonneg (points r.2 - glicko2E μ (glicko2Mu r.1.rating) (glicko2Phi r.1.deviation))]

/-- Better results gain at least three tenths. -/
theorem gain_step {p : Glicko2Rating ℝ} {rs rs' : List (Glicko2Rating ℝ × Outcomes)}
    (h : NoWorse rs rs') (hd : ∀ r ∈ rs, |r.1.deviation| ≤ 350) :
    glicko2Gain (glicko2Mu p.rating) (games rs) = glicko2Gain (glicko2Mu p.rating) (games rs') ∨
    glicko2Gain (glicko2Mu p.rating) (games rs) + 3 / 10
      ≤ glicko2Gain (glicko2Mu p.rating) (games rs') := by
  induction h with
  | nil => exact Or.inl rfl
  | @cons r r' rs rs' h hrest ih =>
    have ih := ih fun x hx => hd x (List.mem_cons_of_mem _ hx)
    have hm := gain_mono (p := p) hrest
    have hg := G_lower (hd r List.mem_cons_self)
    simp only [glicko2Gain, games, List.map_cons, List.sum_cons] at ih hm ⊢
    rw [← h.1]
    set E := glicko2E (glicko2Mu p.rating) (glicko2Mu r.1.rating) (glicko2Phi r.1.deviation)
    set g := glicko2G (glicko2Phi r.1.deviation)
    have hp : points r.2 = points r'.2 ∨ points r.2 + 1 / 2 ≤ points r'.2 := by
      have key : ∀ o o' : Outcomes, points o ≤ points o' →
          points o = points o' ∨ points o + 1 / 2 ≤ points o' := by
        intro o o'
        cases o <;> cases o' <;> norm_num [points]
      exact key _ _ h.2
    rcases hp with hp | hp
    · rw [hp]
      rcases ih with ih | ih
      · left; rw [ih]
      · right; linarith
    · right
      nlinarith

/-- Better results never give a lower rating: with a tolerance of at most `10⁻⁶` (the default),
opponents with deviations of at most 350 and at most 100000 games. -/
theorem C94_glicko2_period_mono (p p₁ p₂ : Glicko2Rating ℝ)
    (rs rs' : List (Glicko2Rating ℝ × Outcomes)) (c : Glicko2Config ℝ) (hτ : 0 < c.tau)
    (ht : c.convergenceTolerance ≤ 0.000001) (hd : ∀ r ∈ rs, |r.1.deviation| ≤ 350)
    (hn : rs.length ≤ 100000) (h : NoWorse rs rs')
    (hs : NoHugeSurprise p (games rs) c.tau) (hs' : NoHugeSurprise p (games rs') c.tau)
    (h1 : glicko2RatingPeriod p rs c = some p₁) (h2 : glicko2RatingPeriod p rs' c = some p₂) :
    p₁.rating ≤ p₂.rating := by
  by_cases hr : rs = []
  · subst hr
    cases h
    rw [h1] at h2
    exact (congrArg Glicko2Rating.rating (Option.some_injective _ h2)).le
  obtain ⟨A, B, hA, hB, htol, e1, e2, k1, k2, k3⟩ := mono_core hr hτ h hs hs' h1 h2
  have hn' : (rs.length : ℝ) ≤ 100000 := by exact_mod_cast hn
  have ha := abs_le.1 ((gain_abs (glicko2Mu p.rating) rs).trans hn')
  have ha' := abs_le.1 ((gain_abs (glicko2Mu p.rating) rs').trans
    (show (rs'.length : ℝ) ≤ 100000 by rwa [← List.Forall₂.length_eq h]))
  have hq : exp (2 * c.convergenceTolerance) ≤ 1 + 0.000003 := by
    have hb := Real.abs_exp_sub_one_sub_id_le (x := 2 * c.convergenceTolerance)
      (by rw [abs_le]; norm_num at ht ⊢; constructor <;> linarith)
    have := (abs_le.1 hb).2
    norm_num at ht ⊢
    nlinarith
  have hq1 : 1 ≤ exp (2 * c.convergenceTolerance) := Real.one_le_exp (by linarith)
  rcases gain_step (p := p) h hd with he | hstep
  · have := k3 he
    rw [this, he] at e1
    linarith
  set S := glicko2Gain (glicko2Mu p.rating) (games rs)
  set S' := glicko2Gain (glicko2Mu p.rating) (games rs')
  set q := exp (2 * c.convergenceTolerance)
  norm_num at hq
  rcases le_total 0 S with hS | hS
  · have k := k1 hS
    have : A * S ≤ B * S' := by
      calc A * S ≤ q * B * S := by gcongr
        _ = B * (q * S) := by ring
        _ ≤ B * S' := by
          gcongr
          nlinarith
    linarith
  · rcases le_total S' 0 with hS' | hS'
    · have k := k2 hS'
      have h3 : 0 ≤ -S' := by linarith
      have : B * -S' ≤ A * -S := by
        calc B * -S' ≤ q * A * -S' := by gcongr
          _ = A * (q * -S') := by ring
          _ ≤ A * -S := by
            gcongr
            nlinarith
      linarith
    · have := mul_nonneg hB.le hS'
      have := mul_nonpos_of_nonneg_of_nonpos hA.le hS
      linarith

/-- One game: a better result never gives a lower rating. -/
theorem C94_glicko2_mono (a b a₁ b₁ a₂ b₂ : Glicko2Rating ℝ) (o o' : Outcomes) (c : Glicko2Config ℝ)
    (hτ : 0 < c.tau) (ht : c.convergenceTolerance ≤ 0.000001) (hd : |b.deviation| ≤ 350)
    (ho : points o ≤ points o')
    (hab : |a.rating - b.rating| ≤ 173.7178 * log (1 + 27 / (2 * c.tau ^ 2)))
    (h1 : glicko2 a b o c = some (a₁, b₁)) (h2 : glicko2 a b o' c = some (a₂, b₂)) :
    a₁.rating ≤ a₂.rating := by
  obtain ⟨s, -, hs, -, rfl, -⟩ := game_some h1
  obtain ⟨t, -, ht1, -, rfl, -⟩ := game_some h2
  refine C94_glicko2_period_mono a _ _ [(b, o)] [(b, o')] c hτ ht (by simpa using hd) (by simp)
    (.cons ⟨rfl, ho⟩ .nil) (noHugeSurprise_single a b o hτ hab) (noHugeSurprise_single a b o' hτ hab)
    ?_ ?_
  · rw [period_real _ _ _ (by simp)]
    exact Option.map_eq_some_iff.2 ⟨s, hs, rfl⟩
  · rw [period_real _ _ _ (by simp)]
    exact Option.map_eq_some_iff.2 ⟨t, ht1, rfl⟩

/-- Two default players and the default settings: win and loss. -/
example : ∃ p₁ p₂ : Glicko2Rating ℝ × Glicko2Rating ℝ,
    glicko2 ⟨1500, 350, 0.06⟩ ⟨1600, 350, 0.06⟩ .LOSS ⟨1 / 2, 1 / 1000000⟩ = some p₁ ∧
    glicko2 ⟨1500, 350, 0.06⟩ ⟨1600, 350, 0.06⟩ .WIN ⟨1 / 2, 1 / 1000000⟩ = some p₂ ∧
    p₁.1.rating ≤ p₂.1.rating := by
  have hl : |(1500 : ℝ) - 1600| ≤ 173.7178 * log (1 + 27 / (2 * (1 / 2) ^ 2)) := by
    have : (1 : ℝ) ≤ log 55 := by
      rw [Real.le_log_iff_exp_le (by norm_num)]
      have := Real.exp_one_lt_d9
      linarith
    norm_num [abs_of_nonneg, abs_of_neg]
    linarith
  have hl' : |(1600 : ℝ) - 1500| ≤ 173.7178 * log (1 + 27 / (2 * (1 / 2) ^ 2)) := by
    rwa [abs_sub_comm]
  have hret : ∀ o : Outcomes, ∃ r, glicko2 (⟨1500, 350, 0.06⟩ : Glicko2Rating ℝ) ⟨1600, 350, 0.06⟩ o
      ⟨1 / 2, 1 / 1000000⟩ = some r := fun o =>
    C37_glicko2_returns _ _ o _ (by norm_num) (by norm_num)
      (notFlat_of_noHugeSurprise (by simp [games]) (by norm_num)
        (noHugeSurprise_single _ _ o (by norm_num) hl))
      (notFlat_of_noHugeSurprise (by simp [games]) (by norm_num)
        (noHugeSurprise_single _ _ (mirror o) (by norm_num) hl'))
  obtain ⟨r, hr⟩ := hret .LOSS
  obtain ⟨r', hr'⟩ := hret .WIN
  exact ⟨r, r', hr, hr', C94_glicko2_mono _ _ r.1 r.2 r'.1 r'.2 .LOSS .WIN _ (by norm_num)
    (by norm_num) (by norm_num) (by norm_num [points]) hl hr hr'⟩

end Skillratings.Glicko2
