import Verif.Props.TrueSkillDraws
import Verif.Proofs.Sticko
import Verif.Props.Glicko
import Verif.Props.Glicko2
import Verif.Props.Sticko
import Verif.Props.TrueSkill
import Verif.Props.TrueSkillChain
import Verif.Props.WengLin
/-
Property C113: how certain ratings can become.
-/
namespace Skillratings
open Spec Filter
open Real (sqrt)
open scoped Topology

/-! ### Observing -/

theorem quarter {x : ℝ} : x * (1 - x) ≤ 1 / 4 := by nlinarith [sq_nonneg (x - 1 / 2)]

theorem posterior_mono {v w i j : ℝ} (hv : 0 < v) (hvw : v ≤ w) (hi : 0 ≤ i) (hij : i ≤ j) :
    posterior v j ≤ posterior w i := by
  have hw : 0 < w := hv.trans_le hvw
  unfold posterior
  apply one_div_le_one_div_of_le (by positivity)
  have := one_div_le_one_div_of_le hv hvw
  linarith

theorem info_le (r rj rdj : ℝ) : glickoInfo r rj rdj ≤ (Real.log 10 / 400) ^ 2 / 4 := by
  have h1 := glickoE_pos r rj rdj
  have h2 := glickoE_lt_one r rj rdj
  have h3 := glickoG_pos rdj
  have h4 := glickoG_le_one rdj
  have h5 := glickoQ_pos
  have h6 : glickoG rdj ^ 2 ≤ 1 := by nlinarith
  have h7 : glickoE r rj rdj * (1 - glickoE r rj rdj) ≤ 1 / 4 := quarter
  have h8 : 0 ≤ glickoE r rj rdj * (1 - glickoE r rj rdj) := mul_nonneg h1.le (by linarith)
  have h9 : 0 < glickoQ ^ 2 := by positivity
  have h10 : glickoG rdj ^ 2 * (glickoE r rj rdj * (1 - glickoE r rj rdj)) ≤ 1 / 4 := by nlinarith
  change glickoQ ^ 2 * glickoG rdj ^ 2 * glickoE r rj rdj * (1 - glickoE r rj rdj) ≤ glickoQ ^ 2 / 4
  nlinarith

theorem sum_le_card {α : Type} (l : List α) (f : α → ℝ) {B : ℝ} (h : ∀ x, f x ≤ B) :
    (l.map f).sum ≤ l.length * B := by
  induction l with
  | nil => simp
  | cons x l ih => simp only [List.map_cons, List.sum_cons, List.length_cons]; push_cast; linarith [h x]

theorem onset_sq (rd : ℝ) (c : ℝ) : min (c ^ 2) (350 ^ 2) ≤ glickoOnset rd c ^ 2 := by
  have h : 0 ≤ rd ^ 2 + c ^ 2 := by positivity
  rw [glickoOnset]
  rcases le_total √(rd ^ 2 + c ^ 2) 350 with h' | h'
  · rw [min_eq_left h', Real.sq_sqrt h]
    exact (min_le_left _ _).trans (by nlinarith [sq_nonneg rd])
  · rw [min_eq_right h']; exact min_le_right _ _

theorem entry_pos {c : ℝ} (h : c ≠ 0) : 0 < min (c ^ 2) (350 ^ 2) :=
  lt_min (by positivity) (by norm_num)

theorem one_div_sqrt (x : ℝ) : 1 / √x = √(1 / x) := by
  rw [Real.sqrt_div zero_le_one, Real.sqrt_one]

/-! ### C113: Glicko and Glicko-Boost -/

namespace Glicko

theorem rated_floor (r rd rj rdj s : ℝ) {c : ℝ} (hc : c ≠ 0) :
    1 / √(1 / min (c ^ 2) (350 ^ 2) + (Real.log 10 / 400) ^ 2 / 4) ≤
      (rated r rd rj rdj s c).deviation := by
  rw [one_div_sqrt]
  exact Real.sqrt_le_sqrt (posterior_mono (entry_pos hc) (onset_sq rd c)
    (glickoInfo_pos r rj rdj).le (info_le r rj rdj))

/-- After a game of Glicko no deviation is below a bound that depends on the configuration only,
not on the players and not on the past. -/
theorem C113_glicko_floor (a b : GlickoRating ℝ) (o : Outcomes) (c : GlickoConfig ℝ)
    (hc : c.c ≠ 0) :
    1 / √(1 / min (c.c ^ 2) (350 ^ 2) + (Real.log 10 / 400) ^ 2 / 4) ≤ (glicko a b o c).1.deviation ∧
    1 / √(1 / min (c.c ^ 2) (350 ^ 2) + (Real.log 10 / 400) ^ 2 / 4) ≤
      (glicko a b o c).2.deviation := by
  rw [glicko_real]
  exact ⟨rated_floor _ _ _ _ _ hc, rated_floor _ _ _ _ _ hc⟩

/-- The same for a rating period of `n` games. -/
theorem C113_glicko_period_floor (p : GlickoRating ℝ) (rs : List (GlickoRating ℝ × Outcomes))
    (c : GlickoConfig ℝ) (hr : rs ≠ []) (hc : c.c ≠ 0) :
    1 / √(1 / min (c.c ^ 2) (350 ^ 2) + rs.length * ((Real.log 10 / 400) ^ 2 / 4)) ≤
      (glickoRatingPeriod p rs c).deviation := by
  rw [period_real p rs c hr, one_div_sqrt]
  exact Real.sqrt_le_sqrt (posterior_mono (entry_pos hc) (onset_sq p.deviation c.c)
    (List_sum_pos rs _ hr fun x => glickoInfo_pos _ _ _).le
    (sum_le_card rs _ fun x => info_le _ _ _))

/-- With the default configuration no game takes a deviation below 62. -/
theorem C113_glicko_default_floor (a b : GlickoRating ℝ) (o : Outcomes) :
    62 ≤ (glicko a b o GlickoConfig.new).1.deviation ∧
      62 ≤ (glicko a b o GlickoConfig.new).2.deviation := by
  have e : (GlickoConfig.new : GlickoConfig ℝ).c = 63.2 := by
    simp only [GlickoConfig.new, flt]
  have h := C113_glicko_floor a b o GlickoConfig.new (by rw [e]; norm_num)
  have hq : (Real.log 10 / 400) ^ 2 ≤ 0.0057565 ^ 2 :=
    pow_le_pow_left₀ glickoQ_pos.le glickoQ_lt.le 2
  have key : (62 : ℝ) ≤ 1 / √(1 / min ((GlickoConfig.new : GlickoConfig ℝ).c ^ 2) (350 ^ 2)
      + (Real.log 10 / 400) ^ 2 / 4) := by
    rw [e, one_div_sqrt, min_eq_left (by norm_num)]
    apply Real.le_sqrt_of_sq_le
    rw [le_div_iff₀ (by positivity)]
    norm_num at hq ⊢
    nlinarith
  exact ⟨key.trans h.1, key.trans h.2⟩

example : (⟨63.2⟩ : GlickoConfig ℝ).c ≠ 0 ∧ ([(⟨1500, 40⟩, .DRAW)] : List (GlickoRating ℝ × Outcomes)) ≠ [] := by
  norm_num

/-- The information of a game against an opponent who is at most `D` away and whose deviation is
at most `S`. -/
theorem info_ge {r rj rdj D S : ℝ} (hD : |r - rj| ≤ D) (hS : |rdj| ≤ S) :
    glickoInfo D 0 0 * glickoG S ^ 2 ≤ glickoInfo r rj rdj := by
  have hg := glickoG_pos rdj
  have hg1 := glickoG_le_one rdj
  have hgS := glickoG_pos S
  have hq := glickoQ_pos
  have hSg : glickoG S ≤ glickoG rdj := by
    rcases eq_or_lt_of_le (sq_le_sq.2 (hS.trans (le_abs_self S))) with h | h
    · have : glickoG S = glickoG rdj := by unfold glickoG; rw [h]
      exact this.le
    · exact (glickoG_lt_of_sq_lt h).le
  have g0 : glickoG 0 = 1 := by simp [glickoG]
  have hM : glickoE D 0 0 = Real.sigmoid (glickoQ * D) := by rw [glickoE_eq, g0]; ring_nf
  have hs := glickoE_eq r rj rdj
  have hx : |glickoQ * (glickoG rdj * (r - rj))| ≤ glickoQ * D := by
    rw [abs_mul, abs_mul, abs_of_pos hq, abs_of_pos hg]
    have := abs_nonneg (r - rj)
    exact mul_le_mul_of_nonneg_left (by nlinarith) hq.le
  obtain ⟨hx1, hx2⟩ := abs_le.1 hx
  have m1 : glickoE r rj rdj ≤ glickoE D 0 0 := by
    rw [hs, hM]; exact Real.sigmoid_monotone hx2
  have m2 : 1 - glickoE D 0 0 ≤ glickoE r rj rdj := by
    rw [hs, hM, ← Real.sigmoid_neg]; exact Real.sigmoid_monotone hx1
  have k : glickoE D 0 0 * (1 - glickoE D 0 0) ≤ glickoE r rj rdj * (1 - glickoE r rj rdj) := by
    nlinarith
  have k0 : 0 ≤ glickoE D 0 0 * (1 - glickoE D 0 0) :=
    mul_nonneg (glickoE_pos _ _ _).le (by linarith [glickoE_lt_one D 0 0])
  have k1 : glickoG S ^ 2 ≤ glickoG rdj ^ 2 := pow_le_pow_left₀ hgS.le hSg 2
  calc glickoInfo D 0 0 * glickoG S ^ 2
      = glickoQ ^ 2 * (glickoG S ^ 2 * (glickoE D 0 0 * (1 - glickoE D 0 0))) := by
        rw [glickoInfo, g0]; ring
    _ ≤ glickoQ ^ 2 * (glickoG rdj ^ 2 * (glickoE r rj rdj * (1 - glickoE r rj rdj))) := by
        gcongr
    _ = glickoInfo r rj rdj := by rw [glickoInfo]; ring

/-- Without the constant `c` there is no bound: whoever goes on playing opponents that are not too
far away ends with a deviation as small as you like. -/
theorem C113_glicko_no_floor (a b : ℕ → GlickoRating ℝ) (o : ℕ → Outcomes)
    (h0 : 0 < (a 0).deviation)
    (hstep : ∀ n, a (n + 1) = (glicko (a n) (b n) (o n) ⟨0⟩).1) (D S : ℝ)
    (hD : ∀ n, |(a n).rating - (b n).rating| ≤ D) (hS : ∀ n, |(b n).deviation| ≤ S) :
    Tendsto (fun n => (a n).deviation) atTop (𝓝 0) := by
  set I := glickoInfo D 0 0 * glickoG S ^ 2 with hI
  have hIpos : 0 < I := by
    have := glickoG_pos S
    have := glickoInfo_pos D 0 0
    positivity
  have hdev : ∀ n, (a (n + 1)).deviation = √(posterior (glickoOnset (a n).deviation 0 ^ 2)
      (glickoInfo (a n).rating (b n).rating (b n).deviation)) := by
    intro n; rw [hstep n, glicko_real]; rfl
  have hpos : ∀ n, 0 < (a n).deviation := by
    intro n
    induction n with
    | zero => exact h0
    | succ n ih => rw [hstep n, glicko_real]; exact rated_deviation_pos _ _ _ _ _ ih
  have hle : ∀ n, (a (n + 1)).deviation ^ 2 ≤ 1 / ((n + 1 : ℝ) * I) := by
    intro n
    have hn : ∀ n, (a (n + 1)).deviation ^ 2 ≤
        1 / (1 / (a n).deviation ^ 2 + I) := by
      intro n
      have p1 := glickoOnset_pos (0 : ℝ) (hpos n)
      have p2 : glickoOnset (a n).deviation 0 ≤ (a n).deviation := by
        unfold glickoOnset
        refine (min_le_left _ _).trans ?_
        rw [zero_pow two_ne_zero, add_zero, Real.sqrt_sq (hpos n).le]
      have p3 := info_ge (hD n) (hS n)
      have p4 : 0 < glickoOnset (a n).deviation 0 ^ 2 := by positivity
      rw [hdev, Real.sq_sqrt (posterior_pos p4 (glickoInfo_pos _ _ _).le).le]
      exact posterior_mono (by positivity) (pow_le_pow_left₀ p1.le p2 2) hIpos.le p3
    induction n with
    | zero =>
      refine (hn 0).trans ?_
      have := hpos 0
      apply one_div_le_one_div_of_le (by simpa using hIpos)
      have : 0 < 1 / (a 0).deviation ^ 2 := by positivity
      push_cast; linarith
    | succ n ih =>
      refine (hn (n + 1)).trans ?_
      have hp := hpos (n + 1)
      have h2 : 0 < (n + 1 : ℝ) * I := by positivity
      have h3 : (n + 1 : ℝ) * I ≤ 1 / (a (n + 1)).deviation ^ 2 := by
        rw [le_div_iff₀ (by positivity)]
        rw [le_div_iff₀ h2] at ih
        linarith
      apply one_div_le_one_div_of_le (by push_cast; positivity)
      push_cast; linarith
  rw [← tendsto_add_atTop_iff_nat 1]
  have hsq : Tendsto (fun n : ℕ => √(1 / ((n + 1 : ℝ) * I))) atTop (𝓝 0) := by
    rw [← Real.sqrt_zero]
    refine (Real.continuous_sqrt.tendsto 0).comp ?_
    have h1 : Tendsto (fun n : ℕ => (1 : ℝ) / (n + 1)) atTop (𝓝 0) :=
      tendsto_one_div_add_atTop_nhds_zero_nat
    have h2 := h1.mul_const (1 / I)
    rw [zero_mul] at h2
    refine h2.congr fun n => ?_
    rw [div_mul_div_comm, one_mul]
  refine squeeze_zero (fun n => (hpos _).le) (fun n => ?_) hsq
  exact Real.le_sqrt_of_sq_le (hle n)

/-- Two players of the same rating who draw again and again. -/
example : ∃ a b : ℕ → GlickoRating ℝ, 0 < (a 0).deviation ∧
    (∀ n, a (n + 1) = (glicko (a n) (b n) .DRAW ⟨0⟩).1) ∧
    (∀ n, |(a n).rating - (b n).rating| ≤ 0) ∧ ∀ n, |(b n).deviation| ≤ 350 := by
  let f : ℕ → GlickoRating ℝ := fun n => n.rec ⟨1500, 350⟩
    fun _ x => (glicko x ⟨1500, 100⟩ .DRAW ⟨0⟩).1
  have hr : ∀ n, (f n).rating = 1500 := by
    intro n
    induction n with
    | zero => rfl
    | succ n ih =>
      have e : f (n + 1) = (glicko (f n) ⟨1500, 100⟩ .DRAW ⟨0⟩).1 := rfl
      rw [e, glicko_real]
      simp only [rated, ih, points, glickoE_eq, sub_self, mul_zero, Real.sigmoid_zero]
      norm_num
  refine ⟨f, fun _ => ⟨1500, 100⟩, ?_, fun n => rfl, fun n => ?_, fun n => ?_⟩
  · change (0 : ℝ) < 350; norm_num
  · rw [hr]; simp
  · rw [abs_of_pos] <;> norm_num

end Glicko

/-! ### C113: the Stephenson system -/

namespace Sticko

theorem stickoInfo_le (P : StickoParams) (r : ℝ) (x : StickoGame) :
    stickoInfo P r x ≤ (Real.log 10 / 400) ^ 2 / 4 := info_le _ _ _

theorem update_floor (P : StickoParams) (r rd : ℝ) (xs : List StickoGame) (hc : P.c ≠ 0)
    (hh : 0 ≤ P.h) :
    min (1 / √(1 / (min (P.c ^ 2) (350 ^ 2) + P.h * xs.length)
      + xs.length * ((Real.log 10 / 400) ^ 2 / 4))) 350 ≤ (stickoUpdate P r rd xs).2 := by
  have h1 := entry_pos hc
  have h2 := onset_sq rd P.c
  have h3 : 0 ≤ P.h * xs.length := by positivity
  rw [one_div_sqrt]
  refine min_le_min_right _ (Real.sqrt_le_sqrt (posterior_mono (by positivity) (by linarith) ?_
    (sum_le_card xs _ fun x => stickoInfo_le P r x)))
  apply List.sum_nonneg
  intro y hy
  obtain ⟨x, -, rfl⟩ := List.mem_map.1 hy
  exact (stickoInfo_pos P r x).le

/-- After a game no deviation is below a bound that depends on the configuration only. -/
theorem C113_sticko_floor (a b : StickoRating ℝ) (o : Outcomes) (c : StickoConfig ℝ)
    (hc : c.c ≠ 0) (hh : 0 ≤ c.h) :
    min (1 / √(1 / (min (c.c ^ 2) (350 ^ 2) + c.h) + (Real.log 10 / 400) ^ 2 / 4)) 350 ≤
      (sticko a b o c).1.deviation ∧
    min (1 / √(1 / (min (c.c ^ 2) (350 ^ 2) + c.h) + (Real.log 10 / 400) ^ 2 / 4)) 350 ≤
      (sticko a b o c).2.deviation := by
  rw [sticko_real]
  constructor
  · have := update_floor (params c) a.rating a.deviation [game (b, o, true)] hc hh
    simpa [params] using this
  · have := update_floor (params c) b.rating b.deviation [game (a, mirror o, false)] hc hh
    simpa [params] using this

/-- The same for a rating period of `n` games. -/
theorem C113_sticko_period_floor (p : StickoRating ℝ)
    (rs : List (StickoRating ℝ × Outcomes × Bool)) (c : StickoConfig ℝ) (hr : rs ≠ [])
    (hc : c.c ≠ 0) (hh : 0 ≤ c.h) :
    min (1 / √(1 / (min (c.c ^ 2) (350 ^ 2) + c.h * rs.length)
      + rs.length * ((Real.log 10 / 400) ^ 2 / 4))) 350 ≤ (stickoRatingPeriod p rs c).deviation := by
  rw [period_real p rs c hr]
  have := update_floor (params c) p.rating p.deviation (rs.map game) hc hh
  simpa [params] using this

example : (⟨10, 0, 2, 0, 10⟩ : StickoConfig ℝ).c ≠ 0 ∧ 0 ≤ (⟨10, 0, 2, 0, 10⟩ : StickoConfig ℝ).h ∧
    ([(⟨1500, 40⟩, .DRAW, true)] : List (StickoRating ℝ × Outcomes × Bool)) ≠ [] := by
  norm_num

end Sticko

/-! ### C113: Glicko-2 -/

namespace Glicko2

theorem g_le (φ : ℝ) : 0 < glicko2G φ ∧ glicko2G φ ≤ 1 := by
  have h : 0 ≤ 3 * φ ^ 2 / Real.pi ^ 2 := by positivity
  unfold glicko2G
  refine ⟨by positivity, ?_⟩
  rw [div_le_one (Real.sqrt_pos.2 (by linarith))]
  exact Real.one_le_sqrt.2 (by linarith)

theorem newPhi_floor (φ : ℝ) {s μ : ℝ} (hs : 0 < s) (xs : List Glicko2Game) :
    1 / √(1 / s ^ 2 + xs.length / 4) ≤ glicko2NewPhi φ s (glicko2V μ xs) := by
  unfold glicko2NewPhi glicko2V
  rw [one_div_one_div]
  have hsum : (xs.map fun x => glicko2G x.φ ^ 2 * glicko2E μ x.μ x.φ * (1 - glicko2E μ x.μ x.φ)).sum
      ≤ (xs.length : ℝ) * (1 / 4) := by
    refine sum_le_card xs _ fun x => ?_
    have h1 := g_le x.φ
    have h2 : glicko2G x.φ ^ 2 ≤ 1 := by nlinarith
    have h3 : glicko2E μ x.μ x.φ * (1 - glicko2E μ x.μ x.φ) ≤ 1 / 4 := quarter
    have h4 : 0 < glicko2G x.φ ^ 2 := by have := h1.1; positivity
    nlinarith
  have h0 : 0 ≤ (xs.map fun x => glicko2G x.φ ^ 2 * glicko2E μ x.μ x.φ
      * (1 - glicko2E μ x.μ x.φ)).sum := by
    apply List.sum_nonneg
    intro y hy
    obtain ⟨x, -, rfl⟩ := List.mem_map.1 hy
    have h5 : 0 < glicko2E μ x.μ x.φ := by unfold glicko2E; positivity
    have h6 : glicko2E μ x.μ x.φ ≤ 1 := by
      unfold glicko2E
      rw [div_le_one (by positivity)]
      linarith [Real.exp_pos (-(glicko2G x.φ * (μ - x.μ)))]
    exact mul_nonneg (mul_nonneg (sq_nonneg _) h5.le) (by linarith)
  apply one_div_le_one_div_of_le
  · apply Real.sqrt_pos.2; positivity
  · apply Real.sqrt_le_sqrt
    have : 1 / (φ ^ 2 + s ^ 2) ≤ 1 / s ^ 2 :=
      one_div_le_one_div_of_le (by positivity) (by nlinarith [sq_nonneg φ])
    linarith

/-- After a game of Glicko-2 the deviation is bounded below by the new volatility, whatever the
deviation was. -/
theorem C113_glicko2_floor (a b a' b' : Glicko2Rating ℝ) (o : Outcomes) (c : Glicko2Config ℝ)
    (hτ : 0 < c.tau) (h : glicko2 a b o c = some (a', b')) :
    173.7178 / √(1 / a'.volatility ^ 2 + 1 / 4) ≤ a'.deviation ∧
      173.7178 / √(1 / b'.volatility ^ 2 + 1 / 4) ≤ b'.deviation := by
  obtain ⟨h1, -, h2, -⟩ := C38_glicko2_formula a b a' b' o c h
  obtain ⟨h3, h4⟩ := C36_glicko2_volatility a b a' b' o c hτ h
  rw [h1, h2, div_eq_mul_one_div, div_eq_mul_one_div (173.7178 : ℝ) √(1 / b'.volatility ^ 2 + 1 / 4)]
  have k1 := newPhi_floor (glicko2Phi a.deviation) (μ := glicko2Mu a.rating) h3.1 (games [(b, o)])
  have k2 := newPhi_floor (glicko2Phi b.deviation) (μ := glicko2Mu b.rating) h4.1
    (games [(a, mirror o)])
  simp only [games, List.map_cons, List.map_nil, List.length_singleton, Nat.cast_one] at k1 k2
  exact ⟨mul_le_mul_of_nonneg_left k1 (by norm_num), mul_le_mul_of_nonneg_left k2 (by norm_num)⟩

/-- The same for a rating period of `n` games. -/
theorem C113_glicko2_period_floor (p p' : Glicko2Rating ℝ)
    (rs : List (Glicko2Rating ℝ × Outcomes)) (c : Glicko2Config ℝ) (hτ : 0 < c.tau) (hr : rs ≠ [])
    (h : glicko2RatingPeriod p rs c = some p') :
    173.7178 / √(1 / p'.volatility ^ 2 + rs.length / 4) ≤ p'.deviation := by
  obtain ⟨h1, -⟩ := C38_glicko2_period_formula p p' rs c hr h
  have h3 := C36_glicko2_period_volatility p p' rs c hτ hr h
  rw [h1, div_eq_mul_one_div]
  have k1 := newPhi_floor (glicko2Phi p.deviation) (μ := glicko2Mu p.rating) h3.1 (games rs)
  simp only [games, List.length_map] at k1
  exact mul_le_mul_of_nonneg_left k1 (by norm_num)

end Glicko2

/-! ### C113: TrueSkill -/

namespace TrueSkill

theorem upd_floor {p : TrueSkillRating ℝ} {τ β c V W : ℝ} (_h0 : 0 ≤ W) (h1 : W ≤ 1) (hβ : β ≠ 0)
    (hτ : τ ^ 2 ≤ 2 * β ^ 2) (hc : 2 * β ^ 2 + p.uncertainty ^ 2 ≤ c ^ 2) :
    |τ| * √(1 - τ ^ 2 / (2 * β ^ 2)) ≤ (upd p τ c V W).uncertainty := by
  have hb : 0 < 2 * β ^ 2 := by positivity
  have hu := sq_nonneg p.uncertainty
  have ht := sq_nonneg τ
  have hc0 : 0 < c ^ 2 := by linarith
  rw [← Real.sqrt_sq_eq_abs, ← Real.sqrt_mul ht]
  simp only [upd, tsUncertainty]
  apply Real.sqrt_le_sqrt
  set u := p.uncertainty ^ 2
  set t := τ ^ 2
  set B := 2 * β ^ 2
  have e1 : t * (1 - t / B) ≤ (u + t) * (1 - (u + t) / (B + u)) := by
    have hBu : 0 < B + u := by linarith
    rw [one_sub_div hb.ne', one_sub_div hBu.ne', ← mul_div_assoc, ← mul_div_assoc,
      div_le_div_iff₀ hb hBu]
    nlinarith [mul_nonneg hu (sub_nonneg.2 hτ), mul_nonneg (mul_nonneg hu ht) (sub_nonneg.2 hτ),
      mul_nonneg (mul_nonneg hu hb.le) (sub_nonneg.2 hτ)]
  refine e1.trans (mul_le_mul_of_nonneg_left ?_ (by linarith))
  have e2 : (u + t) / c ^ 2 ≤ (u + t) / (B + u) :=
    div_le_div_of_nonneg_left (by linarith) (by linarith) hc
  have e3 : 0 ≤ (u + t) / c ^ 2 := by positivity
  nlinarith

/-- After a decided game of two players no uncertainty is below a bound that depends on the
configuration only. -/
theorem C113_trueskill_floor (a b : TrueSkillRating ℝ) (o : Outcomes) (cfg : TrueSkillConfig ℝ)
    (ho : o ≠ .DRAW) (hβ : cfg.beta ≠ 0) (hτ : cfg.dynamicsFactor ^ 2 ≤ 2 * cfg.beta ^ 2) :
    |cfg.dynamicsFactor| * √(1 - cfg.dynamicsFactor ^ 2 / (2 * cfg.beta ^ 2)) ≤
        (trueskill a b o cfg).1.uncertainty ∧
      |cfg.dynamicsFactor| * √(1 - cfg.dynamicsFactor ^ 2 / (2 * cfg.beta ^ 2)) ≤
        (trueskill a b o cfg).2.uncertainty := by
  have hW := matchW_bounds cfg ho (solo a) (solo b)
  have hc : tsC cfg.beta (solo a) (solo b) ^ 2
      = 2 * cfg.beta ^ 2 + a.uncertainty ^ 2 + b.uncertainty ^ 2 := by
    rw [tsC_sq (sq_nonneg _) (sq_nonneg _)]; simp only [solo]; norm_num
  rw [trueskill_real]
  exact ⟨upd_floor hW.1 hW.2 hβ hτ (by rw [hc]; nlinarith [sq_nonneg b.uncertainty]),
    upd_floor hW.1 hW.2 hβ hτ (by rw [hc]; nlinarith [sq_nonneg a.uncertainty])⟩

/-- The same for two teams. -/
theorem C113_trueskill_two_teams_floor (s t : List (TrueSkillRating ℝ)) (o : Outcomes)
    (cfg : TrueSkillConfig ℝ) (ho : o ≠ .DRAW) (hs0 : s ≠ []) (ht0 : t ≠ []) (hβ : cfg.beta ≠ 0)
    (hτ : cfg.dynamicsFactor ^ 2 ≤ 2 * cfg.beta ^ 2) :
    (∀ p ∈ (trueskillTwoTeams s t o cfg).1,
      |cfg.dynamicsFactor| * √(1 - cfg.dynamicsFactor ^ 2 / (2 * cfg.beta ^ 2)) ≤ p.uncertainty) ∧
    (∀ p ∈ (trueskillTwoTeams s t o cfg).2,
      |cfg.dynamicsFactor| * √(1 - cfg.dynamicsFactor ^ 2 / (2 * cfg.beta ^ 2)) ≤ p.uncertainty) := by
  have hW := matchW_bounds cfg ho (side s) (side t)
  have hle : ∀ {l : List (TrueSkillRating ℝ)} {p : TrueSkillRating ℝ}, p ∈ l →
      p.uncertainty ^ 2 ≤ (side l).v := by
    intro l p hp
    apply List.single_le_sum
    · intro x hx
      obtain ⟨q, _, rfl⟩ := List.mem_map.1 hx
      positivity
    · exact List.mem_map.2 ⟨p, hp, rfl⟩
  have hn : 2 * cfg.beta ^ 2 ≤ (((side s).n + (side t).n : ℕ) : ℝ) * cfg.beta ^ 2 := by
    have h1 := List.length_pos_iff.2 hs0
    have h2 := List.length_pos_iff.2 ht0
    have : 2 ≤ (side s).n + (side t).n := by simp only [side]; omega
    have : (2 : ℝ) ≤ (((side s).n + (side t).n : ℕ) : ℝ) := by exact_mod_cast this
    gcongr
  have hsv := side_v_nonneg s
  have htv := side_v_nonneg t
  have hc := tsC_sq (β := cfg.beta) hsv htv
  rw [twoTeams_real _ _ _ _ hs0 ht0]
  constructor <;> intro p hp <;> obtain ⟨q, hq, rfl⟩ := List.mem_map.1 hp
  · exact upd_floor hW.1 hW.2 hβ hτ (by rw [hc]; linarith [hle hq])
  · exact upd_floor hW.1 hW.2 hβ hτ (by rw [hc]; linarith [hle hq])

/-- The same bound after a drawn game whose draw margin is at least one percent of the total
uncertainty plus the difference of the ratings (`C102` shows what small margins can do). -/
theorem C113_trueskill_draw_floor (a b : TrueSkillRating ℝ) (cfg : TrueSkillConfig ℝ)
    (hβ : cfg.beta ≠ 0) (hτ : cfg.dynamicsFactor ^ 2 ≤ 2 * cfg.beta ^ 2)
    (h : (√(2 * cfg.beta ^ 2 + a.uncertainty ^ 2 + b.uncertainty ^ 2) + |a.rating - b.rating|) / 100
      ≤ tsMargin cfg.drawProbability cfg.beta 2) :
    |cfg.dynamicsFactor| * √(1 - cfg.dynamicsFactor ^ 2 / (2 * cfg.beta ^ 2)) ≤
        (trueskill a b .DRAW cfg).1.uncertainty ∧
      |cfg.dynamicsFactor| * √(1 - cfg.dynamicsFactor ^ 2 / (2 * cfg.beta ^ 2)) ≤
        (trueskill a b .DRAW cfg).2.uncertainty := by
  have hcp : 0 < tsC cfg.beta (solo a) (solo b) := by
    have hc0 : 0 ≤ tsC cfg.beta (solo a) (solo b) := Real.sqrt_nonneg _
    refine hc0.lt_of_ne' fun h0 => ?_
    have := tsC_sq (β := cfg.beta) (sq_nonneg a.uncertainty) (sq_nonneg b.uncertainty)
      (a := solo a) (b := solo b)
    rw [h0] at this
    simp only [solo] at this
    have : 0 < cfg.beta ^ 2 := by positivity
    norm_num at *
    nlinarith [sq_nonneg a.uncertainty, sq_nonneg b.uncertainty]
  have hW := drawn_matchW (cfg := cfg) (a := solo a) (b := solo b) hcp (by
    simpa [tsC, solo, one_add_one_eq_two] using h)
  have hc : tsC cfg.beta (solo a) (solo b) ^ 2
      = 2 * cfg.beta ^ 2 + a.uncertainty ^ 2 + b.uncertainty ^ 2 := by
    rw [tsC_sq (sq_nonneg _) (sq_nonneg _)]; simp only [solo]; norm_num
  rw [trueskill_real]
  exact ⟨upd_floor hW.1 hW.2 hβ hτ (by rw [hc]; nlinarith [sq_nonneg b.uncertainty]),
    upd_floor hW.1 hW.2 hβ hτ (by rw [hc]; nlinarith [sq_nonneg a.uncertainty])⟩

/-- Teams after a drawn game. -/
theorem C113_trueskill_two_teams_draw_floor (s t : List (TrueSkillRating ℝ)) 
    (cfg : TrueSkillConfig ℝ) (hs0 : s ≠ []) (ht0 : t ≠ []) (hβ : cfg.beta ≠ 0)
    (hτ : cfg.dynamicsFactor ^ 2 ≤ 2 * cfg.beta ^ 2)
    (h : (√((s.length + t.length : ℕ) * cfg.beta ^ 2 + (s.map fun p => p.uncertainty ^ 2).sum
        + (t.map fun p => p.uncertainty ^ 2).sum) + |(s.map (·.rating)).sum - (t.map (·.rating)).sum|)
        / 100 ≤ tsMargin cfg.drawProbability cfg.beta (s.length + t.length)) :
    (∀ p ∈ (trueskillTwoTeams s t .DRAW cfg).1,
      |cfg.dynamicsFactor| * √(1 - cfg.dynamicsFactor ^ 2 / (2 * cfg.beta ^ 2)) ≤ p.uncertainty) ∧
    (∀ p ∈ (trueskillTwoTeams s t .DRAW cfg).2,
      |cfg.dynamicsFactor| * √(1 - cfg.dynamicsFactor ^ 2 / (2 * cfg.beta ^ 2)) ≤ p.uncertainty) := by
  have hle : ∀ {l : List (TrueSkillRating ℝ)} {p : TrueSkillRating ℝ}, p ∈ l →
      p.uncertainty ^ 2 ≤ (side l).v := by
    intro l p hp
    apply List.single_le_sum
    · intro x hx
      obtain ⟨q, _, rfl⟩ := List.mem_map.1 hx
      positivity
    · exact List.mem_map.2 ⟨p, hp, rfl⟩
  have hn : 2 * cfg.beta ^ 2 ≤ (((side s).n + (side t).n : ℕ) : ℝ) * cfg.beta ^ 2 := by
    have h1 := List.length_pos_iff.2 hs0
    have h2 := List.length_pos_iff.2 ht0
    have : 2 ≤ (side s).n + (side t).n := by simp only [side]; omega
    have : (2 : ℝ) ≤ (((side s).n + (side t).n : ℕ) : ℝ) := by exact_mod_cast this
    gcongr
  have hsv := side_v_nonneg s
  have htv := side_v_nonneg t
  have hc := tsC_sq (β := cfg.beta) hsv htv
  have hcp : 0 < tsC cfg.beta (side s) (side t) := by
    have hc0 : 0 ≤ tsC cfg.beta (side s) (side t) := Real.sqrt_nonneg _
    refine hc0.lt_of_ne' fun h0 => ?_
    rw [h0] at hc
    have : 0 < cfg.beta ^ 2 := by positivity
    nlinarith
  have hW := drawn_matchW (cfg := cfg) (a := side s) (b := side t) hcp h
  rw [twoTeams_real _ _ _ _ hs0 ht0]
  constructor <;> intro p hp <;> obtain ⟨q, hq, rfl⟩ := List.mem_map.1 hp
  · exact upd_floor hW.1 hW.2 hβ hτ (by rw [hc]; linarith [hle hq])
  · exact upd_floor hW.1 hW.2 hβ hτ (by rw [hc]; linarith [hle hq])

/-- A drawn game under the default configuration. -/
example : 0.08 ≤ (trueskill ⟨20, 3⟩ ⟨40, 8⟩ .DRAW cfg0).1.uncertainty := by
  refine le_trans ?_ (C113_trueskill_draw_floor ⟨20, 3⟩ ⟨40, 8⟩ cfg0 (by norm_num [cfg0])
    (by norm_num [cfg0])
    (default_margin_wide _ _ (by norm_num) (by norm_num) (by norm_num))).1
  have : (0.99 : ℝ) ≤ √(1 - cfg0.dynamicsFactor ^ 2 / (2 * cfg0.beta ^ 2)) := by
    apply Real.le_sqrt_of_sq_le
    norm_num [cfg0]
  have h2 : (0.083 : ℝ) ≤ |cfg0.dynamicsFactor| := by
    rw [abs_of_pos] <;> norm_num [cfg0]
  refine le_trans ?_ (mul_le_mul h2 this (by norm_num) (abs_nonneg _))
  norm_num

example : Outcomes.LOSS ≠ .DRAW ∧ [ada, eve] ≠ [] ∧ [eve] ≠ [] ∧ cfg0.beta ≠ 0 ∧
    cfg0.dynamicsFactor ^ 2 ≤ 2 * cfg0.beta ^ 2 := by
  refine ⟨by simp, by simp, by simp, ?_, ?_⟩ <;> norm_num [cfg0]

section
variable {ts : List (List (TrueSkillRating ℝ) × MultiTeamOutcome)} {ws : List (List ℝ)}

theorem weighted_le_variance (β : ℝ) (t : List FgPlayer) (ht : ∀ p ∈ t, 0 < p.s ∧ 0 < p.w)
    {p : FgPlayer} (hp : p ∈ t) : p.w ^ 2 * (p.s + β ^ 2) ≤ fgVariance β t := by
  unfold fgVariance
  refine List.single_le_sum ?_ _ (List.mem_map.2 ⟨p, hp, rfl⟩)
  intro x hx
  obtain ⟨q, hq, rfl⟩ := List.mem_map.1 hx
  have := (ht q hq).1
  positivity

/-- A match of any number of teams, with weights, decided or drawn: every uncertainty is at least
`τ β / √(τ² + β²)` after the match. -/
theorem C113_trueskill_multi_floor (cfg : TrueSkillConfig ℝ) (h : ProperMatch ts ws)
    (idx : List ℕ) (hidx : Standing (ts.map (·.2.rank)) idx) (g : List (List (TrueSkillRating ℝ)))
    (hβ : cfg.beta ≠ 0)
    (hg : chainUpdates cfg.drawProbability cfg.beta
      (idx.map (teamAt cfg.dynamicsFactor ts ws)) = some g) :
    ∃ r, trueskillMultiTeam ts cfg (some ws) = .ok (.ok r) ∧
      ∀ (i j : ℕ) (p : TrueSkillRating ℝ), (ts.getD i ([], .new 0)).1[j]? = some p →
        ∃ p', (r.getD i [])[j]? = some p' ∧
          |cfg.dynamicsFactor| * |cfg.beta| / √(cfg.dynamicsFactor ^ 2 + cfg.beta ^ 2)
            ≤ p'.uncertainty := by
  obtain ⟨x, -, hx, r, hr, hread⟩ := chain_read cfg h hidx hg
  refine ⟨r, hr, fun i j p hp => ?_⟩
  have hlen : idx.length = ts.length := by simpa using hidx.1.length_eq
  have hi : i < ts.length := by
    by_contra hi
    rw [List.getD_eq_getElem?_getD, List.getElem?_eq_none (not_lt.1 hi)] at hp
    simp at hp
  have hj : j < (teamAt cfg.dynamicsFactor ts ws i).1.length := by
    rw [teamAt_length h _ hi]
    rw [List.getD_eq_getElem?_getD, List.getElem?_eq_getElem hi] at hp
    exact (List.getElem?_eq_some_iff.1 hp).1
  obtain ⟨q, w, hq, hw, -⟩ : ∃ q w, (ts.getD i ([], .new 0)).1[j]? = some q ∧
      (ws.getD i [])[j]? = some w ∧ True := by
    have := List.getElem?_eq_getElem hj
    simp only [teamAt, fgTeam] at this
    rw [List.getElem?_zipWith_eq_some] at this
    obtain ⟨q, w, h1, h2, -⟩ := this
    exact ⟨q, w, h1, h2, trivial⟩
  obtain rfl : q = p := by rw [hp] at hq; exact (Option.some.inj hq).symm
  have hmem : i ∈ idx := hidx.1.mem_iff.2 (by simpa using hi)
  obtain ⟨k, hk⟩ := List.mem_iff_getElem?.1 hmem
  have hkl := (List.getElem?_eq_some_iff.1 hk).1
  refine ⟨_, hread k i hk j q w hp hw, ?_⟩
  have hpl := List.mem_of_getElem? (teamAt_player cfg.dynamicsFactor hp hw)
  have hpos := teamAt_mem h cfg.dynamicsFactor (i := i) _ hpl
  have hle := weighted_le_variance cfg.beta _ (teamAt_mem h cfg.dynamicsFactor (i := i)) hpl
  have hU := variance_pos (hx k hkl)
  simp only [fgPlayer] at hpos hle
  simp only [chainUpdate, fgPlayer]
  have ht := sq_nonneg cfg.dynamicsFactor
  have hb : 0 < cfg.beta ^ 2 := by positivity
  have hu := sq_nonneg q.uncertainty
  rw [← Real.sqrt_sq_eq_abs, ← Real.sqrt_sq_eq_abs, ← Real.sqrt_mul ht,
    ← Real.sqrt_div (mul_nonneg ht hb.le)]
  apply Real.sqrt_le_sqrt
  set D := (x k).variance + fgVariance cfg.beta (teamAt cfg.dynamicsFactor ts ws i).1
  set t := cfg.dynamicsFactor ^ 2
  set b := cfg.beta ^ 2
  set u := q.uncertainty ^ 2
  have hS := hpos.1
  have hw2 : 0 < w ^ 2 := by have := hpos.2; positivity
  have hD : w ^ 2 * (u + t + b) ≤ D := by simp only [D]; linarith
  have hD0 : 0 < D := lt_of_lt_of_le (by positivity) hD
  have e1 : w ^ 2 * (u + t) / D ≤ (u + t) / (u + t + b) := by
    rw [div_le_div_iff₀ hD0 (by positivity)]
    nlinarith [mul_le_mul_of_nonneg_left hD hS.le]
  have e2 : t * b / (t + b) ≤ (u + t) * (1 - (u + t) / (u + t + b)) := by
    rw [one_sub_div (by positivity), ← mul_div_assoc, div_le_div_iff₀ (by positivity) (by positivity)]
    have : (u + t) * (u + t + b - (u + t)) * (t + b) - t * b * (u + t + b) = u * b * b := by ring
    nlinarith [mul_nonneg (mul_nonneg hu hb.le) hb.le]
  exact e2.trans (mul_le_mul_of_nonneg_left (by linarith) hS.le)

end

example : ∃ g, ProperMatch threesome [[1], [1], [1]] ∧
    Standing (threesome.map (·.2.rank)) [0, 2, 1] ∧ cfg0.beta ≠ 0 ∧
    chainUpdates cfg0.drawProbability cfg0.beta
      ([0, 2, 1].map (teamAt cfg0.dynamicsFactor threesome [[1], [1], [1]])) = some g :=
  threesome_heard.imp fun _ hg =>
    ⟨threesome_proper, threesome_standing, by norm_num [cfg0], hg⟩

end TrueSkill

/-! ### C113: Weng-Lin -/

namespace WengLin

theorem wl_factor {u v β p : ℝ} (hu : 0 < u) (hp : 0 ≤ p * (1 - p)) :
    3 / 4 ≤ 1 - (u / wlC β (u ^ 2) (v ^ 2)) ^ 3 * p * (1 - p) := by
  have h : u ≤ wlC β (u ^ 2) (v ^ 2) := by
    unfold wlC
    apply Real.le_sqrt_of_sq_le
    nlinarith [sq_nonneg v, sq_nonneg β]
  have hc : 0 < wlC β (u ^ 2) (v ^ 2) := hu.trans_le h
  have h1 : u / wlC β (u ^ 2) (v ^ 2) ≤ 1 := (div_le_one hc).2 h
  have h2 : 0 < u / wlC β (u ^ 2) (v ^ 2) := div_pos hu hc
  have h3 : (u / wlC β (u ^ 2) (v ^ 2)) ^ 3 ≤ 1 := pow_le_one₀ h2.le h1
  have h4 : 0 < (u / wlC β (u ^ 2) (v ^ 2)) ^ 3 := by positivity
  have h5 : p * (1 - p) ≤ 1 / 4 := quarter
  nlinarith

theorem wlP_mem (c μ ν : ℝ) : 0 < wlP c μ ν ∧ wlP c μ ν < 1 := by
  unfold wlP
  refine ⟨by positivity, ?_⟩
  rw [div_lt_one (by positivity)]
  linarith [Real.exp_pos (ν / c)]

/-- One game of Weng-Lin leaves at least `√(3/4)` of the uncertainty of either player. -/
theorem C113_wengLin_one_game (a b : WengLinRating ℝ) (o : Outcomes) (cfg : WengLinConfig ℝ)
    (ha : 0 < a.uncertainty) (hb : 0 < b.uncertainty) :
    √(3 / 4) * a.uncertainty ≤ (wengLin a b o cfg).1.uncertainty ∧
      √(3 / 4) * b.uncertainty ≤ (wengLin a b o cfg).2.uncertainty := by
  have hp := wlP_mem (wlC cfg.beta (a.uncertainty ^ 2) (b.uncertainty ^ 2)) a.rating b.rating
  rw [wengLin_real]
  have key : ∀ u x : ℝ, 0 < u → 3 / 4 ≤ x →
      √(3 / 4) * u ≤ √(u ^ 2 * max x cfg.uncertaintyTolerance) := by
    intro u x hu hx
    apply Real.le_sqrt_of_sq_le
    rw [mul_pow, Real.sq_sqrt (by norm_num), mul_comm]
    exact mul_le_mul_of_nonneg_left (hx.trans (le_max_left _ _)) (sq_nonneg u)
  refine ⟨key _ _ ha (wl_factor ha (mul_nonneg hp.1.le (by linarith))), key _ _ hb ?_⟩
  have e : wlC cfg.beta (a.uncertainty ^ 2) (b.uncertainty ^ 2)
      = wlC cfg.beta (b.uncertainty ^ 2) (a.uncertainty ^ 2) := by
    unfold wlC; rw [add_comm (a.uncertainty ^ 2)]
  rw [e] at hp ⊢
  exact wl_factor hb (mul_nonneg (by linarith) (by linarith))

example : (0 : ℝ) < (⟨25, 25 / 3⟩ : WengLinRating ℝ).uncertainty := by norm_num

theorem drawn_step (a b : WengLinRating ℝ) (cfg : WengLinConfig ℝ)
    (hr : a.rating = b.rating) (hu : a.uncertainty = b.uncertainty) (ha : 0 < a.uncertainty)
    (hκ : cfg.uncertaintyTolerance ≤ 3 / 4) :
    (wengLin a b .DRAW cfg).1 = (wengLin a b .DRAW cfg).2 ∧
      (wengLin a b .DRAW cfg).1.rating = a.rating ∧
      (wengLin a b .DRAW cfg).1.uncertainty ^ 2 = a.uncertainty ^ 2 *
        (1 - (a.uncertainty / √(2 * a.uncertainty ^ 2 + 2 * cfg.beta ^ 2)) ^ 3 / 4) := by
  have hp : wlP (wlC cfg.beta (b.uncertainty ^ 2) (b.uncertainty ^ 2)) b.rating b.rating = 1 / 2 := by
    unfold wlP
    have := Real.exp_pos (b.rating / wlC cfg.beta (b.uncertainty ^ 2) (b.uncertainty ^ 2))
    field_simp
    norm_num
  rw [wengLin_real]
  simp only [hr, hu, hp, points]
  rw [hu] at ha
  have hf := wl_factor (β := cfg.beta) (v := b.uncertainty) (p := 1 / 2) ha (by norm_num)
  have hκ' := hκ.trans hf
  refine ⟨?_, by norm_num, ?_⟩
  · congr 1 <;> norm_num
  · rw [max_eq_left hκ', Real.sq_sqrt (mul_nonneg (sq_nonneg _) (by linarith))]
    have : wlC cfg.beta (b.uncertainty ^ 2) (b.uncertainty ^ 2)
        = √(2 * b.uncertainty ^ 2 + 2 * cfg.beta ^ 2) := by
      unfold wlC; congr 1; ring
    rw [this]; ring

/-- But nothing stops it: two equal players who draw again and again become as certain as you
like, without any new strength being shown. -/
theorem C113_wengLin_no_floor (cfg : WengLinConfig ℝ) (hκ : cfg.uncertaintyTolerance ≤ 3 / 4)
    (s : ℕ → WengLinRating ℝ × WengLinRating ℝ) (h0 : (s 0).1 = (s 0).2)
    (hu : 0 < (s 0).1.uncertainty)
    (hstep : ∀ n, s (n + 1) = wengLin (s n).1 (s n).2 .DRAW cfg) :
    Tendsto (fun n => (s n).1.uncertainty) atTop (𝓝 0) ∧
      Tendsto (fun n => (s n).2.uncertainty) atTop (𝓝 0) := by
  have inv : ∀ n, (s n).1 = (s n).2 ∧ 0 < (s n).1.uncertainty := by
    intro n
    induction n with
    | zero => exact ⟨h0, hu⟩
    | succ n ih =>
      obtain ⟨e, hp⟩ := ih
      have hd := drawn_step (s n).1 (s n).2 cfg (by rw [e]) (by rw [e]) hp hκ
      rw [hstep n]
      refine ⟨hd.1, ?_⟩
      exact (mul_pos (Real.sqrt_pos.2 (by norm_num)) hp).trans_le
        (C113_wengLin_one_game _ _ .DRAW cfg hp (e ▸ hp)).1
  have hsq : ∀ n, (s (n + 1)).1.uncertainty ^ 2 = (s n).1.uncertainty ^ 2 *
      (1 - ((s n).1.uncertainty / √(2 * (s n).1.uncertainty ^ 2 + 2 * cfg.beta ^ 2)) ^ 3 / 4) := by
    intro n
    rw [hstep n]
    obtain ⟨e, hp⟩ := inv n
    exact (drawn_step (s n).1 (s n).2 cfg (by rw [e]) (by rw [e]) hp hκ).2.2
  have main : Tendsto (fun n => (s n).1.uncertainty) atTop (𝓝 0) := by
    have hanti : Antitone fun n => (s n).1.uncertainty := by
      refine antitone_nat_of_succ_le fun n => ?_
      have hp := (inv n).2
      apply le_of_sq_le_sq _ hp.le
      rw [hsq n]
      have : 0 ≤ ((s n).1.uncertainty / √(2 * (s n).1.uncertainty ^ 2 + 2 * cfg.beta ^ 2)) ^ 3 := by
        positivity
      nlinarith [sq_nonneg (s n).1.uncertainty]
    obtain ⟨l, hl⟩ : ∃ l, Tendsto (fun n => (s n).1.uncertainty) atTop (𝓝 l) :=
      ⟨_, tendsto_atTop_ciInf hanti ⟨0, by rintro _ ⟨n, rfl⟩; exact (inv n).2.le⟩⟩
    have hl0 : 0 ≤ l := ge_of_tendsto' hl fun n => (inv n).2.le
    rcases hl0.eq_or_lt with rfl | hlp
    · exact hl
    exfalso
    have hD : 0 < 2 * l ^ 2 + 2 * cfg.beta ^ 2 := by positivity
    have hc : ContinuousAt (fun x : ℝ => x ^ 2 *
        (1 - (x / √(2 * x ^ 2 + 2 * cfg.beta ^ 2)) ^ 3 / 4)) l := by
      have h1 : √(2 * l ^ 2 + 2 * cfg.beta ^ 2) ≠ 0 := (Real.sqrt_pos.2 hD).ne'
      have h2 : ContinuousAt (fun x : ℝ => √(2 * x ^ 2 + 2 * cfg.beta ^ 2)) l := by fun_prop
      have h3 := (continuousAt_id (x := l)).div h2 h1
      have h4 : ContinuousAt (fun x : ℝ => (x / √(2 * x ^ 2 + 2 * cfg.beta ^ 2)) ^ 3 / 4) l :=
        (h3.pow 3).div_const 4
      exact (continuousAt_id.pow 2).mul (continuousAt_const.sub h4)
    have t1 := hc.tendsto.comp hl
    have t2 : Tendsto (fun n => (s (n + 1)).1.uncertainty ^ 2) atTop (𝓝 (l ^ 2)) :=
      (((tendsto_add_atTop_iff_nat 1).2 hl).pow 2)
    have t3 := tendsto_nhds_unique t1 (t2.congr fun n => hsq n)
    have hx : 0 < (l / √(2 * l ^ 2 + 2 * cfg.beta ^ 2)) ^ 3 := by positivity
    have : 0 < l ^ 2 := by positivity
    nlinarith
  exact ⟨main, main.congr fun n => by rw [(inv n).1]⟩

example : (⟨25 / 6, 0.000001⟩ : WengLinConfig ℝ).uncertaintyTolerance ≤ 3 / 4 ∧
    ∃ s : ℕ → WengLinRating ℝ × WengLinRating ℝ, (s 0).1 = (s 0).2 ∧
      0 < (s 0).1.uncertainty ∧
      ∀ n, s (n + 1) = wengLin (s n).1 (s n).2 .DRAW ⟨25 / 6, 0.000001⟩ := by
  refine ⟨by norm_num, fun n => n.rec (⟨25, 25 / 3⟩, ⟨25, 25 / 3⟩)
    fun _ x => wengLin x.1 x.2 .DRAW ⟨25 / 6, 0.000001⟩, rfl, ?_, fun _ => rfl⟩
  change (0 : ℝ) < 25 / 3; norm_num

end WengLin

end Skillratings
