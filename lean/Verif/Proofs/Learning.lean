import Verif.Proofs.Forecast
import Verif.Proofs.WlStable
import Verif.Spec.Learning
/-
Pools rated by a logistic rule when the results follow true strengths.
-/
namespace Skillratings
open Real Spec

section mean
variable {ι γ : Type}

theorem Spec.Forecast.average_le_average (p : Forecast) {f g : Outcomes → ℝ} (h : ∀ o, f o ≤ g o) :
    p.average f ≤ p.average g := by
  have h1 := mul_le_mul_of_nonneg_left (h .WIN) p.win_nonneg
  have h2 := mul_le_mul_of_nonneg_left (h .DRAW) p.draw_nonneg
  have h3 := mul_le_mul_of_nonneg_left (h .LOSS) p.loss_nonneg
  simp only [Forecast.average]
  linarith

theorem Spec.Forecast.average_const (p : Forecast) (c : ℝ) : p.average (fun _ => c) = c := by
  have := p.total
  simp only [Forecast.average]
  calc _ = (p.win + p.draw + p.loss) * c := by ring
    _ = c := by rw [this, one_mul]

theorem Spec.Forecast.average_lin (p : Forecast) (a b : ℝ) (f g : Outcomes → ℝ) :
    p.average (fun o => a * f o + b * g o) = a * p.average f + b * p.average g := by
  simp only [Forecast.average]; ring

theorem mean_lin (plan : List (Game ι γ) → Fixture ι γ) (n : ℕ) (a b : ℝ)
    (f g : List (Game ι γ) → ℝ) :
    mean plan n (fun l => a * f l + b * g l) = a * mean plan n f + b * mean plan n g := by
  induction n generalizing plan f g with
  | zero => rfl
  | succ n ih =>
    simp only [mean]
    rw [← Forecast.average_lin]
    congr 1
    funext o
    exact ih _ _ _

theorem mean_const (plan : List (Game ι γ) → Fixture ι γ) (n : ℕ) (c : ℝ) :
    mean plan n (fun _ => c) = c := by
  induction n generalizing plan with
  | zero => rfl
  | succ n ih => simp only [mean, ih, Forecast.average_const]

theorem mean_const_add (plan : List (Game ι γ) → Fixture ι γ) (n : ℕ) (c : ℝ)
    (f : List (Game ι γ) → ℝ) : mean plan n (fun l => c + f l) = c + mean plan n f := by
  have := mean_lin plan n 1 1 (fun _ => c) f
  simpa [mean_const] using this

theorem mean_mono (plan : List (Game ι γ) → Fixture ι γ) (n : ℕ) {f g : List (Game ι γ) → ℝ}
    (h : ∀ l, f l ≤ g l) : mean plan n f ≤ mean plan n g := by
  induction n generalizing plan f g with
  | zero => exact h _
  | succ n ih =>
    simp only [mean]
    exact Forecast.average_le_average _ fun o => ih _ fun l => h _

/-- A sum over the games whose terms depend only on the number of games before. -/
theorem mean_sum (plan : List (Game ι γ) → Fixture ι γ) (n : ℕ) (w : γ → ℝ) (κ : ℕ → ℝ)
    (h : ∀ past, w (plan past).config = κ past.length) :
    mean plan n (fun l => (l.map fun g => w g.config).sum) = ∑ t ∈ Finset.range n, κ t := by
  induction n generalizing plan κ with
  | zero => simp [mean]
  | succ n ih =>
    simp only [mean, List.map_cons, List.sum_cons, mean_const_add]
    have e : ∀ o, mean (fun past => plan ((plan []).game o :: past)) n
        (fun l => (l.map fun g => w g.config).sum) = ∑ t ∈ Finset.range n, κ (t + 1) := fun o =>
      ih _ (fun t => κ (t + 1)) fun past => by simpa using h ((plan []).game o :: past)
    simp only [e]
    have h0 : ∀ o, w ((plan []).game o).config = κ 0 := fun o => h []
    simp only [h0, Forecast.average_const]
    rw [Finset.sum_range_succ', add_comm]

/-- Only games that can occur matter. -/
theorem mean_congr (P : Game ι γ → Prop) (plan : List (Game ι γ) → Fixture ι γ) (n : ℕ)
    {f g : List (Game ι γ) → ℝ} (hP : ∀ past o, P ((plan past).game o))
    (h : ∀ l, (∀ x ∈ l, P x) → f l = g l) : mean plan n f = mean plan n g := by
  induction n generalizing plan f g with
  | zero => exact h [] (by simp)
  | succ n ih =>
    simp only [mean]
    congr 1
    funext o
    refine ih _ (fun past o' => hP _ o') fun l hl => h _ ?_
    intro x hx
    rcases List.mem_cons.1 hx with rfl | hx
    · exact hP [] o
    · exact hl x hx
end mean

/-- The mean square of a score around `e`. -/
theorem average_sq_le (p : Forecast) {P : ℝ} (hp : p.Expects P) (e : ℝ) :
    p.average (fun o => (points o - e) ^ 2) ≤ 1 / 4 + (e - P) ^ 2 := by
  have ht := p.total
  have hd := p.draw_nonneg
  simp only [Forecast.Expects, Forecast.average, points] at hp ⊢
  have hw : p.win = P - p.draw / 2 := by linarith
  have hl : p.loss = 1 - P - p.draw / 2 := by linarith
  rw [hw, hl]
  nlinarith [sq_nonneg (P - 1 / 2)]

section
variable {ι γ R : Type} [DecidableEq ι] [Fintype ι] {rate : R → R → Outcomes → γ → R × R}
  {expected : R → R → ℝ × ℝ} {val : R → ℝ} {good : γ → Prop} {K a : ℝ}

/-- The squared distance between ratings and strengths. -/
noncomputable def gap (val : R → ℝ) (strengths pool : ι → R) : ℝ :=
  ∑ i, (val (pool i) - val (strengths i)) ^ 2

/-- The squared distance after a game. -/
theorem LogisticRule.gap_step (L : LogisticRule rate expected val good K a) (θ pool : ι → R)
    (g : Game ι γ) (hg : good g.config) :
    gap val θ (playGame rate pool g) = gap val θ pool
      + 2 * K * ((val (pool g.first) - val (pool g.second)) - (val (θ g.first) - val (θ g.second)))
        * (points g.outcome - sigmoid (a * (val (pool g.first) - val (pool g.second))))
      + 2 * K ^ 2 * (points g.outcome - sigmoid (a * (val (pool g.first) - val (pool g.second)))) ^ 2 := by
  have split : ∀ f : ι → ℝ, ∑ i, f i
      = f g.first + f g.second + ∑ i ∈ (Finset.univ.erase g.first).erase g.second, f i := by
    intro f
    rw [← Finset.add_sum_erase _ f (Finset.mem_univ g.first),
      ← Finset.add_sum_erase _ f (Finset.mem_erase.2 ⟨g.ne.symm, Finset.mem_univ g.second⟩)]
    ring
  rw [gap, gap, split, split fun i => (val (pool i) - val (θ i)) ^ 2]
  rw [Finset.sum_congr rfl fun i hi => by
    rw [playGame_other (rate := rate) pool g (Finset.mem_erase.1 (Finset.mem_erase.1 hi).2).1
      (Finset.mem_erase.1 hi).1]]
  rw [playGame_first, playGame_second, L.fst _ _ _ _ hg, L.snd _ _ _ _ hg]
  ring

/-- Rating differences and forecasts err on the same side. -/
theorem sigmoid_strong (ha : 0 < a) (x y : ℝ) :
    4 / a * (sigmoid (a * x) - sigmoid (a * y)) ^ 2
      ≤ (x - y) * (sigmoid (a * x) - sigmoid (a * y)) := by
  have key : ∀ x y : ℝ, y ≤ x → 4 / a * (sigmoid (a * x) - sigmoid (a * y)) ^ 2
      ≤ (x - y) * (sigmoid (a * x) - sigmoid (a * y)) := by
    intro x y hxy
    have hm : sigmoid (a * y) ≤ sigmoid (a * x) :=
      sigmoid_monotone (mul_le_mul_of_nonneg_left hxy ha.le)
    have hl := Skillratings.WengLin.sigmoid_lip (a * x) (a * y)
    rw [abs_of_nonneg (sub_nonneg.2 hm), ← mul_sub, abs_mul, abs_of_pos ha,
      abs_of_nonneg (sub_nonneg.2 hxy)] at hl
    have h4 : 4 / a * (sigmoid (a * x) - sigmoid (a * y)) ≤ x - y := by
      rw [div_mul_eq_mul_div, div_le_iff₀ ha]; linarith
    have := mul_le_mul_of_nonneg_right h4 (sub_nonneg.2 hm)
    calc _ = 4 / a * (sigmoid (a * x) - sigmoid (a * y)) * (sigmoid (a * x) - sigmoid (a * y)) := by ring
      _ ≤ _ := this
  rcases le_total y x with h | h
  · exact key x y h
  · have := key y x h
    linarith [this, show (x - y) * (sigmoid (a * x) - sigmoid (a * y))
      = (y - x) * (sigmoid (a * y) - sigmoid (a * x)) by ring,
      show 4 / a * (sigmoid (a * x) - sigmoid (a * y)) ^ 2
      = 4 / a * (sigmoid (a * y) - sigmoid (a * x)) ^ 2 by ring]

/-- The squared distance after a random game, on average. -/
theorem LogisticRule.gap_mean (L : LogisticRule rate expected val good K a) (ha : 0 < a) (hK : 0 ≤ K)
    (θ pool : ι → R) (f : Fixture ι γ) (hg : good f.config)
    (hf : f.chances.Expects (expected (θ f.first) (θ f.second)).1) :
    f.chances.average (fun o => gap val θ (playGame rate pool (f.game o)))
      + (8 / a - 2 * K) * (K * ((expected (pool f.first) (pool f.second)).1
        - (expected (θ f.first) (θ f.second)).1) ^ 2) ≤ gap val θ pool + K ^ 2 / 2 := by
  rw [L.expected_eq] at hf ⊢
  rw [L.expected_eq]
  simp only
  simp only at hf
  set x := val (pool f.first) - val (pool f.second) with hx
  set y := val (θ f.first) - val (θ f.second) with hy
  have e : ∀ o, gap val θ (playGame rate pool (f.game o)) = gap val θ pool
      + 2 * K * (x - y) * (points o - sigmoid (a * x)) + 2 * K ^ 2 * (points o - sigmoid (a * x)) ^ 2 :=
    fun o => L.gap_step θ pool (f.game o) hg
  have h1 : f.chances.average (fun o => gap val θ (playGame rate pool (f.game o)))
      = gap val θ pool + 2 * K * (x - y) * (sigmoid (a * y) - sigmoid (a * x))
        + 2 * K ^ 2 * f.chances.average (fun o => (points o - sigmoid (a * x)) ^ 2) := by
    simp only [e]
    have ht := f.chances.total
    have hp := hf
    simp only [Forecast.Expects] at hp
    rw [← hp]
    simp only [Forecast.average]
    have hl : f.chances.loss = 1 - f.chances.win - f.chances.draw := by linarith
    rw [hl]
    ring
  have h2 := average_sq_le f.chances hf (sigmoid (a * x))
  have h3 := mul_le_mul_of_nonneg_left h2 (show 0 ≤ 2 * K ^ 2 by positivity)
  have h4 := mul_le_mul_of_nonneg_left (sigmoid_strong ha x y) (show 0 ≤ 2 * K by positivity)
  rw [h1]
  have e2 : (8 / a - 2 * K) * (K * (sigmoid (a * x) - sigmoid (a * y)) ^ 2)
      = 2 * K * (4 / a * (sigmoid (a * x) - sigmoid (a * y)) ^ 2)
        - 2 * K ^ 2 * (sigmoid (a * x) - sigmoid (a * y)) ^ 2 := by ring
  rw [e2]
  linarith

/-- The whole balance: forecast errors and final distance against initial distance and factors. -/
theorem learning {factor : γ → ℝ} (ha : 0 < a) {M : ℝ}
    (rule : ∀ c, good c → LogisticRule rate expected val (· = c) (factor c) a)
    (θ : ι → R) (plan : List (Game ι γ) → Fixture ι γ) (n : ℕ) (pool : ι → R)
    (hgood : ∀ past, good (plan past).config)
    (h0 : ∀ past, 0 ≤ factor (plan past).config) (hM : ∀ past, factor (plan past).config ≤ M)
    (ht : Truthful expected θ plan) :
    (8 / a - 2 * M) * mean plan n (forecastError rate expected θ factor pool)
      + mean plan n (fun l => gap val θ (tournament rate pool l))
      ≤ gap val θ pool + mean plan n (fun l => (l.map fun g => factor g.config ^ 2).sum) / 2 := by
  have key : mean plan n (fun l => 1 * ((8 / a - 2 * M) * forecastError rate expected θ factor pool l
      + 1 * gap val θ (tournament rate pool l)) + (-1 / 2) * (l.map fun g => factor g.config ^ 2).sum)
      ≤ gap val θ pool := by
    induction n generalizing plan pool with
    | zero =>
      simp [mean, forecastError, tournament]
    | succ n ih =>
      simp only [mean]
      set f := plan [] with hf
      set k := factor f.config with hk
      set q := ((expected (pool f.first) (pool f.second)).1
        - (expected (θ f.first) (θ f.second)).1) ^ 2 with hq
      have step := (rule _ (hgood [])).gap_mean ha (h0 []) θ pool f rfl (ht [])
      have each : ∀ o, mean (fun past => plan (f.game o :: past)) n (fun later =>
          1 * ((8 / a - 2 * M) * forecastError rate expected θ factor pool (f.game o :: later)
            + 1 * gap val θ (tournament rate pool (f.game o :: later)))
            + (-1 / 2) * ((f.game o :: later).map fun g => factor g.config ^ 2).sum)
          ≤ 1 * gap val θ (playGame rate pool (f.game o))
            + 1 * ((8 / a - 2 * M) * (k * q) - k ^ 2 / 2) := by
        intro o
        have e : ∀ later : List (Game ι γ),
            1 * ((8 / a - 2 * M) * forecastError rate expected θ factor pool (f.game o :: later)
            + 1 * gap val θ (tournament rate pool (f.game o :: later)))
            + (-1 / 2) * ((f.game o :: later).map fun g => factor g.config ^ 2).sum
            = ((8 / a - 2 * M) * (k * q) - k ^ 2 / 2)
              + (1 * ((8 / a - 2 * M)
                  * forecastError rate expected θ factor (playGame rate pool (f.game o)) later
                + 1 * gap val θ (tournament rate (playGame rate pool (f.game o)) later))
                + (-1 / 2) * (later.map fun g => factor g.config ^ 2).sum) := by
          intro later
          have e1 : forecastError rate expected θ factor pool (f.game o :: later)
              = k * q + forecastError rate expected θ factor (playGame rate pool (f.game o)) later := rfl
          have e2 : tournament rate pool (f.game o :: later)
              = tournament rate (playGame rate pool (f.game o)) later := rfl
          have e3 : ((f.game o :: later).map fun g => factor g.config ^ 2).sum
              = k ^ 2 + (later.map fun g => factor g.config ^ 2).sum := by
            rw [List.map_cons, List.sum_cons]; rfl
          rw [e1, e2, e3]
          ring
        simp only [e, mean_const_add]
        have := ih (fun past => plan (f.game o :: past)) (playGame rate pool (f.game o))
          (fun past => hgood _) (fun past => h0 _) (fun past => hM _) (fun past => ht _)
        linarith
      refine (Forecast.average_le_average _ each).trans ?_
      rw [Forecast.average_lin, Forecast.average_const]
      have hkq : 0 ≤ (M - k) * (k * q) :=
        mul_nonneg (sub_nonneg.2 (hM [])) (mul_nonneg (h0 []) (sq_nonneg _))
      linarith [step]
  have e := mean_lin plan n 1 (-1 / 2) (fun l => (8 / a - 2 * M) * forecastError rate expected θ factor pool l
      + 1 * gap val θ (tournament rate pool l)) (fun l => (l.map fun g => factor g.config ^ 2).sum)
  rw [e] at key
  have e' := mean_lin plan n (8 / a - 2 * M) 1 (forecastError rate expected θ factor pool)
    (fun l => gap val θ (tournament rate pool l))
  rw [e'] at key
  linarith

omit [Fintype ι] in
theorem forecastError_const {w : γ → ℝ} {k : ℝ} (θ pool : ι → R) (l : List (Game ι γ))
    (h : ∀ g ∈ l, w g.config = k) :
    forecastError rate expected θ w pool l = k * forecastError rate expected θ (fun _ => 1) pool l := by
  induction l generalizing pool with
  | nil => simp [forecastError]
  | cons g gs ih =>
    simp only [forecastError, h g List.mem_cons_self,
      ih (playGame rate pool g) fun x hx => h x (List.mem_cons_of_mem _ hx)]
    ring

/-- The balance with a constant factor. -/
theorem learning_const {factor : γ → ℝ} (ha : 0 < a) {k : ℝ} (hk : 0 < k)
    (rule : ∀ c, good c → LogisticRule rate expected val (· = c) (factor c) a)
    (θ : ι → R) (plan : List (Game ι γ) → Fixture ι γ) (n : ℕ) (pool : ι → R)
    (hgood : ∀ past, good (plan past).config) (hfac : ∀ past, factor (plan past).config = k)
    (ht : Truthful expected θ plan) :
    (1 - k * a / 4) * mean plan n (forecastError rate expected θ (fun _ => 1) pool)
      + a / (8 * k) * mean plan n (fun l => gap val θ (tournament rate pool l))
      ≤ a / (8 * k) * gap val θ pool + n * (k * a) / 16 := by
  have h := learning ha (M := k) rule θ plan n pool hgood (fun p => (hfac p).symm ▸ hk.le)
    (fun p => (hfac p).le) ht
  have e1 : mean plan n (forecastError rate expected θ factor pool)
      = k * mean plan n (forecastError rate expected θ (fun _ => 1) pool) := by
    have := mean_lin plan n k 0 (forecastError rate expected θ (fun _ => 1) pool) (fun _ => 0)
    simp only [mul_zero, zero_mul, add_zero] at this
    rw [← this]
    exact mean_congr (fun g => factor g.config = k) plan n (fun past o => hfac past)
      fun l hl => forecastError_const θ pool l hl
  have e2 : mean plan n (fun l => (l.map fun g => factor g.config ^ 2).sum) = n * k ^ 2 := by
    rw [mean_sum plan n (fun c => factor c ^ 2) (fun _ => k ^ 2) fun past => by simp only [hfac past]]
    simp
  rw [e1, e2] at h
  have := mul_le_mul_of_nonneg_left h (show 0 ≤ a / (8 * k) by positivity)
  have q1 : a / (8 * k) * ((8 / a - 2 * k) * (k * mean plan n (forecastError rate expected θ (fun _ => 1) pool))
      + mean plan n (fun l => gap val θ (tournament rate pool l)))
      = (1 - k * a / 4) * mean plan n (forecastError rate expected θ (fun _ => 1) pool)
      + a / (8 * k) * mean plan n (fun l => gap val θ (tournament rate pool l)) := by
    field_simp
    ring
  have q2 : a / (8 * k) * (gap val θ pool + n * k ^ 2 / 2)
      = a / (8 * k) * gap val θ pool + n * (k * a) / 16 := by
    field_simp
    ring
  rwa [q1, q2] at this

omit [DecidableEq ι] [Fintype ι] in
theorem mean_nonneg (plan : List (Game ι γ) → Fixture ι γ) (n : ℕ) {f : List (Game ι γ) → ℝ}
    (h : ∀ l, 0 ≤ f l) : 0 ≤ mean plan n f := by
  have := mean_mono plan n (f := fun _ => 0) h
  rwa [mean_const] at this

omit [DecidableEq ι] in
theorem gap_nonneg (val : R → ℝ) (θ pool : ι → R) : 0 ≤ gap val θ pool :=
  Finset.sum_nonneg fun _ _ => sq_nonneg _

omit [Fintype ι] in
theorem forecastError_nonneg (rate : R → R → Outcomes → γ → R × R) (expected : R → R → ℝ × ℝ)
    (θ pool : ι → R) (l : List (Game ι γ)) :
    0 ≤ forecastError rate expected θ (fun _ => 1) pool l := by
  induction l generalizing pool with
  | nil => exact le_rfl
  | cons g gs ih =>
    simp only [forecastError]
    have := ih (playGame rate pool g)
    positivity

/-- With fading factors the error vanishes. -/
theorem learning_fading {factor : γ → ℝ} (ha : 0 < a) {M : ℝ} (hM : M * a < 4) (κ : ℕ → ℝ)
    (hκ0 : ∀ t, 0 ≤ κ t) (hκM : ∀ t, κ t ≤ M)
    (rule : ∀ c, good c → LogisticRule rate expected val (· = c) (factor c) a)
    (θ : ι → R) (plan : List (Game ι γ) → Fixture ι γ) (pool : ι → R)
    (hgood : ∀ past, good (plan past).config)
    (hfac : ∀ past, factor (plan past).config = κ past.length)
    (ht : Truthful expected θ plan)
    (hs : Summable fun t => κ t ^ 2)
    (hd : Filter.Tendsto (fun n => ∑ t ∈ Finset.range n, κ t) Filter.atTop Filter.atTop) :
    Filter.Tendsto (fun n => mean plan n (forecastError rate expected θ factor pool)
      / ∑ t ∈ Finset.range n, κ t) Filter.atTop (nhds 0) := by
  have hc : 0 < 8 / a - 2 * M := by
    have : 2 * M < 8 / a := by rw [lt_div_iff₀ ha]; linarith
    linarith
  set B := (gap val θ pool + (∑' t, κ t ^ 2) / 2) / (8 / a - 2 * M) with hB
  have hw : ∀ (l : List (Game ι γ)), (∀ g ∈ l, 0 ≤ factor g.config) → ∀ pool,
      0 ≤ forecastError rate expected θ factor pool l := by
    intro l
    induction l with
    | nil => intro _ _; exact le_rfl
    | cons g gs ih =>
      intro h pool
      have := ih (fun x hx => h x (List.mem_cons_of_mem _ hx)) (playGame rate pool g)
      have h1 := mul_nonneg (h g List.mem_cons_self) (sq_nonneg
        ((expected (pool g.first) (pool g.second)).1 - (expected (θ g.first) (θ g.second)).1))
      simp only [forecastError]
      linarith
  have hnn : ∀ n, 0 ≤ mean plan n (forecastError rate expected θ factor pool) := by
    intro n
    have e := mean_congr (fun g => 0 ≤ factor g.config) plan n
      (f := forecastError rate expected θ factor pool)
      (g := fun l => |forecastError rate expected θ factor pool l|)
      (fun past o => (hfac past).symm ▸ hκ0 _) fun l hl => (abs_of_nonneg (hw l hl pool)).symm
    rw [e]
    exact mean_nonneg plan n fun l => abs_nonneg _
  have hb : ∀ n, mean plan n (forecastError rate expected θ factor pool) ≤ B := by
    intro n
    have h := learning ha (M := M) rule θ plan n pool hgood (fun p => (hfac p).symm ▸ hκ0 _)
      (fun p => (hfac p).symm ▸ hκM _) ht
    rw [mean_sum plan n (fun c => factor c ^ 2) (fun t => κ t ^ 2) fun past => by
      simp only [hfac past]] at h
    have h1 := mean_nonneg plan n fun l => gap_nonneg val θ (tournament rate pool l)
    have h2 := hs.sum_le_tsum (Finset.range n) fun t _ => sq_nonneg (κ t)
    rw [hB, le_div_iff₀ hc]
    linarith
  have hB0 : Filter.Tendsto (fun n => B / ∑ t ∈ Finset.range n, κ t) Filter.atTop (nhds 0) :=
    hd.const_div_atTop B
  refine squeeze_zero (fun n => div_nonneg (hnn n) (Finset.sum_nonneg fun t _ => hκ0 t)) (fun n => ?_) hB0
  exact div_le_div_of_nonneg_right (hb n) (Finset.sum_nonneg fun t _ => hκ0 t)
end
end Skillratings
