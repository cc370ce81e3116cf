import Verif.Proofs.FadingWalk
import Verif.Proofs.Learning
import Verif.Proofs.RobbinsSiegmund
import Verif.Spec.Season
/-
The squared distance between ratings and true strengths in an endless season.
-/
namespace Skillratings
open Spec MeasureTheory Filter
open Real (sigmoid sigmoid_pos sigmoid_lt_one)
open scoped Topology

/-- The pool before game `n` of an endless sequence. -/
def standing {ι γ R : Type} [DecidableEq ι] (rate : R → R → Outcomes → γ → R × R) (pool : ι → R)
    (games : ℕ → Game ι γ) (n : ℕ) : ι → R :=
  tournament rate pool ((List.range n).map games)

section
variable {ι γ R : Type} [DecidableEq ι] {rate : R → R → Outcomes → γ → R × R}
  {expected : R → R → ℝ × ℝ} {val : R → ℝ} {good : γ → Prop} {K a : ℝ}

theorem standing_succ (pool : ι → R) (games : ℕ → Game ι γ) (n : ℕ) :
    standing rate pool games (n + 1) = playGame rate (standing rate pool games n) (games n) := by
  simp [standing, tournament, List.range_succ]

theorem LogisticRule.move (L : LogisticRule rate expected val good K a) (pool : ι → R)
    (g : Game ι γ) (hg : good g.config) (l : ι) :
    val (playGame rate pool g l) = val (pool l)
      + (if l = g.first then 1 else if l = g.second then -1 else 0)
        * (K * (points g.outcome - sigmoid (a * (val (pool g.first) - val (pool g.second))))) := by
  split_ifs with h1 h2
  · rw [h1, playGame_first, L.fst _ _ _ _ hg]; ring
  · rw [h2, playGame_second, L.snd _ _ _ _ hg]; ring
  · rw [playGame_other pool g h1 h2]; ring

theorem surprise_abs (o : Outcomes) (z : ℝ) : |points o - sigmoid z| ≤ 1 := by
  have h1 := sigmoid_pos z
  have h2 := sigmoid_lt_one z
  rw [abs_le]
  cases o <;> simp only [points] <;> constructor <;> linarith

theorem LogisticRule.move_abs (L : LogisticRule rate expected val good K a) (hK : 0 ≤ K)
    (pool : ι → R) (g : Game ι γ) (hg : good g.config) (l : ι) :
    |val (playGame rate pool g l) - val (pool l)| ≤ K := by
  rw [L.move pool g hg, add_sub_cancel_left, abs_mul, abs_mul, abs_of_nonneg hK]
  have h1 := surprise_abs g.outcome (a * (val (pool g.first) - val (pool g.second)))
  have h2 : |(if l = g.first then (1 : ℝ) else if l = g.second then -1 else 0)| ≤ 1 := by
    split_ifs <;> simp
  calc _ ≤ 1 * (K * 1) := by gcongr
    _ = K := by ring

end

variable {Ω ι γ R : Type} [m0 : MeasurableSpace Ω] [DecidableEq ι] [Fintype ι] {P : Measure Ω}
  {past : Filtration ℕ m0} {rate : R → R → Outcomes → γ → R × R}
  {expected : R → R → ℝ × ℝ} {val : R → ℝ} {good : ℕ → γ → Prop} {k : ℕ → ℝ} {a : ℝ}
  {θ pool : ι → R} {games : ℕ → Ω → Game ι γ}

/-- A quantity that depends on the pairing is known when the pairing is. -/
theorem measurable_paired {m : MeasurableSpace Ω} {g : Ω → Game ι γ}
    (hp : ∀ i j, MeasurableSet[m] {ω | (g ω).first = i ∧ (g ω).second = j})
    {h : ι → ι → Ω → ℝ} (hh : ∀ i j, Measurable[m] (h i j)) :
    Measurable[m] fun ω => h (g ω).first (g ω).second ω := by
  have e : (fun ω => h (g ω).first (g ω).second ω) = fun ω => ∑ i, ∑ j,
      Set.indicator {ω | (g ω).first = i ∧ (g ω).second = j} (h i j) ω := by
    funext ω
    rw [Finset.sum_eq_single (g ω).first, Finset.sum_eq_single (g ω).second]
    · rw [Set.indicator_of_mem]; exact ⟨rfl, rfl⟩
    · intro j _ hj
      rw [Set.indicator_of_notMem]
      exact fun hx => hj hx.2.symm
    · simp
    · intro i _ hi
      refine Finset.sum_eq_zero fun j _ => ?_
      rw [Set.indicator_of_notMem]
      exact fun hx => hi hx.1.symm
    · simp
  rw [e]
  exact Finset.measurable_fun_sum _ fun i _ => Finset.measurable_fun_sum _ fun j _ =>
    (hh i j).indicator (hp i j)

theorem standing_measurable {ℱ : Filtration ℕ m0}
    (hp : ∀ n i j, MeasurableSet[ℱ (n + 1)] {ω | (games n ω).first = i ∧ (games n ω).second = j})
    (hr : ∀ n, Measurable[ℱ (n + 1)] fun ω => points (games n ω).outcome)
    (L : ∀ n, LogisticRule rate expected val (good n) (k n) a)
    (hgood : ∀ n ω, good n (games n ω).config) (n : ℕ) (i : ι) :
    Measurable[ℱ n] fun ω => val (standing rate pool (games · ω) n i) := by
  induction n generalizing i with
  | zero => simp only [standing, tournament, List.range_zero, List.map_nil, List.foldl_nil]
            exact measurable_const
  | succ n ih =>
    have hle : ℱ n ≤ ℱ (n + 1) := ℱ.mono n.le_succ
    have e : (fun ω => val (standing rate pool (games · ω) (n + 1) i)) = fun ω =>
        (fun (f s : ι) ω => val (standing rate pool (games · ω) n i)
          + (if i = f then 1 else if i = s then -1 else 0) * (k n * (points (games n ω).outcome
            - sigmoid (a * (val (standing rate pool (games · ω) n f)
              - val (standing rate pool (games · ω) n s))))))
        (games n ω).first (games n ω).second ω := by
      funext ω
      rw [standing_succ, (L n).move _ _ (hgood n ω)]
    rw [e]
    refine measurable_paired (hp n) (h := fun (f s : ι) ω =>
      val (standing rate pool (games · ω) n i)
          + (if i = f then 1 else if i = s then -1 else 0) * (k n * (points (games n ω).outcome
            - sigmoid (a * (val (standing rate pool (games · ω) n f)
              - val (standing rate pool (games · ω) n s)))))) fun f s => ?_
    have hx : ∀ l, Measurable[ℱ (n + 1)] fun ω => val (standing rate pool (games · ω) n l) :=
      fun l => (ih l).mono hle le_rfl
    have ho := hr n
    letI := ℱ (n + 1)
    have hs : Measurable fun ω => sigmoid (a * (val (standing rate pool (games · ω) n f)
        - val (standing rate pool (games · ω) n s))) :=
      measurable_sigmoid (((hx f).sub (hx s)).const_mul a)
    exact (hx i).add (((ho.sub hs).const_mul (k n)).const_mul _)

theorem Spec.Season.adapted (h : Season P past expected θ games)
    (L : ∀ n, LogisticRule rate expected val (good n) (k n) a)
    (hgood : ∀ n ω, good n (games n ω).config) (n : ℕ) (i : ι) :
    Measurable[past n] fun ω => val (standing rate pool (games · ω) n i) :=
  standing_measurable (fun n i j => past.mono n.le_succ _ (h.pairing n i j)) h.result L hgood n i

omit m0 [Fintype ι] in
theorem standing_abs (L : ∀ n, LogisticRule rate expected val (good n) (k n) a)
    (hk : ∀ n, 0 ≤ k n) (hgood : ∀ n ω, good n (games n ω).config) (n : ℕ) (i : ι) :
    ∃ C, ∀ ω, |val (standing rate pool (games · ω) n i)| ≤ C := by
  induction n with
  | zero => exact ⟨|val (pool i)|, fun ω => by simp [standing, tournament]⟩
  | succ n ih =>
    obtain ⟨C, hC⟩ := ih
    refine ⟨C + k n, fun ω => ?_⟩
    have h1 := (L n).move_abs (hk n) (standing rate pool (games · ω) n) _ (hgood n ω) i
    rw [standing_succ]
    have h2 := abs_sub_abs_le_abs_sub (val (playGame rate (standing rate pool (games · ω) n)
      (games n ω) i)) (val (standing rate pool (games · ω) n i))
    linarith [hC ω]

/-- How far apart the ratings of the players of game `n` are. -/
noncomputable def ratedLead (rate : R → R → Outcomes → γ → R × R) (val : R → ℝ) (pool : ι → R)
    (games : ℕ → Ω → Game ι γ) (n : ℕ) (ω : Ω) : ℝ :=
  val (standing rate pool (games · ω) n (games n ω).first)
    - val (standing rate pool (games · ω) n (games n ω).second)

/-- How far apart their strengths are. -/
noncomputable def trueLead (val : R → ℝ) (θ : ι → R) (games : ℕ → Ω → Game ι γ) (n : ℕ) (ω : Ω) : ℝ :=
  val (θ (games n ω).first) - val (θ (games n ω).second)

/-- How much the squared distance falls on average. -/
noncomputable def fall (rate : R → R → Outcomes → γ → R × R) (val : R → ℝ) (k : ℕ → ℝ) (a : ℝ)
    (θ pool : ι → R) (games : ℕ → Ω → Game ι γ) (n : ℕ) (ω : Ω) : ℝ :=
  2 * k n * ((ratedLead rate val pool games n ω - trueLead val θ games n ω)
    * (sigmoid (a * ratedLead rate val pool games n ω) - sigmoid (a * trueLead val θ games n ω)))

omit m0 [Fintype ι] in
theorem fall_ge (hk : ∀ n, 0 ≤ k n) (ha : 0 < a) (n : ℕ) (ω : Ω) :
    2 * k n * (4 / a * (sigmoid (a * ratedLead rate val pool games n ω)
      - sigmoid (a * trueLead val θ games n ω)) ^ 2) ≤ fall rate val k a θ pool games n ω :=
  mul_le_mul_of_nonneg_left (sigmoid_strong ha _ _) (mul_nonneg two_pos.le (hk n))

omit m0 [Fintype ι] in
theorem fall_nonneg (hk : ∀ n, 0 ≤ k n) (ha : 0 < a) (n : ℕ) (ω : Ω) :
    0 ≤ fall rate val k a θ pool games n ω := by
  refine le_trans ?_ (fall_ge hk ha n ω)
  have := hk n
  positivity

/-- How the squared distance changes on average. -/
theorem Spec.Season.balance [IsProbabilityMeasure P] (h : Season P past expected θ games)
    (L : ∀ n, LogisticRule rate expected val (good n) (k n) a)
    (hgood : ∀ n ω, good n (games n ω).config) (hk : ∀ n, 0 ≤ k n) :
    (∀ n, Measurable[past n] fun ω => gap val θ (standing rate pool (games · ω) n)) ∧
    (∀ n, Integrable (fun ω => gap val θ (standing rate pool (games · ω) n)) P) ∧
    (∀ n, Measurable[past n] (fall rate val k a θ pool games n)) ∧
    (∀ n, Integrable (fall rate val k a θ pool games n) P) ∧
    ∀ n, P[fun ω => gap val θ (standing rate pool (games · ω) (n + 1)) | past n] ≤ᵐ[P] fun ω =>
      gap val θ (standing rate pool (games · ω) n) - fall rate val k a θ pool games n ω
        + 2 * k n ^ 2 := by
  have mx := fun n i => h.adapted (rate := rate) (val := val) (pool := pool) L hgood n i
  have bx := fun n i => standing_abs (pool := pool) L hk hgood n i
  have my : ∀ n, Measurable[past n] (ratedLead rate val pool games n) := fun n =>
    measurable_paired (h.pairing n) (h := fun f s ω => val (standing rate pool (games · ω) n f)
      - val (standing rate pool (games · ω) n s)) fun f s => (mx n f).sub (mx n s)
  have mt : ∀ n, Measurable[past n] (trueLead val θ games n) := fun n =>
    measurable_paired (h.pairing n) (h := fun f s _ => val (θ f) - val (θ s))
      fun f s => measurable_const
  have me : ∀ n, Measurable[past n] fun ω => sigmoid (a * ratedLead rate val pool games n ω) := fun n =>
    measurable_sigmoid ((my n).const_mul a)
  have mq : ∀ n, Measurable[past n] fun ω => sigmoid (a * trueLead val θ games n ω) := fun n =>
    measurable_sigmoid ((mt n).const_mul a)
  have mV : ∀ n, Measurable[past n] fun ω => gap val θ (standing rate pool (games · ω) n) :=
    fun n => Finset.measurable_fun_sum _ fun i _ => ((mx n i).sub_const _).pow_const 2
  have mw : ∀ n, Measurable[past n] fun ω => 2 * k n * (ratedLead rate val pool games n ω
      - trueLead val θ games n ω) := fun n => ((my n).sub (mt n)).const_mul _
  have md : ∀ n, Measurable[past n] (fall rate val k a θ pool games n) := fun n =>
    (((my n).sub (mt n)).mul ((me n).sub (mq n))).const_mul _
  have bw : ∀ n, ∃ C, ∀ ω, |2 * k n * (ratedLead rate val pool games n ω
      - trueLead val θ games n ω)| ≤ C := by
    intro n
    choose C hC using bx n
    refine ⟨2 * k n * ((∑ i, |C i| + ∑ i, |C i|) + (∑ i, |val (θ i)| + ∑ i, |val (θ i)|)),
      fun ω => ?_⟩
    have h1 : ∀ i, |val (standing rate pool (games · ω) n i)| ≤ ∑ i, |C i| := fun i =>
      (hC i ω).trans ((le_abs_self _).trans
        (Finset.single_le_sum (f := fun i => |C i|) (fun i _ => abs_nonneg _) (Finset.mem_univ i)))
    have h2 : ∀ i, |val (θ i)| ≤ ∑ i, |val (θ i)| := fun i =>
      Finset.single_le_sum (f := fun i => |val (θ i)|) (fun i _ => abs_nonneg _) (Finset.mem_univ i)
    rw [abs_mul, abs_of_nonneg (mul_nonneg two_pos.le (hk n))]
    refine mul_le_mul_of_nonneg_left ((abs_sub _ _).trans (add_le_add ?_ ?_))
      (mul_nonneg two_pos.le (hk n))
    · exact (abs_sub _ _).trans (add_le_add (h1 _) (h1 _))
    · exact (abs_sub _ _).trans (add_le_add (h2 _) (h2 _))
  have iV : ∀ n, Integrable (fun ω => gap val θ (standing rate pool (games · ω) n)) P := by
    intro n
    choose C hC using bx n
    refine Drifting.integrable_of (mV n).stronglyMeasurable
      (C := ∑ i, (C i + |val (θ i)|) ^ 2) fun ω => ?_
    rw [abs_of_nonneg (Finset.sum_nonneg fun i _ => sq_nonneg _)]
    refine Finset.sum_le_sum fun i _ => ?_
    rw [← sq_abs]
    exact pow_le_pow_left₀ (abs_nonneg _)
      ((abs_sub _ _).trans (by linarith [hC i ω])) 2
  have id : ∀ n, Integrable (fall rate val k a θ pool games n) P := by
    intro n
    obtain ⟨C, hC⟩ := bw n
    refine Drifting.integrable_of (md n).stronglyMeasurable (C := C * 1) fun ω => ?_
    rw [fall, ← mul_assoc, abs_mul]
    refine mul_le_mul (hC ω) ?_ (abs_nonneg _) ((abs_nonneg _).trans (hC ω))
    have h1 := sigmoid_pos (a * ratedLead rate val pool games n ω)
    have h2 := sigmoid_lt_one (a * ratedLead rate val pool games n ω)
    have h3 := sigmoid_pos (a * trueLead val θ games n ω)
    have h4 := sigmoid_lt_one (a * trueLead val θ games n ω)
    rw [abs_le]; constructor <;> linarith
  refine ⟨mV, iV, md, id, fun n => ?_⟩
  obtain ⟨C, hC⟩ := bw n
  have mo : StronglyMeasurable fun ω => points (games n ω).outcome :=
    ((h.result n).mono (past.le _) le_rfl).stronglyMeasurable
  have hξ := condExp_surprises (μ := P) (past.le n) (k := 1) (C := C)
    (w := fun _ ω => 2 * k n * (ratedLead rate val pool games n ω - trueLead val θ games n ω))
    (e := fun _ ω => sigmoid (a * ratedLead rate val pool games n ω))
    (s := fun _ ω => points (games n ω).outcome)
    (t := fun _ ω => sigmoid (a * trueLead val θ games n ω))
    (fun i => (mw n).stronglyMeasurable) (fun i => (me n).stronglyMeasurable) (fun i => mo)
    (fun i ω => hC ω) (fun i ω => by
      rw [abs_of_pos (sigmoid_pos _)]; exact (sigmoid_lt_one _).le)
    (fun i ω => Glicko.points_abs _) (fun i => by
      refine (h.truthful n).trans (EventuallyEq.of_eq ?_)
      funext ω
      rw [(L n).expected_eq]
      rfl)
  simp only [Fin.sum_univ_one] at hξ
  set ξ : Ω → ℝ := fun ω => 2 * k n * (ratedLead rate val pool games n ω - trueLead val θ games n ω)
    * (points (games n ω).outcome - sigmoid (a * ratedLead rate val pool games n ω)) with hξd
  have iξ : Integrable ξ P := by
    refine Drifting.integrable_of (n := n + 1) (ℱ := past) (C := C * 1)
      (((mw n).mono (past.mono n.le_succ) le_rfl).mul ((h.result n).sub
        ((me n).mono (past.mono n.le_succ) le_rfl))).stronglyMeasurable fun ω => ?_
    change |2 * k n * (ratedLead rate val pool games n ω - trueLead val θ games n ω)
      * (points (games n ω).outcome - sigmoid (a * ratedLead rate val pool games n ω))| ≤ _
    rw [abs_mul]
    exact mul_le_mul (hC ω) (surprise_abs _ _) (abs_nonneg _) ((abs_nonneg _).trans (hC ω))
  have iu : Integrable (fun ω => gap val θ (standing rate pool (games · ω) n) + 2 * k n ^ 2) P :=
    (iV n).add (integrable_const _)
  have hle : (fun ω => gap val θ (standing rate pool (games · ω) (n + 1))) ≤ᵐ[P]
      (fun ω => gap val θ (standing rate pool (games · ω) n) + 2 * k n ^ 2) + ξ := by
    refine ae_of_all _ fun ω => ?_
    change gap val θ (standing rate pool (games · ω) (n + 1))
      ≤ gap val θ (standing rate pool (games · ω) n) + 2 * k n ^ 2 + ξ ω
    rw [standing_succ, (L n).gap_step θ _ _ (hgood n ω)]
    have h1 := surprise_abs (games n ω).outcome (a * ratedLead rate val pool games n ω)
    have h2 : (points (games n ω).outcome - sigmoid (a * ratedLead rate val pool games n ω)) ^ 2 ≤ 1 := by
      rw [← sq_abs]; exact pow_le_one₀ (abs_nonneg _) h1
    have h3 := mul_le_mul_of_nonneg_left h2 (show 0 ≤ 2 * k n ^ 2 by positivity)
    simp only [hξd, ratedLead, trueLead] at h3 ⊢
    linarith
  have hmono := condExp_mono (m := past n) (iV (n + 1)) (iu.add iξ) hle
  have e1 := condExp_add iu iξ (past n)
  have e2 : P[fun ω => gap val θ (standing rate pool (games · ω) n) + 2 * k n ^ 2 | past n]
      = fun ω => gap val θ (standing rate pool (games · ω) n) + 2 * k n ^ 2 :=
    condExp_of_stronglyMeasurable (past.le n)
      ((mV n).stronglyMeasurable.add stronglyMeasurable_const) iu
  filter_upwards [hmono, e1, hξ] with ω h1 h2 h3
  refine h1.trans (le_of_eq ?_)
  rw [h2, Pi.add_apply, e2, h3]
  simp only [fall]
  ring

/-- The distance to the strengths settles, and the falls have a finite sum. -/
theorem Spec.Season.settles [IsProbabilityMeasure P] (h : Season P past expected θ games)
    (L : ∀ n, LogisticRule rate expected val (good n) (k n) a) (ha : 0 < a)
    (hgood : ∀ n ω, good n (games n ω).config) (hk : ∀ n, 0 ≤ k n)
    (hk2 : Summable fun n => k n ^ 2) :
    ∀ᵐ ω ∂P, (∃ v, Tendsto (fun n => gap val θ (standing rate pool (games · ω) n)) atTop (𝓝 v)) ∧
      Summable fun n => fall rate val k a θ pool games n ω := by
  obtain ⟨mV, iV, md, id, hstep⟩ := h.balance (pool := pool) L hgood hk
  exact falling_converges (ℱ := past) (b := fun n => 2 * k n ^ 2)
    (fun n => (mV n).stronglyMeasurable) iV
    (fun n ω => Finset.sum_nonneg fun i _ => sq_nonneg _)
    (fun n => (md n).stronglyMeasurable) id (fun n ω => fall_nonneg hk ha n ω)
    (fun n => by positivity) (hk2.mul_left 2) hstep

end Skillratings
