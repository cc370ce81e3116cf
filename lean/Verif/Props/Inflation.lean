import Verif.Props.Fifa
import Verif.Props.Egf
import Verif.Props.Monotone
/-
C155: points from nothing.  Two FIFA teams that meet in knockout matches only, and two EGF players who draw,
lift each other.
-/
namespace Skillratings
open Spec Real

/-! ### FIFA knockout matches -/

/-- Two knockout matches, one won by each team. -/
noncomputable def exchange (c : Fifa.FifaConfig ℝ) (p : Fifa.FifaRating ℝ × Fifa.FifaRating ℝ) :
    Fifa.FifaRating ℝ × Fifa.FifaRating ℝ :=
  let q := Fifa.fifa p.1 p.2 .WIN c
  Fifa.fifa q.1 q.2 .LOSS c

/-- What one exchange is worth to the weaker team at least. -/
noncomputable def exchangeGain (k : ℝ) : ℝ := min (k / 4) (k * (1 - sigmoid (log 10 / 600 * (k / 4))))

theorem exchangeGain_pos {k : ℝ} (hk : 0 < k) : 0 < exchangeGain k :=
  lt_min (by positivity) (mul_pos hk (sub_pos.2 (sigmoid_lt_one _)))

theorem knockout_win (a b : Fifa.FifaRating ℝ) (c : Fifa.FifaConfig ℝ) (hk : 0 < c.importance)
    (hn : c.knockout = true) (hp : c.penalties = false) :
    (Fifa.fifa a b .WIN c).1.rating
        = a.rating + c.importance * (1 - sigmoid (log 10 / 600 * (a.rating - b.rating))) ∧
    (Fifa.fifa a b .WIN c).2.rating = b.rating ∧
    (Fifa.fifa a b .LOSS c).1.rating = a.rating ∧
    (Fifa.fifa a b .LOSS c).2.rating
        = b.rating + c.importance * (1 - sigmoid (log 10 / 600 * (b.rating - a.rating))) := by
  have e : sigmoid (log 10 / 600 * (b.rating - a.rating))
      = 1 - sigmoid (log 10 / 600 * (a.rating - b.rating)) := by
    rw [← sigmoid_neg]; congr 1; ring
  rw [e]
  have h0 := mul_pos hk (sigmoid_pos (log 10 / 600 * (a.rating - b.rating)))
  have h1 := mul_pos hk (sub_pos.2 (sigmoid_lt_one (log 10 / 600 * (a.rating - b.rating))))
  simp only [Fifa.fifa_real, Fifa.guarded, Fifa.credit, Fifa.credit2, hn, hp, points, if_true,
    Bool.false_eq_true, if_false]
  refine ⟨?_, ?_, ?_, ?_⟩
  · rw [max_eq_right (by linarith)]; ring
  · rw [max_eq_left (by linarith)]
  · rw [max_eq_left (by linarith)]
  · rw [max_eq_right (by linarith)]; ring

theorem exchange_min (c : Fifa.FifaConfig ℝ) (hk : 0 < c.importance) (hn : c.knockout = true)
    (hp : c.penalties = false) (p : Fifa.FifaRating ℝ × Fifa.FifaRating ℝ) :
    min p.1.rating p.2.rating + exchangeGain c.importance
      ≤ min (exchange c p).1.rating (exchange c p).2.rating := by
  have hl := log_ten_pos
  obtain ⟨w1, w2, -, -⟩ := knockout_win p.1 p.2 c hk hn hp
  obtain ⟨-, -, l1, l2⟩ := knockout_win (Fifa.fifa p.1 p.2 .WIN c).1 (Fifa.fifa p.1 p.2 .WIN c).2 c hk hn hp
  have g1 : exchangeGain c.importance ≤ c.importance / 4 := min_le_left _ _
  have g2 : exchangeGain c.importance
      ≤ c.importance * (1 - sigmoid (log 10 / 600 * (c.importance / 4))) := min_le_right _ _
  -- a win is worth at least this much for a team that is not more than a quarter of the importance ahead
  have win : ∀ x y : ℝ, x ≤ y + c.importance / 4 →
      exchangeGain c.importance ≤ c.importance * (1 - sigmoid (log 10 / 600 * (x - y))) := by
    intro x y h
    refine g2.trans (mul_le_mul_of_nonneg_left (sub_le_sub_left ?_ 1) hk.le)
    rw [sigmoid_le_iff]
    exact mul_le_mul_of_nonneg_left (by linarith) (by positivity)
  have pos : ∀ x : ℝ, 0 < c.importance * (1 - sigmoid x) := fun x =>
    mul_pos hk (sub_pos.2 (sigmoid_lt_one _))
  rw [w2, w1] at l2
  rw [w1] at l1
  change _ ≤ min (Fifa.fifa _ _ .LOSS c).1.rating (Fifa.fifa _ _ .LOSS c).2.rating
  rw [l1, l2]
  set a := p.1.rating
  set b := p.2.rating
  set a' := a + c.importance * (1 - sigmoid (log 10 / 600 * (a - b))) with ha'
  have h1 := min_le_left a b
  have h2 := min_le_right a b
  have h3 := pos (log 10 / 600 * (a - b))
  have h4 := pos (log 10 / 600 * (b - a'))
  have first : min a b + exchangeGain c.importance ≤ a' := by
    by_cases h : a ≤ b + c.importance / 4
    · linarith [win a b h]
    · linarith [not_le.1 h]
  refine le_min first ?_
  by_cases h : b ≤ a' + c.importance / 4
  · linarith [win b a' h]
  · linarith [not_le.1 h]

theorem exchange_iterate (c : Fifa.FifaConfig ℝ) (hk : 0 < c.importance) (hn : c.knockout = true)
    (hp : c.penalties = false) (p : Fifa.FifaRating ℝ × Fifa.FifaRating ℝ) (n : ℕ) :
    min p.1.rating p.2.rating + n * exchangeGain c.importance
      ≤ min ((exchange c)^[n] p).1.rating ((exchange c)^[n] p).2.rating := by
  induction n with
  | zero => simp
  | succ n ih =>
    rw [Function.iterate_succ_apply']
    have := exchange_min c hk hn hp ((exchange c)^[n] p)
    push_cast; linarith

/-- Two teams that beat each other in turn in knockout matches lift both ratings above every bound. -/
theorem C155_fifa_knockout (c : Fifa.FifaConfig ℝ) (hk : 0 < c.importance) (hn : c.knockout = true)
    (hp : c.penalties = false) (p : Fifa.FifaRating ℝ × Fifa.FifaRating ℝ) (M : ℝ) :
    ∃ N : ℕ, ∀ n ≥ N, M ≤ ((exchange c)^[n] p).1.rating ∧ M ≤ ((exchange c)^[n] p).2.rating := by
  have hg := exchangeGain_pos hk
  obtain ⟨N, hN⟩ := exists_nat_gt ((M - min p.1.rating p.2.rating) / exchangeGain c.importance)
  refine ⟨N, fun n hn' => ?_⟩
  have h := exchange_iterate c hk hn hp p n
  rw [div_lt_iff₀ hg] at hN
  have h5 : (N : ℝ) * exchangeGain c.importance ≤ n * exchangeGain c.importance := by gcongr
  rw [← le_min_iff]
  linarith

/-- Without the protection the sum of the two ratings stays what it was. -/
theorem C155_fifa_league (c : Fifa.FifaConfig ℝ) (hn : c.knockout = false) (hp : c.penalties = false)
    (p : Fifa.FifaRating ℝ × Fifa.FifaRating ℝ) (n : ℕ) :
    ((exchange c)^[n] p).1.rating + ((exchange c)^[n] p).2.rating = p.1.rating + p.2.rating := by
  induction n with
  | zero => rfl
  | succ n ih =>
    rw [Function.iterate_succ_apply', ← ih]
    simp only [exchange, Fifa.fifa_real, Fifa.guarded, Fifa.credit, Fifa.credit2, hn, hp, points,
      Bool.false_eq_true, if_false]
    ring

/-! ### EGF draws -/

theorem egfBonus_anti {r s : ℝ} (h : r ≤ s) : egfBonus s ≤ egfBonus r := by
  unfold egfBonus
  have : exp ((2300 - s) / 80) ≤ exp ((2300 - r) / 80) := exp_le_exp.2 (by linarith)
  have := Real.log_le_log (by positivity) (show 1 + exp ((2300 - s) / 80) ≤ 1 + exp ((2300 - r) / 80) by
    linarith)
  linarith

/-- Two equally rated EGF players who draw one even game after the other both reach the ceiling of 3300. -/
theorem C155_egf_draws (r : ℝ) :
    ∃ N : ℕ, ∀ n ≥ N,
      3300 ≤ ((fun p : Egf.EGFRating ℝ × Egf.EGFRating ℝ => Egf.egf p.1 p.2 .DRAW ⟨0⟩)^[n] (⟨r⟩, ⟨r⟩)).1.rating ∧
      3300 ≤ ((fun p : Egf.EGFRating ℝ × Egf.EGFRating ℝ => Egf.egf p.1 p.2 .DRAW ⟨0⟩)^[n] (⟨r⟩, ⟨r⟩)).2.rating := by
  have hδ := Egf.egfBonus_pos 3300
  have step : ∀ s : ℝ, Egf.egf ⟨s⟩ ⟨s⟩ .DRAW ⟨0⟩
      = (⟨max (s + egfBonus s) (-900)⟩, ⟨max (s + egfBonus s) (-900)⟩) := by
    intro s
    have he : (Egf.expectedScore (⟨s⟩ : Egf.EGFRating ℝ) ⟨s⟩ ⟨0⟩) = (1 / 2, 1 / 2) := by
      rw [Egf.expectedScore_real]
      simp [egfFirst, egfSecond, egfStones]
      norm_num
    rw [Egf.egf_real, he]
    simp only [egfRating, points]
    norm_num
  have key : ∀ n : ℕ, ∃ s : ℝ,
      (fun p : Egf.EGFRating ℝ × Egf.EGFRating ℝ => Egf.egf p.1 p.2 .DRAW ⟨0⟩)^[n] (⟨r⟩, ⟨r⟩) = (⟨s⟩, ⟨s⟩) ∧
      min 3300 (r + n * egfBonus 3300) ≤ s := by
    intro n
    induction n with
    | zero => exact ⟨r, rfl, by simp⟩
    | succ n ih =>
      obtain ⟨s, hs, hs'⟩ := ih
      refine ⟨_, by rw [Function.iterate_succ_apply', hs]; exact step s, le_trans ?_ (le_max_left _ _)⟩
      have h0 := Egf.egfBonus_pos s
      rcases le_total 3300 s with h | h
      · exact (min_le_left _ _).trans (by linarith)
      · have hb := egfBonus_anti h
        rcases le_total 3300 (r + n * egfBonus 3300) with h1 | h1
        · rw [min_eq_left h1] at hs'
          exact (min_le_left _ _).trans (by linarith)
        · rw [min_eq_right h1] at hs'
          refine (min_le_right _ _).trans ?_
          push_cast; linarith
  obtain ⟨N, hN⟩ := exists_nat_gt ((3300 - r) / egfBonus 3300)
  refine ⟨N, fun n hn => ?_⟩
  obtain ⟨s, hs, hs'⟩ := key n
  rw [div_lt_iff₀ hδ] at hN
  have h5 : (N : ℝ) * egfBonus 3300 ≤ n * egfBonus 3300 := by gcongr
  rw [min_eq_left (by linarith)] at hs'
  rw [hs]; exact ⟨hs', hs'⟩

/-! Concrete cases. -/
example : ∃ N : ℕ, ∀ n ≥ N, (10000 : ℝ) ≤ ((exchange ⟨25, true, false⟩)^[n] (⟨1000⟩, ⟨1200⟩)).1.rating ∧
    (10000 : ℝ) ≤ ((exchange ⟨25, true, false⟩)^[n] (⟨1000⟩, ⟨1200⟩)).2.rating :=
  C155_fifa_knockout ⟨25, true, false⟩ (by norm_num) rfl rfl (⟨1000⟩, ⟨1200⟩) 10000

example (n : ℕ) : ((exchange ⟨25, false, false⟩)^[n] (⟨1000⟩, ⟨1200⟩)).1.rating
    + ((exchange ⟨25, false, false⟩)^[n] (⟨1000⟩, ⟨1200⟩)).2.rating = 1000 + 1200 :=
  C155_fifa_league ⟨25, false, false⟩ rfl rfl (⟨1000⟩, ⟨1200⟩) n

end Skillratings
