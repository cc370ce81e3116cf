import Verif.Proofs.Forget
import Verif.Props.Elo
import Verif.Props.Forecast
import Verif.Props.Ingo
import Verif.Props.Seats
/-
C144: the initial rating is forgotten. Two players `a` and `a'` with different initial ratings play the
same opponents `b` with the same results `o`, from either seat.
-/
namespace Skillratings
open Spec Filter
open Real (sigmoid)
open scoped Topology

/-! ### Elo -/

theorem C144_elo_forgets (a a' b : ℕ → Elo.EloRating ℝ) (o : ℕ → Outcomes) (c : Elo.EloConfig ℝ)
    (hk : 0 < c.k) (hk' : c.k * Real.log 10 ≤ 1600) (D : ℝ) (hD : ∀ n, |(b n).rating| ≤ D)
    (h : ∀ n, a (n + 1) = (Elo.elo (a n) (b n) (o n) c).1 ∨
      a (n + 1) = (Elo.elo (b n) (a n) (mirror (o n)) c).2)
    (h' : ∀ n, a' (n + 1) = (Elo.elo (a' n) (b n) (o n) c).1 ∨
      a' (n + 1) = (Elo.elo (b n) (a' n) (mirror (o n)) c).2) :
    (∀ n, |(a (n + 1)).rating - (a' (n + 1)).rating| ≤ |(a n).rating - (a' n).rating|) ∧
    ((a' 0).rating ≤ (a 0).rating → ∀ n, (a' n).rating ≤ (a n).rating) ∧
    Tendsto (fun n => (a n).rating - (a' n).rating) atTop (𝓝 0) := by
  have hl := log_ten_pos
  have step : ∀ {a : ℕ → Elo.EloRating ℝ}, (∀ n, a (n + 1) = (Elo.elo (a n) (b n) (o n) c).1 ∨
      a (n + 1) = (Elo.elo (b n) (a n) (mirror (o n)) c).2) → ∀ n, (a (n + 1)).rating
        = (a n).rating + c.k * (points (o n)
          - sigmoid (Real.log 10 / 400 * ((a n).rating - (b n).rating))) := by
    intro a h n
    rcases h n with h | h
    · rw [h]; exact (elo_rule c.k).fst _ _ _ _ rfl
    · rw [h, Elo.C04_elo_swap]; exact (elo_rule c.k).fst _ _ _ _ rfl
  have hα : 0 < Real.log 10 / 400 := by positivity
  have hkα : c.k * (Real.log 10 / 400) ≤ 4 := by linarith
  exact ⟨gap_antitone (x := fun n => (a n).rating) (x' := fun n => (a' n).rating) hα.le hk.le hkα (step h) (step h'),
    fun h0 n => (ordered (x := fun n => (a n).rating) (x' := fun n => (a' n).rating) hα.le hk.le hkα
      (step h) (step h') h0 n).1,
    forget hα hk hkα hD (fun n => ⟨points_nonneg' _, points_le_one' _⟩) (step h) (step h')⟩

/-- A bound on the factor is needed: with k = 4000 one game reverses and widens the gap. -/
theorem C144_elo_large_factor : ∃ (a a' b : Elo.EloRating ℝ), ∀ o : Outcomes,
    a'.rating < a.rating ∧
    (Elo.elo a b o ⟨4000⟩).1.rating + 3 * (a.rating - a'.rating) < (Elo.elo a' b o ⟨4000⟩).1.rating := by
  refine ⟨⟨1⟩, ⟨-1⟩, ⟨0⟩, fun o => ⟨by norm_num, ?_⟩⟩
  rw [(elo_rule 4000).fst _ _ _ _ rfl, (elo_rule 4000).fst _ _ _ _ rfl]
  simp only [sub_zero, mul_one, mul_neg]
  rw [Real.sigmoid_neg]
  have h1 : (2 : ℝ) < Real.log 10 := by
    rw [Real.lt_log_iff_exp_lt (by norm_num), show (2 : ℝ) = 1 + 1 by norm_num, Real.exp_add]
    have := Real.exp_one_lt_d9
    have := Real.exp_pos 1
    nlinarith
  set α := Real.log 10 / 400 with hα
  have h2 : 1 / 200 < α := by rw [hα]; linarith
  have h3 : 1 / 2 + 1 / 900 < sigmoid α := by
    rw [Real.sigmoid_def, Real.exp_neg, inv_eq_one_div (1 + (Real.exp α)⁻¹), lt_div_iff₀ (by positivity)]
    have h4 := Real.add_one_le_exp α
    have h5 : (Real.exp α)⁻¹ ≤ (201 / 200 : ℝ)⁻¹ := inv_anti₀ (by norm_num) (by linarith)
    norm_num at h5 ⊢
    linarith
  linarith

/-! ### FIFA -/

theorem C144_fifa_forgets (a a' b : ℕ → Fifa.FifaRating ℝ) (o : ℕ → Outcomes) (c : Fifa.FifaConfig ℝ)
    (hk : 0 < c.importance) (hk' : c.importance * Real.log 10 ≤ 2400) (h1 : c.knockout = false)
    (h2 : c.penalties = false) (D : ℝ) (hD : ∀ n, |(b n).rating| ≤ D)
    (h : ∀ n, a (n + 1) = (Fifa.fifa (a n) (b n) (o n) c).1 ∨
      a (n + 1) = (Fifa.fifa (b n) (a n) (mirror (o n)) c).2)
    (h' : ∀ n, a' (n + 1) = (Fifa.fifa (a' n) (b n) (o n) c).1 ∨
      a' (n + 1) = (Fifa.fifa (b n) (a' n) (mirror (o n)) c).2) :
    (∀ n, |(a (n + 1)).rating - (a' (n + 1)).rating| ≤ |(a n).rating - (a' n).rating|) ∧
    ((a' 0).rating ≤ (a 0).rating → ∀ n, (a' n).rating ≤ (a n).rating) ∧
    Tendsto (fun n => (a n).rating - (a' n).rating) atTop (𝓝 0) := by
  have hl := log_ten_pos
  have step : ∀ {a : ℕ → Fifa.FifaRating ℝ}, (∀ n, a (n + 1) = (Fifa.fifa (a n) (b n) (o n) c).1 ∨
      a (n + 1) = (Fifa.fifa (b n) (a n) (mirror (o n)) c).2) → ∀ n, (a (n + 1)).rating
        = (a n).rating + c.importance * (points (o n)
          - sigmoid (Real.log 10 / 600 * ((a n).rating - (b n).rating))) := by
    intro a h n
    rcases h n with h | h
    · rw [h]; exact (fifa_rule c.importance).fst _ _ _ _ ⟨rfl, h1, h2⟩
    · rw [h, C108_fifa_seats _ _ _ _ h2]
      exact (fifa_rule c.importance).fst _ _ _ _ ⟨rfl, h1, h2⟩
  have hα : 0 < Real.log 10 / 600 := by positivity
  have hkα : c.importance * (Real.log 10 / 600) ≤ 4 := by linarith
  exact ⟨gap_antitone (x := fun n => (a n).rating) (x' := fun n => (a' n).rating) hα.le hk.le hkα (step h) (step h'),
    fun h0 n => (ordered (x := fun n => (a n).rating) (x' := fun n => (a' n).rating) hα.le hk.le hkα
      (step h) (step h') h0 n).1,
    forget hα hk hkα hD (fun n => ⟨points_nonneg' _, points_le_one' _⟩) (step h) (step h')⟩

/-! ### Ingo -/

/-- Players of the same age: each game leaves at most 20/21 of the gap, exactly `d / (1 + d)`, with the
development coefficient `d` = 10, 15 or 20 of the age. The opponents need not be bounded. -/
theorem C144_ingo_forgets (a a' b : ℕ → Ingo.IngoRating ℝ) (o : ℕ → Outcomes) (d : ℝ)
    (hage : (a' 0).age = (a 0).age)
    (hd : d = if (a 0).age ≤ 20 then 10 else if (a 0).age ≤ 25 then 15 else 20)
    (h : ∀ n, a (n + 1) = (Ingo.ingo (a n) (b n) (o n)).1 ∨
      a (n + 1) = (Ingo.ingo (b n) (a n) (mirror (o n))).2)
    (h' : ∀ n, a' (n + 1) = (Ingo.ingo (a' n) (b n) (o n)).1 ∨
      a' (n + 1) = (Ingo.ingo (b n) (a' n) (mirror (o n))).2) :
    (∀ n, (a n).rating - (a' n).rating = (d / (1 + d)) ^ n * ((a 0).rating - (a' 0).rating)) ∧
    Tendsto (fun n => (a n).rating - (a' n).rating) atTop (𝓝 0) := by
  have hd0 : 0 < d := by rw [hd]; split_ifs <;> norm_num
  have step : ∀ {a : ℕ → Ingo.IngoRating ℝ}, (∀ n, a (n + 1) = (Ingo.ingo (a n) (b n) (o n)).1 ∨
      a (n + 1) = (Ingo.ingo (b n) (a n) (mirror (o n))).2) →
      ∀ n, a (n + 1) = (Ingo.ingo (a n) (b n) (o n)).1 := by
    intro a h n
    rcases h n with h | h
    · exact h
    · rw [h, C108_ingo_seats]; rfl
  have ages : ∀ {a : ℕ → Ingo.IngoRating ℝ}, (∀ n, a (n + 1) = (Ingo.ingo (a n) (b n) (o n)).1) →
      ∀ n, (a n).age = (a 0).age := by
    intro a h n
    induction n with
    | zero => rfl
    | succ n ih => rw [h]; exact ih
  have key : ∀ n, (a n).rating - (a' n).rating
      = (d / (1 + d)) ^ n * ((a 0).rating - (a' 0).rating) := by
    intro n
    induction n with
    | zero => simp
    | succ n ih =>
      rw [step h, step h', (Ingo.C24_ingo_formula _ _ _).1, (Ingo.C24_ingo_formula _ _ _).1,
        ages (step h), ages (step h'), hage, show Ingo.development (a 0).age = d from hd.symm,
        pow_succ, mul_right_comm, ← ih]
      ring
  refine ⟨key, ?_⟩
  have h1 : Tendsto (fun n : ℕ => (d / (1 + d)) ^ n) atTop (𝓝 0) :=
    tendsto_pow_atTop_nhds_zero_of_lt_one (by positivity) (by rw [div_lt_one (by linarith)]; linarith)
  have h2 := h1.mul_const ((a 0).rating - (a' 0).rating)
  rw [zero_mul] at h2
  exact h2.congr fun n => (key n).symm

/-! ### Example -/

/-- A newcomer rated 800 and one rated 2000 play the same games: wins and losses in turn against a
player rated 1500, with k = 32. -/
example : ∃ (a a' : ℕ → Elo.EloRating ℝ) (o : ℕ → Outcomes), a 0 = ⟨2000⟩ ∧ a' 0 = ⟨800⟩ ∧
    (∀ n, a (n + 1) = (Elo.elo (a n) ⟨1500⟩ (o n) ⟨32⟩).1) ∧
    (∀ n, a' (n + 1) = (Elo.elo ⟨1500⟩ (a' n) (mirror (o n)) ⟨32⟩).2) ∧
    Tendsto (fun n => (a n).rating - (a' n).rating) atTop (𝓝 0) := by
  let o : ℕ → Outcomes := fun n => if n % 2 = 0 then .WIN else .LOSS
  refine ⟨fun n => Nat.rec ⟨2000⟩ (fun n x => (Elo.elo x ⟨1500⟩ (o n) ⟨32⟩).1) n,
    fun n => Nat.rec ⟨800⟩ (fun n x => (Elo.elo ⟨1500⟩ x (mirror (o n)) ⟨32⟩).2) n, o, rfl, rfl,
    fun _ => rfl, fun _ => rfl, ?_⟩
  refine (C144_elo_forgets _ _ (fun _ => ⟨1500⟩) o ⟨32⟩ (by norm_num) ?_ 1500 (fun _ => by norm_num)
    (fun _ => .inl rfl) (fun _ => .inr rfl)).2.2
  have h : Real.log 10 ≤ 10 := (Real.log_le_sub_one_of_pos (by norm_num)).trans (by norm_num)
  change 32 * Real.log 10 ≤ 1600
  linarith

end Skillratings
