import Mathlib.Data.List.Perm.Basic
import Verif.Props.Monotone
import Verif.Props.Ingo
/-
C152: recent results count more.  Among all orders of the same results against opponents of equal strength
the one with the losses first and the wins last gives the best rating.
-/
namespace Skillratings
open Spec Real

/-! ### Any monotone update with this property for two results -/

section
variable {f : ℝ → Outcomes → ℝ} (mono : ∀ o, Monotone fun r => f r o)
  (swap : ∀ r x y, points x ≤ points y → f (f r y) x ≤ f (f r x) y)
include mono

theorem fold_mono (os : List Outcomes) {r s : ℝ} (h : r ≤ s) : os.foldl f r ≤ os.foldl f s := by
  induction os generalizing r s with
  | nil => exact h
  | cons o os ih => exact ih (mono o h)

include swap

/-- Moving the worst result to the front. -/
theorem fold_front (x : Outcomes) (l m : List Outcomes) (h : ∀ y ∈ l, points x ≤ points y) (r : ℝ) :
    (l ++ x :: m).foldl f r ≤ (x :: (l ++ m)).foldl f r := by
  induction l generalizing r with
  | nil => exact le_rfl
  | cons y l ih =>
    refine (ih (fun z hz => h z (List.mem_cons_of_mem _ hz)) (f r y)).trans ?_
    simp only [List.foldl_cons, List.cons_append]
    exact fold_mono mono _ (swap r x y (h y List.mem_cons_self))

theorem fold_sorted {os os' : List Outcomes} (hp : os.Perm os')
    (hs : os'.Pairwise fun x y => points x ≤ points y) (r : ℝ) : os.foldl f r ≤ os'.foldl f r := by
  induction os' generalizing os r with
  | nil => rw [hp.eq_nil]
  | cons x t ih =>
    obtain ⟨l, m, rfl⟩ := List.append_of_mem (hp.symm.subset List.mem_cons_self)
    have hp' : (l ++ m).Perm t := (List.perm_middle.symm.trans hp).cons_inv
    rw [List.pairwise_cons] at hs
    exact (fold_front mono swap x l m (fun y hy => hs.1 y (hp'.subset (List.mem_append_left _ hy))) r).trans
      (ih hp' hs.2 (f r x))

/-- Moving the best result to the front. -/
theorem fold_front' (x : Outcomes) (l m : List Outcomes) (h : ∀ y ∈ l, points y ≤ points x) (r : ℝ) :
    (x :: (l ++ m)).foldl f r ≤ (l ++ x :: m).foldl f r := by
  induction l generalizing r with
  | nil => exact le_rfl
  | cons y l ih =>
    refine le_trans ?_ (ih (fun z hz => h z (List.mem_cons_of_mem _ hz)) (f r y))
    simp only [List.foldl_cons, List.cons_append]
    exact fold_mono mono _ (swap r y x (h y List.mem_cons_self))

theorem fold_sorted' {os os' : List Outcomes} (hp : os.Perm os')
    (hs : os'.Pairwise fun x y => points y ≤ points x) (r : ℝ) : os'.foldl f r ≤ os.foldl f r := by
  induction os' generalizing os r with
  | nil => rw [hp.eq_nil]
  | cons x t ih =>
    obtain ⟨l, m, rfl⟩ := List.append_of_mem (hp.symm.subset List.mem_cons_self)
    have hp' : (l ++ m).Perm t := (List.perm_middle.symm.trans hp).cons_inv
    rw [List.pairwise_cons] at hs
    exact (ih hp' hs.2 (f r x)).trans
      (fold_front' mono swap x l m (fun y hy => hs.1 y (hp'.subset (List.mem_append_left _ hy))) r)

end

/-- The orders of the results `os`, from the worst to the best result and the other way round. -/
structure Orders (rising os falling : List Outcomes) : Prop where
  rising_perm : os.Perm rising
  rising_sorted : rising.Pairwise fun x y => points x ≤ points y
  falling_perm : os.Perm falling
  falling_sorted : falling.Pairwise fun x y => points y ≤ points x

/-! ### Elo -/

theorem elo_fold (p b : Elo.EloRating ℝ) (os : List Outcomes) (c : Elo.EloConfig ℝ) :
    (Elo.eloRatingPeriod p (os.map fun o => (b, o)) c).rating
      = os.foldl (fun r o => (Elo.elo ⟨r⟩ b o c).1.rating) p.rating := by
  rw [Elo.C05_elo_period_gauntlet, List.map_map]
  induction os generalizing p with
  | nil => rfl
  | cons o os ih => exact ih (Elo.elo p b o c).1

theorem C152_elo (p b : Elo.EloRating ℝ) (c : Elo.EloConfig ℝ) (hk : 0 ≤ c.k) (hk' : c.k ≤ 1600 / log 10)
    {rising os falling : List Outcomes} (h : Orders rising os falling) :
    (Elo.eloRatingPeriod p (os.map fun o => (b, o)) c).rating
      ≤ (Elo.eloRatingPeriod p (rising.map fun o => (b, o)) c).rating ∧
    (Elo.eloRatingPeriod p (falling.map fun o => (b, o)) c).rating
      ≤ (Elo.eloRatingPeriod p (os.map fun o => (b, o)) c).rating := by
  have hl := log_ten_pos
  have mono : ∀ o, Monotone fun r => (Elo.elo ⟨r⟩ b o c).1.rating := fun o r s h =>
    elo_mono hk hk' h le_rfl le_rfl
  have swap : ∀ r x y, points x ≤ points y → (Elo.elo ⟨(Elo.elo ⟨r⟩ b y c).1.rating⟩ b x c).1.rating
      ≤ (Elo.elo ⟨(Elo.elo ⟨r⟩ b x c).1.rating⟩ b y c).1.rating := by
    intro r x y hxy
    simp only [Elo.elo_real]
    have h1 := mul_le_mul_of_nonneg_left hxy hk
    have h2 : sigmoid (log 10 / 400 * (c.k * (points x - sigmoid (log 10 / 400 * (r - b.rating))) + r - b.rating))
        ≤ sigmoid (log 10 / 400 * (c.k * (points y - sigmoid (log 10 / 400 * (r - b.rating))) + r - b.rating)) := by
      rw [sigmoid_le_iff]; gcongr
    have h3 := mul_le_mul_of_nonneg_left h2 hk
    linarith
  simp only [elo_fold]
  exact ⟨fold_sorted mono swap h.rising_perm h.rising_sorted _,
    fold_sorted' mono swap h.falling_perm h.falling_sorted _⟩

/-- It does make a difference: a loss and a win, in this order, are worth more than a win and a loss. -/
theorem C152_elo_strict (p b : Elo.EloRating ℝ) (c : Elo.EloConfig ℝ) (hk : 0 < c.k) :
    (Elo.eloRatingPeriod p [(b, .WIN), (b, .LOSS)] c).rating
      < (Elo.eloRatingPeriod p [(b, .LOSS), (b, .WIN)] c).rating := by
  have hl := log_ten_pos
  have e1 := elo_fold p b [.WIN, .LOSS] c
  have e2 := elo_fold p b [.LOSS, .WIN] c
  simp only [List.map_cons, List.map_nil, List.foldl_cons, List.foldl_nil] at e1 e2
  rw [e1, e2]
  simp only [Elo.elo_real, points]
  have h2 : sigmoid (log 10 / 400 * (c.k * (0 - sigmoid (log 10 / 400 * (p.rating - b.rating))) + p.rating - b.rating))
      < sigmoid (log 10 / 400 * (c.k * (1 - sigmoid (log 10 / 400 * (p.rating - b.rating))) + p.rating - b.rating)) := by
    rw [sigmoid_lt_iff]; gcongr; norm_num
  have h3 := mul_lt_mul_of_pos_left h2 hk
  linarith

/-! ### FIFA -/

theorem fifa_fold (p b : Fifa.FifaRating ℝ) (os : List Outcomes) (c : Fifa.FifaConfig ℝ) :
    (Fifa.fifaRatingPeriod p (os.map fun o => (b, o, c))).rating
      = os.foldl (fun r o => (Fifa.fifa ⟨r⟩ b o c).1.rating) p.rating := by
  rw [Fifa.C10_fifa_period_gauntlet]
  induction os generalizing p with
  | nil => rfl
  | cons o os ih => exact ih (Fifa.fifa p b o c).1

/-- Matches without knockout protection; penalty shootouts are allowed. -/
theorem C152_fifa (p b : Fifa.FifaRating ℝ) (c : Fifa.FifaConfig ℝ) (hk : 0 ≤ c.importance)
    (hk' : c.importance ≤ 2400 / log 10) (hn : c.knockout = false)
    {rising os falling : List Outcomes} (h : Orders rising os falling) :
    (Fifa.fifaRatingPeriod p (os.map fun o => (b, o, c))).rating
      ≤ (Fifa.fifaRatingPeriod p (rising.map fun o => (b, o, c))).rating ∧
    (Fifa.fifaRatingPeriod p (falling.map fun o => (b, o, c))).rating
      ≤ (Fifa.fifaRatingPeriod p (os.map fun o => (b, o, c))).rating := by
  have hl := log_ten_pos
  have mono : ∀ o, Monotone fun r => (Fifa.fifa ⟨r⟩ b o c).1.rating := fun o r s h => by
    have := C94_fifa_period_mono ⟨r⟩ ⟨s⟩ [(b, o, c)] [(b, o, c)] h
      (.cons ⟨le_rfl, le_rfl, rfl, hk, hk'⟩ .nil)
    have e := fun r => fifa_fold ⟨r⟩ b [o] c
    simp only [List.map_cons, List.map_nil, List.foldl_cons, List.foldl_nil] at e
    rw [e, e] at this
    exact this
  have swap : ∀ r x y, points x ≤ points y →
      (Fifa.fifa ⟨(Fifa.fifa ⟨r⟩ b y c).1.rating⟩ b x c).1.rating
        ≤ (Fifa.fifa ⟨(Fifa.fifa ⟨r⟩ b x c).1.rating⟩ b y c).1.rating := by
    intro r x y hxy
    simp only [Fifa.fifa_real, Fifa.guarded, hn, Bool.false_eq_true, if_false]
    have h0 := credit_mono c hxy
    have h1 := mul_le_mul_of_nonneg_left h0 hk
    have h2 : sigmoid (log 10 / 600 * (c.importance * (Fifa.credit x c - sigmoid (log 10 / 600 * (r - b.rating))) + r - b.rating))
        ≤ sigmoid (log 10 / 600 * (c.importance * (Fifa.credit y c - sigmoid (log 10 / 600 * (r - b.rating))) + r - b.rating)) := by
      rw [sigmoid_le_iff]; gcongr
    have h3 := mul_le_mul_of_nonneg_left h2 hk
    linarith
  simp only [fifa_fold]
  exact ⟨fold_sorted mono swap h.rising_perm h.rising_sorted _,
    fold_sorted' mono swap h.falling_perm h.falling_sorted _⟩

/-! ### Ingo: single games, lower is better -/

/-- The rating after single games against an opponent rated `b`. -/
noncomputable def ingoGames (p b : Ingo.IngoRating ℝ) : List Outcomes → Ingo.IngoRating ℝ
  | [] => p
  | o :: os => ingoGames (Ingo.ingo p b o).1 b os

theorem C152_ingo (p b : Ingo.IngoRating ℝ) {rising os falling : List Outcomes} (h : Orders rising os falling) :
    (ingoGames p b rising).rating ≤ (ingoGames p b os).rating ∧
    (ingoGames p b os).rating ≤ (ingoGames p b falling).rating := by
  have hd := Ingo.development_pos p.age
  set d := Ingo.development p.age with hd'
  have fold : ∀ (os : List Outcomes) (q : Ingo.IngoRating ℝ), q.age = p.age →
      -(ingoGames q b os).rating = os.foldl
        (fun r o => (-Ingo.perf b.rating (points o) + d * r) / (1 + d)) (-q.rating) := by
    intro os
    induction os with
    | nil => intro q _; rfl
    | cons o os ih =>
      intro q hq
      have e := (Ingo.C24_ingo_formula q b o).1
      rw [ingoGames, ih _ (show (Ingo.ingo q b o).1.age = p.age from hq), List.foldl_cons, e, hq, ← hd']
      congr 1; ring
  have mono : ∀ o, Monotone fun r => (-Ingo.perf b.rating (points o) + d * r) / (1 + d) := by
    intro o r s hrs
    dsimp only; gcongr
  have swap : ∀ (r : ℝ) (x y : Outcomes), points x ≤ points y →
      (-Ingo.perf b.rating (points x) + d * ((-Ingo.perf b.rating (points y) + d * r) / (1 + d))) / (1 + d)
      ≤ (-Ingo.perf b.rating (points y) + d * ((-Ingo.perf b.rating (points x) + d * r) / (1 + d)))
        / (1 + d) := by
    intro r x y hxy
    simp only [Ingo.perf]
    have e : ∀ u v : ℝ, -u + d * ((-v + d * r) / (1 + d)) = (-u - d * (u + v) + d * d * r) / (1 + d) := by
      intro u v; field_simp; ring
    rw [e, e]
    gcongr ?_ / _ / _
    linarith
  have r1 := fold_sorted mono swap h.rising_perm h.rising_sorted (-p.rating)
  have r2 := fold_sorted' mono swap h.falling_perm h.falling_sorted (-p.rating)
  rw [← fold _ p rfl, ← fold _ p rfl] at r1 r2
  exact ⟨by linarith, by linarith⟩

/-! Concrete cases. -/
theorem sample_orders : Orders [.LOSS, .LOSS, .DRAW, .WIN] [.LOSS, .WIN, .LOSS, .DRAW]
    [.WIN, .DRAW, .LOSS, .LOSS] :=
  ⟨by decide, by norm_num [points], by decide, by norm_num [points]⟩

example : (Elo.eloRatingPeriod (⟨1200⟩ : Elo.EloRating ℝ)
      ([.LOSS, .WIN, .LOSS, .DRAW].map fun o => (⟨1300⟩, o)) ⟨32⟩).rating
    ≤ (Elo.eloRatingPeriod ⟨1200⟩ ([.LOSS, .LOSS, .DRAW, .WIN].map fun o => (⟨1300⟩, o)) ⟨32⟩).rating :=
  (C152_elo ⟨1200⟩ ⟨1300⟩ ⟨32⟩ (by norm_num) (by
    rw [le_div_iff₀ log_ten_pos]; linarith [log_ten_lt]) sample_orders).1

example : (Fifa.fifaRatingPeriod (⟨1000⟩ : Fifa.FifaRating ℝ)
      ([.WIN, .DRAW, .LOSS, .LOSS].map fun o => (⟨1100⟩, o, ⟨10, false, false⟩))).rating
    ≤ (Fifa.fifaRatingPeriod ⟨1000⟩ ([.LOSS, .WIN, .LOSS, .DRAW].map fun o => (⟨1100⟩, o, ⟨10, false, false⟩))).rating :=
  (C152_fifa ⟨1000⟩ ⟨1100⟩ ⟨10, false, false⟩ (by norm_num) (by
    rw [le_div_iff₀ log_ten_pos]; linarith [log_ten_lt]) rfl sample_orders).2

example : (ingoGames (⟨130, 40⟩ : Ingo.IngoRating ℝ) ⟨160, 40⟩ [.LOSS, .LOSS, .DRAW, .WIN]).rating
    ≤ (ingoGames ⟨130, 40⟩ ⟨160, 40⟩ [.LOSS, .WIN, .LOSS, .DRAW]).rating :=
  (C152_ingo ⟨130, 40⟩ ⟨160, 40⟩ sample_orders).1

end Skillratings
