import Verif.Props.FloatEven
import Verif.Props.FloatAccuracy
import Verif.Proofs.FPTsGame
/-
C166: what draws between equals do to Ingo ratings in floating point.
-/
namespace Skillratings
open FP FPVal Spec
variable {E : FloatEnv} {ι : Type} [DecidableEq ι]

theorem ingo_draw_real (a b : Ingo.IngoRating ℝ) (v : ℝ) (ha : a.rating = v) (hb : b.rating = v) :
    (Ingo.ingo a b .DRAW).1.rating = v ∧ (Ingo.ingo a b .DRAW).2.rating = v := by
  obtain ⟨e1, e2⟩ := Ingo.C24_ingo_formula a b .DRAW
  have da := Ingo.development_pos a.age
  have db := Ingo.development_pos b.age
  rw [e1, e2, ha, hb, Ingo.perf, Ingo.perf, points_mirror]
  simp only [points]
  constructor
  · field_simp
    ring
  · field_simp
    ring

/-- One draw moves no rating by more than `2 ^ -33`. -/
theorem C166_ingo_game (a b : Ingo.IngoRating (FP E)) (v : ℝ) (ha : Is a.rating v) (hb : Is b.rating v)
    (hv : |v| ≤ 2 ^ 14) :
    Near (1 / 2 ^ 33) (Ingo.ingo a b .DRAW).1.rating v ∧ Near (1 / 2 ^ 33) (Ingo.ingo a b .DRAW).2.rating v := by
  have w : ∀ {x : FP E}, Is x v → Within (2 ^ 14) x := fun h => ⟨h.1, by rw [h.2]; exact hv⟩
  have h := C112_ingo_game a b .DRAW (w ha) (w hb)
  have e := ingo_draw_real ⟨a.rating.toR, a.age⟩ ⟨b.rating.toR, b.age⟩ v ha.2 hb.2
  rwa [e.1, e.2] at h

/-- `n` draws among equals move no rating by more than `n` times that. -/
theorem C166_ingo_tournament (pool : ι → Ingo.IngoRating (FP E)) (games : List (Game ι Unit)) (v : ℝ) (B : ℕ)
    (hp : ∀ i, Is (pool i).rating v) (hv : |v| ≤ B) (hB : B + games.length * 5 ≤ 2 ^ 14)
    (hg : ∀ g ∈ games, g.outcome = .DRAW) (i : ι) :
    Near (games.length / 2 ^ 33) (tournament (fun a b o _ => Ingo.ingo a b o) pool games i).rating v := by
  have h := (C112_ingo_history pool (fun i => ⟨v, (pool i).age⟩) games B 0
    (fun i => ⟨(hp i).1, by rw [(hp i).2]; exact hv⟩)
    (fun i => ⟨⟨(hp i).1, by rw [(hp i).2]; simp⟩, rfl⟩) hB i).2
  have e := tournament_games (fun a b o (_ : Unit) => Ingo.ingo (F := ℝ) a b o) (fun _ a => a.rating = v)
    (fun o _ => o = .DRAW) games.length (fun _ _ h => h)
    (fun _ a b o _ _ hQ ha hb => by subst hQ; exact ingo_draw_real a b v ha hb)
    (fun i => ⟨v, (pool i).age⟩) games 0 (by omega) hg (fun _ => rfl) i
  rwa [e, zero_add] at h

/-! ### The rating does move -/

/-- The representable numbers from `2 ^ k` on are multiples of `2 ^ (k - 52)`. -/
theorem rep_grid {c : ℝ} (h : Rep c) {k : ℤ} (hk : (2 : ℝ) ^ k ≤ c) : ∃ n : ℤ, c = n * 2 ^ (k - 52) := by
  obtain ⟨n, j, hn, -, -, rfl⟩ := h
  have hj : k - 52 ≤ j := by
    by_contra hlt
    have h1 : (n : ℝ) < 2 ^ (53 : ℤ) := by exact_mod_cast hn
    have h2 : (n : ℝ) * 2 ^ j < 2 ^ (53 : ℤ) * 2 ^ j := mul_lt_mul_of_pos_right h1 (by positivity)
    rw [← zpow_add₀ (by norm_num : (2 : ℝ) ≠ 0)] at h2
    have h3 : (2 : ℝ) ^ (53 + j) ≤ 2 ^ k := zpow_le_zpow_right₀ (by norm_num) (by omega)
    linarith
  obtain ⟨d, hd⟩ := Int.eq_ofNat_of_zero_le (sub_nonneg.2 hj)
  refine ⟨n * 2 ^ d, ?_⟩
  have : j = (d : ℤ) + (k - 52) := by omega
  rw [this, zpow_add₀ (by norm_num : (2 : ℝ) ≠ 0), zpow_natCast]
  push_cast
  ring

/-- Rounding to nearest, away from ties. -/
theorem ieee_is {s : Bool} {x v : ℝ} (k : ℤ) (hv : Rep v) (hx : (2 : ℝ) ^ k + |x - v| ≤ x)
    (hx1 : x ≤ 2 ^ 100) (h : 2 * |x - v| < 2 ^ (k - 52)) : Is (E := ieee) (ieee.round s x) v := by
  have hp : (0 : ℝ) < 2 ^ k := by positivity
  have h0 : 0 < x := by linarith [abs_nonneg (x - v)]
  have key : |x - cval (nearest x)| ≤ |x - v| :=
    nearest_nearest h0.le (hx1.trans (pow_le_pow_right₀ (by norm_num) (by norm_num)))
      (WithTop.some (⟨v, hv⟩ : { m : ℝ // Rep m }))
  have hr : ieee.round s x = FloatEnv.ofMag (decide (x < 0)) (nearest |x|) := by
    rw [← ieee_round, FloatEnv.round, if_neg h0.ne']; rfl
  rw [abs_of_pos h0, decide_eq_false (not_lt.2 h0.le)] at hr
  rw [hr]
  have hb := abs_le.1 key
  cases hc : nearest x with
  | top =>
    exfalso
    rw [hc, cval_top] at hb
    have hT : (2 : ℝ) ^ 101 < 2 ^ 1024 := pow_lt_pow_right₀ (by norm_num) (by norm_num)
    have hb1 := hb.1
    clear hb key hc
    generalize (2 : ℝ) ^ 1024 = T at hT hb1
    have e2 : (2 : ℝ) ^ 101 = 2 * 2 ^ 100 := by norm_num
    rw [e2] at hT
    linarith
  | coe m =>
    rw [hc, cval_coe] at hb
    obtain ⟨n, hn⟩ := rep_grid m.2 (k := k) (by linarith [hb.2])
    have hvk : (2 : ℝ) ^ k ≤ v := by linarith [(abs_le.1 (le_refl |x - v|)).2]
    obtain ⟨n', hn'⟩ := rep_grid hv hvk
    have hg : (0 : ℝ) < 2 ^ (k - 52) := by positivity
    have e : m.1 = v := by
      have h2 := abs_le.1 (le_refl |x - v|)
      have h3 : |m.1 - v| < 2 ^ (k - 52) := by
        rw [abs_lt]; constructor <;> linarith [hb.1, hb.2, h2.1, h2.2]
      rw [hn, hn', ← sub_mul, abs_mul, abs_of_pos hg] at h3
      have h4 : |(n : ℝ) - n'| < 1 := by
        by_contra hge
        have := mul_le_mul_of_nonneg_right (not_lt.1 hge) hg.le
        linarith
      have h5 : |n - n'| < 1 := by exact_mod_cast h4
      have h6 : n = n' := by
        have := Int.abs_lt_one_iff.1 h5
        omega
      rw [hn, hn', h6]
    exact ⟨trivial, e⟩

/-- With rounding to nearest, two players aged at most 20 and rated `128 - 2 ^ -45` both leave a draw
with `128 - 2 ^ -46`. -/
theorem C166_ingo_moves (a b : Ingo.IngoRating (FP ieee)) (ha : Is a.rating (128 - 1 / 2 ^ 45))
    (hb : Is b.rating (128 - 1 / 2 ^ 45)) (ya : a.age ≤ 20) (yb : b.age ≤ 20) :
    Is (Ingo.ingo a b .DRAW).1.rating (128 - 1 / 2 ^ 46) ∧
      Is (Ingo.ingo a b .DRAW).2.rating (128 - 1 / 2 ^ 46) := by
  have side : ∀ {x y s : FP ieee}, Is x (128 - 1 / 2 ^ 45) → Is y (128 - 1 / 2 ^ 45) → Is s (1 / 2) →
      Is (Flt.mulAdd (Ingo.performance y s) 1.0 (x * 10.0) / (1.0 + 10.0)) (128 - 1 / 2 ^ 46) := by
    intro x y s hx hy hs
    have h100 := Is.lit (E := ieee) (m := 1000) (s := true) (e := 1) 100 (by norm_num) (by norm_num)
    have h50 := (Is.lit (E := ieee) (m := 500) (s := true) (e := 1) 50 (by norm_num) (by norm_num)).neg
    have h10 := Is.lit (E := ieee) (m := 100) (s := true) (e := 1) 10 (by norm_num) (by norm_num)
    have h1 := Is.one (E := ieee)
    have hz : Is (Flt.mulAdd (100.0 : FP ieee) s (-50.0)) 0 := by
      obtain ⟨t, ht⟩ := mulAdd_fin h100.1 hs.1 h50.1
      rw [ht, h100.2, hs.2, h50.2]
      norm_num
      exact Is.round SRep.zero
    have hperf : Is (Ingo.performance y s) (128 - 1 / 2 ^ 45) := by
      obtain ⟨t, ht⟩ := sub_fin hy.1 hz.1
      have := isFinite.srep hy.1
      rw [Ingo.performance, ht, hy.2, hz.2, sub_zero]
      exact Is.round (hy.2 ▸ this)
    have ht10 : Is (x * 10.0) (1280 - 1 / 2 ^ 42) := by
      obtain ⟨t, ht⟩ := mul_fin hx.1 h10.1
      rw [ht, hx.2, h10.2]
      refine ieee_is 10 ⟨1280 * 2 ^ 42 - 1, -42, by norm_num, by norm_num, by norm_num, by norm_num⟩ ?_ ?_ ?_
      · norm_num [abs_of_nonneg, abs_of_neg]
      · norm_num
      · norm_num [abs_of_nonneg, abs_of_neg]
    have hsum : Is (Flt.mulAdd (Ingo.performance y s) 1.0 (x * 10.0)) (1408 - 1 / 2 ^ 42) := by
      obtain ⟨t, ht⟩ := mulAdd_fin hperf.1 h1.1 ht10.1
      rw [ht, hperf.2, h1.2, ht10.2]
      refine ieee_is 10 ⟨1408 * 2 ^ 42 - 1, -42, by norm_num, by norm_num, by norm_num, by norm_num⟩ ?_ ?_ ?_
      · norm_num [abs_of_nonneg, abs_of_neg]
      · norm_num
      · norm_num [abs_of_nonneg, abs_of_neg]
    have h11 : Is ((1.0 : FP ieee) + 10.0) 11 := by
      obtain ⟨t, ht⟩ := add_fin h1.1 h10.1
      rw [ht, h1.2, h10.2]
      norm_num
      exact Is.round (SRep.ofNat 11 (by norm_num))
    obtain ⟨t, ht⟩ := div_fin hsum.1 h11.1 (by rw [h11.2]; norm_num)
    rw [ht, hsum.2, h11.2]
    refine ieee_is 6 ⟨128 * 2 ^ 46 - 1, -46, by norm_num, by norm_num, by norm_num, by norm_num⟩ ?_ ?_ ?_
    · norm_num [abs_of_nonneg, abs_of_neg]
    · norm_num
    · norm_num [abs_of_nonneg, abs_of_neg]
  simp only [Ingo.ingo, Ingo.ageToDevcoefficient, if_pos ya, if_pos yb]
  exact ⟨side ha hb Is.draw, side hb ha (Is.one_sub Is.draw)⟩

/-- So a draw between equals does not always keep the ratings of Ingo. -/
theorem C166_ingo_not : ¬ ∀ (a b : Ingo.IngoRating (FP ieee)) (v : ℝ), Is a.rating v → Is b.rating v →
    Is (Ingo.ingo a b .DRAW).1.rating v := by
  intro h
  have hr : Is (E := ieee) (ieee.round false (128 - 1 / 2 ^ 45)) (128 - 1 / 2 ^ 45) :=
    Is.round ⟨128 * 2 ^ 45 - 1, -45, by norm_num, by norm_num, by norm_num, by norm_num⟩
  have h1 := h ⟨_, 18⟩ ⟨_, 18⟩ _ hr hr
  have h2 := (C166_ingo_moves ⟨_, 18⟩ ⟨_, 18⟩ hr hr (by norm_num) (by norm_num)).1
  have := h1.2.symm.trans h2.2
  norm_num at this

/-! ### Examples -/

example : Near (1 / 2 ^ 33) (Ingo.ingo (⟨1500.0, 17⟩ : Ingo.IngoRating (FP ieee)) ⟨1500.0, 40⟩ .DRAW).2.rating 1500 :=
  (C166_ingo_game _ _ 1500 even_1500 even_1500 (by norm_num)).2

example : Near (3 / 2 ^ 33) (tournament (fun a b o _ => Ingo.ingo a b o)
    (fun i : ℕ => (⟨1500.0, 15 + i⟩ : Ingo.IngoRating (FP ieee)))
    [⟨0, 1, by norm_num, .DRAW, ()⟩, ⟨2, 0, by norm_num, .DRAW, ()⟩, ⟨0, 9, by norm_num, .DRAW, ()⟩] 9).rating
    1500 := by
  have := C166_ingo_tournament (fun i : ℕ => (⟨1500.0, 15 + i⟩ : Ingo.IngoRating (FP ieee)))
    [⟨0, 1, by norm_num, .DRAW, ()⟩, ⟨2, 0, by norm_num, .DRAW, ()⟩, ⟨0, 9, by norm_num, .DRAW, ()⟩] 1500 1500
    (fun _ => even_1500) (by norm_num) (by simp) (by simp) 9
  simpa using this

end Skillratings
