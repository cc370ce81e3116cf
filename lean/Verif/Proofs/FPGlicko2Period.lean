import Verif.Proofs.FPGlicko2Player
import Verif.Proofs.FPUpdates
/-
A rating period of Glicko-2 in floating point.
-/
namespace Skillratings
open FP FPVal Spec
variable {E : FloatEnv}

namespace FP

private theorem mid_900 {M : ℝ} (h0 : 1 / 2 ^ 200 ≤ M) (h1 : M ≤ 2 ^ 30) : 1 / 2 ^ 900 ≤ M ∧ M ≤ 2 ^ 900 :=
  ⟨le_trans (one_div_le_one_div_of_le (by positivity) (pow_le_pow_right₀ (by norm_num) (by norm_num))) h0,
    h1.trans (pow_le_pow_right₀ (by norm_num) (by norm_num))⟩

/-- Sums of positive terms. -/
theorem rel_sum {β : Type} (l : List β) (f : β → FP E) (h : β → ℝ) {k : ℝ} (k0 : 0 ≤ k) (hk : k ≤ 2 ^ 20)
    (hn : l.length ≤ 2 ^ 10) (hf : ∀ r ∈ l, Rel k (f r) (h r) ∧ 1 / 2 ^ 200 ≤ h r ∧ h r ≤ 1) :
    Near ((k + l.length) / 2 ^ 50 * (l.map h).sum) (Flt.sum (l.map f)) (l.map h).sum := by
  have key : ∀ (l : List β) (acc : FP E) (B : ℝ) (j : ℕ), j + l.length ≤ 2 ^ 10 →
      (∀ r ∈ l, Rel k (f r) (h r) ∧ 1 / 2 ^ 200 ≤ h r ∧ h r ≤ 1) → 0 ≤ B → B ≤ j →
      Near ((k + j) / 2 ^ 50 * B) acc B →
      Near ((k + j + l.length) / 2 ^ 50 * (B + (l.map h).sum)) ((l.map f).foldl (· + ·) acc) (B + (l.map h).sum) := by
    intro l
    induction l with
    | nil => intro acc B j _ _ _ _ h1; simpa only [List.map_nil, List.foldl_nil, List.sum_nil, add_zero,
        List.length_nil, Nat.cast_zero] using h1
    | cons r l ih =>
      intro acc B j hj hl b0 b1 h1
      obtain ⟨r1, r2, r3⟩ := hl r (by simp)
      have rp : 0 < h r := lt_of_lt_of_le (by positivity) r2
      have hj' : ((j : ℝ) + 1) ≤ 2 ^ 10 := by
        have : j + 1 ≤ 2 ^ 10 := by simp only [List.length_cons] at hj; omega
        exact_mod_cast this
      have j0 : (0 : ℝ) ≤ j := Nat.cast_nonneg j
      have hq : (k + j) / 2 ^ 50 ≤ 1 / 2 := by rw [div_le_iff₀ (by positivity)]; norm_num at *; linarith
      have hq' : k / 2 ^ 50 ≤ (k + j) / 2 ^ 50 := by gcongr; linarith
      have hq0 : 0 ≤ k / 2 ^ 50 := by positivity
      have e1 : (k + j) / 2 ^ 50 * B ≤ 1 / 2 * B := mul_le_mul_of_nonneg_right hq b0
      have e2 : k / 2 ^ 50 * h r ≤ 1 / 2 * h r := mul_le_mul_of_nonneg_right (hq'.trans hq) rp.le
      have big := mid_900 (M := 3 / 2 * (B + h r)) (by linarith) (by norm_num at *; linarith)
      have h5 := (small_add h1 (r1.near rp.le) (M := 3 / 2 * (B + h r)) (by
        rw [abs_of_nonneg (by linarith)]; linarith) big.1 big.2).mono
          (δ := (k + ((j + 1 : ℕ) : ℝ)) / 2 ^ 50 * (B + h r)) (by
            push_cast
            have e3 : 0 ≤ (j : ℝ) / 2 ^ 50 * h r := by positivity
            have e4 : (k + ((j : ℝ) + 1)) / 2 ^ 50 * (B + h r) = (k + j) / 2 ^ 50 * B + k / 2 ^ 50 * h r
              + (j : ℝ) / 2 ^ 50 * h r + 1 / 2 ^ 50 * (B + h r) := by ring
            have e5 : 3 / 2 * (B + h r) / 2 ^ 51 ≤ 1 / 2 ^ 50 * (B + h r) := by
              have : 0 < B + h r := by linarith
              generalize B + h r = w at *
              norm_num; linarith
            linarith)
      have := ih (acc + f r) (B + h r) (j + 1) (by simp only [List.length_cons] at hj; omega)
        (fun r' hr' => hl r' (List.mem_cons_of_mem _ hr')) (by linarith) (by push_cast; linarith) h5
      simp only [List.map_cons, List.foldl_cons, List.sum_cons, List.length_cons]
      push_cast at this ⊢
      rw [show B + (h r + (l.map h).sum) = B + h r + (l.map h).sum by ring,
        show k + (j : ℝ) + (l.length + 1) = k + (j + 1) + l.length by ring]
      exact this
  have := key l Flt.sumZero 0 0 (by omega) hf le_rfl (by simp) (by rw [mul_zero]; exact sumZero_near)
  simpa [Flt.sum] using this

/-- Sums of at most 128 terms of size at most one, with an error bound for each of them. -/
theorem near_sum_var {β : Type} (l : List β) (f : β → FP E) (h ε : β → ℝ) (hn : l.length ≤ 128)
    (hf : ∀ r ∈ l, Near (ε r) (f r) (h r) ∧ |h r| ≤ 1 ∧ ε r ≤ 1 / 2 ^ 20) :
    Near ((l.map ε).sum + l.length * (65 / 2 ^ 50)) (Flt.sum (l.map f)) (l.map h).sum ∧
      |(l.map h).sum| ≤ l.length := by
  have key : ∀ (l : List β) (acc : FP E) (B e : ℝ) (j : ℕ), j + l.length ≤ 128 →
      (∀ r ∈ l, Near (ε r) (f r) (h r) ∧ |h r| ≤ 1 ∧ ε r ≤ 1 / 2 ^ 20) →
      Near e acc B → e ≤ j * (1 / 2 ^ 19) → |B| ≤ j →
      Near (e + ((l.map ε).sum + l.length * (65 / 2 ^ 50))) ((l.map f).foldl (· + ·) acc) (B + (l.map h).sum) ∧
        |B + (l.map h).sum| ≤ j + l.length := by
    intro l
    induction l with
    | nil => intro acc B e j _ _ h1 _ h2; simpa only [List.map_nil, List.foldl_nil, List.sum_nil, add_zero,
        List.length_nil, Nat.cast_zero, zero_mul] using And.intro h1 h2
    | cons r l ih =>
      intro acc B e j hj hl h1 he h2
      obtain ⟨r1, r2, r3⟩ := hl r (by simp)
      have hj' : ((j : ℝ) + 1) ≤ 128 := by
        have : j + 1 ≤ 128 := by simp only [List.length_cons] at hj; omega
        exact_mod_cast this
      have h3 : |B + h r| ≤ j + 1 := (abs_add_le _ _).trans (add_le_add h2 r2)
      have big := mid_900 (M := 130) (le_trans (by rw [div_le_one (by positivity)]; exact one_le_pow₀ (by norm_num))
        (by norm_num : (1 : ℝ) ≤ 130)) (by norm_num)
      have h5 := (small_add h1 r1 (M := 130) (by norm_num at *; linarith) big.1 big.2).mono
        (δ := e + (ε r + 65 / 2 ^ 50)) (by norm_num; linarith)
      have := ih (acc + f r) (B + h r) (e + (ε r + 65 / 2 ^ 50)) (j + 1)
        (by simp only [List.length_cons] at hj; omega)
        (fun r' hr' => hl r' (List.mem_cons_of_mem _ hr')) h5 (by push_cast; norm_num at *; linarith)
        (by push_cast; exact h3)
      simp only [List.map_cons, List.foldl_cons, List.sum_cons, List.length_cons]
      push_cast at this ⊢
      rw [show B + (h r + (l.map h).sum) = B + h r + (l.map h).sum by ring,
        show (j : ℝ) + (l.length + 1) = j + 1 + l.length by ring,
        show e + (ε r + (l.map ε).sum + ((l.length : ℝ) + 1) * (65 / 2 ^ 50)) =
          e + (ε r + 65 / 2 ^ 50) + ((l.map ε).sum + (l.length : ℝ) * (65 / 2 ^ 50)) by ring]
      exact this
  have := key l Flt.sumZero 0 0 0 (by omega) hf sumZero_near (by simp) (by simp)
  simpa [Flt.sum] using this

end FP

namespace Glicko2

/-- The error of a computed score is small, compared with its variance. -/
theorem score_err {e : FP E} {X : ℝ} (h0 : 0 < X) (h1 : X < 1) (he : Rel 1002 e X)
    (he' : Rel 4100 ((1.0 : FP E) - e) (1 - X)) (hX : 1 / 2 ^ 20 ≤ 1 - X) :
    Near (8204 / 2 ^ 50 * (X * (1 - X))) e X := by
  have n1 := he.near h0.le
  have n2 := (he'.near (by linarith)).2
  refine ⟨n1.1, ?_⟩
  obtain ⟨s, es⟩ := sub_fin (one_in (E := E)).finite n1.1
  have e1 : (1.0 : FP E).toR = 1 := le_antisymm one_in.toR.2 one_in.toR.1
  rw [e1] at es
  have hm := abs_le.1 n1.2
  rcases le_total X (1 / 2) with h | h
  · refine n1.2.trans ?_
    have : X * (1 / 2) ≤ X * (1 - X) := mul_le_mul_of_nonneg_left (by linarith) h0.le
    generalize X * (1 - X) = w at *
    norm_num
    linarith
  · have b : |1 - e.toR| ≤ 5 / 4 * (1 - X) := by
      rw [es] at n2
      by_contra hc
      have hbig : |1 - e.toR| ≤ 2 := by rw [abs_le]; constructor <;> norm_num at * <;> linarith
      obtain ⟨-, q⟩ := round_small (E := E) s (v := 1 - e.toR) (M := |1 - e.toR|) le_rfl
        (le_trans (one_div_le_one_div_of_le (by positivity) (pow_le_pow_right₀ (by norm_num) (by norm_num : 20 ≤ 900)))
          (by linarith)) (hbig.trans (le_trans (by norm_num : (2 : ℝ) ≤ 2 ^ 1) (pow_le_pow_right₀ (by norm_num) (by norm_num))))
      have t1 := abs_sub_abs_le_abs_sub (1 - e.toR) (1 - X)
      have t2 : |1 - e.toR - (1 - X)| ≤ |1 - e.toR| / 2 ^ 51 + 4100 / 2 ^ 50 * (1 - X) := by
        have : 1 - e.toR - (1 - X) = -((E.round s (1 - e.toR)).toR - (1 - e.toR)) + ((E.round s (1 - e.toR)).toR - (1 - X)) := by ring
        rw [this]
        refine (abs_add_le _ _).trans ?_
        rw [abs_neg]
        exact add_le_add q n2
      rw [abs_of_pos (by linarith : 0 < 1 - X)] at t1
      generalize |1 - e.toR| = w at *
      norm_num at *
      linarith
    have hb2 : (5 : ℝ) / 4 * (1 - X) ≤ 2 := by linarith
    obtain ⟨-, q⟩ := round_small (E := E) s (v := 1 - e.toR) (M := 5 / 4 * (1 - X)) b
      (le_trans (one_div_le_one_div_of_le (by positivity) (pow_le_pow_right₀ (by norm_num) (by norm_num : 20 ≤ 900)))
        (by linarith)) (hb2.trans (le_trans (by norm_num : (2 : ℝ) ≤ 2 ^ 1) (pow_le_pow_right₀ (by norm_num) (by norm_num))))
    rw [es] at n2
    have t2 : |e.toR - X| ≤ 5 / 4 * (1 - X) / 2 ^ 51 + 4100 / 2 ^ 50 * (1 - X) := by
      have : e.toR - X = ((E.round s (1 - e.toR)).toR - (1 - e.toR)) - ((E.round s (1 - e.toR)).toR - (1 - X)) := by ring
      rw [this]
      exact (abs_sub _ _).trans (add_le_add q n2)
    refine t2.trans ?_
    have : 1 / 2 * (1 - X) ≤ X * (1 - X) := mul_le_mul_of_nonneg_right h (by linarith)
    generalize X * (1 - X) = w at *
    norm_num
    linarith

/-- The terms of the two sums for one opponent. -/
theorem period_game (L : E.Lib) (A : E.Accurate) {a b : Glicko2Rating (FP E)} (ha : Glicko2Usual a)
    (hb : Glicko2Usual b) (hd : |a.rating.toR - b.rating.toR| ≤ 1200) {p : FP E} {s : ℝ}
    (hp : In (E := E) (s : EReal) (s : EReal) p) (p0 : 0 ≤ s) (p1 : s ≤ 1) {g e : FP E} {G X : ℝ}
    (e1 : g = gValue (b.deviation / (173.7178 : FP E)))
    (e2 : e = eValue ((a.rating - (1500.0 : FP E)) / (173.7178 : FP E))
      ((b.rating - (1500.0 : FP E)) / (173.7178 : FP E)) g)
    (e3 : G = glicko2G (glicko2Phi b.deviation.toR))
    (e4 : X = glicko2E (glicko2Mu a.rating.toR) (glicko2Mu b.rating.toR) (glicko2Phi b.deviation.toR)) :
    Rel 5131 (Flt.powi g 2 * e * ((1.0 : FP E) - e)) (G ^ 2 * X * (1 - X)) ∧
      1 / 15700 ≤ G ^ 2 * X * (1 - X) ∧ G ^ 2 * X * (1 - X) ≤ 1 / 4 ∧
      Near ((28500 * (G ^ 2 * X * (1 - X)) + 16) / 2 ^ 50) (g * (p - e)) (G * (s - X)) ∧ |G * (s - X)| ≤ 1 := by
  have hsc : 0 < glicko2Scale := (scale_ap (E := E)).2.pos
  have eμ : glicko2Mu a.rating.toR - glicko2Mu b.rating.toR = (a.rating.toR - b.rating.toR) / glicko2Scale := by
    rw [glicko2Mu, glicko2Mu]; ring
  have bφ := phi_ap hb.deviation
  have b34 := (phi_le (le_trans (by norm_num) hb.deviation.2.1) hb.deviation.2.2).1
  have hg := g2_ap L bφ
  rw [← e1, ← e3] at hg
  have g01 := g2_ge b34
  rw [← e3] at g01
  have hG1 : G ≤ 1 := e3 ▸ g2_le _
  have hG0 := hg.2.pos
  have hdiff := mu_diff ha.rating hb.rating
  have hD7 : |(a.rating.toR - b.rating.toR) / glicko2Scale| ≤ 7 := by
    rw [abs_div, abs_of_pos hsc, div_le_iff₀ hsc, scale_eq]
    linarith
  have hX := odds_rel A hg hG1 hdiff (hD7.trans (by norm_num))
  obtain ⟨o1, o2⟩ := odds_between (D := (a.rating.toR - b.rating.toR) / glicko2Scale) hG0 hG1
  have y1 : 1 ≤ Real.exp |(a.rating.toR - b.rating.toR) / glicko2Scale| := Real.one_le_exp (abs_nonneg _)
  have y2 : Real.exp |(a.rating.toR - b.rating.toR) / glicko2Scale| ≤ 1300 := by
    refine (Real.exp_le_exp.2 hD7).trans ?_
    rw [show (7 : ℝ) = ((7 : ℕ) : ℝ) * 1 by norm_num, Real.exp_nat_mul]
    refine (pow_le_pow_left₀ (Real.exp_pos 1).le Real.exp_one_lt_d9.le 7).trans ?_
    norm_num
  have hX0 : 1 / 1500 ≤ Real.exp (-(G * ((a.rating.toR - b.rating.toR) / glicko2Scale))) :=
    le_trans (one_div_le_one_div_of_le (by positivity) (by linarith)) o1
  obtain ⟨he, he'⟩ := score_rel hX hX0 (by linarith)
  have ee : e = Flt.recip ((1.0 : FP E) + Flt.exp (-g * ((a.rating - (1500.0 : FP E)) / (173.7178 : FP E)
    - (b.rating - (1500.0 : FP E)) / (173.7178 : FP E)))) := e2
  rw [← ee] at he he'
  have hvb := v_bound o1 o2 y1 y2 g01.1 g01.2
  have eX : 1 / (1 + Real.exp (-(G * ((a.rating.toR - b.rating.toR) / glicko2Scale)))) = X := by
    rw [e4, glicko2E, eμ, ← e3]
  rw [eX] at he he' hvb
  have x0 := he.2.pos
  have x1 := he'.2.pos
  have hq0 : 0 < G ^ 2 * X * (1 - X) := by positivity
  have hq := (((hg.sq L (by norm_num) (by norm_num)).mul he (by norm_num) (by norm_num) (by norm_num)).mul he'
      (by norm_num) (by norm_num) (by norm_num)).1
  have hsX : |s - X| ≤ 1 := by rw [abs_le]; constructor <;> linarith
  have hGs : |G * (s - X)| ≤ 1 := by
    rw [abs_mul, abs_of_pos hG0]; exact mul_le_one₀ hG1 (abs_nonneg _) hsX
  refine ⟨hq.mono (by norm_num), ?_, ?_, ?_, hGs⟩
  · rw [div_le_iff₀ hq0] at hvb
    have := hvb.2
    linarith
  · rw [le_div_iff₀ hq0] at hvb
    have := hvb.1
    linarith
  · have hse := score_err x0 (by linarith) he.1 he'.1 (he'.2.mono (by norm_num : 12 ≤ 20)).1
    have hxx : X * (1 - X) ≤ 1 := by nlinarith
    have hxx0 : 0 < X * (1 - X) := by positivity
    have big := mid_900 (M := 2) (le_trans (by rw [div_le_one (by positivity)]; exact one_le_pow₀ (by norm_num))
        (by norm_num : (1 : ℝ) ≤ 2)) (by norm_num)
    have n1 := (small_sub (near_of_in hp) hse (M := 2) (by
      generalize X * (1 - X) = w at *; norm_num at *; linarith) big.1 big.2)
    have n2 := small_mul (hg.1.near hG0.le) n1 (M := 2) (by
      rw [abs_of_pos hG0]
      have k1 : 13 / 2 ^ 50 * G * |s - X| ≤ 1 / 10 := by
        have : G * |s - X| ≤ 1 := mul_le_one₀ hG1 (abs_nonneg _) hsX
        rw [mul_assoc]; norm_num; linarith
      have k2 : G * (0 + 8204 / 2 ^ 50 * (X * (1 - X)) + 2 / 2 ^ 51) ≤ 1 / 10 := by
        have : 0 + 8204 / 2 ^ 50 * (X * (1 - X)) + 2 / 2 ^ 51 ≤ 1 / 10 := by
          generalize X * (1 - X) = w at *; norm_num; linarith
        calc _ ≤ 1 * (1 / 10 : ℝ) := mul_le_mul hG1 this (by positivity) (by norm_num)
          _ = _ := by norm_num
      have k3 : 13 / 2 ^ 50 * G * (0 + 8204 / 2 ^ 50 * (X * (1 - X)) + 2 / 2 ^ 51) ≤ 1 / 10 := by
        rw [mul_assoc]
        have : 13 / 2 ^ 50 * (G * (0 + 8204 / 2 ^ 50 * (X * (1 - X)) + 2 / 2 ^ 51)) ≤ 13 / 2 ^ 50 * (1 / 10) :=
          mul_le_mul_of_nonneg_left k2 (by positivity)
        refine this.trans (by norm_num)
      linarith) big.1 big.2
    refine n2.mono ?_
    rw [abs_of_pos hG0]
    have hGl : 2879 / 10000 ≤ G := by
      by_contra hc
      have := g01.1
      nlinarith
    have k0 : G * |s - X| ≤ 1 := mul_le_one₀ hG1 (abs_nonneg _) hsX
    have k4 : 8204 * (G * (X * (1 - X))) ≤ 284965 / 10 * (G ^ 2 * X * (1 - X)) := by
      have : G * (2879 / 10000 * (X * (1 - X))) ≤ G * (G * (X * (1 - X))) :=
        mul_le_mul_of_nonneg_left (mul_le_mul_of_nonneg_right hGl hxx0.le) hG0.le
      have e : G * (G * (X * (1 - X))) = G ^ 2 * X * (1 - X) := by ring
      rw [e] at this
      have k5 : 0 < G * (X * (1 - X)) := by positivity
      linarith
    have k6 : G * (X * (1 - X)) ≤ 1 := mul_le_one₀ hG1 hxx0.le hxx
    have k7 : 0 < G * (X * (1 - X)) := by positivity
    have e5 : 13 / 2 ^ 50 * G * |s - X| + G * (0 + 8204 / 2 ^ 50 * (X * (1 - X)) + 2 / 2 ^ 51) +
        13 / 2 ^ 50 * G * (0 + 8204 / 2 ^ 50 * (X * (1 - X)) + 2 / 2 ^ 51) + 2 / 2 ^ 51 =
        13 / 2 ^ 50 * (G * |s - X|) + (8204 / 2 ^ 50 * (G * (X * (1 - X))) + 1 / 2 ^ 50 * G) +
        13 / 2 ^ 50 * (8204 / 2 ^ 50 * (G * (X * (1 - X))) + 1 / 2 ^ 50 * G) + 1 / 2 ^ 50 := by ring
    rw [e5]
    generalize G * |s - X| = w1 at *
    generalize G * (X * (1 - X)) = w2 at *
    generalize G ^ 2 * X * (1 - X) = w3 at *
    norm_num
    linarith

/-! ### The sums of a period -/

section
variable {n v S φ : ℝ}

/-- The estimated improvement. -/
theorem period_delta {V T : FP E} (hV : Rel 5262 V v) (v0 : 0 < v) (hn : 1 ≤ n) (hnv : n * v ≤ 15700)
    (hT : Near ((28500 / v + 81 * n) / 2 ^ 50) T S) (hS : |v * S| ≤ 2 ^ 20) :
    Near ((5264 * |v * S| + 28600 + 82 * (n * v)) / 2 ^ 50) (V * T) (v * S) := by
  have hnv0 : 0 < n * v := by positivity
  have e1 : v * ((28500 / v + 81 * n) / 2 ^ 50) = (28500 + 81 * (n * v)) / 2 ^ 50 := by field_simp
  have e2 : 5262 / 2 ^ 50 * v * |S| = 5262 / 2 ^ 50 * |v * S| := by rw [abs_mul, abs_of_pos v0]; ring
  have e3 : 5262 / 2 ^ 50 * v * ((28500 / v + 81 * n) / 2 ^ 50) = 5262 / 2 ^ 50 * ((28500 + 81 * (n * v)) / 2 ^ 50) := by
    rw [← e1]; ring
  have hS0 := abs_nonneg (v * S)
  have big := mid_900 (M := 2 * |v * S| + 1) (le_trans (by rw [div_le_one (by positivity)]; exact one_le_pow₀ (by norm_num))
        (by linarith : (1 : ℝ) ≤ _)) (by norm_num at *; linarith)
  have h := small_mul (hV.near v0.le) hT (M := 2 * |v * S| + 1) (by
    rw [e2, e3, abs_of_pos v0, e1]
    generalize |v * S| = w at *
    generalize n * v = z at *
    clear e1 e2 e3 big
    norm_num at *
    linarith) big.1 big.2
  rw [e2, e3, abs_of_pos v0, e1] at h
  refine h.mono ?_
  generalize |v * S| = w at *
  generalize n * v = z at *
  clear e1 e2 e3 big h
  norm_num at *
  linarith

/-- The input of the search for the volatility. -/
theorem period_volNear (L : E.Lib) {a V T : FP E} (ha : Ap 2 18 a φ) (hφ : φ ^ 2 ≤ 34) (hV : Ap 5262 110 V v)
    (v1 : 1 / 32 ≤ v) (v2 : v ≤ 15700) (hn : 1 ≤ n) (hn1 : n ≤ 128) (hnv : n * v ≤ 15700)
    (hT : Near ((28500 / v + 81 * n) / 2 ^ 50) T S) (hS : (v * S) ^ 2 ≤ 1300 * (φ ^ 2 + v)) :
    VolNear (Flt.powi (V * T) 2) (Flt.powi a 2) V (v * S) φ v := by
  have v0 := hV.2.pos
  have aP := ha.sq L (by norm_num) (by norm_num)
  have φ0 := aP.2.pos
  have hD : 1 / 32 ≤ φ ^ 2 + v := by linarith
  have hD1 : φ ^ 2 + v ≤ 15734 := by linarith
  have d0 := abs_nonneg (v * S)
  have hS' : |v * S| ^ 2 ≤ 1300 * (φ ^ 2 + v) := by rwa [sq_abs]
  have d1 : |v * S| ≤ 4600 := by
    by_contra hc
    nlinarith
  have d2 : |v * S| ≤ 204 * (φ ^ 2 + v) := by
    by_contra hc
    nlinarith
  have d3 : n * v * |v * S| ≤ 51200 * (φ ^ 2 + v) := by
    have h1 : (n * v * |v * S|) ^ 2 ≤ (51200 * (φ ^ 2 + v)) ^ 2 := by
      have h2 : n * v * n ≤ 15700 * 128 := mul_le_mul hnv hn1 (by linarith) (by norm_num)
      have h3 : v * |v * S| ^ 2 ≤ (φ ^ 2 + v) * (1300 * (φ ^ 2 + v)) :=
        mul_le_mul (by linarith) hS' (by positivity) (by linarith)
      have h4 : n * v * n * (v * |v * S| ^ 2) ≤ 15700 * 128 * ((φ ^ 2 + v) * (1300 * (φ ^ 2 + v))) :=
        mul_le_mul h2 h3 (by positivity) (by norm_num)
      have h5 := _root_.sq_nonneg (φ ^ 2 + v)
      calc (n * v * |v * S|) ^ 2 = n * v * n * (v * |v * S| ^ 2) := by ring
        _ ≤ _ := h4
        _ ≤ _ := by nlinarith
    exact le_of_abs_le (abs_le_of_sq_le_sq h1 (by linarith))
  have hΔ := period_delta hV.1 v0 hn hnv hT (d1.trans (by norm_num))
  have eQ : Flt.powi (V * T) 2 = (V * T) * (V * T) := L.powi_two _
  have eP : Flt.powi a 2 = a * a := L.powi_two _
  rw [eP] at aP
  have hnv0 : 0 < n * v := by positivity
  have eD : |φ ^ 2 + v| = φ ^ 2 + v := abs_of_pos (by linarith)
  have hε : (5264 * |v * S| + 28600 + 82 * (n * v)) / 2 ^ 50 ≤ 1 / 2 ^ 25 := by norm_num at *; linarith
  have hε0 : 0 ≤ (5264 * |v * S| + 28600 + 82 * (n * v)) / 2 ^ 50 := by positivity
  have hεd : (5264 * |v * S| + 28600 + 82 * (n * v)) / 2 ^ 50 * |v * S| ≤ 16876000 / 2 ^ 50 * (φ ^ 2 + v) := by
    have : (5264 * |v * S| + 28600 + 82 * (n * v)) / 2 ^ 50 * |v * S| =
        (5264 * |v * S| ^ 2 + 28600 * |v * S| + 82 * (n * v * |v * S|)) / 2 ^ 50 := by ring
    rw [this, div_mul_eq_mul_div]
    apply div_le_div_of_nonneg_right _ (by positivity)
    linarith
  generalize (5264 * |v * S| + 28600 + 82 * (n * v)) / 2 ^ 50 = ε at *
  have hεε : ε * ε ≤ 1 / 2 ^ 50 := by
    calc ε * ε ≤ 1 / 2 ^ 25 * (1 / 2 ^ 25) := mul_le_mul hε hε hε0 (by norm_num)
      _ = _ := by norm_num
  have hQ : |v * S * (v * S)| ≤ 1300 * (φ ^ 2 + v) := by
    rw [← pow_two, abs_of_nonneg (_root_.sq_nonneg _)]; exact hS
  have big : ∀ k : ℝ, 1 ≤ k → k ≤ 10000 → 1 / 2 ^ 900 ≤ k * (φ ^ 2 + v) ∧ k * (φ ^ 2 + v) ≤ 2 ^ 900 := fun k h1 h2 =>
    mid_900 (le_trans (le_trans (one_div_le_one_div_of_le (by positivity) (pow_le_pow_right₀ (by norm_num) (by norm_num : 5 ≤ 200)))
      (by norm_num : (1 : ℝ) / 2 ^ 5 ≤ 1 * (1 / 32))) (mul_le_mul h1 hD (by norm_num) (by linarith)))
      (by have := mul_le_mul h2 hD1 (by linarith) (by norm_num); norm_num at *; linarith)
  have n1 := (small_mul hΔ hΔ (M := 1302 * (φ ^ 2 + v)) (by
    clear big eQ eP aP hT hΔ hS hS' hnv hnv0 d3
    rw [mul_comm |v * S| ε]
    generalize ε * |v * S| = w1 at *
    generalize ε * ε = w2 at *
    generalize |v * S * (v * S)| = w3 at *
    norm_num at *
    linarith) (big 1302 (by norm_num) (by norm_num)).1 (big 1302 (by norm_num) (by norm_num)).2).mono
      (δ := 33760000 / 2 ^ 50 * (φ ^ 2 + v)) (by
    clear big eQ eP aP hT hΔ hS hS' hnv hnv0 d3
    rw [mul_comm |v * S| ε]
    generalize ε * |v * S| = w1 at *
    generalize ε * ε = w2 at *
    norm_num at *
    linarith)
  have nP := aP.1.near φ0.le
  have nV := hV.1.near v0.le
  have hQ' := abs_le.1 hQ
  have n2 := small_sub n1 nP (M := 1400 * (φ ^ 2 + v)) (by
    have : |v * S * (v * S) - φ ^ 2| ≤ 1301 * (φ ^ 2 + v) := by rw [abs_le]; constructor <;> linarith
    clear big eQ eP aP hT hΔ hS hS' hnv hnv0 d3 n1 nP nV
    generalize |v * S * (v * S) - φ ^ 2| = w at *
    norm_num at *
    linarith) (big 1400 (by norm_num) (by norm_num)).1 (big 1400 (by norm_num) (by norm_num)).2
  have n3 := small_sub n2 nV (M := 1400 * (φ ^ 2 + v)) (by
    have : |v * S * (v * S) - φ ^ 2 - v| ≤ 1302 * (φ ^ 2 + v) := by rw [abs_le]; constructor <;> linarith
    clear big eQ eP aP hT hΔ hS hS' hnv hnv0 d3 n1 nP nV n2
    generalize |v * S * (v * S) - φ ^ 2 - v| = w at *
    norm_num at *
    linarith) (big 1400 (by norm_num) (by norm_num)).1 (big 1400 (by norm_num) (by norm_num)).2
  refine { Qf := eQ ▸ n1.1, Pf := eP ▸ aP.1.1, wf := by rw [eQ, eP]; exact n2.1, Q0 := ?_, P0 := ?_,
           Vr := hV.1.mono (by norm_num), V1 := ?_, v0 := v0, c := ?_, d := ?_, d1 := ?_ }
  · rw [eQ]
    obtain ⟨s, es⟩ := mul_fin hΔ.1 hΔ.1
    have hf := n1.1
    replace es : V * T * (V * T) = _ := es
    replace hf : (V * T * (V * T)).isFinite := hf
    rw [es] at hf ⊢
    have := E.round_ge s SRep.zero (mul_self_nonneg (V * T).toR)
    rw [isFinite.toE_eq hf, EReal.coe_le_coe_iff] at this
    exact this
  · rw [eP]
    exact (aP.1.pos (by norm_num) aP.2.pos).1.le
  · have := (abs_le.1 nV.2).1
    clear big
    norm_num at *
    linarith
  · rw [eQ, eP, pow_two (v * S)]
    refine n3.mono ?_
    clear big eQ eP aP hT hΔ hS hS' hnv hnv0 d3 n1 nP nV n2 n3
    norm_num at *
    linarith
  · rw [eP]
    have := rel_add (aP.1.mono (by norm_num : _ ≤ (5262 : ℝ))) hV.1 aP.2.pos v0 (by norm_num)
      (by have := (big 1 le_rfl (by norm_num)).1; rwa [one_mul] at this)
      (by have := (big 1 le_rfl (by norm_num)).2; rwa [one_mul] at this)
    exact this.mono (by norm_num)
  · norm_num at *
    linarith

/-- Steps 6 to 8: the new rating. -/
theorem period_rating (L : E.Lib) (P : E.Precise) {x y V μ T : FP E} {η σ' m : ℝ} (hx : Ap 2 18 x φ)
    (hφ : φ ^ 2 ≤ 34) (hV : Ap 5300 110 V v) (hσ : 0 < σ') (hσ1 : σ' ≤ 1 / 10)
    (hy : Near (η * σ') y σ') (hη : η ≤ 101 / 100) (hη0 : 1 / 2 ^ 21 ≤ η) (hμ : Sm 3 μ m 96)
    (hn : 1 ≤ n) (hn1 : n ≤ 128) (hT : Near (7206 * n / 2 ^ 50) T S) (hS : |S| ≤ n) :
    Near (6 * n * η) (Flt.mulAdd (Flt.mulAdd (Flt.powi (newDeviation x y V) 2) T μ) (173.7178 : FP E) (1500.0 : FP E))
      (glicko2Scale * (m + glicko2NewPhi φ σ' v ^ 2 * S) + 1500) := by
  have hφ0 := hx.2.pos
  have hv0 := hV.2.pos
  have hyl := abs_le.1 hy.2
  have hm : η * σ' ≤ 101 / 100 * σ' := mul_le_mul_of_nonneg_right hη hσ.le
  have hb : |y.toR| ≤ 1 := by rw [abs_le]; constructor <;> linarith
  have hN := newDeviation_ap L P hx hy.1 (hb.trans (by norm_num)) hV
  have hA := hN.sq L (by norm_num) (by norm_num)
  have hle := newPhi_sq_le hφ0 hv0 y.toR
  have hA0 := hA.2.pos
  have hA35 : glicko2NewPhi φ y.toR v ^ 2 ≤ 35 := by
    have : y.toR ^ 2 ≤ 1 := by rw [← sq_abs]; exact pow_le_one₀ (abs_nonneg _) hb
    linarith
  have nA : Near (372000 / 2 ^ 50) (Flt.powi (newDeviation x y V) 2) (glicko2NewPhi φ y.toR v ^ 2) := by
    refine (hA.1.near hA0.le).mono ?_
    generalize glicko2NewPhi φ y.toR v ^ 2 = z at *
    norm_num at *
    linarith
  have hd := newPhi_sq_diff' hφ0 hv0 y.toR σ'
  have hq := sq_vol_diff hy.2 hη hσ
  have hη' : 0 ≤ η := le_trans (by positivity) hη0
  have hd2 : |glicko2NewPhi φ y.toR v ^ 2 * S - glicko2NewPhi φ σ' v ^ 2 * S| ≤ 302 / 10000 * (n * η) := by
    rw [← sub_mul, abs_mul]
    have h1 : 302 / 100 * η * σ' * σ' ≤ 302 / 100 * η * (1 / 10) * (1 / 10) := by gcongr
    have h3 := hd.trans (hq.trans h1)
    calc _ ≤ 302 / 100 * η * (1 / 10) * (1 / 10) * n := mul_le_mul h3 hS (abs_nonneg _) (by positivity)
      _ = _ := by ring
  have hAw : |glicko2NewPhi φ y.toR v ^ 2 * S| ≤ 35 * n := by
    rw [abs_mul, abs_of_pos hA0]
    exact mul_le_mul hA35 hS (abs_nonneg _) (by norm_num)
  have hs1 : |glicko2NewPhi φ y.toR v ^ 2 * S + m| ≤ 35 * n + 96 :=
    (abs_add_le _ _).trans (add_le_add hAw hμ.2)
  have herr : 372000 / 2 ^ 50 * |S| + |glicko2NewPhi φ y.toR v ^ 2| * (7206 * n / 2 ^ 50)
      + 372000 / 2 ^ 50 * (7206 * n / 2 ^ 50) + 3 / 2 ^ 50 * 96 ≤ 625000 / 2 ^ 50 * n := by
    rw [abs_of_pos hA0]
    have : glicko2NewPhi φ y.toR v ^ 2 * (7206 * n / 2 ^ 50) ≤ 35 * (7206 * n / 2 ^ 50) :=
      mul_le_mul_of_nonneg_right hA35 (by positivity)
    generalize glicko2NewPhi φ y.toR v ^ 2 * (7206 * n / 2 ^ 50) = z at *
    generalize |S| = u at *
    norm_num at *
    linarith
  have n2 := (near_mulAdd nA hT hμ.1 (M := 4600) ((add_le_add hs1 herr).trans (by norm_num; linarith)) (by norm_num)
    (le_huge 13 (by norm_num) (by norm_num))).mono (δ := 628000 / 2 ^ 50 * n)
      ((add_le_add_left herr _).trans (by norm_num; linarith))
  have hsc : Near (174 / 2 ^ 50) (173.7178 : FP E) glicko2Scale := by
    have := (scale_ap (E := E)).1.near (scale_ap (E := E)).2.pos.le
    refine this.mono ?_
    rw [scale_eq]; norm_num
  have h1500 := near_of_in (lit_in (E := E) (m := 15000) (s := true) (e := 1) (v := 1500) (by norm_num)
      (SRep.ofNat 1500 (by norm_num)))
  have hsa : |glicko2Scale| ≤ 174 := by rw [scale_eq]; norm_num
  have hs2 : |(glicko2NewPhi φ y.toR v ^ 2 * S + m) * glicko2Scale + 1500| ≤ 800000 := by
    refine (abs_add_le _ _).trans ?_
    rw [abs_mul]
    have := mul_le_mul (hs1.trans (by linarith : _ ≤ (4576 : ℝ))) hsa (abs_nonneg _) (by norm_num)
    refine (add_le_add_left this _).trans (by norm_num)
  have herr2 : 628000 / 2 ^ 50 * n * |glicko2Scale| + |glicko2NewPhi φ y.toR v ^ 2 * S + m| * (174 / 2 ^ 50)
      + 628000 / 2 ^ 50 * n * (174 / 2 ^ 50) + 0 ≤ 110000000 / 2 ^ 50 * n := by
    have : 628000 / 2 ^ 50 * n * |glicko2Scale| ≤ 628000 / 2 ^ 50 * n * 174 :=
      mul_le_mul_of_nonneg_left hsa (by positivity)
    generalize 628000 / 2 ^ 50 * n * |glicko2Scale| = u at *
    generalize |glicko2NewPhi φ y.toR v ^ 2 * S + m| = z at *
    norm_num at *
    linarith
  have n3 := (near_mulAdd n2 hsc h1500 (M := 810000) ((add_le_add hs2 herr2).trans (by norm_num; linarith)) (by norm_num)
    (le_huge 20 (by norm_num) (by norm_num))).mono (δ := 1 / 2 ^ 23 * n)
      ((add_le_add_left herr2 _).trans (by norm_num; linarith))
  refine ⟨n3.1, ?_⟩
  have hn3 := n3.2
  have hnη : n * (1 / 2 ^ 21) ≤ n * η := mul_le_mul_of_nonneg_left hη0 (by linarith)
  rw [mul_assoc 6 n η]
  generalize (Flt.mulAdd (Flt.mulAdd (Flt.powi (newDeviation x y V) 2) T μ) (173.7178 : FP E) (1500.0 : FP E)).toR = R at *
  generalize glicko2NewPhi φ y.toR v ^ 2 * S = z₁ at *
  generalize glicko2NewPhi φ σ' v ^ 2 * S = z₂ at *
  rw [scale_eq] at hn3 ⊢
  have a1 := abs_le.1 hn3
  have a2 := abs_le.1 hd2
  clear hn3 hd2
  generalize n * η = w at *
  rw [abs_le]
  constructor <;> norm_num at * <;> linarith

end

/-! ### The whole period -/

theorem period_points (o : Outcomes) : pointsR o = points o := by cases o <;> rfl

theorem sum_affine {β : Type} (l : List β) (q : β → ℝ) :
    (l.map fun r => (28500 * q r + 16) / 2 ^ 50).sum = (28500 * (l.map q).sum + 16 * l.length) / 2 ^ 50 := by
  induction l with
  | nil => simp
  | cons r l ih => simp only [List.map_cons, List.sum_cons, List.length_cons, ih]; push_cast; ring

theorem sum_between {β : Type} (l : List β) (q : β → ℝ) {lo hi : ℝ} (h : ∀ r ∈ l, lo ≤ q r ∧ q r ≤ hi) :
    l.length * lo ≤ (l.map q).sum ∧ (l.map q).sum ≤ l.length * hi := by
  induction l with
  | nil => simp
  | cons r l ih =>
    obtain ⟨i1, i2⟩ := ih fun r hr => h r (List.mem_cons_of_mem _ hr)
    obtain ⟨h1, h2⟩ := h r (by simp)
    simp only [List.map_cons, List.sum_cons, List.length_cons]
    push_cast
    constructor <;> linarith

/-- The sums. -/
theorem period_sums (L : E.Lib) (A : E.Accurate) {a : Glicko2Rating (FP E)}
    {rs : List (Glicko2Rating (FP E) × Outcomes)} (ha : Glicko2Usual a) (H : Glicko2Period a rs) {V T : FP E} {v S : ℝ}
    (e1 : V = Flt.recip (Flt.sum (rs.map fun r =>
      let g := gValue (r.1.deviation / (173.7178 : FP E))
      let e := eValue ((a.rating - (1500.0 : FP E)) / (173.7178 : FP E)) ((r.1.rating - (1500.0 : FP E)) / (173.7178 : FP E)) g
      Flt.powi g 2 * e * ((1.0 : FP E) - e))))
    (e2 : T = Flt.sum (rs.map fun r =>
      let g := gValue (r.1.deviation / (173.7178 : FP E))
      let e := eValue ((a.rating - (1500.0 : FP E)) / (173.7178 : FP E)) ((r.1.rating - (1500.0 : FP E)) / (173.7178 : FP E)) g
      let s : FP E := r.2.toChessPoints
      g * (s - e)))
    (e3 : v = glicko2V (glicko2Mu a.rating.toR) (glicko2Games rs))
    (e4 : S = glicko2Gain (glicko2Mu a.rating.toR) (glicko2Games rs)) :
    Ap 5262 110 V v ∧ 1 / 32 ≤ v ∧ v ≤ 15700 ∧ (rs.length : ℝ) * v ≤ 15700 ∧
      Near ((28500 / v + 81 * rs.length) / 2 ^ 50) T S ∧ Near (7206 * rs.length / 2 ^ 50) T S ∧ |S| ≤ rs.length := by
  have hn : 1 ≤ (rs.length : ℝ) := by
    have := List.length_pos_iff.2 H.nonempty
    exact_mod_cast this
  have hn1 : (rs.length : ℝ) ≤ 128 := by exact_mod_cast H.length
  have key := fun r hr => period_game L A ha (H.usual r hr) (H.near r hr)
    (s := points r.2) (p := (r.2.toChessPoints : FP E)) (by
      have := points_in (E := E) r.2
      rwa [period_points] at this) (by cases r.2 <;> norm_num [points]) (by cases r.2 <;> norm_num [points]) rfl rfl rfl rfl
  have hq := rel_sum rs (fun r =>
      let g := gValue (r.1.deviation / (173.7178 : FP E))
      let e := eValue ((a.rating - (1500.0 : FP E)) / (173.7178 : FP E)) ((r.1.rating - (1500.0 : FP E)) / (173.7178 : FP E)) g
      Flt.powi g 2 * e * ((1.0 : FP E) - e)) (fun r => glicko2G (glicko2Phi r.1.deviation.toR) ^ 2 *
        glicko2E (glicko2Mu a.rating.toR) (glicko2Mu r.1.rating.toR) (glicko2Phi r.1.deviation.toR) *
        (1 - glicko2E (glicko2Mu a.rating.toR) (glicko2Mu r.1.rating.toR) (glicko2Phi r.1.deviation.toR)))
    (k := 5131) (by norm_num) (by norm_num) (H.length.trans (by norm_num)) fun r hr => by
      obtain ⟨k1, k2, k3, -⟩ := key r hr
      refine ⟨k1, le_trans ?_ k2, k3.trans (by norm_num)⟩
      exact le_trans (one_div_le_one_div_of_le (by positivity) (pow_le_pow_right₀ (by norm_num) (by norm_num : 14 ≤ 200)))
        (by norm_num)
  have ht := near_sum_var rs (fun r =>
      let g := gValue (r.1.deviation / (173.7178 : FP E))
      let e := eValue ((a.rating - (1500.0 : FP E)) / (173.7178 : FP E)) ((r.1.rating - (1500.0 : FP E)) / (173.7178 : FP E)) g
      let s : FP E := r.2.toChessPoints
      g * (s - e)) (fun r => glicko2G (glicko2Phi r.1.deviation.toR) * (points r.2 -
        glicko2E (glicko2Mu a.rating.toR) (glicko2Mu r.1.rating.toR) (glicko2Phi r.1.deviation.toR)))
      (fun r => (28500 * (glicko2G (glicko2Phi r.1.deviation.toR) ^ 2 *
        glicko2E (glicko2Mu a.rating.toR) (glicko2Mu r.1.rating.toR) (glicko2Phi r.1.deviation.toR) *
        (1 - glicko2E (glicko2Mu a.rating.toR) (glicko2Mu r.1.rating.toR) (glicko2Phi r.1.deviation.toR))) + 16) / 2 ^ 50)
      H.length fun r hr => by
      obtain ⟨k1, k2, k3, k4, k5⟩ := key r hr
      exact ⟨k4, k5, by norm_num at *; linarith⟩
  have hb := sum_between rs (fun r => glicko2G (glicko2Phi r.1.deviation.toR) ^ 2 *
        glicko2E (glicko2Mu a.rating.toR) (glicko2Mu r.1.rating.toR) (glicko2Phi r.1.deviation.toR) *
        (1 - glicko2E (glicko2Mu a.rating.toR) (glicko2Mu r.1.rating.toR) (glicko2Phi r.1.deviation.toR)))
      (lo := 1 / 15700) (hi := 1 / 4) fun r hr => ⟨(key r hr).2.1, (key r hr).2.2.1⟩
  rw [sum_affine] at ht
  rw [← e2] at ht
  have eS : S = (rs.map fun r => glicko2G (glicko2Phi r.1.deviation.toR) * (points r.2 -
        glicko2E (glicko2Mu a.rating.toR) (glicko2Mu r.1.rating.toR) (glicko2Phi r.1.deviation.toR))).sum := by
    rw [e4, glicko2Gain, glicko2Games, List.map_map]; rfl
  rw [← eS] at ht
  have ev : v = 1 / (rs.map fun r => glicko2G (glicko2Phi r.1.deviation.toR) ^ 2 *
        glicko2E (glicko2Mu a.rating.toR) (glicko2Mu r.1.rating.toR) (glicko2Phi r.1.deviation.toR) *
        (1 - glicko2E (glicko2Mu a.rating.toR) (glicko2Mu r.1.rating.toR) (glicko2Phi r.1.deviation.toR))).sum := by
    rw [e3, glicko2V, glicko2Games, List.map_map]; rfl
  generalize (Flt.sum (rs.map fun r =>
      let g := gValue (r.1.deviation / (173.7178 : FP E))
      let e := eValue ((a.rating - (1500.0 : FP E)) / (173.7178 : FP E)) ((r.1.rating - (1500.0 : FP E)) / (173.7178 : FP E)) g
      Flt.powi g 2 * e * ((1.0 : FP E) - e))) = V₀ at *
  generalize (rs.map (fun r => glicko2G (glicko2Phi r.1.deviation.toR) ^ 2 *
        glicko2E (glicko2Mu a.rating.toR) (glicko2Mu r.1.rating.toR) (glicko2Phi r.1.deviation.toR) *
        (1 - glicko2E (glicko2Mu a.rating.toR) (glicko2Mu r.1.rating.toR) (glicko2Phi r.1.deviation.toR)))).sum = Q at *
  clear key e2 e3 e4 eS
  generalize (rs.length : ℝ) = n at *
  have hQ0 : 0 < Q := by linarith [hb.1]
  have aV : Ap 5259 20 V₀ Q := by
    refine ⟨(Rel.of_near hQ0 hq).mono (by linarith), ?_, ?_⟩
    · norm_num; linarith [hb.1]
    · norm_num; linarith [hb.2]
  have aV' := aV.recip (by norm_num) (by norm_num)
  rw [← ev, ← e1] at aV'
  have ev' : 1 / v = Q := by rw [ev, one_div_one_div]
  have hv0 : 0 < v := aV'.2.pos
  have hvn : n * v ≤ 15700 := by
    rw [ev, mul_one_div, div_le_iff₀ hQ0]; linarith [hb.1]
  have hT1 := ht.1.mono (δ := (28500 / v + 81 * n) / 2 ^ 50) (by
    rw [show 28500 / v = 28500 * (1 / v) by ring, ev']
    apply le_of_eq; ring)
  refine ⟨aV'.mono (by norm_num) (by norm_num), ?_, ?_, hvn, hT1, hT1.mono ?_, ht.2⟩
  · rw [ev, le_div_iff₀ hQ0]; linarith [hb.2]
  · exact le_trans (le_mul_of_one_le_left hv0.le hn) hvn
  · rw [show 28500 / v = 28500 * (1 / v) by ring, ev']
    apply div_le_div_of_nonneg_right _ (by positivity)
    linarith [hb.2]

theorem period_calm {a : Glicko2Rating (FP E)} {τ Δ v : ℝ} (hσ : 0 < a.volatility.toR) (v0 : 0 < v)
    (h : Glicko2Calm a τ Δ v) :
    Calm ((glicko2Phi a.deviation.toR ^ 2 + v) / (1001 / 1000 * a.volatility.toR ^ 2)) Δ (glicko2Phi a.deviation.toR) v
      a.volatility.toR τ := by
  refine ⟨?_, ?_, h.delta, h.both⟩
  · rw [le_div_iff₀ (by positivity)]
    have := h.volatility
    have : 0 < a.volatility.toR ^ 2 := by positivity
    linarith
  · apply le_of_eq; field_simp

theorem period_eta {K t : ℝ} (hK : 50 ≤ K) : t + 1 / 2 ^ 31 + 1 / K / 2 ^ 21 ≤ t + 1 / 2 ^ 26 := by
  have : 1 / K ≤ 1 / 50 := one_div_le_one_div_of_le (by norm_num) hK
  generalize 1 / K = w at *
  norm_num
  linarith

/-- The whole period. -/
theorem period_returns (L : E.Lib) (A : E.Accurate) (P : E.Precise) (S : E.Scales) (W : E.LogWide)
    {a : Glicko2Rating (FP E)} {rs : List (Glicko2Rating (FP E) × Outcomes)} {c : Glicko2Config (FP E)}
    (ha : Glicko2Usual a) (hc : Glicko2Tuned c) (H : Glicko2Period a rs)
    (C : Glicko2Calm a c.tau.toR (glicko2Delta (glicko2Mu a.rating.toR) (glicko2Games rs))
      (glicko2V (glicko2Mu a.rating.toR) (glicko2Games rs))) :
    ∃ (p' : Glicko2Rating (FP E)) (r' rd' σ' : ℝ), glicko2RatingPeriod a rs c = some p' ∧
      Glicko2Exact a.rating.toR a.deviation.toR a.volatility.toR c.tau.toR (glicko2Games rs) r' rd' σ' ∧
      Glicko2PeriodClose rs.length (c.convergenceTolerance.toR + 1 / 2 ^ 26 + 11 / 10 * (a.volatility.toR ^ 2 /
        (glicko2Phi a.deviation.toR ^ 2 + glicko2V (glicko2Mu a.rating.toR) (glicko2Games rs))) ^ 2) p' r' rd' σ' ∧
      ((glicko2Phi a.deviation.toR ^ 2 + glicko2V (glicko2Mu a.rating.toR) (glicko2Games rs)) / 2 ^ 24 <
          |glicko2Delta (glicko2Mu a.rating.toR) (glicko2Games rs) ^ 2
            - glicko2Phi a.deviation.toR ^ 2 - glicko2V (glicko2Mu a.rating.toR) (glicko2Games rs)| →
        Glicko2PeriodClose rs.length (c.convergenceTolerance.toR + 1 / 2 ^ 26) p' r' rd' σ') := by
  have hn : 1 ≤ (rs.length : ℝ) := by
    have := List.length_pos_iff.2 H.nonempty
    exact_mod_cast this
  have hn1 : (rs.length : ℝ) ≤ 128 := by exact_mod_cast H.length
  have aφ := phi_ap ha.deviation
  have a34 := (phi_le (le_trans (by norm_num) ha.deviation.2.1) ha.deviation.2.2).1
  have hμ := mu_sm ha.rating
  obtain ⟨hV, v1, v2, nv, t1, t2, hS⟩ := period_sums L A ha H rfl rfl rfl rfl
  have hσ := ha.volatility
  have hσ0 : 0 < a.volatility.toR := lt_of_lt_of_le (by norm_num) hσ.2.1
  have v0 := hV.2.pos
  have hne : rs.isEmpty = false := by simpa using H.nonempty
  have C' := period_calm hσ0 v0 C
  have hΔ : glicko2Delta (glicko2Mu a.rating.toR) (glicko2Games rs) ^ 2 ≤
      1300 * (glicko2Phi a.deviation.toR ^ 2 + glicko2V (glicko2Mu a.rating.toR) (glicko2Games rs)) := by
    have h1 : (1 / 10) ^ 2 ≤ c.tau.toR ^ 2 := pow_le_pow_left₀ (by norm_num) hc.tau.2.1 2
    have h2 := mul_le_mul_of_nonneg_right h1 (_root_.sq_nonneg (glicko2Delta (glicko2Mu a.rating.toR) (glicko2Games rs)))
    have h3 := C.delta
    norm_num at h2
    linarith
  have N := period_volNear L aφ a34 hV v1 v2 hn hn1 nv t1 hΔ
  obtain ⟨r, y, h0, hr, hy, n1, n2⟩ := N.returns L A S W ⟨hσ.1, hσ.2.1, hσ.2.2.trans (by norm_num)⟩ hc.tau C'
    hc.tolerance
  have hE := Real.exp_pos (r / 2)
  obtain ⟨hE1, hEl⟩ := vol_small hσ0 hσ.2.2 hr
  have hK := C'.K0
  have eK : 1 / ((glicko2Phi a.deviation.toR ^ 2 + glicko2V (glicko2Mu a.rating.toR) (glicko2Games rs)) /
      (1001 / 1000 * a.volatility.toR ^ 2)) ^ 2 ≤ 11 / 10 * (a.volatility.toR ^ 2 /
        (glicko2Phi a.deviation.toR ^ 2 + glicko2V (glicko2Mu a.rating.toR) (glicko2Games rs))) ^ 2 := by
    have hD : 0 < glicko2Phi a.deviation.toR ^ 2 + glicko2V (glicko2Mu a.rating.toR) (glicko2Games rs) := by positivity
    generalize glicko2Phi a.deviation.toR ^ 2 + glicko2V (glicko2Mu a.rating.toR) (glicko2Games rs) = D at *
    have : 1 / (D / (1001 / 1000 * a.volatility.toR ^ 2)) ^ 2 = (1001 / 1000) ^ 2 * (a.volatility.toR ^ 2 / D) ^ 2 := by
      field_simp
    rw [this]
    have := _root_.sq_nonneg (a.volatility.toR ^ 2 / D)
    linarith
  have eK2 : 11 / 10 * (a.volatility.toR ^ 2 /
        (glicko2Phi a.deviation.toR ^ 2 + glicko2V (glicko2Mu a.rating.toR) (glicko2Games rs))) ^ 2 ≤ 1 / 1000 := by
    have hD : 0 < glicko2Phi a.deviation.toR ^ 2 + glicko2V (glicko2Mu a.rating.toR) (glicko2Games rs) := by positivity
    have h1 := C.volatility
    generalize glicko2Phi a.deviation.toR ^ 2 + glicko2V (glicko2Mu a.rating.toR) (glicko2Games rs) = D at *
    have h2 : a.volatility.toR ^ 2 / D ≤ 1 / 51 := by rw [div_le_iff₀ hD]; linarith
    have h3 : (a.volatility.toR ^ 2 / D) ^ 2 ≤ (1 / 51) ^ 2 := pow_le_pow_left₀ (by positivity) h2 2
    norm_num at *
    linarith
  have eη := period_eta (t := c.convergenceTolerance.toR) hK
  have tl := hc.tolerance.2
  have fin : ∀ η, 1 / 2 ^ 21 ≤ η → η ≤ 101 / 100 → Near (η * Real.exp (r / 2)) y (Real.exp (r / 2)) → _ :=
    fun η h1 h2 h3 => And.intro
      (period_rating L P aφ a34 (hV.mono (by norm_num) le_rfl) hE hE1 h3 h2 h1 hμ hn hn1 t2 hS)
      (deviation_close L P aφ a34 (hV.mono (by norm_num) le_rfl) hE hE1 h3 h2 h1)
  refine ⟨_, _, _, Real.exp (r / 2), by
    simp only [glicko2RatingPeriod, hne, Bool.false_eq_true, if_false]
    exact (by rw [hy]; rfl), ⟨hE, by rw [hEl]; exact h0, rfl, rfl⟩, ?_, fun h => ?_⟩
  · have h3 := n1.mono (δ := (c.convergenceTolerance.toR + 1 / 2 ^ 26 + 11 / 10 * (a.volatility.toR ^ 2 /
        (glicko2Phi a.deviation.toR ^ 2 + glicko2V (glicko2Mu a.rating.toR) (glicko2Games rs))) ^ 2) * Real.exp (r / 2))
        (mul_le_mul_of_nonneg_right (by linarith) hE.le)
    have h4 : 0 ≤ 11 / 10 * (a.volatility.toR ^ 2 /
        (glicko2Phi a.deviation.toR ^ 2 + glicko2V (glicko2Mu a.rating.toR) (glicko2Games rs))) ^ 2 := by positivity
    obtain ⟨f1, f2⟩ := fin _ (by norm_num at *; linarith) (by norm_num at *; linarith) h3
    exact ⟨f1, f2, h3⟩
  · have h3 := (n2 h).mono (mul_le_mul_of_nonneg_right eη hE.le)
    obtain ⟨f1, f2⟩ := fin _ (by norm_num at *; linarith) (by norm_num at *; linarith) h3
    exact ⟨f1, f2, h3⟩

end Glicko2
end Skillratings
