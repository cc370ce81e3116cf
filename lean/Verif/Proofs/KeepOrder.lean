import Mathlib.Analysis.Calculus.MeanValue
import Mathlib.Analysis.Calculus.Deriv.MeanValue
import Mathlib.Analysis.SpecialFunctions.Pow.Deriv
import Mathlib.Analysis.SpecialFunctions.Log.Deriv
import Mathlib.Analysis.SpecialFunctions.Sigmoid
import Verif.Proofs.Glicko
import Verif.Proofs.WlStable
import Verif.Proofs.Egf
import Verif.Props.Uscf
/-
Helper lemmas for C147: the new rating as a function of the old one.
-/
namespace Skillratings
open Real Spec

/-- A logistic rule with a small factor. -/
theorem logistic_keeps {k α a a' b s : ℝ} (hα : 0 ≤ α) (hk : 0 ≤ k) (hkα : k * α < 4) (h : a < a') :
    k * (s - sigmoid (α * (a - b))) + a < k * (s - sigmoid (α * (a' - b))) + a' := by
  have h1 := WengLin.sigmoid_lip (α * (a' - b)) (α * (a - b))
  have e : α * (a' - b) - α * (a - b) = α * (a' - a) := by ring
  rw [e, abs_of_nonneg (mul_nonneg hα (sub_nonneg.2 h.le))] at h1
  have h2 := mul_le_mul_of_nonneg_left ((le_abs_self _).trans h1) hk
  have h3 := mul_lt_mul_of_pos_right hkα (sub_pos.2 h)
  nlinarith

theorem hasDerivAt_sig (x : ℝ) : HasDerivAt sigmoid (sigmoid x * (1 - sigmoid x)) x :=
  Real.hasDerivAt_sigmoid x

/-! ### Glicko -/

/-- The decisive inequality: `a` is the precision of the rating before the game. -/
theorem glicko_poly {a E s : ℝ} (ha : 0.246 ≤ a) (h0 : 0 < E) (h1 : E < 1) (hs0 : 0 ≤ s) (hs1 : s ≤ 1) :
    (s - E) * (1 - 2 * E) * (E * (1 - E)) < a * (a + E * (1 - E)) := by
  -- the case of a loss follows from the case of a win with `1 - E`
  have key : ∀ x : ℝ, 0 < x → x < 1 →
      (1 - x) * (1 - 2 * x) * (x * (1 - x)) < 0.246 * (0.246 + x * (1 - x)) := by
    intro x hx0 hx1
    rcases le_or_gt (1 / 2) x with h | h
    · have h2 : (1 - x) * (1 - 2 * x) * (x * (1 - x)) ≤ 0 := by
        have := mul_nonneg (mul_nonneg hx0.le (sq_nonneg (1 - x))) (by linarith : 0 ≤ 2 * x - 1)
        nlinarith
      have := mul_pos hx0 (sub_pos.2 hx1)
      nlinarith
    · nlinarith [sq_nonneg (x - 0.15), sq_nonneg (x * (x - 0.15)), sq_nonneg (x ^ 2 - 0.15 * x),
        mul_pos hx0 (sub_pos.2 h), mul_nonneg hx0.le (sq_nonneg (x - 0.15)),
        mul_nonneg (sub_pos.2 h).le (sq_nonneg (x - 0.15)), mul_pos hx0 (sub_pos.2 hx1)]
  have k1 := key E h0 h1
  have k2 := key (1 - E) (by linarith) (by linarith)
  have hv := mul_pos h0 (sub_pos.2 h1)
  have e : (s - E) * (1 - 2 * E) * (E * (1 - E))
      = s * ((1 - E) * (1 - 2 * E) * (E * (1 - E)))
        + (1 - s) * ((1 - (1 - E)) * (1 - 2 * (1 - E)) * ((1 - E) * (1 - (1 - E)))) := by ring
  have k2' : (1 - (1 - E)) * (1 - 2 * (1 - E)) * ((1 - E) * (1 - (1 - E)))
      < 0.246 * (0.246 + E * (1 - E)) := by
    refine k2.trans_eq ?_; ring
  have m : s * ((1 - E) * (1 - 2 * E) * (E * (1 - E)))
      + (1 - s) * ((1 - (1 - E)) * (1 - 2 * (1 - E)) * ((1 - E) * (1 - (1 - E))))
      < 0.246 * (0.246 + E * (1 - E)) := by
    rcases hs0.eq_or_lt with h | h
    · rw [← h]; linarith
    · have := mul_lt_mul_of_pos_left k1 h
      have := mul_le_mul_of_nonneg_left k2'.le (sub_nonneg.2 hs1)
      nlinarith
  rw [e]
  refine m.trans_le ?_
  nlinarith

/-- The rating after one game, on the natural scale. -/
theorem glicko_strictMono {a s : ℝ} (ha : 0.246 ≤ a) (hs0 : 0 ≤ s) (hs1 : s ≤ 1) :
    StrictMono fun x => x + (s - sigmoid x) / (a + sigmoid x * (1 - sigmoid x)) := by
  have hpos : ∀ x, 0 < a + sigmoid x * (1 - sigmoid x) := fun x => by
    have := mul_pos (sigmoid_pos x) (sub_pos.2 (sigmoid_lt_one x))
    linarith
  have hder : ∀ x, HasDerivAt (fun x => x + (s - sigmoid x) / (a + sigmoid x * (1 - sigmoid x)))
      (1 + ((-(sigmoid x * (1 - sigmoid x))) * (a + sigmoid x * (1 - sigmoid x))
        - (s - sigmoid x) * (sigmoid x * (1 - sigmoid x) * (1 - sigmoid x)
          + sigmoid x * (-(sigmoid x * (1 - sigmoid x)))))
        / (a + sigmoid x * (1 - sigmoid x)) ^ 2) x := by
    intro x
    have h1 := hasDerivAt_sig x
    have h2 : HasDerivAt (fun x => s - sigmoid x) (-(sigmoid x * (1 - sigmoid x))) x := h1.const_sub s
    have h3 : HasDerivAt (fun x => 1 - sigmoid x) (-(sigmoid x * (1 - sigmoid x))) x := h1.const_sub 1
    have h4 := (h1.mul h3).const_add a
    exact (hasDerivAt_id x).add (h2.div h4 (hpos x).ne')
  refine strictMono_of_deriv_pos fun x => ?_
  rw [(hder x).deriv]
  have hp := glicko_poly (s := s) ha (sigmoid_pos x) (sigmoid_lt_one x) hs0 hs1
  have h2 := pow_pos (hpos x) 2
  generalize sigmoid x = E at *
  rw [← sub_neg_eq_add, sub_pos, ← neg_div, div_lt_one h2]
  nlinarith

namespace Glicko

theorem onset_le (rd c : ℝ) : glickoOnset rd c ≤ 350 := min_le_right _ _

/-- The rating after a game is strictly increasing in the rating before it. -/
theorem rated_keeps {r r' rd rj rdj s c : ℝ} (h : r < r') (hrd : 0 < rd) (hs0 : 0 ≤ s) (hs1 : s ≤ 1) :
    (rated r rd rj rdj s c).rating < (rated r' rd rj rdj s c).rating := by
  have hq := glickoQ_pos
  have hg := glickoG_pos rdj
  have hg1 := glickoG_le_one rdj
  have ho := glickoOnset_pos c hrd
  have ho1 := onset_le rd c
  set O := glickoOnset rd c with hO
  set g := glickoG rdj with hgdef
  set a := 1 / (glickoQ * g * O) ^ 2 with ha
  have hx : 0 < glickoQ * g * O := by positivity
  have ha1 : 0.246 ≤ a := by
    rw [ha, le_div_iff₀ (by positivity)]
    have h1 : glickoQ * g * O ≤ 2.0148 := by
      have : glickoQ ≤ 2.3025850934 / 400 := by
        rw [glickoQ]; exact div_le_div_of_nonneg_right log_ten_lt.le (by norm_num)
      calc glickoQ * g * O ≤ 2.3025850934 / 400 * 1 * 350 := by gcongr
        _ ≤ 2.0148 := by norm_num
    nlinarith
  have form : ∀ x, (rated x rd rj rdj s c).rating = rj + 1 / (glickoQ * g)
      * (glickoQ * g * (x - rj) + (s - sigmoid (glickoQ * g * (x - rj)))
        / (a + sigmoid (glickoQ * g * (x - rj)) * (1 - sigmoid (glickoQ * g * (x - rj))))) := by
    intro x
    have hE : glickoE x rj rdj = sigmoid (glickoQ * g * (x - rj)) := by
      rw [glickoE_eq, ← mul_assoc]
    have hv := mul_pos (sigmoid_pos (glickoQ * g * (x - rj)))
      (sub_pos.2 (sigmoid_lt_one (glickoQ * g * (x - rj))))
    simp only [rated, posterior, glickoInfo, hE, ← hO, ← hgdef, ha]
    generalize sigmoid (glickoQ * g * (x - rj)) = E at *
    have h1 : 0 < 1 / O ^ 2 + glickoQ ^ 2 * g ^ 2 * E * (1 - E) := by
      have : 0 < glickoQ ^ 2 * g ^ 2 * (E * (1 - E)) := by positivity
      have : 0 < 1 / O ^ 2 := by positivity
      nlinarith
    have h2 : 1 / (glickoQ * g * O) ^ 2 + E * (1 - E)
        = (1 / O ^ 2 + glickoQ ^ 2 * g ^ 2 * E * (1 - E)) / (glickoQ * g) ^ 2 := by
      field_simp
    rw [h2]
    field_simp
    ring
  have hm := glicko_strictMono ha1 hs0 hs1
    (show glickoQ * g * (r - rj) < glickoQ * g * (r' - rj) from
      mul_lt_mul_of_pos_left (by linarith) (by positivity))
  rw [form, form]
  have : 0 < 1 / (glickoQ * g) := by positivity
  have := mul_lt_mul_of_pos_left hm this
  dsimp only at this
  linarith

end Glicko

/-! ### EGF -/

namespace Egf

theorem rpow_bound {y : ℝ} (h0 : 0 < y) (h1 : y ≤ 21) : y ^ (3 / 5 : ℝ) ≤ 6.22 := by
  have h2 : y ^ (3 / 5 : ℝ) ≤ (21 : ℝ) ^ (3 / 5 : ℝ) := rpow_le_rpow h0.le h1 (by norm_num)
  refine h2.trans ?_
  have h3 : ((21 : ℝ) ^ (3 / 5 : ℝ)) ^ 5 ≤ 6.22 ^ 5 := by
    rw [← rpow_natCast, ← rpow_mul (by norm_num)]
    norm_num
  exact le_of_pow_le_pow_left₀ (by norm_num) (by norm_num) h3

/-- The rating after a game before the floor is applied, for a player who gets `t` points of
handicap. -/
theorem raw_keeps {r r' s t B : ℝ} (h : r < r') (hr : -900 ≤ r) (hr' : r' < 3300)
    (ht' : r' + t < 3300) (ht : t ≤ 0 ∨ r' + t ≤ 3000) (hs0 : 0 ≤ s) (hs1 : s ≤ 1) :
    r + egfCon r * (s - sigmoid (egfBeta (r + t) - B)) + egfBonus r
      < r' + egfCon r' * (s - sigmoid (egfBeta (r' + t) - B)) + egfBonus r' := by
  have hder : ∀ x ∈ Set.Icc r r', HasDerivAt
      (fun x => x + egfCon x * (s - sigmoid (egfBeta (x + t) - B)) + egfBonus x)
      (1 + ((-1 / 200) * (8 / 5) * ((3300 - x) / 200) ^ (8 / 5 - 1 : ℝ)
          * (s - sigmoid (egfBeta (x + t) - B))
        + egfCon x * (-(sigmoid (egfBeta (x + t) - B) * (1 - sigmoid (egfBeta (x + t) - B))
          * (-7 * (-1 / (3300 - (x + t)))))))
        + exp ((2300 - x) / 80) * (-1 / 80) / (1 + exp ((2300 - x) / 80)) / 5) x := by
    rintro x ⟨hx1, hx2⟩
    have hu : 0 < (3300 - x) / 200 := by
      have : 0 < 3300 - x := by linarith
      positivity
    have hv : 0 < 3300 - (x + t) := by linarith
    have d1 : HasDerivAt (fun x : ℝ => (3300 - x) / 200) (-1 / 200) x :=
      ((hasDerivAt_id x).const_sub 3300).div_const 200
    have d2 : HasDerivAt egfCon ((-1 / 200) * (8 / 5) * ((3300 - x) / 200) ^ (8 / 5 - 1 : ℝ)) x :=
      d1.rpow_const (p := 8 / 5) (Or.inl hu.ne')
    have d3 : HasDerivAt (fun x : ℝ => 3300 - (x + t)) (-1) x :=
      ((hasDerivAt_id x).add_const t).const_sub 3300
    have d4 : HasDerivAt (fun x : ℝ => egfBeta (x + t) - B) (-7 * (-1 / (3300 - (x + t)))) x :=
      ((d3.log hv.ne').const_mul (-7)).sub_const B
    have d5 : HasDerivAt (fun x => s - sigmoid (egfBeta (x + t) - B))
        (-(sigmoid (egfBeta (x + t) - B) * (1 - sigmoid (egfBeta (x + t) - B))
          * (-7 * (-1 / (3300 - (x + t)))))) x :=
      ((hasDerivAt_sig _).comp x d4).const_sub s
    have d6 : HasDerivAt (fun x : ℝ => (2300 - x) / 80) (-1 / 80) x :=
      ((hasDerivAt_id x).const_sub 2300).div_const 80
    have hpos : 0 < 1 + exp ((2300 - x) / 80) := by positivity
    have d7 : HasDerivAt egfBonus
        (exp ((2300 - x) / 80) * (-1 / 80) / (1 + exp ((2300 - x) / 80)) / 5) x :=
      ((d6.exp.const_add 1).log hpos.ne').div_const 5
    exact ((hasDerivAt_id x).add (d2.mul d5)).add d7
  refine strictMonoOn_of_deriv_pos (convex_Icc r r') (fun x hx => (hder x hx).continuousAt.continuousWithinAt)
    (fun x hx => ?_) (Set.left_mem_Icc.2 h.le) (Set.right_mem_Icc.2 h.le) h
  rw [interior_Icc] at hx
  obtain ⟨hx1, hx2⟩ := hx
  rw [(hder x ⟨hx1.le, hx2.le⟩).deriv]
  set y := (3300 - x) / 200 with hy
  have hy0 : 0 < y := by
    have : 0 < 3300 - x := by linarith
    positivity
  have hy1 : y ≤ 21 := by rw [hy, div_le_iff₀ (by norm_num)]; linarith
  have hp := rpow_bound hy0 hy1
  have hp0 : 0 < y ^ (3 / 5 : ℝ) := rpow_pos_of_pos hy0 _
  have e1 : y ^ (8 / 5 - 1 : ℝ) = y ^ (3 / 5 : ℝ) := by norm_num
  have e2 : egfCon x = y * y ^ (3 / 5 : ℝ) := by
    rw [egfCon, ← hy, show (8 / 5 : ℝ) = 1 + 3 / 5 by norm_num, rpow_add hy0, rpow_one]
  have hv : 0 < 3300 - (x + t) := by linarith
  have hE0 := sigmoid_pos (egfBeta (x + t) - B)
  have hE1 := sigmoid_lt_one (egfBeta (x + t) - B)
  have hb : -1 / 400 ≤ exp ((2300 - x) / 80) * (-1 / 80) / (1 + exp ((2300 - x) / 80)) / 5 := by
    have := exp_pos ((2300 - x) / 80)
    generalize exp ((2300 - x) / 80) = z at *
    rw [div_div, div_le_div_iff₀ (by norm_num) (by positivity)]
    nlinarith
  -- slope of the expected score
  have hc : y * y ^ (3 / 5 : ℝ) * (7 / (3300 - (x + t))) ≤ 3.06 := by
    rw [mul_div_assoc', div_le_iff₀ hv]
    rcases ht with ht | ht
    · have h1 : 200 * y ≤ 3300 - (x + t) := by rw [hy]; linarith
      have h2 := mul_le_mul_of_nonneg_left hp hy0.le
      nlinarith
    · have h1 : (300 : ℝ) ≤ 3300 - (x + t) := by linarith
      have h2 := mul_le_mul_of_nonneg_left hp hy0.le
      nlinarith
  rw [e1, e2]
  generalize sigmoid (egfBeta (x + t) - B) = E at *
  generalize y ^ (3 / 5 : ℝ) = p at *
  have e3 : -7 * (-1 / (3300 - (x + t))) = 7 / (3300 - (x + t)) := by ring
  rw [e3]
  have h5 : E * (1 - E) ≤ 1 / 4 := by nlinarith [sq_nonneg (E - 1 / 2)]
  have hc0 : 0 ≤ y * p * (7 / (3300 - (x + t))) := by positivity
  have h6 : y * p * (7 / (3300 - (x + t))) * (E * (1 - E)) ≤ 3.06 * (1 / 4) :=
    mul_le_mul hc h5 (by nlinarith) (by norm_num)
  have h7 : p * (s - E) ≤ 6.22 := by nlinarith
  have e4 : y * p * -(E * (1 - E) * (7 / (3300 - (x + t))))
      = -(y * p * (7 / (3300 - (x + t))) * (E * (1 - E))) := by ring
  rw [e4]
  linarith

end Egf

/-! ### USCF -/

namespace Uscf

theorem effective_inv {r : ℝ} {n : ℕ} (hn : 9 ≤ n) (hr : r < 2355) :
    1 / uscfEffective r n
      = max (√(0.662 + 0.00000739 * (2569 - r) ^ 2) / 50) (1 / min (n : ℝ) 50) := by
  have hD : 0 < √(0.662 + 0.00000739 * (2569 - r) ^ 2) := by
    apply Real.sqrt_pos.2; positivity
  have hn' : (0 : ℝ) < min (n : ℝ) 50 := lt_min (by exact_mod_cast (by omega : 0 < n)) (by norm_num)
  rw [uscfEffective, if_pos hr]
  rcases le_total (50 / √(0.662 + 0.00000739 * (2569 - r) ^ 2)) (min (n : ℝ) 50) with h | h
  · rw [min_eq_left h, max_eq_left, one_div_div]
    have h2 := one_div_le_one_div_of_le (by positivity) h
    rwa [one_div_div] at h2
  · rw [min_eq_right h, max_eq_right]
    have h2 := one_div_le_one_div_of_le hn' h
    rwa [one_div_div] at h2

/-- The inverse of the effective number of games falls slowly. -/
theorem effective_slope {r r' : ℝ} {n : ℕ} (hn : 9 ≤ n) (h : r ≤ r') (hr : r' < 2355) :
    0 ≤ 1 / uscfEffective r n - 1 / uscfEffective r' n ∧
    1 / uscfEffective r n - 1 / uscfEffective r' n ≤ 0.00006 * (r' - r) := by
  rw [effective_inv hn (h.trans_lt hr), effective_inv hn hr]
  set A := 0.662 + 0.00000739 * (2569 - r) ^ 2 with hA
  set A' := 0.662 + 0.00000739 * (2569 - r') ^ 2 with hA'
  have hA0 : 0 < A := by positivity
  have hA0' : 0 < A' := by positivity
  have hle : A' ≤ A := by
    rw [hA, hA']
    have : (2569 - r') ^ 2 ≤ (2569 - r) ^ 2 := by nlinarith
    nlinarith
  have hs := Real.sqrt_le_sqrt hle
  have h0 : 0 < √A := Real.sqrt_pos.2 hA0
  have h0' : 0 < √A' := Real.sqrt_pos.2 hA0'
  have z : 0.0027 * (2569 - r) ≤ √A := by
    apply Real.le_sqrt_of_sq_le; rw [hA]; nlinarith [sq_nonneg (2569 - r)]
  have z' : 0.0027 * (2569 - r') ≤ √A' := by
    apply Real.le_sqrt_of_sq_le; rw [hA']; nlinarith [sq_nonneg (2569 - r')]
  have hd : √A - √A' ≤ 0.003 * (r' - r) := by
    have e : (√A - √A') * (√A + √A') = 0.00000739 * ((r' - r) * ((2569 - r) + (2569 - r'))) := by
      have := Real.sq_sqrt hA0.le
      have := Real.sq_sqrt hA0'.le
      nlinarith
    have h1 : 0.00000739 * ((2569 - r) + (2569 - r')) ≤ 0.003 * (√A + √A') := by nlinarith
    have h2 : (√A - √A') * (√A + √A') ≤ 0.003 * (r' - r) * (√A + √A') := by
      rw [e]
      have := mul_le_mul_of_nonneg_left h1 (sub_nonneg.2 h)
      nlinarith
    exact le_of_mul_le_mul_right h2 (by positivity)
  constructor
  · rw [sub_nonneg]
    exact max_le_max (div_le_div_of_nonneg_right hs (by norm_num)) le_rfl
  · have : max (√A / 50) (1 / min (n : ℝ) 50)
        ≤ max (√A' / 50) (1 / min (n : ℝ) 50) + 0.00006 * (r' - r) := by
      apply max_le
      · have := le_max_left (√A' / 50) (1 / min (n : ℝ) 50)
        linarith
      · have := le_max_right (√A' / 50) (1 / min (n : ℝ) 50)
        nlinarith
    linarith

theorem effective_ge {r : ℝ} {n : ℕ} (hn : 9 ≤ n) (hr : 100 ≤ r) : 7 ≤ uscfEffective r n := by
  have hn' : (7 : ℝ) ≤ n := by exact_mod_cast (by omega : 7 ≤ n)
  refine le_min ?_ (le_min hn' (by norm_num))
  split_ifs with h
  · have hD : 0 < √(0.662 + 0.00000739 * (2569 - r) ^ 2) := by
      apply Real.sqrt_pos.2; positivity
    rw [le_div_iff₀ hD]
    have : √(0.662 + 0.00000739 * (2569 - r) ^ 2) ≤ 7 := by
      apply Real.sqrt_le_iff.2
      constructor
      · norm_num
      · nlinarith
    linarith
  · norm_num

/-- The rating of an established player after a game, before the floor is applied. -/
theorem raw_keeps {r r' b s : ℝ} {n : ℕ} (hn : 9 ≤ n) (h0 : 100 ≤ r) (h : r < r')
    (hside : r' < 2355 ∨ 2355 ≤ r) (hs0 : 0 ≤ s) (hs1 : s ≤ 1) :
    r + uscfK r n 1 * (s - sigmoid (log 10 / 400 * (r - b)))
      < r' + uscfK r' n 1 * (s - sigmoid (log 10 / 400 * (r' - b))) := by
  set N := uscfEffective r n with hN
  set N' := uscfEffective r' n with hN'
  have g := effective_ge hn h0
  have g' := effective_ge hn (h0.trans h.le)
  rw [← hN] at g
  rw [← hN'] at g'
  have hslope : 0 ≤ 1 / N - 1 / N' ∧ 1 / N - 1 / N' ≤ 0.00006 * (r' - r) := by
    rcases hside with hr | hr
    · exact effective_slope hn h.le hr
    · have e : N = N' := by
        rw [hN, hN', uscfEffective, uscfEffective, if_neg (not_lt.2 hr),
          if_neg (not_lt.2 (hr.trans h.le))]
      rw [e, sub_self]
      exact ⟨le_rfl, by nlinarith⟩
  have eK : uscfK r n 1 = 800 / (N + 1) := by simp [uscfK, hN]
  have eK' : uscfK r' n 1 = 800 / (N' + 1) := by simp [uscfK, hN']
  rw [eK, eK']
  have hNN : 1 / N - 1 / N' = (N' - N) / (N * N') := by
    have : N ≠ 0 := by linarith
    have : N' ≠ 0 := by linarith
    field_simp
  rw [hNN] at hslope
  have hpos : 0 < N * N' := by nlinarith
  have hd0 : N ≤ N' := by
    have := hslope.1
    by_contra hc
    have : (N' - N) / (N * N') < 0 := div_neg_of_neg_of_pos (by linarith) hpos
    linarith
  have hd1 := hslope.2
  rw [div_le_iff₀ hpos] at hd1
  have hK : 800 / (N + 1) - 800 / (N' + 1) ≤ 0.048 * (r' - r) := by
    rw [div_sub_div _ _ (by linarith) (by linarith), div_le_iff₀ (by nlinarith)]
    have : N * N' ≤ (N + 1) * (N' + 1) := by nlinarith
    have := mul_le_mul_of_nonneg_left this (by linarith : 0 ≤ 0.048 * (r' - r))
    nlinarith
  have hK0 : 0 ≤ 800 / (N + 1) - 800 / (N' + 1) := by
    rw [sub_nonneg]
    exact div_le_div_of_nonneg_left (by norm_num) (by linarith) (by linarith)
  have hK1 : 800 / (N + 1) ≤ 100 := by rw [div_le_iff₀ (by linarith)]; linarith
  have hKpos : 0 < 800 / (N + 1) := by positivity
  have hl := WengLin.sigmoid_lip (log 10 / 400 * (r' - b)) (log 10 / 400 * (r - b))
  have e : log 10 / 400 * (r' - b) - log 10 / 400 * (r - b) = log 10 / 400 * (r' - r) := by ring
  have hl10 := log_ten_lt
  have hl10' := log_ten_pos
  rw [e, abs_of_nonneg (mul_nonneg (by positivity) (sub_nonneg.2 h.le))] at hl
  have hl' := (le_abs_self _).trans hl
  have hE0 := sigmoid_pos (log 10 / 400 * (r' - b))
  have hE1 := sigmoid_lt_one (log 10 / 400 * (r' - b))
  generalize sigmoid (log 10 / 400 * (r' - b)) = E' at *
  generalize sigmoid (log 10 / 400 * (r - b)) = E at *
  generalize 800 / (N + 1) = K at *
  generalize 800 / (N' + 1) = K' at *
  have hl2 : E' - E ≤ 0.0015 * (r' - r) := by nlinarith
  have t1 : K * (E' - E) ≤ 100 * (0.0015 * (r' - r)) := by
    have := mul_le_mul_of_nonneg_left hl2 hKpos.le
    nlinarith
  have t2 : (K - K') * (s - E') ≤ 0.048 * (r' - r) := by
    have : s - E' ≤ 1 := by linarith
    have := mul_le_mul_of_nonneg_left this hK0
    linarith
  nlinarith

end Uscf
end Skillratings
