import Verif.Proofs.FPGlicko2Game
import Verif.Spec.Glicko2Update
/-
One player of a game of Glicko-2 in floating point.
-/
namespace Skillratings
open FP FPVal Spec
variable {E : FloatEnv}

namespace Glicko2
variable {φ v s₁ s₂ η : ℝ}

theorem newPhi_sq (hφ : 0 < φ) (hv : 0 < v) (s : ℝ) :
    glicko2NewPhi φ s v ^ 2 = (φ ^ 2 + s ^ 2) * v / (φ ^ 2 + s ^ 2 + v) := by
  rw [glicko2NewPhi, div_pow, one_pow, Real.sq_sqrt (by positivity)]
  have : 0 < φ ^ 2 + s ^ 2 := by positivity
  field_simp
  ring

theorem newPhi_pos' (hφ : 0 < φ) (hv : 0 < v) (s : ℝ) : 0 < glicko2NewPhi φ s v := by
  rw [glicko2NewPhi]; positivity

/-- How the new deviation depends on the volatility. -/
theorem newPhi_sq_diff (hφ : 0 < φ) (hv : 0 < v) (s₁ s₂ : ℝ) :
    |glicko2NewPhi φ s₁ v ^ 2 - glicko2NewPhi φ s₂ v ^ 2| ≤
      |s₁ ^ 2 - s₂ ^ 2| * (glicko2NewPhi φ s₂ v ^ 2 / (φ ^ 2 + s₂ ^ 2)) := by
  have h1 : 0 < φ ^ 2 + s₁ ^ 2 := by positivity
  have h2 : 0 < φ ^ 2 + s₂ ^ 2 := by positivity
  rw [newPhi_sq hφ hv, newPhi_sq hφ hv]
  have e : (φ ^ 2 + s₁ ^ 2) * v / (φ ^ 2 + s₁ ^ 2 + v) - (φ ^ 2 + s₂ ^ 2) * v / (φ ^ 2 + s₂ ^ 2 + v) =
      (s₁ ^ 2 - s₂ ^ 2) * (v / (φ ^ 2 + s₂ ^ 2 + v)) * (v / (φ ^ 2 + s₁ ^ 2 + v)) := by
    field_simp; ring
  have e2 : (φ ^ 2 + s₂ ^ 2) * v / (φ ^ 2 + s₂ ^ 2 + v) / (φ ^ 2 + s₂ ^ 2) = v / (φ ^ 2 + s₂ ^ 2 + v) := by
    field_simp
  rw [e, e2, abs_mul, abs_mul, abs_of_pos (by positivity : 0 < v / (φ ^ 2 + s₂ ^ 2 + v)),
    abs_of_pos (by positivity : 0 < v / (φ ^ 2 + s₁ ^ 2 + v))]
  apply mul_le_of_le_one_right (by positivity)
  rw [div_le_one (by positivity)]
  linarith

theorem newPhi_sq_le (hφ : 0 < φ) (hv : 0 < v) (s : ℝ) : glicko2NewPhi φ s v ^ 2 ≤ φ ^ 2 + s ^ 2 := by
  rw [newPhi_sq hφ hv, div_le_iff₀ (by positivity)]
  have : 0 < φ ^ 2 + s ^ 2 := by positivity
  nlinarith

theorem newPhi_sq_diff' (hφ : 0 < φ) (hv : 0 < v) (s₁ s₂ : ℝ) :
    |glicko2NewPhi φ s₁ v ^ 2 - glicko2NewPhi φ s₂ v ^ 2| ≤ |s₁ ^ 2 - s₂ ^ 2| := by
  refine (newPhi_sq_diff hφ hv s₁ s₂).trans (mul_le_of_le_one_right (abs_nonneg _) ?_)
  rw [div_le_one (by positivity)]
  exact newPhi_sq_le hφ hv s₂

theorem newPhi_diff (hφ : 0 < φ) (hv : 0 < v) (s₁ : ℝ) (h2 : 0 < s₂) :
    |glicko2NewPhi φ s₁ v - glicko2NewPhi φ s₂ v| * s₂ ≤ |s₁ ^ 2 - s₂ ^ 2| := by
  have n1 := newPhi_pos' hφ hv s₁
  have n2 := newPhi_pos' hφ hv s₂
  have hd := newPhi_sq_diff hφ hv s₁ s₂
  have hl := newPhi_sq_le hφ hv s₂
  have hh : 0 < φ ^ 2 + s₂ ^ 2 := by positivity
  rw [sq_sub_sq, abs_mul, abs_of_pos (by linarith : 0 < glicko2NewPhi φ s₁ v + glicko2NewPhi φ s₂ v)] at hd
  generalize glicko2NewPhi φ s₁ v = N₁ at *
  generalize glicko2NewPhi φ s₂ v = N₂ at *
  generalize |s₁ ^ 2 - s₂ ^ 2| = w at *
  have hD := abs_nonneg (N₁ - N₂)
  generalize |N₁ - N₂| = D at *
  have hN : N₂ * s₂ ≤ φ ^ 2 + s₂ ^ 2 := by
    have : s₂ ^ 2 ≤ φ ^ 2 + s₂ ^ 2 := by nlinarith
    nlinarith [_root_.sq_nonneg (N₂ - s₂)]
  have w0 : 0 ≤ w := by
    by_contra hw
    have h3 : 0 ≤ (N₁ + N₂) * D := by positivity
    have : w * (N₂ ^ 2 / (φ ^ 2 + s₂ ^ 2)) < 0 := mul_neg_of_neg_of_pos (not_le.1 hw) (by positivity)
    linarith
  have h3 : N₂ * D ≤ w * (N₂ ^ 2 / (φ ^ 2 + s₂ ^ 2)) := by nlinarith
  have h4 : D ≤ w * (N₂ / (φ ^ 2 + s₂ ^ 2)) := by
    have : w * (N₂ ^ 2 / (φ ^ 2 + s₂ ^ 2)) = N₂ * (w * (N₂ / (φ ^ 2 + s₂ ^ 2))) := by ring
    rw [this] at h3
    exact le_of_mul_le_mul_left h3 n2
  calc D * s₂ ≤ w * (N₂ / (φ ^ 2 + s₂ ^ 2)) * s₂ := mul_le_mul_of_nonneg_right h4 h2.le
    _ = w * (N₂ * s₂ / (φ ^ 2 + s₂ ^ 2)) := by ring
    _ ≤ w * 1 := by
        apply mul_le_mul_of_nonneg_left _ w0
        rw [div_le_one hh]; exact hN
    _ = w := mul_one w

/-- The relative error of a hypotenuse. -/
theorem hypot_rel (P : E.Precise) {x y : FP E} {k : ℝ} (hx : Ap k 18 x φ) (hk : k ≤ 1000) (hy : y.isFinite)
    (hb : |y.toR| ≤ 2 ^ 18) : Ap (3 * k + 2) 20 (Flt.hypot x y) √(φ ^ 2 + y.toR ^ 2) := by
  have hk0 := hx.1.nonneg
  have hφ := hx.2.pos
  have hxp := (hx.1.pos (by linarith) hφ).2
  obtain ⟨fx, δ, hδ, ex⟩ := hx.1
  have m : Mid 19 √(φ ^ 2 + y.toR ^ 2) := by
    constructor
    · refine le_trans (hx.2.mono (by norm_num : 18 ≤ 19)).1 (Real.le_sqrt_of_sq_le (by nlinarith [_root_.sq_nonneg y.toR]))
    · rw [Real.sqrt_le_iff]
      have h1 := hx.2.2
      have h2 := abs_le.1 hb
      refine ⟨by positivity, ?_⟩
      have : φ ^ 2 ≤ (2 ^ 18) ^ 2 := pow_le_pow_left₀ hφ.le h1 2
      have h3 : y.toR ^ 2 ≤ (2 ^ 18) ^ 2 := by rw [← sq_abs]; exact pow_le_pow_left₀ (abs_nonneg _) hb 2
      refine (add_le_add this h3).trans (by norm_num)
  refine ⟨?_, m.mono (by norm_num)⟩
  have hS : 0 < φ ^ 2 + y.toR ^ 2 := by positivity
  obtain ⟨κ, hκ, eκ⟩ : ∃ κ, |κ| ≤ 3 * k / 2 ^ 50 ∧ x.toR ^ 2 + y.toR ^ 2 = (φ ^ 2 + y.toR ^ 2) * (1 + κ) := by
    refine ⟨φ ^ 2 * (2 * δ + δ ^ 2) / (φ ^ 2 + y.toR ^ 2), ?_, by rw [ex]; field_simp; ring⟩
    have hδ1 : |δ| ≤ 1 := hδ.trans (by rw [div_le_one (by positivity)]; exact hk.trans (by norm_num))
    have h1 : |2 * δ + δ ^ 2| ≤ 3 * |δ| := by
      have := abs_nonneg δ
      refine (abs_add_le _ _).trans ?_
      rw [abs_mul, abs_pow, abs_of_pos (by norm_num : (0 : ℝ) < 2)]
      nlinarith
    rw [abs_div, abs_mul, abs_of_pos hS, abs_of_pos (by positivity : 0 < φ ^ 2), div_le_iff₀ hS]
    have h2 : 3 * |δ| ≤ 3 * k / 2 ^ 50 := by rw [mul_div_assoc]; exact mul_le_mul_of_nonneg_left hδ (by norm_num)
    have h3 := h1.trans h2
    have h4 : 0 ≤ 3 * k / 2 ^ 50 := by positivity
    have h5 : φ ^ 2 ≤ φ ^ 2 + y.toR ^ 2 := by nlinarith [_root_.sq_nonneg y.toR]
    calc φ ^ 2 * |2 * δ + δ ^ 2| ≤ (φ ^ 2 + y.toR ^ 2) * (3 * k / 2 ^ 50) :=
          mul_le_mul h5 h3 (abs_nonneg _) hS.le
      _ = _ := mul_comm _ _
  have hκ1 : |κ| ≤ 1 / 2 := hκ.trans (by rw [div_le_iff₀ (by positivity)]; norm_num; linarith)
  have hκl := abs_le.1 hκ1
  have hκ0 : 0 < 1 + κ := by linarith
  have er : √(x.toR ^ 2 + y.toR ^ 2) = √(φ ^ 2 + y.toR ^ 2) * √(1 + κ) := by
    rw [eκ, Real.sqrt_mul hS.le]
  have hd : |√(1 + κ) - 1| ≤ |κ| := by
    have h3 : 1 ≤ √(1 + κ) + 1 := by linarith [Real.sqrt_nonneg (1 + κ)]
    have h4 : (√(1 + κ) - 1) * (√(1 + κ) + 1) = κ := by
      have := Real.mul_self_sqrt hκ0.le
      nlinarith
    have h5 : |(√(1 + κ) - 1) * (√(1 + κ) + 1)| = |κ| := by rw [h4]
    rw [abs_mul, abs_of_pos (by linarith : 0 < √(1 + κ) + 1)] at h5
    nlinarith [abs_nonneg (√(1 + κ) - 1)]
  have hr := abs_le.1 (hd.trans hκ1)
  have big : ∀ {z : ℝ}, 1 / 2 ^ 20 ≤ z → z ≤ 2 ^ 20 → 1 / 2 ^ 500 ≤ z ∧ z ≤ 2 ^ 500 := fun h1 h2 =>
    ⟨le_trans (one_div_le_one_div_of_le (by positivity) (pow_le_pow_right₀ (by norm_num) (by norm_num))) h1,
      h2.trans (pow_le_pow_right₀ (by norm_num) (by norm_num))⟩
  have b := big (z := √(x.toR ^ 2 + y.toR ^ 2)) (by
      rw [er]; have := m.1; have := m.pos; norm_num at *; nlinarith) (by
      rw [er]; have := m.2; have := m.pos; norm_num at *; nlinarith)
  have h := P.hypot x y fx hy b.1 b.2
  refine Rel.of_near m.pos ⟨h.1, ?_⟩
  have hh := h.2
  replace hh : |(Flt.hypot x y).toR - √(x.toR ^ 2 + y.toR ^ 2)| ≤ √(x.toR ^ 2 + y.toR ^ 2) / 2 ^ 50 := hh
  rw [er] at hh
  have hp := m.pos
  generalize √(φ ^ 2 + y.toR ^ 2) = R at *
  have e3 : (Flt.hypot x y).toR - R = ((Flt.hypot x y).toR - R * √(1 + κ)) + (√(1 + κ) - 1) * R := by ring
  rw [e3]
  refine (abs_add_le _ _).trans ((add_le_add hh le_rfl).trans ?_)
  rw [abs_mul, abs_of_pos hp]
  have := mul_le_mul_of_nonneg_right (hd.trans hκ) hp.le
  have h2 : R * √(1 + κ) ≤ R * 2 := mul_le_mul_of_nonneg_left (by linarith) hp.le
  have h3 : R * √(1 + κ) / 2 ^ 50 ≤ R * 2 / 2 ^ 50 := div_le_div_of_nonneg_right h2 (by positivity)
  refine (add_le_add h3 this).trans (le_of_eq ?_)
  ring

/-- The new deviation. -/
theorem newDeviation_ap (L : E.Lib) (P : E.Precise) {x y V : FP E} (hx : Ap 2 18 x φ) (hy : y.isFinite)
    (hb : |y.toR| ≤ 2 ^ 18) (hV : Ap 5300 110 V v) :
    Ap 5304 111 (newDeviation x y V) (glicko2NewPhi φ y.toR v) := by
  have h1 := hypot_rel P hx (by norm_num) hy hb
  have h2 := (h1.sq L (by norm_num) (by norm_num)).recip (by norm_num) (by norm_num)
  have h3 := hV.recip (by norm_num) (by norm_num)
  have h4 := (h2.mono (k' := 5301) (n' := 110) (by norm_num) (by norm_num)).add
    (h3.mono (k' := 5301) (n' := 110) (by norm_num) (by norm_num)) (by norm_num) (by norm_num)
  have h5 := (h4.sqrt (by norm_num) (by norm_num)).recip (by norm_num) (by norm_num)
  have e : √(φ ^ 2 + y.toR ^ 2) ^ 2 = φ ^ 2 + y.toR ^ 2 := Real.sq_sqrt (by positivity)
  rw [e] at h5
  exact h5.mono (by norm_num) (by norm_num)

/-- Squares of volatilities. -/
theorem sq_vol_diff {σ' y : ℝ} (h : |y - σ'| ≤ η * σ') (hη : η ≤ 101 / 100) (hσ : 0 < σ') :
    |y ^ 2 - σ' ^ 2| ≤ 302 / 100 * η * σ' * σ' := by
  have h0 : 0 ≤ η := by
    by_contra hn
    have := mul_neg_of_neg_of_pos (not_le.1 hn) hσ
    linarith [abs_nonneg (y - σ')]
  have hl := abs_le.1 h
  have hm : η * σ' ≤ 101 / 100 * σ' := mul_le_mul_of_nonneg_right hη hσ.le
  rw [sq_sub_sq, abs_mul]
  have h1 : |y + σ'| ≤ 302 / 100 * σ' := by rw [abs_le]; constructor <;> linarith
  have := mul_le_mul h1 h (abs_nonneg _) (by positivity)
  linarith

/-- Steps 6 to 8: the new deviation. -/
theorem deviation_close (L : E.Lib) (P : E.Precise) {x y V : FP E} {σ' : ℝ} (hx : Ap 2 18 x φ)
    (hφ : φ ^ 2 ≤ 34) (hV : Ap 5300 110 V v) (hσ : 0 < σ') (hσ1 : σ' ≤ 1 / 10)
    (hy : Near (η * σ') y σ') (hη : η ≤ 101 / 100) (hη0 : 1 / 2 ^ 21 ≤ η) :
    Near (55 * η) (newDeviation x y V * (173.7178 : FP E)) (glicko2Scale * glicko2NewPhi φ σ' v) := by
  have hφ0 := hx.2.pos
  have hv0 := hV.2.pos
  have hyl := abs_le.1 hy.2
  have hm : η * σ' ≤ 101 / 100 * σ' := mul_le_mul_of_nonneg_right hη hσ.le
  have hb : |y.toR| ≤ 1 := by rw [abs_le]; constructor <;> linarith
  have hN := newDeviation_ap L P hx hy.1 (hb.trans (by norm_num)) hV
  have hD := hN.mul scale_ap (by norm_num) (by norm_num) (by norm_num)
  have n1 := hD.1.near hD.2.pos.le
  have hle := newPhi_sq_le hφ0 hv0 y.toR
  have hNp := hN.2.pos
  have h6 : glicko2NewPhi φ y.toR v ≤ 6 := by
    have : y.toR ^ 2 ≤ 1 := by rw [← sq_abs]; exact pow_le_one₀ (abs_nonneg _) hb
    nlinarith
  have hd := newPhi_diff hφ0 hv0 y.toR hσ
  have hq := sq_vol_diff hy.2 hη hσ
  have hd2 : |glicko2NewPhi φ y.toR v - glicko2NewPhi φ σ' v| ≤ 302 / 1000 * η := by
    have h1 : |glicko2NewPhi φ y.toR v - glicko2NewPhi φ σ' v| * σ' ≤ (302 / 100 * η * σ') * σ' := hd.trans hq
    have h2 := le_of_mul_le_mul_right h1 hσ
    have : 0 ≤ η := le_trans (by positivity) hη0
    nlinarith
  refine ⟨n1.1, ?_⟩
  have hn := n1.2
  have hs := scale_eq
  rw [hs] at hn ⊢
  generalize glicko2NewPhi φ y.toR v = N₁ at *
  generalize glicko2NewPhi φ σ' v = N₂ at *
  generalize (newDeviation x y V * (173.7178 : FP E)).toR = D at *
  have a1 := abs_le.1 hn
  have a2 := abs_le.1 hd2
  clear hn hd2
  rw [abs_le]
  constructor <;> norm_num at * <;> linarith

/-- Steps 6 to 8: the new rating. -/
theorem rating_close (L : E.Lib) (P : E.Precise) {x y V μ p e g : FP E} {σ' m w G : ℝ} (hx : Ap 2 18 x φ)
    (hφ : φ ^ 2 ≤ 34) (hV : Ap 5300 110 V v) (hσ : 0 < σ') (hσ1 : σ' ≤ 1 / 10)
    (hy : Near (η * σ') y σ') (hη : η ≤ 101 / 100) (hη0 : 1 / 2 ^ 21 ≤ η) (hμ : Sm 3 μ m 96)
    (hg : Ap 13 43 g G) (hG : G ≤ 1) (hw : Near (1004 / 2 ^ 50) (p - e) w) (hw1 : |w| ≤ 1) :
    Near (6 * η) (Flt.mulAdd (newRating μ (newDeviation x y V) p g e) (173.7178 : FP E) (1500.0 : FP E))
      (glicko2Scale * (m + glicko2NewPhi φ σ' v ^ 2 * (G * w)) + 1500) := by
  have hφ0 := hx.2.pos
  have hv0 := hV.2.pos
  have hG0 := hg.2.pos
  have hyl := abs_le.1 hy.2
  have hm : η * σ' ≤ 101 / 100 * σ' := mul_le_mul_of_nonneg_right hη hσ.le
  have hb : |y.toR| ≤ 1 := by rw [abs_le]; constructor <;> linarith
  have hN := newDeviation_ap L P hx hy.1 (hb.trans (by norm_num)) hV
  have hA := (hN.sq L (by norm_num) (by norm_num)).mul hg (by norm_num) (by norm_num) (by norm_num)
  have hle := newPhi_sq_le hφ0 hv0 y.toR
  have hA0 := hA.2.pos
  have hA35 : glicko2NewPhi φ y.toR v ^ 2 * G ≤ 35 := by
    have : y.toR ^ 2 ≤ 1 := by rw [← sq_abs]; exact pow_le_one₀ (abs_nonneg _) hb
    nlinarith [_root_.sq_nonneg (glicko2NewPhi φ y.toR v)]
  have nA : Near (380000 / 2 ^ 50) (Flt.powi (newDeviation x y V) 2 * g) (glicko2NewPhi φ y.toR v ^ 2 * G) := by
    refine (hA.1.near hA0.le).mono ?_
    generalize glicko2NewPhi φ y.toR v ^ 2 * G = z at *
    norm_num at *
    linarith
  have hd := newPhi_sq_diff' hφ0 hv0 y.toR σ'
  have hq := sq_vol_diff hy.2 hη hσ
  have hη' : 0 ≤ η := le_trans (by positivity) hη0
  have hd2 : |glicko2NewPhi φ y.toR v ^ 2 * (G * w) - glicko2NewPhi φ σ' v ^ 2 * (G * w)| ≤ 302 / 10000 * η := by
    rw [← sub_mul, abs_mul, abs_mul, abs_of_pos hG0]
    have h1 : 302 / 100 * η * σ' * σ' ≤ 302 / 100 * η * (1 / 10) * (1 / 10) := by gcongr
    have h2 : G * |w| ≤ 1 := mul_le_one₀ hG (abs_nonneg _) hw1
    have h3 := hd.trans (hq.trans h1)
    calc _ ≤ 302 / 100 * η * (1 / 10) * (1 / 10) * 1 := mul_le_mul h3 h2 (by positivity) (by positivity)
      _ = _ := by ring
  have hAw : |glicko2NewPhi φ y.toR v ^ 2 * G * w| ≤ 35 := by
    rw [abs_mul, abs_of_pos hA0]
    calc _ ≤ 35 * 1 := mul_le_mul hA35 hw1 (abs_nonneg _) (by norm_num)
      _ = 35 := by norm_num
  have hAa : |glicko2NewPhi φ y.toR v ^ 2 * G| ≤ 35 := by rw [abs_of_pos hA0]; exact hA35
  have hs1 : |glicko2NewPhi φ y.toR v ^ 2 * G * w + m| ≤ 131 :=
    (abs_add_le _ _).trans ((add_le_add hAw hμ.2).trans (by norm_num))
  have herr : 380000 / 2 ^ 50 * |w| + |glicko2NewPhi φ y.toR v ^ 2 * G| * (1004 / 2 ^ 50)
      + 380000 / 2 ^ 50 * (1004 / 2 ^ 50) + 3 / 2 ^ 50 * 96 ≤ 420000 / 2 ^ 50 := by
    generalize |w| = u at *
    generalize |glicko2NewPhi φ y.toR v ^ 2 * G| = z at *
    norm_num at *
    linarith
  have n2 := (near_mulAdd nA hw hμ.1 (M := 132) ((add_le_add hs1 herr).trans (by norm_num)) (by norm_num)
    (le_huge 8 (by norm_num) (by norm_num))).mono (δ := 430000 / 2 ^ 50) ((add_le_add_left herr _).trans (by norm_num))
  have hsc : Near (174 / 2 ^ 50) (173.7178 : FP E) glicko2Scale := by
    have := (scale_ap (E := E)).1.near (scale_ap (E := E)).2.pos.le
    refine this.mono ?_
    rw [scale_eq]; norm_num
  have h1500 := near_of_in (lit_in (E := E) (m := 15000) (s := true) (e := 1) (v := 1500) (by norm_num)
      (SRep.ofNat 1500 (by norm_num)))
  have hsa : |glicko2Scale| ≤ 174 := by rw [scale_eq]; norm_num
  have hs2 : |(glicko2NewPhi φ y.toR v ^ 2 * G * w + m) * glicko2Scale + 1500| ≤ 25000 := by
    refine (abs_add_le _ _).trans ?_
    rw [abs_mul]
    have := mul_le_mul hs1 hsa (abs_nonneg _) (by norm_num)
    refine (add_le_add_left this _).trans (by norm_num)
  have herr2 : 430000 / 2 ^ 50 * |glicko2Scale| + |glicko2NewPhi φ y.toR v ^ 2 * G * w + m| * (174 / 2 ^ 50)
      + 430000 / 2 ^ 50 * (174 / 2 ^ 50) + 0 ≤ 76000000 / 2 ^ 50 := by
    generalize |glicko2Scale| = u at *
    generalize |glicko2NewPhi φ y.toR v ^ 2 * G * w + m| = z at *
    norm_num at *
    linarith
  have n3 := (near_mulAdd n2 hsc h1500 (M := 26000) ((add_le_add hs2 herr2).trans (by norm_num)) (by norm_num)
    (le_huge 15 (by norm_num) (by norm_num))).mono (δ := 1 / 2 ^ 23) ((add_le_add_left herr2 _).trans (by norm_num))
  refine ⟨n3.1, ?_⟩
  have hn := n3.2
  change |(Flt.mulAdd (newRating μ (newDeviation x y V) p g e) (173.7178 : FP E) (1500.0 : FP E)).toR - _| ≤ _ at hn
  generalize (Flt.mulAdd (newRating μ (newDeviation x y V) p g e) (173.7178 : FP E) (1500.0 : FP E)).toR = R at *
  rw [mul_assoc (glicko2NewPhi φ y.toR v ^ 2)] at hn
  generalize glicko2NewPhi φ y.toR v ^ 2 * (G * w) = z₁ at *
  generalize glicko2NewPhi φ σ' v ^ 2 * (G * w) = z₂ at *
  rw [scale_eq] at hn ⊢
  have a1 := abs_le.1 hn
  have a2 := abs_le.1 hd2
  clear hn hd2
  rw [abs_le]
  constructor <;> norm_num at * <;> linarith

/-! ### One player -/

theorem single_V (μ : ℝ) (x : Glicko2Game) : glicko2V μ [x] =
    1 / (glicko2G x.φ ^ 2 * (1 / (1 + Real.exp (-(glicko2G x.φ * (μ - x.μ))))) *
      (1 - 1 / (1 + Real.exp (-(glicko2G x.φ * (μ - x.μ)))))) := by
  simp [glicko2V, glicko2E]

theorem single_gain (μ : ℝ) (x : Glicko2Game) : glicko2Gain μ [x] =
    glicko2G x.φ * (x.points - 1 / (1 + Real.exp (-(glicko2G x.φ * (μ - x.μ))))) := by
  simp [glicko2Gain, glicko2E]

/-- The range of the difference of the ratings. -/
theorem odds_range {τ D : ℝ} (t0 : 1 / 10 ≤ τ) (h : τ ^ 2 * Real.exp |D| ≤ 13) :
    1 ≤ Real.exp |D| ∧ Real.exp |D| ≤ 1300 ∧ |D| ≤ 8 := by
  have h1 : 1 ≤ Real.exp |D| := Real.one_le_exp (abs_nonneg _)
  have h2 : Real.exp |D| ≤ 1300 := by
    have : (1 / 10) ^ 2 ≤ τ ^ 2 := pow_le_pow_left₀ (by norm_num) t0 2
    have := mul_le_mul_of_nonneg_right this (by linarith : 0 ≤ Real.exp |D|)
    norm_num at this
    linarith
  refine ⟨h1, h2, ?_⟩
  by_contra hn
  have h3 : Real.exp 8 ≤ Real.exp |D| := Real.exp_le_exp.2 (not_le.1 hn).le
  have h4 : (2 : ℝ) ^ 8 * 10 ≤ Real.exp 8 := by
    rw [show (8 : ℝ) = ((8 : ℕ) : ℝ) * 1 by norm_num, Real.exp_nat_mul]
    have := pow_le_pow_left₀ (by norm_num) Real.exp_one_gt_d9.le 8
    refine le_trans ?_ this
    norm_num
  norm_num at h4
  linarith

theorem odds_between {G D : ℝ} (h0 : 0 < G) (h1 : G ≤ 1) :
    1 / Real.exp |D| ≤ Real.exp (-(G * D)) ∧ Real.exp (-(G * D)) ≤ Real.exp |D| := by
  have : |G * D| ≤ |D| := by
    rw [abs_mul, abs_of_pos h0]
    exact mul_le_of_le_one_left (abs_nonneg _) h1
  have := abs_le.1 this
  rw [one_div, ← Real.exp_neg]
  exact ⟨Real.exp_le_exp.2 (by linarith), Real.exp_le_exp.2 (by linarith)⟩

/-- The new volatility is small, too. -/
theorem vol_small {σ r : ℝ} (h0 : 0 < σ) (h1 : σ ≤ 99 / 1000) (hr : |r - Real.log (σ ^ 2)| ≤ 2 / 100) :
    Real.exp (r / 2) ≤ 1 / 10 ∧ Real.log (Real.exp (r / 2) ^ 2) = r := by
  have hσ2 : σ ^ 2 ≤ (99 / 1000) ^ 2 := pow_le_pow_left₀ h0.le h1 2
  refine ⟨?_, by rw [← Real.exp_nat_mul, Real.log_exp]; push_cast; ring⟩
  have h1 : Real.exp (r / 2) ^ 2 ≤ σ ^ 2 * Real.exp (2 / 100) := by
    have h2 := (abs_le.1 hr).2
    rw [← Real.exp_nat_mul]
    calc Real.exp (((2 : ℕ) : ℝ) * (r / 2)) ≤ Real.exp (Real.log (σ ^ 2) + 2 / 100) :=
          Real.exp_le_exp.2 (by push_cast; linarith)
      _ = _ := by rw [Real.exp_add, Real.exp_log (by positivity)]
  have h2 : Real.exp (2 / 100) ≤ 1020303 / 1000000 := by
    have := Real.norm_exp_sub_one_sub_id_le (x := (1 / 100 : ℝ)) (by norm_num)
    rw [Real.norm_eq_abs, Real.norm_eq_abs, sq_abs] at this
    have h3 := (abs_le.1 this).2
    rw [show (2 / 100 : ℝ) = ((2 : ℕ) : ℝ) * (1 / 100) by norm_num, Real.exp_nat_mul]
    refine (pow_le_pow_left₀ (Real.exp_pos _).le (by linarith : Real.exp (1 / 100) ≤ 1 + 1 / 100 + (1 / 100) ^ 2) 2).trans ?_
    norm_num
  have h3 := mul_le_mul hσ2 h2 (Real.exp_pos _).le (by norm_num)
  by_contra hn
  have : (1 / 10) ^ 2 < Real.exp (r / 2) ^ 2 := pow_lt_pow_left₀ (not_le.1 hn) (by norm_num) (by norm_num)
  norm_num at *
  linarith

/-- For a single game. -/
theorem calm_single {Δ τ σ : ℝ} (h4 : 4 ≤ v) (hσ : σ ^ 2 ≤ (99 / 1000) ^ 2) (h : τ ^ 2 * Δ ^ 2 ≤ 13 * v) :
    Calm 400 Δ φ v σ τ := by
  have hφ2 := _root_.sq_nonneg φ
  have hw0 : 0 ≤ τ ^ 2 * Δ ^ 2 := by positivity
  have hσp := _root_.sq_nonneg σ
  refine ⟨by norm_num, by norm_num at *; linarith, by linarith, ?_⟩
  have h6 : 401 * σ ^ 2 ≤ φ ^ 2 + v := by norm_num at hσ; linarith
  have h7 : τ ^ 2 * Δ ^ 2 * (401 * σ ^ 2) ≤ (13 * (φ ^ 2 + v)) * (φ ^ 2 + v) :=
    mul_le_mul (by linarith) h6 (by positivity) (by linarith)
  linarith

/-- One player of a game. -/
theorem player_returns (L : E.Lib) (A : E.Accurate) (P : E.Precise) (S : E.Scales) (W : E.LogWide)
    {a b : Glicko2Rating (FP E)} {c : Glicko2Config (FP E)} (ha : Glicko2Usual a) (hb : Glicko2Usual b)
    (hc : Glicko2Tuned c)
    (hd : c.tau.toR ^ 2 * Real.exp (|a.rating.toR - b.rating.toR| / glicko2Scale) ≤ 13) {p : FP E} {s : ℝ}
    (hp : In (E := E) (s : EReal) (s : EReal) p) (p0 : 0 ≤ s) (p1 : s ≤ 1) {μ₁ μ₂ φ₁ φ₂ g e v : FP E}
    (e1 : μ₁ = (a.rating - (1500.0 : FP E)) / (173.7178 : FP E))
    (e2 : μ₂ = (b.rating - (1500.0 : FP E)) / (173.7178 : FP E))
    (e3 : φ₁ = a.deviation / (173.7178 : FP E)) (e4 : φ₂ = b.deviation / (173.7178 : FP E))
    (e5 : g = gValue φ₂) (e6 : e = eValue μ₁ μ₂ g) (e7 : v = vValue g e) :
    ∃ (r' rd' σ' : ℝ) (y : FP E), Glicko2Exact a.rating.toR a.deviation.toR a.volatility.toR c.tau.toR
        [⟨glicko2Mu b.rating.toR, glicko2Phi b.deviation.toR, s⟩] r' rd' σ' ∧
      newVolatility a.volatility (Flt.powi (deltaValue p v g e) 2) (Flt.powi φ₁ 2) v c.tau
        c.convergenceTolerance = some y ∧
      (∀ η, 1 / 2 ^ 21 ≤ η → η ≤ 101 / 100 → Near (η * σ') y σ' →
        Glicko2Close η ⟨Flt.mulAdd (newRating μ₁ (newDeviation φ₁ y v) p g e) (173.7178 : FP E) (1500.0 : FP E),
          newDeviation φ₁ y v * (173.7178 : FP E), y⟩ r' rd' σ') ∧
      Near ((c.convergenceTolerance.toR + 1 / 2 ^ 17) * σ') y σ' ∧
      ((glicko2Phi a.deviation.toR ^ 2 + glicko2V (glicko2Mu a.rating.toR)
            [⟨glicko2Mu b.rating.toR, glicko2Phi b.deviation.toR, s⟩]) / 2 ^ 24 <
          |glicko2Delta (glicko2Mu a.rating.toR) [⟨glicko2Mu b.rating.toR, glicko2Phi b.deviation.toR, s⟩] ^ 2
            - glicko2Phi a.deviation.toR ^ 2 - glicko2V (glicko2Mu a.rating.toR)
            [⟨glicko2Mu b.rating.toR, glicko2Phi b.deviation.toR, s⟩]| →
        Near ((c.convergenceTolerance.toR + 1 / 2 ^ 28) * σ') y σ') := by
  have hsc : 0 < glicko2Scale := (scale_ap (E := E)).2.pos
  have eD : |a.rating.toR - b.rating.toR| / glicko2Scale = |(a.rating.toR - b.rating.toR) / glicko2Scale| := by
    rw [abs_div, abs_of_pos hsc]
  rw [eD] at hd
  have eμ : glicko2Mu a.rating.toR - glicko2Mu b.rating.toR = (a.rating.toR - b.rating.toR) / glicko2Scale := by
    rw [glicko2Mu, glicko2Mu]; ring
  have aφ := phi_ap ha.deviation
  rw [← e3] at aφ
  have bφ := phi_ap hb.deviation
  rw [← e4] at bφ
  have a34 := (phi_le (le_trans (by norm_num) ha.deviation.2.1) ha.deviation.2.2).1
  have b34 := (phi_le (le_trans (by norm_num) hb.deviation.2.1) hb.deviation.2.2).1
  have hg := g2_ap L bφ
  rw [← e5] at hg
  have g01 := g2_ge b34
  have hG1 := g2_le (glicko2Phi b.deviation.toR)
  have hμ := mu_sm ha.rating
  rw [← e1] at hμ
  have hdiff := mu_diff ha.rating hb.rating
  rw [← e1, ← e2] at hdiff
  obtain ⟨y1, y2, hD8⟩ := odds_range hc.tau.2.1 hd
  have hX := odds_rel A hg hG1 hdiff hD8
  obtain ⟨o1, o2⟩ := odds_between (D := (a.rating.toR - b.rating.toR) / glicko2Scale) hg.2.pos hG1
  have hX0 : 1 / 1500 ≤ Real.exp (-(glicko2G (glicko2Phi b.deviation.toR) *
      ((a.rating.toR - b.rating.toR) / glicko2Scale))) :=
    le_trans (one_div_le_one_div_of_le (by positivity) (by linarith)) o1
  obtain ⟨he, he'⟩ := score_rel hX hX0 (by linarith)
  have ee : e = Flt.recip ((1.0 : FP E) + Flt.exp (-g * (μ₁ - μ₂))) := e6
  rw [← ee] at he he'
  obtain ⟨hv, hw, N⟩ := game_near L aφ a34 hg g01.1 g01.2 o1 o2 y1 y2 he he' hp p0 p1
  rw [← e7] at hv N
  have hdel := delta_bound o1 o2 y1 y2 hg.2.pos p0 p1
  have hvb := v_bound o1 o2 y1 y2 g01.1 g01.2
  have hV : glicko2V (glicko2Mu a.rating.toR) [⟨glicko2Mu b.rating.toR, glicko2Phi b.deviation.toR, s⟩] = _ :=
    single_V _ _
  have hgain : glicko2Gain (glicko2Mu a.rating.toR) [⟨glicko2Mu b.rating.toR, glicko2Phi b.deviation.toR, s⟩] = _ :=
    single_gain _ _
  simp only [eμ] at hV hgain
  have hw1 : |s - 1 / (1 + Real.exp (-(glicko2G (glicko2Phi b.deviation.toR) *
      ((a.rating.toR - b.rating.toR) / glicko2Scale))))| ≤ 1 := by
    have hx := Real.exp_pos (-(glicko2G (glicko2Phi b.deviation.toR) *
      ((a.rating.toR - b.rating.toR) / glicko2Scale)))
    generalize Real.exp _ = z at hx
    have h1 : 0 < 1 / (1 + z) := by positivity
    have h2 : 1 / (1 + z) ≤ 1 := by rw [div_le_one (by linarith)]; linarith
    rw [abs_le]; constructor <;> linarith
  rw [← hgain, ← hV] at hdel N
  rw [← hV] at hv hvb
  have hσ := ha.volatility
  have hσ0 : 0 < a.volatility.toR := lt_of_lt_of_le (by norm_num) hσ.2.1
  have hσ2 : a.volatility.toR ^ 2 ≤ (99 / 1000) ^ 2 := pow_le_pow_left₀ hσ0.le hσ.2.2 2
  have hdel' : c.tau.toR ^ 2 * (glicko2V (glicko2Mu a.rating.toR) [⟨glicko2Mu b.rating.toR, glicko2Phi b.deviation.toR, s⟩] *
      glicko2Gain (glicko2Mu a.rating.toR) [⟨glicko2Mu b.rating.toR, glicko2Phi b.deviation.toR, s⟩]) ^ 2 ≤
      13 * glicko2V (glicko2Mu a.rating.toR) [⟨glicko2Mu b.rating.toR, glicko2Phi b.deviation.toR, s⟩] := by
    refine (mul_le_mul_of_nonneg_left hdel (_root_.sq_nonneg _)).trans ?_
    rw [← mul_assoc]
    exact mul_le_mul_of_nonneg_right hd (by linarith [hvb.1])
  have C : Calm 400 (glicko2V (glicko2Mu a.rating.toR) [⟨glicko2Mu b.rating.toR, glicko2Phi b.deviation.toR, s⟩] *
      glicko2Gain (glicko2Mu a.rating.toR) [⟨glicko2Mu b.rating.toR, glicko2Phi b.deviation.toR, s⟩])
      (glicko2Phi a.deviation.toR) (glicko2V (glicko2Mu a.rating.toR)
        [⟨glicko2Mu b.rating.toR, glicko2Phi b.deviation.toR, s⟩]) a.volatility.toR c.tau.toR := by
    exact calm_single hvb.1 hσ2 hdel'
  obtain ⟨r, y, h0, hr, hy, n1, n2⟩ := N.returns L A S W ⟨hσ.1, hσ.2.1, hσ.2.2.trans (by norm_num)⟩ hc.tau C
    hc.tolerance
  have hE := Real.exp_pos (r / 2)
  obtain ⟨hE1, hEl⟩ := vol_small hσ0 hσ.2.2 hr
  refine ⟨_, _, Real.exp (r / 2), y, ⟨hE, by rw [hEl]; exact h0, rfl, rfl⟩, hy, fun η h1 h2 h3 => ⟨?_, ?_, h3⟩,
    n1.mono (mul_le_mul_of_nonneg_right (by linarith) hE.le),
    fun h => (n2 h).mono (mul_le_mul_of_nonneg_right (by linarith) hE.le)⟩
  · rw [glicko2NewMu, hgain]
    exact rating_close L P aφ a34 (hv.mono (by norm_num) le_rfl) hE hE1 h3 h2 h1 hμ hg hG1 hw hw1
  · exact deviation_close L P aφ a34 (hv.mono (by norm_num) le_rfl) hE hE1 h3 h2 h1

end Glicko2
end Skillratings
