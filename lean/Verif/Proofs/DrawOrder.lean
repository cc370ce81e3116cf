import Mathlib.Analysis.Real.Pi.Bounds
import Verif.Proofs.KeepOrder
import Verif.Proofs.Dwz
/-
Helper lemmas for C148: how far a draw moves two players towards each other.
-/
namespace Skillratings
open Real Spec

theorem half_lt_sigmoid {x : ℝ} (hx : 0 < x) : 0 < sigmoid x - 1 / 2 := by
  have := sigmoid_strictMono hx
  rw [sigmoid_zero] at this
  norm_num at this ⊢
  linarith

/-! ### Glicko -/
namespace Glicko

theorem drawPull_poly_aux {X Y A B : ℝ} (hX : 0 < X) (hXY : X ≤ Y) (hY : Y ≤ 4.06)
    (hA : 2.782 + 1.2 * Y - 0.82 * X ≤ A) (hB1 : 4 - 0.82 * Y ≤ B)
    (hB2 : 2.782 + 1.2 * X - 0.82 * Y ≤ B) : X * Y < A * B := by
  have hA0 : 0 < 2.782 + 1.2 * Y - 0.82 * X := by linarith
  have hB0 : 0 < 4 - 0.82 * Y := by linarith
  rcases le_or_gt X 1.015 with h | h
  · have h1 : (2.782 + 1.2 * Y - 0.82 * X) * (4 - 0.82 * Y) ≤ A * B :=
      mul_le_mul hA hB1 hB0.le (hA0.le.trans hA)
    have h2 : (1.949 + 1.2 * Y) * (4 - 0.82 * Y) ≤ (2.782 + 1.2 * Y - 0.82 * X) * (4 - 0.82 * Y) :=
      mul_le_mul_of_nonneg_right (by linarith) hB0.le
    have h3 : X * Y ≤ 1.015 * Y := mul_le_mul_of_nonneg_right h (by linarith)
    nlinarith [mul_nonneg (hX.le.trans hXY) (sub_nonneg.2 hY)]
  · have hB0' : 0 < 2.782 + 1.2 * X - 0.82 * Y := by linarith
    have h1 : (2.782 + 1.2 * Y - 0.82 * X) * (2.782 + 1.2 * X - 0.82 * Y) ≤ A * B :=
      mul_le_mul hA hB2 hB0'.le (hA0.le.trans hA)
    nlinarith [mul_nonneg (sub_nonneg.2 hY) (sub_nonneg.2 h.le),
      mul_nonneg (sub_nonneg.2 hY) (sub_nonneg.2 hXY), mul_nonneg (sub_nonneg.2 h.le) (sub_nonneg.2 hXY)]

/-- Together the two players move by less than their distance: `X`, `Y` belong to the deviations at the
beginning of the game, `X₀`, `Y₀` to those before the increase by `c`. -/
theorem drawPull_poly {X Y X₀ Y₀ : ℝ} (hX : 0 < X) (hY : 0 < Y) (hX1 : X ≤ 4.06) (hY1 : Y ≤ 4.06)
    (hX0 : 0 ≤ X₀) (hY0 : 0 ≤ Y₀) (hXX : X ≤ X₀ + 1.015) (hYY : Y ≤ Y₀ + 1.015) :
    X / (1 + 0.3 * Y₀ + 0.045 * X) + Y / (1 + 0.3 * X₀ + 0.045 * Y) < 4 := by
  have hP : 0 < 1 + 0.3 * Y₀ + 0.045 * X := by positivity
  have hQ : 0 < 1 + 0.3 * X₀ + 0.045 * Y := by positivity
  have key : X * Y < (4 * (1 + 0.3 * Y₀ + 0.045 * X) - X) * (4 * (1 + 0.3 * X₀ + 0.045 * Y) - Y) := by
    rcases le_total X Y with h | h
    · exact drawPull_poly_aux hX h hY1 (by linarith) (by linarith) (by linarith)
    · rw [mul_comm X Y, mul_comm (4 * _ - X)]
      exact drawPull_poly_aux hY h hX1 (by linarith) (by linarith) (by linarith)
  rw [div_add_div _ _ hP.ne' hQ.ne', div_lt_iff₀ (by positivity)]
  linarith

theorem drawPull_le {u Z : ℝ} (hu : 0 < u) (hZ : 0 < Z) (hZ1 : Z ≤ 4.06) :
    Z * (sigmoid u - 1 / 2) / (1 + Z * (sigmoid u * (1 - sigmoid u))) ≤ u * (Z / (4 * (1 + 0.045 * Z))) := by
  have h0 := sigmoid_pos u
  have h1 := sigmoid_lt_one u
  have hT := half_lt_sigmoid hu
  have hS := mul_pos h0 (sub_pos.2 h1)
  rw [mul_div_assoc', div_le_div_iff₀ (by positivity) (by positivity)]
  rcases le_or_gt u 3 with h | h
  · have hT1 := sigmoid_sub_half_le hu.le
    have hσ : sigmoid u ≤ 1 - 1 / 21.1 := by
      have h2 : sigmoid u ≤ sigmoid 3 := sigmoid_monotone h
      refine h2.trans ?_
      have he : exp 3 ≤ 20.1 := by
        have := Real.exp_one_lt_d9
        have e : exp 3 = exp 1 ^ 3 := by rw [← Real.exp_nat_mul]; norm_num
        rw [e]
        calc exp 1 ^ 3 ≤ 2.7182818286 ^ 3 := by gcongr
          _ ≤ 20.1 := by norm_num
      have e : sigmoid 3 = 1 - 1 / (1 + exp 3) := by
        have h := sigmoid_neg 3
        have : sigmoid (-3) = 1 / (1 + exp 3) := by rw [sigmoid_def, neg_neg, one_div]
        rw [← this, h]; ring
      rw [e]
      have : 1 / 21.1 ≤ 1 / (1 + exp 3) :=
        one_div_le_one_div_of_le (by positivity) (by linarith)
      linarith
    have hS1 : 0.045 ≤ sigmoid u * (1 - sigmoid u) := by
      norm_num at hσ
      nlinarith
    generalize sigmoid u * (1 - sigmoid u) = S at *
    generalize sigmoid u - 1 / 2 = T at *
    have h3 : Z * T * (4 * (1 + 0.045 * Z)) ≤ Z * (u / 4) * (4 * (1 + 0.045 * Z)) := by gcongr
    have h4 : u * Z * (1 + Z * 0.045) ≤ u * Z * (1 + Z * S) := by gcongr
    linarith
  · have hT1 : sigmoid u - 1 / 2 ≤ 1 / 2 := by linarith
    generalize sigmoid u * (1 - sigmoid u) = S at *
    generalize sigmoid u - 1 / 2 = T at *
    have h3 : Z * T * (4 * (1 + 0.045 * Z)) ≤ Z * (1 / 2) * (4 * (1 + 0.045 * 4.06)) := by gcongr
    have h4 : u * Z * 1 ≤ u * Z * (1 + Z * S) :=
      mul_le_mul_of_nonneg_left (by nlinarith [mul_pos hZ hS]) (by positivity)
    have h5 : 3 * Z ≤ u * Z := mul_le_mul_of_nonneg_right h.le hZ.le
    linarith

/-- The part of the distance by which a draw moves a player. -/
noncomputable def drawPull (rd rdj c D : ℝ) : ℝ :=
  glickoQ * posterior (glickoOnset rd c ^ 2) (glickoQ ^ 2 * glickoG rdj ^ 2
    * (sigmoid (glickoQ * (glickoG rdj * D)) * (1 - sigmoid (glickoQ * (glickoG rdj * D)))))
    * (glickoG rdj * (sigmoid (glickoQ * (glickoG rdj * D)) - 1 / 2))

theorem rated_lower (r D rd rdj c : ℝ) :
    (rated r rd (r + D) rdj (1 / 2) c).rating = r + drawPull rd rdj c D := by
  have e : glickoE r (r + D) rdj = 1 - sigmoid (glickoQ * (glickoG rdj * D)) := by
    rw [glickoE_eq, ← sigmoid_neg]; congr 1; ring
  simp only [rated, glickoInfo, e, drawPull, posterior]
  generalize sigmoid (glickoQ * (glickoG rdj * D)) = E
  rw [show glickoQ ^ 2 * glickoG rdj ^ 2 * (1 - E) * (1 - (1 - E))
    = glickoQ ^ 2 * glickoG rdj ^ 2 * (E * (1 - E)) by ring]
  ring

theorem rated_upper (r D rd rdj c : ℝ) :
    (rated (r + D) rd r rdj (1 / 2) c).rating = r + D - drawPull rd rdj c D := by
  have e : glickoE (r + D) r rdj = sigmoid (glickoQ * (glickoG rdj * D)) := by
    rw [glickoE_eq, add_sub_cancel_left]
  simp only [rated, glickoInfo, e, drawPull, posterior]
  generalize sigmoid (glickoQ * (glickoG rdj * D)) = E
  rw [show glickoQ ^ 2 * glickoG rdj ^ 2 * E * (1 - E)
    = glickoQ ^ 2 * glickoG rdj ^ 2 * (E * (1 - E)) by ring]
  ring

theorem drawPull_pos {rd rdj c D : ℝ} (hrd : 0 < rd) (hD : 0 < D) : 0 < drawPull rd rdj c D := by
  have hq := glickoQ_pos
  have hg := glickoG_pos rdj
  have ho := glickoOnset_pos c hrd
  have hu : 0 < glickoQ * (glickoG rdj * D) := by positivity
  have hT := half_lt_sigmoid hu
  have hS := mul_pos (sigmoid_pos (glickoQ * (glickoG rdj * D)))
    (sub_pos.2 (sigmoid_lt_one (glickoQ * (glickoG rdj * D))))
  unfold drawPull posterior
  positivity

theorem drawPull_bound {rd rdj c D : ℝ} (hrd : 0 < rd) (hD : 0 < D) :
    drawPull rd rdj c D ≤ D / 4 * ((glickoQ * glickoOnset rd c) ^ 2
      / (1 + 0.3 * (glickoQ * rdj) ^ 2 + 0.045 * (glickoQ * glickoOnset rd c) ^ 2)) := by
  have hq := glickoQ_pos
  have hg := glickoG_pos rdj
  have hg1 := glickoG_le_one rdj
  have ho := glickoOnset_pos c hrd
  have ho1 := onset_le rd c
  have hG : glickoG rdj ^ 2 = 1 / (1 + 3 / π ^ 2 * (glickoQ * rdj) ^ 2) := by
    rw [glickoG, div_pow, one_pow, Real.sq_sqrt (by positivity)]
    congr 1
    ring
  have hκ : (0.3 : ℝ) ≤ 3 / π ^ 2 := by
    rw [le_div_iff₀ (by positivity)]
    have h1 := Real.pi_lt_d2
    have h2 := Real.pi_pos
    nlinarith
  have hu : 0 < glickoQ * (glickoG rdj * D) := by positivity
  have hX1 : (glickoQ * glickoOnset rd c) ^ 2 ≤ 4.06 := by
    have h1 : glickoQ * glickoOnset rd c ≤ 2.3025850934 / 400 * 350 := by
      have : glickoQ ≤ 2.3025850934 / 400 := by
        rw [glickoQ]; exact div_le_div_of_nonneg_right log_ten_lt.le (by norm_num)
      gcongr
    calc _ ≤ (2.3025850934 / 400 * 350 : ℝ) ^ 2 := by gcongr
      _ ≤ 4.06 := by norm_num
  set X := (glickoQ * glickoOnset rd c) ^ 2 with hX
  have hXpos : 0 < X := by positivity
  set Z := glickoG rdj ^ 2 * X with hZ
  have hZ1 : Z ≤ 4.06 := by
    have : glickoG rdj ^ 2 ≤ 1 := pow_le_one₀ hg.le hg1
    calc Z ≤ 1 * X := mul_le_mul_of_nonneg_right this hXpos.le
      _ ≤ 4.06 := by linarith
  have hZpos : 0 < Z := by positivity
  have k := drawPull_le hu hZpos hZ1
  have hS := mul_pos (sigmoid_pos (glickoQ * (glickoG rdj * D)))
    (sub_pos.2 (sigmoid_lt_one (glickoQ * (glickoG rdj * D))))
  have e1 : drawPull rd rdj c D = 1 / (glickoQ * glickoG rdj)
      * (Z * (sigmoid (glickoQ * (glickoG rdj * D)) - 1 / 2) / (1 + Z *
        (sigmoid (glickoQ * (glickoG rdj * D)) * (1 - sigmoid (glickoQ * (glickoG rdj * D)))))) := by
    rw [drawPull, posterior, hZ, hX]
    generalize sigmoid (glickoQ * (glickoG rdj * D)) * (1 - sigmoid (glickoQ * (glickoG rdj * D))) = S at *
    generalize glickoOnset rd c = O at *
    have : 1 / O ^ 2 + glickoQ ^ 2 * glickoG rdj ^ 2 * S
        = (1 + glickoG rdj ^ 2 * (glickoQ * O) ^ 2 * S) / O ^ 2 := by field_simp
    rw [this, one_div_div]
    field_simp
  rw [e1]
  calc _ ≤ 1 / (glickoQ * glickoG rdj) * (glickoQ * (glickoG rdj * D) * (Z / (4 * (1 + 0.045 * Z)))) := by
        gcongr
    _ = D / 4 * (Z / (1 + 0.045 * Z)) := by field_simp
    _ ≤ _ := by
        refine mul_le_mul_of_nonneg_left ?_ (by positivity)
        have e2 : Z / (1 + 0.045 * Z) = X / (1 + 3 / π ^ 2 * (glickoQ * rdj) ^ 2 + 0.045 * X) := by
          rw [hZ, hG]
          have : 0 < 1 + 3 / π ^ 2 * (glickoQ * rdj) ^ 2 := by positivity
          field_simp
        rw [e2]
        gcongr

/-- The two players together move by less than their distance. -/
theorem drawPull_lt {rd rd' c D : ℝ} (hrd : 0 < rd) (hrd' : 0 < rd') (hc : |c| ≤ 175) (hD : 0 < D) :
    drawPull rd rd' c D + drawPull rd' rd c D < D := by
  have hq := glickoQ_pos
  have hq2 : glickoQ ≤ 2.3025850934 / 400 := by
    rw [glickoQ]; exact div_le_div_of_nonneg_right log_ten_lt.le (by norm_num)
  have hC : (glickoQ * c) ^ 2 ≤ 1.015 := by
    rw [← sq_abs, abs_mul, abs_of_pos hq]
    calc (glickoQ * |c|) ^ 2 ≤ (2.3025850934 / 400 * 175) ^ 2 := by gcongr
      _ ≤ 1.015 := by norm_num
  have hb : ∀ {r : ℝ}, 0 < r → 0 < (glickoQ * glickoOnset r c) ^ 2 ∧
      (glickoQ * glickoOnset r c) ^ 2 ≤ 4.06 ∧
      (glickoQ * glickoOnset r c) ^ 2 ≤ (glickoQ * r) ^ 2 + 1.015 := by
    intro r hr
    have ho := glickoOnset_pos c hr
    have ho1 := onset_le r c
    refine ⟨by positivity, ?_, ?_⟩
    · calc (glickoQ * glickoOnset r c) ^ 2 ≤ (2.3025850934 / 400 * 350) ^ 2 := by gcongr
        _ ≤ 4.06 := by norm_num
    · have h1 : glickoOnset r c ^ 2 ≤ r ^ 2 + c ^ 2 := by
        calc glickoOnset r c ^ 2 ≤ √(r ^ 2 + c ^ 2) ^ 2 := by
              have : glickoOnset r c ≤ √(r ^ 2 + c ^ 2) := min_le_left _ _
              gcongr
          _ = _ := Real.sq_sqrt (by positivity)
      have := mul_le_mul_of_nonneg_left h1 (sq_nonneg glickoQ)
      nlinarith
  obtain ⟨p1, p2, p3⟩ := hb hrd
  obtain ⟨r1, r2, r3⟩ := hb hrd'
  have k := drawPull_poly p1 r1 p2 r2 (sq_nonneg (glickoQ * rd)) (sq_nonneg (glickoQ * rd')) p3 r3
  have b1 := drawPull_bound (rdj := rd') (c := c) hrd hD
  have b2 := drawPull_bound (rdj := rd) (c := c) hrd' hD
  have := mul_lt_mul_of_pos_left k (by positivity : 0 < D / 4)
  linarith

end Glicko

/-! ### EGF -/
namespace Egf

theorem con_le {r : ℝ} (h0 : -900 ≤ r) (h1 : r < 3300) : egfCon r ≤ 0.0312 * (3300 - r) := by
  have hy : 0 < (3300 - r) / 200 := by linarith
  have e : egfCon r = ((3300 - r) / 200) ^ (3 / 5 : ℝ) * ((3300 - r) / 200) := by
    rw [egfCon, show (8 / 5 : ℝ) = 3 / 5 + 1 by norm_num, rpow_add hy, rpow_one]
  have := rpow_bound hy (by linarith)
  rw [e]
  nlinarith

theorem con_anti {r r' : ℝ} (h : r ≤ r') (h1 : r' < 3300) : egfCon r' ≤ egfCon r :=
  rpow_le_rpow (by linarith) (by linarith) (by norm_num)

theorem bonus_close {r r' : ℝ} (h : r ≤ r') :
    0 ≤ egfBonus r - egfBonus r' ∧ egfBonus r - egfBonus r' ≤ (r' - r) / 400 := by
  have h1 : exp ((2300 - r') / 80) ≤ exp ((2300 - r) / 80) := Real.exp_le_exp.2 (by linarith)
  have p := Real.exp_pos ((2300 - r') / 80)
  have p' := Real.exp_pos ((2300 - r) / 80)
  have e : exp ((2300 - r) / 80) = exp ((r' - r) / 80) * exp ((2300 - r') / 80) := by
    rw [← Real.exp_add]; congr 1; ring
  have h2 : log (1 + exp ((2300 - r') / 80)) ≤ log (1 + exp ((2300 - r) / 80)) :=
    Real.log_le_log (by linarith) (by linarith)
  have h3 : log (1 + exp ((2300 - r) / 80)) ≤ (r' - r) / 80 + log (1 + exp ((2300 - r') / 80)) := by
    have : 1 + exp ((2300 - r) / 80) ≤ exp ((r' - r) / 80) * (1 + exp ((2300 - r') / 80)) := by
      have : 1 ≤ exp ((r' - r) / 80) := Real.one_le_exp (by linarith)
      rw [e]; linarith
    have := Real.log_le_log (by linarith) this
    rwa [Real.log_mul (Real.exp_pos _).ne' (by linarith), Real.log_exp] at this
  unfold egfBonus
  constructor <;> linarith

/-- The movement of both players by the expected scores. -/
theorem drawPull_lt {a b : ℝ} (h : a < b) (h0 : -900 ≤ a) (h1 : b < 3300) :
    0 < sigmoid (egfBeta b - egfBeta a) - 1 / 2 ∧
    (egfCon a + egfCon b) * (sigmoid (egfBeta b - egfBeta a) - 1 / 2) ≤ (b - a) / 2 := by
  have hs : 0 < 3300 - b := by linarith
  have hs' : 0 < 3300 - a := by linarith
  have hβ : egfBeta b - egfBeta a = 7 * log ((3300 - a) / (3300 - b)) := by
    rw [egfBeta, egfBeta, Real.log_div hs'.ne' hs.ne']; ring
  have hy : 1 < (3300 - a) / (3300 - b) := by rw [lt_div_iff₀ hs]; linarith
  have hl := Real.log_pos hy
  have hpos : 0 < egfBeta b - egfBeta a := by rw [hβ]; linarith
  have hT := half_lt_sigmoid hpos
  have hT1 := sigmoid_sub_half_le hpos.le
  have hT2 := sigmoid_lt_one (egfBeta b - egfBeta a)
  refine ⟨hT, ?_⟩
  have hc := con_le h0 (h.trans h1)
  have hc' := con_anti h.le h1
  have hcp := egfCon_pos h1
  have hsum : egfCon a + egfCon b ≤ 0.0624 * (3300 - a) := by linarith
  have k1 : (egfCon a + egfCon b) * (sigmoid (egfBeta b - egfBeta a) - 1 / 2)
      ≤ 0.0624 * (3300 - a) * (sigmoid (egfBeta b - egfBeta a) - 1 / 2) :=
    mul_le_mul_of_nonneg_right hsum hT.le
  refine k1.trans ?_
  rcases le_or_gt (3300 - a) (2 * (3300 - b)) with h2 | h2
  · have hlog : log ((3300 - a) / (3300 - b)) ≤ (3300 - a) / (3300 - b) - 1 :=
      Real.log_le_sub_one_of_pos (by linarith)
    have e : (3300 - a) / (3300 - b) - 1 = (b - a) / (3300 - b) := by field_simp; ring
    rw [e] at hlog
    have : sigmoid (egfBeta b - egfBeta a) - 1 / 2 ≤ 7 / 4 * ((b - a) / (3300 - b)) := by
      rw [hβ] at hT1 ⊢; linarith
    calc 0.0624 * (3300 - a) * (sigmoid (egfBeta b - egfBeta a) - 1 / 2)
        ≤ 0.0624 * (2 * (3300 - b)) * (7 / 4 * ((b - a) / (3300 - b))) := by gcongr
      _ = 0.2184 * (b - a) := by field_simp; ring
      _ ≤ _ := by linarith
  · have : 0.0624 * (3300 - a) * (sigmoid (egfBeta b - egfBeta a) - 1 / 2)
        ≤ 0.0624 * (3300 - a) * (1 / 2) := mul_le_mul_of_nonneg_left (by linarith) (by linarith)
    linarith

end Egf

/-! ### DWZ -/
namespace Dwz

theorem eValue_ge_five (r : ℝ) (age : ℕ) (s e : ℝ) {i : ℕ} (hi : 1 ≤ i) : 5 ≤ eValue r age s e i := by
  have hi' : (1 : ℝ) ≤ i := by exact_mod_cast hi
  rw [eValue_real]
  dsimp only
  have hm : (5 : ℝ) ≤ min 30 (5 * (i : ℝ)) := le_min (by norm_num) (by linarith)
  generalize (if age < 20 ∧ e ≤ s then r / 2000 else 1)
    * ((r / 1000) ^ 4 + if age ≤ 20 then (5 : ℝ) else if age ≤ 25 then 10 else 15)
    + (if r < 1300 ∧ s ≤ e then exp ((1300 - r) / 150) - 1 else 0) = x
  generalize (if r < 1300 ∧ s ≤ e then exp ((1300 - r) / 150) - 1 else 0) = y
  split_ifs <;> linarith

end Dwz
end Skillratings
