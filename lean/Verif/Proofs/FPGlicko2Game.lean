import Verif.Proofs.FPVolGame
import Verif.Proofs.FPQuantile
import Verif.Spec.Glicko2
import Verif.Spec.Precise
/-
The rounding errors of the quantities a game of Glicko-2 is computed from.
-/
namespace Skillratings
open FP FPVal Spec
variable {E : FloatEnv}

namespace Glicko2
variable {x y r s : FP E} {k : ℝ}

theorem scale_ap : Ap 1 8 (173.7178 : FP E) glicko2Scale :=
  lit_ap (by norm_num [glicko2Scale]) ⟨by norm_num [glicko2Scale], by norm_num [glicko2Scale]⟩ (by norm_num)

theorem scale_eq : glicko2Scale = 1737178 / 10000 := by norm_num [glicko2Scale]

/-- The deviation on the internal scale. -/
theorem phi_ap (h : Between (1 / 1000) 1000 x) : Ap 2 18 (x / (173.7178 : FP E)) (glicko2Phi x.toR) := by
  have h1 : Ap 0 10 x x.toR := ⟨Rel.exact h.1, le_trans (by norm_num) h.2.1, h.2.2.trans (by norm_num)⟩
  exact (h1.div scale_ap (by norm_num) (by norm_num) (by norm_num)).mono (by norm_num) (by norm_num)

/-- The factor `g`. -/
theorem g2_ap (L : E.Lib) {φ : ℝ} (hx : Ap 2 18 x φ) : Ap 13 43 (gValue x) (glicko2G φ) := by
  have h3 : Ap 0 2 (3.0 : FP E) 3 :=
    ⟨lit_rel (lit_in (E := E) (m := 30) (s := true) (e := 1) (v := 3) (by norm_num)
      (SRep.ofNat 3 (by norm_num))), by norm_num, by norm_num⟩
  have a1 := h3.mul (hx.sq L (by norm_num) (by norm_num)) (by norm_num) (by norm_num) (by norm_num)
  have a2 := a1.div (pi_ap.sq L (by norm_num) (by norm_num)) (by norm_num) (by norm_num)
    (by norm_num)
  have a3 := ((one_ap (E := E)).mono (by norm_num) (by norm_num)).add a2 (by norm_num) (by norm_num)
  have a4 := (a3.sqrt (by norm_num) (by norm_num)).recip (by norm_num) (by norm_num)
  exact a4.mono (by norm_num) (by norm_num)

theorem g2_le (φ : ℝ) : glicko2G φ ≤ 1 := by
  rw [glicko2G, div_le_one (Real.sqrt_pos.2 (by positivity))]
  apply Real.le_sqrt_of_sq_le
  have : 0 ≤ 3 * φ ^ 2 / Real.pi ^ 2 := by positivity
  linarith

theorem g2_pos (φ : ℝ) : 0 < glicko2G φ := by
  rw [glicko2G]
  have : 0 < 1 + 3 * φ ^ 2 / Real.pi ^ 2 := by positivity
  positivity

/-- A rating on the internal scale. -/
theorem mu_sm (h : Within (2 ^ 13) r) :
    Sm 3 ((r - (1500.0 : FP E)) / (173.7178 : FP E)) (glicko2Mu r.toR) 96 := by
  have h1 : Sm 0 (1500.0 : FP E) 1500 (2 ^ 13) := by
    have := lit_in (E := E) (m := 15000) (s := true) (e := 1) (v := 1500) (by norm_num)
      (SRep.ofNat 1500 (by norm_num))
    exact ⟨(near_of_in this).mono (by norm_num), by norm_num⟩
  have big : ∀ {X : ℝ}, 1 ≤ X → X ≤ 2 ^ 20 → 1 / 2 ^ 800 ≤ X ∧ X ≤ 2 ^ 800 := fun h1 h2 =>
    ⟨le_trans (by rw [div_le_one (by positivity)]; exact one_le_pow₀ (by norm_num)) h1,
      h2.trans (pow_le_pow_right₀ (by norm_num) (by norm_num))⟩
  have b1 := big (X := 2 ^ 13 + 2 ^ 13) (by norm_num) (by norm_num)
  have h2 := sm_sub (Sm.exact h.1 h.2) h1 (by norm_num) le_rfl b1.1 b1.2
  have b2 := big (X := (2 ^ 13 + 2 ^ 13) / glicko2Scale) (by rw [scale_eq]; norm_num) (by rw [scale_eq]; norm_num)
  have h3 := sm_div h2 (scale_ap (E := E)).1 (scale_ap (E := E)).2.pos (by norm_num) (by norm_num) (by norm_num) (by norm_num) b2.1 b2.2
  refine ⟨h3.1.mono ?_, h3.2.trans ?_⟩
  · rw [scale_eq]; norm_num
  · rw [scale_eq]; norm_num

theorem mu_diff (hr : Within (2 ^ 13) r) (hs : Within (2 ^ 13) s) :
    Near (800 / 2 ^ 50) ((r - (1500.0 : FP E)) / (173.7178 : FP E) - (s - (1500.0 : FP E)) / (173.7178 : FP E))
      ((r.toR - s.toR) / glicko2Scale) := by
  have h := sm_sub (mu_sm hr) (mu_sm hs) (by norm_num) (by norm_num)
    (le_trans (by rw [div_le_one (by positivity)]; exact one_le_pow₀ (by norm_num)) (by norm_num : (1 : ℝ) ≤ 96 + 96))
    (le_trans (by norm_num : (96 + 96 : ℝ) ≤ 2 ^ 8) (pow_le_pow_right₀ (by norm_num) (by norm_num)))
  have e : glicko2Mu r.toR - glicko2Mu s.toR = (r.toR - s.toR) / glicko2Scale := by
    rw [glicko2Mu, glicko2Mu]; ring
  rw [e] at h
  exact h.1.mono (by norm_num)

/-- The odds against a player. -/
theorem odds_rel (A : E.Accurate) {g : FP E} {G D : ℝ} (hg : Ap 13 43 g G) (h1 : G ≤ 1) {t : FP E}
    (ht : Near (800 / 2 ^ 50) t D) (hD : |D| ≤ 8) :
    Rel 1000 (Flt.exp (-g * t)) (Real.exp (-(G * D))) := by
  have h0 := hg.2.pos
  have n1 : Near (13 / 2 ^ 50) (-g) (-G) := ((hg.1.near h0.le).mono (by
    have : 13 / 2 ^ 50 * G ≤ 13 / 2 ^ 50 * 1 := mul_le_mul_of_nonneg_left h1 (by positivity)
    linarith)).neg
  have hGD : |(-G) * D| ≤ 8 := by
    rw [abs_mul, abs_neg, abs_of_pos h0]
    nlinarith [abs_nonneg D]
  have hGa : |(-G)| ≤ 1 := by rw [abs_neg, abs_of_pos h0]; exact h1
  have herr : 13 / 2 ^ 50 * |D| + |(-G)| * (800 / 2 ^ 50) + 13 / 2 ^ 50 * (800 / 2 ^ 50) ≤ 905 / 2 ^ 50 := by
    generalize |D| = u at *
    generalize |(-G)| = w at *
    norm_num
    linarith
  have n2 := (near_mul n1 ht (M := 9) (by
    refine (add_le_add hGD herr).trans (by norm_num)) (by norm_num) (le_huge 4 (by norm_num) (by norm_num))).mono
      (δ := 910 / 2 ^ 50) ((add_le_add_left herr _).trans (by norm_num))
  have hsz : |(-g * t).toR| ≤ 64 := by
    have := abs_le.1 n2.2
    have := abs_le.1 hGD
    rw [abs_le]
    constructor <;> norm_num at * <;> linarith
  have hx := exp_rel A n2.1 hsz
  obtain ⟨fx, δ, hδ, ex⟩ := hx
  refine Rel.of_near (Real.exp_pos _) ⟨fx, ?_⟩
  have e : Real.exp (-g * t).toR = Real.exp (-(G * D)) * Real.exp ((-g * t).toR - (-G * D)) := by
    rw [← Real.exp_add]; congr 1; ring
  have hz := n2.2
  generalize (-g * t).toR - (-G * D) = z at e hz
  have hz' := abs_le.1 hz
  have hz1 := Real.abs_exp_sub_one_le (x := z) (hz.trans (by norm_num))
  have hz2 := Real.norm_exp_sub_one_sub_id_le (x := z) (by rw [Real.norm_eq_abs]; exact hz.trans (by norm_num))
  rw [Real.norm_eq_abs, Real.norm_eq_abs, sq_abs] at hz2
  have hz3 : z ^ 2 ≤ 1 / 2 ^ 50 := by
    rw [← sq_abs]
    refine (pow_le_pow_left₀ (abs_nonneg _) hz 2).trans (by norm_num)
  have hz4 := abs_le.1 (hz2.trans hz3)
  rw [ex, e]
  have hp := Real.exp_pos (-(G * D))
  generalize Real.exp (-(G * D)) = X at *
  generalize Real.exp z = w at *
  rw [show X * w * (1 + δ) - X = (w * (1 + δ) - 1) * X by ring, abs_mul, abs_of_pos hp]
  apply mul_le_mul_of_nonneg_right _ hp.le
  have hδ' := abs_le.1 hδ
  have hw : |w - 1| ≤ 911 / 2 ^ 50 := by
    rw [abs_le]; constructor <;> norm_num at * <;> linarith
  rw [show w * (1 + δ) - 1 = (w - 1) + δ + (w - 1) * δ by ring]
  refine (abs_add_le _ _).trans ((add_le_add (abs_add_le _ _) le_rfl).trans ?_)
  rw [abs_mul]
  have := mul_le_mul hw hδ (abs_nonneg _) (by norm_num)
  refine (add_le_add (add_le_add hw hδ) this).trans (by norm_num)

/-- The expected score and its complement, given the odds. -/
theorem score_rel {X : ℝ} (hx : Rel 1000 x X) (h0 : 1 / 1500 ≤ X) (h1 : X ≤ 1500) :
    Ap 1002 12 (Flt.recip ((1.0 : FP E) + x)) (1 / (1 + X)) ∧
    Ap 4100 12 ((1.0 : FP E) - Flt.recip ((1.0 : FP E) + x)) (1 - 1 / (1 + X)) := by
  have hX : 0 < X := lt_of_lt_of_le (by norm_num) h0
  have ax : Ap 1000 11 x X := ⟨hx, le_trans (by norm_num) h0, h1.trans (by norm_num)⟩
  have a1 := ((one_ap (E := E)).mono (k' := 1000) (n' := 11) (by norm_num) (by norm_num)).add ax (by norm_num)
    (by norm_num)
  have a2 := (a1.recip (by norm_num) (by norm_num)).mono (k' := 1002) (n' := 12) (by norm_num) (by norm_num)
  refine ⟨a2, ?_⟩
  have hq : 1 - 1 / (1 + X) = X / (1 + X) := by field_simp; ring
  have hm : Mid 12 (1 - 1 / (1 + X)) := by
    rw [hq]
    constructor
    · rw [le_div_iff₀ (by linarith)]; norm_num; linarith
    · rw [div_le_iff₀ (by linarith)]; norm_num; linarith
  refine ⟨?_, hm⟩
  obtain ⟨fx, δ, hδ, ex⟩ := hx
  have hxp := (ax.1.pos (by norm_num) hX).1
  have o1 : Ap 0 12 (1.0 : FP E) 1 := (one_ap (E := E)).mono le_rfl (by norm_num)
  have hδ' := abs_le.1 hδ
  have hxt : Ap 0 12 x x.toR := ⟨Rel.exact fx, by rw [ex]; norm_num at *; nlinarith, by
    rw [ex]; norm_num at *; nlinarith⟩
  have b1 := (o1.add hxt (by norm_num) (by norm_num)).recip (by norm_num) (by norm_num)
  obtain ⟨fe, η, hη, ee⟩ := b1.1
  obtain ⟨s, es⟩ := sub_fin (one_in (E := E)).finite fe
  have e1 : (1.0 : FP E).toR = 1 := le_antisymm one_in.toR.2 one_in.toR.1
  rw [es, e1, ee]
  generalize x.toR = Y at *
  have hq0 : 0 < X / (1 + X) := by positivity
  have hd : |(1 - 1 / (1 + Y) * (1 + η)) / (X / (1 + X)) - 1| ≤ 4010 / 2 ^ 50 := by
    have eq : (1 - 1 / (1 + Y) * (1 + η)) / (X / (1 + X)) - 1 = δ / (1 + Y) - η * ((1 + X) / (X * (1 + Y))) := by
      rw [ex] at hxp ⊢
      field_simp
      ring
    rw [eq]
    refine (abs_sub _ _).trans ?_
    rw [abs_div, abs_of_pos (by linarith : 0 < 1 + Y), abs_mul, abs_of_pos (by positivity : 0 < (1 + X) / (X * (1 + Y)))]
    have t1 : |δ| / (1 + Y) ≤ 1000 / 2 ^ 50 := (div_le_self (abs_nonneg _) (by linarith)).trans hδ
    have t2 : (1 + X) / (X * (1 + Y)) ≤ 1501 := by
      rw [div_le_iff₀ (by positivity), ex]
      have hY : 1 - 1 / 2 ^ 20 ≤ 1 + δ := by norm_num at hδ' ⊢; linarith [hδ'.1]
      have hXY : X * (1 - 1 / 2 ^ 20) ≤ X * (1 + δ) := mul_le_mul_of_nonneg_left hY hX.le
      have : X * (1 + X * (1 - 1 / 2 ^ 20)) ≤ X * (1 + X * (1 + δ)) :=
        mul_le_mul_of_nonneg_left (by linarith) hX.le
      nlinarith
    have t3 := mul_le_mul hη t2 (by positivity) (by norm_num)
    refine (add_le_add t1 t3).trans (by norm_num)
  have := rel_round (E := E) (s := s) (a := 1 - 1 / (1 + X)) (v := 1 - 1 / (1 + Y) * (1 + η)) (k := 4010)
    (d := (1 - 1 / (1 + Y) * (1 + η)) / (X / (1 + X)) - 1) hm.pos (hm.mono (by norm_num : 12 ≤ 900)).1
    (hm.mono (by norm_num : 12 ≤ 900)).2 hd (by norm_num) (by rw [hq]; field_simp; ring)
  exact this.mono (by norm_num)

/-! ### Bounds of the exact quantities -/

theorem phi_le {d : ℝ} (h0 : 0 ≤ d) (h1 : d ≤ 1000) : glicko2Phi d ^ 2 ≤ 34 ∧ 0 ≤ glicko2Phi d := by
  rw [glicko2Phi, scale_eq]
  have : 0 ≤ d / (1737178 / 10000) := by positivity
  have : d / (1737178 / 10000) ≤ 58 / 10 := by rw [div_le_iff₀ (by norm_num)]; linarith
  exact ⟨by nlinarith, by assumption⟩

theorem g2_sq (φ : ℝ) : glicko2G φ ^ 2 = 1 / (1 + 3 * φ ^ 2 / Real.pi ^ 2) := by
  rw [glicko2G, div_pow, one_pow, Real.sq_sqrt (by positivity)]

theorem g2_ge {φ : ℝ} (h : φ ^ 2 ≤ 34) : 1 / 12 ≤ glicko2G φ ^ 2 ∧ glicko2G φ ^ 2 ≤ 1 := by
  have hp : 9.8 ≤ Real.pi ^ 2 := by have := Real.pi_gt_d2; nlinarith
  rw [g2_sq]
  have h2 : 3 * φ ^ 2 / Real.pi ^ 2 ≤ 11 := by rw [div_le_iff₀ (by positivity)]; nlinarith
  have h3 : 0 ≤ 3 * φ ^ 2 / Real.pi ^ 2 := by positivity
  exact ⟨one_div_le_one_div_of_le (by linarith) (by linarith), by rw [div_le_one (by linarith)]; linarith⟩

section
variable {G X Y : ℝ}

/-- The variance of a score. -/
theorem score_var (hX : 0 < X) : 1 / (1 + X) * (1 - 1 / (1 + X)) = 1 / (X + 2 + 1 / X) := by
  field_simp
  ring

theorem odds_bound (h0 : 1 / Y ≤ X) (h1 : X ≤ Y) (hY : 1 ≤ Y) (h2 : Y ≤ 1300) :
    0 < X ∧ 4 ≤ X + 2 + 1 / X ∧ X + 2 + 1 / X ≤ 1303 ∧ 1 / X ≤ Y := by
  have hX : 0 < X := lt_of_lt_of_le (by positivity) h0
  have hi : 1 / X ≤ Y := by rw [one_div_le hX (by linarith)]; exact h0
  refine ⟨hX, ?_, ?_, hi⟩
  · have : 0 ≤ (X - 1) ^ 2 / X := by positivity
    have e : (X - 1) ^ 2 / X = X - 2 + 1 / X := by field_simp; ring
    linarith
  · rcases le_total X 1 with h | h
    · linarith
    · have : 1 / X ≤ 1 := by rw [div_le_one hX]; exact h
      linarith

/-- The variance of step 3 for one game. -/
theorem v_bound (h0 : 1 / Y ≤ X) (h1 : X ≤ Y) (hY : 1 ≤ Y) (h2 : Y ≤ 1300) (g0 : 1 / 12 ≤ G ^ 2) (g1 : G ^ 2 ≤ 1) :
    4 ≤ 1 / (G ^ 2 * (1 / (1 + X)) * (1 - 1 / (1 + X))) ∧
      1 / (G ^ 2 * (1 / (1 + X)) * (1 - 1 / (1 + X))) ≤ 15700 := by
  obtain ⟨hX, b1, b2, -⟩ := odds_bound h0 h1 hY h2
  rw [mul_assoc, score_var hX]
  generalize X + 2 + 1 / X = w at *
  have hg : 0 < G ^ 2 := by linarith
  rw [mul_one_div, one_div_div]
  constructor
  · rw [le_div_iff₀ hg]; nlinarith
  · rw [div_le_iff₀ hg]; nlinarith

/-- The improvement of step 4, compared with the variance. -/
theorem delta_bound {p : ℝ} (h0 : 1 / Y ≤ X) (h1 : X ≤ Y) (hY : 1 ≤ Y) (h2 : Y ≤ 1300) (hG : 0 < G)
    (p0 : 0 ≤ p) (p1 : p ≤ 1) :
    (1 / (G ^ 2 * (1 / (1 + X)) * (1 - 1 / (1 + X))) * (G * (p - 1 / (1 + X)))) ^ 2 ≤
      Y * (1 / (G ^ 2 * (1 / (1 + X)) * (1 - 1 / (1 + X)))) := by
  obtain ⟨hX, b1, b2, hi⟩ := odds_bound h0 h1 hY h2
  have he : 0 < 1 / (1 + X) := by positivity
  have he' : 0 < 1 - 1 / (1 + X) := by
    rw [sub_pos, div_lt_one (by linarith)]; linarith
  have r1 : 1 - 1 / (1 + X) = X * (1 / (1 + X)) := by field_simp; ring
  have r2 : 1 / (1 + X) ≤ Y * (1 - 1 / (1 + X)) := by
    have : 1 / (1 + X) = 1 / X * (1 - 1 / (1 + X)) := by rw [r1]; field_simp
    calc 1 / (1 + X) = 1 / X * (1 - 1 / (1 + X)) := this
      _ ≤ Y * (1 - 1 / (1 + X)) := mul_le_mul_of_nonneg_right hi he'.le
  have r3 : 1 - 1 / (1 + X) ≤ Y * (1 / (1 + X)) := r1.le.trans (mul_le_mul_of_nonneg_right h1 he.le)
  clear r1
  generalize 1 / (1 + X) = e at *
  have hv : 0 < G ^ 2 * e * (1 - e) := by positivity
  have : (p - e) ^ 2 ≤ Y * (e * (1 - e)) := by
    have q1 : e * e ≤ Y * (1 - e) * e := mul_le_mul_of_nonneg_right r2 he.le
    have q2 : (1 - e) * (1 - e) ≤ Y * e * (1 - e) := mul_le_mul_of_nonneg_right r3 he'.le
    rcases le_total p e with h | h
    · nlinarith
    · nlinarith
  have e1 : (1 / (G ^ 2 * e * (1 - e)) * (G * (p - e))) ^ 2 =
      (p - e) ^ 2 * (1 / (e * (1 - e))) * (1 / (G ^ 2 * e * (1 - e))) := by field_simp
  rw [e1]
  apply mul_le_mul_of_nonneg_right _ (by positivity)
  rw [mul_one_div, div_le_iff₀ (by positivity)]
  exact this

/-! ### The computed quantities -/

/-- The quantities of step 5 for one game. -/
theorem game_near (L : E.Lib) {a g e p : FP E} {φ P : ℝ} (ha : Ap 2 18 a φ) (hφ : φ ^ 2 ≤ 34)
    (hg : Ap 13 43 g G) (g0 : 1 / 12 ≤ G ^ 2) (g1 : G ^ 2 ≤ 1)
    (h0 : 1 / Y ≤ X) (h1 : X ≤ Y) (hY : 1 ≤ Y) (h2 : Y ≤ 1300)
    (he : Ap 1002 12 e (1 / (1 + X))) (he' : Ap 4100 12 ((1.0 : FP E) - e) (1 - 1 / (1 + X)))
    (hp : In (E := E) (P : EReal) (P : EReal) p) (p0 : 0 ≤ P) (p1 : P ≤ 1) :
    Ap 5132 110 (vValue g e) (1 / (G ^ 2 * (1 / (1 + X)) * (1 - 1 / (1 + X)))) ∧
    Near (1004 / 2 ^ 50) (p - e) (P - 1 / (1 + X)) ∧
    VolNear (Flt.powi (deltaValue p (vValue g e) g e) 2) (Flt.powi a 2) (vValue g e)
      (1 / (G ^ 2 * (1 / (1 + X)) * (1 - 1 / (1 + X))) * (G * (P - 1 / (1 + X)))) φ
      (1 / (G ^ 2 * (1 / (1 + X)) * (1 - 1 / (1 + X)))) := by
  obtain ⟨hX, b1, b2, -⟩ := odds_bound h0 h1 hY h2
  have hG := hg.2.pos
  obtain ⟨v4, v5⟩ := v_bound h0 h1 hY h2 g0 g1
  have hd := delta_bound h0 h1 hY h2 hG p0 p1
  have hv : Ap 5132 110 (vValue g e) (1 / (G ^ 2 * (1 / (1 + X)) * (1 - 1 / (1 + X)))) :=
    ((((hg.sq L (by norm_num) (by norm_num)).mul he (by norm_num) (by norm_num) (by norm_num)).mul he'
      (by norm_num) (by norm_num) (by norm_num)).recip (by norm_num) (by norm_num)).mono (by norm_num) (by norm_num)
  have e0 : 0 < 1 / (1 + X) := by positivity
  have e1 : 1 / (1 + X) ≤ 1 := by rw [div_le_one (by linarith)]; linarith
  have hpe : |P - 1 / (1 + X)| ≤ 1 := by rw [abs_le]; constructor <;> linarith
  have hn : Near (1004 / 2 ^ 50) (p - e) (P - 1 / (1 + X)) := by
    have n := near_sub (near_of_in hp) (he.1.near e0.le) (M := 2) (by
      have : 1002 / 2 ^ 50 * (1 / (1 + X)) ≤ 1 := by norm_num at *; linarith
      linarith) (by norm_num) (le_huge 1 (by norm_num) (by norm_num))
    refine n.mono ?_
    norm_num at *
    linarith
  refine ⟨hv, hn, ?_⟩
  have ev : (1 / (G ^ 2 * (1 / (1 + X)) * (1 - 1 / (1 + X))) * G) * (1 / (G ^ 2 * (1 / (1 + X)) * (1 - 1 / (1 + X))) * G)
      ≤ 1303 * (1 / (G ^ 2 * (1 / (1 + X)) * (1 - 1 / (1 + X)))) := by
    rw [mul_assoc (G ^ 2), score_var hX]
    generalize X + 2 + 1 / X = w at *
    have : 1 / (G ^ 2 * (1 / w)) * G * (1 / (G ^ 2 * (1 / w)) * G) = w * (1 / (G ^ 2 * (1 / w))) := by
      have : 0 < w := by linarith
      field_simp
    rw [this]
    exact mul_le_mul_of_nonneg_right b2 (by have : 0 < w := by linarith
                                            positivity)
  generalize 1 / (G ^ 2 * (1 / (1 + X)) * (1 - 1 / (1 + X))) = v at *
  generalize 1 / (1 + X) = q at *
  have big : ∀ {Z : ℝ}, 1 / 2 ^ 300 ≤ Z → Z ≤ 2 ^ 300 → 1 / 2 ^ 800 ≤ Z ∧ Z ≤ 2 ^ 800 := fun h1 h2 =>
    ⟨le_trans (one_div_le_one_div_of_le (by positivity) (pow_le_pow_right₀ (by norm_num) (by norm_num))) h1,
      h2.trans (pow_le_pow_right₀ (by norm_num) (by norm_num))⟩
  have mG := hg.2
  have mvG := (hv.2.mul hg.2)
  have mQ := mvG.mul mvG
  have bG := big ((mG.mono (by norm_num : 43 ≤ 300)).1) ((mG.mono (by norm_num : 43 ≤ 300)).2)
  have bvG := big ((mvG.mono (by norm_num : _ ≤ 300)).1) ((mvG.mono (by norm_num : _ ≤ 300)).2)
  have v0 := hv.2.pos
  have s1 : Sm 1004 (p - e) (P - q) 1 := ⟨by rwa [mul_one], hpe⟩
  have s2 := sm_mul (Sm.of_rel hg.1 hG) s1 (by norm_num) (by norm_num) (by norm_num) (by norm_num)
    (by rw [mul_one]; exact bG.1) (by rw [mul_one]; exact bG.2)
  rw [mul_one] at s2
  have s3 := sm_mul (Sm.of_rel hv.1 v0) s2 (by norm_num) (by norm_num) (by norm_num) (by norm_num) bvG.1 bvG.2
  have bQ : 1 / 2 ^ 800 ≤ (v * G) * (v * G) ∧ (v * G) * (v * G) ≤ 2 ^ 800 :=
    ⟨(mQ.mono (by norm_num : _ ≤ 800)).1, (mQ.mono (by norm_num : _ ≤ 800)).2⟩
  have s4 := sm_mul s3 s3 (by norm_num) (by norm_num) (by norm_num) (by norm_num) bQ.1 bQ.2
  have eQ : Flt.powi (deltaValue p (vValue g e) g e) 2 =
      deltaValue p (vValue g e) g e * deltaValue p (vValue g e) g e := L.powi_two _
  have eP : Flt.powi a 2 = a * a := L.powi_two _
  have aP := ha.sq L (by norm_num) (by norm_num)
  have φ0 := aP.2.pos
  rw [eP] at aP
  have sP := (Sm.of_rel aP.1 aP.2.pos).mono (l := 12303) (by norm_num)
  have hQd : (v * G) * (v * G) ≤ 1303 * 15700 := ev.trans (by linarith)
  have hQ0 : 0 < (v * G) * (v * G) := by positivity
  have up : ∀ {Z : ℝ}, Z ≤ 2 ^ 30 → Z ≤ 2 ^ 800 := fun h => h.trans (pow_le_pow_right₀ (by norm_num) (by norm_num))
  have s5 := sm_sub (s4.mono (l := 12303) (by norm_num)) sP (by norm_num) (by norm_num)
    (le_trans bQ.1 (le_add_of_nonneg_right φ0.le)) (up (by norm_num at *; linarith))
  have s6 := sm_sub (s5.mono (l := 12304) (by norm_num)) ((Sm.of_rel hv.1 v0).mono (l := 12304) (by norm_num)) (by norm_num) (by norm_num)
    (le_trans bQ.1 (by rw [add_assoc]; exact le_add_of_nonneg_right (by positivity))) (up (by norm_num at *; linarith))
  have r4 := v0
  have sV := hv.1.near v0.le
  refine { Qf := eQ ▸ s4.1.1, Pf := eP ▸ aP.1.1, wf := by rw [eQ, eP]; exact s5.1.1, Q0 := ?_, P0 := ?_,
           Vr := hv.1.mono (by norm_num), V1 := ?_, v0 := v0, c := ?_, d := ?_, d1 := ?_ }
  · rw [eQ]
    obtain ⟨s, es⟩ := mul_fin s3.1.1 s3.1.1
    have hf := s4.1.1
    replace es : deltaValue p (vValue g e) g e * deltaValue p (vValue g e) g e = _ := es
    replace hf : (deltaValue p (vValue g e) g e * deltaValue p (vValue g e) g e).isFinite := hf
    rw [es] at hf ⊢
    have := E.round_ge s SRep.zero (mul_self_nonneg (vValue g e * (g * (p - e))).toR)
    rw [isFinite.toE_eq hf, EReal.coe_le_coe_iff] at this
    exact this
  · rw [eP]
    exact (aP.1.pos (by norm_num) aP.2.pos).1.le
  · have := (abs_le.1 sV.2).1
    norm_num at *
    linarith
  · rw [eQ, eP]
    have := s6.1
    rw [← pow_two (v * (G * (P - q)))] at this
    refine Near.mono this ?_
    have : v * G * (v * G) + φ ^ 2 + v ≤ 1304 * (φ ^ 2 + v) := by nlinarith
    generalize v * G * (v * G) + φ ^ 2 + v = z at *
    norm_num at *
    linarith
  · rw [eP]
    have := rel_add (aP.1.mono (by norm_num : _ ≤ (5132 : ℝ))) hv.1 aP.2.pos v0 (by norm_num)
      (le_trans (one_div_le_one_div_of_le (by positivity) (pow_le_pow_right₀ (by norm_num) (by norm_num : 2 ≤ 900)))
        (le_trans (by norm_num : (1 : ℝ) / 2 ^ 2 ≤ 4) (by linarith)))
      (le_trans (by norm_num at *; linarith : φ ^ 2 + v ≤ 2 ^ 20) (pow_le_pow_right₀ (by norm_num) (by norm_num)))
    exact this.mono (by norm_num)
  · norm_num at *
    linarith

end

end Glicko2
end Skillratings
