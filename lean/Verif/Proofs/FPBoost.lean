import Verif.Proofs.FPDwz
import Verif.Proofs.GlickoBoost
import Verif.Props.FloatAccuracySticko
/-
Rounding errors of the parts of a Glicko-Boost update.
-/

namespace Skillratings
open FP FPVal Spec
variable {E : FloatEnv}

namespace FP
variable {x y z : FP E} {a b c k l m ε : ℝ}

/-- The fused product and sum with a nonnegative number that is known exactly. -/
theorem rel_mulAdd_exact (hx : Rel k x a) (hy : Rel l y b) (ha : 0 < a) (hb : 0 < b) (hf : z.isFinite)
    (h0 : 0 ≤ z.toR) (hk : k ≤ 2 ^ 22) (hl : l ≤ 2 ^ 22) (h1 : 1 / 2 ^ 900 ≤ a * b + z.toR)
    (h2 : a * b + z.toR ≤ 2 ^ 900) : Rel (k + l + 1) (Flt.mulAdd x y z) (a * b + z.toR) := by
  have k0 := hx.nonneg
  have l0 := hy.nonneg
  obtain ⟨fx, α, hα, ex⟩ := hx
  obtain ⟨fy, β, hβ, ey⟩ := hy
  obtain ⟨s, e⟩ := mulAdd_fin fx fy hf
  have hab : 0 < a * b := mul_pos ha hb
  have hp : |(1 + α) * (1 + β) - 1| ≤ (k + l + 1 / 4) / 2 ^ 50 := by
    rw [show (1 + α) * (1 + β) - 1 = α + β + α * β by ring]
    refine (abs_add_le _ _).trans (le_trans (add_le_add (abs_add_le _ _) le_rfl) ?_)
    rw [abs_mul]
    have h3 : |α| * |β| ≤ 1 / 2 ^ 28 * (1 / 2 ^ 28) :=
      mul_le_mul (hα.trans (by norm_num at hk ⊢; linarith)) (hβ.trans (by norm_num at hl ⊢; linarith))
        (abs_nonneg _) (by positivity)
    norm_num at hα hβ h3 ⊢
    linarith
  have hd : |a * b * ((1 + α) * (1 + β) - 1) / (a * b + z.toR)| ≤ (k + l + 1 / 4) / 2 ^ 50 := by
    rw [abs_div, abs_of_pos (by linarith : 0 < a * b + z.toR), div_le_iff₀ (by linarith), abs_mul, abs_of_pos hab,
      mul_comm]
    exact mul_le_mul hp (by linarith) hab.le (by positivity)
  have := rel_round (E := E) (s := s) (a := a * b + z.toR) (v := x.toR * y.toR + z.toR) (by linarith) h1 h2 hd
    (by norm_num at hk hl ⊢; linarith) (by
      rw [ex, ey]
      have : a * b + z.toR ≠ 0 := by linarith
      field_simp
      ring)
  rw [e]
  exact this.mono (by linarith)

/-- The fused square and sum, when the summand is known less well. -/
theorem rel_square_add (hx : Rel k x a) (hz : Rel m z c) (ha : 0 < a) (hc : 0 < c)
    (hk : k ≤ 2 ^ 22) (hm : m ≤ 2 ^ 28) (hkm : 2 * k + 1 / 4 ≤ m) (h1 : 1 / 2 ^ 900 ≤ a * a + c)
    (h2 : a * a + c ≤ 2 ^ 900) : Rel (m + 1) (Flt.mulAdd x x z) (a * a + c) := by
  have k0 := hx.nonneg
  obtain ⟨fx, α, hα, ex⟩ := hx
  obtain ⟨fz, γ, hγ, ez⟩ := hz
  obtain ⟨s, e⟩ := mulAdd_fin fx fx fz
  have hab : 0 < a * a := mul_pos ha ha
  have hp : |(1 + α) * (1 + α) - 1| ≤ m / 2 ^ 50 := by
    rw [show (1 + α) * (1 + α) - 1 = α + α + α * α by ring]
    refine (abs_add_le _ _).trans (le_trans (add_le_add (abs_add_le _ _) le_rfl) ?_)
    rw [abs_mul]
    have h3 : |α| * |α| ≤ 1 / 2 ^ 28 * (1 / 2 ^ 28) :=
      mul_le_mul (hα.trans (by norm_num at hk ⊢; linarith)) (hα.trans (by norm_num at hk ⊢; linarith))
        (abs_nonneg _) (by positivity)
    norm_num at hα h3 ⊢
    linarith
  have hd : |(a * a * ((1 + α) * (1 + α) - 1) + c * γ) / (a * a + c)| ≤ m / 2 ^ 50 := by
    rw [abs_div, abs_of_pos (by linarith : 0 < a * a + c), div_le_iff₀ (by linarith)]
    refine (abs_add_le _ _).trans ?_
    rw [abs_mul (a * a), abs_mul c, abs_of_pos hab, abs_of_pos hc]
    have t1 := mul_le_mul_of_nonneg_left hp hab.le
    have t2 := mul_le_mul_of_nonneg_left hγ hc.le
    calc _ ≤ a * a * (m / 2 ^ 50) + c * (m / 2 ^ 50) := add_le_add t1 t2
      _ = _ := by ring
  have := rel_round (E := E) (s := s) (a := a * a + c) (v := x.toR * x.toR + z.toR) (by linarith) h1 h2 hd hm (by
      rw [ex, ez]
      have : a * a + c ≠ 0 := by linarith
      field_simp
      ring)
  rw [e]
  exact this.mono (by linarith)

/-- A cap, for larger errors. -/
theorem rel_cap_big (hx : Rel k x a) (hy : Rel 0 y b) (ha : 0 < a) (hb : 0 < b) (hk : k ≤ 2 ^ 28) :
    Rel k (Flt.fmin x y) (min a b) := by
  have hk0 := hx.nonneg
  obtain ⟨fx, d, hd, ex⟩ := hx
  obtain ⟨fy, d', hd', ey⟩ := hy
  have e0 : d' = 0 := by simpa using hd'
  rw [e0, add_zero, mul_one] at ey
  have hd1 := abs_le.1 hd
  have hk1 : k / 2 ^ 50 ≤ 1 / 2 := by
    rw [div_le_iff₀ (by positivity)]; norm_num at hk ⊢; linarith
  have hm : 0 < min a b := lt_min ha hb
  refine Rel.of_near hm ?_
  rw [fmin_eq (isFinite.not_nan fx) (isFinite.not_nan fy)]
  have t0 : 0 ≤ k / 2 ^ 50 := by positivity
  generalize k / 2 ^ 50 = t at *
  by_cases h : (y <? x) = true
  · rw [if_pos h]
    rw [lt_iff_toR fy fx, ex, ey] at h
    refine ⟨fy, ?_⟩
    rw [ey, abs_of_nonneg (by linarith [min_le_right a b])]
    rcases le_total a b with hab | hab
    · rw [min_eq_left hab]; nlinarith
    · rw [min_eq_right hab]; nlinarith
  · rw [if_neg h]
    rw [lt_iff_toR fy fx, ex, ey, not_lt] at h
    refine ⟨fx, ?_⟩
    rw [ex, abs_le]
    rcases le_total a b with hab | hab
    · rw [min_eq_left hab]; constructor <;> nlinarith
    · rw [min_eq_right hab]; constructor <;> nlinarith

/-- A sum of positive numbers. -/
theorem rel_sum_pos {β : Type} (l : List β) (f : β → FP E) (h : β → ℝ) {N : ℕ} (hne : l ≠ [])
    (hk : k + l.length ≤ 2 ^ 22) (hN : N ≤ 400) (hf : ∀ r ∈ l, Ap k N (f r) (h r)) :
    Rel (k + l.length) (Flt.sum (l.map f)) (l.map h).sum := by
  have lim : ∀ (l : List β), l.length ≤ 2 ^ 22 → (∀ r ∈ l, Ap k N (f r) (h r)) →
      0 ≤ (l.map h).sum ∧ (l.map h).sum ≤ l.length * 2 ^ N := by
    intro l
    induction l with
    | nil => intro _ _; simp
    | cons r l ih =>
      intro hl hr
      obtain ⟨i1, i2⟩ := ih (by simp only [List.length_cons] at hl; omega) (fun s hs => hr s (by simp [hs]))
      have := (hr r (by simp)).2
      have h1 := this.pos
      have h2 := this.2
      simp only [List.map_cons, List.sum_cons, List.length_cons, Nat.cast_add, Nat.cast_one]
      constructor
      · linarith
      · linarith
  have key : ∀ (l : List β) (acc : FP E) (A κ : ℝ), k ≤ κ → κ + l.length ≤ 2 ^ 22 →
      (∀ r ∈ l, Ap k N (f r) (h r)) → Rel κ acc A → 1 / 2 ^ N ≤ A → A + l.length * 2 ^ N ≤ 2 ^ 22 * 2 ^ N →
      Rel (κ + l.length) ((l.map f).foldl (· + ·) acc) (A + (l.map h).sum) := by
    intro l
    induction l with
    | nil => intro acc A κ _ _ _ h1 _ _; simpa using h1
    | cons r l ih =>
      intro acc A κ hκ hl hr hA h1 h2
      have hr1 := hr r (by simp)
      have p1 := hr1.2.pos
      have p2 := hr1.2.2
      have p3 : 0 < A := lt_of_lt_of_le (by positivity) h1
      simp only [List.length_cons, Nat.cast_add, Nat.cast_one] at hl h2
      have e2 : (0 : ℝ) < 2 ^ N := by positivity
      have hl0 : (0 : ℝ) ≤ l.length := Nat.cast_nonneg _
      have hmid : 1 / 2 ^ 900 ≤ A + h r ∧ A + h r ≤ 2 ^ 900 := by
        constructor
        · refine le_trans ?_ (h1.trans (by linarith))
          exact one_div_le_one_div_of_le (by positivity) (pow_le_pow_right₀ (by norm_num) (by omega))
        · have : A + h r ≤ 2 ^ 22 * 2 ^ N := by nlinarith
          refine this.trans ?_
          rw [← pow_add]
          exact pow_le_pow_right₀ (by norm_num) (by omega)
      have hs := rel_add hA (hr1.1.mono hκ) p3 p1 (by linarith) hmid.1 hmid.2
      have := ih (acc + f r) (A + h r) (κ + 1) (by linarith) (by linarith)
        (fun s hs => hr s (by simp [hs])) hs (by linarith) (by nlinarith)
      simp only [List.map_cons, List.foldl_cons, List.sum_cons, List.length_cons, Nat.cast_add, Nat.cast_one]
      rw [show κ + ((l.length : ℝ) + 1) = κ + 1 + l.length by ring, show A + (h r + (l.map h).sum) = A + h r + (l.map h).sum by ring]
      exact this
  cases l with
  | nil => exact absurd rfl hne
  | cons r l =>
    have hr1 := hf r (by simp)
    have k0 := hr1.1.nonneg
    have p1 := hr1.2.pos
    simp only [List.length_cons, Nat.cast_add, Nat.cast_one] at hk
    have hl0 : (0 : ℝ) ≤ l.length := Nat.cast_nonneg _
    have hmid := hr1.2.mono (show N ≤ 900 by omega)
    have first : Rel (k + 1) ((Flt.sumZero : FP E) + f r) (h r) := by
      obtain ⟨fz, hz⟩ := sumZero_near (E := E)
      have hz0 : (Flt.sumZero : FP E).toR = 0 := by
        rw [sub_zero] at hz
        exact abs_eq_zero.1 (le_antisymm hz (abs_nonneg _))
      obtain ⟨fx, d, hd, ex⟩ := hr1.1
      obtain ⟨s, e⟩ := add_fin fz fx
      rw [e]
      refine (rel_round p1 hmid.1 hmid.2 hd (by norm_num at hk ⊢; linarith) ?_).mono (by linarith)
      rw [hz0, ex, zero_add]
    have e2 : (0 : ℝ) < 2 ^ N := by positivity
    have := key l _ _ (k + 1) (by linarith) (by linarith) (fun s hs => hf s (by simp [hs])) first hr1.2.1 (by
      have h2 := hr1.2.2
      have : (1 + (l.length : ℝ)) * 2 ^ N ≤ 2 ^ 22 * 2 ^ N :=
        mul_le_mul_of_nonneg_right (by linarith) e2.le
      linarith)
    simp only [List.length_cons, Nat.cast_add, Nat.cast_one, List.map_cons, List.sum_cons]
    rw [show k + ((l.length : ℝ) + 1) = k + 1 + l.length by ring]
    exact this

/-- The exponential function, for larger errors. -/
theorem exp_rel_big (A : E.Accurate) {t : FP E} {T τ : ℝ} (ht : Near (τ / 2 ^ 50) t T) (hT : |T| ≤ 200)
    (hτ : τ ≤ 2 ^ 26) : Ap (2 * τ + 2) 300 (Flt.exp t) (Real.exp T) := by
  have hτ0 : 0 ≤ τ := by
    have := (abs_nonneg _).trans ht.2
    by_contra h
    have : τ / 2 ^ 50 < 0 := div_neg_of_neg_of_pos (not_le.1 h) (by positivity)
    linarith
  have hd := ht.2
  have hτ' : τ / 2 ^ 50 ≤ 1 / 2 ^ 24 := by norm_num at hτ ⊢; linarith
  have h := A.exp t ht.1 (by
    have := ht.abs_le
    norm_num at hτ' ⊢; linarith)
  set d := t.toR - T with hdd
  have e1 : Real.exp t.toR = Real.exp T * Real.exp d := by
    rw [← Real.exp_add, hdd]; congr 1; ring
  have h3 : |Real.exp d - 1| ≤ 2 * |d| := by
    have := Real.abs_exp_sub_one_le (x := d) (by norm_num at hτ' ⊢; linarith)
    exact this
  have hm : Mid 300 (Real.exp T) := by
    have key : ∀ y : ℝ, y ≤ 200 → Real.exp y ≤ 2 ^ 300 := by
      intro y hy
      have h2 : (2 : ℝ) ^ 300 = Real.exp (300 * Real.log 2) := by
        rw [show (300 : ℝ) = ((300 : ℕ) : ℝ) by norm_num, Real.exp_nat_mul, Real.exp_log (by norm_num)]
      rw [h2]
      exact Real.exp_le_exp.2 (by have := Real.log_two_gt_d9; linarith)
    refine ⟨?_, key T (le_of_abs_le hT)⟩
    have := key (-T) (by have := neg_le_of_abs_le hT; linarith)
    rw [div_le_iff₀ (by positivity)]
    have h4 := mul_le_mul_of_nonneg_left this (Real.exp_pos T).le
    rwa [← Real.exp_add, add_neg_cancel, Real.exp_zero] at h4
  refine ⟨Rel.of_near hm.pos ⟨h.1, ?_⟩, hm⟩
  have h5 := h.2
  have hp := hm.pos
  have e2 : (Flt.exp t).toR - Real.exp T
      = ((Flt.exp t).toR - Real.exp t.toR) + Real.exp T * (Real.exp d - 1) := by rw [e1]; ring
  rw [e2]
  refine (abs_add_le _ _).trans ?_
  rw [abs_mul, abs_of_pos hp]
  have h6 : Real.exp t.toR ≤ Real.exp T * 2 := by
    rw [e1]
    refine mul_le_mul_of_nonneg_left ?_ hp.le
    have := (abs_le.1 h3).2
    norm_num at hτ' ⊢
    linarith
  have h7 : Real.exp T * |Real.exp d - 1| ≤ Real.exp T * (2 * (τ / 2 ^ 50)) :=
    mul_le_mul_of_nonneg_left (h3.trans (by linarith)) hp.le
  have h8 : Real.exp t.toR / 2 ^ 50 ≤ Real.exp T * 2 / 2 ^ 50 := by gcongr
  calc _ ≤ Real.exp T * 2 / 2 ^ 50 + Real.exp T * (2 * (τ / 2 ^ 50)) := add_le_add (h5.trans h8) h7
    _ = _ := by ring

/-- A power of ten whose exponent is known well. -/
theorem ten_rel (A : E.Accurate) {t : FP E} {T : ℝ} (ht : Near (74 / 2 ^ 50) t T) (hT : |T| ≤ 200) :
    Rel 174 (Flt.powf (10.0 : FP E) t) ((10 : ℝ) ^ T) := by
  have hd := ht.2
  have h := A.powf_ten (10.0 : FP E) t (le_antisymm ten_in.2.2 ten_in.2.1) ht.1 (by
    have := ht.abs_le
    norm_num at this ⊢; linarith)
  have hp : (0 : ℝ) < 10 ^ T := by positivity
  have l0 := log_ten_pos
  have l1 := log_ten_lt
  set d := t.toR - T with hdd
  have e1 : (10 : ℝ) ^ t.toR = 10 ^ T * Real.exp (Real.log 10 * d) := by
    rw [show t.toR = T + d by rw [hdd]; ring, Real.rpow_add (by norm_num), Real.rpow_def_of_pos (by norm_num) d]
  have hs : |Real.log 10 * d| ≤ 172 / 2 ^ 50 := by
    rw [abs_mul, abs_of_pos l0]
    calc Real.log 10 * |d| ≤ 2.303 * (74 / 2 ^ 50) := mul_le_mul (by norm_num at l1 ⊢; linarith) hd (abs_nonneg _) (by norm_num)
      _ ≤ _ := by norm_num
  set s := Real.log 10 * d with hss
  have h3 : |Real.exp s - 1| ≤ 172.5 / 2 ^ 50 := by
    have := Real.abs_exp_sub_one_sub_id_le (x := s) (by norm_num at hs ⊢; linarith)
    have h4 : s ^ 2 ≤ (172 / 2 ^ 50) ^ 2 := by
      rw [← sq_abs]; exact pow_le_pow_left₀ (abs_nonneg _) hs 2
    rw [show Real.exp s - 1 = (Real.exp s - 1 - s) + s by ring]
    refine (abs_add_le _ _).trans ?_
    norm_num at this hs h4 ⊢
    linarith
  refine Rel.of_near hp ⟨h.1, ?_⟩
  have h5 := h.2
  have e2 : (Flt.powf (10.0 : FP E) t).toR - 10 ^ T
      = ((Flt.powf (10.0 : FP E) t).toR - 10 ^ t.toR) + 10 ^ T * (Real.exp s - 1) := by rw [e1]; ring
  rw [e2]
  refine (abs_add_le _ _).trans ?_
  rw [abs_mul, abs_of_pos hp]
  have h6 : (10 : ℝ) ^ t.toR ≤ 10 ^ T * (1 + 1 / 4) := by
    rw [e1]
    refine mul_le_mul_of_nonneg_left ?_ hp.le
    have := (abs_le.1 h3).2
    norm_num at this ⊢
    linarith
  have h7 : (10 : ℝ) ^ T * |Real.exp s - 1| ≤ 10 ^ T * (172.5 / 2 ^ 50) :=
    mul_le_mul_of_nonneg_left h3 hp.le
  have h8 : (10 : ℝ) ^ t.toR / 2 ^ 50 ≤ 10 ^ T * (1 + 1 / 4) / 2 ^ 50 := by gcongr
  refine (add_le_add (h5.trans h8) h7).trans ?_
  rw [show (10 : ℝ) ^ T * (1 + 1 / 4) / 2 ^ 50 + 10 ^ T * (172.5 / 2 ^ 50) = (173.75 / 2 ^ 50) * 10 ^ T by ring]
  exact mul_le_mul_of_nonneg_right (by norm_num) hp.le

end FP

/-! ### A game -/

/-- A rating of magnitude at most `2 ^ 13` and a deviation between `2 ^ -10` and `350`. -/
def BoostUsual (a : GlickoBoost.GlickoBoostRating (FP E)) : Prop :=
  Within (2 ^ 13) a.rating ∧ Between (1 / 2 ^ 10) 350 a.deviation

/-- The expected score and its complement, when the ratings are not too far apart. -/
theorem boost_parts (L : E.Lib) (A : E.Accurate) (P : E.Precise) {r h col : FP E} {κ : ℝ}
    {b : GlickoBoost.GlickoBoostRating (FP E)} (hr : Within (2 ^ 13) r) (hb : BoostUsual b)
    (hh : Within (2 ^ 10) h) (hc : Near 0 col κ) (hκ : |κ| = 1)
    (hD : |r.toR + h.toR * κ - b.rating.toR| ≤ 800) :
    let g := GlickoBoost.gValue (Flt.ln (10.0 : FP E) / (400.0 : FP E)) b.deviation
    let e := GlickoBoost.eValue g r b.rating h col
    let p := glickoE (r.toR + h.toR * κ) b.rating.toR b.deviation.toR
    Ap 15 60 g (glickoG b.deviation.toR) ∧ Ap 176 8 e p ∧ Ap 17877 8 ((1.0 : FP E) - e) (1 - p) ∧
      1 / 101 ≤ p ∧ p ≤ 100 / 101 := by
  intro g e p
  have hg : Ap 15 60 g (glickoG b.deviation.toR) :=
    (g_ap L P (by norm_num) ((Between.ap ⟨hb.2.1, hb.2.2.1, hb.2.2.2.trans (by norm_num)⟩).mono le_rfl (by norm_num))).mono
      (k' := 15) (by norm_num) le_rfl
  have g01 := glickoG01 b.deviation.toR
  have r2 := hr.2
  have b2 := hb.1.2
  have h2 := hh.2
  have hhk : |κ * h.toR| ≤ 2 ^ 10 := by rw [abs_mul, hκ, one_mul]; exact h2
  have hs : |κ * h.toR + r.toR| ≤ 2 ^ 10 + 2 ^ 13 := (abs_add_le _ _).trans (add_le_add hhk r2)
  have t1 := near_mulAdd hc hh.near hr.near (M := 2 ^ 14) (by
    norm_num at hs ⊢; linarith) (by norm_num) (le_huge 14 (by norm_num) (by norm_num))
  rw [show κ * h.toR + r.toR = r.toR + h.toR * κ by ring] at t1
  have t2 := (near_sub t1 hb.1.near (M := 2 ^ 10) (by
    norm_num at hD ⊢; linarith) (by norm_num) (le_huge 14 (by norm_num) (by norm_num))).mono (δ := 9000 / 2 ^ 50)
    (by norm_num)
  set D := r.toR + h.toR * κ - b.rating.toR with hDd
  set G := glickoG b.deviation.toR with hG
  have n1 : Near (15 / 2 ^ 50) (-g) (-G) := ((hg.1.near g01.1.le).mono (by
    have := g01.2
    norm_num; linarith)).neg
  have hGD : |-G * D| ≤ 800 := by
    rw [abs_mul, abs_neg, abs_of_pos g01.1]
    calc _ ≤ 1 * 800 := mul_le_mul g01.2 hD (abs_nonneg _) (by norm_num)
      _ = _ := by norm_num
  have g2 := g01.2
  have n2 := (near_mul n1 t2 (M := 801) (by
    rw [abs_neg, abs_of_pos g01.1]
    norm_num at hD hGD g2 ⊢
    linarith) (by norm_num) (le_huge 14 (by norm_num) (by norm_num))).mono (δ := 21500 / 2 ^ 50) (by
    rw [abs_neg, abs_of_pos g01.1]
    norm_num at hD g2 ⊢
    linarith)
  have h400 := near_of_in (lit_in (E := E) (m := 4000) (s := true) (e := 1) (v := 400) (by norm_num)
    (SRep.ofNat 400 (by norm_num)))
  have n3 := (near_div_const n2 h400 (by norm_num) (M := 3) (by
    rw [div_le_iff₀ (by norm_num)]
    norm_num at hGD ⊢
    linarith) (by norm_num) (le_huge 2 (by norm_num) (by norm_num))).mono (δ := 74 / 2 ^ 50) (by norm_num)
  have hT : |-G * D / 400| ≤ 2 := by
    rw [abs_div, abs_of_pos (by norm_num : (0 : ℝ) < 400), div_le_iff₀ (by norm_num)]
    linarith
  have n4 := ten_rel A n3 (hT.trans (by norm_num))
  have hT1 := abs_le.1 hT
  have hX1 : (10 : ℝ) ^ (-G * D / 400) ≤ 100 :=
    (Real.rpow_le_rpow_of_exponent_le (by norm_num) hT1.2).trans (by norm_num)
  have hX0 : 1 / 100 ≤ (10 : ℝ) ^ (-G * D / 400) :=
    le_trans (by norm_num [Real.rpow_neg]) (Real.rpow_le_rpow_of_exponent_le (by norm_num) hT1.1)
  have hp : p = 1 / (1 + (10 : ℝ) ^ (-G * D / 400)) := by
    change 1 / (1 + (10 : ℝ) ^ (-(G * D / 400))) = _
    rw [show -(G * D / 400) = -G * D / 400 by ring]
  set X := (10 : ℝ) ^ (-G * D / 400) with hX
  have hone : Ap 0 0 (1.0 : FP E) 1 := ⟨lit_rel one_in, by norm_num, by norm_num⟩
  have n5 := (hone.mono (by norm_num) (by norm_num)).add (show Ap 174 7 _ X from ⟨n4, by norm_num; linarith,
    by norm_num; linarith⟩) (by norm_num) (by norm_num)
  have n6 := n5.recip (by norm_num) (by norm_num)
  rw [← hp] at n6
  have hp1 : p ≤ 100 / 101 := by
    rw [hp, div_le_div_iff₀ (by linarith) (by norm_num)]; linarith
  have hp0 : 1 / 101 ≤ p := by
    rw [hp, div_le_div_iff₀ (by norm_num) (by linarith)]; linarith
  have n7 : Ap 176 8 e p := n6.mono (by norm_num) (by norm_num)
  refine ⟨hg, n7, ⟨Rel.of_near (by linarith) ?_, by norm_num; linarith, by norm_num; linarith⟩, hp0, hp1⟩
  have n8 : Near (176 / 2 ^ 50) e p := (n7.1.near (by linarith)).mono (by norm_num; linarith)
  refine (near_sub (near_of_in one_in) n8 (M := 2) (by
    rw [abs_of_nonneg (by linarith)]; norm_num; linarith) (by norm_num) (le_huge 2 (by norm_num) (by norm_num))).mono ?_
  norm_num; linarith

/-- `g` is not small. -/
theorem glickoG_sq_ge {d : ℝ} (h0 : 0 ≤ d) (hd : d ≤ 350) : 44 / 100 ≤ glickoG d ^ 2 := by
  have q2 := glickoQ_sq
  have hpi := Real.pi_gt_d2
  have h1 : 3 * glickoQ ^ 2 * d ^ 2 / Real.pi ^ 2 ≤ 1.25 := by
    rw [div_le_iff₀ (by positivity)]
    have h2 : d ^ 2 ≤ 122500 := by nlinarith
    have h3 : glickoQ ^ 2 * d ^ 2 ≤ 1 / 30000 * 122500 := mul_le_mul q2 h2 (by positivity) (by norm_num)
    nlinarith
  rw [glickoG, div_pow, Real.sq_sqrt (by positivity), one_pow, div_le_div_iff₀ (by norm_num) (by positivity)]
  norm_num at h1 ⊢
  linarith

/-- The variance of the score of a game. -/
theorem boost_var (L : E.Lib) (A : E.Accurate) (P : E.Precise) {r h col : FP E} {κ : ℝ}
    {b : GlickoBoost.GlickoBoostRating (FP E)} (hr : Within (2 ^ 13) r) (hb : BoostUsual b)
    (hh : Within (2 ^ 10) h) (hc : Near 0 col κ) (hκ : |κ| = 1)
    (hD : |r.toR + h.toR * κ - b.rating.toR| ≤ 800) :
    let g := GlickoBoost.gValue (Flt.ln (10.0 : FP E) / (400.0 : FP E)) b.deviation
    let e := GlickoBoost.eValue g r b.rating h col
    let p := glickoE (r.toR + h.toR * κ) b.rating.toR b.deviation.toR
    let v := glickoG b.deviation.toR ^ 2 * p * (1 - p)
    Ap 18090 8 (Flt.powi g 2 * e * ((1.0 : FP E) - e)) v ∧ 43 / 10000 ≤ v ∧ v ≤ 1 := by
  intro g e p v
  obtain ⟨h1, h2, h3, h4, h5⟩ := boost_parts L A P hr hb hh hc hκ hD
  change Ap 15 60 g _ at h1
  change Ap 176 8 e p at h2
  change Ap 17877 8 ((1.0 : FP E) - e) (1 - p) at h3
  change 1 / 101 ≤ p at h4
  change p ≤ 100 / 101 at h5
  have g01 := glickoG01 b.deviation.toR
  have gs := glickoG_sq_ge (le_trans (by norm_num) hb.2.2.1) hb.2.2.2
  have gs1 := pow_le_one₀ g01.1.le g01.2 (n := 2)
  have w := ((h1.sq L (by norm_num) (by norm_num)).mul h2 (by norm_num) (by norm_num) (by norm_num)).mul h3
    (by norm_num) (by norm_num) (by norm_num)
  have hpp : 98 / 10000 ≤ p * (1 - p) := by nlinarith
  have hpp1 : p * (1 - p) ≤ 1 := by nlinarith
  have hv : v = glickoG b.deviation.toR ^ 2 * (p * (1 - p)) := mul_assoc _ _ _
  have v1 : 43 / 10000 ≤ v := by
    rw [hv]
    calc (43 / 10000 : ℝ) ≤ 44 / 100 * (98 / 10000) := by norm_num
      _ ≤ _ := mul_le_mul gs hpp (by norm_num) (by positivity)
  have v2 : v ≤ 1 := by rw [hv]; exact mul_le_one₀ gs1 (by linarith) hpp1
  exact ⟨⟨w.1.mono (by norm_num), by norm_num; linarith, by norm_num; linarith⟩, v1, v2⟩

/-- The surprise of a game, weighted. -/
theorem boost_delta (L : E.Lib) (A : E.Accurate) (P : E.Precise) {r h col s : FP E} {κ w : ℝ}
    {b : GlickoBoost.GlickoBoostRating (FP E)} (hr : Within (2 ^ 13) r) (hb : BoostUsual b)
    (hh : Within (2 ^ 10) h) (hc : Near 0 col κ) (hκ : |κ| = 1)
    (hD : |r.toR + h.toR * κ - b.rating.toR| ≤ 800) (hs : Near 0 s w) (hw : 0 ≤ w ∧ w ≤ 1) :
    let g := GlickoBoost.gValue (Flt.ln (10.0 : FP E) / (400.0 : FP E)) b.deviation
    let e := GlickoBoost.eValue g r b.rating h col
    let p := glickoE (r.toR + h.toR * κ) b.rating.toR b.deviation.toR
    (Near (177 / 2 ^ 50) (s - e) (w - p) ∧ |w - p| ≤ 1) ∧
    Near (200 / 2 ^ 50) (g * (s - e)) (glickoG b.deviation.toR * (w - p)) ∧
      |glickoG b.deviation.toR * (w - p)| ≤ 1 := by
  intro g e p
  obtain ⟨h1, h2, h3, h4, h5⟩ := boost_parts L A P hr hb hh hc hκ hD
  change Ap 15 60 g _ at h1
  change Ap 176 8 e p at h2
  change 1 / 101 ≤ p at h4
  change p ≤ 100 / 101 at h5
  have g01 := glickoG01 b.deviation.toR
  have g2 := g01.2
  have n8 : Near (176 / 2 ^ 50) e p := (h2.1.near (by linarith)).mono (by norm_num; linarith)
  have hwp : |w - p| ≤ 1 := abs_le.2 ⟨by linarith [hw.1], by linarith [hw.2]⟩
  have n9 := (near_sub hs n8 (M := 1 + 1 / 2 ^ 40) (by norm_num at hwp ⊢; linarith) (by norm_num)
    (le_huge 2 (by norm_num) (by norm_num))).mono (δ := 177 / 2 ^ 50) (by norm_num)
  have hm : |glickoG b.deviation.toR * (w - p)| ≤ 1 := by
    rw [abs_mul, abs_of_pos g01.1]; exact mul_le_one₀ g2 (abs_nonneg _) hwp
  have n1 : Near (15 / 2 ^ 50) g (glickoG b.deviation.toR) := (h1.1.near g01.1.le).mono (by norm_num; linarith)
  refine ⟨⟨n9, hwp⟩, (near_mul n1 n9 (M := 2) ?_ (by norm_num) (le_huge 2 (by norm_num) (by norm_num))).mono ?_, hm⟩
  · rw [abs_of_pos g01.1]; norm_num at hm hwp ⊢; linarith
  · rw [abs_of_pos g01.1]; norm_num at hwp ⊢; linarith

end Skillratings
