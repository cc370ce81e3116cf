import Verif.Proofs.FPRel
import Verif.Proofs.Glicko
import Verif.Props.FloatAccuracy
/-
Rounding errors of the functions shared by the Glicko systems.
-/

namespace Skillratings
open FP FPVal Spec
variable {E : FloatEnv}

theorem ieee_precise : ieee.Precise where
  ln_ten := by
    intro x hx h
    cases x with
    | nan => exact hx.elim
    | inf s => exact hx.elim
    | fin s m =>
      have hm : signed s m.1 = 10 := h
      have hs : s = false := by
        cases s
        · rfl
        · simp only [signed, if_true] at hm; linarith [m.2.nonneg]
      subst hs
      have hm' : m.1 = 10 := hm
      have e : Ieee.ln (fin false m) = ieeeBase.round false (Real.log 10) := by
        simp only [Ieee.ln, hm', Bool.false_eq_true, if_false]
        rw [if_neg (by norm_num)]
      change Near (E := ieee) _ (Ieee.ln (fin false m)) _
      rw [e]
      have l0 := log_ten_pos
      have l1 := log_ten_lt
      have h1 : 1 / 2 ^ 1000 ≤ |Real.log 10| := by
        rw [abs_of_pos l0]
        have : (1 : ℝ) ≤ Real.log 10 := by
          rw [Real.le_log_iff_exp_le (by norm_num)]
          have := Real.exp_one_lt_d9; linarith
        refine le_trans ?_ this
        rw [div_le_one (by positivity)]; exact one_le_pow₀ (by norm_num)
      have := round_rel (E := ieee) false h1
        (by rw [abs_of_pos l0]; exact le_trans (b := (2 : ℝ) ^ 2) (by linarith) (pow_le_pow_right₀ (by norm_num) (by norm_num)))
      rw [abs_of_pos l0] at this
      exact this.mono (div_le_div_of_nonneg_left l0.le (by positivity) (by norm_num))
  hypot := by
    intro x y hx hy h1 h2
    cases x with
    | nan => exact hx.elim
    | inf s => exact hx.elim
    | fin s m =>
      cases y with
      | nan => exact hy.elim
      | inf s => exact hy.elim
      | fin t n =>
        change Near (E := ieee) (√(signed s m.1 ^ 2 + signed t n.1 ^ 2) / 2 ^ 50)
          (ieeeBase.round false √(signed s m.1 ^ 2 + signed t n.1 ^ 2)) √(signed s m.1 ^ 2 + signed t n.1 ^ 2)
        change 1 / 2 ^ 500 ≤ √(signed s m.1 ^ 2 + signed t n.1 ^ 2) at h1
        change √(signed s m.1 ^ 2 + signed t n.1 ^ 2) ≤ 2 ^ 500 at h2
        have h0 := Real.sqrt_nonneg (signed s m.1 ^ 2 + signed t n.1 ^ 2)
        generalize √(signed s m.1 ^ 2 + signed t n.1 ^ 2) = v at *
        have := round_rel (E := ieee) (x := v) false (by
          rw [abs_of_nonneg h0]
          exact le_trans (one_div_le_one_div_of_le (by positivity) (pow_le_pow_right₀ (by norm_num) (by norm_num))) h1)
          (by rw [abs_of_nonneg h0]; exact h2.trans (pow_le_pow_right₀ (by norm_num) (by norm_num)))
        rw [abs_of_nonneg h0] at this
        exact this.mono (div_le_div_of_nonneg_left h0 (by positivity) (by norm_num))

namespace FP
variable {x y : FP E} {a b k : ℝ}

/-- A number of moderate size. -/
def Mid (n : ℕ) (a : ℝ) : Prop := 1 / 2 ^ n ≤ a ∧ a ≤ 2 ^ n

variable {n m : ℕ}

theorem Mid.pos (h : Mid n a) : 0 < a := lt_of_lt_of_le (by positivity) h.1

theorem Mid.mono (h : Mid n a) (hnm : n ≤ m) : Mid m a :=
  ⟨le_trans (one_div_le_one_div_of_le (by positivity) (pow_le_pow_right₀ (by norm_num) hnm)) h.1,
    h.2.trans (pow_le_pow_right₀ (by norm_num) hnm)⟩

theorem Mid.mul (h : Mid n a) (h' : Mid m b) : Mid (n + m) (a * b) := by
  have := h.pos
  have := h'.pos
  constructor
  · rw [pow_add, ← one_div_mul_one_div]
    exact mul_le_mul h.1 h'.1 (by positivity) (by positivity)
  · rw [pow_add]
    exact mul_le_mul h.2 h'.2 (by positivity) (by positivity)

theorem Mid.inv (h : Mid n a) : Mid n (1 / a) := by
  have := h.pos
  exact ⟨one_div_le_one_div_of_le this h.2, by rw [one_div_le this (by positivity)]; exact h.1⟩

theorem Mid.div (h : Mid n a) (h' : Mid m b) : Mid (n + m) (a / b) := by
  rw [div_eq_mul_one_div]; exact h.mul h'.inv

theorem Mid.add (h : Mid n a) (h' : Mid n b) : Mid (n + 1) (a + b) := by
  have := h.pos
  have := h'.pos
  constructor
  · exact (h.mono (Nat.le_succ n)).1.trans (by linarith)
  · rw [pow_succ]; linarith [h.2, h'.2]

theorem Mid.sqrt (h : Mid n a) : Mid n √a := by
  have hp := h.pos
  have h1 : (1 : ℝ) ≤ 2 ^ n := one_le_pow₀ (by norm_num)
  constructor
  · refine Real.le_sqrt_of_sq_le (le_trans ?_ h.1)
    rw [div_pow, one_pow]
    exact one_div_le_one_div_of_le (by positivity) (le_self_pow₀ h1 (by norm_num))
  · rw [Real.sqrt_le_iff]
    exact ⟨by positivity, h.2.trans (le_self_pow₀ h1 (by norm_num))⟩

theorem Mid.sq (h : Mid n a) : Mid (n + n) (a ^ 2) := by rw [pow_two]; exact h.mul h

/-- `x` approximates the number `a` of moderate size up to `k` units. -/
def Ap (k : ℝ) (n : ℕ) (x : FP E) (a : ℝ) : Prop := Rel k x a ∧ Mid n a

variable {l : ℝ}

theorem Ap.mono {k' : ℝ} {n' : ℕ} (h : Ap k n x a) (h1 : k ≤ k') (h2 : n ≤ n') : Ap k' n' x a :=
  ⟨h.1.mono h1, h.2.mono h2⟩

theorem Ap.mul (hx : Ap k n x a) (hy : Ap l m y b) (hk : k ≤ 2 ^ 22) (hl : l ≤ 2 ^ 22)
    (hn : n + m ≤ 900) : Ap (k + l + 1) (n + m) (x * y) (a * b) :=
  have h := (hx.2.mul hy.2).mono hn
  ⟨rel_mul hx.1 hy.1 hx.2.pos hy.2.pos hk hl h.1 h.2, hx.2.mul hy.2⟩

theorem Ap.div (hx : Ap k n x a) (hy : Ap l m y b) (hk : k ≤ 2 ^ 22) (hl : l ≤ 2 ^ 22)
    (hn : n + m ≤ 900) : Ap (k + l + 1) (n + m) (x / y) (a / b) :=
  have h := (hx.2.div hy.2).mono hn
  ⟨rel_div hx.1 hy.1 hx.2.pos hy.2.pos hk hl h.1 h.2, hx.2.div hy.2⟩

theorem Ap.recip (hx : Ap k n x a) (hk : k ≤ 2 ^ 22) (hn : n ≤ 900) :
    Ap (k + 1) n (Flt.recip x) (1 / a) :=
  have h := hx.2.inv.mono hn
  ⟨rel_recip hx.1 hx.2.pos hk h.1 h.2, hx.2.inv⟩

theorem Ap.add (hx : Ap k n x a) (hy : Ap k n y b) (hk : k ≤ 2 ^ 22) (hn : n + 1 ≤ 900) :
    Ap (k + 1) (n + 1) (x + y) (a + b) :=
  have h := (hx.2.add hy.2).mono hn
  ⟨rel_add hx.1 hy.1 hx.2.pos hy.2.pos hk h.1 h.2, hx.2.add hy.2⟩

theorem Ap.sqrt (hx : Ap k n x a) (hk : k ≤ 2 ^ 22) (hn : n ≤ 900) :
    Ap (k + 1) n (Flt.sqrt x) √a :=
  have h := hx.2.sqrt.mono hn
  ⟨rel_sqrt hx.1 hx.2.pos hk h.1 h.2, hx.2.sqrt⟩

theorem Ap.sq (L : E.Lib) (hx : Ap k n x a) (hk : k ≤ 2 ^ 22) (hn : n + n ≤ 900) :
    Ap (2 * k + 1) (n + n) (Flt.powi x 2) (a ^ 2) :=
  have h := hx.2.sq.mono hn
  ⟨rel_sq L hx.1 hx.2.pos hk h.1 h.2, hx.2.sq⟩

theorem lit_rel {m : ℕ} {s : Bool} {e : ℕ} {v : ℝ} (h : In (E := E) (v : EReal) (v : EReal)
    (OfScientific.ofScientific m s e : FP E)) : Rel 0 (OfScientific.ofScientific m s e : FP E) v :=
  Rel.of_eq h.finite (le_antisymm h.toR.2 h.toR.1)

theorem q_ap (P : E.Precise) : Ap 2 10 (Flt.ln (10.0 : FP E) / (400.0 : FP E)) glickoQ := by
  have h10 : (10.0 : FP E).toR = 10 := le_antisymm ten_in.toR.2 ten_in.toR.1
  have h := P.ln_ten (10.0 : FP E) ten_in.finite h10
  have l0 := log_ten_pos
  have l1 := log_ten_lt
  have l2 := log_ten_gt
  have h1 : Ap 1 2 (Flt.ln (10.0 : FP E)) (Real.log 10) :=
    ⟨Rel.of_near l0 (h.mono (by linarith [show Real.log 10 / 2 ^ 50 = 1 / 2 ^ 50 * Real.log 10 by ring])),
      by norm_num; linarith, by norm_num; linarith⟩
  have h400 : Ap 0 9 (400.0 : FP E) 400 :=
    ⟨lit_rel (lit_in (E := E) (m := 4000) (s := true) (e := 1) (v := 400) (by norm_num)
      (SRep.ofNat 400 (by norm_num))), by norm_num, by norm_num⟩
  refine ⟨(h1.div h400 (by norm_num) (by norm_num) (by norm_num)).1.mono (by norm_num), ?_, ?_⟩
  · rw [glickoQ, le_div_iff₀ (by norm_num)]; norm_num; linarith
  · rw [glickoQ, div_le_iff₀ (by norm_num)]; norm_num; linarith

theorem pi_ap : Ap 1 2 (Flt.pi : FP E) Real.pi := by
  have h3 := Real.pi_gt_three
  have h4 := Real.pi_le_four
  have hm : Mid 2 Real.pi := ⟨by norm_num; linarith, by norm_num; linarith⟩
  have hm' := hm.mono (show 2 ≤ 900 by norm_num)
  refine ⟨?_, hm⟩
  have := rel_round (E := E) (s := false) (a := Real.pi) (v := Real.pi) (d := 0) (k := 0) hm.pos hm'.1 hm'.2
    (by simp) (by norm_num) (by simp)
  exact this.mono (by norm_num)

/-- The factor `g` of a deviation. -/
theorem g_ap (L : E.Lib) (P : E.Precise) {k : ℝ} {d : ℝ} (hk : k ≤ 100) (hx : Ap k 11 x d) :
    Ap (2 * k + 15) 60 (Glicko.gValue (Flt.ln (10.0 : FP E) / (400.0 : FP E)) x) (glickoG d) := by
  have hk0 := hx.1.nonneg
  have hq := (q_ap P).sq L (by norm_num) (by norm_num)
  have h3 : Ap 0 2 (3.0 : FP E) 3 :=
    ⟨lit_rel (lit_in (E := E) (m := 30) (s := true) (e := 1) (v := 3) (by norm_num)
      (SRep.ofNat 3 (by norm_num))), by norm_num, by norm_num⟩
  have h1 : Ap 0 0 (1.0 : FP E) 1 := ⟨lit_rel one_in, by norm_num, by norm_num⟩
  have a1 := (h3.mul hq (by norm_num) (by norm_num) (by norm_num)).mul
    (hx.sq L (by norm_num; linarith) (by norm_num)) (by norm_num) (by norm_num; linarith) (by norm_num)
  have a2 := a1.div (pi_ap.sq L (by norm_num) (by norm_num)) (by norm_num; linarith) (by norm_num)
    (by norm_num)
  have a3 := ((h1.mono (by linarith) (by norm_num)).add a2 (by norm_num; linarith) (by norm_num))
  have a4 := (a3.sqrt (by norm_num; linarith) (by norm_num)).recip (by norm_num; linarith) (by norm_num)
  exact a4.mono (by linarith) (by norm_num)

/-- A cap. -/
theorem rel_cap (hx : Rel k x a) (hy : Rel 0 y b) (ha : 0 < a) (hb : 0 < b) (hk : k ≤ 2 ^ 22) :
    Rel k (Flt.fmin x y) (min a b) := by
  have hk0 := hx.nonneg
  obtain ⟨fx, d, hd, ex⟩ := hx
  obtain ⟨fy, d', hd', ey⟩ := hy
  have e0 : d' = 0 := by simpa using hd'
  rw [e0, add_zero, mul_one] at ey
  have hd1 := abs_le.1 hd
  have hk1 : k / 2 ^ 50 ≤ 1 / 2 := by
    rw [div_le_iff₀ (by positivity)]; norm_num at hk ⊢; linarith
  have hm : 0 < min a b := lt_min ha hb
  refine Rel.of_near hm ?_
  rw [fmin_eq (isFinite.not_nan fx) (isFinite.not_nan fy)]
  have t0 : 0 ≤ k / 2 ^ 50 := by positivity
  generalize k / 2 ^ 50 = t at *
  by_cases h : (y <? x) = true
  · rw [if_pos h]
    rw [lt_iff_toR fy fx, ex, ey] at h
    refine ⟨fy, ?_⟩
    rw [ey, abs_of_nonneg (by linarith [min_le_right a b])]
    rcases le_total a b with hab | hab
    · rw [min_eq_left hab]; nlinarith
    · rw [min_eq_right hab]; nlinarith
  · rw [if_neg h]
    rw [lt_iff_toR fy fx, ex, ey, not_lt] at h
    refine ⟨fx, ?_⟩
    rw [ex, abs_le]
    rcases le_total a b with hab | hab
    · rw [min_eq_left hab]; constructor <;> nlinarith
    · rw [min_eq_right hab]; constructor <;> nlinarith

/-- The deviation at the onset of a period. -/
theorem onset_rel (P : E.Precise) {c : FP E} (hx : x.isFinite) (h1 : 1 / 2 ^ 10 ≤ x.toR)
    (h2 : x.toR ≤ 2 ^ 10) (hc : Within (2 ^ 20) c) :
    Rel 1 (Flt.fmin (Flt.hypot x c) (350.0 : FP E)) (glickoOnset x.toR c.toR) ∧
      1 / 2 ^ 10 ≤ glickoOnset x.toR c.toR ∧ glickoOnset x.toR c.toR ≤ 350 := by
  have hx0 : 0 < x.toR := lt_of_lt_of_le (by positivity) h1
  have b1 : x.toR ≤ √(x.toR ^ 2 + c.toR ^ 2) := Real.le_sqrt_of_sq_le (by nlinarith [_root_.sq_nonneg c.toR])
  have b2 : √(x.toR ^ 2 + c.toR ^ 2) ≤ 2 ^ 21 := by
    rw [Real.sqrt_le_iff]
    refine ⟨by positivity, ?_⟩
    have := abs_le.1 hc.2
    nlinarith [this.1, this.2]
  have m : Mid 21 √(x.toR ^ 2 + c.toR ^ 2) :=
    ⟨le_trans (by norm_num) (h1.trans b1), b2⟩
  have h := P.hypot x c hx hc.1 (m.mono (by norm_num : 21 ≤ 500)).1 (m.mono (by norm_num : 21 ≤ 500)).2
  have hr : Rel 1 (Flt.hypot x c) √(x.toR ^ 2 + c.toR ^ 2) :=
    Rel.of_near m.pos (h.mono (le_of_eq (by ring)))
  have h350 := lit_rel (lit_in (E := E) (m := 3500) (s := true) (e := 1) (v := 350) (by norm_num)
    (SRep.ofNat 350 (by norm_num)))
  refine ⟨rel_cap hr h350 m.pos (by norm_num) (by norm_num), le_min (h1.trans b1) (by norm_num), min_le_right _ _⟩

/-- The expected score. -/
theorem e_near (A : E.Accurate) {g t : FP E} {G D : ℝ} (hg : Rel k g G) (hk : k ≤ 18) (h0 : 0 < G)
    (h1 : G ≤ 1) (ht : Near (1 / 2 ^ 35) t D) (hD : |D| ≤ 2 ^ 15 + 1) :
    Near (1 / 2 ^ 35) (Flt.recip ((1.0 : FP E) + Flt.powf (10.0 : FP E) (-g * t / (400.0 : FP E))))
      (1 / (1 + (10 : ℝ) ^ (-(G * D / 400)))) := by
  have hk0 := hg.nonneg
  have h400 := near_of_in (lit_in (E := E) (m := 4000) (s := true) (e := 1) (v := 400) (by norm_num)
    (SRep.ofNat 400 (by norm_num)))
  have n1 : Near (18 / 2 ^ 50) (-g) (-G) := ((hg.near h0.le).mono (by
    have : k / 2 ^ 50 * G ≤ 18 / 2 ^ 50 * 1 := mul_le_mul (by gcongr) h1 h0.le (by positivity)
    linarith)).neg
  have hGD : |(-G) * D| ≤ 2 ^ 15 + 1 := by
    rw [abs_mul, abs_neg, abs_of_pos h0]
    nlinarith [abs_nonneg D]
  have n2 := near_mul n1 ht (M := 2 ^ 16) (by
    rw [abs_neg, abs_of_pos h0]
    norm_num at hD hGD ⊢
    linarith) (by norm_num) (le_huge 16 (by norm_num) (by norm_num))
  have n2' := n2.mono (δ := 41 / 2 ^ 36) (by
    rw [abs_neg, abs_of_pos h0]
    norm_num at hD ⊢
    linarith)
  have n3 := (near_div_const n2' h400 (by norm_num) (M := 84) (by
    rw [div_le_iff₀ (by norm_num)]
    norm_num at hGD ⊢
    linarith) (by norm_num) (le_huge 7 (by norm_num) (by norm_num))).mono (δ := 1 / 2 ^ 39) (by norm_num)
  have n4 := score_near A n3 (by norm_num) (by
    rw [abs_div, abs_of_pos (by norm_num : (0 : ℝ) < 400), div_le_iff₀ (by norm_num)]
    norm_num at hGD ⊢
    linarith)
  rw [show -G * D / 400 = -(G * D / 400) by ring] at n4
  exact n4.mono (by norm_num)

/-- The difference of two ratings. -/
theorem diff_near {r s : FP E} (hr : Within (2 ^ 14) r) (hs : Within (2 ^ 14) s) :
    Near (1 / 2 ^ 35) (r - s) (r.toR - s.toR) ∧ |r.toR - s.toR| ≤ 2 ^ 15 + 1 := by
  have hr2 := hr.2
  have hs2 := hs.2
  have hsub : |r.toR - s.toR| ≤ 2 ^ 15 := by
    refine (abs_sub _ _).trans ?_
    norm_num at hr2 hs2 ⊢; linarith
  refine ⟨(near_sub hr.near hs.near (M := 2 ^ 15) (by linarith) (by norm_num)
    (le_huge 16 (by norm_num) (by norm_num))).mono (by norm_num), by linarith⟩

/-- A score and its complement. -/
theorem compl_near {e : FP E} {p : ℝ} (h : Near (1 / 2 ^ 35) e p) (hp : 0 ≤ p ∧ p ≤ 1) :
    Near (1 / 2 ^ 35 + 1 / 2 ^ 49) ((1.0 : FP E) - e) (1 - p) := by
  refine (near_sub (near_of_in one_in) h (M := 2) ?_ (by norm_num) ?_).mono (by norm_num)
  · rw [abs_of_nonneg (by linarith)]; norm_num; linarith
  · exact le_huge 1 (by norm_num) (by norm_num)

/-- The variance `w e (1 - e)` with a known weight. -/
theorem variance_near {w e : FP E} {W p B ε : ℝ} (hw : Rel k w W) (hk : k ≤ 64) (h0 : 0 < W) (h1 : W ≤ B)
    (hB : 1 / 2 ^ 20 ≤ B) (hB1 : B ≤ 1) (he : Near ε e p) (hε : ε ≤ 1 / 2 ^ 35) (hp : 0 ≤ p ∧ p ≤ 1) :
    Near (B * (2 * ε + 1 / 2 ^ 42)) (w * e * ((1.0 : FP E) - e)) (W * p * (1 - p)) := by
  have hk0 := hw.nonneg
  have hε0 : 0 ≤ ε := (abs_nonneg _).trans he.2
  have hB0 : 0 < B := h0.trans_le h1
  have p900 : (1 : ℝ) / 2 ^ 900 ≤ 1 / 2 ^ 20 :=
    one_div_le_one_div_of_le (by positivity) (pow_le_pow_right₀ (by norm_num) (by norm_num))
  have q900 : (2 : ℝ) ≤ 2 ^ 900 := le_self_pow₀ (by norm_num) (by norm_num)
  have n1 : Near (B * (1 / 2 ^ 44)) w W := (hw.near h0.le).mono (by
    have : k / 2 ^ 50 * W ≤ 64 / 2 ^ 50 * B := mul_le_mul (by gcongr) h1 h0.le (by positivity)
    norm_num at this ⊢; linarith)
  have hWp : 0 ≤ W * p ∧ W * p ≤ B := ⟨mul_nonneg h0.le hp.1, by nlinarith [hp.1, hp.2]⟩
  have hBε : B * ε ≤ B * (1 / 2 ^ 35) := mul_le_mul_of_nonneg_left hε hB0.le
  have c1 : W * ε ≤ B * ε := mul_le_mul_of_nonneg_right h1 hε0
  have c2 : B * (1 / 2 ^ 44) * p ≤ B * (1 / 2 ^ 44) := mul_le_of_le_one_right (by positivity) hp.2
  have n2 := (small_mul n1 he (M := 2 * B) (by
    rw [abs_of_nonneg hWp.1, abs_of_nonneg hp.1, abs_of_pos h0]
    norm_num at hBε c1 c2 ⊢
    linarith [hWp.2]) (by linarith) ((by linarith : 2 * B ≤ 2).trans q900)).mono
      (δ := B * (ε + 1 / 2 ^ 43)) (by
    rw [abs_of_nonneg hp.1, abs_of_pos h0]
    norm_num at hBε c1 c2 ⊢
    linarith)
  have hn : Near (ε + 1 / 2 ^ 49) ((1.0 : FP E) - e) (1 - p) := by
    refine (near_sub (near_of_in one_in) he (M := 2) ?_ (by norm_num) ?_).mono (by norm_num)
    · rw [abs_of_nonneg (by linarith [hp.2])]; norm_num at hε ⊢; linarith [hp.1]
    · exact le_huge 1 (by norm_num) (by norm_num)
  have c3 : W * p * (ε + 1 / 2 ^ 49) ≤ B * (ε + 1 / 2 ^ 49) :=
    mul_le_mul_of_nonneg_right hWp.2 (by positivity)
  have c4 : B * (ε + 1 / 2 ^ 43) * (1 - p) ≤ B * (ε + 1 / 2 ^ 43) :=
    mul_le_of_le_one_right (by positivity) (by linarith [hp.1])
  have c5 : 0 ≤ W * p * (1 - p) ∧ W * p * (1 - p) ≤ B :=
    ⟨mul_nonneg hWp.1 (by linarith [hp.2]), by nlinarith [hp.1, hp.2, hWp.1, hWp.2]⟩
  have c6 : B * (ε + 1 / 2 ^ 43) * (ε + 1 / 2 ^ 49) ≤ B * (1 / 2 ^ 34) * (1 / 2 ^ 34) := by
    refine mul_le_mul (mul_le_mul_of_nonneg_left ?_ hB0.le) ?_ (by positivity) (by positivity)
    · norm_num at hε ⊢; linarith
    · norm_num at hε ⊢; linarith
  refine (small_mul n2 hn (M := 2 * B) ?_ (by linarith) ((by linarith : 2 * B ≤ 2).trans q900)).mono ?_
  · rw [abs_of_nonneg c5.1, abs_of_nonneg (by linarith [hp.2] : 0 ≤ 1 - p), abs_of_nonneg hWp.1]
    norm_num at hBε c3 c4 c6 ⊢
    linarith [c5.2]
  · rw [abs_of_nonneg (by linarith [hp.2] : 0 ≤ 1 - p), abs_of_nonneg hWp.1]
    norm_num at c3 c4 c6 ⊢
    linarith

theorem info_near {w e : FP E} {W p B : ℝ} (hw : Rel k w W) (hk : k ≤ 64) (h0 : 0 < W) (h1 : W ≤ B)
    (hB : 1 / 2 ^ 20 ≤ B) (hB1 : B ≤ 1) (he : Near (1 / 2 ^ 35) e p) (hp : 0 ≤ p ∧ p ≤ 1) :
    Near (B * (17 / 2 ^ 38)) (w * e * ((1.0 : FP E) - e)) (W * p * (1 - p)) := by
  refine (variance_near hw hk h0 h1 hB hB1 he le_rfl hp).mono ?_
  have : 0 ≤ B := by linarith
  norm_num; linarith

/-- The total information. -/
theorem total_rel (L : E.Lib) {pre w : FP E} {v I K : ℝ} (hp : Rel 1 pre v) (h1 : 1 / 2 ^ 10 ≤ v)
    (h2 : v ≤ 350) (hw : Near (K / 2 ^ 50 / 122500) w I) (hw0 : 0 ≤ w.toR) (hI : 0 ≤ I)
    (hI1 : I ≤ 1) (hK0 : 0 ≤ K) (hK : K ≤ 2 ^ 28) :
    Rel (K + 8) (Flt.recip (Flt.powi pre 2) + Flt.recip (Flt.recip w)) (1 / v ^ 2 + I) := by
  have m : Mid 10 v := ⟨h1, h2.trans (by norm_num)⟩
  have a1 := (Ap.sq L (show Ap 1 10 pre v from ⟨hp, m⟩) (by norm_num) (by norm_num)).recip (by norm_num) (by norm_num)
  have hv0 := m.pos
  have lo : 1 / 122500 ≤ 1 / v ^ 2 := one_div_le_one_div_of_le (by positivity) (by nlinarith)
  have hi : 1 / v ^ 2 ≤ 2 ^ 20 := a1.2.2
  have hKs : K / 2 ^ 50 / 122500 ≤ 1 / 2 ^ 22 / 122500 := by
    norm_num at hK ⊢
    linarith
  have hw2 := abs_le.1 hw.2
  have hw1 : w.toR ≤ I + K / 2 ^ 50 / 122500 := by linarith [hw2.2]
  have hw3 : w.toR ≤ 2 := by norm_num at hKs; linarith
  have rr := near_recip_recip hw0 (hw3.trans (by norm_num)) hw.1
  have t800 : (1 : ℝ) / 2 ^ 800 ≤ 1 / 2 ^ 100 :=
    one_div_le_one_div_of_le (by positivity) (pow_le_pow_right₀ (by norm_num) (by norm_num))
  have n2 : Near (K / 2 ^ 50 / 122500 + (2 * I + 1 / 2 ^ 18) / 2 ^ 49) (Flt.recip (Flt.recip w)) I := by
    refine ⟨rr.1, ?_⟩
    have e : (Flt.recip (Flt.recip w)).toR - I = ((Flt.recip (Flt.recip w)).toR - w.toR) + (w.toR - I) := by ring
    rw [e]
    refine (abs_add_le _ _).trans ?_
    have := rr.2
    have := hw.2
    generalize (1 : ℝ) / 2 ^ 800 = q at *
    have e2 : w.toR / 2 ^ 49 + 1 / 2 ^ 100 ≤ (2 * I + 1 / 2 ^ 18) / 2 ^ 49 := by
      norm_num at hKs ⊢
      linarith
    linarith
  have n1 := a1.1.near (by positivity)
  have hs : 0 < 1 / v ^ 2 + I := by positivity
  refine Rel.of_near hs ?_
  have n3 := small_add n1 n2 (M := 2 * (1 / v ^ 2 + I)) (by
    rw [abs_of_pos hs]
    norm_num at hKs lo ⊢
    linarith) (le_trans (b := 1 / 122500)
      (one_div_le_one_div_of_le (by norm_num) (le_trans (b := (2 : ℝ) ^ 17) (by norm_num)
        (pow_le_pow_right₀ (by norm_num) (by norm_num)))) (by linarith))
      (le_trans (b := (2 : ℝ) ^ 22) (by norm_num at hi ⊢; linarith) (pow_le_pow_right₀ (by norm_num) (by norm_num)))
  refine n3.mono ?_
  have hKd : K / 2 ^ 50 / 122500 ≤ K / 2 ^ 50 * (1 / v ^ 2) := by
    rw [div_eq_mul_one_div (K / 2 ^ 50)]
    exact mul_le_mul_of_nonneg_left lo (by positivity)
  have hKI : 0 ≤ K / 2 ^ 50 * I := by positivity
  rw [show (K + 8) / 2 ^ 50 * (1 / v ^ 2 + I) = K / 2 ^ 50 * (1 / v ^ 2) + K / 2 ^ 50 * I
    + 8 / 2 ^ 50 * (1 / v ^ 2 + I) by ring]
  norm_num at lo hKd hKI ⊢
  linarith

/-- Division by a number with a larger error. -/
theorem rel_div_big (hx : Rel k x a) (hy : Rel l y b) (ha : 0 < a) (hb : 0 < b) (hk : k ≤ 2 ^ 10)
    (hl : l ≤ 2 ^ 27) (h1 : 1 / 2 ^ 900 ≤ a / b) (h2 : a / b ≤ 2 ^ 900) :
    Rel (k + l + 2 ^ 9) (x / y) (a / b) := by
  have k0 := hx.nonneg
  have l0 := hy.nonneg
  obtain ⟨fx, α, hα, ex⟩ := hx
  obtain ⟨fy, β, hβ, ey⟩ := hy
  have hl2 : l / 2 ^ 50 ≤ 1 / 2 ^ 23 := by norm_num at hl ⊢; linarith
  have hb2 := abs_le.1 (hβ.trans hl2)
  have hb0 : 0 < 1 + β := by norm_num at hb2 ⊢; linarith [hb2.1]
  have herr : |(1 + α) / (1 + β) - 1| ≤ (k + l + 2 ^ 8) / 2 ^ 50 := by
    rw [show (1 + α) / (1 + β) - 1 = (α - β) / (1 + β) by field_simp; ring, abs_div, abs_of_pos hb0,
      div_le_iff₀ hb0]
    have h1 : |α - β| ≤ (k + l) / 2 ^ 50 := by
      rw [add_div]; exact (abs_sub _ _).trans (add_le_add hα hβ)
    have h2 : (k + l + 2 ^ 8) / 2 ^ 50 * (1 - 1 / 2 ^ 23) ≤ (k + l + 2 ^ 8) / 2 ^ 50 * (1 + β) :=
      mul_le_mul_of_nonneg_left (by linarith [hb2.1]) (by positivity)
    refine h1.trans (le_trans ?_ h2)
    rw [div_mul_eq_mul_div]
    refine div_le_div_of_nonneg_right ?_ (by positivity)
    norm_num at hk hl ⊢
    linarith
  obtain ⟨s, e⟩ := div_fin fx fy (by rw [ey]; exact (mul_pos hb hb0).ne')
  rw [e]
  have h := rel_round (E := E) (s := s) (v := x.toR / y.toR) (d := (1 + α) / (1 + β) - 1)
    (div_pos ha hb) h1 h2 herr (by norm_num at hk hl ⊢; linarith)
    (by rw [ex, ey]; field_simp; ring)
  exact h.mono (by norm_num; linarith)

theorem rel_sqrt_big (hx : Rel k x a) (ha : 0 < a) (hk : k ≤ 2 ^ 28)
    (h1 : 1 / 2 ^ 900 ≤ √a) (h2 : √a ≤ 2 ^ 900) : Rel (k + 1) (Flt.sqrt x) √a := by
  obtain ⟨fx, α, hα, ex⟩ := hx
  have hb := abs_le.1 (hα.trans (show k / 2 ^ 50 ≤ 1 / 2 ^ 22 by norm_num at hk ⊢; linarith))
  have hb0 : 0 < 1 + α := by norm_num at hb ⊢; linarith [hb.1]
  obtain ⟨s, e⟩ := sqrt_fin fx (by rw [ex]; positivity)
  rw [e]
  have hd : |√(1 + α) - 1| ≤ k / 2 ^ 50 := by
    have h3 : 0 < √(1 + α) + 1 := by positivity
    have h4 : √(1 + α) - 1 = α / (√(1 + α) + 1) := by
      rw [eq_div_iff h3.ne']
      have := Real.mul_self_sqrt hb0.le
      nlinarith
    rw [h4, abs_div, abs_of_pos h3]
    exact (div_le_self (abs_nonneg _) (by linarith [Real.sqrt_nonneg (1 + α)])).trans hα
  have h := rel_round (E := E) (s := s) (v := √x.toR) (d := √(1 + α) - 1)
    (Real.sqrt_pos.2 ha) h1 h2 hd hk
    (by rw [ex, Real.sqrt_mul ha.le]; ring)
  exact h.mono (by linarith)

/-- The variance after the games and the step size. -/
theorem posterior_rel (P : E.Precise) {d : FP E} {v I K : ℝ} (hd : Rel K d (1 / v ^ 2 + I))
    (h1 : 1 / 2 ^ 10 ≤ v) (h2 : v ≤ 350) (hI : 0 ≤ I) (hI1 : I ≤ 1) (hK : K ≤ 2 ^ 27) :
    Rel (K + 2 ^ 10) (Flt.sqrt (Flt.recip d)) √(posterior (v ^ 2) I) ∧
    Rel (K + 2 ^ 10) (Flt.ln (10.0 : FP E) / (400.0 : FP E) / d) (glickoQ * posterior (v ^ 2) I) ∧
    Rel (K + 2 ^ 10) (Flt.recip d) (posterior (v ^ 2) I) ∧
    Mid 21 (posterior (v ^ 2) I) ∧ posterior (v ^ 2) I ≤ 122500 ∧
    Mid 31 (glickoQ * posterior (v ^ 2) I) ∧ glickoQ * posterior (v ^ 2) I ≤ 706 := by
  have hv0 : 0 < v := lt_of_lt_of_le (by positivity) h1
  have lo : 1 / 122500 ≤ 1 / v ^ 2 := one_div_le_one_div_of_le (by positivity) (by nlinarith)
  have hi : 1 / v ^ 2 ≤ 2 ^ 20 := by
    rw [div_le_iff₀ (by positivity)]
    have : (1 / 2 ^ 10) ^ 2 ≤ v ^ 2 := pow_le_pow_left₀ (by positivity) h1 2
    norm_num at this ⊢; linarith
  have m : Mid 21 (1 / v ^ 2 + I) := ⟨by norm_num at lo ⊢; linarith, by norm_num at hi ⊢; linarith⟩
  have q := q_ap P
  have ha : Ap 0 0 (1.0 : FP E) 1 := ⟨lit_rel one_in, by norm_num, by norm_num⟩
  have m1 := (ha.2.div m).mono (show 0 + 21 ≤ 900 by norm_num)
  have m2 := (q.2.div m).mono (show 10 + 21 ≤ 900 by norm_num)
  have r1 := rel_div_big ha.1 hd one_pos m.pos (by norm_num) hK m1.1 m1.2
  have r2 := rel_div_big q.1 hd q.2.pos m.pos (by norm_num) hK m2.1 m2.2
  rw [← recip_eq] at r1
  have hp : posterior (v ^ 2) I = 1 / (1 / v ^ 2 + I) := rfl
  have hp0 : 0 < posterior (v ^ 2) I := by rw [hp]; exact one_div_pos.2 m.pos
  have hp1 : posterior (v ^ 2) I ≤ 122500 := by
    rw [hp, one_div_le m.pos (by norm_num)]; linarith
  have hm1 := m1.sqrt
  have hm0 : Mid 21 (posterior (v ^ 2) I) := m.inv
  have hm2 : Mid 31 (glickoQ * posterior (v ^ 2) I) := q.2.mul hm0
  have r3 := rel_sqrt_big r1 m1.pos (by norm_num at hK ⊢; linarith) hm1.1 hm1.2
  have hq := glickoQ_lt
  have hq0 := glickoQ_pos
  refine ⟨r3.mono (by linarith), ?_, r1.mono (by linarith), hm0, hp1, hm2, by nlinarith⟩
  rw [hp, mul_one_div]
  exact r2.mono (by linarith)

end FP
end Skillratings
