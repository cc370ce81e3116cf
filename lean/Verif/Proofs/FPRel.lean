import Verif.Proofs.FPError
import Verif.Proofs.FPGlicko
import Verif.Spec.Precise
/-
Rounding errors: a calculus of relative errors, counted in units of `2 ^ -50`.
-/

namespace Skillratings
open FP FPVal Spec
variable {E : FloatEnv}

namespace FP
variable {x y z : FP E} {a b c k l m : ℝ}

/-- `x` is finite and approximates the positive number `a` up to `k` units. -/
def Rel (k : ℝ) (x : FP E) (a : ℝ) : Prop :=
  x.isFinite ∧ ∃ δ : ℝ, |δ| ≤ k / 2 ^ 50 ∧ x.toR = a * (1 + δ)

theorem Rel.exact (h : x.isFinite) : Rel 0 x x.toR := ⟨h, 0, by simp, by simp⟩

theorem Rel.of_eq (h : x.isFinite) (e : x.toR = a) : Rel 0 x a := e ▸ Rel.exact h

theorem Rel.mono (h : Rel k x a) (hkl : k ≤ l) : Rel l x a := by
  obtain ⟨h1, δ, h2, h3⟩ := h
  exact ⟨h1, δ, h2.trans (by gcongr), h3⟩

theorem Rel.nonneg (h : Rel k x a) : 0 ≤ k := by
  obtain ⟨-, δ, h2, -⟩ := h
  have := (abs_nonneg δ).trans h2
  by_contra hk
  have : k / 2 ^ 50 < 0 := div_neg_of_neg_of_pos (not_le.1 hk) (by positivity)
  linarith

theorem Rel.near (h : Rel k x a) (ha : 0 ≤ a) : Near (k / 2 ^ 50 * a) x a := by
  obtain ⟨h1, δ, h2, h3⟩ := h
  refine ⟨h1, ?_⟩
  rw [h3, show a * (1 + δ) - a = δ * a by ring, abs_mul, abs_of_nonneg ha]
  exact mul_le_mul_of_nonneg_right h2 ha

theorem Rel.of_near (ha : 0 < a) (h : Near (k / 2 ^ 50 * a) x a) : Rel k x a := by
  obtain ⟨h1, h2⟩ := h
  refine ⟨h1, (x.toR - a) / a, ?_, by field_simp; ring⟩
  rw [abs_div, abs_of_pos ha, div_le_iff₀ ha]
  exact h2

/-- The factor is close to one. -/
theorem Rel.factor {δ : ℝ} (hk : k ≤ 2 ^ 30) (hδ : |δ| ≤ k / 2 ^ 50) : |δ| ≤ 1 / 2 ^ 20 := by
  refine hδ.trans ?_
  rw [div_le_div_iff₀ (by positivity) (by positivity)]
  nlinarith

theorem Rel.pos (h : Rel k x a) (hk : k ≤ 2 ^ 30) (ha : 0 < a) :
    0 < x.toR ∧ a / 2 ≤ x.toR ∧ x.toR ≤ 2 * a := by
  obtain ⟨-, δ, h2, h3⟩ := h
  have h4 := abs_le.1 (Rel.factor hk h2)
  have h5 : (1 : ℝ) / 2 ≤ 1 + δ := by norm_num at h4 ⊢; linarith [h4.1]
  have h6 : 1 + δ ≤ 2 := by norm_num at h4 ⊢; linarith [h4.2]
  rw [h3]
  refine ⟨by nlinarith, ?_, ?_⟩ <;> nlinarith

/-- Rounding costs half a unit. -/
theorem rel_round {s : Bool} {v d : ℝ} (ha : 0 < a) (h1 : 1 / 2 ^ 900 ≤ a) (h2 : a ≤ 2 ^ 900)
    (hd : |d| ≤ k / 2 ^ 50) (hk : k ≤ 2 ^ 28) (hv : v = a * (1 + d)) :
    Rel (k + 3 / 4) (E := E) (E.round s v) a := by
  have h4 := abs_le.1 (Rel.factor (by linarith : k ≤ 2 ^ 30) hd)
  have h5 : (1 : ℝ) / 2 ≤ 1 + d := by norm_num at h4 ⊢; linarith [h4.1]
  have h6 : 1 + d ≤ 2 := by norm_num at h4 ⊢; linarith [h4.2]
  have hv0 : 0 < v := by rw [hv]; positivity
  have v1 : 1 / 2 ^ 1000 ≤ |v| := by
    rw [abs_of_pos hv0, hv]
    have e : (1 : ℝ) / 2 ^ 1000 ≤ 1 / 2 ^ 900 * (1 / 2) := by
      rw [div_mul_div_comm, one_mul, ← pow_succ]
      exact one_div_le_one_div_of_le (by positivity) (pow_le_pow_right₀ (by norm_num) (by norm_num))
    exact e.trans (mul_le_mul h1 h5 (by norm_num) ha.le)
  have v2 : |v| ≤ 2 ^ 1000 := by
    rw [abs_of_pos hv0, hv]
    have e : (2 : ℝ) ^ 900 * 2 ≤ 2 ^ 1000 := by
      rw [← pow_succ]; exact pow_le_pow_right₀ (by norm_num) (by norm_num)
    exact (mul_le_mul h2 h6 (by linarith) (by positivity)).trans e
  obtain ⟨g1, g2⟩ := round_rel (E := E) s v1 v2
  refine ⟨g1, (1 + d) * (1 + (FP.toR (E := E) (E.round s v) - v) / v) - 1, ?_, ?_⟩
  · have g3 : |(FP.toR (E := E) (E.round s v) - v) / v| ≤ 1 / 2 ^ 51 := by
      rw [abs_div, div_le_iff₀ (by positivity)]
      calc _ ≤ |v| / 2 ^ 51 := g2
        _ = _ := by ring
    generalize (FP.toR (E := E) (E.round s v) - v) / v = r at g3
    rw [show (1 + d) * (1 + r) - 1 = d + (1 + d) * r by ring]
    refine (abs_add_le _ _).trans ?_
    rw [abs_mul, abs_of_pos (by linarith : (0 : ℝ) < 1 + d)]
    have g4 : (1 + d) * |r| ≤ (1 + 1 / 2 ^ 20) * (1 / 2 ^ 51) :=
      mul_le_mul (by linarith [h4.2]) g3 (abs_nonneg _) (by norm_num)
    refine (add_le_add hd g4).trans ?_
    rw [add_div]
    norm_num
  · generalize FP.toR (E := E) (E.round s v) = w
    field_simp
    linear_combination w * hv

/-! ### Operations -/

private theorem unit_le {k : ℝ} (hk : k ≤ 2 ^ 22) : k / 2 ^ 50 ≤ 1 / 2 ^ 26 := by
  rw [div_le_div_iff₀ (by positivity) (by positivity)]; nlinarith

private theorem prod_err {α β : ℝ} (hk : 0 ≤ k) (hl : 0 ≤ l) (hk' : k ≤ 2 ^ 22) (hl' : l ≤ 2 ^ 22)
    (hα : |α| ≤ k / 2 ^ 50) (hβ : |β| ≤ l / 2 ^ 50) :
    |(1 + α) * (1 + β) - 1| ≤ (k + l + 1 / 4) / 2 ^ 50 := by
  rw [show (1 + α) * (1 + β) - 1 = α + β + α * β by ring]
  refine (abs_add_le _ _).trans (le_trans (add_le_add (abs_add_le _ _) le_rfl) ?_)
  rw [abs_mul]
  have h : |α| * |β| ≤ k / 2 ^ 50 * (l / 2 ^ 50) := mul_le_mul hα hβ (abs_nonneg _) (by positivity)
  have h2 : k * l ≤ 2 ^ 22 * 2 ^ 22 := mul_le_mul hk' hl' hl (by positivity)
  have h3 : k / 2 ^ 50 * (l / 2 ^ 50) ≤ 1 / 4 / 2 ^ 50 := by
    rw [div_mul_div_comm, div_le_div_iff₀ (by positivity) (by positivity)]
    nlinarith
  rw [add_div, add_div]
  linarith

theorem rel_mul (hx : Rel k x a) (hy : Rel l y b) (ha : 0 < a) (hb : 0 < b) (hk : k ≤ 2 ^ 22)
    (hl : l ≤ 2 ^ 22) (h1 : 1 / 2 ^ 900 ≤ a * b) (h2 : a * b ≤ 2 ^ 900) :
    Rel (k + l + 1) (x * y) (a * b) := by
  have k0 := hx.nonneg
  have l0 := hy.nonneg
  obtain ⟨fx, α, hα, ex⟩ := hx
  obtain ⟨fy, β, hβ, ey⟩ := hy
  obtain ⟨s, e⟩ := mul_fin fx fy
  rw [e]
  have h := rel_round (E := E) (s := s) (v := x.toR * y.toR) (d := (1 + α) * (1 + β) - 1)
    (mul_pos ha hb) h1 h2 (prod_err k0 l0 hk hl hα hβ) (by norm_num at hk hl ⊢; linarith)
    (by rw [ex, ey]; ring)
  exact h.mono (by linarith)

private theorem div_err {α β : ℝ} (hk : 0 ≤ k) (hl : 0 ≤ l) (hk' : k ≤ 2 ^ 22) (hl' : l ≤ 2 ^ 22)
    (hα : |α| ≤ k / 2 ^ 50) (hβ : |β| ≤ l / 2 ^ 50) :
    0 < 1 + β ∧ |(1 + α) / (1 + β) - 1| ≤ (k + l + 1 / 4) / 2 ^ 50 := by
  have hb := abs_le.1 (hβ.trans (unit_le hl'))
  have hb0 : 0 < 1 + β := by norm_num at hb ⊢; linarith [hb.1]
  refine ⟨hb0, ?_⟩
  rw [show (1 + α) / (1 + β) - 1 = (α - β) / (1 + β) by field_simp; ring, abs_div, abs_of_pos hb0,
    div_le_iff₀ hb0]
  have h1 : |α - β| ≤ (k + l) / 2 ^ 50 := by
    rw [add_div]; exact (abs_sub _ _).trans (add_le_add hα hβ)
  have h2 : (k + l + 1 / 4) / 2 ^ 50 * (1 - 1 / 2 ^ 26) ≤ (k + l + 1 / 4) / 2 ^ 50 * (1 + β) :=
    mul_le_mul_of_nonneg_left (by linarith [hb.1]) (by positivity)
  refine h1.trans (le_trans ?_ h2)
  rw [div_mul_eq_mul_div]
  refine div_le_div_of_nonneg_right ?_ (by positivity)
  norm_num at hk' hl' ⊢
  linarith

theorem rel_div (hx : Rel k x a) (hy : Rel l y b) (ha : 0 < a) (hb : 0 < b) (hk : k ≤ 2 ^ 22)
    (hl : l ≤ 2 ^ 22) (h1 : 1 / 2 ^ 900 ≤ a / b) (h2 : a / b ≤ 2 ^ 900) :
    Rel (k + l + 1) (x / y) (a / b) := by
  have k0 := hx.nonneg
  have l0 := hy.nonneg
  obtain ⟨fx, α, hα, ex⟩ := hx
  obtain ⟨fy, β, hβ, ey⟩ := hy
  obtain ⟨hb0, herr⟩ := div_err k0 l0 hk hl hα hβ
  obtain ⟨s, e⟩ := div_fin fx fy (by rw [ey]; exact (mul_pos hb hb0).ne')
  rw [e]
  have h := rel_round (E := E) (s := s) (v := x.toR / y.toR) (d := (1 + α) / (1 + β) - 1)
    (div_pos ha hb) h1 h2 herr (by norm_num at hk hl ⊢; linarith)
    (by rw [ex, ey]; field_simp; ring)
  exact h.mono (by linarith)

theorem rel_recip (hx : Rel k x a) (ha : 0 < a) (hk : k ≤ 2 ^ 22)
    (h1 : 1 / 2 ^ 900 ≤ 1 / a) (h2 : 1 / a ≤ 2 ^ 900) : Rel (k + 1) (Flt.recip x) (1 / a) := by
  rw [recip_eq]
  have h := (one_in (E := E)).toR
  have := rel_div (Rel.of_eq (one_in (E := E)).finite (le_antisymm h.2 h.1)) hx one_pos ha
    (by norm_num) hk h1 h2
  exact this.mono (by linarith)

private theorem add_err {α β : ℝ} (ha : 0 < a) (hb : 0 < b) (hα : |α| ≤ k / 2 ^ 50)
    (hβ : |β| ≤ k / 2 ^ 50) : ∃ d, |d| ≤ k / 2 ^ 50 ∧ a * (1 + α) + b * (1 + β) = (a + b) * (1 + d) := by
  refine ⟨(a * α + b * β) / (a + b), ?_, by field_simp; ring⟩
  rw [abs_div, abs_of_pos (add_pos ha hb), div_le_iff₀ (add_pos ha hb)]
  refine (abs_add_le _ _).trans ?_
  rw [abs_mul, abs_mul, abs_of_pos ha, abs_of_pos hb]
  nlinarith [mul_le_mul_of_nonneg_left hα ha.le, mul_le_mul_of_nonneg_left hβ hb.le]

theorem rel_add (hx : Rel k x a) (hy : Rel k y b) (ha : 0 < a) (hb : 0 < b) (hk : k ≤ 2 ^ 22)
    (h1 : 1 / 2 ^ 900 ≤ a + b) (h2 : a + b ≤ 2 ^ 900) :
    Rel (k + 1) (x + y) (a + b) := by
  obtain ⟨fx, α, hα, ex⟩ := hx
  obtain ⟨fy, β, hβ, ey⟩ := hy
  obtain ⟨s, e⟩ := add_fin fx fy
  rw [e]
  obtain ⟨d, hd, ed⟩ := add_err ha hb hα hβ
  have h := rel_round (E := E) (s := s) (v := x.toR + y.toR) (d := d)
    (add_pos ha hb) h1 h2 hd (by norm_num at hk ⊢; linarith) (by rw [ex, ey, ed])
  exact h.mono (by linarith)

theorem rel_mulAdd (hx : Rel k x a) (hy : Rel l y b) (hz : Rel m z c) (ha : 0 < a) (hb : 0 < b)
    (hc : 0 < c) (hk : k ≤ 2 ^ 22) (hl : l ≤ 2 ^ 22) (hm : m ≤ k + l + 1 / 4)
    (h1 : 1 / 2 ^ 900 ≤ a * b + c) (h2 : a * b + c ≤ 2 ^ 900) :
    Rel (k + l + 1) (Flt.mulAdd x y z) (a * b + c) := by
  have k0 := hx.nonneg
  have l0 := hy.nonneg
  obtain ⟨fx, α, hα, ex⟩ := hx
  obtain ⟨fy, β, hβ, ey⟩ := hy
  obtain ⟨fz, γ, hγ, ez⟩ := hz
  obtain ⟨s, e⟩ := mulAdd_fin fx fy fz
  rw [e]
  have hγ' : |γ| ≤ (k + l + 1 / 4) / 2 ^ 50 := hγ.trans (by gcongr)
  obtain ⟨d, hd, ed⟩ := add_err (mul_pos ha hb) hc (prod_err k0 l0 hk hl hα hβ) hγ'
  have h := rel_round (E := E) (s := s) (v := x.toR * y.toR + z.toR) (d := d)
    (add_pos (mul_pos ha hb) hc) h1 h2 hd (by norm_num at hk hl ⊢; linarith)
    (by rw [ex, ey, ez, ← ed]; ring)
  exact h.mono (by linarith)

theorem rel_sqrt (hx : Rel k x a) (ha : 0 < a) (hk : k ≤ 2 ^ 22)
    (h1 : 1 / 2 ^ 900 ≤ √a) (h2 : √a ≤ 2 ^ 900) : Rel (k + 1) (Flt.sqrt x) √a := by
  obtain ⟨fx, α, hα, ex⟩ := hx
  have hb := abs_le.1 (hα.trans (unit_le hk))
  have hb0 : 0 < 1 + α := by norm_num at hb ⊢; linarith [hb.1]
  obtain ⟨s, e⟩ := sqrt_fin fx (by rw [ex]; positivity)
  rw [e]
  have hd : |√(1 + α) - 1| ≤ k / 2 ^ 50 := by
    have h3 : 0 < √(1 + α) + 1 := by positivity
    have h4 : √(1 + α) - 1 = α / (√(1 + α) + 1) := by
      rw [eq_div_iff h3.ne']
      have := Real.mul_self_sqrt hb0.le
      nlinarith
    rw [h4, abs_div, abs_of_pos h3]
    exact (div_le_self (abs_nonneg _) (by linarith [Real.sqrt_nonneg (1 + α)])).trans hα
  have h := rel_round (E := E) (s := s) (v := √x.toR) (d := √(1 + α) - 1)
    (Real.sqrt_pos.2 ha) h1 h2 hd (by norm_num at hk ⊢; linarith)
    (by rw [ex, Real.sqrt_mul ha.le]; ring)
  exact h.mono (by linarith)

theorem rel_sq (L : E.Lib) (hx : Rel k x a) (ha : 0 < a) (hk : k ≤ 2 ^ 22)
    (h1 : 1 / 2 ^ 900 ≤ a ^ 2) (h2 : a ^ 2 ≤ 2 ^ 900) : Rel (2 * k + 1) (Flt.powi x 2) (a ^ 2) := by
  have e : Flt.powi x 2 = x * x := L.powi_two x
  rw [e]
  rw [pow_two] at h1 h2 ⊢
  have := rel_mul hx hx ha ha hk hk h1 h2
  exact this.mono (by linarith)

/-! ### Absolute errors of small numbers -/

/-- Absolute form of rounding, for small bounds. -/
theorem round_small (s : Bool) {v M : ℝ} (h : |v| ≤ M) (h1 : 1 / 2 ^ 900 ≤ M) (h2 : M ≤ 2 ^ 900) :
    Near (E := E) (M / 2 ^ 51) (E.round s v) v := by
  have h3 : M ≤ 2 ^ 1000 := h2.trans (pow_le_pow_right₀ (by norm_num) (by norm_num))
  obtain ⟨p, q⟩ := round_near (E := E) s ((h.trans h3).trans_lt
    (pow_lt_pow_right₀ (by norm_num) (by norm_num)))
  refine ⟨p, q.trans ?_⟩
  have t : (1 : ℝ) / 2 ^ 1074 ≤ 1 / 2 ^ 52 * (1 / 2 ^ 900) := by
    rw [div_mul_div_comm, one_mul, ← pow_add]
    exact one_div_le_one_div_of_le (by positivity) (pow_le_pow_right₀ (by norm_num) (by norm_num))
  rw [show M / 2 ^ 51 = 1 / 2 ^ 52 * M + 1 / 2 ^ 52 * M by ring]
  exact add_le_add (mul_le_mul_of_nonneg_left h (by positivity))
    (t.trans (mul_le_mul_of_nonneg_left h1 (by positivity)))

variable {ε δ γ M : ℝ}

theorem small_add (hx : Near ε x a) (hy : Near δ y b) (hM : |a + b| + (ε + δ) ≤ M)
    (h1 : 1 / 2 ^ 900 ≤ M) (h2 : M ≤ 2 ^ 900) : Near (ε + δ + M / 2 ^ 51) (x + y) (a + b) := by
  obtain ⟨s, e⟩ := add_fin hx.1 hy.1
  have hv : |x.toR + y.toR - (a + b)| ≤ ε + δ := by
    rw [show x.toR + y.toR - (a + b) = (x.toR - a) + (y.toR - b) by ring]
    exact (abs_add_le _ _).trans (add_le_add hx.2 hy.2)
  refine Near.trans (round_small s ?_ h1 h2) hv e
  rw [show x.toR + y.toR = (a + b) + (x.toR + y.toR - (a + b)) by ring]
  exact (abs_add_le _ _).trans (by linarith)

theorem small_sub (hx : Near ε x a) (hy : Near δ y b) (hM : |a - b| + (ε + δ) ≤ M)
    (h1 : 1 / 2 ^ 900 ≤ M) (h2 : M ≤ 2 ^ 900) : Near (ε + δ + M / 2 ^ 51) (x - y) (a - b) := by
  have := small_add hx hy.neg (by rwa [← sub_eq_add_neg]) h1 h2
  rwa [← sub_eq_add_neg, ← sub_eq] at this

theorem small_mul (hx : Near ε x a) (hy : Near δ y b)
    (hM : |a * b| + (ε * |b| + |a| * δ + ε * δ) ≤ M) (h1 : 1 / 2 ^ 900 ≤ M) (h2 : M ≤ 2 ^ 900) :
    Near (ε * |b| + |a| * δ + ε * δ + M / 2 ^ 51) (x * y) (a * b) := by
  obtain ⟨s, e⟩ := mul_fin hx.1 hy.1
  have hv := near_mul_err hx hy
  refine Near.trans (round_small s ?_ h1 h2) hv e
  rw [show x.toR * y.toR = a * b + (x.toR * y.toR - a * b) by ring]
  exact (abs_add_le _ _).trans (by linarith)

theorem small_mulAdd (hx : Near ε x a) (hy : Near δ y b) (hz : Near γ z c)
    (hM : |a * b + c| + (ε * |b| + |a| * δ + ε * δ + γ) ≤ M) (h1 : 1 / 2 ^ 900 ≤ M)
    (h2 : M ≤ 2 ^ 900) :
    Near (ε * |b| + |a| * δ + ε * δ + γ + M / 2 ^ 51) (Flt.mulAdd x y z) (a * b + c) := by
  obtain ⟨s, e⟩ := mulAdd_fin hx.1 hy.1 hz.1
  have hv : |x.toR * y.toR + z.toR - (a * b + c)| ≤ ε * |b| + |a| * δ + ε * δ + γ := by
    rw [show x.toR * y.toR + z.toR - (a * b + c) = (x.toR * y.toR - a * b) + (z.toR - c) by ring]
    exact (abs_add_le _ _).trans (add_le_add (near_mul_err hx hy) hz.2)
  refine Near.trans (round_small s ?_ h1 h2) hv e
  rw [show x.toR * y.toR + z.toR = (a * b + c) + (x.toR * y.toR + z.toR - (a * b + c)) by ring]
  exact (abs_add_le _ _).trans (by linarith)

/-- Two reciprocals in a row. -/
theorem near_recip_recip (h0 : 0 ≤ x.toR) (h1 : x.toR ≤ 2 ^ 100) (hf : x.isFinite) :
    Near (x.toR / 2 ^ 49 + 1 / 2 ^ 800) (Flt.recip (Flt.recip x)) x.toR := by
  rcases le_total x.toR (1 / 2 ^ 800) with h | h
  · have hx : In (E := E) ((0 : ℝ) : EReal) ((1 / 2 ^ 800 : ℝ) : EReal) x := by
      refine ⟨isFinite.not_nan hf, ?_, ?_⟩
      · rw [show x.toE = _ from isFinite.toE_eq hf]; exact EReal.coe_le_coe_iff.2 h0
      · rw [show x.toE = _ from isFinite.toE_eq hf]; exact EReal.coe_le_coe_iff.2 h
    have := recip_recip_in' (by positivity) (SRep.inv_two_pow 800 (by norm_num))
      (by rw [one_div_one_div]; exact SRep.two_pow 800 (by norm_num)) hx
    refine ⟨this.finite, ?_⟩
    have h3 := this.toR
    have h4 : 0 ≤ x.toR / 2 ^ 49 := by positivity
    generalize (1 : ℝ) / 2 ^ 800 = t at *
    rw [abs_le]
    constructor <;> linarith [h3.1, h3.2]
  · have hp : 0 < x.toR := lt_of_lt_of_le (by positivity) h
    have p1 : (2 : ℝ) ^ 100 ≤ 2 ^ 900 := pow_le_pow_right₀ (by norm_num) (by norm_num)
    have p2 : (2 : ℝ) ^ 800 ≤ 2 ^ 900 := pow_le_pow_right₀ (by norm_num) (by norm_num)
    have b1 : 1 / 2 ^ 900 ≤ 1 / x.toR := one_div_le_one_div_of_le hp (h1.trans p1)
    have b2 : 1 / x.toR ≤ 2 ^ 900 := by
      refine le_trans ?_ p2
      rw [one_div_le hp (by positivity)]; exact h
    have r := rel_recip (Rel.exact hf) hp (by norm_num) b1 b2
    have r2 := rel_recip r (by positivity) (by norm_num)
      (by rw [one_div_one_div]; exact (one_div_le_one_div_of_le (by positivity) p2).trans h)
      (by rw [one_div_one_div]; exact h1.trans p1)
    rw [one_div_one_div] at r2
    refine (r2.near hp.le).mono ?_
    have : (0 : ℝ) ≤ 1 / 2 ^ 800 := by positivity
    generalize (1 : ℝ) / 2 ^ 800 = t at *
    rw [show (0 + 1 + 1) / 2 ^ 50 * x.toR = x.toR / 2 ^ 49 by ring]
    linarith

theorem sumZero_near : Near 0 (Flt.sumZero : FP E) 0 := by
  refine ⟨trivial, ?_⟩
  have : FP.toR (Flt.sumZero : FP E) = 0 := by
    change signed _ (0 : ℝ) = 0
    unfold signed; split_ifs <;> simp
  rw [this]; simp

/-- Sums of at most `2 ^ 10` terms of size at most one. -/
theorem near_sum {β : Type} (l : List β) (f : β → FP E) (h : β → ℝ) (hε : 0 ≤ ε) (hε' : ε ≤ 1 / 2 ^ 20)
    (hn : l.length ≤ 2 ^ 10) (hf : ∀ r ∈ l, Near ε (f r) (h r) ∧ |h r| ≤ 1) :
    Near (l.length * (ε + 1 / 2 ^ 40)) (Flt.sum (l.map f)) (l.map h).sum ∧
      |(l.map h).sum| ≤ l.length := by
  have key : ∀ (l : List β) (acc : FP E) (A : ℝ) (k : ℕ), k + l.length ≤ 2 ^ 10 →
      (∀ r ∈ l, Near ε (f r) (h r) ∧ |h r| ≤ 1) →
      Near (k * (ε + 1 / 2 ^ 40)) acc A → |A| ≤ k →
      Near ((k + l.length) * (ε + 1 / 2 ^ 40)) ((l.map f).foldl (· + ·) acc) (A + (l.map h).sum) ∧
        |A + (l.map h).sum| ≤ k + l.length := by
    intro l
    induction l with
    | nil => intro acc A k _ _ h1 h2; simpa only [List.map_nil, List.foldl_nil, List.sum_nil, add_zero, List.length_nil, Nat.cast_zero] using And.intro h1 h2
    | cons r l ih =>
      intro acc A k hk hl h1 h2
      obtain ⟨r1, r2⟩ := hl r (by simp)
      have hk' : ((k : ℝ) + 1) ≤ 2 ^ 10 := by
        have : k + 1 ≤ 2 ^ 10 := by simp only [List.length_cons] at hk; omega
        exact_mod_cast this
      have h3 : |A + h r| ≤ k + 1 := (abs_add_le _ _).trans (add_le_add h2 r2)
      have h4 : (k : ℝ) * (ε + 1 / 2 ^ 40) + ε ≤ 1 := by
        have e1 : ε + 1 / 2 ^ 40 ≤ 1 / 2 ^ 19 := by norm_num at hε' ⊢; linarith
        have : (k : ℝ) * (ε + 1 / 2 ^ 40) ≤ k * (1 / 2 ^ 19) :=
          mul_le_mul_of_nonneg_left e1 (Nat.cast_nonneg k)
        norm_num at this hk' hε' ⊢
        linarith
      have h5 := (small_add h1 r1 (M := 2 ^ 10 + 1) (by linarith)
        (le_trans (b := 1) (by rw [div_le_one (by positivity)]; exact one_le_pow₀ (by norm_num)) (by norm_num))
        (le_trans (b := 2 ^ 12) (by norm_num) (pow_le_pow_right₀ (by norm_num) (by norm_num)))).mono
          (δ := ((k + 1 : ℕ) : ℝ) * (ε + 1 / 2 ^ 40)) (by
          push_cast
          have : ((2 : ℝ) ^ 10 + 1) / 2 ^ 51 ≤ 1 / 2 ^ 40 := by norm_num
          linarith)
      have := ih (acc + f r) (A + h r) (k + 1) (by simp only [List.length_cons] at hk; omega)
        (fun r' hr' => hl r' (List.mem_cons_of_mem _ hr')) h5 (by push_cast; exact h3)
      simp only [List.map_cons, List.foldl_cons, List.sum_cons, List.length_cons]
      push_cast at this ⊢
      rw [show A + (h r + (l.map h).sum) = A + h r + (l.map h).sum by ring,
        show (k : ℝ) + (l.length + 1) = k + 1 + l.length by ring]
      exact this
  have := key l Flt.sumZero 0 0 (by omega) hf (by
    rw [Nat.cast_zero, zero_mul]
    exact sumZero_near) (by simp)
  simpa [Flt.sum] using this

end FP
end Skillratings
