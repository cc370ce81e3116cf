import Verif.Proofs.FP
import Verif.Model.Glicko2
import Mathlib.Tactic.Linarith
import Mathlib.Tactic.LinearCombination
import Mathlib.Tactic.Positivity
/-
The iteration of the Glicko-2 volatility (Illinois variant of regula falsi) with rounding errors:
it ends, near the zero of the function.

The analysis is abstract: `Secant` collects what is needed from the arithmetic of one step,
`Zero` what is needed from the computed function.  Lengths are counted in units of `θ`, a bound
for the rounding error of one secant step; the computed function is reliable outside an interval of
radius `θ / 256` around the zero `r`, which contains at most one number of the format.
-/
namespace Skillratings.Glicko2
open FP FPVal
variable {E : FloatEnv}

/-- The new point of a step. -/
noncomputable def secant (s : VolState (FP E)) : FP E :=
  s.a + ((s.a - s.b) * s.fa / (s.fb - s.fa))

/-- A state in which the secant step makes sense. -/
structure Usable (r R : ℝ) (s : VolState (FP E)) : Prop where
  a : s.a.isFinite ∧ |s.a.toR - r| ≤ R
  b : s.b.isFinite ∧ |s.b.toR - r| ≤ R
  fa : s.fa.isFinite ∧ (s.fa.toR = 0 ∨ 1 / 2 ^ 400 ≤ |s.fa.toR|) ∧ |s.fa.toR| ≤ 2 ^ 100
  fb : s.fb.isFinite ∧ (s.fb.toR = 0 ∨ 1 / 2 ^ 400 ≤ |s.fb.toR|) ∧ |s.fb.toR| ≤ 2 ^ 100
  ne : s.fa.toR * s.fb.toR < 0 ∨ (s.fb.toR ≠ 0 ∧ 2 * |s.fa.toR| ≤ |s.fb.toR|) ∨
    (s.fb.toR = 0 ∧ s.fa.toR ≠ 0)

/-- The arithmetic of a step. -/
structure Secant (E : FloatEnv) (r R θ : ℝ) : Prop where
  err : ∀ s : VolState (FP E), Usable r R s → (secant s).isFinite ∧
    |(secant s).toR - (s.a.toR + (s.a.toR - s.b.toR) * s.fa.toR / (s.fb.toR - s.fa.toR))| ≤ θ
  /-- The new point is on the other end's side. -/
  dir : ∀ s : VolState (FP E), Usable r R s → s.fa.toR * s.fb.toR < 0 →
    0 ≤ ((secant s).toR - s.a.toR) * (s.b.toR - s.a.toR)
  /-- Halving moves the new point towards the kept end. -/
  mono : ∀ (s : VolState (FP E)) (x : FP E), Usable r R s → Usable r R { s with fa := x } →
    s.fa.toR * s.fb.toR < 0 → x.toR = 2 * s.fa.toR → θ ≤ |s.a.toR - s.b.toR| →
    0 ≤ ((secant s).toR - (secant { s with fa := x }).toR) * (s.a.toR - s.b.toR)
  half : ∀ x : FP E, x.isFinite → 1 / 2 ^ 400 ≤ |x.toR| → |x.toR| ≤ 2 ^ 100 →
    (x / 2.0).isFinite ∧ (x / 2.0).toR = x.toR / 2
  prod : ∀ x y : FP E, x.isFinite → y.isFinite → (x.toR = 0 ∨ 1 / 2 ^ 400 ≤ |x.toR|) →
    (y.toR = 0 ∨ 1 / 2 ^ 400 ≤ |y.toR|) → |x.toR| ≤ 2 ^ 100 → |y.toR| ≤ 2 ^ 100 →
    ((x * y <=? (0.0 : FP E)) = true ↔ x.toR * y.toR ≤ 0)

/-- A computed function with a zero at `r`. -/
structure Zero (f : FP E → FP E) (r m θ R : ℝ) : Prop where
  θ0 : 0 < θ
  m0 : 0 < m
  lb : 1 / 2 ^ 400 ≤ m * θ
  ub : 12 * m * (R + θ) ≤ 2 ^ 100
  wide : 2 ^ 22 * θ ≤ R
  fin : ∀ x : FP E, x.isFinite → |x.toR - r| ≤ R + θ → (f x).isFinite
  far : ∀ x : FP E, x.isFinite → θ / 256 ≤ |x.toR - r| → |x.toR - r| ≤ R + θ →
    (f x).toR * (x.toR - r) < 0 ∧ m * |x.toR - r| ≤ |(f x).toR| ∧
      |(f x).toR| ≤ 12 * m * |x.toR - r|
  thin : ∀ x : FP E, x.isFinite → |x.toR - r| < θ / 256 → |(f x).toR| ≤ 12 * m * (θ / 256)
  one : ∀ x y : FP E, x.isFinite → y.isFinite → |x.toR - r| < θ / 256 → |y.toR - r| < θ / 256 → x = y
  tiny : ∀ x : FP E, x.isFinite → |x.toR - r| ≤ R + θ → (f x).toR = 0 ∨ 1 / 2 ^ 400 ≤ |(f x).toR|

/-- The stopping rule. -/
structure Stops (tol : FP E) (r R θ η : ℝ) : Prop where
  stop : ∀ x y : FP E, x.isFinite → y.isFinite → |y.toR - x.toR| ≤ 2 ^ 22 * θ →
    ¬ (tol <? Flt.abs (y - x)) = true
  close : ∀ x y : FP E, x.isFinite → y.isFinite → |x.toR - r| ≤ R → |y.toR - r| ≤ R →
    ¬ (tol <? Flt.abs (y - x)) = true → |y.toR - x.toR| ≤ η

/-- The loop ends close to the zero. -/
def Ends (f : FP E → FP E) (tol : FP E) (r θ η : ℝ) (s : VolState (FP E)) : Prop :=
  ∃ t, volLoop f tol s = some t ∧ t.a.isFinite ∧ |t.a.toR - r| ≤ η + 1300 * θ

section
variable {f : FP E → FP E} {tol : FP E} {r m θ R η : ℝ} {s : VolState (FP E)}

theorem volStep_eq (f : FP E → FP E) (s : VolState (FP E)) : volStep f s =
    if (f (secant s) * s.fb <=? (0.0 : FP E)) = true then ⟨s.b, secant s, s.fb, f (secant s)⟩
    else ⟨s.a, secant s, s.fa / 2.0, f (secant s)⟩ := rfl

theorem Ends.next (P : Stops tol r R θ η) (hθ : 0 < θ) (ha : s.a.isFinite ∧ |s.a.toR - r| ≤ R)
    (hb : s.b.isFinite ∧ |s.b.toR - r| ≤ R)
    (hc : |s.a.toR - r| ≤ |s.b.toR - s.a.toR| + 1300 * θ)
    (h : Ends f tol r θ η (volStep f s)) : Ends f tol r θ η s := by
  by_cases hs : (tol <? Flt.abs (s.b - s.a)) = true
  · obtain ⟨t, h1, h2⟩ := h
    refine ⟨t, ?_, h2⟩
    rw [volLoop, if_pos hs]
    exact h1
  · refine ⟨s, ?_, ha.1, ?_⟩
    · rw [volLoop, if_neg hs]
    · have := P.close _ _ ha.1 hb.1 ha.2 hb.2 hs
      linarith

theorem Ends.done (P : Stops tol r R θ η) (ha : s.a.isFinite ∧ |s.a.toR - r| ≤ R)
    (hb : s.b.isFinite ∧ |s.b.toR - r| ≤ R)
    (hc : |s.a.toR - r| ≤ |s.b.toR - s.a.toR| + 1300 * θ)
    (h : |s.b.toR - s.a.toR| ≤ 2 ^ 22 * θ) : Ends f tol r θ η s := by
  have hs := P.stop _ _ ha.1 hb.1 h
  refine ⟨s, ?_, ha.1, ?_⟩
  · rw [volLoop, if_neg hs]
  · have := P.close _ _ ha.1 hb.1 ha.2 hb.2 hs
    linarith

/-! ### Facts about the function in the orientation `σ` -/

theorem abs_sg {σ : ℝ} (h : σ = 1 ∨ σ = -1) (x : ℝ) : |x| = |σ * x| := by
  rcases h with rfl | rfl <;> simp

theorem Zero.pos (Z : Zero f r m θ R) {σ : ℝ} (hσ : σ = 1 ∨ σ = -1) {x : FP E} (hx : x.isFinite)
    (h1 : θ / 256 ≤ σ * (x.toR - r)) (h2 : σ * (x.toR - r) ≤ R + θ) :
    0 < -(σ * (f x).toR) ∧ m * (σ * (x.toR - r)) ≤ -(σ * (f x).toR) ∧
      -(σ * (f x).toR) ≤ 12 * m * (σ * (x.toR - r)) := by
  have hθ := Z.θ0
  have e0 : 0 < σ * (x.toR - r) := by linarith
  have e1 : |x.toR - r| = σ * (x.toR - r) := by rw [abs_sg hσ, abs_of_pos e0]
  obtain ⟨q1, q2, q3⟩ := Z.far x hx (by rw [e1]; exact h1) (by rw [e1]; exact h2)
  have hss : σ * σ = 1 := by rcases hσ with rfl | rfl <;> norm_num
  have q4 : σ * (f x).toR < 0 := by
    have : (σ * (f x).toR) * (σ * (x.toR - r)) < 0 := by
      have : (σ * (f x).toR) * (σ * (x.toR - r)) = (σ * σ) * ((f x).toR * (x.toR - r)) := by ring
      rw [this, hss, one_mul]; exact q1
    by_contra hc
    have := mul_nonneg (not_lt.1 hc) e0.le
    linarith
  have e2 : |(f x).toR| = -(σ * (f x).toR) := by rw [abs_sg hσ, abs_of_neg q4]
  rw [e1, e2] at q2 q3
  exact ⟨by linarith, q2, q3⟩

theorem Zero.neg (Z : Zero f r m θ R) {σ : ℝ} (hσ : σ = 1 ∨ σ = -1) {x : FP E} (hx : x.isFinite)
    (h1 : θ / 256 ≤ -(σ * (x.toR - r))) (h2 : -(σ * (x.toR - r)) ≤ R + θ) :
    0 < σ * (f x).toR ∧ m * -(σ * (x.toR - r)) ≤ σ * (f x).toR ∧
      σ * (f x).toR ≤ 12 * m * -(σ * (x.toR - r)) := by
  have := Z.pos (σ := -σ) (by rcases hσ with rfl | rfl <;> norm_num) hx (by linarith) (by linarith)
  simpa only [neg_mul, neg_neg] using this

/-- Sizes of the function: no overflow. -/
theorem Zero.size (Z : Zero f r m θ R) {x : FP E} (hx : x.isFinite) (h : |x.toR - r| ≤ R + θ) :
    |(f x).toR| ≤ 2 ^ 100 := by
  have hθ := Z.θ0
  have hm := Z.m0
  have hw := Z.wide
  refine le_trans ?_ Z.ub
  rcases lt_or_ge |x.toR - r| (θ / 256) with h1 | h1
  · refine (Z.thin x hx h1).trans ?_
    exact mul_le_mul_of_nonneg_left (by linarith) (by positivity)
  · exact (Z.far x hx h1 h).2.2.trans (mul_le_mul_of_nonneg_left h (by positivity))

theorem Zero.size_ball (Z : Zero f r m θ R) {x : FP E} (hx : x.isFinite) {ρ : ℝ}
    (h : |x.toR - r| ≤ ρ) (hρ : θ / 256 ≤ ρ) (hR : ρ ≤ R) : |(f x).toR| ≤ 12 * m * ρ := by
  have hθ := Z.θ0
  have hm := Z.m0
  rcases lt_or_ge |x.toR - r| (θ / 256) with h1 | h1
  · exact (Z.thin x hx h1).trans (mul_le_mul_of_nonneg_left hρ (by positivity))
  · exact (Z.far x hx h1 (by linarith)).2.2.trans (mul_le_mul_of_nonneg_left h (by positivity))

/-! ### The secant step in the orientation `σ` -/

/-- Where the new point lies: at `e_b + (e_a - e_b) g_b / (g_a + g_b)`, up to `θ`. -/
theorem secant_at (A : Secant E r R θ) {σ : ℝ} (hσ : σ = 1 ∨ σ = -1) (hu : Usable r R s)
    {ga gb : ℝ} (ea : ga = -(σ * s.fa.toR)) (eb : gb = σ * s.fb.toR) (h : 0 < ga + gb) :
    (secant s).isFinite ∧ |σ * ((secant s).toR - r) - (σ * (s.b.toR - r) +
      (σ * (s.a.toR - r) - σ * (s.b.toR - r)) * gb / (ga + gb))| ≤ θ := by
  obtain ⟨h1, h2⟩ := A.err s hu
  refine ⟨h1, ?_⟩
  have hss : σ * σ = 1 := by rcases hσ with rfl | rfl <;> norm_num
  have hfa : s.fa.toR = -(σ * ga) := by rw [ea]; linear_combination (-s.fa.toR) * hss
  have hfb : s.fb.toR = σ * gb := by rw [eb]; linear_combination (-s.fb.toR) * hss
  have hσ0 : σ ≠ 0 := by rcases hσ with rfl | rfl <;> norm_num
  have e : (s.a.toR - s.b.toR) * s.fa.toR / (s.fb.toR - s.fa.toR) =
      -((s.a.toR - s.b.toR) * ga / (ga + gb)) := by
    rw [hfa, hfb]
    have : σ * gb - -(σ * ga) = σ * (ga + gb) := by ring
    rw [this]
    field_simp
  rw [e] at h2
  refine le_trans (le_of_eq ?_) h2
  rw [abs_sg hσ ((secant s).toR - _)]
  congr 1
  field_simp
  ring

/-! ### The newer end is close to the zero -/

/-- The newer end `b` is within `1200 θ` of the zero, the older one, `a`, lies on the side `σ`. -/
structure BState (f : FP E → FP E) (r m θ R σ : ℝ) (s : VolState (FP E)) : Prop where
  sg : σ = 1 ∨ σ = -1
  a : s.a.isFinite
  ea : σ * (s.a.toR - r) ≤ R
  b : s.b.isFinite
  eb : |s.b.toR - r| ≤ 1200 * θ
  fb : s.fb = f s.b
  fa : s.fa.isFinite
  lb : 1 / 2 ^ 400 ≤ -(σ * s.fa.toR)
  ub : -(σ * s.fa.toR) ≤ 12 * m * (σ * (s.a.toR - r))
  gb : 0 ≤ σ * s.fb.toR
  good : σ * s.fb.toR * (σ * (s.a.toR - r) - σ * (s.b.toR - r)) ≤ -(σ * s.fa.toR) * (2 ^ 17 * θ)
  seen : |s.b.toR - r| < θ / 256 →
    50 * m * θ * (σ * (s.a.toR - r) - σ * (s.b.toR - r)) ≤ -(σ * s.fa.toR) * (2 ^ 17 * θ) ∨
    ∃ x : FP E, x.isFinite ∧ x.toR = 2 * s.fa.toR ∧ |x.toR| ≤ 2 ^ 100 ∧ secant { s with fa := x } = s.b

theorem values_le {θ D ga gb : ℝ} (hθ : 0 < θ) (hD : 2 ^ 22 * θ < D) (hga : 0 < ga)
    (hgood : gb * D ≤ ga * (2 ^ 17 * θ)) : gb ≤ ga := by
  by_contra hlt
  push Not at hlt
  have : ga * (2 ^ 17 * θ) < gb * D := by
    apply mul_lt_mul'' hlt _ hga.le (by positivity)
    norm_num at hD ⊢; linarith
  linarith

theorem moved_le {θ D ga gb : ℝ} (hθ : 0 < θ) (hga : 0 < ga) (hgb : 0 ≤ gb)
    (hgood : gb * D ≤ ga * (2 ^ 17 * θ)) : D * gb / (ga + gb) ≤ 2 ^ 17 * θ := by
  rw [div_le_iff₀ (by linarith)]
  have : 0 ≤ 2 ^ 17 * θ * gb := by positivity
  linarith

/-- A retained step from a reliable point leaves a large value at the older end. -/
theorem retained {m θ D e ga gb : ℝ} (hθ : 0 < θ) (hD : 2 ^ 22 * θ < D) (he : 0 < e)
    (hga : 0 < ga) (hgb : 0 < gb) (hge : m * e ≤ gb) (hgood : gb * D ≤ ga * (2 ^ 17 * θ))
    (h1 : D * gb / (ga + gb) ≤ e + 2 * θ) : m * e * D ≤ 2 * (e + 2 * θ) * ga := by
  rw [div_le_iff₀ (by positivity)] at h1
  have h2 := values_le hθ hD hga hgood
  have h3 : m * e * D ≤ gb * D := mul_le_mul_of_nonneg_right hge (by linarith [mul_pos (by norm_num : (0:ℝ) < 2 ^ 22) hθ])
  have h4 : (e + 2 * θ) * (ga + gb) ≤ (e + 2 * θ) * (2 * ga) := mul_le_mul_of_nonneg_left (by linarith) (by positivity)
  linarith

theorem retained_good {m θ D e ga : ℝ} (hθ : 0 < θ) (hga : 0 < ga) 
    (h1 : θ / 256 ≤ e) (h2 : e ≤ 1200 * θ) (h : m * e * D ≤ 2 * (e + 2 * θ) * ga) :
    12 * m * (e + θ) * (13 / 12 * D) ≤ ga / 2 * (2 ^ 17 * θ) := by
  have he : 0 < e := by linarith
  have k : 13 * (e + θ) * (e + 2 * θ) ≤ 2 ^ 15 * θ * e := by
    nlinarith [mul_nonneg (sub_nonneg.2 h1) (sub_nonneg.2 h2), mul_pos hθ he]
  refine le_of_mul_le_mul_right ?_ he
  have b1 : 12 * m * (e + θ) * (13 / 12 * D) * e = 13 * (e + θ) * (m * e * D) := by ring
  have b2 : 13 * (e + θ) * (m * e * D) ≤ 13 * (e + θ) * (2 * (e + 2 * θ) * ga) :=
    mul_le_mul_of_nonneg_left h (by positivity)
  have b3 : 13 * (e + θ) * (2 * (e + 2 * θ) * ga) = 2 * ga * (13 * (e + θ) * (e + 2 * θ)) := by ring
  have b4 : 2 * ga * (13 * (e + θ) * (e + 2 * θ)) ≤ 2 * ga * (2 ^ 15 * θ * e) :=
    mul_le_mul_of_nonneg_left k (by positivity)
  rw [b1]
  refine b2.trans (b3.le.trans (b4.trans (le_of_eq ?_)))
  ring

theorem retained_thin {m θ D e ga : ℝ} (hθ : 0 < θ) (hga : 0 < ga)
    (h1 : θ / 256 ≤ e) (h : m * e * D ≤ 2 * (e + 2 * θ) * ga) :
    m * D * θ * 60 ≤ ga / 2 * (2 ^ 17 * θ) := by
  have he : 0 < e := by linarith
  have k : 2 * (e + 2 * θ) ≤ 1026 * e := by linarith
  have h3 : 2 * (e + 2 * θ) * ga ≤ 1026 * e * ga := mul_le_mul_of_nonneg_right k hga.le
  have h4 : e * (m * D) ≤ e * (1026 * ga) := by linarith
  have h5 := le_of_mul_le_mul_left h4 he
  have h6 := mul_le_mul_of_nonneg_right h5 hθ.le
  have h7 := mul_pos hga hθ
  norm_num
  linarith

theorem drift {m θ D e ga gb : ℝ} (hθ : 0 < θ) (hm : 0 < m) (hD : 2 ^ 22 * θ < D)
    (hga : 0 < ga) (hgb : 0 < gb) (h14 : 14 * θ < e) (hge : m * e ≤ gb) (h3 : ga ≤ 12 * m * D) :
    θ ≤ D * gb / (ga + gb) := by
  have hD0 : 0 < D := by linarith [mul_pos (by norm_num : (0:ℝ) < 2 ^ 22) hθ]
  rw [le_div_iff₀ (by linarith)]
  have h4 : θ * ga ≤ θ * (12 * m * D) := mul_le_mul_of_nonneg_left h3 hθ.le
  have h5 : θ * gb ≤ D / 1000 * gb := by
    refine mul_le_mul_of_nonneg_right ?_ hgb.le
    norm_num at hD; linarith
  have h6 : D * (m * e) ≤ D * gb := mul_le_mul_of_nonneg_left hge hD0.le
  have h7 : D * (m * (14 * θ)) ≤ D * (m * e) :=
    mul_le_mul_of_nonneg_left (mul_le_mul_of_nonneg_left h14.le hm.le) hD0.le
  have h8 : 0 ≤ m * θ * D := by positivity
  linarith

theorem thin_good {θ D ga gb : ℝ} (hθ : 0 < θ) (hD : 2 ^ 22 * θ < D)
    (hga : 0 < ga) (hgb : 0 < gb) (hgood : gb * D ≤ ga * (2 ^ 17 * θ))
    (h5 : D * gb / (ga + gb) ≤ 2 * θ) : gb * D ≤ ga / 2 * (2 ^ 17 * θ) := by
  rw [div_le_iff₀ (by linarith)] at h5
  have h6 := values_le hθ hD hga hgood
  have h7 : θ * (ga + gb) ≤ θ * (2 * ga) := mul_le_mul_of_nonneg_left (by linarith) hθ.le
  have h8 : 0 ≤ θ * ga := by positivity
  norm_num
  linarith

theorem seen_good {m θ D D' ga gc : ℝ} (hm : 0 < m) (hθ : 0 < θ) (hD : 0 < D) (hD' : 12 * D' ≤ 13 * D)
    (hgc : 0 < gc) (h3 : gc ≤ 12 * m * (θ / 256 + θ)) (hs : 50 * m * θ * D ≤ ga * (2 ^ 17 * θ)) :
    gc * D' ≤ ga / 2 * (2 ^ 17 * θ) := by
  have h4 : gc * D' ≤ 12 * m * (θ / 256 + θ) * (13 / 12 * D) := by
    refine (mul_le_mul_of_nonneg_left (by linarith : D' ≤ 13 / 12 * D) hgc.le).trans ?_
    exact mul_le_mul_of_nonneg_right h3 (by positivity)
  have h5 : 0 ≤ m * θ * D := by positivity
  linarith

set_option maxHeartbeats 800000 in
theorem BState.ends (A : Secant E r R θ) (Z : Zero f r m θ R) (P : Stops tol r R θ η) {σ : ℝ} (n : ℕ) :
    ∀ s : VolState (FP E), BState f r m θ R σ s → -(σ * s.fa.toR) < 2 ^ n * (1 / 2 ^ 400) →
      Ends f tol r θ η s := by
  have hθ := Z.θ0
  have hm := Z.m0
  have hR := Z.wide
  have hlb : (0 : ℝ) < 1 / 2 ^ 400 := by positivity
  induction n with
  | zero => intro s B h; rw [pow_zero, one_mul] at h; exact absurd B.lb (not_le.2 h)
  | succ n ih =>
    intro s B hn
    have hσ := B.sg
    have hss : σ * σ = 1 := by rcases hσ with rfl | rfl <;> norm_num
    obtain ⟨c1, c2⟩ := abs_le.1 (by rw [← abs_sg hσ]; exact B.eb : |σ * (s.b.toR - r)| ≤ 1200 * θ)
    have hRb : |s.b.toR - r| ≤ R := B.eb.trans (by norm_num at hR; linarith)
    have ea0 : 0 < σ * (s.a.toR - r) := by
      have h1 : 0 < 12 * m * (σ * (s.a.toR - r)) := lt_of_lt_of_le hlb (B.lb.trans B.ub)
      exact pos_of_mul_pos_right h1 (by positivity)
    have hRa : |s.a.toR - r| ≤ R := by rw [abs_sg hσ, abs_of_pos ea0]; exact B.ea
    have hca : |s.a.toR - r| ≤ |s.b.toR - s.a.toR| + 1300 * θ := by
      have : s.a.toR - r = (s.b.toR - r) - (s.b.toR - s.a.toR) := by ring
      rw [this]
      exact (abs_sub _ _).trans (by linarith [B.eb])
    by_cases hstop : |s.b.toR - s.a.toR| ≤ 2 ^ 22 * θ
    · exact Ends.done P ⟨B.a, hRa⟩ ⟨B.b, hRb⟩ hca hstop
    push Not at hstop
    obtain ⟨D, hDdef⟩ : ∃ D, D = σ * (s.a.toR - r) - σ * (s.b.toR - r) := ⟨_, rfl⟩
    have hD : 2 ^ 22 * θ < D := by
      have e : |s.b.toR - s.a.toR| = |D| := by
        rw [abs_sg hσ, ← abs_neg, hDdef]; congr 1; ring
      rw [e] at hstop
      rcases abs_cases D with ⟨h1, -⟩ | ⟨h1, -⟩
      · rwa [h1] at hstop
      · rw [h1] at hstop; norm_num at hstop; linarith
    have hfbfin : s.fb.isFinite := by rw [B.fb]; exact Z.fin _ B.b (by linarith)
    have hfbtiny : s.fb.toR = 0 ∨ 1 / 2 ^ 400 ≤ |s.fb.toR| := by
      rw [B.fb]; exact Z.tiny _ B.b (by linarith)
    have hfbsize : |s.fb.toR| ≤ 2 ^ 100 := by rw [B.fb]; exact Z.size B.b (by linarith)
    obtain ⟨ga, hga⟩ : ∃ g, g = -(σ * s.fa.toR) := ⟨_, rfl⟩
    obtain ⟨gb, hgb⟩ : ∃ g, g = σ * s.fb.toR := ⟨_, rfl⟩
    have hga0 : 0 < ga := by rw [hga]; exact lt_of_lt_of_le hlb B.lb
    have hfaabs : |s.fa.toR| = ga := by
      rw [abs_sg hσ, ← abs_neg, ← hga, abs_of_pos hga0]
    have hfasize : |s.fa.toR| ≤ 2 ^ 100 := by
      rw [hfaabs, hga]
      refine B.ub.trans (le_trans ?_ Z.ub)
      exact mul_le_mul_of_nonneg_left (by linarith [B.ea]) (by positivity)
    have hfalb : 1 / 2 ^ 400 ≤ |s.fa.toR| := by rw [hfaabs, hga]; exact B.lb
    have hgb0 : 0 ≤ gb := by rw [hgb]; exact B.gb
    have hgood : gb * D ≤ ga * (2 ^ 17 * θ) := by rw [hgb, hga, hDdef]; exact B.good
    have hprod : s.fa.toR * s.fb.toR = -(ga * gb) := by
      rw [hga, hgb]; linear_combination (-(s.fa.toR * s.fb.toR)) * hss
    have hfane : s.fa.toR ≠ 0 := by
      intro h; rw [h] at hfaabs; simp at hfaabs; linarith
    have hu : Usable r R s := by
      refine ⟨⟨B.a, hRa⟩, ⟨B.b, hRb⟩, ⟨B.fa, Or.inr hfalb, hfasize⟩, ⟨hfbfin, hfbtiny, hfbsize⟩, ?_⟩
      rcases hgb0.eq_or_lt with h0 | h0
      · refine Or.inr (Or.inr ⟨?_, hfane⟩)
        have : |s.fb.toR| = 0 := by rw [abs_sg hσ, ← hgb, ← h0, abs_zero]
        exact abs_eq_zero.1 this
      · left; rw [hprod]; linarith [mul_pos hga0 h0]
    obtain ⟨hcfin, hc⟩ := secant_at A hσ hu hga hgb (by linarith)
    rw [← hDdef] at hc
    -- the displacement is small
    have hdisp0 : 0 ≤ D * gb / (ga + gb) := by
      have : 0 < D := by linarith [mul_pos (by norm_num : (0:ℝ) < 2 ^ 22) hθ]
      positivity
    have hdisp : D * gb / (ga + gb) ≤ 2 ^ 17 * θ := moved_le hθ hga0 hgb0 hgood
    obtain ⟨k1, k2⟩ := abs_le.1 hc
    have hcb : |(secant s).toR - s.b.toR| ≤ 2 ^ 22 * θ := by
      rw [abs_sg hσ, show σ * ((secant s).toR - s.b.toR) = σ * ((secant s).toR - r) - σ * (s.b.toR - r) by ring,
        abs_le]
      norm_num at hdisp ⊢
      constructor <;> linarith
    have hcR : |(secant s).toR - r| ≤ R := by
      rw [abs_sg hσ, abs_le]
      norm_num at hdisp hR
      constructor <;> linarith
    have hcfR : |(secant s).toR - r| ≤ R + θ := by linarith
    refine Ends.next P hθ ⟨B.a, hRa⟩ ⟨B.b, hRb⟩ hca ?_
    rw [volStep_eq]
    by_cases hp : (f (secant s) * s.fb <=? (0.0 : FP E)) = true
    · rw [if_pos hp]
      exact Ends.done P ⟨B.b, hRb⟩ ⟨hcfin, hcR⟩ (by linarith [abs_nonneg ((secant s).toR - s.b.toR), B.eb]) hcb
    rw [if_neg hp]
    rw [A.prod _ _ (Z.fin _ hcfin hcfR) hfbfin (Z.tiny _ hcfin hcfR) hfbtiny (Z.size hcfin hcfR) hfbsize,
      not_le] at hp
    obtain ⟨gc, hgc⟩ : ∃ g, g = σ * (f (secant s)).toR := ⟨_, rfl⟩
    have hgcb : 0 < gc * gb := by
      rw [hgc, hgb]
      have : σ * (f (secant s)).toR * (σ * s.fb.toR) = (σ * σ) * ((f (secant s)).toR * s.fb.toR) := by ring
      rw [this, hss, one_mul]; exact hp
    have hgb0 : 0 < gb := by
      rcases hgb0.eq_or_lt with h0 | h0
      · rw [← h0] at hgcb; simp at hgcb
      · exact h0
    have hgc0 : 0 < gc := pos_of_mul_pos_left hgcb hgb0.le
    have hgcabs : |(f (secant s)).toR| = gc := by rw [abs_sg hσ, ← hgc, abs_of_pos hgc0]
    have hgclb : 1 / 2 ^ 400 ≤ gc := by
      rcases Z.tiny _ hcfin hcfR with h0 | h0
      · rw [hgcabs.symm, h0] at hgc0; simp at hgc0
      · rwa [hgcabs] at h0
    obtain ⟨hhfin, hhval⟩ := A.half _ B.fa hfalb hfasize
    -- it remains to see that the new state is of the same kind
    obtain ⟨D', hD'def⟩ : ∃ D', D' = σ * (s.a.toR - r) - σ * ((secant s).toR - r) := ⟨_, rfl⟩
    have hD' : 12 * D' ≤ 13 * D := by
      rw [hD'def]; norm_num at hD; linarith
    have hga' : -(σ * (s.fa / 2.0).toR) = ga / 2 := by rw [hhval, hga]; ring
    suffices hnew : |(secant s).toR - r| ≤ 1200 * θ ∧ gc * D' ≤ ga / 2 * (2 ^ 17 * θ) ∧
        (|(secant s).toR - r| < θ / 256 → 50 * m * θ * D' ≤ ga / 2 * (2 ^ 17 * θ) ∨
          secant s = s.b ∧ f (secant s) = s.fb) by
      obtain ⟨n1, n2, n3⟩ := hnew
      by_cases hstop' : |(secant s).toR - s.a.toR| ≤ 2 ^ 22 * θ
      · refine Ends.done P ⟨B.a, hRa⟩ ⟨hcfin, hcR⟩ ?_ hstop'
        have : s.a.toR - r = ((secant s).toR - r) - ((secant s).toR - s.a.toR) := by ring
        show |s.a.toR - r| ≤ _
        rw [this]
        exact (abs_sub _ _).trans (by linarith)
      push Not at hstop'
      have hD'0 : 2 ^ 22 * θ < D' := by
        have e : |(secant s).toR - s.a.toR| = |D'| := by
          rw [abs_sg hσ, ← abs_neg, hD'def]; congr 1; ring
        rw [e] at hstop'
        obtain ⟨c3, c4⟩ := abs_le.1 (by rw [← abs_sg hσ]; exact n1 : |σ * ((secant s).toR - r)| ≤ 1200 * θ)
        rcases abs_cases D' with ⟨h1, -⟩ | ⟨h1, -⟩
        · rwa [h1] at hstop'
        · rw [h1] at hstop'; norm_num at hstop'; linarith
      have hlb' : 1 / 2 ^ 400 ≤ ga / 2 := by
        refine hgclb.trans ?_
        have q : gc * (2 ^ 17 * θ) ≤ ga / 2 * (2 ^ 17 * θ) := by
          refine le_trans (mul_le_mul_of_nonneg_left ?_ hgc0.le) n2
          norm_num at hD'0 ⊢; linarith
        exact le_of_mul_le_mul_right q (by positivity)
      refine ih _ ?_ ?_
      · refine ⟨hσ, B.a, B.ea, hcfin, n1, rfl, hhfin, ?_, ?_, ?_, ?_, ?_⟩
        · rw [hga']; exact hlb'
        · rw [hga']
          have := B.ub
          rw [← hga] at this
          show ga / 2 ≤ _
          linarith
        · show 0 ≤ σ * (f (secant s)).toR
          rw [← hgc]; exact hgc0.le
        · show σ * (f (secant s)).toR * _ ≤ _
          rw [← hgc, hga']
          show gc * (σ * (s.a.toR - r) - σ * ((secant s).toR - r)) ≤ _
          rw [← hD'def]; exact n2
        · intro hthin
          rcases n3 hthin with h3 | ⟨h3, h4⟩
          · left
            rw [hga']
            show 50 * m * θ * (σ * (s.a.toR - r) - σ * ((secant s).toR - r)) ≤ _
            rw [← hD'def]; exact h3
          · right
            refine ⟨s.fa, B.fa, ?_, hfasize, ?_⟩
            · show s.fa.toR = 2 * (s.fa / 2.0).toR
              rw [hhval]; ring
            · show secant { a := s.a, b := secant s, fa := s.fa, fb := f (secant s) } = secant s
              rw [h4, h3]
              exact h3
      · show -(σ * (s.fa / 2.0).toR) < _
        rw [hga']
        rw [← hga, pow_succ] at hn
        generalize (1 : ℝ) / 2 ^ 400 = t at *
        linarith
    -- the cases
    have hthinc : |(secant s).toR - r| < θ / 256 ∨
        θ / 256 ≤ -(σ * ((secant s).toR - r)) := by
      by_contra hcon
      push Not at hcon
      obtain ⟨h1, h2⟩ := hcon
      rw [abs_sg hσ] at h1
      have h3 : θ / 256 ≤ σ * ((secant s).toR - r) := by
        rcases abs_cases (σ * ((secant s).toR - r)) with ⟨h4, -⟩ | ⟨h4, -⟩
        · rwa [h4] at h1
        · rw [h4] at h1; linarith
      have h4 := (Z.pos hσ hcfin h3 (by rw [abs_sg hσ] at hcfR; exact (le_abs_self _).trans hcfR)).1
      rw [← hgc] at h4
      linarith
    have hthinb : |s.b.toR - r| < θ / 256 ∨ θ / 256 ≤ -(σ * (s.b.toR - r)) := by
      by_contra hcon
      push Not at hcon
      obtain ⟨h1, h2⟩ := hcon
      rw [abs_sg hσ] at h1
      have h3 : θ / 256 ≤ σ * (s.b.toR - r) := by
        rcases abs_cases (σ * (s.b.toR - r)) with ⟨h4, -⟩ | ⟨h4, -⟩
        · rwa [h4] at h1
        · rw [h4] at h1; linarith
      have h4 := (Z.pos hσ B.b h3 (by linarith)).1
      rw [← B.fb, ← hgb] at h4
      linarith
    have hD0 : 0 < D := by linarith [mul_pos (by norm_num : (0:ℝ) < 2 ^ 22) hθ]
    have hD'pos : D' ≤ 2 * D := by linarith
    have hgcthin : |(secant s).toR - r| < θ / 256 → gc ≤ 12 * m * (θ / 256) := by
      intro h; rw [← hgcabs]; exact Z.thin _ hcfin h
    rcases hthinb with hb | hb
    · -- from the unreliable point
      have hbabs := abs_lt.1 (by rw [← abs_sg hσ]; exact hb : |σ * (s.b.toR - r)| < θ / 256)
      rcases hthinc with hcc | hcc
      · have he : secant s = s.b := Z.one _ _ hcfin B.b hcc hb
        have hD'D : D' = D := by rw [hD'def, hDdef, he]
        have hf : f (secant s) = s.fb := by rw [he, B.fb]
        have hgcgb : gc = gb := by rw [hgc, hgb, hf]
        refine ⟨by linarith, ?_, fun _ => Or.inr ⟨he, hf⟩⟩
        rw [hgcgb, hD'D]
        rw [he] at k2 k1
        exact thin_good hθ hD hga0 hgb0 hgood (by linarith)
      · rcases B.seen hb with hs | ⟨x, hx1, hx2, hx3, hx4⟩
        · -- seen for the first time
          rw [← hDdef, ← hga] at hs
          have h1 : -(σ * ((secant s).toR - r)) ≤ θ / 256 + θ := by linarith
          have h2 : |(secant s).toR - r| ≤ θ / 256 + θ := by
            rw [abs_sg hσ, abs_of_nonpos (by linarith)]; exact h1
          have h3 : gc ≤ 12 * m * (θ / 256 + θ) := by
            rw [← hgcabs]
            exact Z.size_ball hcfin h2 (by linarith) (by norm_num at hR; linarith)
          refine ⟨by linarith, ?_, fun h => ?_⟩
          · exact seen_good hm hθ hD0 hD' hgc0 h3 hs
          · exfalso
            rw [abs_sg hσ] at h
            have := (abs_lt.1 h).1
            linarith
        · -- seen before: impossible
          exfalso
          have hu2 : Usable r R { s with fa := x } := by
            refine ⟨hu.a, hu.b, ⟨hx1, Or.inr ?_, hx3⟩, hu.fb, Or.inl ?_⟩
            · show 1 / 2 ^ 400 ≤ |x.toR|
              rw [hx2, abs_mul]
              have : |(2 : ℝ)| = 2 := by norm_num
              rw [this]
              linarith [abs_nonneg s.fa.toR]
            · show x.toR * s.fb.toR < 0
              rw [hx2]
              have := mul_pos hga0 hgb0
              linarith [hprod]
          have hmono := A.mono s x hu hu2 (by rw [hprod]; linarith [mul_pos hga0 hgb0]) hx2
            (by rw [abs_sub_comm]; norm_num at hstop; linarith)
          rw [hx4] at hmono
          have e : ((secant s).toR - s.b.toR) * (s.a.toR - s.b.toR) =
              (σ * ((secant s).toR - r) - σ * (s.b.toR - r)) * D := by
            rw [hDdef]
            linear_combination (-((secant s).toR - s.b.toR) * (s.a.toR - s.b.toR)) * hss
          rw [e] at hmono
          have := nonneg_of_mul_nonneg_left hmono hD0
          linarith
    · -- from a reliable point
      have hge : m * -(σ * (s.b.toR - r)) ≤ gb := by
        rw [hgb, B.fb]
        exact (Z.neg hσ B.b hb (by linarith)).2.1
      have hcle : σ * ((secant s).toR - r) ≤ θ / 256 := by
        rcases hthinc with h | h
        · rw [abs_sg hσ] at h; exact (abs_lt.1 h).2.le
        · linarith
      have he1 : -(σ * (s.b.toR - r)) ≤ 1200 * θ := by linarith
      obtain ⟨e, hedef⟩ : ∃ e, e = -(σ * (s.b.toR - r)) := ⟨_, rfl⟩
      rw [← hedef] at hb hge he1
      have he0 : 0 < e := by linarith
      have hret : m * e * D ≤ 2 * (e + 2 * θ) * ga :=
        retained hθ hD he0 hga0 hgb0 hge hgood (by linarith)
      have hlow : -(σ * ((secant s).toR - r)) ≤ e + θ := by linarith
      -- no drift away from the zero
      have hnodrift : |(secant s).toR - r| ≤ 1200 * θ := by
        rw [abs_sg hσ, abs_le]
        refine ⟨?_, by linarith⟩
        rcases le_or_gt e (14 * θ) with h14 | h14
        · linarith
        · have h3 : ga ≤ 12 * m * D := by
            rw [hga, hDdef]
            exact B.ub.trans (mul_le_mul_of_nonneg_left (by linarith) (by positivity))
          have h1 := drift hθ hm hD hga0 hgb0 h14 hge h3
          linarith
      rcases hthinc with hcc | hcc
      · -- to the unreliable point
        have h1 := hgcthin hcc
        have h2 : m * D * θ * 60 ≤ ga / 2 * (2 ^ 17 * θ) := retained_thin hθ hga0 hb hret
        refine ⟨hnodrift, ?_, fun _ => Or.inl ?_⟩
        · have h4 : gc * D' ≤ 12 * m * (θ / 256) * (13 / 12 * D) := by
            refine (mul_le_mul_of_nonneg_left (by linarith : D' ≤ 13 / 12 * D) hgc0.le).trans ?_
            exact mul_le_mul_of_nonneg_right h1 (by positivity)
          have h5 : 0 ≤ m * θ * D := by positivity
          linarith
        · have h5 : 50 * m * θ * D' ≤ 50 * m * θ * (13 / 12 * D) :=
            mul_le_mul_of_nonneg_left (by linarith) (by positivity)
          have h6 : 0 ≤ m * θ * D := by positivity
          linarith
      · refine ⟨hnodrift, ?_, fun h => ?_⟩
        · have h1 : gc ≤ 12 * m * (e + θ) := by
            rw [hgc]
            refine (Z.neg hσ hcfin hcc (by rw [abs_sg hσ] at hcfR; exact (neg_le_abs _).trans hcfR)).2.2.trans ?_
            exact mul_le_mul_of_nonneg_left hlow (by positivity)
          have h2 : gc * D' ≤ 12 * m * (e + θ) * (13 / 12 * D) := by
            refine (mul_le_mul_of_nonneg_left (by linarith : D' ≤ 13 / 12 * D) hgc0.le).trans ?_
            exact mul_le_mul_of_nonneg_right h1 (by positivity)
          exact h2.trans (retained_good hθ hga0 hb he1 hret)
        · exfalso
          rw [abs_sg hσ] at h
          have := (abs_lt.1 h).1
          linarith

/-- A newer end in the ball around the zero, with a value at the older end that has been halved at
most a few times. -/
theorem fresh (A : Secant E r R θ) (Z : Zero f r m θ R) (P : Stops tol r R θ η) {σ w ρ : ℝ}
    (hσ : σ = 1 ∨ σ = -1) (ha : s.a.isFinite) (hea : σ * (s.a.toR - r) ≤ R)
    (hea' : 48 * θ ≤ σ * (s.a.toR - r)) (hb : s.b.isFinite) (hρ : 1 ≤ ρ) (hρ' : ρ ≤ 628)
    (heb : |s.b.toR - r| ≤ ρ * θ) (heb' : |s.b.toR - r| ≤ σ * (s.a.toR - r))
    (hfb : s.fb = f s.b) (hfa : s.fa.isFinite) (hw : 1 ≤ w) (hw' : w ≤ 32) (hwρ : w * ρ ≤ 1536)
    (hlb : m * (σ * (s.a.toR - r)) ≤ w * -(σ * s.fa.toR))
    (hub : -(σ * s.fa.toR) ≤ 12 * m * (σ * (s.a.toR - r))) (hgb : 0 ≤ σ * s.fb.toR) :
    Ends f tol r θ η s := by
  have hθ := Z.θ0
  have hm := Z.m0
  have hR := Z.wide
  obtain ⟨ga, hga⟩ : ∃ g, g = -(σ * s.fa.toR) := ⟨_, rfl⟩
  obtain ⟨ea, he⟩ : ∃ g, g = σ * (s.a.toR - r) := ⟨_, rfl⟩
  rw [← hga, ← he] at hlb hub
  rw [← he] at hea hea' heb'
  have hgbs : σ * s.fb.toR ≤ 12 * m * (ρ * θ) := by
    refine (le_abs_self _).trans ?_
    rw [← abs_sg hσ, hfb]
    refine Z.size_ball hb heb ?_ ?_
    · have := mul_le_mul_of_nonneg_right hρ hθ.le
      linarith
    · have := mul_le_mul_of_nonneg_right hρ' hθ.le
      norm_num at hR; linarith
  have hga0 : 0 < ga := by
    have : 0 < m * ea := mul_pos hm (by linarith)
    by_contra hc
    have := mul_nonpos_of_nonneg_of_nonpos (by linarith : 0 ≤ w) (not_lt.1 hc)
    linarith
  have hlb' : 1 / 2 ^ 400 ≤ ga := by
    refine Z.lb.trans ?_
    have h1 : m * (48 * θ) ≤ m * ea := mul_le_mul_of_nonneg_left hea' hm.le
    have h2 : w * ga ≤ 32 * ga := mul_le_mul_of_nonneg_right hw' hga0.le
    have h3 : 0 ≤ m * θ := by positivity
    linarith
  have hD : ea - σ * (s.b.toR - r) ≤ 2 * ea := by
    have := (abs_le.1 (by rw [← abs_sg hσ]; exact heb' : |σ * (s.b.toR - r)| ≤ ea)).1
    linarith
  have hw0 : 0 < w := by linarith
  refine BState.ends A Z P (σ := σ) 501 s ⟨hσ, ha, he ▸ hea, hb, ?_, hfb, hfa, hga ▸ hlb', ?_, hgb, ?_, ?_⟩ ?_
  · have := mul_le_mul_of_nonneg_right hρ' hθ.le
    linarith
  · rw [← hga, ← he]; exact hub
  · rw [← hga, ← he]
    have h1 : σ * s.fb.toR * (ea - σ * (s.b.toR - r)) ≤ 12 * m * (ρ * θ) * (2 * ea) := by
      refine (mul_le_mul_of_nonneg_left hD hgb).trans ?_
      exact mul_le_mul_of_nonneg_right hgbs (by linarith)
    refine h1.trans ?_
    refine le_of_mul_le_mul_left ?_ hw0
    have h2 : m * ea * (2 ^ 17 * θ) ≤ w * ga * (2 ^ 17 * θ) := mul_le_mul_of_nonneg_right hlb (by positivity)
    have h3 : w * ρ * (m * θ * ea) ≤ 1536 * (m * θ * ea) :=
      mul_le_mul_of_nonneg_right hwρ (by have : 0 ≤ ea := by linarith
                                         positivity)
    have h4 : 0 ≤ m * θ * ea := by have : 0 ≤ ea := by linarith
                                   positivity
    linarith
  · intro _
    left
    rw [← hga, ← he]
    have h1 : 50 * m * θ * (ea - σ * (s.b.toR - r)) ≤ 50 * m * θ * (2 * ea) :=
      mul_le_mul_of_nonneg_left hD (by positivity)
    have h2 : m * ea * (2 ^ 17 * θ) ≤ w * ga * (2 ^ 17 * θ) := mul_le_mul_of_nonneg_right hlb (by positivity)
    have h3 : w * ga * (2 ^ 17 * θ) ≤ 32 * ga * (2 ^ 17 * θ) :=
      mul_le_mul_of_nonneg_right (mul_le_mul_of_nonneg_right hw' hga0.le) (by positivity)
    have h4 : 0 ≤ m * θ * ea := by have : 0 ≤ ea := by linarith
                                   positivity
    linarith
  · rw [← hga]
    have h1 : ga ≤ 2 ^ 100 :=
      hub.trans (le_trans (mul_le_mul_of_nonneg_left (by linarith) (by positivity)) Z.ub)
    refine lt_of_le_of_lt h1 ?_
    rw [show (2 : ℝ) ^ 501 = 2 ^ 400 * 2 ^ 101 by rw [← pow_add], mul_one_div,
      mul_div_cancel_left₀ _ (by positivity)]
    norm_num

/-- The older end is in the ball around the zero. -/
theorem AState.ends (A : Secant E r R θ) (Z : Zero f r m θ R) (P : Stops tol r R θ η)
    (ha : s.a.isFinite) (hea : |s.a.toR - r| ≤ 48 * θ) (hb : s.b.isFinite) (heb : |s.b.toR - r| ≤ R)
    (hfa : s.fa = f s.a) (hfb : s.fb = f s.b) : Ends f tol r θ η s := by
  have hθ := Z.θ0
  have hm := Z.m0
  have hR := Z.wide
  have hRa : |s.a.toR - r| ≤ R := hea.trans (by norm_num at hR; linarith)
  have hca : |s.a.toR - r| ≤ |s.b.toR - s.a.toR| + 1300 * θ := by
    linarith [abs_nonneg (s.b.toR - s.a.toR)]
  by_cases hstop : |s.b.toR - s.a.toR| ≤ 2 ^ 22 * θ
  · exact Ends.done P ⟨ha, hRa⟩ ⟨hb, heb⟩ hca hstop
  push Not at hstop
  obtain ⟨D, hD⟩ : ∃ D, D = |s.b.toR - s.a.toR| := ⟨_, rfl⟩
  rw [← hD] at hstop
  have hDe : D ≤ |s.b.toR - r| + 48 * θ := by
    have : s.b.toR - s.a.toR = (s.b.toR - r) - (s.a.toR - r) := by ring
    rw [hD, this]
    exact (abs_sub _ _).trans (by linarith)
  obtain ⟨σ, hσ, heσ⟩ : ∃ σ : ℝ, (σ = 1 ∨ σ = -1) ∧ |s.b.toR - r| = σ * (s.b.toR - r) := by
    rcases abs_cases (s.b.toR - r) with ⟨h, -⟩ | ⟨h, -⟩
    · exact ⟨1, Or.inl rfl, by rw [h]; ring⟩
    · exact ⟨-1, Or.inr rfl, by rw [h]; ring⟩
  obtain ⟨e, he⟩ : ∃ e, e = σ * (s.b.toR - r) := ⟨_, rfl⟩
  rw [heσ, ← he] at hDe
  have he1 : 2 ^ 21 * θ ≤ e := by norm_num at hstop ⊢; linarith
  have heR : e ≤ R := by rw [he, ← heσ]; exact heb
  obtain ⟨q1, q2, q3⟩ := Z.pos hσ hb (by rw [← he]; norm_num at he1; linarith) (by rw [← he]; linarith)
  rw [← hfb, ← he] at q2 q3
  rw [← hfb] at q1
  have hss : σ * σ = 1 := by rcases hσ with rfl | rfl <;> norm_num
  obtain ⟨gb, hgb⟩ : ∃ g, g = -(σ * s.fb.toR) := ⟨_, rfl⟩
  rw [← hgb] at q1 q2 q3
  have hfbabs : |s.fb.toR| = gb := by rw [abs_sg hσ, ← abs_neg, ← hgb, abs_of_pos q1]
  have hfas : |s.fa.toR| ≤ 12 * m * (48 * θ) := by
    rw [hfa]; exact Z.size_ball ha hea (by linarith) (by norm_num at hR; linarith)
  have hmθ : 0 < m * θ := mul_pos hm hθ
  have hme : m * (2 ^ 21 * θ) ≤ m * e := mul_le_mul_of_nonneg_left he1 hm.le
  have hbig : 2 * |s.fa.toR| ≤ |s.fb.toR| := by rw [hfbabs]; norm_num at hme; linarith
  have hfbfin : s.fb.isFinite := by rw [hfb]; exact Z.fin _ hb (by linarith)
  have hfbtiny : s.fb.toR = 0 ∨ 1 / 2 ^ 400 ≤ |s.fb.toR| := by rw [hfb]; exact Z.tiny _ hb (by linarith)
  have hfbsize : |s.fb.toR| ≤ 2 ^ 100 := by rw [hfb]; exact Z.size hb (by linarith)
  have hu : Usable r R s := by
    refine ⟨⟨ha, hRa⟩, ⟨hb, heb⟩, ⟨?_, ?_, ?_⟩, ⟨hfbfin, hfbtiny, hfbsize⟩, ?_⟩
    · rw [hfa]; exact Z.fin _ ha (by linarith)
    · rw [hfa]; exact Z.tiny _ ha (by linarith)
    · rw [hfa]; exact Z.size ha (by linarith)
    · refine Or.inr (Or.inl ⟨?_, hbig⟩)
      intro h; rw [h] at hfbabs; simp at hfbabs; linarith
  obtain ⟨hcfin, hc⟩ := A.err s hu
  have hmove : |(secant s).toR - s.a.toR| ≤ 580 * θ := by
    have h1 : |(s.a.toR - s.b.toR) * s.fa.toR / (s.fb.toR - s.fa.toR)| ≤ 579 * θ := by
      rw [abs_div, abs_mul, abs_sub_comm s.a.toR, ← hD]
      have h2 : gb - |s.fa.toR| ≤ |s.fb.toR - s.fa.toR| := by
        rw [← hfbabs]; exact abs_sub_abs_le_abs_sub _ _
      have h3 : 0 < |s.fb.toR - s.fa.toR| := by
        refine lt_of_lt_of_le ?_ h2
        norm_num at hme; linarith
      rw [div_le_iff₀ h3]
      have h4 : D * |s.fa.toR| ≤ D * (576 * (m * θ)) := by
        refine mul_le_mul_of_nonneg_left (by linarith) ?_
        rw [hD]; exact abs_nonneg _
      have h5 : 579 * θ * (m * D - 700 * (m * θ)) ≤ 579 * θ * |s.fb.toR - s.fa.toR| := by
        refine mul_le_mul_of_nonneg_left (le_trans ?_ h2) (by positivity)
        have : m * D ≤ m * (e + 48 * θ) := mul_le_mul_of_nonneg_left hDe hm.le
        linarith
      have h6 : m * θ * (2 ^ 22 * θ) ≤ m * θ * D := mul_le_mul_of_nonneg_left hstop.le hmθ.le
      have h7 : 0 ≤ m * θ * θ := by positivity
      linarith
    have e1 : (secant s).toR - s.a.toR = ((secant s).toR -
        (s.a.toR + (s.a.toR - s.b.toR) * s.fa.toR / (s.fb.toR - s.fa.toR))) +
        (s.a.toR - s.b.toR) * s.fa.toR / (s.fb.toR - s.fa.toR) := by ring
    rw [e1]
    exact (abs_add_le _ _).trans (by linarith)
  have hcr : |(secant s).toR - r| ≤ 628 * θ := by
    have : (secant s).toR - r = ((secant s).toR - s.a.toR) + (s.a.toR - r) := by ring
    rw [this]
    exact (abs_add_le _ _).trans (by linarith)
  have hcR : |(secant s).toR - r| ≤ R := hcr.trans (by norm_num at hR; linarith)
  have hcfR : |(secant s).toR - r| ≤ R + θ := by linarith
  refine Ends.next P hθ ⟨ha, hRa⟩ ⟨hb, heb⟩ hca ?_
  rw [volStep_eq]
  by_cases hp : (f (secant s) * s.fb <=? (0.0 : FP E)) = true
  · rw [if_pos hp]
    rw [A.prod _ _ (Z.fin _ hcfin hcfR) hfbfin (Z.tiny _ hcfin hcfR) hfbtiny (Z.size hcfin hcfR) hfbsize] at hp
    refine fresh A Z P (σ := σ) (w := 1) (ρ := 628) hσ hb ?_ ?_ hcfin (by norm_num) le_rfl hcr ?_ rfl hfbfin
      le_rfl (by norm_num) (by norm_num) ?_ ?_ ?_
    · rw [← he]; exact heR
    · rw [← he]; norm_num at he1; linarith
    · refine hcr.trans ?_
      show 628 * θ ≤ σ * (s.b.toR - r)
      rw [← he]; norm_num at he1; linarith
    · show m * (σ * (s.b.toR - r)) ≤ 1 * -(σ * s.fb.toR)
      rw [one_mul, ← he, ← hgb]; exact q2
    · show -(σ * s.fb.toR) ≤ 12 * m * (σ * (s.b.toR - r))
      rw [← he, ← hgb]; exact q3
    · show 0 ≤ σ * (f (secant s)).toR
      have h1 : σ * (f (secant s)).toR * gb = -((f (secant s)).toR * s.fb.toR) := by
        rw [hgb]; linear_combination (-((f (secant s)).toR * s.fb.toR)) * hss
      have h2 : 0 ≤ σ * (f (secant s)).toR * gb := by rw [h1]; linarith
      exact nonneg_of_mul_nonneg_left h2 q1
  · rw [if_neg hp]
    refine Ends.done P ⟨ha, hRa⟩ ⟨hcfin, hcR⟩ ?_ ?_
    · show |s.a.toR - r| ≤ _
      linarith [abs_nonneg ((secant s).toR - s.a.toR)]
    · show |(secant s).toR - s.a.toR| ≤ _
      norm_num; linarith

/-! ### Both ends are away from the zero -/

/-- The ends are on both sides of the zero; the value at the older one has been halved `j` times. -/
structure NState (f : FP E → FP E) (r m θ R σ : ℝ) (j : ℕ) (s : VolState (FP E)) : Prop where
  sg : σ = 1 ∨ σ = -1
  a : s.a.isFinite
  ea : 48 * θ ≤ σ * (s.a.toR - r)
  eaR : σ * (s.a.toR - r) ≤ R
  b : s.b.isFinite
  eb : 48 * θ ≤ -(σ * (s.b.toR - r))
  ebR : -(σ * (s.b.toR - r)) ≤ R
  fb : s.fb = f s.b
  fa : s.fa.isFinite
  j4 : j ≤ 4
  lb : m * (σ * (s.a.toR - r)) ≤ 2 ^ j * -(σ * s.fa.toR)
  ub : 2 ^ j * -(σ * s.fa.toR) ≤ 12 * m * (σ * (s.a.toR - r))

theorem kept_moves {m θ ea eb ga gb : ℝ} (hθ : 0 < θ) (hm : 0 < m) (hea : 48 * θ ≤ ea) (heb : 48 * θ ≤ eb)
    (hga : 0 < ga) (hgau : ga ≤ 12 * m * ea) (hgbl : m * eb ≤ gb) :
    4 * θ ≤ (ea + eb) * gb / (ga + gb) := by
  have hgb : 0 < gb := lt_of_lt_of_le (mul_pos hm (by linarith)) hgbl
  rw [le_div_iff₀ (by linarith)]
  have h1 : 0 ≤ θ * gb := by positivity
  have h2 : 4 * θ * ga ≤ 4 * θ * (12 * m * ea) := mul_le_mul_of_nonneg_left hgau (by positivity)
  have h3 : ea * (m * (48 * θ)) ≤ ea * gb :=
    mul_le_mul_of_nonneg_left ((mul_le_mul_of_nonneg_left heb hm.le).trans hgbl) (by linarith)
  have h4 : 48 * θ * gb ≤ eb * gb := mul_le_mul_of_nonneg_right heb hgb.le
  linarith

theorem kept_few {m ea eb ga gb : ℝ} (hm : 0 < m) (hea : 0 < ea) (heb : 0 < eb)
    (hga : 0 < ga) (hgau : 16 * ga ≤ 12 * m * ea) (hgbl : m * eb ≤ gb) :
    eb ≤ (ea + eb) * gb / (ga + gb) := by
  have hgb : 0 < gb := lt_of_lt_of_le (mul_pos hm heb) hgbl
  rw [le_div_iff₀ (by linarith)]
  have h2 : eb * ga ≤ eb * (m * ea) := mul_le_mul_of_nonneg_left (by nlinarith) heb.le
  have h3 : ea * (m * eb) ≤ ea * gb := mul_le_mul_of_nonneg_left hgbl hea.le
  linarith

theorem swap_gains {m θ ea eb ga gb : ℝ} (hm : 0 < m)
    (hθ : 0 < θ) (hD : 2 ^ 22 * θ < ea + eb) (hga : 0 < ga) (hgb : 0 < gb)
    (hgal : m * ea ≤ 16 * ga) (hgbu : gb ≤ 12 * m * eb) (h2 : eb ≤ 2 * ea) :
    (ea + eb) * gb / (ga + gb) + θ ≤ 399 / 400 * (ea + eb) := by
  have h1 : (ea + eb) * gb / (ga + gb) ≤ 384 / 385 * (ea + eb) := by
    rw [div_le_iff₀ (by linarith)]
    have : gb ≤ 384 * ga := by
      have : 12 * m * eb ≤ 12 * m * (2 * ea) := mul_le_mul_of_nonneg_left h2 (by positivity)
      linarith
    have := mul_le_mul_of_nonneg_left this (by linarith : 0 ≤ ea + eb)
    linarith
  norm_num at hD
  linarith

theorem NState.step (A : Secant E r R θ) (Z : Zero f r m θ R) (P : Stops tol r R θ η) {σ : ℝ} {j : ℕ}
    (N : NState f r m θ R σ j s) (hD : 2 ^ 22 * θ < σ * (s.a.toR - r) - σ * (s.b.toR - r)) :
    Ends f tol r θ η s ∨
    (Ends f tol r θ η (volStep f s) → Ends f tol r θ η s) ∧
    ((j < 4 ∧ NState f r m θ R σ (j + 1) (volStep f s) ∧ (volStep f s).a = s.a ∧
      -(σ * ((volStep f s).b.toR - r)) ≤ -(σ * (s.b.toR - r))) ∨
     (NState f r m θ R (-σ) 0 (volStep f s) ∧ (volStep f s).a = s.b ∧
      σ * ((volStep f s).b.toR - r) ≤ σ * (s.a.toR - r) ∧
      (-(σ * (s.b.toR - r)) ≤ 2 * (σ * (s.a.toR - r)) →
        σ * ((volStep f s).b.toR - r) - σ * (s.b.toR - r) ≤
          399 / 400 * (σ * (s.a.toR - r) - σ * (s.b.toR - r))))) := by
  have hθ := Z.θ0
  have hm := Z.m0
  have hR := Z.wide
  have hσ := N.sg
  have hss : σ * σ = 1 := by rcases hσ with rfl | rfl <;> norm_num
  obtain ⟨ea, hea⟩ : ∃ e, e = σ * (s.a.toR - r) := ⟨_, rfl⟩
  obtain ⟨eb, heb⟩ : ∃ e, e = -(σ * (s.b.toR - r)) := ⟨_, rfl⟩
  obtain ⟨ga, hga⟩ : ∃ g, g = -(σ * s.fa.toR) := ⟨_, rfl⟩
  obtain ⟨gb, hgb⟩ : ∃ g, g = σ * s.fb.toR := ⟨_, rfl⟩
  have n1 := N.ea
  have n2 := N.eaR
  have n3 := N.eb
  have n4 := N.ebR
  have n5 := N.lb
  have n6 := N.ub
  rw [← hea] at n1 n2 n5 n6
  rw [← heb] at n3 n4
  rw [← hga] at n5 n6
  have eqb : σ * (s.b.toR - r) = -eb := by rw [heb]; ring
  rw [← hea, eqb] at hD
  have hRa : |s.a.toR - r| ≤ R := by rw [abs_sg hσ, ← hea, abs_of_pos (by linarith)]; exact n2
  have hRb : |s.b.toR - r| ≤ R := by rw [abs_sg hσ, ← abs_neg, ← heb, abs_of_pos (by linarith)]; exact n4
  have hca : |s.a.toR - r| ≤ |s.b.toR - s.a.toR| + 1300 * θ := by
    have e1 : |s.b.toR - s.a.toR| = ea + eb := by
      rw [abs_sg hσ, ← abs_neg, hea, heb,
        show -(σ * (s.b.toR - s.a.toR)) = σ * (s.a.toR - r) + -(σ * (s.b.toR - r)) by ring,
        ← hea, ← heb, abs_of_pos (by linarith)]
    rw [e1, abs_sg hσ, ← hea, abs_of_pos (by linarith)]
    linarith
  have hpow : (1 : ℝ) ≤ 2 ^ j := one_le_pow₀ (by norm_num)
  have hpow4 : (2 : ℝ) ^ j ≤ 16 := by
    have : (2 : ℝ) ^ j ≤ 2 ^ 4 := pow_le_pow_right₀ (by norm_num) N.j4
    norm_num at this; exact this
  have hga0 : 0 < ga := by
    have h1 : 0 < m * ea := mul_pos hm (by linarith)
    by_contra hc
    have := mul_nonpos_of_nonneg_of_nonpos (by linarith : (0:ℝ) ≤ 2 ^ j) (not_lt.1 hc)
    linarith
  have hgau : ga ≤ 12 * m * ea := by
    have := mul_le_mul_of_nonneg_right hpow hga0.le
    linarith
  have hgal : m * ea ≤ 16 * ga := by
    have := mul_le_mul_of_nonneg_right hpow4 hga0.le
    linarith
  obtain ⟨q1, q2, q3⟩ := Z.neg hσ N.b (by rw [← heb]; linarith) (by rw [← heb]; linarith)
  rw [← N.fb, ← hgb] at q1 q2 q3
  rw [← heb] at q2 q3
  have hfaabs : |s.fa.toR| = ga := by rw [abs_sg hσ, ← abs_neg, ← hga, abs_of_pos hga0]
  have hfbabs : |s.fb.toR| = gb := by rw [abs_sg hσ, ← hgb, abs_of_pos q1]
  have hfasize : |s.fa.toR| ≤ 2 ^ 100 := by
    rw [hfaabs]
    refine hgau.trans (le_trans ?_ Z.ub)
    exact mul_le_mul_of_nonneg_left (by linarith) (by positivity)
  have hmθ : 0 < m * θ := mul_pos hm hθ
  have hfalb : 1 / 2 ^ 400 ≤ |s.fa.toR| := by
    rw [hfaabs]
    refine Z.lb.trans ?_
    have : m * (48 * θ) ≤ m * ea := mul_le_mul_of_nonneg_left n1 hm.le
    linarith
  have hfbfin : s.fb.isFinite := by rw [N.fb]; exact Z.fin _ N.b (by linarith)
  have hfbtiny : s.fb.toR = 0 ∨ 1 / 2 ^ 400 ≤ |s.fb.toR| := by rw [N.fb]; exact Z.tiny _ N.b (by linarith)
  have hfbsize : |s.fb.toR| ≤ 2 ^ 100 := by rw [N.fb]; exact Z.size N.b (by linarith)
  have hprod : s.fa.toR * s.fb.toR = -(ga * gb) := by
    rw [hga, hgb]; linear_combination (-(s.fa.toR * s.fb.toR)) * hss
  have hneg : s.fa.toR * s.fb.toR < 0 := by rw [hprod]; linarith [mul_pos hga0 q1]
  have hu : Usable r R s :=
    ⟨⟨N.a, hRa⟩, ⟨N.b, hRb⟩, ⟨N.fa, Or.inr hfalb, hfasize⟩, ⟨hfbfin, hfbtiny, hfbsize⟩, Or.inl hneg⟩
  obtain ⟨hcfin, hc⟩ := secant_at A hσ hu hga hgb (by linarith)
  have hdir := A.dir s hu hneg
  rw [← hea, eqb, show ea - -eb = ea + eb by ring] at hc
  obtain ⟨k1, k2⟩ := abs_le.1 hc
  obtain ⟨ec, hec⟩ : ∃ e, e = σ * ((secant s).toR - r) := ⟨_, rfl⟩
  rw [← hec] at k1 k2
  have hmv := kept_moves hθ hm n1 n3 hga0 hgau q2
  have hlow : -eb ≤ ec := by linarith
  have hhigh : ec ≤ ea := by
    have e1 : ((secant s).toR - s.a.toR) * (s.b.toR - s.a.toR) = (ea - ec) * (ea + eb) := by
      rw [hea, hec, heb]
      linear_combination (-((secant s).toR - s.a.toR) * (s.b.toR - s.a.toR)) * hss
    rw [e1] at hdir
    have := nonneg_of_mul_nonneg_left hdir (by linarith)
    linarith
  have hcR : |(secant s).toR - r| ≤ R := by
    rw [abs_sg hσ, ← hec, abs_le]; constructor <;> linarith
  have hcfR : |(secant s).toR - r| ≤ R + θ := by linarith
  have hnext : Ends f tol r θ η (volStep f s) → Ends f tol r θ η s :=
    Ends.next P hθ ⟨N.a, hRa⟩ ⟨N.b, hRb⟩ hca
  obtain ⟨gc, hgc⟩ : ∃ g, g = σ * (f (secant s)).toR := ⟨_, rfl⟩
  have hgcb : (f (secant s)).toR * s.fb.toR = gc * gb := by
    rw [hgc, hgb]; linear_combination (-((f (secant s)).toR * s.fb.toR)) * hss
  obtain ⟨hhfin, hhval⟩ := A.half _ N.fa hfalb hfasize
  have hga' : -(σ * (s.fa / 2.0).toR) = ga / 2 := by rw [hhval, hga]; ring
  have hpr := A.prod (f (secant s)) s.fb (Z.fin _ hcfin hcfR) hfbfin (Z.tiny _ hcfin hcfR) hfbtiny
    (Z.size hcfin hcfR) hfbsize
  rw [hgcb] at hpr
  by_cases hball : |(secant s).toR - r| ≤ 48 * θ
  · -- into the ball
    left
    apply hnext
    rw [volStep_eq]
    by_cases hp : (f (secant s) * s.fb <=? (0.0 : FP E)) = true
    · rw [if_pos hp]
      have hgc0 : gc ≤ 0 := by
        by_contra hcon
        have := mul_pos (not_le.1 hcon) q1
        linarith [hpr.1 hp]
      have hns : -σ * (s.b.toR - r) = eb := by rw [heb]; ring
      refine fresh A Z P (σ := -σ) (w := 1) (ρ := 48) (by rcases hσ with rfl | rfl <;> norm_num) N.b ?_ ?_ hcfin
        (by norm_num) (by norm_num) hball ?_ rfl hfbfin le_rfl (by norm_num) (by norm_num) ?_ ?_ ?_
      · rw [hns]; exact n4
      · rw [hns]; exact n3
      · refine hball.trans ?_
        show 48 * θ ≤ -σ * (s.b.toR - r)
        rw [hns]; exact n3
      · show m * (-σ * (s.b.toR - r)) ≤ 1 * -(-σ * s.fb.toR)
        rw [hns]; linarith
      · show -(-σ * s.fb.toR) ≤ 12 * m * (-σ * (s.b.toR - r))
        rw [hns]; linarith
      · show 0 ≤ -σ * (f (secant s)).toR
        linarith
    · rw [if_neg hp]
      have hgc0 : 0 < gc := by
        rw [hpr, not_le] at hp
        exact pos_of_mul_pos_left hp q1.le
      refine fresh A Z P (σ := σ) (w := 32) (ρ := 48) hσ N.a ?_ ?_ hcfin
        (by norm_num) (by norm_num) hball ?_ rfl hhfin (by norm_num) le_rfl (by norm_num) ?_ ?_ ?_
      · rw [← hea]; exact n2
      · rw [← hea]; exact n1
      · refine hball.trans ?_
        show 48 * θ ≤ σ * (s.a.toR - r)
        rw [← hea]; exact n1
      · show m * (σ * (s.a.toR - r)) ≤ 32 * -(σ * (s.fa / 2.0).toR)
        rw [← hea, hga']; linarith
      · show -(σ * (s.fa / 2.0).toR) ≤ 12 * m * (σ * (s.a.toR - r))
        rw [← hea, hga']; linarith
      · show 0 ≤ σ * (f (secant s)).toR
        linarith
  right
  refine ⟨hnext, ?_⟩
  push Not at hball
  rw [abs_sg hσ, ← hec] at hball
  rcases lt_or_ge ec 0 with hneg' | hpos'
  · -- the older end is kept
    left
    rw [abs_of_neg hneg'] at hball
    have hgc0 : 0 < gc := by
      rw [hgc]
      exact (Z.neg hσ hcfin (by rw [← hec]; linarith) (by rw [← hec]; linarith)).1
    have hp : ¬ (f (secant s) * s.fb <=? (0.0 : FP E)) = true := by
      rw [hpr, not_le]; exact mul_pos hgc0 q1
    have hj : j < 4 := by
      by_contra hcon
      have h4 : j = 4 := le_antisymm N.j4 (not_lt.1 hcon)
      rw [h4] at n6
      norm_num at n6
      have := kept_few (ea := ea) (eb := eb) hm (by linarith) (by linarith) hga0 (by linarith) q2
      linarith
    rw [volStep_eq, if_neg hp]
    refine ⟨hj, ⟨hσ, N.a, N.ea, N.eaR, hcfin, ?_, ?_, rfl, hhfin, by omega, ?_, ?_⟩, rfl, ?_⟩
    · show 48 * θ ≤ -(σ * ((secant s).toR - r))
      rw [← hec]; linarith
    · show -(σ * ((secant s).toR - r)) ≤ R
      rw [← hec]; linarith
    · show m * (σ * (s.a.toR - r)) ≤ 2 ^ (j + 1) * -(σ * (s.fa / 2.0).toR)
      rw [← hea, hga', pow_succ]; linarith
    · show 2 ^ (j + 1) * -(σ * (s.fa / 2.0).toR) ≤ 12 * m * (σ * (s.a.toR - r))
      rw [← hea, hga', pow_succ]; linarith
    · show -(σ * ((secant s).toR - r)) ≤ _
      rw [← hec, ← heb]; linarith
  · right
    rw [abs_of_nonneg hpos'] at hball
    have hgc0 : gc < 0 := by
      rw [hgc]
      have := (Z.pos hσ hcfin (by rw [← hec]; linarith) (by rw [← hec]; linarith)).1
      linarith
    have hp : (f (secant s) * s.fb <=? (0.0 : FP E)) = true := by
      rw [hpr]; exact (mul_neg_of_neg_of_pos hgc0 q1).le
    rw [volStep_eq, if_pos hp]
    have hns : -σ * (s.b.toR - r) = eb := by rw [heb]; ring
    have hns' : -(-σ * ((secant s).toR - r)) = ec := by rw [hec]; ring
    refine ⟨⟨by rcases hσ with rfl | rfl <;> norm_num, N.b, ?_, ?_, hcfin, ?_, ?_, rfl, hfbfin, by omega, ?_, ?_⟩,
      rfl, ?_, ?_⟩
    · rw [hns]; exact n3
    · rw [hns]; exact n4
    · show 48 * θ ≤ -(-σ * ((secant s).toR - r))
      rw [hns']; linarith
    · show -(-σ * ((secant s).toR - r)) ≤ R
      rw [hns']; linarith
    · show m * (-σ * (s.b.toR - r)) ≤ 2 ^ 0 * -(-σ * s.fb.toR)
      rw [hns]; linarith
    · show 2 ^ 0 * -(-σ * s.fb.toR) ≤ 12 * m * (-σ * (s.b.toR - r))
      rw [hns]; linarith
    · show σ * ((secant s).toR - r) ≤ σ * (s.a.toR - r)
      rw [← hec, ← hea]; exact hhigh
    · intro h2
      show σ * ((secant s).toR - r) - σ * (s.b.toR - r) ≤ _
      rw [← heb, ← hea] at h2
      rw [← hec, eqb, ← hea]
      have := swap_gains hm hθ (by linarith) hga0 q1 hgal q3 h2
      linarith

theorem NState.ends_of_near (A : Secant E r R θ) (Z : Zero f r m θ R) (P : Stops tol r R θ η) {σ : ℝ} {j : ℕ}
    (N : NState f r m θ R σ j s) (hD : σ * (s.a.toR - r) - σ * (s.b.toR - r) ≤ 2 ^ 22 * θ) :
    Ends f tol r θ η s := by
  have hθ := Z.θ0
  have hσ := N.sg
  have n1 := N.ea
  have n3 := N.eb
  have e1 : |s.b.toR - s.a.toR| = σ * (s.a.toR - r) - σ * (s.b.toR - r) := by
    rw [abs_sg hσ, ← abs_neg, show -(σ * (s.b.toR - s.a.toR)) = σ * (s.a.toR - r) - σ * (s.b.toR - r) by ring,
      abs_of_pos (by linarith)]
  refine Ends.done P ⟨N.a, ?_⟩ ⟨N.b, ?_⟩ ?_ (by rw [e1]; exact hD)
  · rw [abs_sg hσ, abs_of_pos (by linarith)]; exact N.eaR
  · rw [abs_sg hσ, ← abs_neg, abs_of_pos (by linarith)]; exact N.ebR
  · rw [e1, abs_sg hσ, abs_of_pos (by linarith)]; linarith

theorem NState.ends (A : Secant E r R θ) (Z : Zero f r m θ R) (P : Stops tol r R θ η) (n : ℕ) :
    ∀ {σ : ℝ} {j : ℕ} {s : VolState (FP E)}, NState f r m θ R σ j s →
      σ * (s.a.toR - r) - σ * (s.b.toR - r) ≤ (400 / 399) ^ n * (2 ^ 22 * θ) → Ends f tol r θ η s := by
  have hθ := Z.θ0
  induction n with
  | zero =>
    intro σ j s N hD
    exact N.ends_of_near A Z P (by simpa using hD)
  | succ n ih =>
    -- first the states with a large older end
    have hfirst : ∀ (i j : ℕ) {σ : ℝ} {s : VolState (FP E)}, i + j = 4 → NState f r m θ R σ j s →
        -(σ * (s.b.toR - r)) ≤ 2 * (σ * (s.a.toR - r)) →
        σ * (s.a.toR - r) - σ * (s.b.toR - r) ≤ (400 / 399) ^ (n + 1) * (2 ^ 22 * θ) → Ends f tol r θ η s := by
      intro i
      induction i with
      | zero =>
        intro j σ s hj N h2 hD
        rcases le_or_gt (σ * (s.a.toR - r) - σ * (s.b.toR - r)) (2 ^ 22 * θ) with hnear | hfar
        · exact N.ends_of_near A Z P hnear
        rcases N.step A Z P hfar with h | ⟨hn, ⟨h, -⟩ | ⟨N', e1, e2, e3⟩⟩
        · exact h
        · omega
        · refine hn (ih N' ?_)
          rw [e1]
          have := e3 h2
          rw [pow_succ] at hD
          linarith
      | succ i ihi =>
        intro j σ s hj N h2 hD
        rcases le_or_gt (σ * (s.a.toR - r) - σ * (s.b.toR - r)) (2 ^ 22 * θ) with hnear | hfar
        · exact N.ends_of_near A Z P hnear
        rcases N.step A Z P hfar with h | ⟨hn, ⟨h, N', e1, e2⟩ | ⟨N', e1, e2, e3⟩⟩
        · exact h
        · refine hn (ihi (j + 1) (by omega) N' ?_ ?_)
          · rw [e1]; linarith
          · rw [e1]; linarith
        · refine hn (ih N' ?_)
          rw [e1]
          have := e3 h2
          rw [pow_succ] at hD
          linarith
    have hsecond : ∀ (i j : ℕ) {σ : ℝ} {s : VolState (FP E)}, i + j = 4 → NState f r m θ R σ j s →
        σ * (s.a.toR - r) - σ * (s.b.toR - r) ≤ (400 / 399) ^ (n + 1) * (2 ^ 22 * θ) → Ends f tol r θ η s := by
      intro i
      induction i with
      | zero =>
        intro j σ s hj N hD
        rcases le_or_gt (-(σ * (s.b.toR - r))) (2 * (σ * (s.a.toR - r))) with h2 | h2
        · exact hfirst 0 j hj N h2 hD
        rcases le_or_gt (σ * (s.a.toR - r) - σ * (s.b.toR - r)) (2 ^ 22 * θ) with hnear | hfar
        · exact N.ends_of_near A Z P hnear
        have n1 := N.ea
        rcases N.step A Z P hfar with h | ⟨hn, ⟨h, -⟩ | ⟨N', e1, e2, e3⟩⟩
        · exact h
        · omega
        · refine hn (hfirst 4 0 rfl N' ?_ ?_)
          · rw [e1]; linarith
          · rw [e1]; linarith
      | succ i ihi =>
        intro j σ s hj N hD
        rcases le_or_gt (-(σ * (s.b.toR - r))) (2 * (σ * (s.a.toR - r))) with h2 | h2
        · exact hfirst (i + 1) j hj N h2 hD
        rcases le_or_gt (σ * (s.a.toR - r) - σ * (s.b.toR - r)) (2 ^ 22 * θ) with hnear | hfar
        · exact N.ends_of_near A Z P hnear
        have n1 := N.ea
        rcases N.step A Z P hfar with h | ⟨hn, ⟨h, N', e1, e2⟩ | ⟨N', e1, e2, e3⟩⟩
        · exact h
        · refine hn (ihi (j + 1) (by omega) N' ?_)
          rw [e1]; linarith
        · refine hn (hfirst 4 0 rfl N' ?_ ?_)
          · rw [e1]; linarith
          · rw [e1]; linarith
    intro σ j s N hD
    exact hsecond (4 - j) j (by have := N.j4; omega) N hD

/-- **The loop ends, near the zero**: it starts with ends within `R` of the zero, and the function
has opposite signs there, unless one of them is very close to the zero. -/
theorem illinois_ends (A : Secant E r R θ) (Z : Zero f r m θ R) (P : Stops tol r R θ η)
    (ha : s.a.isFinite) (haR : |s.a.toR - r| ≤ R) (hb : s.b.isFinite) (hbR : |s.b.toR - r| ≤ R)
    (hfa : s.fa = f s.a) (hfb : s.fb = f s.b)
    (hop : |s.a.toR - r| ≤ 48 * θ ∨ 48 * θ ≤ |s.b.toR - r| ∧ (s.a.toR - r) * (s.b.toR - r) < 0) :
    Ends f tol r θ η s := by
  have hθ := Z.θ0
  have hm := Z.m0
  rcases le_or_gt |s.a.toR - r| (48 * θ) with h48 | h48
  · exact AState.ends A Z P ha h48 hb hbR hfa hfb
  rcases hop with hop | ⟨h48b, hop⟩
  · linarith
  obtain ⟨σ, hσ, heσ⟩ : ∃ σ : ℝ, (σ = 1 ∨ σ = -1) ∧ |s.a.toR - r| = σ * (s.a.toR - r) := by
    rcases abs_cases (s.a.toR - r) with ⟨h, -⟩ | ⟨h, -⟩
    · exact ⟨1, Or.inl rfl, by rw [h]; ring⟩
    · exact ⟨-1, Or.inr rfl, by rw [h]; ring⟩
  have hss : σ * σ = 1 := by rcases hσ with rfl | rfl <;> norm_num
  rw [heσ] at h48 haR
  have hbneg : σ * (s.b.toR - r) < 0 := by
    have h1 : (σ * (s.a.toR - r)) * (σ * (s.b.toR - r)) < 0 := by
      have : (σ * (s.a.toR - r)) * (σ * (s.b.toR - r)) = (σ * σ) * ((s.a.toR - r) * (s.b.toR - r)) := by ring
      rw [this, hss, one_mul]; exact hop
    by_contra hc
    have := mul_nonneg (by linarith : 0 ≤ σ * (s.a.toR - r)) (not_lt.1 hc)
    linarith
  have hbabs : |s.b.toR - r| = -(σ * (s.b.toR - r)) := by rw [abs_sg hσ, abs_of_neg hbneg]
  rw [hbabs] at h48b hbR
  obtain ⟨q1, q2, q3⟩ := Z.pos hσ ha (by linarith) (by linarith)
  have N : NState f r m θ R σ 0 s := by
    refine ⟨hσ, ha, h48.le, haR, hb, h48b, hbR, hfb, ?_, by omega, ?_, ?_⟩
    · rw [hfa]; refine Z.fin _ ha ?_
      rw [heσ]; linarith
    · rw [hfa]; linarith
    · rw [hfa]; linarith
  obtain ⟨n, hn⟩ := pow_unbounded_of_one_lt
    ((σ * (s.a.toR - r) - σ * (s.b.toR - r)) / (2 ^ 22 * θ)) (by norm_num : (1 : ℝ) < 400 / 399)
  rw [div_lt_iff₀ (by positivity)] at hn
  exact NState.ends A Z P n N hn.le

end
end Skillratings.Glicko2
