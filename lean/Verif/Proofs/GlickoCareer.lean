import Mathlib.MeasureTheory.Function.SpecialFunctions.Basic
import Verif.Proofs.RobbinsMonro
import Verif.Props.Floors
/-
A career in Glicko without the constant `c`, seen as a random walk towards the true strength.
-/
namespace Skillratings
open Spec MeasureTheory Filter
open Real (sqrt sigmoid sigmoid_pos sigmoid_lt_one)
open scoped Topology

/-! ### The logistic curve -/

theorem sigmoid_sub (x y : ℝ) :
    sigmoid x - sigmoid y = sigmoid x * (1 - sigmoid y) * (1 - Real.exp (y - x)) := by
  have hx := Real.exp_pos x
  have hy := Real.exp_pos y
  rw [Real.sigmoid_def, Real.sigmoid_def, Real.exp_sub, Real.exp_neg, Real.exp_neg]
  field_simp
  ring

theorem sigmoid_gap {x y L u : ℝ} (hy : |y| ≤ L) (hu : 0 ≤ u) (hxy : u ≤ x - y) :
    sigmoid (-L) ^ 2 * (1 - Real.exp (-u)) ≤ sigmoid x - sigmoid y := by
  obtain ⟨h1, h2⟩ := abs_le.1 hy
  rw [sigmoid_sub]
  have a1 : sigmoid (-L) ≤ sigmoid x := Real.sigmoid_monotone (by linarith)
  have a2 : sigmoid (-L) ≤ 1 - sigmoid y := by
    rw [← Real.sigmoid_neg]; exact Real.sigmoid_monotone (by linarith)
  have a3 : Real.exp (y - x) ≤ Real.exp (-u) := Real.exp_le_exp.2 (by linarith)
  have a4 : Real.exp (-u) ≤ 1 := Real.exp_le_one_iff.2 (by linarith)
  have a5 := sigmoid_pos (-L)
  rw [pow_two]
  exact mul_le_mul (mul_le_mul a1 a2 a5.le (sigmoid_pos _).le) (by linarith) (by linarith)
    (mul_nonneg (sigmoid_pos _).le (by linarith))

theorem sigmoid_gap' {x y L u : ℝ} (hy : |y| ≤ L) (hu : 0 ≤ u) (hxy : u ≤ y - x) :
    sigmoid (-L) ^ 2 * (1 - Real.exp (-u)) ≤ sigmoid y - sigmoid x := by
  have h := sigmoid_gap (x := -x) (y := -y) (L := L) (u := u) (by rwa [abs_neg]) hu (by linarith)
  rw [Real.sigmoid_neg x, Real.sigmoid_neg y] at h
  linarith

namespace Glicko

/-! ### The pull towards the true strength -/

/-- By how much the expected score against an opponent within `R` of the true strength and with a
deviation up to `S` changes if the rating is at least `ε` away from the true strength. -/
noncomputable def pull (R S ε : ℝ) : ℝ :=
  sigmoid (-(glickoQ * R)) ^ 2 * (1 - Real.exp (-(glickoQ * (glickoG S * ε))))

theorem pull_pos (R S : ℝ) {ε : ℝ} (h : 0 < ε) : 0 < pull R S ε := by
  have h1 := sigmoid_pos (-(glickoQ * R))
  have h2 := glickoQ_pos
  have h3 := glickoG_pos S
  have h4 : Real.exp (-(glickoQ * (glickoG S * ε))) < 1 :=
    Real.exp_lt_one_iff.2 (neg_lt_zero.2 (by positivity))
  unfold pull
  have : 0 < 1 - Real.exp (-(glickoQ * (glickoG S * ε))) := by linarith
  positivity

theorem glickoG_antitone {rdj S : ℝ} (hS : |rdj| ≤ S) : glickoG S ≤ glickoG rdj := by
  rcases eq_or_lt_of_le (sq_le_sq.2 (hS.trans (le_abs_self S))) with h | h
  · have : glickoG S = glickoG rdj := by unfold glickoG; rw [h]
    exact this.le
  · exact (glickoG_lt_of_sq_lt h).le

theorem pulled {r θ rj rdj R S ε : ℝ} (hR : |rj - θ| ≤ R) (hS : |rdj| ≤ S) (hε : 0 ≤ ε)
    (h : ε ≤ |r - θ|) :
    pull R S ε * |r - θ| ≤ (glickoE r rj rdj - glickoE θ rj rdj) * (r - θ) := by
  have hq := glickoQ_pos
  have hg := glickoG_pos rdj
  have hg1 := glickoG_le_one rdj
  have hgS := glickoG_antitone hS
  have hgp := glickoG_pos S
  have hy : |glickoQ * (glickoG rdj * (θ - rj))| ≤ glickoQ * R := by
    rw [abs_mul, abs_mul, abs_of_pos hq, abs_of_pos hg, abs_sub_comm]
    have := abs_nonneg (rj - θ)
    exact mul_le_mul_of_nonneg_left (by nlinarith) hq.le
  have hu : 0 ≤ glickoQ * (glickoG S * ε) := by positivity
  have hue : ∀ t, ε ≤ t → glickoQ * (glickoG S * ε) ≤ glickoQ * (glickoG rdj * t) := by
    intro t ht
    gcongr
  rw [glickoE_eq, glickoE_eq]
  rcases le_total 0 (r - θ) with hs | hs
  · rw [abs_of_nonneg hs] at h ⊢
    refine mul_le_mul_of_nonneg_right (sigmoid_gap hy hu ?_) hs
    have := hue _ h
    linarith
  · rw [abs_of_nonpos hs] at h ⊢
    have h1 := sigmoid_gap' (x := glickoQ * (glickoG rdj * (r - rj))) hy hu (by
      have := hue _ h
      linarith)
    have h2 := mul_le_mul_of_nonneg_right h1 (show 0 ≤ -(r - θ) by linarith)
    rw [pull]
    linarith

theorem pulled_nonneg (r θ rj rdj : ℝ) :
    0 ≤ (glickoE r rj rdj - glickoE θ rj rdj) * (r - θ) := by
  have h := pulled (r := r) (θ := θ) (rj := rj) (rdj := rdj) (R := |rj - θ|) (S := |rdj|) (ε := 0)
    le_rfl le_rfl le_rfl (abs_nonneg _)
  simpa [pull] using h

/-! ### Measurability -/

section
variable {Ω : Type} [MeasurableSpace Ω]

theorem measurable_glickoG {f : Ω → ℝ} (hf : Measurable f) : Measurable fun ω => glickoG (f ω) := by
  unfold glickoG; fun_prop

theorem measurable_glickoE {r rj rdj : Ω → ℝ} (h1 : Measurable r) (h2 : Measurable rj)
    (h3 : Measurable rdj) : Measurable fun ω => glickoE (r ω) (rj ω) (rdj ω) := by
  have := measurable_glickoG h3
  simp only [glickoE_eq, Real.sigmoid_def]
  fun_prop

theorem measurable_glickoInfo {r rj rdj : Ω → ℝ} (h1 : Measurable r) (h2 : Measurable rj)
    (h3 : Measurable rdj) : Measurable fun ω => glickoInfo (r ω) (rj ω) (rdj ω) := by
  have h4 := measurable_glickoG h3
  have h5 := measurable_glickoE h1 h2 h3
  unfold glickoInfo
  fun_prop

theorem measurable_glickoOnset {f : Ω → ℝ} (hf : Measurable f) (c : ℝ) :
    Measurable fun ω => glickoOnset (f ω) c := by
  unfold glickoOnset; fun_prop

theorem measurable_posterior {v i : Ω → ℝ} (hv : Measurable v) (hi : Measurable i) :
    Measurable fun ω => posterior (v ω) (i ω) := by
  unfold posterior; fun_prop

end

/-! ### A rating period with a given number of games -/

theorem period_ofFn (p : GlickoRating ℝ) {k : ℕ} (hk : 0 < k) (b : Fin k → GlickoRating ℝ)
    (o : Fin k → Outcomes) (c : GlickoConfig ℝ) :
    glickoRatingPeriod p (List.ofFn fun i => (b i, o i)) c =
      ⟨p.rating + glickoQ * posterior (glickoOnset p.deviation c.c ^ 2)
            (∑ i, glickoInfo p.rating (b i).rating (b i).deviation)
          * ∑ i, glickoG (b i).deviation
              * (points (o i) - glickoE p.rating (b i).rating (b i).deviation),
        √(posterior (glickoOnset p.deviation c.c ^ 2)
            (∑ i, glickoInfo p.rating (b i).rating (b i).deviation))⟩ := by
  rw [period_real _ _ _ (by
    intro h
    have := congrArg List.length h
    simp at this
    omega)]
  simp only [List.map_ofFn, List.sum_ofFn, Function.comp_def]

/-- A game takes away from the variance at least a share of its square. -/
theorem posterior_sq {v i I : ℝ} (hv : 0 < v) (hI : 0 < I) (hi : I ≤ i) :
    posterior v i ^ 2 ≤ (v - posterior v i) / I := by
  have hi' : 0 < i := hI.trans_le hi
  have e : posterior v i = v / (1 + v * i) := by unfold posterior; field_simp
  have hd : 0 < 1 + v * i := by positivity
  rw [le_div_iff₀ hI, e]
  have h1 : v - v / (1 + v * i) = v * v * i / (1 + v * i) := by field_simp; ring
  rw [h1, div_pow, div_mul_eq_mul_div, div_le_div_iff₀ (by positivity) hd]
  have h2 : v ^ 2 * I * (1 + v * i) ≤ v * v * i * (1 + v * i) := by
    rw [pow_two]; gcongr
  have h3 : 0 ≤ v * v * i * (1 + v * i) * (v * i) := by positivity
  nlinarith

end Glicko
end Skillratings
