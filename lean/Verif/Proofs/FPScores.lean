import Verif.Proofs.FPOps
import Verif.Model.Elo
import Verif.Model.Fifa
import Verif.Model.Dwz
import Verif.Model.Uscf
import Verif.Model.Glicko
import Verif.Model.Glicko2
import Verif.Model.GlickoBoost
import Verif.Model.Sticko
/-
Helper lemmas about the exponents of the expected scores in floating point.
-/

namespace Skillratings
open FP
variable {E : FloatEnv}

theorem elo_exponent {d : FP E} (hd : ¬ d.isNaN) : ¬ (d / (400.0 : FP E)).isNaN := by
  have h := lit_in (E := E) (m := 4000) (s := true) (e := 1) (v := 400) (by norm_num)
    (SRep.ofNat 400 (by norm_num))
  exact div_not_nan hd h.finite (by intro h0; linarith [h.toR.1])

theorem fifa_exponent {d : FP E} (hd : ¬ d.isNaN) : ¬ (-d / (600.0 : FP E)).isNaN := by
  have h := lit_in (E := E) (m := 6000) (s := true) (e := 1) (v := 600) (by norm_num)
    (SRep.ofNat 600 (by norm_num))
  exact div_not_nan (by simpa using hd) h.finite (by intro h0; linarith [h.toR.1])

theorem recip_eq (x : FP E) : Flt.recip x = (1.0 : FP E) / x := by
  rw [recip_def, lit, show (OfScientific.ofScientific 10 true 1 : ℝ) = 1 by norm_num]; rfl

theorem dwz_exponent {d : FP E} (hd : ¬ d.isNaN) :
    ¬ (-(Flt.recip (400.0 : FP E)) * d).isNaN := by
  have h := lit_in (E := E) (m := 4000) (s := true) (e := 1) (v := 400) (by norm_num)
    (SRep.ofNat 400 (by norm_num))
  have h1 : In (E := E) ((1 / 2 ^ 9 : ℝ) : EReal) ((1 : ℝ) : EReal) (Flt.recip (400.0 : FP E)) := by
    rw [recip_eq]
    exact div_in one_in h (by norm_num) (by norm_num) (SRep.inv_two_pow 9 (by norm_num)) SRep.one
      (by norm_num) (by norm_num)
  refine mul_not_nan (by simpa using h1.finite) ?_ hd
  rw [toR_neg']
  have := h1.toR.1
  intro h0
  have h2 : (0 : ℝ) < 1 / 2 ^ 9 := by positivity
  linarith

theorem uscf_eValue_in (L : E.Lib) {r s : FP E} (hr : r.isFinite) (hs : s.isFinite) :
    In 0 1 (Uscf.eValue r s) := by
  have h := powf_ten L (elo_exponent (d := -(r - s)) (by simpa using sub_not_nan hr hs))
  exact score_in' h.1 h.2

/-- The scale of Glicko-2 rounds to a number between 128 and 256. -/
theorem scale_in : In (E := E) ((128 : ℝ) : EReal) ((256 : ℝ) : EReal) (173.7178 : FP E) := by
  rw [lit]
  exact In.of_round false (SRep.ofNat 128 (by norm_num)) (SRep.ofNat 256 (by norm_num))
    (by norm_num) (by norm_num)

theorem g2_in (L : E.Lib) {x : FP E} (hx : ¬ x.isNaN) : In 0 1 (Glicko2.gValue x) := by
  have h2 : Flt.powi x 2 = x * x := L.powi_two _
  have h3 := lit_in (E := E) (m := 30) (s := true) (e := 1) (v := 3) (by norm_num)
    (SRep.ofNat 3 (by norm_num))
  have h4 := mul_pos_nonneg h3.finite (by linarith [h3.toR.1]) (sq_nonneg hx).1 (sq_nonneg hx).2
  rw [Glicko2.gValue, h2]
  exact g_in L h4.1 h4.2

theorem div_scale {x : FP E} (hx : ¬ x.isNaN) : ¬ (x / (173.7178 : FP E)).isNaN :=
  div_not_nan hx scale_in.finite (by intro h; linarith [(scale_in (E := E)).toR.1])

theorem mul_fin_not_nan {x y : FP E} (hx : x.isFinite) (hy : y.isFinite) : ¬ (x * y).isNaN := by
  obtain ⟨s, hs⟩ := mul_fin hx hy
  rw [hs]; exact E.round_not_nan _ _

theorem score_finite {x : FP E} (h : In 0 1 x) : x.isFinite := by
  have h' : In ((0 : ℝ) : EReal) ((1 : ℝ) : EReal) x := by simpa using h
  exact h'.finite

theorem SRep.two_pow (k : ℕ) (h : k ≤ 971) : SRep ((2 : ℝ) ^ k) := by
  have := SRep.scale (n := 1) (k := (k : ℤ)) (by norm_num) (by omega) (by omega)
  simpa using this

theorem sub_bound {x y : FP E} {a b c : ℝ} (hx : x.isFinite) (hy : y.isFinite) (ha : |x.toR| ≤ a)
    (hb : |y.toR| ≤ b) (hc : SRep c) (h : a + b ≤ c) :
    (x - y).isFinite ∧ |(x - y).toR| ≤ c := by
  obtain ⟨s, hs⟩ := sub_fin hx hy
  have h1 := abs_le.1 ha
  have h2 := abs_le.1 hb
  have hi : In (E := E) ((-c : ℝ) : EReal) (c : EReal) (x - y) := by
    rw [hs]; exact In.of_round s hc.neg hc (by linarith) (by linarith)
  exact ⟨hi.finite, abs_le.2 hi.toR⟩

theorem scaled_bound {x : FP E} (hx : x.isFinite) (ha : |x.toR| ≤ 2 ^ 970) :
    ((x - 1500.0) / 173.7178).isFinite ∧ |((x - 1500.0) / 173.7178).toR| ≤ 2 ^ 970 := by
  have h15 := lit_in (E := E) (m := 15000) (s := true) (e := 1) (v := 1500) (by norm_num)
    (SRep.ofNat 1500 (by norm_num))
  have h1 := sub_bound (b := 2 ^ 970) hx h15.finite ha
    (abs_le.2 ⟨(neg_nonpos.2 (by positivity)).trans (le_trans (by norm_num) h15.toR.1),
      h15.toR.2.trans (by
        calc (1500 : ℝ) ≤ 2 ^ 11 := by norm_num
          _ ≤ 2 ^ 970 := pow_le_pow_right₀ (by norm_num) (by norm_num))⟩)
    (SRep.two_pow 971 (by norm_num)) (by rw [pow_succ (2 : ℝ) 970]; linarith)
  have hs := scale_in (E := E)
  obtain ⟨s, hd⟩ := div_fin h1.1 hs.finite (by intro h; linarith [hs.toR.1])
  have h2 := abs_le.1 h1.2
  have h3 : (0 : ℝ) < 2 ^ 971 := by positivity
  have h4 := hs.toR
  have hi : In (E := E) ((-2 ^ 970 : ℝ) : EReal) ((2 ^ 970 : ℝ) : EReal)
      ((x - 1500.0) / 173.7178) := by
    rw [hd]
    have hb : |FP.toR (x - 1500.0) / FP.toR (173.7178 : FP E)| ≤ 2 ^ 970 := by
      rw [abs_div, abs_of_pos (show (0 : ℝ) < FP.toR (173.7178 : FP E) by linarith),
        div_le_iff₀ (by linarith)]
      calc |FP.toR (x - 1500.0)| ≤ 2 ^ 971 := h1.2
        _ = 2 ^ 970 * 2 := by rw [pow_succ]
        _ ≤ 2 ^ 970 * FP.toR (173.7178 : FP E) := by gcongr; linarith
    have hb' := abs_le.1 hb
    exact In.of_round s (SRep.two_pow 970 (by norm_num)).neg (SRep.two_pow 970 (by norm_num))
      hb'.1 hb'.2
  exact ⟨hi.finite, abs_le.2 hi.toR⟩

/-- Literals of whole numbers are finite and exact. -/
theorem lit_finite {m : ℕ} {s : Bool} {e : ℕ} (v : ℕ)
    (h : (OfScientific.ofScientific m s e : ℝ) = v) (hv : v < 2 ^ 53) :
    isFinite (OfScientific.ofScientific m s e : FP E) := (lit_rep h (SRep.nat hv)).1

theorem lit_bound {m : ℕ} {s : Bool} {e : ℕ} (v : ℕ) (k : ℕ)
    (h : (OfScientific.ofScientific m s e : ℝ) = v) (hv : v < 2 ^ 53) (hk : 53 ≤ k) :
    |toR (OfScientific.ofScientific m s e : FP E)| ≤ 2 ^ k := by
  rw [(lit_rep h (SRep.nat hv)).2, abs_of_nonneg (by positivity)]
  calc (v : ℝ) ≤ ((2 ^ 53 : ℕ) : ℝ) := by exact_mod_cast hv.le
    _ = 2 ^ 53 := by norm_num
    _ ≤ 2 ^ k := pow_le_pow_right₀ (by norm_num) hk

theorem add_bound {x y : FP E} {a b c : ℝ} (hx : x.isFinite) (hy : y.isFinite) (ha : |x.toR| ≤ a)
    (hb : |y.toR| ≤ b) (hc : SRep c) (h : a + b ≤ c) :
    (x + y).isFinite ∧ |(x + y).toR| ≤ c := by
  obtain ⟨s, hs⟩ := add_fin hx hy
  have h1 := abs_le.1 ha
  have h2 := abs_le.1 hb
  have hi : In (E := E) ((-c : ℝ) : EReal) (c : EReal) (x + y) := by
    rw [hs]; exact In.of_round s hc.neg hc (by linarith) (by linarith)
  exact ⟨hi.finite, abs_le.2 hi.toR⟩

/-- A difference of ratings with an advantage. -/
theorem advantage_bound {x y z : FP E} (hx : x.isFinite) (hy : y.isFinite) (hz : z.isFinite)
    (hx' : |x.toR| ≤ 2 ^ 969) (hy' : |y.toR| ≤ 2 ^ 969) (hz' : |z.toR| ≤ 2 ^ 969) :
    (x + y - z).isFinite := by
  have h1 := add_bound hx hy hx' hy' (SRep.two_pow 970 (by norm_num))
    (by rw [pow_succ (2 : ℝ) 969]; linarith)
  have h3 : (0 : ℝ) < 2 ^ 969 := by positivity
  exact (sub_bound h1.1 hz h1.2 hz' (SRep.two_pow 971 (by norm_num))
    (by
      rw [pow_succ (2 : ℝ) 970, pow_succ (2 : ℝ) 969]
      generalize (2 : ℝ) ^ 969 = t at h3
      linarith)).1

end Skillratings
