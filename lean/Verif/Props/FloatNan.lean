import Verif.Proofs.FPBounds
import Verif.Model.Elo
import Verif.Model.Fifa
import Verif.Model.Dwz
import Verif.Model.Egf
import Verif.Model.Ingo
import Verif.Model.Uscf
import Verif.Model.Glicko
import Verif.Model.Sticko
import Verif.Model.GlickoBoost
import Verif.Model.WengLin
import Verif.Model.Glicko2
import Verif.Model.TrueSkill
import Verif.FPInstance
/-
C163: what a rating that is not a number does to a game and to a rating period.  In most systems
it spreads to both players; USCF and EGF games put both players on the floor of the scale.
-/
namespace Skillratings
open FP FPVal

namespace NaN
variable {E : FloatEnv}

/-- NaN. -/
def q (E : FloatEnv) : FP E := FPVal.nan

theorem eq_q {x : FP E} (h : x.isNaN) : x = q E := nan_iff.1 h
theorem isNaN_q : (q E).isNaN := trivial

theorem q_add (y : FP E) : q E + y = q E := by cases y <;> rfl
theorem add_q (x : FP E) : x + q E = q E := by cases x <;> rfl
theorem q_sub (y : FP E) : q E - y = q E := by cases y <;> rfl
theorem sub_q (x : FP E) : x - q E = q E := by cases x <;> rfl
theorem q_mul (y : FP E) : q E * y = q E := by cases y <;> rfl
theorem mul_q (x : FP E) : x * q E = q E := by cases x <;> rfl
theorem q_div (y : FP E) : q E / y = q E := by cases y <;> rfl
theorem div_q (x : FP E) : x / q E = q E := by cases x <;> rfl
theorem neg_q : -q E = q E := rfl
theorem recip_q : Flt.recip (q E) = q E := by rw [recip_eq]; exact div_q _
theorem q_mulAdd (y z : FP E) : Flt.mulAdd (q E) y z = q E := by cases y <;> cases z <;> rfl
theorem mulAdd_mid (x z : FP E) : Flt.mulAdd x (q E) z = q E := by cases x <;> cases z <;> rfl
theorem mulAdd_q (x y : FP E) : Flt.mulAdd x y (q E) = q E := by
  show E.mulAdd x y nan = nan
  cases x <;> cases y <;> simp only [FloatEnv.mulAdd] <;> exact add_q (E := E) _
theorem q_lt (y : FP E) : (q E <? y) = false := by
  show FPVal.lt nan y = false
  simp [FPVal.lt, FPVal.isNaN]
theorem lt_q (y : FP E) : (y <? q E) = false := by
  show FPVal.lt y nan = false
  simp [FPVal.lt, FPVal.isNaN]
theorem q_le (y : FP E) : (q E <=? y) = false := by
  show FPVal.le nan y = false
  simp [FPVal.le, FPVal.isNaN]
theorem abs_q : Flt.abs (q E) = q E := rfl
theorem fmax_q (y : FP E) : Flt.fmax (q E) y = y := rfl

theorem ten_pow (L : E.Lib) : Flt.powf (10.0 : FP E) (q E) = q E := by
  have i10 : In (E := E) ((10 : ℝ) : EReal) ((10 : ℝ) : EReal) (10.0 : FP E) :=
    lit_in (by norm_num) (SRep.ofNat 10 (by norm_num))
  refine eq_q (L.powf_nan' _ fun h => ?_)
  have h1 := i10.2.1
  rw [show (10.0 : FP E).toE = 1 from h] at h1
  have : ((10 : ℝ) : EReal) ≤ ((1 : ℝ) : EReal) := by simpa using h1
  have := EReal.coe_le_coe_iff.1 this
  norm_num at this

theorem sq_q (L : E.Lib) : Flt.powi (q E) 2 = q E := L.powi_two (q E)
theorem exp_q (L : E.Lib) : Flt.exp (q E) = q E := eq_q L.exp_nan
theorem ln_q (L : E.Lib) : Flt.ln (q E) = q E := eq_q L.ln_nan

/-- A sum with a summand that is not a number. -/
theorem foldl_q (l : List (FP E)) : l.foldl (· + ·) (q E) = q E := by
  induction l with
  | nil => rfl
  | cons x l ih => rw [List.foldl_cons, q_add, ih]

theorem sum_q {l : List (FP E)} (h : q E ∈ l) : Flt.sum l = q E := by
  rw [Flt.sum]
  generalize (Flt.sumZero : FP E) = z
  induction l generalizing z with
  | nil => cases h
  | cons x l ih =>
    rw [List.foldl_cons]
    rcases List.mem_cons.1 h with h | h
    · rw [← h, add_q, foldl_q]
    · exact ih h _

end NaN
open NaN
variable {E : FloatEnv}

theorem C163_elo (L : E.Lib) (a b : Elo.EloRating (FP E)) (o : Outcomes) (c : Elo.EloConfig (FP E))
    (h : a.rating.isNaN ∨ b.rating.isNaN) :
    (Elo.elo a b o c).1.rating.isNaN ∧ (Elo.elo a b o c).2.rating.isNaN := by
  rcases h with h | h <;>
    simp only [Elo.elo, Elo.expectedScore, eq_q h, q_sub, sub_q, q_div, ten_pow L, add_q, recip_q, mulAdd_mid,
      isNaN_q, and_self]

theorem C163_elo_period (L : E.Lib) (a : Elo.EloRating (FP E)) (rs : List (Elo.EloRating (FP E) × Outcomes))
    (c : Elo.EloConfig (FP E)) (h : a.rating.isNaN ∨ ∃ r ∈ rs, r.1.rating.isNaN) :
    (Elo.eloRatingPeriod a rs c).rating.isNaN := by
  have step : ∀ x r, x = q E ∨ r.1.rating = q E → Elo.periodStep c x r = q E := by
    rintro x r (h | h) <;>
      simp only [Elo.periodStep, h, q_sub, sub_q, q_div, ten_pow L, add_q, recip_q, mulAdd_mid]
  simp only [Elo.eloRatingPeriod]
  have h' : a.rating = q E ∨ ∃ r ∈ rs, r.1.rating = q E :=
    h.imp eq_q fun ⟨r, hr, h⟩ => ⟨r, hr, eq_q h⟩
  generalize a.rating = x at h'
  have key : rs.foldl (Elo.periodStep c) x = q E := by
    clear h
    induction rs generalizing x with
    | nil => rcases h' with h | ⟨r, hr, -⟩
             · exact h
             · cases hr
    | cons r rs ih =>
      rw [List.foldl_cons]
      refine ih _ ?_
      rcases h' with h | ⟨s, hs, h⟩
      · exact Or.inl (step _ _ (Or.inl h))
      · rcases List.mem_cons.1 hs with rfl | hs
        · exact Or.inl (step _ _ (Or.inr h))
        · exact Or.inr ⟨s, hs, h⟩
  rw [key]; exact isNaN_q

theorem C163_fifa (L : E.Lib) (a b : Fifa.FifaRating (FP E)) (o : Outcomes) (c : Fifa.FifaConfig (FP E))
    (h : a.rating.isNaN ∨ b.rating.isNaN) :
    (Fifa.fifa a b o c).1.rating.isNaN ∧ (Fifa.fifa a b o c).2.rating.isNaN := by
  rcases h with h | h <;>
    simp only [Fifa.fifa, Fifa.expectedScore, eq_q h, q_sub, sub_q, neg_q, q_div, ten_pow L, add_q, recip_q,
      mulAdd_mid, q_lt, Bool.and_false, Bool.false_eq_true, if_false, isNaN_q, and_self]

theorem C163_fifa_period (L : E.Lib) (a : Fifa.FifaRating (FP E))
    (rs : List (Fifa.FifaRating (FP E) × Outcomes × Fifa.FifaConfig (FP E)))
    (h : a.rating.isNaN ∨ ∃ r ∈ rs, r.1.rating.isNaN) :
    (Fifa.fifaRatingPeriod a rs).rating.isNaN := by
  have step : ∀ x r, x = q E ∨ r.1.rating = q E → Fifa.periodStep x r = q E := by
    rintro x r (h | h) <;>
      simp only [Fifa.periodStep, h, q_sub, sub_q, neg_q, q_div, ten_pow L, add_q, recip_q, mulAdd_mid, q_lt,
        Bool.and_false, Bool.not_false, if_true]
  simp only [Fifa.fifaRatingPeriod]
  have h' : a.rating = q E ∨ ∃ r ∈ rs, r.1.rating = q E :=
    h.imp eq_q fun ⟨r, hr, h⟩ => ⟨r, hr, eq_q h⟩
  generalize a.rating = x at h'
  have key : rs.foldl Fifa.periodStep x = q E := by
    clear h
    induction rs generalizing x with
    | nil => rcases h' with h | ⟨r, hr, -⟩
             · exact h
             · cases hr
    | cons r rs ih =>
      rw [List.foldl_cons]
      refine ih _ ?_
      rcases h' with h | ⟨s, hs, h⟩
      · exact Or.inl (step _ _ (Or.inl h))
      · rcases List.mem_cons.1 hs with rfl | hs
        · exact Or.inl (step _ _ (Or.inr h))
        · exact Or.inr ⟨s, hs, h⟩
  rw [key]; exact isNaN_q

theorem C163_dwz (L : E.Lib) (a b : Dwz.DWZRating (FP E)) (o : Outcomes)
    (h : a.rating.isNaN ∨ b.rating.isNaN) :
    (Dwz.dwz a b o).1.rating.isNaN ∧ (Dwz.dwz a b o).2.rating.isNaN := by
  rcases h with h | h <;>
    simp only [Dwz.dwz, Dwz.expectedScore, Dwz.newRating, eq_q h, q_sub, sub_q, mul_q, ten_pow L, add_q, recip_q,
      mulAdd_mid, isNaN_q, and_self]

theorem C163_dwz_period (L : E.Lib) (a : Dwz.DWZRating (FP E)) (rs : List (Dwz.DWZRating (FP E) × Outcomes))
    (h : a.rating.isNaN ∨ ∃ r ∈ rs, r.1.rating.isNaN) :
    (Dwz.dwzRatingPeriod a rs).rating.isNaN := by
  rcases h with h | ⟨r, hr, h⟩
  · simp only [Dwz.dwzRatingPeriod, eq_q h, mulAdd_q, isNaN_q]
  · have hs : Flt.sum (rs.map fun r => (Dwz.expectedScore a r.1).1) = q E :=
      sum_q (List.mem_map.2 ⟨r, hr, by
        simp only [Dwz.expectedScore, eq_q h, sub_q, mul_q, ten_pow L, add_q, recip_q]⟩)
    simp only [Dwz.dwzRatingPeriod, hs, sub_q, mulAdd_mid, isNaN_q]

theorem C163_ingo (a b : Ingo.IngoRating (FP E)) (o : Outcomes) (h : a.rating.isNaN ∨ b.rating.isNaN) :
    (Ingo.ingo a b o).1.rating.isNaN ∧ (Ingo.ingo a b o).2.rating.isNaN := by
  rcases h with h | h <;>
    simp only [Ingo.ingo, Ingo.performance, eq_q h, q_sub, q_mul, mulAdd_q, q_mulAdd, q_div, isNaN_q, and_self]

theorem C163_ingo_period (a : Ingo.IngoRating (FP E)) (rs : List (Ingo.IngoRating (FP E) × Outcomes))
    (h : a.rating.isNaN ∨ ∃ r ∈ rs, r.1.rating.isNaN) :
    (Ingo.ingoRatingPeriod a rs).rating.isNaN := by
  rcases h with h | ⟨r, hr, h⟩
  · simp only [Ingo.ingoRatingPeriod, eq_q h, q_mul, mulAdd_q, q_div, isNaN_q]
  · have hs : Flt.sum (rs.map fun r => r.1.rating) = q E := sum_q (List.mem_map.2 ⟨r, hr, eq_q h⟩)
    simp only [Ingo.ingoRatingPeriod, Ingo.performance, hs, q_div, q_sub, q_mulAdd, isNaN_q]

/-- The ratings; the deviations are those of C101. -/
theorem C163_glicko (L : E.Lib) (a b : Glicko.GlickoRating (FP E)) (o : Outcomes)
    (c : Glicko.GlickoConfig (FP E)) (h : a.rating.isNaN ∨ b.rating.isNaN) :
    (Glicko.glicko a b o c).1.rating.isNaN ∧ (Glicko.glicko a b o c).2.rating.isNaN := by
  rcases h with h | h <;>
    simp only [Glicko.glicko, Glicko.newRating, Glicko.eValue, eq_q h, q_sub, sub_q, mul_q, q_div, ten_pow L,
      add_q, recip_q, mulAdd_mid, isNaN_q, and_self]

theorem C163_sticko (a b : Sticko.StickoRating (FP E)) (o : Outcomes)
    (c : Sticko.StickoConfig (FP E)) (h : a.rating.isNaN ∨ b.rating.isNaN) :
    (Sticko.sticko a b o c).1.rating.isNaN ∧ (Sticko.sticko a b o c).2.rating.isNaN := by
  rcases h with h | h <;>
    simp only [Sticko.sticko, Sticko.newRating, eq_q h, q_sub, sub_q, mul_q, add_q, isNaN_q, and_self]

theorem C163_glickoBoost (L : E.Lib) (a b : GlickoBoost.GlickoBoostRating (FP E)) (o : Outcomes)
    (c : GlickoBoost.GlickoBoostConfig (FP E)) (h : a.rating.isNaN ∨ b.rating.isNaN) :
    (GlickoBoost.glickoBoost a b o c).1.rating.isNaN ∧ (GlickoBoost.glickoBoost a b o c).2.rating.isNaN := by
  rcases h with h | h <;>
    simp only [GlickoBoost.glickoBoost, GlickoBoost.newRating, GlickoBoost.eValue, eq_q h, mulAdd_q, q_sub, sub_q,
      mul_q, q_div, ten_pow L, add_q, recip_q, mulAdd_mid, isNaN_q, and_self]

/-- The search for the volatility ends after at most one step. -/
theorem glicko2_search (σ δ φ τ tol : FP E) : ∃ x, Glicko2.newVolatility σ δ φ (q E) τ tol = some x := by
  have hf : ∀ x, Glicko2.fValue x δ φ (q E) σ τ = q E := by
    intro x
    simp only [Glicko2.fValue, sub_q, q_sub, mul_q, q_div]
  have hk : ∀ a k : FP E, Glicko2.kLoop (fun _ => q E) a τ k = some k := by
    intro a k
    rw [Glicko2.kLoop, q_lt]; rfl
  have hend : ∀ s : Glicko2.VolState (FP E), s.b = q E →
      Glicko2.volLoop (fun _ => q E) tol s = some s := by
    intro s hs
    rw [Glicko2.volLoop, hs, q_sub, abs_q, lt_q]; rfl
  have hv : ∀ s : Glicko2.VolState (FP E), s.fb = q E →
      ∃ t, Glicko2.volLoop (fun _ => q E) tol s = some t := by
    intro s hs
    rw [Glicko2.volLoop]
    split_ifs
    · refine ⟨_, hend _ ?_⟩
      simp only [Glicko2.volStep, q_mul, q_le, Bool.false_eq_true, if_false, hs, q_sub, div_q, add_q]
    · exact ⟨s, rfl⟩
  simp only [Glicko2.newVolatility, hf, add_q, q_lt, Bool.false_eq_true, if_false]
  rw [hk]
  obtain ⟨t, ht⟩ := hv ⟨Flt.ln (Flt.powi σ 2), Flt.mulAdd 1.0 (-τ) (Flt.ln (Flt.powi σ 2)), q E, q E⟩ rfl
  exact ⟨Flt.exp (t.a / 2.0), by simp only [Option.bind_eq_bind, Option.bind_some, ht]⟩

/-- Glicko-2: the call still returns. -/
theorem C163_glicko2 (L : E.Lib) (a b : Glicko2.Glicko2Rating (FP E)) (o : Outcomes)
    (c : Glicko2.Glicko2Config (FP E)) (h : a.rating.isNaN ∨ b.rating.isNaN) :
    ∃ x y, Glicko2.glicko2 a b o c = some (x, y) ∧ x.rating.isNaN ∧ y.rating.isNaN := by
  have hp : ∀ (p : Glicko2.Glicko2Rating (FP E)) (d f : FP E),
      ∃ x, Glicko2.newVolatility p.volatility d f (q E) c.tau c.convergenceTolerance = some x :=
    fun p d f => glicko2_search _ _ _ _ _
  rcases h with h | h <;>
  · simp only [Glicko2.glicko2, Glicko2.eValue, Glicko2.vValue, Glicko2.newRating, eq_q h, q_sub, sub_q, q_div, mul_q,
      exp_q L, add_q, recip_q, mulAdd_mid, q_mulAdd]
    obtain ⟨x, hx⟩ := hp a _ _
    obtain ⟨y, hy⟩ := hp b _ _
    rw [hx, hy]
    exact ⟨_, _, rfl, isNaN_q, isNaN_q⟩

/-- The mean correction of a difference that is not a number. -/
theorem vw_q (L : E.Lib) (o : Outcomes) (m x : FP E) : (TrueSkill.vw o (q E) m x).1 = q E := by
  simp only [TrueSkill.vw]
  split_ifs
  · simp only [TrueSkill.vDraw, TrueSkill.pdf, q_div, neg_q, abs_q, q_sub, sub_q, q_add, mul_q, q_mul, sq_q L, exp_q L,
      q_lt, Bool.false_eq_true, if_false, ite_self]
  · simp only [TrueSkill.vNonDraw, TrueSkill.pdf, q_div, neg_q, abs_q, q_sub, sub_q, q_add, mul_q, q_mul, sq_q L, exp_q L,
      ite_self]

theorem C163_trueskill (L : E.Lib) (a b : TrueSkill.TrueSkillRating (FP E)) (o : Outcomes)
    (c : TrueSkill.TrueSkillConfig (FP E)) (h : a.rating.isNaN ∨ b.rating.isNaN) :
    (TrueSkill.trueskill a b o c).1.rating.isNaN ∧ (TrueSkill.trueskill a b o c).2.rating.isNaN := by
  have hd : TrueSkill.ratingDelta a.rating b.rating o = q E := by
    rcases h with h | h <;> cases o <;> simp only [TrueSkill.ratingDelta, eq_q h, q_sub, sub_q]
  simp only [TrueSkill.trueskill, TrueSkill.newRating, hd, vw_q L, mulAdd_mid, isNaN_q, and_self]

theorem C163_wengLin (L : E.Lib) (a b : WengLin.WengLinRating (FP E)) (o : Outcomes)
    (c : WengLin.WengLinConfig (FP E)) (h : a.rating.isNaN ∨ b.rating.isNaN) :
    (WengLin.wengLin a b o c).1.rating.isNaN ∧ (WengLin.wengLin a b o c).2.rating.isNaN := by
  rcases h with h | h <;>
    simp only [WengLin.wengLin, WengLin.pValue, WengLin.newRating, eq_q h, q_div, exp_q L, q_add, add_q, div_q,
      sub_q, mulAdd_mid, isNaN_q, and_self]

/-! ### The systems with a floor -/

/-- USCF: both players end at the floor of 100, whatever their ratings. -/
theorem C163_uscf (L : E.Lib) (a b : Uscf.USCFRating (FP E)) (o : Outcomes) (c : Uscf.USCFConfig (FP E))
    (h : a.rating.isNaN ∨ b.rating.isNaN) :
    (Uscf.uscf a b o c).1.rating = 100.0 ∧ (Uscf.uscf a b o c).2.rating = 100.0 := by
  rcases h with h | h <;>
    simp only [Uscf.uscf, Uscf.eValue, Uscf.newRating, Uscf.newRatingProvisional, eq_q h, q_sub, sub_q, neg_q,
      mul_q, q_div, ten_pow L, q_add, recip_q, mulAdd_mid, mulAdd_q, ite_self, fmax_q, and_self]

/-- In a USCF rating period there is no floor, and the rating is lost. -/
theorem C163_uscf_period (L : E.Lib) (a : Uscf.USCFRating (FP E)) (rs : List (Uscf.USCFRating (FP E) × Outcomes))
    (c : Uscf.USCFConfig (FP E)) (h : a.rating.isNaN ∨ ∃ r ∈ rs, r.1.rating.isNaN) :
    (Uscf.uscfRatingPeriod a rs c).rating.isNaN := by
  rcases h with h | ⟨r, hr, h⟩
  · by_cases he : rs.isEmpty
    · simpa only [Uscf.uscfRatingPeriod, he, if_true] using h
    · by_cases hg : a.games ≤ 8 <;>
        simp only [Uscf.uscfRatingPeriod, he, hg, if_true, if_false, Uscf.newRating, Uscf.newRatingProvisional,
          eq_q h, mulAdd_q, mulAdd_mid, q_add, q_div, isNaN_q, Bool.false_eq_true]
  · have he : rs.isEmpty = false := by cases rs with
      | nil => cases hr
      | cons => rfl
    have hs : Flt.sum (rs.map fun r => r.1.rating) = q E := sum_q (List.mem_map.2 ⟨r, hr, eq_q h⟩)
    have ht : Flt.sum (rs.map fun r => Uscf.eValue a.rating r.1.rating) = q E :=
      sum_q (List.mem_map.2 ⟨r, hr, by
        simp only [Uscf.eValue, eq_q h, sub_q, neg_q, q_div, ten_pow L, q_add, recip_q]⟩)
    by_cases hg : a.games ≤ 8 <;>
      simp only [Uscf.uscfRatingPeriod, he, hg, if_true, if_false, Uscf.newRating, Uscf.newRatingProvisional,
        hs, ht, sub_q, mul_q, mulAdd_q, mulAdd_mid, q_add, q_div, isNaN_q, Bool.false_eq_true]

/-- EGF: both players end at the floor of -900, whatever their ratings. -/
theorem C163_egf (L : E.Lib) (a b : Egf.EGFRating (FP E)) (o : Outcomes) (c : Egf.EGFConfig (FP E))
    (h : a.rating.isNaN ∨ b.rating.isNaN) :
    (Egf.egf a b o c).1.rating = -900.0 ∧ (Egf.egf a b o c).2.rating = -900.0 := by
  rcases h with h | h <;>
    simp only [Egf.egf, Egf.expectedScore, Egf.beta, Egf.newRating, eq_q h, q_sub, sub_q, mul_q, ln_q L, exp_q L,
      add_q, recip_q, mulAdd_mid, q_add, fmax_q, and_self]

/-! ### Example -/

/-- A grandmaster meets a player whose rating is not a number. -/
example : (Uscf.uscf (⟨2700.0, 500⟩ : Uscf.USCFRating (FP ieee)) ⟨FPVal.nan, 20⟩ .WIN ⟨14.0⟩).1.rating = 100.0 :=
  (C163_uscf ieee_lib ⟨2700.0, 500⟩ ⟨FPVal.nan, 20⟩ .WIN ⟨14.0⟩ (Or.inr trivial)).1

end Skillratings
