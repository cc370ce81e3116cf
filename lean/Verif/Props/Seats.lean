import Verif.Proofs.Fifa
import Verif.Proofs.Dwz
import Verif.Proofs.Egf
import Verif.Proofs.Uscf
import Verif.Props.Ingo
import Verif.Proofs.GlickoBoost
import Verif.Proofs.Sticko
import Verif.Proofs.WengLin
/-
C108: which of the two players is passed first does not matter.  Swapping the players and reading
the result from the other side swaps the two returned ratings.  (Elo is C04, Glicko is C31,
Glicko-2 is C87, TrueSkill is C67.)
-/
namespace Skillratings
open Real Spec

private theorem mirror_mirror (o : Outcomes) : mirror (mirror o) = o := by cases o <;> rfl

private theorem sub_points (o : Outcomes) : 1 - points (mirror o) = points o := by
  rw [points_mirror]; ring

/-! ### FIFA -/

/-- Without penalties; with and without the protection of knockout matches. -/
theorem C108_fifa_seats (a b : Fifa.FifaRating ℝ) (o : Outcomes) (c : Fifa.FifaConfig ℝ)
    (h : c.penalties = false) :
    Fifa.fifa b a (mirror o) c = (Fifa.fifa a b o c).swap := by
  have e : sigmoid (log 10 / 600 * (b.rating - a.rating))
      = 1 - sigmoid (log 10 / 600 * (a.rating - b.rating)) := by
    rw [← sigmoid_neg]; congr 1; ring
  simp only [Fifa.fifa_real, Fifa.credit, Fifa.credit2, h, Bool.false_eq_true, if_false, e,
    points_mirror, sub_sub_cancel, Prod.swap]

/-- A penalty shootout is not symmetric: the two ways to report it differ. -/
theorem C108_fifa_penalties_not_symmetric :
    ∃ (a b : Fifa.FifaRating ℝ) (o : Outcomes) (c : Fifa.FifaConfig ℝ), c.penalties = true ∧
      Fifa.fifa b a (mirror o) c ≠ (Fifa.fifa a b o c).swap := by
  refine ⟨⟨1000⟩, ⟨1000⟩, .WIN, ⟨10, false, true⟩, rfl, ?_⟩
  simp only [Fifa.fifa_real, Fifa.credit, Fifa.credit2, Fifa.guarded, mirror, Prod.swap, ne_eq,
    Prod.mk.injEq, Fifa.FifaRating.mk.injEq, sub_self, mul_zero]
  norm_num
  rw [if_neg (by decide)]
  norm_num

/-- A knockout match between a favourite and an outsider. -/
example : (⟨60, true, false⟩ : Fifa.FifaConfig ℝ).penalties = false := rfl

/-! ### DWZ, EGF, Ingo, USCF -/

theorem C108_dwz_seats (a b : Dwz.DWZRating ℝ) (o : Outcomes) :
    Dwz.dwz b a (mirror o) = (Dwz.dwz a b o).swap := by
  have e1 : (Dwz.expectedScore b a).1 = (Dwz.expectedScore a b).2 := by
    rw [Dwz.expectedScore_real, Dwz.expectedScore_real]
    dsimp only
    rw [← sigmoid_neg]
    congr 1; ring
  have e2 : (Dwz.expectedScore b a).2 = (Dwz.expectedScore a b).1 := by
    rw [Dwz.expectedScore_real] at e1 ⊢
    dsimp only at e1 ⊢
    rw [e1, Dwz.expectedScore_real, sub_sub_cancel]
  simp only [Dwz.dwz, e1, e2, toChessPoints_real, Flt.lit_1, points_mirror, sub_sub_cancel,
    Prod.swap]

/-- A handicap of `n` stones in favour of one seat is one of `-n` in favour of the other. -/
theorem C108_egf_seats (a b : Egf.EGFRating ℝ) (o : Outcomes) (c : Egf.EGFConfig ℝ) :
    Egf.egf b a (mirror o) ⟨-c.handicap⟩ = (Egf.egf a b o c).swap := by
  have e : egfBeta (egfFirst b.rating (-c.handicap)) - egfBeta (egfSecond a.rating (-c.handicap))
      = -(egfBeta (egfFirst a.rating c.handicap) - egfBeta (egfSecond b.rating c.handicap)) := by
    rw [neg_sub]
    rcases lt_trichotomy c.handicap 0 with h | h | h
    · simp [egfFirst, egfSecond, h, not_lt.2 h.le]
    · simp [egfFirst, egfSecond, h, egfStones]
    · simp [egfFirst, egfSecond, h, not_lt.2 h.le]
  simp only [Egf.egf_real, Egf.expectedScore_real, e, sigmoid_neg, points_mirror, sub_sub_cancel,
    Prod.swap]

theorem C108_ingo_seats (a b : Ingo.IngoRating ℝ) (o : Outcomes) :
    Ingo.ingo b a (mirror o) = (Ingo.ingo a b o).swap := by
  simp only [Ingo.ingo, toChessPoints_real, Flt.lit_1, points_mirror, sub_sub_cancel, Prod.swap]

theorem C108_uscf_seats (a b : Uscf.USCFRating ℝ) (o : Outcomes) (c : Uscf.USCFConfig ℝ) :
    Uscf.uscf b a (mirror o) c = (Uscf.uscf a b o c).swap := by
  simp only [Uscf.uscf, toChessPoints_real, Flt.lit_1, points_mirror, sub_sub_cancel, Prod.swap]
  cases o <;> rfl

/-! ### Sticko, Glicko-Boost -/

/-- In Sticko the first seat has the advantage `gamma`; passing the players in the other order
means that the other seat has it. -/
theorem C108_sticko_seats (a b : Sticko.StickoRating ℝ) (o : Outcomes)
    (c : Sticko.StickoConfig ℝ) :
    Sticko.sticko b a (mirror o) { c with gamma := -c.gamma } = (Sticko.sticko a b o c).swap := by
  simp only [Sticko.sticko_real, mirror_mirror, Prod.swap, stickoUpdate, stickoInfo, stickoE,
    Sticko.params, Sticko.game, List.map_cons, List.map_nil, colour, if_true, Bool.false_eq_true,
    if_false, mul_one, mul_neg, neg_neg, List.length_cons, List.length_nil]

/-- The same for the advantage `eta` of Glicko-Boost. -/
theorem C108_glickoBoost_seats (a b : GlickoBoost.GlickoBoostRating ℝ) (o : Outcomes)
    (c : GlickoBoost.GlickoBoostConfig ℝ) :
    GlickoBoost.glickoBoost b a (mirror o) { c with eta := -c.eta }
      = (GlickoBoost.glickoBoost a b o c).swap := by
  have h1 : ∀ x : ℝ, x + -c.eta * colour true = x + c.eta * colour false := by
    intro x; simp [colour]
  have h2 : ∀ x : ℝ, x + -c.eta * colour false = x + c.eta * colour true := by
    intro x; simp [colour]
  simp only [GlickoBoost.glickoBoost_real, mirror_mirror, Prod.swap, GlickoBoost.updated,
    boostRating, boostRd1, boostPre, boostZ, boostInfo, boostVar, boostDelta, boostE, boostEnd,
    GlickoBoost.params, GlickoBoost.game, List.map_cons, List.map_nil, h1, h2]

/-! ### Weng-Lin -/

theorem C108_wengLin_seats (a b : WengLin.WengLinRating ℝ) (o : Outcomes)
    (c : WengLin.WengLinConfig ℝ) :
    WengLin.wengLin b a (mirror o) c = (WengLin.wengLin a b o c).swap := by
  simp only [WengLin.wengLin_real, points_mirror, sub_sub_cancel, Prod.swap,
    WengLin.wlC_comm c.beta (b.uncertainty ^ 2) (a.uncertainty ^ 2),
    WengLin.wlP_symm _ a.rating b.rating]

theorem C108_wengLin_team_seats (s t : List (WengLin.WengLinRating ℝ)) (o : Outcomes)
    (c : WengLin.WengLinConfig ℝ) :
    WengLin.wengLinTwoTeams t s (mirror o) c = (WengLin.wengLinTwoTeams s t o c).swap := by
  by_cases h : s = [] ∨ t = []
  · rcases h with rfl | rfl <;> simp [WengLin.wengLinTwoTeams]
  · push Not at h
    rw [WengLin.twoTeams_real _ _ _ _ h.1 h.2, WengLin.twoTeams_real _ _ _ _ h.2 h.1, sub_points,
      points_mirror, Prod.swap]

end Skillratings
