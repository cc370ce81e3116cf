import Verif.FltReal
import Verif.Model.Egf
import Verif.Model.Convert
import Verif.Spec.Basic
/-
Properties of the traits, conversions and constructors: C76, C77, C78, C91.
The theorems about traits hold in any arithmetic.
-/
namespace Skillratings
variable {F : Type} [Flt F]

/-! ### C76: trait objects -/

theorem C76_elo_trait (cfg : Elo.EloConfig F) (a b : Elo.EloRating F) (o : Outcomes)
    (rs : List (Elo.EloRating F × Outcomes)) (os : List (Elo.EloRating F)) :
    RatingSystem.rate (RatingSystem.new cfg : Elo.Elo F) a b o = Elo.elo a b o cfg ∧
    RatingSystem.expectedScore (RatingSystem.new cfg : Elo.Elo F) a b
      = Elo.expectedScore a b ∧
    RatingPeriodSystem.rate (RatingPeriodSystem.new cfg : Elo.Elo F) a rs
      = Elo.eloRatingPeriod a rs cfg ∧
    RatingPeriodSystem.expectedScore (RatingPeriodSystem.new cfg : Elo.Elo F) a os
      = Elo.expectedScoreRatingPeriod a os :=
  ⟨rfl, rfl, rfl, rfl⟩

theorem C76_dwz_trait (cfg : Unit) (a b : Dwz.DWZRating F) (o : Outcomes)
    (rs : List (Dwz.DWZRating F × Outcomes)) (os : List (Dwz.DWZRating F)) :
    RatingSystem.rate (RatingSystem.new cfg : Dwz.DWZ F) a b o = Dwz.dwz a b o ∧
    RatingSystem.expectedScore (RatingSystem.new cfg : Dwz.DWZ F) a b
      = Dwz.expectedScore a b ∧
    RatingPeriodSystem.rate (RatingPeriodSystem.new cfg : Dwz.DWZ F) a rs
      = Dwz.dwzRatingPeriod a rs ∧
    RatingPeriodSystem.expectedScore (RatingPeriodSystem.new cfg : Dwz.DWZ F) a os
      = Dwz.expectedScoreRatingPeriod a os :=
  ⟨rfl, rfl, rfl, rfl⟩

theorem C76_egf_trait (cfg : Egf.EGFConfig F) (a b : Egf.EGFRating F) (o : Outcomes)
    (rs : List (Egf.EGFRating F × Outcomes)) (os : List (Egf.EGFRating F)) :
    RatingSystem.rate (RatingSystem.new cfg : Egf.EGF F) a b o = Egf.egf a b o cfg ∧
    RatingSystem.expectedScore (RatingSystem.new cfg : Egf.EGF F) a b
      = Egf.expectedScore a b cfg ∧
    RatingPeriodSystem.rate (RatingPeriodSystem.new cfg : Egf.EGF F) a rs
      = Egf.egfRatingPeriod a (rs.map fun r => (r.1, r.2, cfg)) ∧
    RatingPeriodSystem.expectedScore (RatingPeriodSystem.new cfg : Egf.EGF F) a os
      = Egf.expectedScoreRatingPeriod a (os.map fun o => (o, cfg)) :=
  ⟨rfl, rfl, rfl, rfl⟩

theorem C76_fifa_trait (cfg : Fifa.FifaConfig F) (a b : Fifa.FifaRating F) (o : Outcomes)
    (rs : List (Fifa.FifaRating F × Outcomes)) (os : List (Fifa.FifaRating F)) :
    RatingSystem.rate (RatingSystem.new cfg : Fifa.Fifa F) a b o = Fifa.fifa a b o cfg ∧
    RatingSystem.expectedScore (RatingSystem.new cfg : Fifa.Fifa F) a b
      = Fifa.expectedScore a b ∧
    RatingPeriodSystem.rate (RatingPeriodSystem.new cfg : Fifa.Fifa F) a rs
      = Fifa.fifaRatingPeriod a (rs.map fun r => (r.1, r.2, cfg)) ∧
    RatingPeriodSystem.expectedScore (RatingPeriodSystem.new cfg : Fifa.Fifa F) a os
      = Fifa.expectedScoreRatingPeriod a os :=
  ⟨rfl, rfl, rfl, rfl⟩

theorem C76_ingo_trait (cfg : Unit) (a b : Ingo.IngoRating F) (o : Outcomes)
    (rs : List (Ingo.IngoRating F × Outcomes)) (os : List (Ingo.IngoRating F)) :
    RatingSystem.rate (RatingSystem.new cfg : Ingo.Ingo F) a b o = Ingo.ingo a b o ∧
    RatingSystem.expectedScore (RatingSystem.new cfg : Ingo.Ingo F) a b
      = Ingo.expectedScore a b ∧
    RatingPeriodSystem.rate (RatingPeriodSystem.new cfg : Ingo.Ingo F) a rs
      = Ingo.ingoRatingPeriod a rs ∧
    RatingPeriodSystem.expectedScore (RatingPeriodSystem.new cfg : Ingo.Ingo F) a os
      = Ingo.expectedScoreRatingPeriod a os :=
  ⟨rfl, rfl, rfl, rfl⟩

theorem C76_uscf_trait (cfg : Uscf.USCFConfig F) (a b : Uscf.USCFRating F) (o : Outcomes)
    (rs : List (Uscf.USCFRating F × Outcomes)) (os : List (Uscf.USCFRating F)) :
    RatingSystem.rate (RatingSystem.new cfg : Uscf.USCF F) a b o = Uscf.uscf a b o cfg ∧
    RatingSystem.expectedScore (RatingSystem.new cfg : Uscf.USCF F) a b
      = Uscf.expectedScore a b ∧
    RatingPeriodSystem.rate (RatingPeriodSystem.new cfg : Uscf.USCF F) a rs
      = Uscf.uscfRatingPeriod a rs cfg ∧
    RatingPeriodSystem.expectedScore (RatingPeriodSystem.new cfg : Uscf.USCF F) a os
      = Uscf.expectedScoreRatingPeriod a os :=
  ⟨rfl, rfl, rfl, rfl⟩

theorem C76_glicko_trait (cfg : Glicko.GlickoConfig F) (a b : Glicko.GlickoRating F) (o : Outcomes)
    (rs : List (Glicko.GlickoRating F × Outcomes)) (os : List (Glicko.GlickoRating F)) :
    RatingSystem.rate (RatingSystem.new cfg : Glicko.Glicko F) a b o = Glicko.glicko a b o cfg ∧
    RatingSystem.expectedScore (RatingSystem.new cfg : Glicko.Glicko F) a b
      = Glicko.expectedScore a b ∧
    RatingPeriodSystem.rate (RatingPeriodSystem.new cfg : Glicko.Glicko F) a rs
      = Glicko.glickoRatingPeriod a rs cfg ∧
    RatingPeriodSystem.expectedScore (RatingPeriodSystem.new cfg : Glicko.Glicko F) a os
      = Glicko.expectedScoreRatingPeriod a os :=
  ⟨rfl, rfl, rfl, rfl⟩

theorem C76_glicko2_trait (cfg : Glicko2.Glicko2Config F) (a b : Glicko2.Glicko2Rating F) (o : Outcomes)
    (rs : List (Glicko2.Glicko2Rating F × Outcomes)) (os : List (Glicko2.Glicko2Rating F)) :
    RatingSystem.rate (RatingSystem.new cfg : Glicko2.Glicko2 F) a b o = Glicko2.glicko2 a b o cfg ∧
    RatingSystem.expectedScore (RatingSystem.new cfg : Glicko2.Glicko2 F) a b
      = Glicko2.expectedScore a b ∧
    RatingPeriodSystem.rate (RatingPeriodSystem.new cfg : Glicko2.Glicko2 F) a rs
      = Glicko2.glicko2RatingPeriod a rs cfg ∧
    RatingPeriodSystem.expectedScore (RatingPeriodSystem.new cfg : Glicko2.Glicko2 F) a os
      = Glicko2.expectedScoreRatingPeriod a os :=
  ⟨rfl, rfl, rfl, rfl⟩

theorem C76_glickoBoost_trait (cfg : GlickoBoost.GlickoBoostConfig F) (a b : GlickoBoost.GlickoBoostRating F) (o : Outcomes)
    (rs : List (GlickoBoost.GlickoBoostRating F × Outcomes)) (os : List (GlickoBoost.GlickoBoostRating F)) :
    RatingSystem.rate (RatingSystem.new cfg : GlickoBoost.GlickoBoost F) a b o = GlickoBoost.glickoBoost a b o cfg ∧
    RatingSystem.expectedScore (RatingSystem.new cfg : GlickoBoost.GlickoBoost F) a b
      = GlickoBoost.expectedScore a b cfg ∧
    RatingPeriodSystem.rate (RatingPeriodSystem.new cfg : GlickoBoost.GlickoBoost F) a rs
      = GlickoBoost.glickoBoostRatingPeriod a (rs.map fun r => (r.1, r.2, true)) cfg ∧
    RatingPeriodSystem.expectedScore (RatingPeriodSystem.new cfg : GlickoBoost.GlickoBoost F) a os
      = GlickoBoost.expectedScoreRatingPeriod a (os.map fun o => (o, true)) cfg :=
  ⟨rfl, rfl, rfl, rfl⟩

theorem C76_sticko_trait (cfg : Sticko.StickoConfig F) (a b : Sticko.StickoRating F) (o : Outcomes)
    (rs : List (Sticko.StickoRating F × Outcomes)) (os : List (Sticko.StickoRating F)) :
    RatingSystem.rate (RatingSystem.new cfg : Sticko.Sticko F) a b o = Sticko.sticko a b o cfg ∧
    RatingSystem.expectedScore (RatingSystem.new cfg : Sticko.Sticko F) a b
      = Sticko.expectedScore a b cfg ∧
    RatingPeriodSystem.rate (RatingPeriodSystem.new cfg : Sticko.Sticko F) a rs
      = Sticko.stickoRatingPeriod a (rs.map fun r => (r.1, r.2, true)) cfg ∧
    RatingPeriodSystem.expectedScore (RatingPeriodSystem.new cfg : Sticko.Sticko F) a os
      = Sticko.expectedScoreRatingPeriod a (os.map fun o => (o, true)) cfg :=
  ⟨rfl, rfl, rfl, rfl⟩

theorem C76_wengLin_trait (cfg : WengLin.WengLinConfig F) (a b : WengLin.WengLinRating F) (o : Outcomes)
    (rs : List (WengLin.WengLinRating F × Outcomes)) (os : List (WengLin.WengLinRating F)) :
    RatingSystem.rate (RatingSystem.new cfg : WengLin.WengLin F) a b o = WengLin.wengLin a b o cfg ∧
    RatingSystem.expectedScore (RatingSystem.new cfg : WengLin.WengLin F) a b
      = WengLin.expectedScore a b cfg ∧
    RatingPeriodSystem.rate (RatingPeriodSystem.new cfg : WengLin.WengLin F) a rs
      = WengLin.wengLinRatingPeriod a rs cfg ∧
    RatingPeriodSystem.expectedScore (RatingPeriodSystem.new cfg : WengLin.WengLin F) a os
      = WengLin.expectedScoreRatingPeriod a os cfg :=
  ⟨rfl, rfl, rfl, rfl⟩

theorem C76_trueSkill_trait (cfg : TrueSkill.TrueSkillConfig F) (a b : TrueSkill.TrueSkillRating F) (o : Outcomes)
    (rs : List (TrueSkill.TrueSkillRating F × Outcomes)) (os : List (TrueSkill.TrueSkillRating F)) :
    RatingSystem.rate (RatingSystem.new cfg : TrueSkill.TrueSkill F) a b o = TrueSkill.trueskill a b o cfg ∧
    RatingSystem.expectedScore (RatingSystem.new cfg : TrueSkill.TrueSkill F) a b
      = TrueSkill.expectedScore a b cfg ∧
    RatingPeriodSystem.rate (RatingPeriodSystem.new cfg : TrueSkill.TrueSkill F) a rs
      = TrueSkill.trueskillRatingPeriod a rs cfg ∧
    RatingPeriodSystem.expectedScore (RatingPeriodSystem.new cfg : TrueSkill.TrueSkill F) a os
      = TrueSkill.expectedScoreRatingPeriod a os cfg :=
  ⟨rfl, rfl, rfl, rfl⟩

theorem C76_wengLin_team_trait (cfg : WengLin.WengLinConfig F) (s t : List (WengLin.WengLinRating F))
    (o : Outcomes) :
    TeamRatingSystem.rate (TeamRatingSystem.new cfg : WengLin.WengLin F) s t o
      = WengLin.wengLinTwoTeams s t o cfg ∧
    TeamRatingSystem.expectedScore (TeamRatingSystem.new cfg : WengLin.WengLin F) s t
      = WengLin.expectedScoreTwoTeams s t cfg :=
  ⟨rfl, rfl⟩

theorem C76_trueSkill_team_trait (cfg : TrueSkill.TrueSkillConfig F) (s t : List (TrueSkill.TrueSkillRating F))
    (o : Outcomes) :
    TeamRatingSystem.rate (TeamRatingSystem.new cfg : TrueSkill.TrueSkill F) s t o
      = TrueSkill.trueskillTwoTeams s t o cfg ∧
    TeamRatingSystem.expectedScore (TeamRatingSystem.new cfg : TrueSkill.TrueSkill F) s t
      = TrueSkill.expectedScoreTwoTeams s t cfg :=
  ⟨rfl, rfl⟩

theorem C76_wengLin_multi_trait (cfg : WengLin.WengLinConfig F)
    (ts : List (List (WengLin.WengLinRating F) × MultiTeamOutcome))
    (us : List (List (WengLin.WengLinRating F))) :
    MultiTeamRatingSystem.rate (MultiTeamRatingSystem.new cfg : WengLin.WengLin F) ts
      = WengLin.wengLinMultiTeam ts cfg ∧
    MultiTeamRatingSystem.expectedScore (MultiTeamRatingSystem.new cfg : WengLin.WengLin F) us
      = WengLin.expectedScoreMultiTeam us cfg :=
  ⟨rfl, rfl⟩

/-- The TrueSkill trait method runs the multi-team function without weights.  It panics when
the function does; the weight error it would swallow cannot occur (C68). -/
theorem C76_trueSkill_multi_trait (cfg : TrueSkill.TrueSkillConfig F)
    (ts : List (List (TrueSkill.TrueSkillRating F) × MultiTeamOutcome))
    (us : List (List (TrueSkill.TrueSkillRating F))) :
    (∀ r, TrueSkill.trueskillMultiTeam ts cfg none = .ok (.ok r) →
      MultiTeamRatingSystem.rate (MultiTeamRatingSystem.new cfg : TrueSkill.TrueSkill F) ts
        = .ok r) ∧
    (∀ p, TrueSkill.trueskillMultiTeam ts cfg none = .error p →
      MultiTeamRatingSystem.rate (MultiTeamRatingSystem.new cfg : TrueSkill.TrueSkill F) ts
        = .error p) ∧
    MultiTeamRatingSystem.expectedScore (MultiTeamRatingSystem.new cfg : TrueSkill.TrueSkill F) us
      = .ok (TrueSkill.expectedScoreMultiTeam us cfg) := by
  refine ⟨fun r h => ?_, fun p h => ?_, rfl⟩
  · show (match TrueSkill.trueskillMultiTeam ts cfg none with
      | .error p => .error p
      | .ok (.ok teams) => .ok teams
      | .ok (.error _) => .ok (ts.map (·.1)) : Except TrueSkill.Panic _) = _
    rw [h]
  · show (match TrueSkill.trueskillMultiTeam ts cfg none with
      | .error p => .error p
      | .ok (.ok teams) => .ok teams
      | .ok (.error _) => .ok (ts.map (·.1)) : Except TrueSkill.Panic _) = _
    rw [h]

/-! ### C77: conversions -/

open Elo Dwz Fifa Ingo Uscf Glicko Glicko2 GlickoBoost Sticko WengLin TrueSkill in
/-- The conversions that copy numbers, bit for bit. -/
theorem C77_convert_copy (e : EloRating F) (d : DWZRating F) (f : FifaRating F)
    (g : GlickoRating F) (g2 : Glicko2Rating F) (b : GlickoBoostRating F) (s : StickoRating F)
    (w : WengLinRating F) (t : TrueSkillRating F) :
    EloRating.ofDwz (DWZRating.ofElo e) = e ∧ (DWZRating.ofElo (EloRating.ofDwz d)).rating = d.rating ∧
    EloRating.ofFifa (FifaRating.ofElo e) = e ∧ FifaRating.ofElo (EloRating.ofFifa f) = f ∧
    GlickoRating.ofGlickoBoost (GlickoBoostRating.ofGlicko g) = g ∧
    GlickoRating.ofSticko (StickoRating.ofGlicko g) = g ∧
    GlickoBoostRating.ofGlicko (GlickoRating.ofGlickoBoost b) = b ∧
    GlickoBoostRating.ofSticko (StickoRating.ofGlickoBoost b) = b ∧
    StickoRating.ofGlicko (GlickoRating.ofSticko s) = s ∧
    StickoRating.ofGlickoBoost (GlickoBoostRating.ofSticko s) = s ∧
    GlickoRating.ofGlicko2 (Glicko2Rating.ofGlicko g) = g ∧
    GlickoBoostRating.ofGlicko2 (Glicko2Rating.ofGlickoBoost b) = b ∧
    StickoRating.ofGlicko2 (Glicko2Rating.ofSticko s) = s ∧
    (∀ h : Glicko2Rating F, h ∈ [Glicko2Rating.ofGlicko (GlickoRating.ofGlicko2 g2),
        Glicko2Rating.ofGlickoBoost (GlickoBoostRating.ofGlicko2 g2),
        Glicko2Rating.ofSticko (StickoRating.ofGlicko2 g2)] →
      h.rating = g2.rating ∧ h.deviation = g2.deviation ∧
        h.volatility = (Glicko2Rating.new : Glicko2Rating F).volatility) ∧
    WengLinRating.ofTrueSkill (TrueSkillRating.ofWengLin w) = w ∧
    TrueSkillRating.ofWengLin (WengLinRating.ofTrueSkill t) = t := by
  refine ⟨rfl, rfl, rfl, rfl, rfl, rfl, rfl, rfl, rfl, rfl, rfl, rfl, rfl, ?_, rfl, rfl⟩
  intro h hh
  simp only [List.mem_cons, List.not_mem_nil, or_false] at hh
  rcases hh with rfl | rfl | rfl <;> exact ⟨rfl, rfl, rfl⟩

open Elo Ingo in
theorem C77_ingo_roundtrip (e : EloRating ℝ) (i : IngoRating ℝ) :
    EloRating.ofIngo (IngoRating.ofElo e) = e ∧
      (IngoRating.ofElo (EloRating.ofIngo i)).rating = i.rating := by
  constructor
  · obtain ⟨r⟩ := e
    simp only [EloRating.ofIngo, IngoRating.ofElo, flt, EloRating.mk.injEq]; ring
  · simp only [EloRating.ofIngo, IngoRating.ofElo, flt]; ring

open Elo Ingo in
/-- A better Elo rating is a smaller Ingo number. -/
theorem C77_ingo_antitone (e e' : EloRating ℝ) :
    e.rating < e'.rating ↔ (IngoRating.ofElo e').rating < (IngoRating.ofElo e).rating := by
  simp only [IngoRating.ofElo, flt]
  constructor <;> intro h <;> linarith

open Elo Uscf in
theorem uscf_ofElo_real (e : EloRating ℝ) : (USCFRating.ofElo e).rating =
    if 2000 < e.rating then 0.94 * e.rating + 180 else 1.02 * e.rating + 20 := by
  by_cases h : 2000 < e.rating
  · have h' : ((2000.0 : ℝ) <? e.rating) = true := by rw [Flt.lt_real, Flt.lit_2000]; exact h
    rw [USCFRating.ofElo, if_pos h', if_pos h]
    simp only [flt]
  · have h' : ¬ ((2000.0 : ℝ) <? e.rating) = true := by rw [Flt.lt_real, Flt.lit_2000]; exact h
    rw [USCFRating.ofElo, if_neg h', if_neg h]
    simp only [flt]

open Elo Uscf in
theorem elo_ofUscf_real (u : USCFRating ℝ) : (EloRating.ofUscf u).rating =
    if 2060 < u.rating then (u.rating - 180) / 0.94 else (u.rating - 20) / 1.02 := by
  by_cases h : 2060 < u.rating
  · have h' : ((2060.0 : ℝ) <? u.rating) = true := by rw [Flt.lt_real, Flt.lit_2060]; exact h
    rw [EloRating.ofUscf, if_pos h', if_pos h]
    simp only [flt]
  · have h' : ¬ ((2060.0 : ℝ) <? u.rating) = true := by rw [Flt.lt_real, Flt.lit_2060]; exact h
    rw [EloRating.ofUscf, if_neg h', if_neg h]
    simp only [flt]

open Elo Uscf in
theorem C77_uscf_roundtrip (e : EloRating ℝ) (u : USCFRating ℝ) :
    EloRating.ofUscf (USCFRating.ofElo e) = e ∧
      (USCFRating.ofElo (EloRating.ofUscf u)).rating = u.rating := by
  constructor
  · have h : (EloRating.ofUscf (USCFRating.ofElo e)).rating = e.rating := by
      rw [elo_ofUscf_real, uscf_ofElo_real]
      by_cases h : 2000 < e.rating
      · rw [if_pos h, if_pos (by norm_num; linarith)]; norm_num
      · rw [if_neg h, if_neg (by norm_num; linarith)]; norm_num
    cases e; exact congrArg EloRating.mk h
  · rw [uscf_ofElo_real, elo_ofUscf_real]
    by_cases h : 2060 < u.rating
    · rw [if_pos h, if_pos (by rw [lt_div_iff₀ (by norm_num)]; norm_num; linarith)]
      norm_num; ring
    · rw [if_neg h, if_neg (by rw [not_lt, div_le_iff₀ (by norm_num)]; norm_num; linarith)]
      norm_num; ring

open Elo Uscf in
/-- The conversion to USCF is strictly increasing, and continuous at its breakpoint. -/
theorem C77_uscf_strictMono (e e' : EloRating ℝ) (h : e.rating < e'.rating) :
    (USCFRating.ofElo e).rating < (USCFRating.ofElo e').rating := by
  rw [uscf_ofElo_real, uscf_ofElo_real]
  split_ifs with h1 h2 h2 <;> norm_num <;> linarith

open Elo Uscf in
/-- Experience that comes with a converted rating: 10 games above 2000, else 5. -/
theorem C77_uscf_games (e : EloRating ℝ) :
    (USCFRating.ofElo e).games = if 2000 < e.rating then 10 else 5 := by
  by_cases h : 2000 < e.rating
  · have h' : ((2000.0 : ℝ) <? e.rating) = true := by rw [Flt.lt_real, Flt.lit_2000]; exact h
    rw [USCFRating.ofElo, if_pos h', if_pos h]
  · have h' : ¬ ((2000.0 : ℝ) <? e.rating) = true := by rw [Flt.lt_real, Flt.lit_2000]; exact h
    rw [USCFRating.ofElo, if_neg h', if_neg h]

open Elo Dwz Ingo in
/-- What converted players get besides the rating: a DWZ index of 6 and the adult age. -/
theorem C77_convert_defaults (e : EloRating F) :
    (DWZRating.ofElo e).index = 6 ∧ (DWZRating.ofElo e).age = 26 ∧ (IngoRating.ofElo e).age = 26 :=
  ⟨rfl, rfl, rfl⟩

/-! ### C78: outcomes and ranks -/

open Spec in
theorem C78_outcome_points (o : Outcomes) :
    (o.toChessPoints : ℝ) = points o ∧
    (o.toChessPoints : ℝ) + (mirror o).toChessPoints = 1 ∧
    ((o.toChessPoints : ℝ) = 0 ∨ (o.toChessPoints : ℝ) = 1 / 2 ∨ (o.toChessPoints : ℝ) = 1) := by
  cases o <;> norm_num [Outcomes.toChessPoints, points, mirror]

/-- A better outcome for one side is worth more points. -/
theorem C78_outcome_order :
    (Outcomes.LOSS.toChessPoints : ℝ) < Outcomes.DRAW.toChessPoints ∧
      (Outcomes.DRAW.toChessPoints : ℝ) < Outcomes.WIN.toChessPoints := by
  norm_num [Outcomes.toChessPoints]

theorem C78_rank_roundtrip (n : Nat) (r : MultiTeamOutcome) :
    (MultiTeamOutcome.new n).rank = n ∧ (MultiTeamOutcome.ofUsize n).toUsize = n ∧
      MultiTeamOutcome.new r.rank = r ∧ MultiTeamOutcome.ofUsize r.toUsize = r :=
  ⟨rfl, rfl, rfl, rfl⟩

theorem C78_rank_order (a b : MultiTeamOutcome) :
    (a.cmp b = .lt ↔ a.rank < b.rank) ∧ (a.cmp b = .eq ↔ a = b) ∧
      (a.cmp b = .gt ↔ b.rank < a.rank) ∧ a.cmp b = (b.cmp a).swap := by
  obtain ⟨a⟩ := a
  obtain ⟨b⟩ := b
  simp only [MultiTeamOutcome.cmp, MultiTeamOutcome.rank, MultiTeamOutcome.mk.injEq]
  refine ⟨Nat.compare_eq_lt, Nat.compare_eq_eq, Nat.compare_eq_gt, (Nat.compare_swap b a).symm⟩

theorem C78_rank_trans (a b c : MultiTeamOutcome) (h1 : a.cmp b ≠ .gt) (h2 : b.cmp c ≠ .gt) :
    a.cmp c ≠ .gt := by
  have h := fun x y => (C78_rank_order x y).2.2.1
  rw [ne_eq, h] at *
  omega

example : (MultiTeamOutcome.new 1).cmp (.new 3) ≠ .gt ∧ (MultiTeamOutcome.new 3).cmp (.new 3) ≠ .gt :=
  ⟨by decide, by decide⟩

/-! ### C91: constructors, defaults and accessors -/

theorem C91_elo_rating_new (x : F) (r u : Option F) :
    Rating.rating (Rating.new (some x) u : Elo.EloRating F) = x ∧
    Rating.uncertainty (Rating.new r u : Elo.EloRating F) = none ∧
    (Rating.new none u : Elo.EloRating F) = Elo.EloRating.new ∧
    Rating.rating (Elo.EloRating.new : Elo.EloRating F) = (1000.0 : F) :=
  ⟨rfl, rfl, rfl, rfl⟩

theorem C91_egf_rating_new (x : F) (r u : Option F) :
    Rating.rating (Rating.new (some x) u : Egf.EGFRating F) = x ∧
    Rating.uncertainty (Rating.new r u : Egf.EGFRating F) = none ∧
    (Rating.new none u : Egf.EGFRating F) = Egf.EGFRating.new ∧
    Rating.rating (Egf.EGFRating.new : Egf.EGFRating F) = (0.0 : F) :=
  ⟨rfl, rfl, rfl, rfl⟩

theorem C91_fifa_rating_new (x : F) (r u : Option F) :
    Rating.rating (Rating.new (some x) u : Fifa.FifaRating F) = x ∧
    Rating.uncertainty (Rating.new r u : Fifa.FifaRating F) = none ∧
    (Rating.new none u : Fifa.FifaRating F) = Fifa.FifaRating.new ∧
    Rating.rating (Fifa.FifaRating.new : Fifa.FifaRating F) = (1000.0 : F) :=
  ⟨rfl, rfl, rfl, rfl⟩

theorem C91_dwz_rating_new (x : F) (r u : Option F) :
    Rating.rating (Rating.new (some x) u : Dwz.DWZRating F) = x ∧
    Rating.uncertainty (Rating.new r u : Dwz.DWZRating F) = none ∧
    (Rating.new none u : Dwz.DWZRating F) = Dwz.DWZRating.default ∧
    Rating.rating (Dwz.DWZRating.default : Dwz.DWZRating F) = (1000.0 : F) :=
  ⟨rfl, rfl, rfl, rfl⟩

theorem C91_ingo_rating_new (x : F) (r u : Option F) :
    Rating.rating (Rating.new (some x) u : Ingo.IngoRating F) = x ∧
    Rating.uncertainty (Rating.new r u : Ingo.IngoRating F) = none ∧
    (Rating.new none u : Ingo.IngoRating F) = Ingo.IngoRating.default ∧
    Rating.rating (Ingo.IngoRating.default : Ingo.IngoRating F) = (230.0 : F) :=
  ⟨rfl, rfl, rfl, rfl⟩

theorem C91_uscf_rating_new (x : F) (r u : Option F) :
    Rating.rating (Rating.new (some x) u : Uscf.USCFRating F) = x ∧
    Rating.uncertainty (Rating.new r u : Uscf.USCFRating F) = none ∧
    (Rating.new none u : Uscf.USCFRating F) = Uscf.USCFRating.default ∧
    Rating.rating (Uscf.USCFRating.default : Uscf.USCFRating F) = (1300.0 : F) :=
  ⟨rfl, rfl, rfl, rfl⟩

theorem C91_glicko_rating_new (x y : F) (r u : Option F) :
    Rating.rating (Rating.new (some x) u : Glicko.GlickoRating F) = x ∧
    Rating.uncertainty (Rating.new r (some y) : Glicko.GlickoRating F) = some y ∧
    (Rating.new none none : Glicko.GlickoRating F) = Glicko.GlickoRating.new ∧
    Rating.rating (Rating.new none u : Glicko.GlickoRating F) = (1500.0 : F) ∧
    Rating.uncertainty (Rating.new r none : Glicko.GlickoRating F) = some (350.0 : F) :=
  ⟨rfl, rfl, rfl, rfl, rfl⟩

theorem C91_glicko2_rating_new (x y : F) (r u : Option F) :
    Rating.rating (Rating.new (some x) u : Glicko2.Glicko2Rating F) = x ∧
    Rating.uncertainty (Rating.new r (some y) : Glicko2.Glicko2Rating F) = some y ∧
    (Rating.new none none : Glicko2.Glicko2Rating F) = Glicko2.Glicko2Rating.new ∧
    Rating.rating (Rating.new none u : Glicko2.Glicko2Rating F) = (1500.0 : F) ∧
    Rating.uncertainty (Rating.new r none : Glicko2.Glicko2Rating F) = some (350.0 : F) :=
  ⟨rfl, rfl, rfl, rfl, rfl⟩

theorem C91_glickoBoost_rating_new (x y : F) (r u : Option F) :
    Rating.rating (Rating.new (some x) u : GlickoBoost.GlickoBoostRating F) = x ∧
    Rating.uncertainty (Rating.new r (some y) : GlickoBoost.GlickoBoostRating F) = some y ∧
    (Rating.new none none : GlickoBoost.GlickoBoostRating F) = GlickoBoost.GlickoBoostRating.new ∧
    Rating.rating (Rating.new none u : GlickoBoost.GlickoBoostRating F) = (1500.0 : F) ∧
    Rating.uncertainty (Rating.new r none : GlickoBoost.GlickoBoostRating F) = some (350.0 : F) :=
  ⟨rfl, rfl, rfl, rfl, rfl⟩

theorem C91_sticko_rating_new (x y : F) (r u : Option F) :
    Rating.rating (Rating.new (some x) u : Sticko.StickoRating F) = x ∧
    Rating.uncertainty (Rating.new r (some y) : Sticko.StickoRating F) = some y ∧
    (Rating.new none none : Sticko.StickoRating F) = Sticko.StickoRating.new ∧
    Rating.rating (Rating.new none u : Sticko.StickoRating F) = (1500.0 : F) ∧
    Rating.uncertainty (Rating.new r none : Sticko.StickoRating F) = some (350.0 : F) :=
  ⟨rfl, rfl, rfl, rfl, rfl⟩

theorem C91_wengLin_rating_new (x y : F) (r u : Option F) :
    Rating.rating (Rating.new (some x) u : WengLin.WengLinRating F) = x ∧
    Rating.uncertainty (Rating.new r (some y) : WengLin.WengLinRating F) = some y ∧
    (Rating.new none none : WengLin.WengLinRating F) = WengLin.WengLinRating.new ∧
    Rating.rating (Rating.new none u : WengLin.WengLinRating F) = (25.0 : F) ∧
    Rating.uncertainty (Rating.new r none : WengLin.WengLinRating F) = some (25.0 / 3.0 : F) :=
  ⟨rfl, rfl, rfl, rfl, rfl⟩

theorem C91_trueSkill_rating_new (x y : F) (r u : Option F) :
    Rating.rating (Rating.new (some x) u : TrueSkill.TrueSkillRating F) = x ∧
    Rating.uncertainty (Rating.new r (some y) : TrueSkill.TrueSkillRating F) = some y ∧
    (Rating.new none none : TrueSkill.TrueSkillRating F) = TrueSkill.TrueSkillRating.new ∧
    Rating.rating (Rating.new none u : TrueSkill.TrueSkillRating F) = (25.0 : F) ∧
    Rating.uncertainty (Rating.new r none : TrueSkill.TrueSkillRating F) = some (25.0 / 3.0 : F) :=
  ⟨rfl, rfl, rfl, rfl, rfl⟩

/-- The documented default configurations. -/
theorem C91_config_defaults :
    (Elo.EloConfig.new : Elo.EloConfig F).k = 32.0 ∧
    (Egf.EGFConfig.new : Egf.EGFConfig F).handicap = 0.0 ∧
    (Fifa.FifaConfig.new : Fifa.FifaConfig F) = ⟨10.0, false, false⟩ ∧
    (Uscf.USCFConfig.new : Uscf.USCFConfig F).t = 14.0 ∧
    (Glicko.GlickoConfig.new : Glicko.GlickoConfig F).c = 63.2 ∧
    (Glicko2.Glicko2Config.new : Glicko2.Glicko2Config F) = ⟨0.5, 0.000001⟩ ∧
    (Glicko2.Glicko2Rating.new : Glicko2.Glicko2Rating F).volatility = 0.06 ∧
    (GlickoBoost.GlickoBoostConfig.new : GlickoBoost.GlickoBoostConfig F) =
      ⟨30.0, 1.96, (0.20139, 17.5),
        ⟨5.83733, -1.75374e-04, -7.080124e-05, 0.001733792, 0.00026706⟩⟩ ∧
    (Sticko.StickoConfig.new : Sticko.StickoConfig F) = ⟨10.0, 0.0, 2.0, 0.0, 10.0⟩ ∧
    (WengLin.WengLinConfig.new : WengLin.WengLinConfig F) = ⟨25.0 / 6.0, 0.000001⟩ ∧
    (TrueSkill.TrueSkillConfig.new : TrueSkill.TrueSkillConfig F)
      = ⟨0.1, 25.0 / 3.0 * 0.5, 25.0 / 300.0⟩ :=
  ⟨rfl, rfl, rfl, rfl, rfl, rfl, rfl, rfl, rfl, rfl, rfl⟩

/-- The tuple conversions put every component in its place. -/
theorem C91_tuples (x y z : F) (m n : Nat) :
    (Elo.EloRating.ofF64 x).rating = x ∧ (Egf.EGFRating.ofF64 x).rating = x ∧
    (Fifa.FifaRating.ofF64 x).rating = x ∧
    (Ingo.IngoRating.ofPair (x, n) = ⟨x, n⟩) ∧ (Ingo.IngoRating.ofF64 x = ⟨x, 26⟩) ∧
    (Dwz.DWZRating.ofTriple (x, m, n) = ⟨x, m, n⟩) ∧ (Dwz.DWZRating.ofPair (x, m) = ⟨x, m, 26⟩) ∧
    (Uscf.USCFRating.ofPair (x, n) = ⟨x, n⟩) ∧
    (Glicko.GlickoRating.ofPair (x, y) = ⟨x, y⟩) ∧
    (Glicko2.Glicko2Rating.ofTriple (x, y, z) = ⟨x, y, z⟩) ∧
    (GlickoBoost.GlickoBoostRating.ofPair (x, y) = ⟨x, y⟩) ∧
    (Sticko.StickoRating.ofPair (x, y) = ⟨x, y⟩) ∧
    (WengLin.WengLinRating.ofPair (x, y) = ⟨x, y⟩) ∧
    (TrueSkill.TrueSkillRating.ofPair (x, y) = ⟨x, y⟩) :=
  ⟨rfl, rfl, rfl, rfl, rfl, rfl, rfl, rfl, rfl, rfl, rfl, rfl, rfl, rfl⟩

/-- A new USCF player starts at 100 below the age of two, at 1300 from 26 on and at 50 points
per year of age in between; never below 100 or above 1300; an older player never starts
lower. -/
theorem C91_uscf_new (age : Nat) :
    (Uscf.USCFRating.new age : Uscf.USCFRating ℝ).games = 0 ∧
    (Uscf.USCFRating.new age : Uscf.USCFRating ℝ).rating =
      min 1300 (max 100 (50 * (age : ℝ))) := by
  refine ⟨rfl, ?_⟩
  simp only [Uscf.USCFRating.new, flt]
  split_ifs with h1 h2
  · have : (age : ℝ) ≤ 1 := by exact_mod_cast Nat.lt_succ_iff.1 h1
    rw [max_eq_left (by linarith), min_eq_right (by norm_num)]
  · have : (26 : ℝ) ≤ age := by exact_mod_cast h2
    rw [max_eq_right (by linarith), min_eq_left (by linarith)]
  · have a1 : (2 : ℝ) ≤ age := by exact_mod_cast Nat.not_lt.1 h1
    have a2 : (age : ℝ) ≤ 25 := by exact_mod_cast (by omega : age ≤ 25)
    rw [max_eq_right (by linarith), min_eq_right (by linarith)]; ring

/-- New Ingo and DWZ players. -/
theorem C91_age_new (age : Nat) :
    (Ingo.IngoRating.new age : Ingo.IngoRating F) = ⟨230.0, age⟩ ∧
    (Dwz.DWZRating.new age : Dwz.DWZRating F) = ⟨1000.0, 1, age⟩ :=
  ⟨rfl, rfl⟩

end Skillratings
