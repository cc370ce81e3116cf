import Verif.Props.WhomYouBeat
import Verif.Proofs.Glicko2
import Verif.Proofs.GlickoBoost
import Verif.Proofs.Sticko
/-
C159 for Glicko-2, Sticko and Glicko-Boost: against opponents of the same deviation only the opponents
(and who moved first) and the total score count.
-/
namespace Skillratings
open Spec Real

theorem SameTotal.weighted {X : Type} {rs rs' : List (X × Outcomes)} (h : SameTotal rs rs')
    (g e : X → ℝ) (k : ℝ) (hg : ∀ r ∈ rs, g r.1 = k) :
    (rs.map fun r => g r.1 * (Spec.points r.2 - e r.1)).sum =
      (rs'.map fun r => g r.1 * (Spec.points r.2 - e r.1)).sum := by
  have hg' : ∀ r ∈ rs', g r.1 = k := by
    intro r hr
    have : r.1 ∈ rs'.map Prod.fst := List.mem_map.2 ⟨r, hr, rfl⟩
    rw [← h.1] at this
    obtain ⟨q, hq, e⟩ := List.mem_map.1 this
    rw [← e]; exact hg q hq
  have key : ∀ ss : List (X × Outcomes), (∀ r ∈ ss, g r.1 = k) →
      (ss.map fun r => g r.1 * (Spec.points r.2 - e r.1)).sum =
        k * score ss - (ss.map fun r => g r.1 * e r.1).sum := by
    intro ss hss
    induction ss with
    | nil => simp [score]
    | cons r ss ih =>
      have i := ih fun q hq => hss q (List.mem_cons_of_mem _ hq)
      simp only [score] at i
      simp only [List.map_cons, List.sum_cons, score, i, hss r List.mem_cons_self]
      ring
  rw [key rs hg, key rs' hg', h.2, h.map fun x => g x * e x]

theorem SameTotal.isEmpty {X : Type} {rs rs' : List (X × Outcomes)} (h : SameTotal rs rs') :
    rs.isEmpty = rs'.isEmpty := by
  have := h.length
  cases rs <;> cases rs' <;> simp_all

/-- Glicko-2: rating, deviation and volatility are the same, and one call returns if the other does. -/
theorem C159_glicko2_total (p : Glicko2.Glicko2Rating ℝ)
    (rs rs' : List (Glicko2.Glicko2Rating ℝ × Outcomes)) (c : Glicko2.Glicko2Config ℝ)
    (h : SameTotal rs rs') (d : ℝ) (hd : ∀ r ∈ rs, r.1.deviation = d) :
    Glicko2.glicko2RatingPeriod p rs c = Glicko2.glicko2RatingPeriod p rs' c := by
  have e1 := h.map fun r => glicko2G (glicko2Phi r.deviation) ^ 2
      * glicko2E (glicko2Mu p.rating) (glicko2Mu r.rating) (glicko2Phi r.deviation)
      * (1 - glicko2E (glicko2Mu p.rating) (glicko2Mu r.rating) (glicko2Phi r.deviation))
  have e2 := h.weighted (fun r => glicko2G (glicko2Phi r.deviation))
    (fun r => glicko2E (glicko2Mu p.rating) (glicko2Mu r.rating) (glicko2Phi r.deviation))
    (glicko2G (glicko2Phi d)) (fun r hr => by simp only [hd r hr])
  simp only [Glicko2.glicko2RatingPeriod, h.isEmpty, Glicko2.mu_real, Glicko2.phi_real,
    Glicko2.gValue_real, Glicko2.eValue_real, toChessPoints_real, Flt.sum_real, Flt.powi_two,
    Flt.lit_1, e1, e2]

/-- The results of a period with the move order: the opponent and who moved first, and the outcome. -/
def byOpponent {R : Type} (rs : List (R × Outcomes × Bool)) : List ((R × Bool) × Outcomes) :=
  rs.map fun r => ((r.1, r.2.2), r.2.1)

/-- A function of the games of a list is a function of its reordered version. -/
theorem byOpponent_map {R A : Type} (rs : List (R × Outcomes × Bool)) (f : (R × Bool) × Outcomes → A) :
    (byOpponent rs).map f = rs.map fun r => f ((r.1, r.2.2), r.2.1) := by
  rw [byOpponent, List.map_map]; rfl

theorem byOpponent_isEmpty {R : Type} (rs : List (R × Outcomes × Bool)) :
    (byOpponent rs).isEmpty = rs.isEmpty := by cases rs <;> rfl

theorem byOpponent_length {R : Type} (rs : List (R × Outcomes × Bool)) :
    (byOpponent rs).length = rs.length := by simp [byOpponent]

/-- Sticko: the same opponents with the same move order and the same total. -/
theorem C159_sticko_total (p : Sticko.StickoRating ℝ)
    (rs rs' : List (Sticko.StickoRating ℝ × Outcomes × Bool)) (c : Sticko.StickoConfig ℝ)
    (h : SameTotal (byOpponent rs) (byOpponent rs')) (d : ℝ) (hd : ∀ r ∈ rs, r.1.deviation = d) :
    Sticko.stickoRatingPeriod p rs c = Sticko.stickoRatingPeriod p rs' c := by
  have hi := h.isEmpty
  rw [byOpponent_isEmpty, byOpponent_isEmpty] at hi
  rcases eq_or_ne rs [] with he | he
  · subst he
    have : rs' = [] := List.isEmpty_iff.1 hi.symm
    rw [this]
  have he' : rs' ≠ [] := fun h0 => he (List.isEmpty_iff.1 (hi.trans (by rw [h0]; rfl)))
  have e1 := h.map fun x => stickoInfo (Sticko.params c) p.rating ⟨x.1.rating, x.1.deviation, 0, x.2⟩
  have e2 := h.weighted (fun x => glickoG x.1.deviation)
    (fun x => stickoE (Sticko.params c) p.rating ⟨x.1.rating, x.1.deviation, 0, x.2⟩ - c.beta)
    (glickoG d) (by
      intro r hr
      obtain ⟨q, hq, rfl⟩ := List.mem_map.1 hr
      simp only [hd q hq])
  have e3 := h.map fun x => x.1.rating
  have e4 := h.length
  rw [byOpponent_length, byOpponent_length] at e4
  rw [byOpponent_map, byOpponent_map] at e1 e2 e3
  have k1 : ∀ ss : List (Sticko.StickoRating ℝ × Outcomes × Bool),
      (ss.map Sticko.game).map (stickoInfo (Sticko.params c) p.rating) =
        ss.map fun r => stickoInfo (Sticko.params c) p.rating ⟨r.1.rating, r.1.deviation, 0, r.2.2⟩ :=
    fun ss => by rw [List.map_map]; rfl
  have k2 : ∀ ss : List (Sticko.StickoRating ℝ × Outcomes × Bool),
      ((ss.map Sticko.game).map fun x => glickoG x.deviation
        * (x.points - stickoE (Sticko.params c) p.rating x + c.beta)) =
        ss.map fun r => glickoG r.1.deviation * (points r.2.1 -
          (stickoE (Sticko.params c) p.rating ⟨r.1.rating, r.1.deviation, 0, r.2.2⟩ - c.beta)) := by
    intro ss
    rw [List.map_map]
    refine List.map_congr_left fun r _ => ?_
    show glickoG r.1.deviation * (points r.2.1 -
      stickoE (Sticko.params c) p.rating ⟨r.1.rating, r.1.deviation, 0, r.2.2⟩ + c.beta) = _
    ring
  have k3 : ∀ ss : List (Sticko.StickoRating ℝ × Outcomes × Bool),
      (ss.map Sticko.game).map StickoGame.rating = ss.map fun r => r.1.rating :=
    fun ss => by rw [List.map_map]; rfl
  have kb : (Sticko.params c).beta = c.beta := rfl
  simp only [Sticko.period_real p _ c he, Sticko.period_real p _ c he', stickoUpdate, kb, k1, k2, k3,
    List.length_map, e1, e2, e3, e4]

/-- Glicko-Boost: the same opponents with the same move order and the same total. -/
theorem C159_glickoBoost_total (p : GlickoBoost.GlickoBoostRating ℝ)
    (rs rs' : List (GlickoBoost.GlickoBoostRating ℝ × Outcomes × Bool))
    (c : GlickoBoost.GlickoBoostConfig ℝ) (h : SameTotal (byOpponent rs) (byOpponent rs')) (d : ℝ)
    (hd : ∀ r ∈ rs, r.1.deviation = d) :
    GlickoBoost.glickoBoostRatingPeriod p rs c = GlickoBoost.glickoBoostRatingPeriod p rs' c := by
  have hi := h.isEmpty
  rw [byOpponent_isEmpty, byOpponent_isEmpty] at hi
  have e1 := h.map fun x => glickoG x.1.deviation ^ 2
      * glickoE (p.rating + c.eta * colour x.2) x.1.rating x.1.deviation
      * (1 - glickoE (p.rating + c.eta * colour x.2) x.1.rating x.1.deviation)
  have e2 := h.weighted (fun x => glickoG x.1.deviation)
    (fun x => glickoE (p.rating + c.eta * colour x.2) x.1.rating x.1.deviation)
    (glickoG d) (by
      intro r hr
      obtain ⟨q, hq, rfl⟩ := List.mem_map.1 hr
      simp only [hd q hq])
  rw [byOpponent_map, byOpponent_map] at e1 e2
  simp only at e1 e2
  simp only [GlickoBoost.glickoBoostRatingPeriod, hi, GlickoBoost.q_real, GlickoBoost.gValue_real,
    GlickoBoost.eValue_real, toChessPoints_real, Flt.sum_real, GlickoBoost.colour_real]
  simp only [Flt.powi_two, Flt.lit_1, e1, e2]

/-! ### Cases -/

/-- Beating the stronger or the weaker of two newcomers. -/
example (p : Glicko2.Glicko2Rating ℝ) (c : Glicko2.Glicko2Config ℝ) :
    Glicko2.glicko2RatingPeriod p [(⟨1900, 350, 0.06⟩, .WIN), (⟨1200, 350, 0.05⟩, .LOSS)] c =
      Glicko2.glicko2RatingPeriod p [(⟨1900, 350, 0.06⟩, .LOSS), (⟨1200, 350, 0.05⟩, .WIN)] c :=
  C159_glicko2_total p _ _ c ⟨rfl, by simp [score, points]⟩ 350 (by simp)

/-- A win with the first move and a loss without it, or two draws. -/
example (p : Sticko.StickoRating ℝ) (c : Sticko.StickoConfig ℝ) :
    Sticko.stickoRatingPeriod p [(⟨1900, 350⟩, .WIN, true), (⟨1200, 350⟩, .LOSS, false)] c =
      Sticko.stickoRatingPeriod p [(⟨1900, 350⟩, .DRAW, true), (⟨1200, 350⟩, .DRAW, false)] c :=
  C159_sticko_total p _ _ c ⟨rfl, by norm_num [byOpponent, score, points]⟩ 350 (by simp)

example (p : GlickoBoost.GlickoBoostRating ℝ) (c : GlickoBoost.GlickoBoostConfig ℝ) :
    GlickoBoost.glickoBoostRatingPeriod p [(⟨1900, 350⟩, .WIN, true), (⟨1200, 350⟩, .LOSS, false)] c =
      GlickoBoost.glickoBoostRatingPeriod p [(⟨1900, 350⟩, .LOSS, true), (⟨1200, 350⟩, .WIN, false)] c :=
  C159_glickoBoost_total p _ _ c ⟨rfl, by norm_num [byOpponent, score, points]⟩ 350 (by simp)

end Skillratings
