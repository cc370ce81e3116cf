import Verif.Proofs.Dwz
import Verif.Props.Uscf
import Verif.Props.Ingo
import Verif.Props.Egf
import Verif.Props.Glicko
/-
C159: it does not matter whom you beat.  In a rating period only the opponents and the total score
count, not which opponent was beaten, except with Glicko.
-/
namespace Skillratings
open Spec Real

/-- The same opponents and the same total, the single results may differ. -/
def SameTotal {R : Type} (rs rs' : List (R × Outcomes)) : Prop :=
  rs.map Prod.fst = rs'.map Prod.fst ∧ score rs = score rs'

theorem SameTotal.map {R A : Type} {rs rs' : List (R × Outcomes)} (h : SameTotal rs rs')
    (f : R → A) : (rs.map fun r => f r.1) = rs'.map fun r => f r.1 := by
  have := congrArg (List.map f) h.1
  simpa [List.map_map, Function.comp_def] using this

theorem SameTotal.length {R : Type} {rs rs' : List (R × Outcomes)} (h : SameTotal rs rs') :
    rs.length = rs'.length := by
  simpa using congrArg List.length h.1

theorem SameTotal.points {R : Type} {rs rs' : List (R × Outcomes)} (h : SameTotal rs rs') :
    (rs.map fun r => Spec.points r.2).sum = (rs'.map fun r => Spec.points r.2).sum := h.2

theorem C159_dwz_total (p : Dwz.DWZRating ℝ) (rs rs' : List (Dwz.DWZRating ℝ × Outcomes))
    (h : SameTotal rs rs') : Dwz.dwzRatingPeriod p rs = Dwz.dwzRatingPeriod p rs' := by
  simp only [Dwz.dwzRatingPeriod, toChessPoints_real, Flt.sum_real, h.points, h.length,
    h.map fun r => (Dwz.expectedScore p r).1]

theorem C159_first_dwz_total (age : ℕ) (rs rs' : List (Dwz.DWZRating ℝ × Outcomes))
    (h : SameTotal rs rs') : Dwz.getFirstDwz age rs = Dwz.getFirstDwz age rs' := by
  simp only [Dwz.getFirstDwz, toChessPoints_real, Flt.sum_real, h.points, h.length,
    h.map fun r => r.rating]

theorem C159_ingo_total (p : Ingo.IngoRating ℝ) (rs rs' : List (Ingo.IngoRating ℝ × Outcomes))
    (h : SameTotal rs rs') : Ingo.ingoRatingPeriod p rs = Ingo.ingoRatingPeriod p rs' := by
  simp only [Ingo.ingoRatingPeriod, toChessPoints_real, Flt.sum_real, h.points, h.length,
    h.map fun r => r.rating]

/-- Wins minus losses are twice the points minus the number of games. -/
theorem wins_losses {R : Type} (rs : List (R × Outcomes)) :
    ((((rs.map fun r => Uscf.fromBool (r.2 = .WIN)).sum -
      (rs.map fun r => Uscf.fromBool (r.2 = .LOSS)).sum : ℤ)) : ℝ) = 2 * score rs - rs.length := by
  induction rs with
  | nil => simp [score]
  | cons r rs ih =>
    simp only [List.map_cons, List.sum_cons, score, List.length_cons] at ih ⊢
    generalize (rs.map fun r => Uscf.fromBool (r.2 = .WIN)).sum = w at ih ⊢
    generalize (rs.map fun r => Uscf.fromBool (r.2 = .LOSS)).sum = l at ih ⊢
    generalize (rs.map fun r => points r.2).sum = s at ih ⊢
    push_cast at ih ⊢
    obtain ⟨b, o⟩ := r
    cases o <;> simp [Uscf.fromBool, points] <;> linarith

theorem C159_uscf_total (p : Uscf.USCFRating ℝ) (rs rs' : List (Uscf.USCFRating ℝ × Outcomes))
    (c : Uscf.USCFConfig ℝ) (h : SameTotal rs rs') :
    Uscf.uscfRatingPeriod p rs c = Uscf.uscfRatingPeriod p rs' c := by
  have he : rs.isEmpty = rs'.isEmpty := by
    rw [Bool.eq_iff_iff, List.isEmpty_iff, List.isEmpty_iff, ← List.length_eq_zero_iff,
      ← List.length_eq_zero_iff, h.length]
  have hw : (rs.map fun r => Uscf.fromBool (r.2 = .WIN)).sum -
      (rs.map fun r => Uscf.fromBool (r.2 = .LOSS)).sum =
      (rs'.map fun r => Uscf.fromBool (r.2 = .WIN)).sum -
      (rs'.map fun r => Uscf.fromBool (r.2 = .LOSS)).sum := by
    have h1 := wins_losses rs
    have h2 := wins_losses rs'
    rw [h.2, h.length, ← h2] at h1
    exact_mod_cast h1
  simp only [Uscf.uscfRatingPeriod, he]
  split_ifs with h1 h2
  · rfl
  · simp only [Uscf.newRatingProvisional, hw, h.length, h.map fun r => r.rating]
  · simp only [toChessPoints_real, Flt.sum_real, h.points, h.length,
      h.map fun r => Uscf.eValue p.rating r.rating]

/-- EGF, away from the floor: the same handicaps too. -/
theorem C159_egf_total (p : Egf.EGFRating ℝ)
    (rs rs' : List (Egf.EGFRating ℝ × Outcomes × Egf.EGFConfig ℝ))
    (hopp : (rs.map fun r => (r.1, r.2.2)) = rs'.map fun r => (r.1, r.2.2))
    (hs : (rs.map fun r => points r.2.1).sum = (rs'.map fun r => points r.2.1).sum)
    (hc : p.rating < 3300) (hf : -900 ≤ p.rating - ((3300 - p.rating) / 200) ^ (8 / 5 : ℝ))
    (hb : ∀ r ∈ rs, Egf.BelowCeiling p r.1 r.2.2) :
    Egf.egfRatingPeriod p rs = Egf.egfRatingPeriod p rs' := by
  have hb' : ∀ r ∈ rs', Egf.BelowCeiling p r.1 r.2.2 := by
    intro r hr
    have : (r.1, r.2.2) ∈ rs'.map fun r => (r.1, r.2.2) := List.mem_map.2 ⟨r, hr, rfl⟩
    rw [← hopp] at this
    obtain ⟨q, hq, e⟩ := List.mem_map.1 this
    have := hb q hq
    simp only [Prod.mk.injEq] at e
    rwa [e.1, e.2] at this
  have key : ∀ ss : List (Egf.EGFRating ℝ × Outcomes × Egf.EGFConfig ℝ),
      (∀ r ∈ ss, Egf.BelowCeiling p r.1 r.2.2) →
      (Egf.egfRatingPeriod p ss).rating = p.rating +
        (egfCon p.rating * (ss.map fun r => points r.2.1).sum +
          (ss.map fun r => egfBonus p.rating
            - egfCon p.rating * (Egf.expectedScore p r.1 r.2.2).1).sum) := by
    intro ss hss
    rw [Egf.egfRatingPeriod_real]
    congr 1
    induction ss with
    | nil => simp
    | cons r ss ih =>
      simp only [List.map_cons, List.sum_cons]
      rw [ih fun q hq => hss q (List.mem_cons_of_mem _ hq)]
      have hr := Egf.C18_egf_expected_probability p r.1 r.2.2 (hss r (List.mem_cons_self ..))
      have h1 := mul_nonneg (Egf.egfCon_pos hc).le (points_nonneg r.2.1)
      have h2 : egfCon p.rating * (Egf.expectedScore p r.1 r.2.2).1 ≤ egfCon p.rating * 1 :=
        mul_le_mul_of_nonneg_left hr.fst_lt_one.le (Egf.egfCon_pos hc).le
      have h3 := Egf.egfBonus_pos p.rating
      have h4 : -900 ≤ p.rating - egfCon p.rating := hf
      rw [egfRating, max_eq_left (by linarith)]
      ring
  have e : (rs.map fun r => egfBonus p.rating
        - egfCon p.rating * (Egf.expectedScore p r.1 r.2.2).1) =
      rs'.map fun r => egfBonus p.rating
        - egfCon p.rating * (Egf.expectedScore p r.1 r.2.2).1 := by
    have := congrArg (List.map fun x : Egf.EGFRating ℝ × Egf.EGFConfig ℝ => egfBonus p.rating
      - egfCon p.rating * (Egf.expectedScore p x.1 x.2).1) hopp
    simpa [List.map_map, Function.comp_def] using this
  have hr := key rs hb
  rw [hs, e, ← key rs' hb'] at hr
  have eta : ∀ x y : Egf.EGFRating ℝ, x.rating = y.rating → x = y := by
    rintro ⟨x⟩ ⟨y⟩ h; exact congrArg _ h
  exact eta _ _ hr

/-! ### Glicko -/

namespace Glicko

theorem period_parts (p : GlickoRating ℝ) (rs : List (GlickoRating ℝ × Outcomes))
    (c : GlickoConfig ℝ) (h : rs ≠ []) :
    (glickoRatingPeriod p rs c).rating = p.rating + glickoQ *
        posterior (glickoOnset p.deviation c.c ^ 2)
          (rs.map fun r => glickoInfo p.rating r.1.rating r.1.deviation).sum *
        ((rs.map fun r => glickoG r.1.deviation * points r.2).sum -
          (rs.map fun r => glickoG r.1.deviation * glickoE p.rating r.1.rating r.1.deviation).sum) ∧
      (glickoRatingPeriod p rs c).deviation = √(posterior (glickoOnset p.deviation c.c ^ 2)
          (rs.map fun r => glickoInfo p.rating r.1.rating r.1.deviation).sum) := by
  rw [period_real p rs c h]
  refine ⟨?_, rfl⟩
  simp only
  congr 2
  induction rs with
  | nil => exact absurd rfl h
  | cons r rs ih =>
    rcases eq_or_ne rs [] with rfl | hne
    · simp; ring
    · simp only [List.map_cons, List.sum_cons] at ih ⊢
      rw [ih hne]; ring

/-- Opponents of the same deviation: only the total counts, whatever their ratings. -/
theorem C159_glicko_total (p : GlickoRating ℝ) (rs rs' : List (GlickoRating ℝ × Outcomes))
    (c : GlickoConfig ℝ) (h : SameTotal rs rs') (d : ℝ) (hd : ∀ r ∈ rs, r.1.deviation = d) :
    glickoRatingPeriod p rs c = glickoRatingPeriod p rs' c := by
  rcases eq_or_ne rs [] with rfl | hne
  · have : rs' = [] := List.length_eq_zero_iff.1 (by rw [← h.length]; rfl)
    rw [this]
  have hne' : rs' ≠ [] := by
    intro h0; apply hne
    exact List.length_eq_zero_iff.1 (by rw [h.length, h0]; rfl)
  have hd' : ∀ r ∈ rs', r.1.deviation = d := by
    intro r hr
    have : r.1 ∈ rs'.map Prod.fst := List.mem_map.2 ⟨r, hr, rfl⟩
    rw [← h.1] at this
    obtain ⟨q, hq, e⟩ := List.mem_map.1 this
    rw [← e]; exact hd q hq
  have total : ∀ ss : List (GlickoRating ℝ × Outcomes), (∀ r ∈ ss, r.1.deviation = d) →
      (ss.map fun r => glickoG r.1.deviation * points r.2).sum = glickoG d * score ss := by
    intro ss hss
    rw [score, List_sum_mul_left]
    exact congrArg List.sum (List.map_congr_left fun r hr => by rw [hss r hr])
  obtain ⟨a1, a2⟩ := period_parts p rs c hne
  obtain ⟨b1, b2⟩ := period_parts p rs' c hne'
  have e1 := h.map fun r => glickoInfo p.rating r.rating r.deviation
  have e2 := h.map fun r => glickoG r.deviation * glickoE p.rating r.rating r.deviation
  rw [total rs hd, e1, e2, h.2, ← total rs' hd', ← b1] at a1
  rw [e1, ← b2] at a2
  have eta : ∀ x y : GlickoRating ℝ, x.rating = y.rating → x.deviation = y.deviation → x = y := by
    rintro ⟨x, s⟩ ⟨y, t⟩ h1 h2; simp only at h1 h2; rw [h1, h2]
  exact eta _ _ a1 a2

/-- A win and a loss: it is better to beat the better known of the two opponents, whatever their
ratings. -/
theorem C159_glicko_beat_the_known (p b b' : GlickoRating ℝ)
    (rs : List (GlickoRating ℝ × Outcomes)) (c : GlickoConfig ℝ) (hp : 0 < p.deviation)
    (h : b.deviation ^ 2 < b'.deviation ^ 2) :
    (glickoRatingPeriod p ((b, .LOSS) :: (b', .WIN) :: rs) c).rating <
      (glickoRatingPeriod p ((b, .WIN) :: (b', .LOSS) :: rs) c).rating ∧
    (glickoRatingPeriod p ((b, .LOSS) :: (b', .WIN) :: rs) c).deviation =
      (glickoRatingPeriod p ((b, .WIN) :: (b', .LOSS) :: rs) c).deviation := by
  obtain ⟨a1, a2⟩ := period_parts p ((b, .LOSS) :: (b', .WIN) :: rs) c (by simp)
  obtain ⟨b1, b2⟩ := period_parts p ((b, .WIN) :: (b', .LOSS) :: rs) c (by simp)
  rw [a1, a2, b1, b2]
  simp only [List.map_cons, List.sum_cons, points, and_true]
  have hg := glickoG_lt_of_sq_lt h
  have ho := glickoOnset_pos c.c hp
  have hq := glickoQ_pos
  have hi : 0 ≤ glickoInfo p.rating b.rating b.deviation +
      (glickoInfo p.rating b'.rating b'.deviation +
        (rs.map fun r => glickoInfo p.rating r.1.rating r.1.deviation).sum) := by
    have h1 := glickoInfo_pos p.rating b.rating b.deviation
    have h2 := glickoInfo_pos p.rating b'.rating b'.deviation
    have h3 : 0 ≤ (rs.map fun r => glickoInfo p.rating r.1.rating r.1.deviation).sum :=
      List.sum_nonneg (by
        intro x hx
        obtain ⟨y, _, rfl⟩ := List.mem_map.1 hx
        exact (glickoInfo_pos _ _ _).le)
    linarith
  have hv := posterior_pos (v := glickoOnset p.deviation c.c ^ 2) (by positivity) hi
  have hk := mul_pos hq hv
  apply add_lt_add_right
  apply mul_lt_mul_of_pos_left _ hk
  linarith

end Glicko

/-! ### Cases -/

/-- Beating the stronger or the weaker of two opponents. -/
example (p x y : Dwz.DWZRating ℝ) :
    Dwz.dwzRatingPeriod p [(x, .WIN), (y, .LOSS)] = Dwz.dwzRatingPeriod p [(x, .LOSS), (y, .WIN)] :=
  C159_dwz_total p _ _ ⟨rfl, by simp [score, points]⟩

/-- A win and a loss, or two draws. -/
example (p x y : Uscf.USCFRating ℝ) (c : Uscf.USCFConfig ℝ) :
    Uscf.uscfRatingPeriod p [(x, .WIN), (y, .LOSS)] c =
      Uscf.uscfRatingPeriod p [(x, .DRAW), (y, .DRAW)] c :=
  C159_uscf_total p _ _ c ⟨rfl, by norm_num [score, points]⟩

example (p x y : Ingo.IngoRating ℝ) :
    Ingo.ingoRatingPeriod p [(x, .WIN), (y, .LOSS)] =
      Ingo.ingoRatingPeriod p [(x, .DRAW), (y, .DRAW)] :=
  C159_ingo_total p _ _ ⟨rfl, by norm_num [score, points]⟩

/-- The hypotheses for an EGF player of 2000. -/
example : (2000 : ℝ) < 3300 ∧ -900 ≤ (2000 : ℝ) - ((3300 - 2000) / 200) ^ (8 / 5 : ℝ) := by
  refine ⟨by norm_num, ?_⟩
  have : ((3300 - 2000) / 200 : ℝ) ^ (8 / 5 : ℝ) ≤ ((3300 - 2000) / 200 : ℝ) ^ (2 : ℝ) :=
    Real.rpow_le_rpow_of_exponent_le (by norm_num) (by norm_num)
  rw [Real.rpow_two] at this
  norm_num at this ⊢
  linarith

example (c : Glicko.GlickoConfig ℝ) :
    (Glicko.glickoRatingPeriod ⟨1500, 100⟩ [(⟨1200, 30⟩, .LOSS), (⟨1900, 200⟩, .WIN)] c).rating <
      (Glicko.glickoRatingPeriod ⟨1500, 100⟩ [(⟨1200, 30⟩, .WIN), (⟨1900, 200⟩, .LOSS)] c).rating :=
  (Glicko.C159_glicko_beat_the_known ⟨1500, 100⟩ ⟨1200, 30⟩ ⟨1900, 200⟩ [] c (by norm_num)
    (by norm_num)).1

end Skillratings
