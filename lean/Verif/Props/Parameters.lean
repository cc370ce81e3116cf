import Verif.Proofs.Elo
import Verif.Proofs.Fifa
import Verif.Props.WengLin
import Verif.Props.Uscf
import Verif.Props.ExperienceSticko
/-
C160: what a larger value of a parameter does.

`x ∈ [[r, y]]` says that `x` lies between `r` and `y`: the rating moves in the same direction, and not
further.
-/
namespace Skillratings
open Spec Real

/-! ### Elo and FIFA: the factor of the changes -/

/-- Elo, either seat: a larger factor moves the rating further in the same direction. -/
theorem C160_elo_k (a b : Elo.EloRating ℝ) (o : Outcomes) {k k' : ℝ} (h0 : 0 ≤ k) (h : k ≤ k') :
    (Elo.elo a b o ⟨k⟩).1.rating ∈ Set.uIcc a.rating (Elo.elo a b o ⟨k'⟩).1.rating ∧
    (Elo.elo a b o ⟨k⟩).2.rating ∈ Set.uIcc b.rating (Elo.elo a b o ⟨k'⟩).2.rating := by
  simp only [Elo.elo_real]
  rw [add_comm _ a.rating, add_comm _ a.rating, add_comm _ b.rating, add_comm _ b.rating]
  exact ⟨factor_less h0 h, factor_less h0 h⟩

theorem guarded_less (c : Fifa.FifaConfig ℝ) {r x y : ℝ} (k k' : ℝ) (h : x ∈ Set.uIcc r y) :
    Fifa.guarded { c with importance := k } r x ∈
      Set.uIcc r (Fifa.guarded { c with importance := k' } r y) := by
  unfold Fifa.guarded
  split_ifs
  · rw [Set.mem_uIcc] at h ⊢
    left
    rcases h with h | h
    · exact ⟨le_max_left _ _, max_le_max_left _ h.2⟩
    · exact ⟨le_max_left _ _, by rw [max_eq_left h.2]; exact le_max_left _ _⟩
  · exact h

/-- FIFA, either side, with or without penalties and the knockout rule: a more important match moves the
ratings further in the same direction. -/
theorem C160_fifa_importance (a b : Fifa.FifaRating ℝ) (o : Outcomes) (c : Fifa.FifaConfig ℝ)
    {k k' : ℝ} (h0 : 0 ≤ k) (h : k ≤ k') :
    (Fifa.fifa a b o { c with importance := k }).1.rating ∈
      Set.uIcc a.rating (Fifa.fifa a b o { c with importance := k' }).1.rating ∧
    (Fifa.fifa a b o { c with importance := k }).2.rating ∈
      Set.uIcc b.rating (Fifa.fifa a b o { c with importance := k' }).2.rating := by
  simp only [Fifa.fifa_real]
  constructor
  · refine guarded_less c k k' ?_
    rw [add_comm _ a.rating, add_comm _ a.rating]
    exact factor_less h0 h
  · refine guarded_less c k k' ?_
    rw [add_comm _ b.rating, add_comm _ b.rating]
    exact factor_less h0 h

/-! ### Glicko and Sticko: the growth of the deviation between periods -/

theorem onset_mono_c {c c' : ℝ} (d : ℝ) (h : |c| ≤ |c'|) : glickoOnset d c ≤ glickoOnset d c' :=
  min_le_min_right _ (Real.sqrt_le_sqrt (by have := sq_le_sq.2 h; linarith))

/-- Glicko, a game in either seat: with a larger `c` the rating moves further in the same direction and the
new deviation is at least as large. -/
theorem C160_glicko_game (a b : Glicko.GlickoRating ℝ) (o : Outcomes) {c c' : ℝ} (ha : 0 < a.deviation)
    (hb : 0 < b.deviation) (h : |c| ≤ |c'|) :
    ((Glicko.glicko a b o ⟨c⟩).1.rating ∈ Set.uIcc a.rating (Glicko.glicko a b o ⟨c'⟩).1.rating ∧
      (Glicko.glicko a b o ⟨c⟩).1.deviation ≤ (Glicko.glicko a b o ⟨c'⟩).1.deviation) ∧
    ((Glicko.glicko a b o ⟨c⟩).2.rating ∈ Set.uIcc b.rating (Glicko.glicko a b o ⟨c'⟩).2.rating ∧
      (Glicko.glicko a b o ⟨c⟩).2.deviation ≤ (Glicko.glicko a b o ⟨c'⟩).2.deviation) := by
  have key : ∀ (r d rj dj s : ℝ), 0 < d →
      (Glicko.rated r d rj dj s c).rating ∈ Set.uIcc r (Glicko.rated r d rj dj s c').rating ∧
      (Glicko.rated r d rj dj s c).deviation ≤ (Glicko.rated r d rj dj s c').deviation := by
    intro r d rj dj s hd
    have ho := glickoOnset_pos c hd
    have hv := est_posterior_mono (v := glickoOnset d c ^ 2) (by positivity)
      (pow_le_pow_left₀ ho.le (onset_mono_c d h) 2) (glickoInfo_pos r rj dj).le
    have hq := glickoQ_pos
    exact ⟨factor_less (mul_nonneg hq.le hv.1) (mul_le_mul_of_nonneg_left hv.2 hq.le),
      Real.sqrt_le_sqrt hv.2⟩
  simp only [Glicko.glicko_real]
  exact ⟨key _ _ _ _ _ ha, key _ _ _ _ _ hb⟩

/-- Glicko, a rating period of any length. -/
theorem C160_glicko_period (a : Glicko.GlickoRating ℝ) (rs : List (Glicko.GlickoRating ℝ × Outcomes))
    {c c' : ℝ} (ha : 0 < a.deviation) (h : |c| ≤ |c'|) :
    (Glicko.glickoRatingPeriod a rs ⟨c⟩).rating
      ∈ Set.uIcc a.rating (Glicko.glickoRatingPeriod a rs ⟨c'⟩).rating ∧
    (Glicko.glickoRatingPeriod a rs ⟨c⟩).deviation ≤ (Glicko.glickoRatingPeriod a rs ⟨c'⟩).deviation := by
  have hm := onset_mono_c a.deviation h
  rcases eq_or_ne rs [] with he | he
  · subst he
    simp only [Glicko.glickoRatingPeriod, List.isEmpty_nil, if_true, Glicko.decayDeviation,
      Glicko.onset_real]
    exact ⟨Set.left_mem_uIcc, hm⟩
  · have ho := glickoOnset_pos c ha
    have hi : 0 ≤ (rs.map fun r => glickoInfo a.rating r.1.rating r.1.deviation).sum :=
      List.sum_nonneg (by
        intro x hx
        obtain ⟨y, _, rfl⟩ := List.mem_map.1 hx
        exact (glickoInfo_pos _ _ _).le)
    have hv := est_posterior_mono (v := glickoOnset a.deviation c ^ 2) (by positivity)
      (pow_le_pow_left₀ ho.le hm 2) hi
    have hq := glickoQ_pos
    rw [Glicko.period_real a rs _ he, Glicko.period_real a rs _ he]
    exact ⟨factor_less (mul_nonneg hq.le hv.1) (mul_le_mul_of_nonneg_left hv.2 hq.le),
      Real.sqrt_le_sqrt hv.2⟩

/-- Sticko, a rating period: a larger `h` leaves the rating as it is and never lowers the deviation. -/
theorem C160_sticko_h (p : Sticko.StickoRating ℝ) (rs : List (Sticko.StickoRating ℝ × Outcomes × Bool))
    (c : Sticko.StickoConfig ℝ) {x y : ℝ} (hp : 0 < p.deviation) (h0 : 0 ≤ x) (h : x ≤ y) :
    (Sticko.stickoRatingPeriod p rs { c with h := x }).rating =
      (Sticko.stickoRatingPeriod p rs { c with h := y }).rating ∧
    (Sticko.stickoRatingPeriod p rs { c with h := x }).deviation ≤
      (Sticko.stickoRatingPeriod p rs { c with h := y }).deviation := by
  rcases eq_or_ne rs [] with he | he
  · subst he; exact ⟨rfl, le_refl _⟩
  rw [Sticko.period_real p rs _ he, Sticko.period_real p rs _ he]
  refine ⟨rfl, ?_⟩
  have ho := glickoOnset_pos c.c hp
  have hi : 0 ≤ ((rs.map Sticko.game).map (stickoInfo (Sticko.params c) p.rating)).sum :=
    List.sum_nonneg (by
      intro x hx
      obtain ⟨y, _, rfl⟩ := List.mem_map.1 hx
      exact (Sticko.stickoInfo_pos _ _ _).le)
  have hl : x * ((rs.map Sticko.game).length : ℝ) ≤ y * (rs.map Sticko.game).length := by gcongr
  have hw := est_posterior_mono (v := glickoOnset p.deviation c.c ^ 2 + x * (rs.map Sticko.game).length)
    (v' := glickoOnset p.deviation c.c ^ 2 + y * (rs.map Sticko.game).length) (by positivity)
    (by linarith) hi
  exact min_le_min_right _ (Real.sqrt_le_sqrt hw.2)

/-- Sticko, a rating period: a larger activity bonus gives a strictly larger rating and the same
deviation. -/
theorem C160_sticko_bonus (p : Sticko.StickoRating ℝ)
    (rs : List (Sticko.StickoRating ℝ × Outcomes × Bool)) (c : Sticko.StickoConfig ℝ) {x y : ℝ}
    (hp : 0 < p.deviation) (hrs : rs ≠ []) (h : x < y) :
    (Sticko.stickoRatingPeriod p rs { c with beta := x }).rating <
      (Sticko.stickoRatingPeriod p rs { c with beta := y }).rating ∧
    (Sticko.stickoRatingPeriod p rs { c with beta := x }).deviation =
      (Sticko.stickoRatingPeriod p rs { c with beta := y }).deviation := by
  rw [Sticko.period_real p rs _ hrs, Sticko.period_real p rs _ hrs]
  refine ⟨?_, rfl⟩
  have ho := glickoOnset_pos c.c hp
  have hi : 0 ≤ ((rs.map Sticko.game).map (stickoInfo (Sticko.params c) p.rating)).sum :=
    List.sum_nonneg (by
      intro x hx
      obtain ⟨y, _, rfl⟩ := List.mem_map.1 hx
      exact (Sticko.stickoInfo_pos _ _ _).le)
  have hv : 0 < posterior (glickoOnset p.deviation c.c ^ 2)
      ((rs.map Sticko.game).map (stickoInfo (Sticko.params c) p.rating)).sum :=
    posterior_pos (by positivity) hi
  have hs : ∀ l : List StickoGame, l ≠ [] →
      (l.map fun g => glickoG g.deviation * (g.points - stickoE (Sticko.params c) p.rating g + x)).sum <
      (l.map fun g => glickoG g.deviation * (g.points - stickoE (Sticko.params c) p.rating g + y)).sum := by
    intro l hl
    induction l with
    | nil => exact absurd rfl hl
    | cons g l ih =>
      have hg : glickoG g.deviation * (g.points - stickoE (Sticko.params c) p.rating g + x) <
          glickoG g.deviation * (g.points - stickoE (Sticko.params c) p.rating g + y) :=
        mul_lt_mul_of_pos_left (by linarith) (glickoG_pos _)
      rcases eq_or_ne l [] with he | he
      · subst he; simpa using hg
      · simp only [List.map_cons, List.sum_cons]
        exact add_lt_add hg (ih he)
  have k := mul_lt_mul_of_pos_left (hs (rs.map Sticko.game) (by simpa using hrs))
    (mul_pos glickoQ_pos hv)
  exact add_lt_add_left (add_lt_add_right k p.rating) _

/-! ### USCF: the bonus threshold -/

/-- A larger bonus parameter never raises the rating after a period; for provisional players it has no
effect. -/
theorem C160_uscf_bonus (p : Uscf.USCFRating ℝ) (rs : List (Uscf.USCFRating ℝ × Outcomes)) {t t' : ℝ}
    (h : t ≤ t') :
    (Uscf.uscfRatingPeriod p rs ⟨t'⟩).rating ≤ (Uscf.uscfRatingPeriod p rs ⟨t⟩).rating ∧
    (p.games ≤ 8 → Uscf.uscfRatingPeriod p rs ⟨t'⟩ = Uscf.uscfRatingPeriod p rs ⟨t⟩) := by
  rcases eq_or_ne rs [] with he | he
  · subst he; exact ⟨le_refl _, fun _ => rfl⟩
  rcases le_or_gt p.games 8 with h8 | h9
  · have e : Uscf.uscfRatingPeriod p rs ⟨t'⟩ = Uscf.uscfRatingPeriod p rs ⟨t⟩ := by
      simp only [Uscf.uscfRatingPeriod, h8, if_true]
    exact ⟨by rw [e], fun _ => e⟩
  · refine ⟨?_, fun hh => absurd hh (by omega)⟩
    have e := Uscf.C54_uscf_period_established p rs ⟨t⟩ h9 he
    have e' := Uscf.C54_uscf_period_established p rs ⟨t'⟩ h9 he
    dsimp only at e e'
    rw [e, e']
    have : t * √(min rs.length 4 : ℕ) ≤ t' * √(min rs.length 4 : ℕ) := by gcongr
    unfold uscfBonus
    split_ifs
    · exact le_refl _
    · gcongr

/-! ### Weng-Lin: noise and tolerance -/

/-- A larger `beta` brings the forecast closer to even and keeps the favourite. -/
theorem C160_wengLin_beta (a b : WengLin.WengLinRating ℝ) (κ : ℝ) {β β' : ℝ}
    (hβ : 0 < |β|) (h : |β| ≤ |β'|) :
    (WengLin.expectedScore a b ⟨β', κ⟩).1 ∈ Set.uIcc (1 / 2) (WengLin.expectedScore a b ⟨β, κ⟩).1 := by
  simp only [WengLin.expected_real, WengLin.wlP_eq]
  have hc : 0 < wlC β (a.uncertainty ^ 2) (b.uncertainty ^ 2) :=
    WengLin.wlC_pos (sq_nonneg _) (sq_nonneg _) (Or.inr (Or.inr (abs_pos.1 hβ)))
  have hcc : wlC β (a.uncertainty ^ 2) (b.uncertainty ^ 2) ≤
      wlC β' (a.uncertainty ^ 2) (b.uncertainty ^ 2) :=
    Real.sqrt_le_sqrt (by have := sq_le_sq.2 h; linarith)
  generalize wlC β (a.uncertainty ^ 2) (b.uncertainty ^ 2) = x at *
  generalize wlC β' (a.uncertainty ^ 2) (b.uncertainty ^ 2) = y at *
  have hy := hc.trans_le hcc
  have e0 : (1 / 2 : ℝ) = sigmoid 0 := by rw [sigmoid_zero]; norm_num
  rw [e0, Set.mem_uIcc, sigmoid_le_iff, sigmoid_le_iff, sigmoid_le_iff, sigmoid_le_iff]
  rcases le_total 0 (a.rating - b.rating) with hd | hd
  · left
    exact ⟨by positivity, div_le_div_of_nonneg_left hd hc hcc⟩
  · right
    have := div_le_div_of_nonneg_left (neg_nonneg.2 hd) hc hcc
    rw [neg_div, neg_div] at this
    exact ⟨by linarith, div_nonpos_of_nonpos_of_nonneg hd hy.le⟩

/-- The same rating, and an uncertainty at least as large. -/
def SameButLessCertain (p q : WengLin.WengLinRating ℝ) : Prop :=
  p.rating = q.rating ∧ p.uncertainty ≤ q.uncertainty

theorem update_tolerance (t : List (WengLin.WengLinRating ℝ)) {κ κ' : ℝ} (Ω Δ : ℝ) (h : κ ≤ κ') :
    List.Forall₂ SameButLessCertain (WengLin.update t κ Ω Δ) (WengLin.update t κ' Ω Δ) := by
  unfold WengLin.update
  rw [List.forall₂_map_left_iff, List.forall₂_map_right_iff]
  refine List.forall₂_same.2 fun p _ => ⟨rfl, ?_⟩
  exact Real.sqrt_le_sqrt (mul_le_mul_of_nonneg_left (max_le_max_left _ h) (sq_nonneg _))

/-- A larger tolerance leaves every rating as it is and never lowers an uncertainty: matches of any number
of teams of any sizes. -/
theorem C160_wengLin_tolerance {n : ℕ} (t : WengLin.Match n) (β : ℝ) {κ κ' : ℝ}
    (ht : ∀ i, (t i).1 ≠ []) (h : κ ≤ κ') :
    List.Forall₂ (List.Forall₂ SameButLessCertain)
      (WengLin.wengLinMultiTeam (List.ofFn t) ⟨β, κ⟩)
      (WengLin.wengLinMultiTeam (List.ofFn t) ⟨β, κ'⟩) := by
  rw [WengLin.multi_real t _ ht, WengLin.multi_real t _ ht, List.forall₂_iff_get]
  refine ⟨by simp, fun i h1 h2 => ?_⟩
  simp only [List.get_eq_getElem, List.getElem_ofFn]
  exact update_tolerance _ _ _ h

/-- Games of two players. -/
theorem C160_wengLin_tolerance_game (a b : WengLin.WengLinRating ℝ) (o : Outcomes) (β : ℝ) {κ κ' : ℝ}
    (h : κ ≤ κ') :
    SameButLessCertain (WengLin.wengLin a b o ⟨β, κ⟩).1 (WengLin.wengLin a b o ⟨β, κ'⟩).1 ∧
    SameButLessCertain (WengLin.wengLin a b o ⟨β, κ⟩).2 (WengLin.wengLin a b o ⟨β, κ'⟩).2 := by
  simp only [WengLin.wengLin_real, SameButLessCertain, true_and]
  exact ⟨Real.sqrt_le_sqrt (mul_le_mul_of_nonneg_left (max_le_max_left _ h) (sq_nonneg _)),
    Real.sqrt_le_sqrt (mul_le_mul_of_nonneg_left (max_le_max_left _ h) (sq_nonneg _))⟩

/-! ### Concrete cases -/

example : (Elo.elo ⟨1500⟩ ⟨1700⟩ .WIN ⟨16⟩ : _ × Elo.EloRating ℝ).1.rating ∈
    Set.uIcc (1500 : ℝ) (Elo.elo ⟨1500⟩ ⟨1700⟩ .WIN ⟨32⟩ : _ × Elo.EloRating ℝ).1.rating :=
  (C160_elo_k ⟨1500⟩ ⟨1700⟩ .WIN (by norm_num) (by norm_num)).1

example (a b : Fifa.FifaRating ℝ) (o : Outcomes) :
    (Fifa.fifa a b o ⟨10, true, true⟩).1.rating ∈
      Set.uIcc a.rating (Fifa.fifa a b o ⟨60, true, true⟩).1.rating :=
  (C160_fifa_importance a b o ⟨10, true, true⟩ (k := 10) (k' := 60) (by norm_num) (by norm_num)).1

example (rs : List (Glicko.GlickoRating ℝ × Outcomes)) :
    (Glicko.glickoRatingPeriod ⟨1500, 80⟩ rs ⟨0⟩).deviation ≤
      (Glicko.glickoRatingPeriod ⟨1500, 80⟩ rs ⟨63.2⟩).deviation :=
  (C160_glicko_period ⟨1500, 80⟩ rs (by norm_num) (by norm_num)).2

example (p : Uscf.USCFRating ℝ) (rs : List (Uscf.USCFRating ℝ × Outcomes)) :
    (Uscf.uscfRatingPeriod p rs ⟨14⟩).rating ≤ (Uscf.uscfRatingPeriod p rs ⟨8⟩).rating :=
  (C160_uscf_bonus p rs (by norm_num)).1

example (a b : WengLin.WengLinRating ℝ) :
    (WengLin.expectedScore a b ⟨8, 0⟩).1 ∈ Set.uIcc (1 / 2) (WengLin.expectedScore a b ⟨4, 0⟩).1 :=
  C160_wengLin_beta a b 0 (by norm_num) (by norm_num)

example (rs : List (Sticko.StickoRating ℝ × Outcomes × Bool)) (hrs : rs ≠ []) :
    (Sticko.stickoRatingPeriod ⟨1500, 350⟩ rs ⟨10, 0, 2, 0, 10⟩).rating <
      (Sticko.stickoRatingPeriod ⟨1500, 350⟩ rs ⟨10, 0.01, 2, 0, 10⟩).rating :=
  (C160_sticko_bonus ⟨1500, 350⟩ rs ⟨10, 0, 2, 0, 10⟩ (x := 0) (y := 0.01) (by norm_num) hrs
    (by norm_num)).1

example (a b : WengLin.WengLinRating ℝ) :
    (WengLin.wengLin a b .WIN ⟨4, 0⟩).1.uncertainty ≤ (WengLin.wengLin a b .WIN ⟨4, 0.5⟩).1.uncertainty :=
  (C160_wengLin_tolerance_game a b .WIN 4 (by norm_num)).1.2

end Skillratings
