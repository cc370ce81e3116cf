import Verif.Proofs.FPUpdates
import Verif.FPInstance
/-
Rating updates in floating point: C09 (knockout periods), C19 and C52 (floors), C80 (direction of
Elo and FIFA changes).  Every theorem holds for every rounding that is monotone and keeps
representable numbers; library functions matter only through `FloatEnv.Lib`.
-/

namespace Skillratings
open FP FPVal
variable {E : FloatEnv}

/-! ### C19 and C52: floors, for all inputs including NaN and infinities -/

theorem C19_egf_floor_float (a b : Egf.EGFRating (FP E)) (o : Outcomes)
    (c : Egf.EGFConfig (FP E)) :
    (¬ (Egf.egf a b o c).1.rating.isNaN ∧
      ((-900 : ℝ) : EReal) ≤ (Egf.egf a b o c).1.rating.toE) ∧
    (¬ (Egf.egf a b o c).2.rating.isNaN ∧
      ((-900 : ℝ) : EReal) ≤ (Egf.egf a b o c).2.rating.toE) := by
  have h := lit_in (E := E) (m := 9000) (s := true) (e := 1) (v := 900) (by norm_num)
    (SRep.ofNat 900 (by norm_num))
  have hn : ¬ (-(900.0 : FP E)).isNaN := isNaN_neg'.not.2 h.1
  have he : FP.toE (-(900.0 : FP E)) = ((-900 : ℝ) : EReal) := by
    rw [toE_neg', le_antisymm h.2.2 h.2.1]; rfl
  refine ⟨?_, ?_⟩ <;> (rw [← he]; exact fmax_floor hn)

theorem C52_uscf_floor_float (a b : Uscf.USCFRating (FP E)) (o : Outcomes)
    (c : Uscf.USCFConfig (FP E)) :
    (¬ (Uscf.uscf a b o c).1.rating.isNaN ∧
      ((100 : ℝ) : EReal) ≤ (Uscf.uscf a b o c).1.rating.toE) ∧
    (¬ (Uscf.uscf a b o c).2.rating.isNaN ∧
      ((100 : ℝ) : EReal) ≤ (Uscf.uscf a b o c).2.rating.toE) := by
  have h := lit_in (E := E) (m := 1000) (s := true) (e := 1) (v := 100) (by norm_num)
    (SRep.ofNat 100 (by norm_num))
  rw [← le_antisymm h.2.2 h.2.1]
  exact ⟨fmax_floor h.1, fmax_floor h.1⟩

/-- A player with a NaN rating is covered: the game resets it to a number. -/
example (b : Egf.EGFRating (FP E)) (o : Outcomes) (c : Egf.EGFConfig (FP E)) :
    (⟨nan⟩ : Egf.EGFRating (FP E)).rating.isNaN ∧
      ¬ (Egf.egf (F := FP E) ⟨nan⟩ b o c).1.rating.isNaN :=
  ⟨trivial, (C19_egf_floor_float ⟨nan⟩ b o c).1.1⟩

/-! ### C09: knockout periods -/

/-- The rating after a knockout period never compares less than the rating before it, whatever
the numbers are.  (If a NaN appears it stays, and NaN compares less than nothing.) -/
theorem C09_fifa_knockout_period_float (p : Fifa.FifaRating (FP E))
    (rs : List (Fifa.FifaRating (FP E) × Outcomes × Fifa.FifaConfig (FP E)))
    (h : ∀ r ∈ rs, r.2.2.knockout = true) :
    ((Fifa.fifaRatingPeriod p rs).rating <? p.rating) = false := by
  have key : ∀ (x : FP E), (x.isNaN ∨ ¬ p.rating.isNaN ∧ p.rating.toE ≤ x.toE) →
      ((rs.foldl Fifa.periodStep x).isNaN ∨
        ¬ p.rating.isNaN ∧ p.rating.toE ≤ (rs.foldl Fifa.periodStep x).toE) := by
    induction rs with
    | nil => exact fun x hx => hx
    | cons r rs ih =>
      intro x hx
      refine ih (fun r hr => h r (List.mem_cons_of_mem _ hr)) _ ?_
      have hk := h r List.mem_cons_self
      obtain ⟨o, res, c⟩ := r
      simp only at hk
      simp only [Fifa.periodStep, hk, Bool.true_and]
      generalize hm : Flt.mulAdd c.importance _ x = m
      by_cases hlt : (m <? x) = true
      · simp only [hlt]
        exact hx
      · simp only [hlt]
        rcases hx with hx | hx
        · left
          rw [← hm]
          exact mulAdd_nan' hx
        · by_cases hmn : m.isNaN
          · exact Or.inl hmn
          · right
            refine ⟨hx.1, ?_⟩
            by_cases hxn : x.isNaN
            · exact (hmn (by rw [← hm]; exact mulAdd_nan' hxn)).elim
            · exact hx.2.trans (not_lt.1 fun hc => hlt (lt_iff.2 ⟨hmn, hxn, hc⟩))
  rw [Bool.eq_false_iff]
  intro hc
  obtain ⟨h1, h2, h3⟩ := lt_iff.1 hc
  rcases key p.rating (Or.inr ⟨h2, le_rfl⟩) with h4 | h4
  · exact h1 h4
  · exact absurd h3 (not_lt.2 h4.2)

example : ((Fifa.fifaRatingPeriod (F := FP ieee) ⟨1500.0⟩
    [(⟨1500.0⟩, .LOSS, ⟨60.0, true, false⟩), (⟨900.0⟩, .LOSS, ⟨60.0, true, true⟩)]).rating
      <? (1500.0 : FP ieee)) = false :=
  C09_fifa_knockout_period_float ⟨1500.0⟩ _ (by simp)

/-! ### C80: the direction of a change survives rounding -/

/-- A game: numbers, the winner does not drop, the loser does not rise, and the change is at
most `k` (as computed). -/
theorem C80_elo_direction (L : E.Lib) (a b : Elo.EloRating (FP E)) (o : Outcomes)
    (c : Elo.EloConfig (FP E)) (ha : a.rating.isFinite) (hb : b.rating.isFinite)
    (hk : c.k.isFinite) (hk0 : 0 ≤ c.k.toR) :
    ¬ (Elo.elo a b o c).1.rating.isNaN ∧ ¬ (Elo.elo a b o c).2.rating.isNaN ∧
    (o = .WIN → a.rating.toE ≤ (Elo.elo a b o c).1.rating.toE ∧
      (Elo.elo a b o c).2.rating.toE ≤ b.rating.toE) ∧
    (o = .LOSS → (Elo.elo a b o c).1.rating.toE ≤ a.rating.toE ∧
      b.rating.toE ≤ (Elo.elo a b o c).2.rating.toE) ∧
    ((a.rating - c.k).toE ≤ (Elo.elo a b o c).1.rating.toE ∧
      (Elo.elo a b o c).1.rating.toE ≤ (a.rating + c.k).toE) ∧
    ((b.rating - c.k).toE ≤ (Elo.elo a b o c).2.rating.toE ∧
      (Elo.elo a b o c).2.rating.toE ≤ (b.rating + c.k).toE) := by
  have he := elo_score_in L (isFinite.not_nan ha) hb
  have h1 := surprise (points_in (E := E) o) he (pointsR_nonneg o) (pointsR_le_one o)
  have h2 := surprise (points_in' (E := E) o) (one_sub_in he)
    (by linarith [pointsR_le_one o]) (by linarith [pointsR_nonneg o])
  obtain ⟨n1, u1, d1⟩ := change hk h1.1 (isFinite.not_nan ha)
  obtain ⟨n2, u2, d2⟩ := change hk h2.1 (isFinite.not_nan hb)
  refine ⟨n1, n2, ?_, ?_, change_bound hk h1.1 ha hk0 h1.2.1 h1.2.2.1,
    change_bound hk h2.1 hb hk0 h2.2.1 h2.2.2.1⟩
  · rintro rfl
    exact ⟨u1 (mul_nonneg hk0 (h1.2.2.2.1 rfl)),
      d2 (mul_nonpos_of_nonneg_of_nonpos hk0 (h2.2.2.2.2 (by norm_num [pointsR])))⟩
  · rintro rfl
    exact ⟨d1 (mul_nonpos_of_nonneg_of_nonpos hk0 (h1.2.2.2.2 rfl)),
      u2 (mul_nonneg hk0 (h2.2.2.2.1 (by norm_num [pointsR])))⟩

/-- A period of any length: a number, and wins only never lower, losses only never raise. -/
theorem C80_elo_period_direction (L : E.Lib) (p : Elo.EloRating (FP E))
    (rs : List (Elo.EloRating (FP E) × Outcomes)) (c : Elo.EloConfig (FP E))
    (hp : ¬ p.rating.isNaN) (hr : ∀ r ∈ rs, r.1.rating.isFinite) (hk : c.k.isFinite)
    (hk0 : 0 ≤ c.k.toR) :
    ¬ (Elo.eloRatingPeriod p rs c).rating.isNaN ∧
    ((∀ r ∈ rs, r.2 = .WIN) → p.rating.toE ≤ (Elo.eloRatingPeriod p rs c).rating.toE) ∧
    ((∀ r ∈ rs, r.2 = .LOSS) → (Elo.eloRatingPeriod p rs c).rating.toE ≤ p.rating.toE) := by
  simp only [Elo.eloRatingPeriod]
  generalize p.rating = x at hp
  induction rs generalizing x with
  | nil => exact ⟨hp, fun _ => le_rfl, fun _ => le_rfl⟩
  | cons r rs ih =>
    obtain ⟨n, u, d⟩ := elo_step L hp (hr r List.mem_cons_self) hk hk0
    obtain ⟨n', u', d'⟩ := ih (fun r h => hr r (List.mem_cons_of_mem _ h)) _ n
    exact ⟨n', fun h => (u (h r List.mem_cons_self)).trans
        (u' fun r hr => h r (List.mem_cons_of_mem _ hr)),
      fun h => (d' fun r hr => h r (List.mem_cons_of_mem _ hr)).trans (d (h r List.mem_cons_self))⟩

/-- A FIFA match without a shootout. -/
theorem C80_fifa_direction (L : E.Lib) (a b : Fifa.FifaRating (FP E)) (o : Outcomes)
    (c : Fifa.FifaConfig (FP E)) (ha : a.rating.isFinite) (hb : b.rating.isFinite)
    (hk : c.importance.isFinite) (hk0 : 0 ≤ c.importance.toR) (hp : c.penalties = false) :
    ¬ (Fifa.fifa a b o c).1.rating.isNaN ∧ ¬ (Fifa.fifa a b o c).2.rating.isNaN ∧
    (o = .WIN → a.rating.toE ≤ (Fifa.fifa a b o c).1.rating.toE ∧
      (Fifa.fifa a b o c).2.rating.toE ≤ b.rating.toE) ∧
    (o = .LOSS → (Fifa.fifa a b o c).1.rating.toE ≤ a.rating.toE ∧
      b.rating.toE ≤ (Fifa.fifa a b o c).2.rating.toE) := by
  have he := fifa_score_in L (isFinite.not_nan ha) hb
  have h1 := surprise (points_in (E := E) o) he (pointsR_nonneg o) (pointsR_le_one o)
  have h2 := surprise (points_in' (E := E) o) (one_sub_in he)
    (by linarith [pointsR_le_one o]) (by linarith [pointsR_nonneg o])
  obtain ⟨n1, u1, d1⟩ := change hk h1.1 (isFinite.not_nan ha)
  obtain ⟨n2, u2, d2⟩ := change hk h2.1 (isFinite.not_nan hb)
  have g1 := guard (k := c.knockout) n1 (isFinite.not_nan ha)
  have g2 := guard (k := c.knockout) n2 (isFinite.not_nan hb)
  simp only [Fifa.fifa, Fifa.expectedScore, hp]
  refine ⟨g1.1, g2.1, ?_, ?_⟩
  · rintro rfl
    exact ⟨g1.2.1 (u1 (mul_nonneg hk0 (h1.2.2.2.1 rfl))),
      g2.2.2 (d2 (mul_nonpos_of_nonneg_of_nonpos hk0 (h2.2.2.2.2 (by norm_num [pointsR]))))⟩
  · rintro rfl
    exact ⟨g1.2.2 (d1 (mul_nonpos_of_nonneg_of_nonpos hk0 (h1.2.2.2.2 rfl))),
      g2.2.1 (u2 (mul_nonneg hk0 (h2.2.2.2.1 (by norm_num [pointsR]))))⟩

/-- A FIFA period without shootouts. -/
theorem C80_fifa_period_direction (L : E.Lib) (p : Fifa.FifaRating (FP E))
    (rs : List (Fifa.FifaRating (FP E) × Outcomes × Fifa.FifaConfig (FP E)))
    (hp : ¬ p.rating.isNaN)
    (hr : ∀ r ∈ rs, r.1.rating.isFinite ∧ r.2.2.importance.isFinite ∧ 0 ≤ r.2.2.importance.toR ∧
      r.2.2.penalties = false) :
    ¬ (Fifa.fifaRatingPeriod p rs).rating.isNaN ∧
    ((∀ r ∈ rs, r.2.1 = .WIN) → p.rating.toE ≤ (Fifa.fifaRatingPeriod p rs).rating.toE) ∧
    ((∀ r ∈ rs, r.2.1 = .LOSS) → (Fifa.fifaRatingPeriod p rs).rating.toE ≤ p.rating.toE) := by
  simp only [Fifa.fifaRatingPeriod]
  generalize p.rating = x at hp
  induction rs generalizing x with
  | nil => exact ⟨hp, fun _ => le_rfl, fun _ => le_rfl⟩
  | cons r rs ih =>
    have step : ¬ (Fifa.periodStep x r).isNaN ∧
        (r.2.1 = .WIN → x.toE ≤ (Fifa.periodStep x r).toE) ∧
        (r.2.1 = .LOSS → (Fifa.periodStep x r).toE ≤ x.toE) := by
      obtain ⟨hb, hk, hk0, hpen⟩ := hr r List.mem_cons_self
      obtain ⟨b, o, c⟩ := r
      simp only at hb hk hk0 hpen
      have he := fifa_score_in L hp hb
      have h1 := surprise (points_in (E := E) o) he (pointsR_nonneg o) (pointsR_le_one o)
      obtain ⟨n1, u1, d1⟩ := change hk h1.1 hp
      have g1 := guard (k := c.knockout) n1 hp
      simp only [Fifa.periodStep, hpen, Bool.not_eq_true', Bool.false_eq_true, if_false,
        ← Bool.not_eq_true, ite_not]
      refine ⟨g1.1, ?_, ?_⟩
      · rintro rfl
        exact g1.2.1 (u1 (mul_nonneg hk0 (h1.2.2.2.1 rfl)))
      · rintro rfl
        exact g1.2.2 (d1 (mul_nonpos_of_nonneg_of_nonpos hk0 (h1.2.2.2.2 rfl)))
    obtain ⟨n, u, d⟩ := step
    obtain ⟨n', u', d'⟩ := ih (fun r h => hr r (List.mem_cons_of_mem _ h)) _ n
    exact ⟨n', fun h => (u (h r List.mem_cons_self)).trans
        (u' fun r hr => h r (List.mem_cons_of_mem _ hr)),
      fun h => (d' fun r hr => h r (List.mem_cons_of_mem _ hr)).trans (d (h r List.mem_cons_self))⟩

example : (1000.0 : FP ieee).toE ≤ (Elo.elo (F := FP ieee) ⟨1000.0⟩ ⟨1400.0⟩ .WIN ⟨32.0⟩).1.rating.toE :=
  ((C80_elo_direction ieee_lib ⟨1000.0⟩ ⟨1400.0⟩ .WIN ⟨32.0⟩
    (lit_finite 1000 (by norm_num) (by norm_num)) (lit_finite 1400 (by norm_num) (by norm_num))
    (lit_finite 32 (by norm_num) (by norm_num))
    (by rw [(lit_rep (E := ieee) (m := 320) (s := true) (e := 1) (v := 32) (by norm_num)
      (SRep.ofNat 32 (by norm_num))).2]; norm_num)).2.2.1 rfl).1

example : (1000.0 : FP ieee).toE ≤ (Elo.eloRatingPeriod (F := FP ieee) ⟨1000.0⟩
    [(⟨1400.0⟩, .WIN), (⟨1200.0⟩, .WIN)] ⟨32.0⟩).rating.toE :=
  (C80_elo_period_direction ieee_lib ⟨1000.0⟩ _ ⟨32.0⟩
    (isFinite.not_nan (lit_finite (E := ieee) 1000 (by norm_num) (by norm_num)))
    (by
      intro r hr
      simp only [List.mem_cons, List.not_mem_nil, or_false] at hr
      rcases hr with rfl | rfl
      · exact lit_finite 1400 (by norm_num) (by norm_num)
      · exact lit_finite 1200 (by norm_num) (by norm_num))
    (lit_finite 32 (by norm_num) (by norm_num))
    (by rw [(lit_rep (E := ieee) (m := 320) (s := true) (e := 1) (v := 32) (by norm_num)
      (SRep.ofNat 32 (by norm_num))).2]; norm_num)).2.1 (by simp)

example : (Fifa.fifa (F := FP ieee) ⟨1000.0⟩ ⟨1400.0⟩ .LOSS ⟨25.0, false, false⟩).1.rating.toE
    ≤ (1000.0 : FP ieee).toE :=
  ((C80_fifa_direction ieee_lib ⟨1000.0⟩ ⟨1400.0⟩ .LOSS ⟨25.0, false, false⟩
    (lit_finite 1000 (by norm_num) (by norm_num)) (lit_finite 1400 (by norm_num) (by norm_num))
    (lit_finite 25 (by norm_num) (by norm_num))
    (by rw [(lit_rep (E := ieee) (m := 250) (s := true) (e := 1) (v := 25) (by norm_num)
      (SRep.ofNat 25 (by norm_num))).2]; norm_num) rfl).2.2.2 rfl).1

example : (Fifa.fifaRatingPeriod (F := FP ieee) ⟨1000.0⟩
    [(⟨1400.0⟩, .LOSS, ⟨25.0, false, false⟩)]).rating.toE ≤ (1000.0 : FP ieee).toE :=
  (C80_fifa_period_direction ieee_lib ⟨1000.0⟩ _
    (isFinite.not_nan (lit_finite (E := ieee) 1000 (by norm_num) (by norm_num)))
    (by
      intro r hr
      rw [List.mem_singleton.1 hr]
      exact ⟨lit_finite 1400 (by norm_num) (by norm_num),
        lit_finite 25 (by norm_num) (by norm_num),
        by rw [(lit_rep (E := ieee) (m := 250) (s := true) (e := 1) (v := 25) (by norm_num)
          (SRep.ofNat 25 (by norm_num))).2]; norm_num, rfl⟩)).2.2 (by simp)

end Skillratings
