import Verif.Props.FloatResults
/-
C154 for EGF rating periods.
-/
namespace Skillratings
open FP FPVal Spec
variable {E : FloatEnv}

/-- One entry of an EGF period: bounded, and monotone in the result. -/
theorem egf_entry_mono (L : E.Lib) (A : E.Accurate) (G : E.Moderate) {r e : FP E} (o o' : Outcomes)
    (hr : r.isFinite) (h1 : -900 ≤ r.toR) (h2 : r.toR ≤ 3299) (he : In 0 1 e)
    (h : pointsR o ≤ pointsR o') :
    Within ((7000 : ℕ) : ℝ) (Egf.newRating r (Egf.con r) o.toChessPoints e (Egf.bonus r) - r) ∧
    Within ((7000 : ℕ) : ℝ) (Egf.newRating r (Egf.con r) o'.toChessPoints e (Egf.bonus r) - r) ∧
    (Egf.newRating r (Egf.con r) o.toChessPoints e (Egf.bonus r) - r).toR
      ≤ (Egf.newRating r (Egf.con r) o'.toChessPoints e (Egf.bonus r) - r).toR := by
  have hk := egf_con_in G hr h1 (by linarith)
  have hbo := egf_bonus_in L A G (N := 3299) hr h1 (by push_cast; linarith) (by norm_num)
  have wr : Within ((3299 : ℕ) : ℝ) r := ⟨hr, abs_le.2 ⟨by push_cast; linarith, by push_cast; linarith⟩⟩
  have h900 : Within ((3443 : ℕ) : ℝ) (-900.0 : FP E) := by
    have := lit_in (E := E) (m := 9000) (s := true) (e := 1) (v := 900) (by norm_num)
      (SRep.ofNat 900 (by norm_num))
    have h3 : FP.toR (-(900.0 : FP E)) = -FP.toR (900.0 : FP E) := toR_neg'
    have h4 := this.toR
    refine ⟨by simpa using this.finite, ?_⟩
    rw [h3, abs_neg]
    exact abs_le.2 ⟨by push_cast; linarith, by push_cast; linarith⟩
  have hm : ∀ o : Outcomes, Within ((3434 : ℕ) : ℝ) (Flt.mulAdd (Egf.con r) (o.toChessPoints - e) r) := fun o =>
    have hsur := surprise (points_in (E := E) o) he (pointsR_nonneg o) (pointsR_le_one o)
    mulAdd_abs_in (In.within (hk.mono (by norm_num) le_rfl))
      ⟨hsur.1, abs_le.2 ⟨hsur.2.1, hsur.2.2.1⟩⟩ wr (within_nat (by norm_num)) (by norm_num)
  have hs : ∀ o : Outcomes, Within ((3443 : ℕ) : ℝ)
      (Flt.mulAdd (Egf.con r) (o.toChessPoints - e) r + Egf.bonus r) := fun o =>
    add_bound (hm o).1 hbo.finite (hm o).2 (In.within (hbo.mono (by norm_num) le_rfl)).2
      (within_nat (by norm_num)) (by norm_num)
  have hn : ∀ o : Outcomes, Within ((3443 : ℕ) : ℝ)
      (Egf.newRating r (Egf.con r) o.toChessPoints e (Egf.bonus r)) := by
    intro o
    rw [Egf.newRating, fmax_eq (isFinite.not_nan (hs o).1) (isFinite.not_nan h900.1)]
    split
    · exact h900
    · exact hs o
  have hd : ∀ o : Outcomes, Within ((7000 : ℕ) : ℝ)
      (Egf.newRating r (Egf.con r) o.toChessPoints e (Egf.bonus r) - r) := fun o =>
    sub_bound (hn o).1 hr (hn o).2 wr.2 (within_nat (by norm_num)) (by norm_num)
  refine ⟨hd o, hd o', toR_mono (hd o).1 (hd o').1 ?_⟩
  have m1 := toR_mono (hm o).1 (hm o').1 (own_mono hk.finite hk.toR.1 (isFinite.not_nan hr) he h)
  have m2 : (Egf.newRating r (Egf.con r) o.toChessPoints e (Egf.bonus r)).toR
      ≤ (Egf.newRating r (Egf.con r) o'.toChessPoints e (Egf.bonus r)).toR := by
    refine toR_mono (hn o).1 (hn o').1 (fmax_mono (isFinite.not_nan (hs o).1) (isFinite.not_nan (hs o').1)
      (isFinite.not_nan h900.1) ?_)
    obtain ⟨x, hx⟩ := add_fin (hm o).1 hbo.finite
    obtain ⟨y, hy⟩ := add_fin (hm o').1 hbo.finite
    rw [hx, hy]
    exact E.round_mono _ _ (by linarith)
  obtain ⟨x, hx⟩ := sub_fin (hn o).1 hr
  obtain ⟨y, hy⟩ := sub_fin (hn o').1 hr
  rw [hx, hy]
  exact E.round_mono _ _ (by linarith)

/-- EGF rating periods with any number of games and any handicaps: each entry holds an opponent, the two
results, the second at least as good as the first, and the handicap. -/
theorem C154_egf_period (L : E.Lib) (A : E.Accurate) (G : E.Moderate) (p : Egf.EGFRating (FP E))
    (rs : List (Egf.EGFRating (FP E) × (Outcomes × Outcomes) × Egf.EGFConfig (FP E))) (H : ℕ)
    (hp : p.rating.isFinite) (hp1 : -900 ≤ p.rating.toR) (hp2 : p.rating.toR + 100 * H ≤ 3299)
    (hr : ∀ r ∈ rs, r.1.rating.isFinite ∧ -900 ≤ r.1.rating.toR ∧ r.1.rating.toR + 100 * H ≤ 3299 ∧
      Within H r.2.2.handicap) (hl : rs.length ≤ 2 ^ 40)
    (h : ∀ r ∈ rs, pointsR r.2.1.1 ≤ pointsR r.2.1.2) :
    (Egf.egfRatingPeriod p (rs.map fun r => (r.1, r.2.1.1, r.2.2))).rating.toE
      ≤ (Egf.egfRatingPeriod p (rs.map fun r => (r.1, r.2.1.2, r.2.2))).rating.toE := by
  have H0 : (0 : ℝ) ≤ H := Nat.cast_nonneg H
  have key : ∀ (l : List (Egf.EGFRating (FP E) × (Outcomes × Outcomes) × Egf.EGFConfig (FP E))) (m : ℕ)
      (x y : FP E), (∀ r ∈ l, r ∈ rs) → m + l.length ≤ 2 ^ 40 →
      Within ((m * 7000 : ℕ) : ℝ) x → Within ((m * 7000 : ℕ) : ℝ) y → x.toR ≤ y.toR →
      let f (x : FP E) (r : Egf.EGFRating (FP E) × Outcomes × Egf.EGFConfig (FP E)) : FP E :=
        x + (Egf.newRating p.rating (Egf.con p.rating) r.2.1.toChessPoints
          (Egf.expectedScore p r.1 r.2.2).1 (Egf.bonus p.rating) - p.rating)
      (p.rating + (l.map fun r => (r.1, r.2.1.1, r.2.2)).foldl f x).toE
        ≤ (p.rating + (l.map fun r => (r.1, r.2.1.2, r.2.2)).foldl f y).toE := by
    intro l
    induction l with
    | nil =>
      intro m x y _ _ hx hy hxy
      simp only [List.map_nil, List.foldl_nil]
      obtain ⟨s, hs⟩ := add_fin hp hx.1
      obtain ⟨t, ht⟩ := add_fin hp hy.1
      rw [hs, ht]
      exact E.round_mono _ _ (by linarith)
    | cons a l ih =>
      intro m x y hl hm hx hy hxy
      simp only [List.length_cons] at hm
      simp only [List.map_cons, List.foldl_cons]
      have ha := hl a List.mem_cons_self
      obtain ⟨a1, a2, a3, a4⟩ := hr a ha
      obtain ⟨k1, k2, k3⟩ := egf_entry_mono L A G a.2.1.1 a.2.1.2 hp hp1 (by linarith)
        (C79_egf_expected L G p a.1 a.2.2 H a4 hp hp1 hp2 a1 a2 a3).1 (h a ha)
      have hlt : (m + 1) * 7000 < 2 ^ 53 :=
        lt_of_le_of_lt (Nat.mul_le_mul_right 7000 (by omega : m + 1 ≤ 2 ^ 40)) (by norm_num)
      have w1 := add_bound hx.1 k1.1 hx.2 k1.2 (c := (((m + 1) * 7000 : ℕ) : ℝ)) (within_nat hlt)
        (by push_cast; linarith)
      have w2 := add_bound hy.1 k2.1 hy.2 k2.2 (c := (((m + 1) * 7000 : ℕ) : ℝ)) (within_nat hlt)
        (by push_cast; linarith)
      exact ih (m + 1) _ _ (fun r hr => hl r (List.mem_cons_of_mem _ hr)) (by omega) w1 w2
        (add_mono hx.1 k1.1 hy.1 k2.1 w1.1 w2.1 hxy k3)
  have hz : Within (((0 : ℕ) * 7000 : ℕ) : ℝ) (0.0 : FP E) := by
    have := lit_in (E := E) (m := 0) (s := true) (e := 1) (v := 0) (by norm_num) SRep.zero
    exact In.within (this.mono (by norm_num) (by norm_num))
  exact key rs 0 _ _ (fun _ h => h) (by omega) hz hz le_rfl

/-! Concrete instance: binary64 with rounding to nearest. -/

example : (Egf.egfRatingPeriod (F := FP ieee) ⟨1500.0⟩
      [(⟨2300.0⟩, .LOSS, ⟨9.0⟩), (⟨1500.0⟩, .DRAW, ⟨9.0⟩)]).rating.toE
    ≤ (Egf.egfRatingPeriod (F := FP ieee) ⟨1500.0⟩
      [(⟨2300.0⟩, .WIN, ⟨9.0⟩), (⟨1500.0⟩, .DRAW, ⟨9.0⟩)]).rating.toE := by
  have h1 := sample_egf 15000 1500 (by norm_num) (by norm_num)
  have h2 := sample_egf 23000 2300 (by norm_num) (by norm_num)
  have h9 := sample_within 90 9 (by norm_num) (by norm_num)
  exact C154_egf_period ieee_lib ieee_accurate ieee_moderate ⟨1500.0⟩
    [(⟨2300.0⟩, (.LOSS, .WIN), ⟨9.0⟩), (⟨1500.0⟩, (.DRAW, .DRAW), ⟨9.0⟩)] 9
    h1.1 (by rw [h1.2]; norm_num) (by rw [h1.2]; norm_num)
    (fun r h => by
      rcases List.mem_cons.1 h with rfl | h
      · exact ⟨h2.1, by rw [h2.2]; norm_num, by rw [h2.2]; norm_num, h9⟩
      · rw [List.mem_singleton.1 h]
        exact ⟨h1.1, by rw [h1.2]; norm_num, by rw [h1.2]; norm_num, h9⟩)
    (by norm_num) (by norm_num [pointsR])

end Skillratings
