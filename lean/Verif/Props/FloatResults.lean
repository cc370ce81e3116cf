import Verif.Props.FloatDirections
import Verif.Props.FloatWengLin
import Verif.Props.FloatEgf
/-
C154: a better result never gives a worse rating, in floating point.
-/
namespace Skillratings
open FP FPVal Spec
variable {E : FloatEnv}

theorem sub_score_mono {s t e : FP E} {v w : ℝ} (hs : In (E := E) (v : EReal) (v : EReal) s)
    (ht : In (E := E) (w : EReal) (w : EReal) t) (he : In 0 1 e) (hv0 : 0 ≤ v) (hv1 : v ≤ 1) (hw0 : 0 ≤ w)
    (hw1 : w ≤ 1) (h : v ≤ w) :
    (s - e).isFinite ∧ (t - e).isFinite ∧ (s - e).toR ≤ (t - e).toR := by
  have h1 := surprise hs he hv0 hv1
  have h2 := surprise ht he hw0 hw1
  refine ⟨h1.1, h2.1, toR_mono h1.1 h2.1 ?_⟩
  have he' : In ((0 : ℝ) : EReal) ((1 : ℝ) : EReal) e := by simpa using he
  obtain ⟨x, hx⟩ := sub_fin hs.finite he'.finite
  obtain ⟨y, hy⟩ := sub_fin ht.finite he'.finite
  rw [hx, hy]
  exact E.round_mono _ _ (by linarith [hs.toR.2, ht.toR.1])

theorem mulAdd_mono {k x y z : FP E} (hk : k.isFinite) (hk0 : 0 ≤ k.toR) (hx : x.isFinite) (hy : y.isFinite)
    (hz : ¬ z.isNaN) (h : x.toR ≤ y.toR) : (Flt.mulAdd k x z).toE ≤ (Flt.mulAdd k y z).toE := by
  by_cases hf : z.isFinite
  · obtain ⟨s, hs⟩ := mulAdd_fin hk hx hf
    obtain ⟨t, ht⟩ := mulAdd_fin hk hy hf
    rw [hs, ht]
    have := mul_le_mul_of_nonneg_left h hk0
    exact E.round_mono _ _ (by linarith)
  · rw [mulAdd_inf hk hx hz hf, mulAdd_inf hk hy hz hf]

/-- The update all these systems end with. -/
theorem scored_mono {k s t e z : FP E} {v w : ℝ} (hk : k.isFinite) (hk0 : 0 ≤ k.toR) (hz : ¬ z.isNaN)
    (hs : In (E := E) (v : EReal) (v : EReal) s) (ht : In (E := E) (w : EReal) (w : EReal) t) (he : In 0 1 e)
    (hv0 : 0 ≤ v) (hv1 : v ≤ 1) (hw0 : 0 ≤ w) (hw1 : w ≤ 1) (h : v ≤ w) :
    (Flt.mulAdd k (s - e) z).toE ≤ (Flt.mulAdd k (t - e) z).toE :=
  have h1 := sub_score_mono hs ht he hv0 hv1 hw0 hw1 h
  mulAdd_mono hk hk0 h1.1 h1.2.1 hz h1.2.2

theorem own_mono {k e z : FP E} {o o' : Outcomes} (hk : k.isFinite) (hk0 : 0 ≤ k.toR) (hz : ¬ z.isNaN)
    (he : In 0 1 e) (h : pointsR o ≤ pointsR o') :
    (Flt.mulAdd k (o.toChessPoints - e) z).toE ≤ (Flt.mulAdd k (o'.toChessPoints - e) z).toE :=
  scored_mono hk hk0 hz (points_in o) (points_in o') he (pointsR_nonneg o) (pointsR_le_one o)
    (pointsR_nonneg o') (pointsR_le_one o') h

theorem other_mono {k e z : FP E} {o o' : Outcomes} (hk : k.isFinite) (hk0 : 0 ≤ k.toR) (hz : ¬ z.isNaN)
    (he : In 0 1 e) (h : pointsR o ≤ pointsR o') :
    (Flt.mulAdd k (1.0 - o'.toChessPoints - e) z).toE ≤ (Flt.mulAdd k (1.0 - o.toChessPoints - e) z).toE :=
  scored_mono hk hk0 hz (points_in' o') (points_in' o) he (by linarith [pointsR_le_one o'])
    (by linarith [pointsR_nonneg o']) (by linarith [pointsR_le_one o]) (by linarith [pointsR_nonneg o])
    (by linarith)

/-! ### Elo, FIFA -/

theorem C154_elo (L : E.Lib) (a b : Elo.EloRating (FP E)) (o o' : Outcomes) (c : Elo.EloConfig (FP E))
    (ha : a.rating.isFinite) (hb : b.rating.isFinite) (hk : c.k.isFinite) (hk0 : 0 ≤ c.k.toR)
    (h : pointsR o ≤ pointsR o') :
    (Elo.elo a b o c).1.rating.toE ≤ (Elo.elo a b o' c).1.rating.toE ∧
    (Elo.elo a b o' c).2.rating.toE ≤ (Elo.elo a b o c).2.rating.toE :=
  have he := elo_score_in L (isFinite.not_nan ha) hb
  ⟨own_mono hk hk0 (isFinite.not_nan ha) he h, other_mono hk hk0 (isFinite.not_nan hb) (one_sub_in he) h⟩

theorem guard_mono {k : Bool} {x y old : FP E} (hx : ¬ x.isNaN) (hy : ¬ y.isNaN) (ho : ¬ old.isNaN)
    (h : x.toE ≤ y.toE) :
    (if (k && (x <? old)) = true then old else x).toE ≤ (if (k && (y <? old)) = true then old else y).toE := by
  cases k
  · simpa using h
  · simp only [Bool.true_and, lt_iff, hx, hy, ho, not_false_eq_true, true_and]
    split_ifs with h1 h2 h2
    · exact le_rfl
    · exact not_lt.1 h2
    · exact absurd (h.trans_lt h2) h1
    · exact h

/-- Matches without a shootout, also knockout matches. -/
theorem C154_fifa (L : E.Lib) (a b : Fifa.FifaRating (FP E)) (o o' : Outcomes) (c : Fifa.FifaConfig (FP E))
    (ha : a.rating.isFinite) (hb : b.rating.isFinite) (hk : c.importance.isFinite)
    (hk0 : 0 ≤ c.importance.toR) (hp : c.penalties = false) (h : pointsR o ≤ pointsR o') :
    (Fifa.fifa a b o c).1.rating.toE ≤ (Fifa.fifa a b o' c).1.rating.toE ∧
    (Fifa.fifa a b o' c).2.rating.toE ≤ (Fifa.fifa a b o c).2.rating.toE := by
  have he := fifa_score_in L (isFinite.not_nan ha) hb
  have n1 : ∀ o : Outcomes, _ := fun o => (change hk (surprise (points_in (E := E) o) he (pointsR_nonneg o)
    (pointsR_le_one o)).1 (isFinite.not_nan ha)).1
  have n2 : ∀ o : Outcomes, _ := fun o => (change hk (surprise (points_in' (E := E) o) (one_sub_in he)
    (by linarith [pointsR_le_one o]) (by linarith [pointsR_nonneg o])).1 (isFinite.not_nan hb)).1
  simp only [Fifa.fifa, Fifa.expectedScore, hp]
  exact ⟨guard_mono (n1 o) (n1 o') (isFinite.not_nan ha) (own_mono hk hk0 (isFinite.not_nan ha) he h),
    guard_mono (n2 o') (n2 o) (isFinite.not_nan hb)
      (other_mono hk hk0 (isFinite.not_nan hb) (one_sub_in he) h)⟩

/-! ### EGF and Ingo -/

theorem fmax_mono {x y z : FP E} (hx : ¬ x.isNaN) (hy : ¬ y.isNaN) (hz : ¬ z.isNaN) (h : x.toE ≤ y.toE) :
    (Flt.fmax x z).toE ≤ (Flt.fmax y z).toE := by
  rw [fmax_eq hx hz, fmax_eq hy hz]
  simp only [lt_iff, hx, hy, hz, not_false_eq_true, true_and]
  split_ifs with h1 h2 h2
  · exact le_rfl
  · exact not_lt.1 h2
  · exact absurd (h.trans_lt h2) h1
  · exact h

theorem C154_egf (L : E.Lib) (A : E.Accurate) (G : E.Moderate) (a b : Egf.EGFRating (FP E))
    (o o' : Outcomes) (c : Egf.EGFConfig (FP E)) (H : ℕ) (hc : Within H c.handicap)
    (ha : a.rating.isFinite) (ha1 : -900 ≤ a.rating.toR) (ha2 : a.rating.toR + 100 * H ≤ 3299)
    (hb : b.rating.isFinite) (hb1 : -900 ≤ b.rating.toR) (hb2 : b.rating.toR + 100 * H ≤ 3299)
    (h : pointsR o ≤ pointsR o') :
    (Egf.egf a b o c).1.rating.toE ≤ (Egf.egf a b o' c).1.rating.toE ∧
    (Egf.egf a b o' c).2.rating.toE ≤ (Egf.egf a b o c).2.rating.toE := by
  obtain ⟨e1, e2⟩ := C79_egf_expected L G a b c H hc ha ha1 ha2 hb hb1 hb2
  have H0 : (0 : ℝ) ≤ H := Nat.cast_nonneg H
  have side : ∀ (r s t e : FP E) (v w : ℝ), r.isFinite → -900 ≤ r.toR → r.toR + 100 * H ≤ 3299 → In 0 1 e →
      In (E := E) (v : EReal) (v : EReal) s → 0 ≤ v → v ≤ 1 → In (E := E) (w : EReal) (w : EReal) t →
      0 ≤ w → w ≤ 1 → v ≤ w →
      (Egf.newRating r (Egf.con r) s e (Egf.bonus r)).toE
        ≤ (Egf.newRating r (Egf.con r) t e (Egf.bonus r)).toE := by
    intro r s t e v w hr h1 h2 he hs hv0 hv1 ht hw0 hw1 hvw
    have hk := egf_con_in G hr h1 (by linarith)
    have hbo := egf_bonus_in L A G (N := 3299) hr h1 (by push_cast; linarith) (by norm_num)
    have wr : Within ((3299 : ℕ) : ℝ) r := ⟨hr, abs_le.2 ⟨by push_cast; linarith, by push_cast; linarith⟩⟩
    have hm : ∀ {s : FP E} {v : ℝ}, In (E := E) (v : EReal) (v : EReal) s → 0 ≤ v → v ≤ 1 →
        Within ((3434 : ℕ) : ℝ) (Flt.mulAdd (Egf.con r) (s - e) r) := fun hs hv0 hv1 =>
      have hsur := surprise hs he hv0 hv1
      mulAdd_abs_in (In.within (hk.mono (by norm_num) le_rfl))
        ⟨hsur.1, abs_le.2 ⟨hsur.2.1, hsur.2.2.1⟩⟩ wr (within_nat (by norm_num)) (by norm_num)
    have m1 := hm hs hv0 hv1
    have m2 := hm ht hw0 hw1
    have h3 := toR_mono m1.1 m2.1
      (scored_mono hk.finite hk.toR.1 (isFinite.not_nan hr) hs ht he hv0 hv1 hw0 hw1 hvw)
    have h900 : ¬ (-900.0 : FP E).isNaN := by
      have := lit_in (E := E) (m := 9000) (s := true) (e := 1) (v := 900) (by norm_num)
        (SRep.ofNat 900 (by norm_num))
      exact fun h => this.1 (isNaN_neg'.1 h)
    refine fmax_mono (add_not_nan m1.1 hbo.1) (add_not_nan m2.1 hbo.1) h900 ?_
    obtain ⟨x, hx⟩ := add_fin m1.1 hbo.finite
    obtain ⟨y, hy⟩ := add_fin m2.1 hbo.finite
    rw [hx, hy]
    exact E.round_mono _ _ (by linarith)
  exact ⟨side _ _ _ _ _ _ ha ha1 ha2 e1 (points_in o) (pointsR_nonneg o) (pointsR_le_one o)
      (points_in o') (pointsR_nonneg o') (pointsR_le_one o') h,
    side _ _ _ _ _ _ hb hb1 hb2 e2 (points_in' o') (by linarith [pointsR_le_one o'])
      (by linarith [pointsR_nonneg o']) (points_in' o) (by linarith [pointsR_le_one o])
      (by linarith [pointsR_nonneg o]) (by linarith)⟩

theorem ingo_side_mono {B : ℕ} {r p d s t : FP E} {v w : ℝ} {k : ℕ} (hr : Within B r) (hp : Within B p)
    (hk' : k ≤ 20) (hd : In (E := E) ((k : ℝ) : EReal) ((k : ℝ) : EReal) d)
    (hs : In (E := E) (v : EReal) (v : EReal) s) (hv0 : 0 ≤ v) (hv1 : v ≤ 1)
    (ht : In (E := E) (w : EReal) (w : EReal) t) (hw0 : 0 ≤ w) (hw1 : w ≤ 1) (hvw : v ≤ w)
    (hB : 21 * (B + 5) < 2 ^ 53) :
    (Flt.mulAdd (Ingo.performance p t) 1.0 (r * d) / (1.0 + d)).toE
      ≤ (Flt.mulAdd (Ingo.performance p s) 1.0 (r * d) / (1.0 + d)).toE := by
  have hundred := lit_in (E := E) (m := 1000) (s := true) (e := 1) (v := 100) (by norm_num)
    (SRep.ofNat 100 (by norm_num))
  have fifty := lit_in (E := E) (m := 500) (s := true) (e := 1) (v := 50) (by norm_num)
    (SRep.ofNat 50 (by norm_num))
  have e : FP.toR (-(50.0 : FP E)) = -FP.toR (50.0 : FP E) := toR_neg'
  have e1 : FP.toR (100.0 : FP E) = 100 := le_antisymm hundred.toR.2 hundred.toR.1
  have e3 : FP.toR (50.0 : FP E) = 50 := le_antisymm fifty.toR.2 fifty.toR.1
  have hn : (-(50.0 : FP E)).isFinite := by simpa using fifty.finite
  have hf : ∀ {s : FP E} {v : ℝ}, In (E := E) (v : EReal) (v : EReal) s → 0 ≤ v → v ≤ 1 →
      Within 50 (Flt.mulAdd (100.0 : FP E) s (-(50.0 : FP E))) := by
    intro s v hs hv0 hv1
    obtain ⟨t, ht⟩ := mulAdd_fin hundred.finite hs.finite hn
    have e2 : FP.toR s = v := le_antisymm hs.toR.2 hs.toR.1
    rw [ht]
    exact In.within (In.of_round t (SRep.ofNat 50 (by norm_num)).neg (SRep.ofNat 50 (by norm_num))
      (by rw [e, e1, e2, e3]; linarith) (by rw [e, e1, e2, e3]; linarith))
  have f1 := hf hs hv0 hv1
  have f2 := hf ht hw0 hw1
  have hfm : (Flt.mulAdd (100.0 : FP E) s (-(50.0 : FP E))).toR
      ≤ (Flt.mulAdd (100.0 : FP E) t (-(50.0 : FP E))).toR :=
    toR_mono f1.1 f2.1 (mulAdd_mono hundred.finite (by rw [e1]; norm_num) hs.finite ht.finite
      (isFinite.not_nan hn) (by linarith [hs.toR.2, ht.toR.1]))
  have p1 : Within ((B + 50 : ℕ) : ℝ) (Ingo.performance p s) :=
    sub_bound hp.1 f1.1 hp.2 f1.2 (SRep.nat (by omega)) (by push_cast; linarith)
  have p2 : Within ((B + 50 : ℕ) : ℝ) (Ingo.performance p t) :=
    sub_bound hp.1 f2.1 hp.2 f2.2 (SRep.nat (by omega)) (by push_cast; linarith)
  have hpm : (Ingo.performance p t).toR ≤ (Ingo.performance p s).toR := by
    refine toR_mono p2.1 p1.1 ?_
    obtain ⟨x, hx⟩ := sub_fin hp.1 f1.1
    obtain ⟨y, hy⟩ := sub_fin hp.1 f2.1
    rw [Ingo.performance, Ingo.performance, hx, hy]
    exact E.round_mono _ _ (by linarith)
  have hk0 : (0 : ℝ) ≤ k := Nat.cast_nonneg k
  have hrd : Within ((B * k : ℕ) : ℝ) (r * d) :=
    mul_abs_in hr (In.within (hd.mono (by linarith) le_rfl))
      (SRep.nat (lt_of_le_of_lt (Nat.mul_le_mul_left B hk') (by omega))) (by push_cast; linarith)
  have hle : B + 50 + B * k < 2 ^ 53 :=
    lt_of_le_of_lt (Nat.add_le_add_left (Nat.mul_le_mul_left B hk') _) (by omega)
  have hnum : ∀ {x : FP E}, Within ((B + 50 : ℕ) : ℝ) x → Within ((B + 50 + B * k : ℕ) : ℝ)
      (Flt.mulAdd x (1.0 : FP E) (r * d)) := fun hx =>
    mulAdd_abs_in hx (one_within (E := E)) hrd (SRep.nat hle) (by push_cast; linarith)
  have hnm : (Flt.mulAdd (Ingo.performance p t) (1.0 : FP E) (r * d)).toR
      ≤ (Flt.mulAdd (Ingo.performance p s) (1.0 : FP E) (r * d)).toR := by
    refine toR_mono (hnum p2).1 (hnum p1).1 ?_
    obtain ⟨x, hx⟩ := mulAdd_fin p1.1 (one_in (E := E)).finite hrd.1
    obtain ⟨y, hy⟩ := mulAdd_fin p2.1 (one_in (E := E)).finite hrd.1
    rw [hx, hy]
    have := mul_le_mul_of_nonneg_right hpm (show (0 : ℝ) ≤ FP.toR (1.0 : FP E) by
      linarith [(one_in (E := E)).toR.1])
    exact E.round_mono _ _ (by linarith)
  have hden := add_in one_in hd (lo := ((1 + k : ℕ) : ℝ)) (hi := ((1 + k : ℕ) : ℝ))
    (SRep.nat (by omega)) (SRep.nat (by omega)) (by push_cast; linarith) (by push_cast; linarith)
  have hpos : (0 : ℝ) < FP.toR ((1.0 : FP E) + d) := by
    have := hden.toR.1; push_cast at this; linarith
  obtain ⟨x, hx⟩ := div_fin (hnum p1).1 hden.finite hpos.ne'
  obtain ⟨y, hy⟩ := div_fin (hnum p2).1 hden.finite hpos.ne'
  rw [hx, hy]
  exact E.round_mono _ _ (div_le_div_of_nonneg_right hnm hpos.le)

/-- Ingo, where lower is better. -/
theorem C154_ingo (a b : Ingo.IngoRating (FP E)) (o o' : Outcomes) (B : ℕ) (ha : Within B a.rating)
    (hb : Within B b.rating) (hB : 21 * (B + 5) < 2 ^ 53) (h : pointsR o ≤ pointsR o') :
    (Ingo.ingo a b o').1.rating.toE ≤ (Ingo.ingo a b o).1.rating.toE ∧
    (Ingo.ingo a b o).2.rating.toE ≤ (Ingo.ingo a b o').2.rating.toE := by
  obtain ⟨k, _, hk, hd⟩ := ingo_dev_in (E := E) a.age
  obtain ⟨l, _, hl, hd'⟩ := ingo_dev_in (E := E) b.age
  exact ⟨ingo_side_mono ha hb hk hd (points_in o) (pointsR_nonneg o) (pointsR_le_one o)
      (points_in o') (pointsR_nonneg o') (pointsR_le_one o') h hB,
    ingo_side_mono hb ha hl hd' (points_in' o') (by linarith [pointsR_le_one o'])
      (by linarith [pointsR_nonneg o']) (points_in' o) (by linarith [pointsR_le_one o])
      (by linarith [pointsR_nonneg o]) (by linarith) hB⟩

/-! ### Weng-Lin -/

theorem C154_wengLin (L : E.Lib) (A : E.Accurate) (a b : WengLin.WengLinRating (FP E))
    (o o' : Outcomes) (c : WengLin.WengLinConfig (FP E)) (k : ℕ) (hk : 1 ≤ k) (hk' : k ≤ 1000)
    (hc : WlConfig k c) (ha : WlSane ((500 * k : ℕ) : ℝ) 1000 a)
    (hb : WlSane ((500 * k : ℕ) : ℝ) 1000 b) (h : pointsR o ≤ pointsR o') :
    (WengLin.wengLin a b o c).1.rating.toE ≤ (WengLin.wengLin a b o' c).1.rating.toE ∧
    (WengLin.wengLin a b o' c).2.rating.toE ≤ (WengLin.wengLin a b o c).2.rating.toE := by
  obtain ⟨hcc, hcw⟩ := wl_c_in L hk hk' (β := c.beta) ⟨hc.1.1, hc.1.2, hc.2.1.2⟩
    (wl_sane_in ha) (wl_sane_in hb)
  have hp := wl_p_in A hk ha.1 hb.1 hcc
  have hc1 := hcc.mono (c := 1) (d := 2048) (by exact_mod_cast hk) le_rfl
  have f1 := wl_factor L (U := 1000) le_rfl (by exact_mod_cast wl_sane_in ha) hc1 (hcw _ (Or.inl rfl))
  have f2 := wl_factor L (U := 1000) le_rfl (by exact_mod_cast wl_sane_in hb) hc1 (hcw _ (Or.inr rfl))
  exact ⟨own_mono f1.finite f1.toR.1 (isFinite.not_nan ha.1.1) hp h,
    other_mono f2.finite f2.toR.1 (isFinite.not_nan hb.1.1) (one_sub_in hp) h⟩

/-! ### Glicko -/

theorem glicko_side_mono {B : ℕ} (L : E.Lib) (a b : Glicko.GlickoRating (FP E)) (c s t : FP E) {v w : ℝ}
    (ha : Within B a.rating) (hb : Within B b.rating) (hda : ¬ a.deviation.isNaN)
    (hdb : ¬ b.deviation.isNaN) (hc : c.isFinite) (hc1 : 1 ≤ c.toR) (hB : B < 2 ^ 53)
    (hs : In (E := E) (v : EReal) (v : EReal) s) (hv0 : 0 ≤ v) (hv1 : v ≤ 1)
    (ht : In (E := E) (w : EReal) (w : EReal) t) (hw0 : 0 ≤ w) (hw1 : w ≤ 1) (h : v ≤ w) :
    let q : FP E := Flt.ln 10.0 / 400.0
    let g := Glicko.gValue q b.deviation
    let e := Glicko.eValue g a.rating b.rating
    let d := Glicko.dValue q g e
    let pre := Flt.fmin (Flt.hypot a.deviation c) (350.0 : FP E)
    (Glicko.newRating a.rating pre s q g e d).toE ≤ (Glicko.newRating a.rating pre t q g e d).toE := by
  intro q g e d pre
  have hg : In 0 1 g := g_glicko_in L hdb
  have he : In 0 1 e := pow_score L (exponent_not_nan hg (diff_finite ha hb hB))
  have hd : d = Flt.recip (Flt.powi q 2 * Flt.powi g 2 * e * (1.0 - e)) := powi_neg_one' L _
  have hpre : In (E := E) ((1 : ℝ) : EReal) ((350 : ℝ) : EReal) pre := pre_in L hda hc hc1
  have htot := total_in L (k := 0) (by norm_num) hpre
    ((dValue_arg_in L hg he).mono le_rfl (by norm_num))
  have hkg := mul_in (gain_in L htot) (unit_in hg) le_rfl le_rfl SRep.zero
    (SRep.ofNat 958 (by norm_num)) (by norm_num) (by norm_num)
  simp only [Glicko.newRating, hd]
  exact scored_mono hkg.finite hkg.toR.1 (isFinite.not_nan ha.1) hs ht he hv0 hv1 hw0 hw1 h

theorem C154_glicko (L : E.Lib) (a b : Glicko.GlickoRating (FP E)) (o o' : Outcomes)
    (c : Glicko.GlickoConfig (FP E)) (B : ℕ) (ha : Within B a.rating) (hb : Within B b.rating)
    (hda : ¬ a.deviation.isNaN) (hdb : ¬ b.deviation.isNaN) (hc : c.c.isFinite)
    (hc1 : 1 ≤ c.c.toR) (hB : B < 2 ^ 53) (h : pointsR o ≤ pointsR o') :
    (Glicko.glicko a b o c).1.rating.toE ≤ (Glicko.glicko a b o' c).1.rating.toE ∧
    (Glicko.glicko a b o' c).2.rating.toE ≤ (Glicko.glicko a b o c).2.rating.toE :=
  ⟨glicko_side_mono L a b c.c _ _ ha hb hda hdb hc hc1 hB (points_in o) (pointsR_nonneg o) (pointsR_le_one o)
      (points_in o') (pointsR_nonneg o') (pointsR_le_one o') h,
    glicko_side_mono L b a c.c _ _ hb ha hdb hda hc hc1 hB (points_in' o') (by linarith [pointsR_le_one o'])
      (by linarith [pointsR_nonneg o']) (points_in' o) (by linarith [pointsR_le_one o])
      (by linarith [pointsR_nonneg o]) (by linarith)⟩

theorem mul_mono {x y y' : FP E} (hx : x.isFinite) (hy : y.isFinite) (hy' : y'.isFinite)
    (h : (x * y).isFinite) (h' : (x * y').isFinite) (h0 : 0 ≤ x.toR) (h1 : y.toR ≤ y'.toR) :
    (x * y).toR ≤ (x * y').toR := by
  refine toR_mono h h' ?_
  obtain ⟨s, hs⟩ := mul_fin hx hy
  obtain ⟨t, ht⟩ := mul_fin hx hy'
  rw [hs, ht]
  exact E.round_mono _ _ (mul_le_mul_of_nonneg_left h1 h0)

/-- A rating period, given by the opponents and for each of them two results, the second at least as good as
the first. -/
theorem C154_glicko_period (L : E.Lib) (p : Glicko.GlickoRating (FP E))
    (rs : List (Glicko.GlickoRating (FP E) × Outcomes × Outcomes)) (c : Glicko.GlickoConfig (FP E)) (B : ℕ)
    (hp : Within B p.rating) (hd : ¬ p.deviation.isNaN)
    (hr : ∀ r ∈ rs, Within B r.1.rating ∧ ¬ r.1.deviation.isNaN)
    (hc : c.c.isFinite) (hc1 : 1 ≤ c.c.toR) (hB : B < 2 ^ 53) (hl : rs.length < 2 ^ 53)
    (h : ∀ r ∈ rs, pointsR r.2.1 ≤ pointsR r.2.2) :
    (Glicko.glickoRatingPeriod p (rs.map fun r => (r.1, r.2.1)) c).rating.toE
      ≤ (Glicko.glickoRatingPeriod p (rs.map fun r => (r.1, r.2.2)) c).rating.toE := by
  have hpre := pre_in L hd hc hc1
  by_cases hne : rs = []
  · subst hne; exact le_rfl
  · have hem : ∀ f : (Glicko.GlickoRating (FP E) × Outcomes × Outcomes) → Glicko.GlickoRating (FP E) × Outcomes,
        (rs.map f).isEmpty = false := by intro f; simpa using hne
    simp only [Glicko.glickoRatingPeriod, hem, Bool.false_eq_true, if_false, List.map_map, Function.comp_def]
    have hg : ∀ r ∈ rs, In 0 1 (Glicko.gValue (Flt.ln (10.0 : FP E) / 400.0) r.1.deviation) :=
      fun r h => g_glicko_in L (hr r h).2
    have he : ∀ r ∈ rs, In 0 1 (Glicko.eValue (Glicko.gValue (Flt.ln (10.0 : FP E) / 400.0)
        r.1.deviation) p.rating r.1.rating) := fun r hm =>
      pow_score L (exponent_not_nan (hg r hm) (diff_finite hp (hr r hm).1 hB))
    have hi := sum_unit_in (rs.map fun r =>
        Flt.powi (Glicko.gValue (Flt.ln (10.0 : FP E) / 400.0) r.1.deviation) 2
        * Glicko.eValue (Glicko.gValue (Flt.ln (10.0 : FP E) / 400.0) r.1.deviation) p.rating
          r.1.rating
        * (1.0 - Glicko.eValue (Glicko.gValue (Flt.ln (10.0 : FP E) / 400.0) r.1.deviation)
          p.rating r.1.rating)) (by rw [List.length_map]; exact hl) (by
        intro x hx
        obtain ⟨r, hm, rfl⟩ := List.mem_map.1 hx
        exact information_in L (hg r hm) (he r hm))
    have hsur : ∀ (o : Outcomes), ∀ r ∈ rs, _ := fun o r hm => surprise (points_in (E := E) o) (he r hm)
      (pointsR_nonneg o) (pointsR_le_one o)
    have hw : ∀ (o : Outcomes), ∀ r ∈ rs, Within 1 (Glicko.gValue (Flt.ln (10.0 : FP E) / 400.0) r.1.deviation
        * (o.toChessPoints - Glicko.eValue (Glicko.gValue (Flt.ln (10.0 : FP E) / 400.0)
          r.1.deviation) p.rating r.1.rating)) := fun o r hm =>
      mul_abs_in (In.within ((unit_in (hg r hm)).mono (by norm_num) le_rfl))
          ⟨(hsur o r hm).1, abs_le.2 ⟨(hsur o r hm).2.1, (hsur o r hm).2.2.1⟩⟩ SRep.one (by norm_num)
    have hm : ∀ f : (Glicko.GlickoRating (FP E) × Outcomes × Outcomes) → Outcomes, _ := fun f =>
      sum_within (rs.map fun r =>
        Glicko.gValue (Flt.ln (10.0 : FP E) / 400.0) r.1.deviation
        * ((f r).toChessPoints - Glicko.eValue (Glicko.gValue (Flt.ln (10.0 : FP E) / 400.0)
          r.1.deviation) p.rating r.1.rating)) 1 (by rw [List.length_map]; omega) (by
        intro x hx
        obtain ⟨r, hm, rfl⟩ := List.mem_map.1 hx
        simpa using hw (f r) r hm)
    rw [List.length_map] at hi
    have hlen : (rs.length : ℝ) ≤ 2 ^ 53 := by exact_mod_cast hl.le
    have hqi := mul_in (q_sq_in L) hi le_rfl le_rfl SRep.zero (SRep.two_pow 53 (by norm_num))
      (by norm_num) (by linarith)
    have hk := gain_in L (total_in L (k := 53) (by norm_num) hpre hqi)
    refine mulAdd_mono hk.finite hk.toR.1 (hm fun r => r.2.1).1 (hm fun r => r.2.2).1 (isFinite.not_nan hp.1) ?_
    refine sum_mono rs _ _ hl (fun r hr' => hw r.2.1 r hr') (fun r hr' => hw r.2.2 r hr') fun r hr' => ?_
    exact mul_mono (unit_in (hg r hr')).finite (hsur _ r hr').1 (hsur _ r hr').1 (hw _ r hr').1 (hw _ r hr').1
      (unit_in (hg r hr')).toR.1 (sub_score_mono (points_in r.2.1) (points_in r.2.2) (he r hr')
        (pointsR_nonneg _) (pointsR_le_one _) (pointsR_nonneg _) (pointsR_le_one _) (h r hr')).2.2

/-! Concrete instances: binary64 with rounding to nearest. -/

example : (Glicko.glicko (F := FP ieee) ⟨1500.0, 350.0⟩ ⟨1400.0, 350.0⟩ .DRAW ⟨64.0⟩).1.rating.toE
    ≤ (Glicko.glicko (F := FP ieee) ⟨1500.0, 350.0⟩ ⟨1400.0, 350.0⟩ .WIN ⟨64.0⟩).1.rating.toE :=
  (C154_glicko ieee_lib ⟨1500.0, 350.0⟩ ⟨1400.0, 350.0⟩ .DRAW .WIN ⟨64.0⟩ 1500
    (sample_within 15000 1500 (by norm_num) (by norm_num))
    ((sample_within 14000 1400 (by norm_num) (by norm_num)).mono (by norm_num))
    sample_dev sample_dev sample_decay.1 sample_decay.2 (by norm_num) (by norm_num [pointsR])).1

example : (Glicko.glickoRatingPeriod (F := FP ieee) ⟨1500.0, 350.0⟩
      [(⟨1400.0, 350.0⟩, .LOSS), (⟨1500.0, 350.0⟩, .WIN)] ⟨64.0⟩).rating.toE
    ≤ (Glicko.glickoRatingPeriod (F := FP ieee) ⟨1500.0, 350.0⟩
      [(⟨1400.0, 350.0⟩, .DRAW), (⟨1500.0, 350.0⟩, .WIN)] ⟨64.0⟩).rating.toE :=
  C154_glicko_period ieee_lib ⟨1500.0, 350.0⟩
    [(⟨1400.0, 350.0⟩, .LOSS, .DRAW), (⟨1500.0, 350.0⟩, .WIN, .WIN)] ⟨64.0⟩ 1500
    (sample_within 15000 1500 (by norm_num) (by norm_num)) sample_dev
    (fun r h => by
      rcases List.mem_cons.1 h with rfl | h
      · exact ⟨(sample_within 14000 1400 (by norm_num) (by norm_num)).mono (by norm_num), sample_dev⟩
      · rw [List.mem_singleton.1 h]
        exact ⟨sample_within 15000 1500 (by norm_num) (by norm_num), sample_dev⟩)
    sample_decay.1 sample_decay.2 (by norm_num) (by norm_num) (by norm_num [pointsR])

example : (Ingo.ingo (F := FP ieee) ⟨130.0, 40⟩ ⟨160.0, 40⟩ .WIN).1.rating.toE
    ≤ (Ingo.ingo (F := FP ieee) ⟨130.0, 40⟩ ⟨160.0, 40⟩ .DRAW).1.rating.toE :=
  (C154_ingo ⟨130.0, 40⟩ ⟨160.0, 40⟩ .DRAW .WIN 160
    ((sample_within 1300 130 (by norm_num) (by norm_num)).mono (by norm_num))
    (sample_within 1600 160 (by norm_num) (by norm_num)) (by norm_num) (by norm_num [pointsR])).1

example : (Elo.elo (F := FP ieee) ⟨1000.0⟩ ⟨1400.0⟩ .LOSS ⟨32.0⟩).1.rating.toE
    ≤ (Elo.elo (F := FP ieee) ⟨1000.0⟩ ⟨1400.0⟩ .DRAW ⟨32.0⟩).1.rating.toE :=
  (C154_elo ieee_lib ⟨1000.0⟩ ⟨1400.0⟩ .LOSS .DRAW ⟨32.0⟩
    (lit_finite 1000 (by norm_num) (by norm_num)) (lit_finite 1400 (by norm_num) (by norm_num))
    (lit_finite 32 (by norm_num) (by norm_num))
    (by rw [(lit_rep (E := ieee) (m := 320) (s := true) (e := 1) (v := 32) (by norm_num)
      (SRep.ofNat 32 (by norm_num))).2]; norm_num) (by norm_num [pointsR])).1

example : (Fifa.fifa (F := FP ieee) ⟨1000.0⟩ ⟨1400.0⟩ .LOSS ⟨25.0, true, false⟩).1.rating.toE
    ≤ (Fifa.fifa (F := FP ieee) ⟨1000.0⟩ ⟨1400.0⟩ .DRAW ⟨25.0, true, false⟩).1.rating.toE :=
  (C154_fifa ieee_lib ⟨1000.0⟩ ⟨1400.0⟩ .LOSS .DRAW ⟨25.0, true, false⟩
    (lit_finite 1000 (by norm_num) (by norm_num)) (lit_finite 1400 (by norm_num) (by norm_num))
    (lit_finite 25 (by norm_num) (by norm_num))
    (by rw [(lit_rep (E := ieee) (m := 250) (s := true) (e := 1) (v := 25) (by norm_num)
      (SRep.ofNat 25 (by norm_num))).2]; norm_num) rfl (by norm_num [pointsR])).1

example : (WengLin.wengLin (F := FP ieee) ⟨25.0, 8.0⟩ ⟨25.0, 8.0⟩ .DRAW ⟨4.0, 0.0⟩).1.rating.toE
    ≤ (WengLin.wengLin (F := FP ieee) ⟨25.0, 8.0⟩ ⟨25.0, 8.0⟩ .WIN ⟨4.0, 0.0⟩).1.rating.toE :=
  (C154_wengLin ieee_lib ieee_accurate _ _ .DRAW .WIN _ 4 (by norm_num) (by norm_num)
    sample_config (sample_player (by norm_num) (by norm_num))
    (sample_player (by norm_num) (by norm_num)) (by norm_num [pointsR])).1

example : (Egf.egf (F := FP ieee) ⟨1500.0⟩ ⟨2300.0⟩ .LOSS ⟨9.0⟩).1.rating.toE
    ≤ (Egf.egf (F := FP ieee) ⟨1500.0⟩ ⟨2300.0⟩ .WIN ⟨9.0⟩).1.rating.toE := by
  have h1 := sample_egf 15000 1500 (by norm_num) (by norm_num)
  have h2 := sample_egf 23000 2300 (by norm_num) (by norm_num)
  exact (C154_egf ieee_lib ieee_accurate ieee_moderate ⟨1500.0⟩ ⟨2300.0⟩ .LOSS .WIN _ 9
    (sample_within 90 9 (by norm_num) (by norm_num)) h1.1 (by rw [h1.2]; norm_num)
    (by rw [h1.2]; norm_num) h2.1 (by rw [h2.2]; norm_num) (by rw [h2.2]; norm_num)
    (by norm_num [pointsR])).1

end Skillratings
