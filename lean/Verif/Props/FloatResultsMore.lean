import Verif.Props.FloatResults
import Verif.Props.FloatSystems
import Verif.Props.FloatScores
/-
C154 for USCF (provisional and established players) and DWZ: single games.
-/
namespace Skillratings
open FP FPVal Spec
variable {E : FloatEnv}

theorem uscf_established_mono (L : E.Lib) {B : ℕ} {r s t e : FP E} {n : ℕ} {v w : ℝ}
    (c : Uscf.USCFConfig (FP E)) (hr : Within B r) (hB : B + 800 < 2 ^ 53) (hn : n < 2 ^ 53)
    (hs : In (E := E) (v : EReal) (v : EReal) s) (hv0 : 0 ≤ v) (hv1 : v ≤ 1)
    (ht : In (E := E) (w : EReal) (w : EReal) t) (hw0 : 0 ≤ w) (hw1 : w ≤ 1) (he : In 0 1 e)
    (h : v ≤ w) :
    (Uscf.newRating r n 1 s e c).toE ≤ (Uscf.newRating r n 1 t e c).toE := by
  have hf := uscf_factor_in L hr (by omega) hn
  have h1 := surprise hs he hv0 hv1
  have h2 := surprise ht he hw0 hw1
  have m := scored_mono hf.finite hf.toR.1 (isFinite.not_nan hr.1) hs ht he hv0 hv1 hw0 hw1 h
  have b1 : Within ((B + 800 : ℕ) : ℝ) (Flt.mulAdd
      ((800.0 : FP E) / (Uscf.effectiveGameNumber r n + Flt.ofNat 1)) (s - e) r) :=
    mulAdd_abs_in (In.within (hf.mono (by norm_num) le_rfl)) ⟨h1.1, abs_le.2 ⟨h1.2.1, h1.2.2.1⟩⟩
      hr (within_nat hB) (by push_cast; linarith)
  have b2 : Within ((B + 800 : ℕ) : ℝ) (Flt.mulAdd
      ((800.0 : FP E) / (Uscf.effectiveGameNumber r n + Flt.ofNat 1)) (t - e) r) :=
    mulAdd_abs_in (In.within (hf.mono (by norm_num) le_rfl)) ⟨h2.1, abs_le.2 ⟨h2.2.1, h2.2.2.1⟩⟩
      hr (within_nat hB) (by push_cast; linarith)
  have hz := lit_in (E := E) (m := 0) (s := true) (e := 1) (v := 0) (by norm_num) SRep.zero
  obtain ⟨x, hx⟩ := add_fin b1.1 hz.finite
  obtain ⟨y, hy⟩ := add_fin b2.1 hz.finite
  have k := toR_mono b1.1 b2.1 m
  have e1 : Uscf.newRating r n 1 s e c = Flt.mulAdd
      ((800.0 : FP E) / (Uscf.effectiveGameNumber r n + Flt.ofNat 1)) (s - e) r + 0.0 := by
    simp [Uscf.newRating, Uscf.getBoostValue]
  have e2 : Uscf.newRating r n 1 t e c = Flt.mulAdd
      ((800.0 : FP E) / (Uscf.effectiveGameNumber r n + Flt.ofNat 1)) (t - e) r + 0.0 := by
    simp [Uscf.newRating, Uscf.getBoostValue]
  rw [e1, e2, hx, hy]
  exact E.round_mono _ _ (by linarith)

theorem uscf_provisional_mono {B : ℕ} {r p : FP E} {n : ℕ} {w l w' l' : ℤ} (hr : Within B r)
    (hp : Within B p) (hn : n ≤ 8) (h0 : -1 ≤ w - l) (h : w - l ≤ w' - l') (h1 : w' - l' ≤ 1)
    (hB : 9 * (B + 400) < 2 ^ 53) :
    (Uscf.newRatingProvisional r n 1 p w l).toE ≤ (Uscf.newRatingProvisional r n 1 p w' l').toE := by
  have hn' := ofNat_in (E := E) (n := n) (by omega)
  have h1' := ofNat_in (E := E) (n := 1) (by norm_num)
  have hn0 : (0 : ℝ) ≤ n := Nat.cast_nonneg n
  have h400 := lit_in (E := E) (m := 4000) (s := true) (e := 1) (v := 400) (by norm_num)
    (SRep.ofNat 400 (by norm_num))
  have b1 : Within (B : ℝ) ((Flt.ofNat 1 : FP E) * p) :=
    mul_abs_in (In.within (h1'.mono (by norm_num) le_rfl)) hp (SRep.nat (by omega)) (by simp)
  have hle : n * B + B ≤ 9 * B := by clear hB; nlinarith
  have b2 : Within ((n * B + B : ℕ) : ℝ) (Flt.mulAdd (Flt.ofNat n) r ((Flt.ofNat 1 : FP E) * p)) :=
    mulAdd_abs_in (In.within (hn'.mono (by linarith) le_rfl)) hr b1 (SRep.nat (by omega))
      (by push_cast; linarith)
  have hw : ∀ k : ℤ, -1 ≤ k → k ≤ 1 → Within ((1 : ℕ) : ℝ) (Flt.ofInt k : FP E) := fun k k0 k1 =>
    ofInt_within (E := E) (n := k) (m := 1) (abs_le.2 ⟨by omega, by omega⟩) (by norm_num)
  have b3 : ∀ k : ℤ, -1 ≤ k → k ≤ 1 → Within ((n * B + B + 400 : ℕ) : ℝ)
      (Flt.mulAdd (Flt.ofInt k) (400.0 : FP E)
        (Flt.mulAdd (Flt.ofNat n) r ((Flt.ofNat 1 : FP E) * p))) := fun k k0 k1 =>
    mulAdd_abs_in (hw k k0 k1) (In.within (h400.mono (by norm_num) le_rfl)) b2 (SRep.nat (by omega))
      (by push_cast; linarith)
  have hden := ofNat_in (E := E) (n := n + 1) (by omega)
  have e : FP.toR (Flt.ofNat (n + 1) : FP E) = ((n + 1 : ℕ) : ℝ) :=
    le_antisymm hden.toR.2 hden.toR.1
  have hpos : (0 : ℝ) < FP.toR (Flt.ofNat (n + 1) : FP E) := by rw [e]; positivity
  have a1 := b3 (w - l) h0 (h.trans h1)
  have a2 := b3 (w' - l') (h0.trans h) h1
  have i1 := hw (w - l) h0 (h.trans h1)
  have i2 := hw (w' - l') (h0.trans h) h1
  have hi : (Flt.ofInt (w - l) : FP E).toR ≤ (Flt.ofInt (w' - l') : FP E).toR :=
    toR_mono i1.1 i2.1 (E.round_mono _ _ (by exact_mod_cast h))
  have hm : (Flt.mulAdd (Flt.ofInt (w - l)) (400.0 : FP E)
        (Flt.mulAdd (Flt.ofNat n) r ((Flt.ofNat 1 : FP E) * p))).toR ≤
      (Flt.mulAdd (Flt.ofInt (w' - l')) (400.0 : FP E)
        (Flt.mulAdd (Flt.ofNat n) r ((Flt.ofNat 1 : FP E) * p))).toR := by
    refine toR_mono a1.1 a2.1 ?_
    obtain ⟨x, hx⟩ := mulAdd_fin i1.1 h400.finite b2.1
    obtain ⟨y, hy⟩ := mulAdd_fin i2.1 h400.finite b2.1
    rw [hx, hy]
    have := mul_le_mul_of_nonneg_right hi (show (0 : ℝ) ≤ FP.toR (400.0 : FP E) by
      linarith [h400.toR.1])
    exact E.round_mono _ _ (by linarith)
  obtain ⟨x, hx⟩ := div_fin a1.1 hden.finite hpos.ne'
  obtain ⟨y, hy⟩ := div_fin a2.1 hden.finite hpos.ne'
  simp only [Uscf.newRatingProvisional]
  rw [hx, hy]
  exact E.round_mono _ _ (div_le_div_of_nonneg_right hm hpos.le)

/-- USCF, either seat, provisional and established players. -/
theorem C154_uscf (L : E.Lib) (a b : Uscf.USCFRating (FP E)) (o o' : Outcomes)
    (c : Uscf.USCFConfig (FP E)) (B : ℕ) (ha : Within B a.rating) (hb : Within B b.rating)
    (hB : 9 * (B + 800) < 2 ^ 53) (ga : a.games < 2 ^ 53) (gb : b.games < 2 ^ 53)
    (h : pointsR o ≤ pointsR o') :
    (Uscf.uscf a b o c).1.rating.toE ≤ (Uscf.uscf a b o' c).1.rating.toE ∧
    (Uscf.uscf a b o' c).2.rating.toE ≤ (Uscf.uscf a b o c).2.rating.toE := by
  have he : In 0 1 (Uscf.eValue a.rating b.rating) := uscf_eValue_in L ha.1 hb.1
  have he' : In 0 1 (Uscf.eValue b.rating a.rating) := uscf_eValue_in L hb.1 ha.1
  have h100 := lit_in (E := E) (m := 1000) (s := true) (e := 1) (v := 100) (by norm_num)
    (SRep.ofNat 100 (by norm_num))
  have h9 : 9 * (B + 400) < 2 ^ 53 := lt_of_le_of_lt (Nat.mul_le_mul_left 9 (by omega)) hB
  have hB1 : B + 800 < 2 ^ 53 := by omega
  have bal : ∀ o : Outcomes, -1 ≤ Uscf.fromBool (o = .WIN) - Uscf.fromBool (o = .LOSS) ∧
      Uscf.fromBool (o = .WIN) - Uscf.fromBool (o = .LOSS) ≤ 1 := by
    intro o; cases o <;> simp [Uscf.fromBool]
  have balm : Uscf.fromBool (o = .WIN) - Uscf.fromBool (o = .LOSS) ≤
      Uscf.fromBool (o' = .WIN) - Uscf.fromBool (o' = .LOSS) := by
    cases o <;> cases o' <;> norm_num [pointsR] at h <;> simp [Uscf.fromBool]
  have b1 := bal o
  have b2 := bal o'
  constructor
  · simp only [Uscf.uscf]
    split_ifs with h8
    · refine fmax_mono (isFinite.not_nan (uscf_provisional_within ha hb h8 (abs_le.2 b1) h9).1)
        (isFinite.not_nan (uscf_provisional_within ha hb h8 (abs_le.2 b2) h9).1) h100.1 ?_
      exact uscf_provisional_mono ha hb h8 b1.1 balm b2.2 h9
    · refine fmax_mono (isFinite.not_nan (uscf_established L c ha hB1 ga (points_in (E := E) o)
          (pointsR_nonneg o) (pointsR_le_one o) he).1.1)
        (isFinite.not_nan (uscf_established L c ha hB1 ga (points_in (E := E) o')
          (pointsR_nonneg o') (pointsR_le_one o') he).1.1) h100.1 ?_
      exact uscf_established_mono L c ha hB1 ga (points_in o) (pointsR_nonneg o) (pointsR_le_one o)
        (points_in o') (pointsR_nonneg o') (pointsR_le_one o') he h
  · simp only [Uscf.uscf]
    split_ifs with h8
    · refine fmax_mono
        (isFinite.not_nan (uscf_provisional_within hb ha h8 (abs_le.2 ⟨by omega, by omega⟩) h9).1)
        (isFinite.not_nan (uscf_provisional_within hb ha h8 (abs_le.2 ⟨by omega, by omega⟩) h9).1)
        h100.1 ?_
      exact uscf_provisional_mono hb ha h8 (by omega) (by omega) (by omega) h9
    · have p0 := pointsR_nonneg o
      have p1 := pointsR_le_one o
      have q0 := pointsR_nonneg o'
      have q1 := pointsR_le_one o'
      refine fmax_mono (isFinite.not_nan (uscf_established L c hb hB1 gb (points_in' (E := E) o')
          (by linarith) (by linarith) he').1.1)
        (isFinite.not_nan (uscf_established L c hb hB1 gb (points_in' (E := E) o)
          (by linarith) (by linarith) he').1.1) h100.1 ?_
      exact uscf_established_mono L c hb hB1 gb (points_in' o') (by linarith) (by linarith)
        (points_in' o) (by linarith) (by linarith) he' (by linarith)

/-! ### DWZ -/

theorem le_of_finite {x y : FP E} (hx : x.isFinite) (hy : y.isFinite) :
    (x <=? y) = true ↔ x.toR ≤ y.toR := by
  rw [le_iff, show x.toE = _ from isFinite.toE_eq hx, show y.toE = _ from isFinite.toE_eq hy,
    EReal.coe_le_coe_iff]
  exact ⟨fun h => h.2.2, fun h => ⟨isFinite.not_nan hx, isFinite.not_nan hy, h⟩⟩

/-- One side of a DWZ game: the coefficient depends on the result only through its comparison with the
expected score. -/
theorem dwz_side_mono (L : E.Lib) {B M : ℕ} {a : Dwz.DWZRating (FP E)} {s t e : FP E} {v w : ℝ}
    (ha : DwzSane B M a) (hB : B + 134 < 2 ^ 53) (hM : M < 2 ^ 50)
    (hs : In (E := E) (v : EReal) (v : EReal) s) (hv0 : 0 ≤ v) (hv1 : v ≤ 1)
    (ht : In (E := E) (w : EReal) (w : EReal) t) (hw0 : 0 ≤ w) (hw1 : w ≤ 1) (he : In 0 1 e)
    (h : v ≤ w) :
    (Dwz.newRating a.rating (Dwz.eValue a.rating a.age s e a.index) s e 1.0).toE ≤
      (Dwz.newRating a.rating (Dwz.eValue a.rating a.age t e a.index) t e 1.0).toE := by
  have he' : In ((0 : ℝ) : EReal) ((1 : ℝ) : EReal) e := by simpa using he
  have f : ∀ s : FP E, In (E := E) ((0 : ℝ) : EReal) ((134 : ℝ) : EReal)
      ((800.0 : FP E) / (Dwz.eValue a.rating a.age s e a.index + (1.0 : FP E))) := fun s =>
    dwz_factor_in (dwz_e_in L a.age ha.1 (by omega) ha.2.1 (by have := ha.2.2; omega))
  have es : s.toR = v := le_antisymm hs.toR.2 hs.toR.1
  have et : t.toR = w := le_antisymm ht.toR.2 ht.toR.1
  have hr : ¬ a.rating.isNaN := isFinite.not_nan ha.1.1
  have same : (e.toR < v ∨ w < e.toR) →
      Dwz.eValue a.rating a.age s e a.index = Dwz.eValue a.rating a.age t e a.index := by
    intro hc
    have c1 : (e <=? s) = (e <=? t) := by
      rw [Bool.eq_iff_iff, le_of_finite he'.finite hs.finite, le_of_finite he'.finite ht.finite, es, et]
      rcases hc with hc | hc
      · exact ⟨fun _ => by linarith, fun _ => hc.le⟩
      · exact ⟨fun _ => by linarith, fun _ => by linarith⟩
    have c2 : (s <=? e) = (t <=? e) := by
      rw [Bool.eq_iff_iff, le_of_finite hs.finite he'.finite, le_of_finite ht.finite he'.finite, es, et]
      rcases hc with hc | hc
      · exact ⟨fun _ => by linarith, fun _ => by linarith⟩
      · exact ⟨fun _ => hc.le, fun _ => by linarith⟩
    simp only [Dwz.eValue, c1, c2]
  by_cases hc : e.toR < v ∨ w < e.toR
  · rw [same hc]
    exact scored_mono (f t).finite (f t).toR.1 hr hs ht he hv0 hv1 hw0 hw1 h
  · rw [not_or, not_lt, not_lt] at hc
    have h1 := surprise hs he hv0 hv1
    have h2 := surprise ht he hw0 hw1
    have d1 : (s - e).toR ≤ 0 := by
      refine toR_le_of h1.1 ?_
      obtain ⟨x, hx⟩ := sub_fin hs.finite he'.finite
      rw [hx]
      exact E.round_le x SRep.zero (by rw [es]; linarith)
    have d2 : 0 ≤ (t - e).toR := by
      refine toR_of_le h2.1 ?_
      obtain ⟨x, hx⟩ := sub_fin ht.finite he'.finite
      rw [hx]
      exact E.round_ge x SRep.zero (by rw [et]; linarith)
    exact ((change (f s).finite h1.1 hr).2.2 (mul_nonpos_of_nonneg_of_nonpos (f s).toR.1 d1)).trans
      ((change (f t).finite h2.1 hr).2.1 (mul_nonneg (f t).toR.1 d2))

/-- DWZ, either seat. -/
theorem C154_dwz (L : E.Lib) (a b : Dwz.DWZRating (FP E)) (o o' : Outcomes) (B M : ℕ)
    (ha : DwzSane B M a) (hb : DwzSane B M b) (hB : B + 134 < 2 ^ 53) (hM : M < 2 ^ 50)
    (h : pointsR o ≤ pointsR o') :
    (Dwz.dwz a b o).1.rating.toE ≤ (Dwz.dwz a b o').1.rating.toE ∧
    (Dwz.dwz a b o').2.rating.toE ≤ (Dwz.dwz a b o).2.rating.toE := by
  have he := C79_dwz_expected L a b ha.1.1 hb.1.1
  have p0 := pointsR_nonneg o
  have p1 := pointsR_le_one o
  have q0 := pointsR_nonneg o'
  have q1 := pointsR_le_one o'
  exact ⟨dwz_side_mono L ha hB hM (points_in o) p0 p1 (points_in o') q0 q1 he.1 h,
    dwz_side_mono L hb hB hM (points_in' o') (by linarith) (by linarith) (points_in' o) (by linarith)
      (by linarith) he.2 (by linarith)⟩

/-- The coefficient depends on the points only through their comparison with the expected points. -/
theorem dwz_coefficient_same {r s t e : FP E} {n m : ℕ} (hs : s.isFinite) (ht : t.isFinite)
    (he : e.isFinite) (h : s.toR ≤ t.toR) (hc : e.toR < s.toR ∨ t.toR < e.toR) :
    Dwz.eValue r n s e m = Dwz.eValue r n t e m := by
  have c1 : (e <=? s) = (e <=? t) := by
    rw [Bool.eq_iff_iff, le_of_finite he hs, le_of_finite he ht]
    rcases hc with hc | hc
    · exact ⟨fun _ => by linarith, fun _ => hc.le⟩
    · exact ⟨fun _ => by linarith, fun _ => by linarith⟩
  have c2 : (s <=? e) = (t <=? e) := by
    rw [Bool.eq_iff_iff, le_of_finite hs he, le_of_finite ht he]
    rcases hc with hc | hc
    · exact ⟨fun _ => by linarith, fun _ => by linarith⟩
    · exact ⟨fun _ => hc.le, fun _ => by linarith⟩
  simp only [Dwz.eValue, c1, c2]

/-- DWZ rating periods of any length: each entry holds an opponent and two results, the second at least
as good as the first. -/
theorem C154_dwz_period (L : E.Lib) (p : Dwz.DWZRating (FP E))
    (rs : List (Dwz.DWZRating (FP E) × Outcomes × Outcomes)) (B M : ℕ) (hp : DwzSane B M p)
    (hr : ∀ r ∈ rs, r.1.rating.isFinite) (hB : B < 2 ^ 53) (hM : M < 2 ^ 50)
    (hl : rs.length < 2 ^ 50) (h : ∀ r ∈ rs, pointsR r.2.1 ≤ pointsR r.2.2) :
    (Dwz.dwzRatingPeriod p (rs.map fun r => (r.1, r.2.1))).rating.toE
      ≤ (Dwz.dwzRatingPeriod p (rs.map fun r => (r.1, r.2.2))).rating.toE := by
  have hlen : rs.length < 2 ^ 53 := by omega
  have he : ∀ r ∈ rs, In (E := E) ((0 : ℝ) : EReal) ((1 : ℝ) : EReal) (Dwz.expectedScore p r.1).1 :=
    fun r hm => unit_in (pow_score L (dwz_exponent (sub_not_nan hp.1.1 (hr r hm))))
  have hs : ∀ o : Outcomes, In (E := E) ((0 : ℝ) : EReal) ((1 : ℝ) : EReal) (o.toChessPoints : FP E) :=
    fun o => (points_in (E := E) o).mono (pointsR_nonneg _) (pointsR_le_one _)
  have hw : ∀ o : Outcomes, Within 1 (o.toChessPoints : FP E) := fun o =>
    In.within ((hs o).mono (by norm_num) le_rfl)
  have hS : ∀ f : (Dwz.DWZRating (FP E) × Outcomes × Outcomes) → Outcomes, _ := fun f =>
    sum_unit_in (rs.map fun r => ((f r).toChessPoints : FP E))
      (by rw [List.length_map]; exact hlen) (by
        intro x hx
        obtain ⟨r, hm, rfl⟩ := List.mem_map.1 hx
        exact hs (f r))
  have hX := sum_unit_in (rs.map fun r => (Dwz.expectedScore p r.1).1)
    (by rw [List.length_map]; exact hlen) (by
      intro x hx
      obtain ⟨r, hm, rfl⟩ := List.mem_map.1 hx
      exact he r hm)
  have hS1 := hS fun r => r.2.1
  have hS2 := hS fun r => r.2.2
  have hm : (Flt.sum (rs.map fun r => (r.2.1.toChessPoints : FP E))).toR
      ≤ (Flt.sum (rs.map fun r => (r.2.2.toChessPoints : FP E))).toR :=
    sum_mono rs _ _ hlen (fun r _ => hw r.2.1) (fun r _ => hw r.2.2) fun r hm =>
      (points_in r.2.1).toR.2.trans ((h r hm).trans (points_in r.2.2).toR.1)
  rw [List.length_map] at hS1 hS2 hX
  simp only [Dwz.dwzRatingPeriod, List.map_map, Function.comp_def, List.length_map]
  generalize Flt.sum (rs.map fun r => (r.2.1.toChessPoints : FP E)) = S at *
  generalize Flt.sum (rs.map fun r => (r.2.2.toChessPoints : FP E)) = T at *
  generalize Flt.sum (rs.map fun r => (Dwz.expectedScore p r.1).1) = X at *
  have hf : ∀ S : FP E, _ := fun S => dwz_period_factor (dwz_e_in (E := E) L (s := S) (e := X) p.age hp.1
    (by omega) hp.2.1 (lt_of_le_of_lt hp.2.2 hM)) hl
  have d1 : Within (rs.length : ℝ) (S - X) := In.within (sub_in hS1 hX
    (within_nat hlen).neg (within_nat hlen) (by linarith) (by linarith))
  have d2 : Within (rs.length : ℝ) (T - X) := In.within (sub_in hS2 hX
    (within_nat hlen).neg (within_nat hlen) (by linarith) (by linarith))
  have hn := isFinite.not_nan hp.1.1
  by_cases hc : X.toR < S.toR ∨ T.toR < X.toR
  · rw [dwz_coefficient_same hS1.finite hS2.finite hX.finite hm hc]
    refine mulAdd_mono (hf T).1 (hf T).2.1 d1.1 d2.1 hn (toR_mono d1.1 d2.1 ?_)
    obtain ⟨x, hx⟩ := sub_fin hS1.finite hX.finite
    obtain ⟨y, hy⟩ := sub_fin hS2.finite hX.finite
    rw [hx, hy]
    exact E.round_mono _ _ (by linarith)
  · rw [not_or, not_lt, not_lt] at hc
    exact ((change (hf S).1 d1.1 hn).2.2 (mul_nonpos_of_nonneg_of_nonpos (hf S).2.1
        ((sub_sign hS1.finite hX.finite d1.1).2 hc.1))).trans
      ((change (hf T).1 d2.1 hn).2.1 (mul_nonneg (hf T).2.1
        ((sub_sign hS2.finite hX.finite d2.1).1 hc.2)))

/-! ### Ingo rating periods -/

/-- The rating after an Ingo period, as a function of the average points. -/
theorem ingo_period_side_mono {B n k : ℕ} {r p d s t : FP E} (hr : Within B r) (hp : Within B p)
    (hk : k ≤ 20) (hd : In (E := E) ((k : ℝ) : EReal) ((k : ℝ) : EReal) d) (hn : 0 < n)
    (hs : In (E := E) ((0 : ℝ) : EReal) ((1 : ℝ) : EReal) s)
    (ht : In (E := E) ((0 : ℝ) : EReal) ((1 : ℝ) : EReal) t) (h : s.toR ≤ t.toR)
    (hB : (n + 20) * (B + 50) < 2 ^ 53) :
    (Flt.mulAdd (Ingo.performance p t) (Flt.ofNat n) (r * d) / (Flt.ofNat n + d)).toE
      ≤ (Flt.mulAdd (Ingo.performance p s) (Flt.ofNat n) (r * d) / (Flt.ofNat n + d)).toE := by
  have hB' : n * B + n * 50 + (20 * B + 1000) < 2 ^ 53 := by
    calc n * B + n * 50 + (20 * B + 1000) = (n + 20) * (B + 50) := by ring
      _ < 2 ^ 53 := hB
  have hB1 : B ≤ n * B := Nat.le_mul_of_pos_left B hn
  have hkB : k * B ≤ 20 * B := Nat.mul_le_mul_right B hk
  have hundred := lit_in (E := E) (m := 1000) (s := true) (e := 1) (v := 100) (by norm_num)
    (SRep.ofNat 100 (by norm_num))
  have fifty := lit_in (E := E) (m := 500) (s := true) (e := 1) (v := 50) (by norm_num)
    (SRep.ofNat 50 (by norm_num))
  have e : FP.toR (-(50.0 : FP E)) = -FP.toR (50.0 : FP E) := toR_neg'
  have e1 : FP.toR (100.0 : FP E) = 100 := le_antisymm hundred.toR.2 hundred.toR.1
  have e3 : FP.toR (50.0 : FP E) = 50 := le_antisymm fifty.toR.2 fifty.toR.1
  have hn50 : (-(50.0 : FP E)).isFinite := by simpa using fifty.finite
  have hf : ∀ {s : FP E}, In (E := E) ((0 : ℝ) : EReal) ((1 : ℝ) : EReal) s →
      Within 50 (Flt.mulAdd (100.0 : FP E) s (-(50.0 : FP E))) := by
    intro s hs
    obtain ⟨t, ht⟩ := mulAdd_fin hundred.finite hs.finite hn50
    have e2 := hs.toR
    rw [ht]
    exact In.within (In.of_round t (SRep.ofNat 50 (by norm_num)).neg (SRep.ofNat 50 (by norm_num))
      (by rw [e, e1, e3]; linarith) (by rw [e, e1, e3]; linarith))
  have f1 := hf hs
  have f2 := hf ht
  have hfm : (Flt.mulAdd (100.0 : FP E) s (-(50.0 : FP E))).toR
      ≤ (Flt.mulAdd (100.0 : FP E) t (-(50.0 : FP E))).toR :=
    toR_mono f1.1 f2.1 (mulAdd_mono hundred.finite (by rw [e1]; norm_num) hs.finite ht.finite
      (isFinite.not_nan hn50) h)
  have p1 : Within ((B + 50 : ℕ) : ℝ) (Ingo.performance p s) :=
    sub_bound hp.1 f1.1 hp.2 f1.2 (SRep.nat (by omega)) (by push_cast; linarith)
  have p2 : Within ((B + 50 : ℕ) : ℝ) (Ingo.performance p t) :=
    sub_bound hp.1 f2.1 hp.2 f2.2 (SRep.nat (by omega)) (by push_cast; linarith)
  have hpm : (Ingo.performance p t).toR ≤ (Ingo.performance p s).toR := by
    refine toR_mono p2.1 p1.1 ?_
    obtain ⟨x, hx⟩ := sub_fin hp.1 f1.1
    obtain ⟨y, hy⟩ := sub_fin hp.1 f2.1
    rw [Ingo.performance, Ingo.performance, hx, hy]
    exact E.round_mono _ _ (by linarith)
  have hk0 : (0 : ℝ) ≤ k := Nat.cast_nonneg k
  have hn0 : (0 : ℝ) < n := by exact_mod_cast hn
  have hrd : Within ((k * B : ℕ) : ℝ) (r * d) :=
    mul_abs_in hr (In.within (hd.mono (by linarith) le_rfl)) (SRep.nat (by omega))
      (by push_cast; linarith)
  have hN := ofNat_in (E := E) (n := n) (by omega)
  have hnum : ∀ {x : FP E}, Within ((B + 50 : ℕ) : ℝ) x → Within ((n * B + n * 50 + k * B : ℕ) : ℝ)
      (Flt.mulAdd x (Flt.ofNat n) (r * d)) := fun hx =>
    mulAdd_abs_in hx (In.within (hN.mono (by linarith) le_rfl)) hrd (SRep.nat (by omega))
      (by push_cast; linarith)
  have hnm : (Flt.mulAdd (Ingo.performance p t) (Flt.ofNat n) (r * d)).toR
      ≤ (Flt.mulAdd (Ingo.performance p s) (Flt.ofNat n) (r * d)).toR := by
    refine toR_mono (hnum p2).1 (hnum p1).1 ?_
    obtain ⟨x, hx⟩ := mulAdd_fin p1.1 hN.finite hrd.1
    obtain ⟨y, hy⟩ := mulAdd_fin p2.1 hN.finite hrd.1
    rw [hx, hy]
    have := mul_le_mul_of_nonneg_right hpm (show (0 : ℝ) ≤ FP.toR (Flt.ofNat n : FP E) by
      linarith [hN.toR.1])
    exact E.round_mono _ _ (by linarith)
  have hden := add_in hN hd (lo := ((n + k : ℕ) : ℝ)) (hi := ((n + k : ℕ) : ℝ))
    (SRep.nat (by omega)) (SRep.nat (by omega)) (by push_cast; linarith) (by push_cast; linarith)
  have hpos : (0 : ℝ) < FP.toR ((Flt.ofNat n : FP E) + d) := by
    have := hden.toR.1; push_cast at this; linarith
  obtain ⟨x, hx⟩ := div_fin (hnum p1).1 hden.finite hpos.ne'
  obtain ⟨y, hy⟩ := div_fin (hnum p2).1 hden.finite hpos.ne'
  rw [hx, hy]
  exact E.round_mono _ _ (div_le_div_of_nonneg_right hnm hpos.le)

/-- Ingo rating periods of at least one game (lower is better): each entry holds an opponent and two
results, the second at least as good as the first. -/
theorem C154_ingo_period (p : Ingo.IngoRating (FP E))
    (rs : List (Ingo.IngoRating (FP E) × Outcomes × Outcomes)) (B : ℕ) (hp : Within B p.rating)
    (hr : ∀ r ∈ rs, Within B r.1.rating) (hne : rs ≠ []) (hB : (rs.length + 20) * (B + 50) < 2 ^ 53)
    (h : ∀ r ∈ rs, pointsR r.2.1 ≤ pointsR r.2.2) :
    (Ingo.ingoRatingPeriod p (rs.map fun r => (r.1, r.2.2))).rating.toE
      ≤ (Ingo.ingoRatingPeriod p (rs.map fun r => (r.1, r.2.1))).rating.toE := by
  obtain ⟨k, _, hk, hd⟩ := ingo_dev_in (E := E) p.age
  have hn : 0 < rs.length := List.length_pos_iff.2 hne
  have hB' : rs.length * B + rs.length * 50 + (20 * B + 1000) < 2 ^ 53 := by
    calc rs.length * B + rs.length * 50 + (20 * B + 1000) = (rs.length + 20) * (B + 50) := by ring
      _ < 2 ^ 53 := hB
  have hlen : rs.length < 2 ^ 53 := by omega
  have hB1 : B ≤ rs.length * B := Nat.le_mul_of_pos_left B hn
  have hs : ∀ o : Outcomes, In (E := E) ((0 : ℝ) : EReal) ((1 : ℝ) : EReal) (o.toChessPoints : FP E) :=
    fun o => (points_in (E := E) o).mono (pointsR_nonneg _) (pointsR_le_one _)
  have hw : ∀ o : Outcomes, Within 1 (o.toChessPoints : FP E) := fun o =>
    In.within ((hs o).mono (by norm_num) le_rfl)
  have hS : ∀ f : (Ingo.IngoRating (FP E) × Outcomes × Outcomes) → Outcomes, _ := fun f =>
    sum_unit_in (rs.map fun r => ((f r).toChessPoints : FP E))
      (by rw [List.length_map]; exact hlen) (by
        intro x hx
        obtain ⟨r, hm, rfl⟩ := List.mem_map.1 hx
        exact hs (f r))
  have hO := sum_within (rs.map fun r => r.1.rating) B (by rw [List.length_map]; omega) (by
      intro x hx
      obtain ⟨r, hm, rfl⟩ := List.mem_map.1 hx
      exact hr r hm)
  have hS1 := hS fun r => r.2.1
  have hS2 := hS fun r => r.2.2
  have hm : (Flt.sum (rs.map fun r => (r.2.1.toChessPoints : FP E))).toR
      ≤ (Flt.sum (rs.map fun r => (r.2.2.toChessPoints : FP E))).toR :=
    sum_mono rs _ _ hlen (fun r _ => hw r.2.1) (fun r _ => hw r.2.2) fun r hm =>
      (points_in r.2.1).toR.2.trans ((h r hm).trans (points_in r.2.2).toR.1)
  rw [List.length_map] at hS1 hS2 hO
  simp only [Ingo.ingoRatingPeriod, List.map_map, Function.comp_def, List.length_map]
  generalize Flt.sum (rs.map fun r => (r.2.1.toChessPoints : FP E)) = S at *
  generalize Flt.sum (rs.map fun r => (r.2.2.toChessPoints : FP E)) = T at *
  generalize Flt.sum (rs.map fun r => r.1.rating) = O at *
  have hN := ofNat_in (E := E) (n := rs.length) hlen
  have hn0 : (0 : ℝ) < rs.length := by exact_mod_cast hn
  have eN : FP.toR (Flt.ofNat rs.length : FP E) = rs.length := le_antisymm hN.toR.2 hN.toR.1
  have hq : ∀ {S : FP E}, In (E := E) ((0 : ℝ) : EReal) ((rs.length : ℝ) : EReal) S →
      In (E := E) ((0 : ℝ) : EReal) ((1 : ℝ) : EReal) (S / Flt.ofNat rs.length) := fun hS =>
    div_in hS hN le_rfl hn0 SRep.zero SRep.one (by simp) (by rw [div_self hn0.ne'])
  have q1 := hq hS1
  have q2 := hq hS2
  have hav : Within B (O / Flt.ofNat rs.length) := by
    obtain ⟨x, hx⟩ := div_fin hO.1 hN.finite (by rw [eN]; exact hn0.ne')
    have h2 := abs_le.1 hO.2
    push_cast at h2
    rw [hx, eN]
    refine In.within (In.of_round x (SRep.nat (by omega)).neg (SRep.nat (by omega)) ?_ ?_)
    · rw [le_div_iff₀ hn0]; linarith
    · rw [div_le_iff₀ hn0]; linarith
  refine ingo_period_side_mono hp hav hk hd hn q1 q2 (toR_mono q1.finite q2.finite ?_) hB
  obtain ⟨x, hx⟩ := div_fin hS1.finite hN.finite (by rw [eN]; exact hn0.ne')
  obtain ⟨y, hy⟩ := div_fin hS2.finite hN.finite (by rw [eN]; exact hn0.ne')
  rw [hx, hy]
  exact E.round_mono _ _ (div_le_div_of_nonneg_right hm (by rw [eN]; exact hn0.le))

/-! ### Concrete instances: binary64 with rounding to nearest -/

example : (Uscf.uscf (F := FP ieee) ⟨1500.0, 8⟩ ⟨1400.0, 30⟩ .DRAW ⟨14.0⟩).1.rating.toE
    ≤ (Uscf.uscf (F := FP ieee) ⟨1500.0, 8⟩ ⟨1400.0, 30⟩ .WIN ⟨14.0⟩).1.rating.toE :=
  (C154_uscf ieee_lib ⟨1500.0, 8⟩ ⟨1400.0, 30⟩ .DRAW .WIN ⟨14.0⟩ 1500
    (sample_within 15000 1500 (by norm_num) (by norm_num))
    ((sample_within 14000 1400 (by norm_num) (by norm_num)).mono (by norm_num))
    (by norm_num) (by norm_num) (by norm_num) (by norm_num [pointsR])).1

example : (Dwz.dwz (F := FP ieee) ⟨1500.0, 12, 17⟩ ⟨1400.0, 30, 40⟩ .DRAW).1.rating.toE
    ≤ (Dwz.dwz (F := FP ieee) ⟨1500.0, 12, 17⟩ ⟨1400.0, 30, 40⟩ .WIN).1.rating.toE :=
  (C154_dwz ieee_lib ⟨1500.0, 12, 17⟩ ⟨1400.0, 30, 40⟩ .DRAW .WIN 1500 30
    ⟨sample_within 15000 1500 (by norm_num) (by norm_num), by norm_num, by norm_num⟩
    ⟨(sample_within 14000 1400 (by norm_num) (by norm_num)).mono (by norm_num), by norm_num, by norm_num⟩
    (by norm_num) (by norm_num) (by norm_num [pointsR])).1

example : (Dwz.dwzRatingPeriod (F := FP ieee) ⟨1500.0, 12, 17⟩
      [(⟨1400.0, 30, 40⟩, .LOSS), (⟨1500.0, 3, 15⟩, .DRAW)]).rating.toE
    ≤ (Dwz.dwzRatingPeriod (F := FP ieee) ⟨1500.0, 12, 17⟩
      [(⟨1400.0, 30, 40⟩, .WIN), (⟨1500.0, 3, 15⟩, .DRAW)]).rating.toE :=
  C154_dwz_period ieee_lib ⟨1500.0, 12, 17⟩
    [(⟨1400.0, 30, 40⟩, .LOSS, .WIN), (⟨1500.0, 3, 15⟩, .DRAW, .DRAW)] 1500 30
    ⟨sample_within 15000 1500 (by norm_num) (by norm_num), by norm_num, by norm_num⟩
    (fun r h => by
      rcases List.mem_cons.1 h with rfl | h
      · exact (sample_within 14000 1400 (by norm_num) (by norm_num)).1
      · rw [List.mem_singleton.1 h]
        exact (sample_within 15000 1500 (by norm_num) (by norm_num)).1)
    (by norm_num) (by norm_num) (by norm_num) (by norm_num [pointsR])

example : (Ingo.ingoRatingPeriod (F := FP ieee) ⟨130.0, 40⟩
      [(⟨160.0, 40⟩, .WIN), (⟨130.0, 15⟩, .DRAW)]).rating.toE
    ≤ (Ingo.ingoRatingPeriod (F := FP ieee) ⟨130.0, 40⟩
      [(⟨160.0, 40⟩, .LOSS), (⟨130.0, 15⟩, .DRAW)]).rating.toE :=
  C154_ingo_period ⟨130.0, 40⟩ [(⟨160.0, 40⟩, .LOSS, .WIN), (⟨130.0, 15⟩, .DRAW, .DRAW)] 160
    ((sample_within 1300 130 (by norm_num) (by norm_num)).mono (by norm_num))
    (fun r h => by
      rcases List.mem_cons.1 h with rfl | h
      · exact sample_within 1600 160 (by norm_num) (by norm_num)
      · rw [List.mem_singleton.1 h]
        exact (sample_within 1300 130 (by norm_num) (by norm_num)).mono (by norm_num))
    (by simp) (by norm_num) (by norm_num [pointsR])

end Skillratings
