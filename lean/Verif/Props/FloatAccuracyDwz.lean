import Verif.Proofs.FPDwz
/-
C129 for DWZ: double precision stays close to exact arithmetic.
-/

namespace Skillratings
open FP FPVal Spec
variable {E : FloatEnv}

/-- The same player in exact arithmetic. -/
noncomputable def dwzExact (a : Dwz.DWZRating (FP E)) : Dwz.DWZRating ℝ := ⟨a.rating.toR, a.index, a.age⟩

/-- A player with a rating of magnitude at most `2 ^ 14` and an index that counts from one. -/
def DwzUsual (a : Dwz.DWZRating (FP E)) : Prop := Within (2 ^ 14) a.rating ∧ 1 ≤ a.index ∧ a.index < 2 ^ 50

theorem dwz_score_near (A : E.Accurate) {x y : FP E} (hx : Within (2 ^ 14) x) (hy : Within (2 ^ 14) y) :
    Near (1 / 2 ^ 39) (Flt.recip (1.0 + Flt.powf 10.0 (-(Flt.recip (400.0 : FP E)) * (x - y))))
      (Real.sigmoid (Real.log 10 / 400 * (x.toR - y.toR))) := by
  have a400 : Ap 0 9 (400.0 : FP E) 400 :=
    ⟨lit_rel (lit_in (E := E) (m := 4000) (s := true) (e := 1) (v := 400) (by norm_num)
      (SRep.ofNat 400 (by norm_num))), by norm_num, by norm_num⟩
  have hrec := ((a400.recip (by norm_num) (by norm_num)).1.near (by norm_num)).neg
  have hx2 := hx.2
  have hy2 := hy.2
  have hsub : |x.toR - y.toR| ≤ 2 ^ 15 := by
    refine (abs_sub _ _).trans ?_
    norm_num at hx2 hy2 ⊢; linarith
  have h1 := near_sub hx.near hy.near (M := 2 ^ 15) (by linarith) (by norm_num)
    (le_huge 16 (by norm_num) (by norm_num))
  have hz : |-(1 / 400) * (x.toR - y.toR)| ≤ 82 := by
    rw [abs_mul, abs_neg, abs_of_pos (by norm_num : (0 : ℝ) < 1 / 400)]
    norm_num at hsub ⊢; linarith
  have hab : |(-(1 / 400) : ℝ)| = 1 / 400 := by rw [abs_neg, abs_of_pos (by norm_num)]
  have h2 := (near_mul hrec h1 (M := 83) (by
    rw [hab]
    generalize |-(1 / 400) * (x.toR - y.toR)| = w at *
    norm_num at hsub ⊢
    linarith) (by norm_num) (le_huge 7 (by norm_num) (by norm_num))).mono (δ := 165 / 2 ^ 50) (by
    rw [hab]
    norm_num at hsub ⊢
    linarith)
  have h := score_near A h2 (by norm_num) (hz.trans (by norm_num))
  rw [one_div (1 + _), inv_one_add_pow, show -(Real.log 10 * (-(1 / 400) * (x.toR - y.toR)))
    = Real.log 10 / 400 * (x.toR - y.toR) by ring] at h
  exact h.mono (by norm_num)

/-- DWZ, expected scores. -/
theorem C129_dwz_expected (A : E.Accurate) (a b : Dwz.DWZRating (FP E)) (ha : DwzUsual a) (hb : DwzUsual b) :
    Near (1 / 2 ^ 38) (Dwz.expectedScore a b).1 (Dwz.expectedScore (dwzExact a) (dwzExact b)).1 ∧
    Near (1 / 2 ^ 38) (Dwz.expectedScore a b).2 (Dwz.expectedScore (dwzExact a) (dwzExact b)).2 := by
  have he := dwz_score_near A ha.1 hb.1
  rw [Dwz.expectedScore_real]
  exact ⟨he.mono (by norm_num), (one_sub_near he (sig01 _)).mono (by norm_num)⟩

/-- DWZ, expected scores of a rating period, opponent by opponent. -/
theorem C129_dwz_expected_period (A : E.Accurate) (p : Dwz.DWZRating (FP E))
    (os : List (Dwz.DWZRating (FP E))) (hp : DwzUsual p) (ho : ∀ o ∈ os, DwzUsual o) :
    List.Forall₂ (Near (1 / 2 ^ 38)) (Dwz.expectedScoreRatingPeriod p os)
      (Dwz.expectedScoreRatingPeriod (dwzExact p) (os.map dwzExact)) := by
  induction os with
  | nil => exact List.Forall₂.nil
  | cons o os ih =>
    refine List.Forall₂.cons ?_ (ih fun x hx => ho x (List.mem_cons_of_mem _ hx))
    exact (C129_dwz_expected A p o hp (ho o List.mem_cons_self)).1

/-- The update with a coefficient of relative error `k`. -/
theorem dwz_step_near {r c m s e : FP E} {C S X k : ℝ} {n : ℕ} (hr : Within (2 ^ 14) r) (hc : Rel k c C) (hk : k ≤ 2 ^ 12)
    (hC : 5 ≤ C ∧ C ≤ 150) (hm : Near 0 m n) (hn : 0 < n) (hn' : n ≤ 2 ^ 10) (hs : Near (n * (1 / 2 ^ 38)) s S)
    (he : Near (n * (1 / 2 ^ 38)) e X) (hSX : |S - X| ≤ n) :
    Near (1 / 2 ^ 26) (Dwz.newRating r c s e m) (800 / (C + n) * (S - X) + r.toR) := by
  have n1 : (1 : ℝ) ≤ n := by exact_mod_cast hn
  have n2 : (n : ℝ) ≤ 1024 := by exact_mod_cast hn'
  have n0 : (0 : ℝ) < n := by linarith
  have k0 := hc.nonneg
  have ac : Ap k 10 c C := ⟨hc, le_trans (by norm_num) hC.1, hC.2.trans (by norm_num)⟩
  have am : Ap k 10 m n := by
    refine ⟨(Rel.of_eq hm.1 hm.eq).mono k0, le_trans (by norm_num) n1, ?_⟩
    norm_num; linarith
  have a800 : Ap 0 10 (800.0 : FP E) 800 :=
    ⟨lit_rel (lit_in (E := E) (m := 8000) (s := true) (e := 1) (v := 800) (by norm_num)
      (SRep.ofNat 800 (by norm_num))), by norm_num, by norm_num⟩
  have hK := a800.div (ac.add am (hk.trans (by norm_num)) (by norm_num)) (by norm_num) (by norm_num at hk ⊢; linarith) (by norm_num)
  have K0 := hK.2.pos
  have K1 : 800 / (C + n) ≤ 800 / n := div_le_div_of_nonneg_left (by norm_num) n0 (by linarith [hC.1])
  have kn : Near ((2 ^ 12 + 2) / 2 ^ 50 * (800 / n)) (800.0 / (c + m)) (800 / (C + n)) := by
    refine (hK.1.near K0.le).mono ?_
    refine mul_le_mul ?_ K1 K0.le (by positivity)
    refine div_le_div_of_nonneg_right ?_ (by positivity)
    linarith
  have hd := (near_sub hs he (M := 2 * n) (by norm_num at hSX ⊢; linarith) (by linarith)
    (le_huge 11 (by norm_num; linarith) (by norm_num))).mono (δ := n * (33 / 2 ^ 42)) (by norm_num; linarith)
  generalize 800 / (C + n) = K at *
  obtain ⟨κ, hκ⟩ : ∃ κ : ℝ, κ = (2 ^ 12 + 2) / 2 ^ 50 * (800 / n) := ⟨_, rfl⟩
  have κ0 : 0 ≤ κ := by rw [hκ]; positivity
  have hκn : κ * n = (2 ^ 12 + 2) / 2 ^ 50 * 800 := by rw [hκ, mul_assoc, div_mul_cancel₀ _ n0.ne']
  rw [← hκ] at kn
  have e1 : κ * |S - X| ≤ (2 ^ 12 + 2) / 2 ^ 50 * 800 := by
    rw [← hκn]; exact mul_le_mul_of_nonneg_left hSX κ0
  have e2 : |K| * (n * (33 / 2 ^ 42)) ≤ 800 * (33 / 2 ^ 42) := by
    rw [abs_of_pos K0]
    calc K * (n * (33 / 2 ^ 42)) ≤ 800 / n * (n * (33 / 2 ^ 42)) := mul_le_mul_of_nonneg_right K1 (by positivity)
      _ = _ := by field_simp
  have e3 : κ * (n * (33 / 2 ^ 42)) ≤ 1 / 2 ^ 60 := by
    rw [← mul_assoc, hκn]; norm_num
  have e4 : |K * (S - X)| ≤ 800 := by
    rw [abs_mul, abs_of_pos K0]
    calc K * |S - X| ≤ 800 / n * n := mul_le_mul K1 hSX (abs_nonneg _) (by positivity)
      _ = _ := by field_simp
  have hr2 := hr.2
  have hsum := abs_add_le (K * (S - X)) r.toR
  refine (near_mulAdd kn hd hr.near (M := 2 ^ 15) ?_ (by norm_num) (le_huge 15 (by norm_num) (by norm_num))).mono ?_
  · norm_num at e1 e2 e3 e4 hr2 hsum ⊢
    linarith
  · norm_num at e1 e2 e3 ⊢
    linarith

/-- The update. -/
theorem dwz_update_near (L : E.Lib) (P : E.Faithful) {r m s e : FP E} {S X : ℝ} {n i : ℕ} (age : ℕ) (hr : Within (2 ^ 14) r)
    (hi : 1 ≤ i) (hi' : i < 2 ^ 50)
    (hm : Near 0 m n) (hn : 0 < n) (hn' : n ≤ 2 ^ 10) (hs : Near (n * (1 / 2 ^ 38)) s S)
    (he : Near (n * (1 / 2 ^ 38)) e X) (hSX : |S - X| ≤ n) :
    Near (1 / 2 ^ 25) (Dwz.newRating r (Dwz.eValue r age s e i) s e m)
      (800 / (Dwz.eValue r.toR age S X i + n) * (S - X) + r.toR) := by
  have n0 : (0 : ℝ) < n := by exact_mod_cast hn
  have hr' : Within ((2 ^ 14 : ℕ) : ℝ) r := by
    have e : ((2 ^ 14 : ℕ) : ℝ) = 2 ^ 14 := by norm_num
    rw [e]; exact hr
  have hin := dwz_e_in L (s := s) (e := e) age hr' (by norm_num) hi hi'
  have hC : 5 ≤ Dwz.eValue r.toR age S X i ∧ Dwz.eValue r.toR age S X i ≤ 150 := by
    rw [Dwz.eValue_spec _ _ _ _ _ hi, dwzCoefficient]
    split_ifs
    all_goals refine ⟨le_max_left _ _, max_le (by norm_num) ((min_le_right _ _).trans ?_)⟩
    all_goals first | exact (min_le_left _ _).trans (by norm_num) | exact le_rfl
  have k1 := abs_le.1 hs.2
  have k2 := abs_le.1 he.2
  by_cases hd : |S - X| ≤ 2 * (n * (1 / 2 ^ 38))
  · -- both changes are tiny
    have h := dwz_step_near hr (Rel.exact hin.finite) (by norm_num) hin.toR hm hn hn' hs he hSX
    refine ⟨h.1, ?_⟩
    have small : ∀ {C : ℝ}, 5 ≤ C → |800 / (C + n) * (S - X)| ≤ 1600 / 2 ^ 38 := by
      intro C hC
      rw [abs_mul, abs_of_pos (by positivity)]
      calc 800 / (C + n) * |S - X| ≤ 800 / n * (2 * (n * (1 / 2 ^ 38))) :=
            mul_le_mul (div_le_div_of_nonneg_left (by norm_num) n0 (by linarith)) hd (abs_nonneg _) (by positivity)
        _ = _ := by field_simp; norm_num
    have s1 := abs_le.1 (small hC.1)
    have s2 := abs_le.1 (small hin.toR.1)
    have s3 := abs_le.1 h.2
    rw [abs_le]
    norm_num at s1 s2 s3 ⊢
    constructor
    · linarith [s1.2, s2.1, s3.1]
    · linarith [s1.1, s2.2, s3.2]
  · rw [not_le] at hd
    have hne : S ≠ X := by
      rintro rfl
      rw [sub_self, abs_zero] at hd
      linarith [show 0 ≤ 2 * ((n : ℝ) * (1 / 2 ^ 38)) by positivity]
    have c1 : (e <=? s) = true ↔ X ≤ S := by
      rw [le_iff_toR he.1 hs.1]
      rcases lt_abs.1 hd with h | h <;> constructor <;> intro h' <;> linarith [k1.1, k1.2, k2.1, k2.2]
    have c2 : (s <=? e) = true ↔ S ≤ X := by
      rw [le_iff_toR hs.1 he.1]
      rcases lt_abs.1 hd with h | h <;> constructor <;> intro h' <;> linarith [k1.1, k1.2, k2.1, k2.2]
    have hE := dwz_e_near L P age hr hi hi' c1 c2 hne
    have hrel : Rel (2 ^ 12) (Dwz.eValue r age s e i) (Dwz.eValue r.toR age S X i) := by
      refine Rel.of_near (by linarith [hC.1]) (hE.mono ?_)
      have := hC.1
      norm_num; linarith
    exact (dwz_step_near hr hrel le_rfl hC hm hn hn' hs he hSX).mono (by norm_num)

/-- DWZ, one game: the new ratings are within `2 ^ -25` of the exact formulas applied to the same
players; age and index are exact. -/
theorem C129_dwz_game (L : E.Lib) (A : E.Accurate) (P : E.Faithful) (a b : Dwz.DWZRating (FP E)) (o : Outcomes)
    (ha : DwzUsual a) (hb : DwzUsual b) :
    let x := Dwz.dwz a b o
    let y := Dwz.dwz (dwzExact a) (dwzExact b) o
    (Near (1 / 2 ^ 25) x.1.rating y.1.rating ∧ x.1.index = y.1.index ∧ x.1.age = y.1.age) ∧
    (Near (1 / 2 ^ 25) x.2.rating y.2.rating ∧ x.2.index = y.2.index ∧ x.2.age = y.2.age) := by
  intro x y
  have he := dwz_score_near A ha.1 hb.1
  have he2 := one_sub_near he (sig01 _)
  have hs1 := near_of_in (points_in (E := E) o)
  have hs2 := near_of_in (points_in' (E := E) o)
  rw [pointsR_eq] at hs1 hs2
  have p0 := points_nonneg o
  have p1 := points_le_one o
  have g := sig01 (Real.log 10 / 400 * (a.rating.toR - b.rating.toR))
  have hm : Near 0 (1.0 : FP E) ((1 : ℕ) : ℝ) := by simpa using near_of_in (one_in (E := E))
  have g1 := dwz_update_near L P a.age ha.1 ha.2.1 ha.2.2 hm one_pos (by norm_num) (hs1.mono (by norm_num))
    (he.mono (by norm_num)) (by rw [abs_le]; push_cast; constructor <;> linarith [g.1, g.2])
  have g2 := dwz_update_near L P b.age hb.1 hb.2.1 hb.2.2 hm one_pos (by norm_num) (hs2.mono (by norm_num))
    (he2.mono (by norm_num)) (by rw [abs_le]; push_cast; constructor <;> linarith [g.1, g.2])
  rw [Nat.cast_one] at g1 g2
  refine ⟨⟨?_, rfl, rfl⟩, ?_, rfl, rfl⟩
  · have e := Dwz.dwz_fst_real (dwzExact a) (dwzExact b) o
    rw [Dwz.expectedScore_real] at e
    change Near _ _ (Dwz.dwz (dwzExact a) (dwzExact b) o).1.rating
    rw [e]
    exact g1
  · have e := Dwz.dwz_snd_real (dwzExact a) (dwzExact b) o
    rw [Dwz.expectedScore_real] at e
    change Near _ _ (Dwz.dwz (dwzExact a) (dwzExact b) o).2.rating
    rw [e]
    exact g2

/-- DWZ, a rating period of at most 1024 games: the new rating is within `2 ^ -25` of the exact one,
however many games there are. -/
theorem C129_dwz_period (L : E.Lib) (A : E.Accurate) (P : E.Faithful) (p : Dwz.DWZRating (FP E))
    (rs : List (Dwz.DWZRating (FP E) × Outcomes)) (hp : DwzUsual p)
    (hr : ∀ r ∈ rs, DwzUsual r.1) (hn : rs.length ≤ 2 ^ 10) (hne : rs ≠ []) :
    let x := Dwz.dwzRatingPeriod p rs
    let y := Dwz.dwzRatingPeriod (dwzExact p) (rs.map fun r => (dwzExact r.1, r.2))
    Near (1 / 2 ^ 25) x.rating y.rating ∧ x.index = y.index ∧ x.age = y.age := by
  intro x y
  refine ⟨?_, rfl, rfl⟩
  have hlen : 0 < rs.length := List.length_pos_iff.2 hne
  obtain ⟨s1, s2⟩ := near_sum rs (fun r => (r.2.toChessPoints : FP E)) (fun r => points r.2) (ε := 0)
    le_rfl (by norm_num) hn (fun r _ => ⟨by
      have := near_of_in (points_in (E := E) r.2)
      rwa [pointsR_eq] at this, by
      rw [abs_of_nonneg (points_nonneg _)]; exact points_le_one _⟩)
  obtain ⟨e1, e2⟩ := near_sum rs (fun r => (Dwz.expectedScore p r.1).1)
    (fun r => Real.sigmoid (Real.log 10 / 400 * (p.rating.toR - r.1.rating.toR))) (ε := 1 / 2 ^ 39)
    (by norm_num) (by norm_num) hn (fun r h => ⟨dwz_score_near A hp.1 (hr r h).1, by
      have := sig01 (Real.log 10 / 400 * (p.rating.toR - r.1.rating.toR))
      rw [abs_of_nonneg this.1]; exact this.2⟩)
  have b1 := sum_limits rs (fun r => points r.2) (lo := 0) (hi := 1) (fun r _ => ⟨points_nonneg _, points_le_one _⟩)
  have b2 := sum_limits rs (fun r => Real.sigmoid (Real.log 10 / 400 * (p.rating.toR - r.1.rating.toR)))
    (lo := 0) (hi := 1) (fun r _ => sig01 _)
  have hSX : |(rs.map fun r => points r.2).sum -
      (rs.map fun r => Real.sigmoid (Real.log 10 / 400 * (p.rating.toR - r.1.rating.toR))).sum| ≤ rs.length := by
    rw [abs_le]; constructor <;> linarith [b1.1, b1.2, b2.1, b2.2]
  have n1 : (1 : ℝ) ≤ rs.length := by exact_mod_cast hlen
  have key := dwz_update_near L P p.age hp.1 hp.2.1 hp.2.2 (ofNat_near (E := E) (n := rs.length) (by norm_num at hn ⊢; omega))
    hlen hn (s1.mono (by norm_num; linarith)) (e1.mono (by norm_num; linarith)) hSX
  have ey : y.rating = 800 / (Dwz.eValue p.rating.toR p.age (rs.map fun r => points r.2).sum
      (rs.map fun r => Real.sigmoid (Real.log 10 / 400 * (p.rating.toR - r.1.rating.toR))).sum p.index + rs.length) *
      ((rs.map fun r => points r.2).sum -
        (rs.map fun r => Real.sigmoid (Real.log 10 / 400 * (p.rating.toR - r.1.rating.toR))).sum) + p.rating.toR := by
    simp only [y, Dwz.dwzRatingPeriod, Dwz.expectedScore_real, List.map_map, Function.comp_def, toChessPoints_real,
      Flt.sum_real, List.length_map, dwzExact]
    simp only [flt]
  rw [ey]
  exact key

/-! ### Double precision -/

theorem usual_dwz : DwzUsual (E := ieee) ⟨1500.0, 7, 19⟩ ∧ DwzUsual (E := ieee) ⟨1250.0, 3, 40⟩ :=
  ⟨⟨lit_usual (v := 1500) (by norm_num) (SRep.ofNat 1500 (by norm_num)) (by norm_num), by norm_num, by norm_num⟩,
    lit_usual (v := 1250) (by norm_num) (SRep.ofNat 1250 (by norm_num)) (by norm_num), by norm_num, by norm_num⟩

/-- A loss of a weak player, who pays a surcharge. -/
example : Near (1 / 2 ^ 25)
    (Dwz.dwz (F := FP ieee) ⟨1500.0, 7, 19⟩ ⟨1250.0, 3, 40⟩ .WIN).2.rating
    (Dwz.dwz (dwzExact (E := ieee) ⟨1500.0, 7, 19⟩) (dwzExact (E := ieee) ⟨1250.0, 3, 40⟩) .WIN).2.rating :=
  (C129_dwz_game ieee_lib ieee_accurate ieee_faithful _ _ .WIN usual_dwz.1 usual_dwz.2).2.1

example : Near (1 / 2 ^ 25)
    (Dwz.dwzRatingPeriod (F := FP ieee) ⟨1500.0, 7, 19⟩ (List.replicate 5 (⟨1250.0, 3, 40⟩, .DRAW))).rating
    (Dwz.dwzRatingPeriod (dwzExact (E := ieee) ⟨1500.0, 7, 19⟩)
      ((List.replicate 5 ((⟨1250.0, 3, 40⟩ : Dwz.DWZRating (FP ieee)), Outcomes.DRAW)).map
        fun r => (dwzExact r.1, r.2))).rating :=
  (C129_dwz_period ieee_lib ieee_accurate ieee_faithful _ _ usual_dwz.1 (by
    intro r hr
    rw [List.eq_of_mem_replicate hr]
    exact usual_dwz.2) (by simp) (by simp)).1

example : Near (1 / 2 ^ 38) (Dwz.expectedScore (F := FP ieee) ⟨1500.0, 7, 19⟩ ⟨1250.0, 3, 40⟩).1
    (Dwz.expectedScore (dwzExact (E := ieee) ⟨1500.0, 7, 19⟩) (dwzExact (E := ieee) ⟨1250.0, 3, 40⟩)).1 :=
  (C129_dwz_expected ieee_accurate _ _ usual_dwz.1 usual_dwz.2).1

example : List.Forall₂ (Near (1 / 2 ^ 38))
    (Dwz.expectedScoreRatingPeriod (F := FP ieee) ⟨1500.0, 7, 19⟩ [⟨1250.0, 3, 40⟩])
    (Dwz.expectedScoreRatingPeriod (dwzExact (E := ieee) ⟨1500.0, 7, 19⟩) [dwzExact (E := ieee) ⟨1250.0, 3, 40⟩]) :=
  C129_dwz_expected_period ieee_accurate _ [_] usual_dwz.1 (by simpa using usual_dwz.2)

end Skillratings
