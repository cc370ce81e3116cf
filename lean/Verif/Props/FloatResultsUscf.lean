import Verif.Props.FloatResultsMore
/-
C154 for USCF rating periods.
-/
namespace Skillratings
open FP FPVal Spec
variable {E : FloatEnv}

theorem provisional_period_mono {B n g : ℕ} {r p : FP E} {w l w' l' : ℤ} (hr : Within B r)
    (hp : Within B p) (hg : g ≤ 8) (hn : 0 < n) (h0 : -(n : ℤ) ≤ w - l) (h : w - l ≤ w' - l')
    (h1 : w' - l' ≤ n) (hB : (n + 8) * (B + 400) < 2 ^ 53) :
    (Uscf.newRatingProvisional r g n p w l).toE ≤ (Uscf.newRatingProvisional r g n p w' l').toE := by
  have hB' : n * B + n * 400 + (8 * B + 3200) < 2 ^ 53 := by
    calc n * B + n * 400 + (8 * B + 3200) = (n + 8) * (B + 400) := by ring
      _ < 2 ^ 53 := hB
  have hgB : g * B ≤ 8 * B := Nat.mul_le_mul_right B hg
  have hg' := ofNat_in (E := E) (n := g) (by omega)
  have hn' := ofNat_in (E := E) (n := n) (by omega)
  have hn0 : (0 : ℝ) ≤ n := Nat.cast_nonneg n
  have hg0 : (0 : ℝ) ≤ g := Nat.cast_nonneg g
  have h400 := lit_in (E := E) (m := 4000) (s := true) (e := 1) (v := 400) (by norm_num)
    (SRep.ofNat 400 (by norm_num))
  have b1 : Within ((n * B : ℕ) : ℝ) ((Flt.ofNat n : FP E) * p) :=
    mul_abs_in (In.within (hn'.mono (by linarith) le_rfl)) hp (SRep.nat (by omega)) (by push_cast; linarith)
  have b2 : Within ((g * B + n * B : ℕ) : ℝ) (Flt.mulAdd (Flt.ofNat g) r ((Flt.ofNat n : FP E) * p)) :=
    mulAdd_abs_in (In.within (hg'.mono (by linarith) le_rfl)) hr b1 (SRep.nat (by omega))
      (by push_cast; linarith)
  have hw : ∀ k : ℤ, -(n : ℤ) ≤ k → k ≤ n → Within ((n : ℕ) : ℝ) (Flt.ofInt k : FP E) := fun k k0 k1 =>
    ofInt_within (E := E) (n := k) (m := n) (abs_le.2 ⟨by omega, by omega⟩) (by omega)
  have b3 : ∀ k : ℤ, -(n : ℤ) ≤ k → k ≤ n → Within ((g * B + n * B + n * 400 : ℕ) : ℝ)
      (Flt.mulAdd (Flt.ofInt k) (400.0 : FP E)
        (Flt.mulAdd (Flt.ofNat g) r ((Flt.ofNat n : FP E) * p))) := fun k k0 k1 =>
    mulAdd_abs_in (hw k k0 k1) (In.within (h400.mono (by norm_num) le_rfl)) b2 (SRep.nat (by omega))
      (by push_cast; linarith)
  have hden := ofNat_in (E := E) (n := g + n) (by omega)
  have e : FP.toR (Flt.ofNat (g + n) : FP E) = ((g + n : ℕ) : ℝ) :=
    le_antisymm hden.toR.2 hden.toR.1
  have hpos : (0 : ℝ) < FP.toR (Flt.ofNat (g + n) : FP E) := by
    rw [e]; exact_mod_cast (by omega : 0 < g + n)
  have a1 := b3 (w - l) h0 (h.trans h1)
  have a2 := b3 (w' - l') (h0.trans h) h1
  have i1 := hw (w - l) h0 (h.trans h1)
  have i2 := hw (w' - l') (h0.trans h) h1
  have hi : (Flt.ofInt (w - l) : FP E).toR ≤ (Flt.ofInt (w' - l') : FP E).toR :=
    toR_mono i1.1 i2.1 (E.round_mono _ _ (by exact_mod_cast h))
  have hm : (Flt.mulAdd (Flt.ofInt (w - l)) (400.0 : FP E)
        (Flt.mulAdd (Flt.ofNat g) r ((Flt.ofNat n : FP E) * p))).toR ≤
      (Flt.mulAdd (Flt.ofInt (w' - l')) (400.0 : FP E)
        (Flt.mulAdd (Flt.ofNat g) r ((Flt.ofNat n : FP E) * p))).toR := by
    refine toR_mono a1.1 a2.1 ?_
    obtain ⟨x, hx⟩ := mulAdd_fin i1.1 h400.finite b2.1
    obtain ⟨y, hy⟩ := mulAdd_fin i2.1 h400.finite b2.1
    rw [hx, hy]
    have := mul_le_mul_of_nonneg_right hi (show (0 : ℝ) ≤ FP.toR (400.0 : FP E) by
      linarith [h400.toR.1])
    exact E.round_mono _ _ (by linarith)
  obtain ⟨x, hx⟩ := div_fin a1.1 hden.finite hpos.ne'
  obtain ⟨y, hy⟩ := div_fin a2.1 hden.finite hpos.ne'
  simp only [Uscf.newRatingProvisional]
  rw [hx, hy]
  exact E.round_mono _ _ (div_le_div_of_nonneg_right hm hpos.le)

/-- Wins minus losses. -/
theorem balance_mono {α : Type} (rs : List (α × Outcomes × Outcomes))
    (h : ∀ r ∈ rs, pointsR r.2.1 ≤ pointsR r.2.2) :
    -(rs.length : ℤ) ≤ (rs.map fun r => Uscf.fromBool (r.2.1 = .WIN)).sum
      - (rs.map fun r => Uscf.fromBool (r.2.1 = .LOSS)).sum ∧
    (rs.map fun r => Uscf.fromBool (r.2.1 = .WIN)).sum - (rs.map fun r => Uscf.fromBool (r.2.1 = .LOSS)).sum
      ≤ (rs.map fun r => Uscf.fromBool (r.2.2 = .WIN)).sum - (rs.map fun r => Uscf.fromBool (r.2.2 = .LOSS)).sum ∧
    (rs.map fun r => Uscf.fromBool (r.2.2 = .WIN)).sum - (rs.map fun r => Uscf.fromBool (r.2.2 = .LOSS)).sum
      ≤ rs.length := by
  induction rs with
  | nil => simp
  | cons a rs ih =>
    have ih' := ih fun r hr => h r (List.mem_cons_of_mem _ hr)
    have ha := h a List.mem_cons_self
    obtain ⟨x, o, o'⟩ := a
    simp only [List.map_cons, List.sum_cons, List.length_cons, Nat.cast_add, Nat.cast_one] at ih' ⊢
    have key : -1 ≤ Uscf.fromBool (o = .WIN) - Uscf.fromBool (o = .LOSS) ∧
        Uscf.fromBool (o = .WIN) - Uscf.fromBool (o = .LOSS)
          ≤ Uscf.fromBool (o' = .WIN) - Uscf.fromBool (o' = .LOSS) ∧
        Uscf.fromBool (o' = .WIN) - Uscf.fromBool (o' = .LOSS) ≤ 1 := by
      cases o <;> cases o' <;> norm_num [pointsR] at ha <;> simp [Uscf.fromBool]
    omega

theorem established_period_mono (L : E.Lib) {B T n g : ℕ} {r s t e : FP E}
    (c : Uscf.USCFConfig (FP E)) (hr : Within B r) (hc : Within T c.t) (hn : 0 < n) (hg : g < 2 ^ 53)
    (hs : In (E := E) ((0 : ℝ) : EReal) ((n : ℝ) : EReal) s)
    (ht : In (E := E) ((0 : ℝ) : EReal) ((n : ℝ) : EReal) t)
    (he : In (E := E) ((0 : ℝ) : EReal) ((n : ℝ) : EReal) e) (h : s.toR ≤ t.toR)
    (hB : B + 1600 * n + 2 * T < 2 ^ 53) :
    (Uscf.newRating r g n s e c).toE ≤ (Uscf.newRating r g n t e c).toE := by
  have hn' := ofNat_in (E := E) (n := n) (by omega)
  have hn0 : (0 : ℝ) ≤ n := Nat.cast_nonneg n
  have hn1 : (1 : ℝ) ≤ n := by exact_mod_cast hn
  have h800 := lit_in (E := E) (m := 8000) (s := true) (e := 1) (v := 800) (by norm_num)
    (SRep.ofNat 800 (by norm_num))
  have hden := add_in (uscf_effective_in L hr (by omega) hg) hn' (lo := (n : ℝ)) (hi := ((50 + n : ℕ) : ℝ))
    (SRep.nat (by omega)) (SRep.nat (by omega)) (by linarith) (by push_cast; linarith)
  have hk := div_in h800 hden (lo := 0) (hi := 800) (by norm_num) (by linarith) SRep.zero
    (SRep.ofNat 800 (by norm_num)) (by positivity) (by rw [div_le_iff₀ (by linarith)]; linarith)
  have hd : ∀ {s : FP E}, In (E := E) ((0 : ℝ) : EReal) ((n : ℝ) : EReal) s → Within (n : ℝ) (s - e) :=
    fun hs => In.within (sub_in hs he (within_nat (by omega)).neg (within_nat (by omega)) (by linarith)
      (by linarith))
  have d1 := hd hs
  have d2 := hd ht
  have hdm : (s - e).toR ≤ (t - e).toR := by
    refine toR_mono d1.1 d2.1 ?_
    obtain ⟨x, hx⟩ := sub_fin hs.finite he.finite
    obtain ⟨y, hy⟩ := sub_fin ht.finite he.finite
    rw [hx, hy]
    exact E.round_mono _ _ (by linarith)
  simp only [Uscf.newRating]
  set k : FP E := 800.0 / (Uscf.effectiveGameNumber r g + Flt.ofNat n) with hkd
  have hkw : Within 800 k := In.within (hk.mono (by norm_num) le_rfl)
  have hb : ∀ {x : FP E}, Within (n : ℝ) x → Within ((B + 800 * n : ℕ) : ℝ) (Flt.mulAdd k x r) := fun hx =>
    mulAdd_abs_in hkw hx hr (SRep.nat (by omega)) (by push_cast; linarith)
  have b1 := hb d1
  have b2 := hb d2
  have hbm := toR_mono b1.1 b2.1 (mulAdd_mono hk.finite hk.toR.1 d1.1 d2.1 (isFinite.not_nan hr.1) hdm)
  have key : Within ((800 * n + 2 * T : ℕ) : ℝ) (Uscf.getBoostValue n k e s c.t) ∧
      Within ((800 * n + 2 * T : ℕ) : ℝ) (Uscf.getBoostValue n k e t c.t) ∧
      (Uscf.getBoostValue n k e s c.t).toR ≤ (Uscf.getBoostValue n k e t c.t).toR := by
    have hz := lit_in (E := E) (m := 0) (s := true) (e := 1) (v := 0) (by norm_num) SRep.zero
    have ez : FP.toR (0.0 : FP E) = 0 := le_antisymm hz.toR.2 hz.toR.1
    have hT0 : (0 : ℝ) ≤ T := Nat.cast_nonneg T
    have hzw : Within ((800 * n + 2 * T : ℕ) : ℝ) (0.0 : FP E) :=
      In.within (hz.mono (by push_cast; linarith) (by push_cast; linarith))
    simp only [Uscf.getBoostValue]
    by_cases h3 : n < 3
    · simp only [if_pos h3]
      exact ⟨hzw, hzw, le_rfl⟩
    · simp only [if_neg h3]
      have hm4 := ofNat_in (E := E) (n := min n 4) (by omega)
      have hsq : Within 2 (Flt.sqrt (Flt.ofNat (min n 4) : FP E)) := by
        have h0 : (0 : ℝ) ≤ ((min n 4 : ℕ) : ℝ) := Nat.cast_nonneg _
        have h4 : ((min n 4 : ℕ) : ℝ) ≤ 4 := by exact_mod_cast min_le_right n 4
        exact In.within ((sqrt_in (lo := 0) (hi := 2) hm4 h0 SRep.zero (SRep.ofNat 2 (by norm_num))
          (by norm_num) (by norm_num) (by norm_num)).mono (by norm_num) le_rfl)
      have htm : Within ((2 * T : ℕ) : ℝ) (c.t * Flt.sqrt (Flt.ofNat (min n 4) : FP E)) :=
        mul_abs_in hc hsq (SRep.nat (by omega)) (by push_cast; linarith)
      generalize c.t * Flt.sqrt (Flt.ofNat (min n 4) : FP E) = tm at *
      have m1 : ∀ {x : FP E}, Within (n : ℝ) x → Within ((800 * n : ℕ) : ℝ) (k * x) := fun hx =>
        mul_abs_in hkw hx (SRep.nat (by omega)) (by push_cast; linarith)
      have x1 := m1 d1
      have x2 := m1 d2
      have hxm := mul_mono hk.finite d1.1 d2.1 x1.1 x2.1 hk.toR.1 hdm
      generalize k * (s - e) = x at *
      generalize k * (t - e) = y at *
      have s1 : Within ((800 * n + 2 * T : ℕ) : ℝ) (x - tm) :=
        sub_bound x1.1 htm.1 x1.2 htm.2 (SRep.nat (by omega)) (by push_cast; linarith)
      have s2 : Within ((800 * n + 2 * T : ℕ) : ℝ) (y - tm) :=
        sub_bound x2.1 htm.1 x2.2 htm.2 (SRep.nat (by omega)) (by push_cast; linarith)
      have c1 := le_of_finite x1.1 htm.1
      have c2 := le_of_finite x2.1 htm.1
      split_ifs with h4 h5 h5
      · exact ⟨hzw, hzw, le_rfl⟩
      · refine ⟨hzw, s2, ?_⟩
        rw [ez]
        exact (sub_sign x2.1 htm.1 s2.1).1 (not_le.1 fun h => h5 (c2.2 h)).le
      · exact absurd (c1.2 (hxm.trans (c2.1 h5))) h4
      · refine ⟨s1, s2, toR_mono s1.1 s2.1 ?_⟩
        obtain ⟨u, hu⟩ := sub_fin x1.1 htm.1
        obtain ⟨v, hv⟩ := sub_fin x2.1 htm.1
        rw [hu, hv]
        exact E.round_mono _ _ (by linarith)
  obtain ⟨k1, k2, k3⟩ := key
  obtain ⟨u, hu⟩ := add_fin b1.1 k1.1
  obtain ⟨v, hv⟩ := add_fin b2.1 k2.1
  rw [hu, hv]
  exact E.round_mono _ _ (by linarith)

/-- USCF rating periods of any length, provisional and established players: each entry holds an opponent
and two results, the second at least as good as the first. -/
theorem C154_uscf_period (L : E.Lib) (p : Uscf.USCFRating (FP E))
    (rs : List (Uscf.USCFRating (FP E) × Outcomes × Outcomes)) (c : Uscf.USCFConfig (FP E)) (B T : ℕ)
    (hp : Within B p.rating) (hr : ∀ r ∈ rs, Within B r.1.rating) (hc : Within T c.t)
    (hg : p.games < 2 ^ 53) (hB : (rs.length + 8) * (B + 1600) + 2 * T < 2 ^ 53)
    (h : ∀ r ∈ rs, pointsR r.2.1 ≤ pointsR r.2.2) :
    (Uscf.uscfRatingPeriod p (rs.map fun r => (r.1, r.2.1)) c).rating.toE
      ≤ (Uscf.uscfRatingPeriod p (rs.map fun r => (r.1, r.2.2)) c).rating.toE := by
  by_cases hne : rs = []
  · subst hne; exact le_rfl
  have hem : ∀ f : (Uscf.USCFRating (FP E) × Outcomes × Outcomes) → Uscf.USCFRating (FP E) × Outcomes,
      (rs.map f).isEmpty = false := by intro f; simpa using hne
  have hn : 0 < rs.length := List.length_pos_iff.2 hne
  have hB' : rs.length * B + 1600 * rs.length + (8 * B + 12800) + 2 * T < 2 ^ 53 := by
    calc rs.length * B + 1600 * rs.length + (8 * B + 12800) + 2 * T
        = (rs.length + 8) * (B + 1600) + 2 * T := by ring
      _ < 2 ^ 53 := hB
  have hlen : rs.length < 2 ^ 53 := by omega
  have hB1 : B ≤ rs.length * B := Nat.le_mul_of_pos_left B hn
  simp only [Uscf.uscfRatingPeriod, hem, Bool.false_eq_true, if_false, List.map_map, Function.comp_def,
    List.length_map]
  by_cases h8 : p.games ≤ 8
  · simp only [if_pos h8]
    obtain ⟨k1, k2, k3⟩ := balance_mono rs h
    have hO := sum_within (rs.map fun r => r.1.rating) B (by rw [List.length_map]; omega) (by
        intro x hx
        obtain ⟨r, hm, rfl⟩ := List.mem_map.1 hx
        exact hr r hm)
    rw [List.length_map] at hO
    have hN := ofNat_in (E := E) (n := rs.length) hlen
    have hn0 : (0 : ℝ) < rs.length := by exact_mod_cast hn
    have eN : FP.toR (Flt.ofNat rs.length : FP E) = rs.length := le_antisymm hN.toR.2 hN.toR.1
    have hav : Within B (Flt.sum (rs.map fun r => r.1.rating) / Flt.ofNat rs.length) := by
      obtain ⟨x, hx⟩ := div_fin hO.1 hN.finite (by rw [eN]; exact hn0.ne')
      have h2 := abs_le.1 hO.2
      push_cast at h2
      rw [hx, eN]
      refine In.within (In.of_round x (SRep.nat (by omega)).neg (SRep.nat (by omega)) ?_ ?_)
      · rw [le_div_iff₀ hn0]; linarith
      · rw [div_le_iff₀ hn0]; linarith
    refine provisional_period_mono hp hav h8 hn k1 k2 k3 ?_
    calc (rs.length + 8) * (B + 400) ≤ (rs.length + 8) * (B + 1600) := Nat.mul_le_mul_left _ (by omega)
      _ < 2 ^ 53 := lt_of_le_of_lt (Nat.le_add_right _ _) hB
  · simp only [if_neg h8]
    have hs : ∀ o : Outcomes, In (E := E) ((0 : ℝ) : EReal) ((1 : ℝ) : EReal) (o.toChessPoints : FP E) :=
      fun o => (points_in (E := E) o).mono (pointsR_nonneg _) (pointsR_le_one _)
    have hw : ∀ o : Outcomes, Within 1 (o.toChessPoints : FP E) := fun o =>
      In.within ((hs o).mono (by norm_num) le_rfl)
    have hS : ∀ f : (Uscf.USCFRating (FP E) × Outcomes × Outcomes) → Outcomes, _ := fun f =>
      sum_unit_in (rs.map fun r => ((f r).toChessPoints : FP E))
        (by rw [List.length_map]; exact hlen) (by
          intro x hx
          obtain ⟨r, hm, rfl⟩ := List.mem_map.1 hx
          exact hs (f r))
    have hX := sum_unit_in (rs.map fun r => Uscf.eValue p.rating r.1.rating)
      (by rw [List.length_map]; exact hlen) (by
        intro x hx
        obtain ⟨r, hm, rfl⟩ := List.mem_map.1 hx
        exact unit_in (uscf_eValue_in L hp.1 (hr r hm).1))
    have hS1 := hS fun r => r.2.1
    have hS2 := hS fun r => r.2.2
    rw [List.length_map] at hS1 hS2 hX
    refine established_period_mono L c hp hc hn hg hS1 hS2 hX ?_ (by omega)
    exact sum_mono rs _ _ hlen (fun r _ => hw r.2.1) (fun r _ => hw r.2.2) fun r hm =>
      (points_in r.2.1).toR.2.trans ((h r hm).trans (points_in r.2.2).toR.1)

/-! Concrete instances: binary64 with rounding to nearest. -/

example (g : ℕ) (hg : g < 100) : (Uscf.uscfRatingPeriod (F := FP ieee) ⟨1500.0, g⟩
      [(⟨1400.0, 30⟩, .LOSS), (⟨1500.0, 3⟩, .DRAW), (⟨1500.0, 3⟩, .WIN)] ⟨14.0⟩).rating.toE
    ≤ (Uscf.uscfRatingPeriod (F := FP ieee) ⟨1500.0, g⟩
      [(⟨1400.0, 30⟩, .WIN), (⟨1500.0, 3⟩, .DRAW), (⟨1500.0, 3⟩, .WIN)] ⟨14.0⟩).rating.toE :=
  C154_uscf_period ieee_lib ⟨1500.0, g⟩
    [(⟨1400.0, 30⟩, .LOSS, .WIN), (⟨1500.0, 3⟩, .DRAW, .DRAW), (⟨1500.0, 3⟩, .WIN, .WIN)] ⟨14.0⟩ 1500 14
    (sample_within 15000 1500 (by norm_num) (by norm_num))
    (fun r h => by
      simp only [List.mem_cons, List.not_mem_nil, or_false] at h
      rcases h with rfl | rfl | rfl
      · exact (sample_within 14000 1400 (by norm_num) (by norm_num)).mono (by norm_num)
      · exact sample_within 15000 1500 (by norm_num) (by norm_num)
      · exact sample_within 15000 1500 (by norm_num) (by norm_num))
    (sample_within 140 14 (by norm_num) (by norm_num)) (by simp only; omega) (by norm_num)
    (by norm_num [pointsR])

end Skillratings
