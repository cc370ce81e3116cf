import Verif.Proofs.FPBoost
/-
Rounding errors of a Glicko-Boost update, from the sums over the games.
-/

namespace Skillratings
open FP FPVal Spec
variable {E : FloatEnv}

/-- Parameters of moderate size. -/
structure BoostConfigUsual (c : GlickoBoost.GlickoBoostConfig (FP E)) : Prop where
  eta : Within (2 ^ 10) c.eta
  k : Within 4 c.k
  b0 : Between 0 1 c.b.1
  b1 : Between 0 100 c.b.2
  a0 : Within 20 c.alpha.a0
  a1 : Within (1 / 1000) c.alpha.a1
  a2 : Within (1 / 2000) c.alpha.a2
  a3 : Within (1 / 100) c.alpha.a3
  a4 : Within (1 / 500) c.alpha.a4

/-- The standardised performance. -/
theorem boost_z {m s : FP E} {M D n : ℝ} (n1 : 1 ≤ n) (n2 : n ≤ 64) (hm : Near (n * (1224 / 2 ^ 50)) m M)
    (hM : |M| ≤ n) (hs : Rel 18160 s D) (hD : n * (43 / 10000) ≤ D) (hD1 : D ≤ n) :
    (m / Flt.sqrt s).isFinite ∧
      |(m / Flt.sqrt s).toR - M / √D| ≤ (18200 * |M / √D| + 160000) / 2 ^ 50 ∧ |M / √D| ≤ 123 := by
  have D0 : 0 < D := lt_of_lt_of_le (by positivity) hD
  have hY : n / 123 ≤ √D := by
    refine Real.le_sqrt_of_sq_le (le_trans ?_ hD)
    nlinarith
  have hY0 : 0 < √D := Real.sqrt_pos.2 D0
  have hY1 : √D ≤ 8 := by
    rw [Real.sqrt_le_iff]; constructor <;> norm_num; linarith
  have mid : Mid 7 √D := ⟨by norm_num; linarith, by norm_num; linarith⟩
  have mid' := mid.mono (show 7 ≤ 900 by norm_num)
  obtain ⟨fy, β, hβ, ey⟩ := rel_sqrt hs D0 (by norm_num) mid'.1 mid'.2
  have hβ1 : |β| ≤ 1 / 2 ^ 30 := hβ.trans (by norm_num)
  have hb := abs_le.1 hβ1
  have hb0 : 0 < 1 + β := by norm_num at hb ⊢; linarith [hb.1]
  set Y := √D with hYd
  have hne : (Flt.sqrt s).toR ≠ 0 := by rw [ey]; positivity
  obtain ⟨t, e⟩ := div_fin hm.1 fy hne
  set Z := M / Y with hZ
  have hZ1 : |Z| ≤ 123 := by
    rw [hZ, abs_div, abs_of_pos hY0, div_le_iff₀ hY0]; linarith
  set μ := m.toR - M with hμ
  have hμ1 : |μ / Y| ≤ 150552 / 2 ^ 50 := by
    rw [abs_div, abs_of_pos hY0, div_le_iff₀ hY0]
    have := hm.2
    norm_num at this ⊢; linarith
  have hv : m.toR / (Flt.sqrt s).toR - Z = (μ / Y - β * Z) / (1 + β) := by
    rw [ey, hZ, hμ]; field_simp; ring
  have hnum : |μ / Y - β * Z| ≤ 150552 / 2 ^ 50 + 18161 / 2 ^ 50 * |Z| := by
    refine (abs_sub _ _).trans (add_le_add hμ1 ?_)
    rw [abs_mul]
    exact mul_le_mul_of_nonneg_right (hβ.trans (by norm_num)) (abs_nonneg _)
  have hv1 : |m.toR / (Flt.sqrt s).toR - Z| ≤ (150600 + 18163 * |Z|) / 2 ^ 50 := by
    rw [hv, abs_div, abs_of_pos hb0, div_le_iff₀ hb0]
    have hz0 := abs_nonneg Z
    refine hnum.trans ?_
    have : (150600 + 18163 * |Z|) / 2 ^ 50 * (1 - 1 / 2 ^ 30) ≤ (150600 + 18163 * |Z|) / 2 ^ 50 * (1 + β) :=
      mul_le_mul_of_nonneg_left (by linarith [hb.1]) (by positivity)
    refine le_trans ?_ this
    norm_num; linarith
  have hbig : |m.toR / (Flt.sqrt s).toR| ≤ |Z| + 1 := by
    rw [show m.toR / (Flt.sqrt s).toR = Z + (m.toR / (Flt.sqrt s).toR - Z) by ring]
    refine (abs_add_le _ _).trans (add_le_add_right (hv1.trans ?_) _)
    norm_num; linarith
  have r1 := round_small (E := E) t hbig (by
    have h0 := abs_nonneg Z
    refine le_trans ?_ (le_add_of_nonneg_left h0)
    rw [div_le_one (by positivity)]; exact one_le_pow₀ (by norm_num)) (by
    have : |Z| + 1 ≤ 2 ^ 7 := by norm_num; linarith
    exact this.trans (pow_le_pow_right₀ (by norm_num) (by norm_num)))
  rw [e]
  refine ⟨r1.1, ?_, hZ1⟩
  have h3 := r1.2
  change |(E.round t (m.toR / (Flt.sqrt s).toR)).toR - Z| ≤ _
  rw [show (E.round t (m.toR / (Flt.sqrt s).toR)).toR - Z
    = ((E.round t (m.toR / (Flt.sqrt s).toR)).toR - m.toR / (Flt.sqrt s).toR) + (m.toR / (Flt.sqrt s).toR - Z) by ring]
  refine (abs_add_le _ _).trans ((add_le_add h3 hv1).trans ?_)
  have hz0 := abs_nonneg Z
  norm_num; linarith

/-- Combining a deviation with the information of the games. -/
theorem posterior_ap (L : E.Lib) {x w : FP E} {V I κ K : ℝ} {N : ℕ} (hx : Ap κ N x V) (hw : Ap 18200 28 w I)
    (h1 : 2 * κ + 2 ≤ K) (h2 : 18202 ≤ K) (h3 : K ≤ 2 ^ 21) (hN : N ≤ 40) (hN' : 14 ≤ N) :
    Ap (K + 3) (2 * N + 1) (Flt.sqrt (Flt.recip (Flt.recip (Flt.powi x 2) + Flt.recip (Flt.recip w))))
      √(posterior (V ^ 2) I) := by
  have k0 := hx.1.nonneg
  have a1 := (hx.sq L (by norm_num at h3 ⊢; linarith) (by omega)).recip (by norm_num at h3 ⊢; linarith) (by omega)
  have a2 := (hw.recip (by norm_num) (by norm_num)).recip (by norm_num) (by norm_num)
  rw [one_div_one_div] at a2
  have a3 := (a1.mono (k' := K) (n' := 2 * N) (by linarith) (by omega)).add
    (a2.mono (by linarith) (by omega)) (by norm_num at h3 ⊢; linarith) (by omega)
  have a4 := (a3.recip (by norm_num at h3 ⊢; linarith) (by omega)).sqrt (by norm_num at h3 ⊢; linarith) (by omega)
  exact a4.mono (by linarith) le_rfl

theorem cap_ap : Rel 0 (350.0 : FP E) 350 :=
  lit_rel (lit_in (E := E) (m := 3500) (s := true) (e := 1) (v := 350) (by norm_num) (SRep.ofNat 350 (by norm_num)))

/-- The factor of the boost. -/
theorem boost_factor {z k b : FP E} {Z k' : ℝ} (hz : z.isFinite)
    (hzZ : |z.toR - Z| ≤ (18200 * |Z| + 160000) / 2 ^ 50) (hZ : |Z| ≤ 123) (hk : Within 4 k) (hb : Between 0 1 b)
    (hk' : |k' - k.toR| ≤ 235000 / 2 ^ 50) (hlt : k' < Z) :
    Ap 470000 8 (Flt.mulAdd (z - k) b (1.0 : FP E)) (1 + (Z - k') * b.toR) := by
  obtain ⟨fb, b0, b1⟩ := hb
  have k4 := abs_le.1 hk.2
  have hk'' := abs_le.1 hk'
  have hZ2 := abs_le.1 hZ
  have z0 := abs_nonneg Z
  have hk'3 : k' ≤ 4 + 1 / 2 ^ 30 ∧ -(4 + 1 / 2 ^ 30) ≤ k' := by
    norm_num at hk'' ⊢; constructor <;> linarith [hk''.1, hk''.2]
  have hC1 : 1 ≤ 1 + (Z - k') * b.toR := by
    have := mul_nonneg (sub_pos.2 hlt).le b0
    linarith
  have hbZ : b.toR * |Z| ≤ 4 * (1 + (Z - k') * b.toR) + 1 / 2 ^ 29 := by
    have h1 : |Z| ≤ (Z - k') + (4 + 1 / 2 ^ 30) := by
      rcases abs_cases Z with ⟨h, _⟩ | ⟨h, _⟩
      · rw [h]; linarith [hk'3.2]
      · rw [h]; linarith [hk'3.2, hk'3.1]
    have h2 := mul_le_mul_of_nonneg_left h1 b0
    have h3 : b.toR * (4 + 1 / 2 ^ 30) ≤ 1 * (4 + 1 / 2 ^ 30) := mul_le_mul_of_nonneg_right b1 (by norm_num)
    have h4 := mul_nonneg (sub_pos.2 hlt).le b0
    norm_num at h2 h3 ⊢
    nlinarith
  have hC2 : 1 + (Z - k') * b.toR ≤ 129 := by
    have : (Z - k') * b.toR ≤ 128 * 1 := mul_le_mul (by linarith [hZ2.2, hk'3.2, show (1 : ℝ) / 2 ^ 30 ≤ 1 by norm_num]) b1 b0 (by norm_num)
    linarith
  have s1 := (near_sub (show Near ((18200 * |Z| + 160000) / 2 ^ 50) z Z from ⟨hz, hzZ⟩) hk.near (M := 128) (by
    have := (abs_sub Z k.toR).trans (add_le_add hZ hk.2)
    norm_num at this ⊢; linarith) (by norm_num) (le_huge 8 (by norm_num) (by norm_num))).mono
    (δ := (18200 * |Z| + 160100) / 2 ^ 50) (by norm_num; linarith)
  -- with the shifted threshold
  set C := 1 + (Z - k') * b.toR with hC
  have e1 : (Z - k.toR) * b.toR + 1 = C + (k' - k.toR) * b.toR := by rw [hC]; ring
  have hshift : |(k' - k.toR) * b.toR| ≤ 235000 / 2 ^ 50 := by
    rw [abs_mul, abs_of_nonneg b0]
    calc _ ≤ 235000 / 2 ^ 50 * 1 := mul_le_mul hk' b1 b0 (by norm_num)
      _ = _ := mul_one _
  have hbz : (18200 * |Z| + 160100) / 2 ^ 50 * b.toR ≤ (233000 * C) / 2 ^ 50 := by
    have : (18200 * |Z| + 160100) * b.toR ≤ 233000 * C := by
      norm_num at hbZ
      nlinarith
    calc _ = ((18200 * |Z| + 160100) * b.toR) / 2 ^ 50 := by ring
      _ ≤ _ := by gcongr
  have hone := near_of_in (one_in (E := E))
  have n := near_mulAdd s1 (near_self fb) hone (M := 2 * C) (by
    rw [e1, abs_of_nonneg b0]
    have h5 := abs_add_le C ((k' - k.toR) * b.toR)
    rw [abs_of_nonneg (by linarith : 0 ≤ C)] at h5
    norm_num at h5 hshift hbz ⊢
    linarith) (by linarith) ((by linarith : 2 * C ≤ 258).trans (le_huge 9 (by norm_num) (by norm_num)))
  rw [e1, abs_of_nonneg b0] at n
  refine ⟨Rel.of_near (by linarith) ⟨n.1, ?_⟩, by norm_num; linarith, by norm_num; linarith⟩
  have h6 := n.2
  rw [show (Flt.mulAdd (z - k) b (1.0 : FP E)).toR - C = ((Flt.mulAdd (z - k) b (1.0 : FP E)).toR
    - (C + (k' - k.toR) * b.toR)) + (k' - k.toR) * b.toR by ring]
  refine (abs_add_le _ _).trans ((add_le_add h6 hshift).trans ?_)
  norm_num at hbz ⊢
  linarith

open Classical in
/-- The new deviation: up to rounding the one of a threshold that may be moved slightly when the
performance is at the threshold. -/
theorem boost_deviation (L : E.Lib) {old w z : FP E} {I Z : ℝ} {c : GlickoBoost.GlickoBoostConfig (FP E)}
    (ho : Between (1 / 2 ^ 10) 350 old) (hw : Ap 18200 28 w I) (hz : z.isFinite)
    (hzZ : |z.toR - Z| ≤ (18200 * |Z| + 160000) / 2 ^ 50) (hZ : |Z| ≤ 123) (hc : BoostConfigUsual c) :
    ∃ k' : ℝ, |k' - c.k.toR| ≤ 1 / 2 ^ 30 ∧ (c.k.toR = 0 → k' = 0) ∧
      (1 / 2 ^ 30 < |Z - c.k.toR| → k' = c.k.toR) ∧
      Ap 990000 90 (GlickoBoost.newDeviation old (Flt.recip w) z c)
        (min √(posterior ((if k' < Z ∧ k' ≠ 0 then
          (1 + (Z - k') * c.b.1.toR) * √(posterior (old.toR ^ 2) I) + c.b.2.toR else old.toR) ^ 2) I) 350) := by
  have hold : Ap 0 14 old old.toR := ⟨Rel.exact ho.1, (show Mid 10 old.toR from ⟨ho.2.1, ho.2.2.trans (by norm_num)⟩).mono (by norm_num)⟩
  have after := posterior_ap L (K := 18202) hold hw (by norm_num) le_rfl (by norm_num) (by norm_num) le_rfl
  have cap : ∀ {x : FP E} {a κ : ℝ} {N : ℕ}, Ap κ N x a → κ ≤ 990000 → 9 ≤ N → N ≤ 90 →
      Ap 990000 90 (Flt.fmin x (350.0 : FP E)) (min a 350) := by
    intro x a κ N h h1 h2 h3
    refine ⟨(rel_cap h.1 cap_ap h.2.pos (by norm_num) (by linarith)).mono h1, ?_, ?_⟩
    · refine le_min ((h.2.mono h3).1) (le_trans ?_ (show (1 : ℝ) ≤ 350 by norm_num))
      rw [div_le_one (by positivity)]; exact one_le_pow₀ (by norm_num)
    · exact (min_le_left _ _).trans (h.2.mono h3).2
  have k4 := abs_le.1 hc.k.2
  have hZ2 := abs_le.1 hZ
  have z0 := abs_nonneg Z
  have hclose := abs_le.1 hzZ
  have hztiny : (18200 * |Z| + 160000) / 2 ^ 50 ≤ 1 / 2 ^ 28 := by norm_num; linarith
  -- the computed branch
  have branch : ((c.k <? z) && !(c.k ==? (0.0 : FP E))) = true ↔ c.k.toR < z.toR ∧ c.k.toR ≠ 0 := by
    have h0 : (0.0 : FP E).toR = 0 := le_antisymm (zero_in (E := E)).toR.2 (zero_in (E := E)).toR.1
    rw [Bool.and_eq_true, lt_iff_toR hc.k.1 hz, Bool.not_eq_true', ← Bool.not_eq_true,
      feq_iff_toR hc.k.1 (zero_in (E := E)).finite, h0]
  -- the outcome of each branch
  have boosted : c.k.toR < z.toR ∧ c.k.toR ≠ 0 → ∀ k' : ℝ, |k' - c.k.toR| ≤ 235000 / 2 ^ 50 → k' < Z →
      Ap 990000 90 (GlickoBoost.newDeviation old (Flt.recip w) z c)
        (min √(posterior (((1 + (Z - k') * c.b.1.toR) * √(posterior (old.toR ^ 2) I) + c.b.2.toR) ^ 2) I) 350) := by
    intro h k' hk' hlt
    rw [GlickoBoost.newDeviation, if_pos (branch.2 h)]
    have f := boost_factor hz hzZ hZ hc.k hc.b0 hk' hlt
    have b1 := hc.b1
    have hmm := f.2.mul after.2
    have mid : Mid 38 ((1 + (Z - k') * c.b.1.toR) * √(posterior (old.toR ^ 2) I) + c.b.2.toR) := by
      refine ⟨(hmm.mono (show 8 + (2 * 14 + 1) ≤ 38 by norm_num)).1.trans (by linarith [b1.2.1]), ?_⟩
      have := hmm.2
      have h2 := b1.2.2
      norm_num at this ⊢
      linarith
    have mid9 := mid.mono (show 38 ≤ 900 by norm_num)
    have p := rel_mulAdd_exact f.1 after.1 f.2.pos after.2.pos b1.1 b1.2.1 (by norm_num) (by norm_num) mid9.1 mid9.2
    have q := posterior_ap L (K := 980000) (show Ap 489000 38 _ _ from ⟨p.mono (by norm_num), mid⟩) hw
      (by norm_num) (by norm_num) (by norm_num) (by norm_num) (by norm_num)
    exact cap q (by norm_num) (by norm_num) (by norm_num)
  have plain : ¬ (c.k.toR < z.toR ∧ c.k.toR ≠ 0) →
      Ap 990000 90 (GlickoBoost.newDeviation old (Flt.recip w) z c) (min √(posterior (old.toR ^ 2) I) 350) := by
    intro h
    rw [GlickoBoost.newDeviation, if_neg (fun hb => h (branch.1 hb))]
    exact cap after (by norm_num) (by norm_num) (by norm_num)
  by_cases hk0 : c.k.toR = 0
  · refine ⟨0, by rw [hk0]; norm_num, fun _ => rfl, fun _ => hk0.symm, ?_⟩
    rw [if_neg (by simp)]
    exact plain (fun h => h.2 hk0)
  by_cases hb : c.k.toR < z.toR
  · by_cases hkZ : c.k.toR < Z
    · refine ⟨c.k.toR, by simp, fun h => h, fun _ => rfl, ?_⟩
      rw [if_pos ⟨hkZ, hk0⟩]
      exact boosted ⟨hb, hk0⟩ _ (by simp; norm_num) hkZ
    · have hZk : Z ≤ c.k.toR := not_lt.1 hkZ
      have hZabs : |Z| ≤ 4 + 1 / 2 ^ 28 := by
        rw [abs_le]; constructor <;> linarith [k4.1, k4.2, hclose.2, show (0 : ℝ) ≤ 1 / 2 ^ 28 by norm_num]
      have hd : c.k.toR - Z ≤ 233000 / 2 ^ 50 := by
        have := hclose.2
        norm_num at this hZabs ⊢
        linarith
      obtain ⟨k', h1, h2, h3⟩ : ∃ k' : ℝ, k' < Z ∧ Z - 2 / 2 ^ 50 ≤ k' ∧ k' ≠ 0 := by
        by_cases h : Z - 1 / 2 ^ 50 = 0
        · exact ⟨Z - 2 / 2 ^ 50, by norm_num, le_rfl, by
            intro h'; have : (1 : ℝ) / 2 ^ 50 = 2 / 2 ^ 50 := by linarith
            norm_num at this⟩
        · exact ⟨Z - 1 / 2 ^ 50, by linarith [show (0 : ℝ) < 1 / 2 ^ 50 by norm_num],
            by linarith [show (1 : ℝ) / 2 ^ 50 ≤ 2 / 2 ^ 50 by norm_num], h⟩
      have hk' : |k' - c.k.toR| ≤ 235000 / 2 ^ 50 := by
        rw [abs_le]; norm_num at h2 hd ⊢; constructor <;> linarith
      refine ⟨k', hk'.trans (by norm_num), fun h => absurd h hk0, fun h => ?_, ?_⟩
      · exfalso
        rw [abs_of_nonpos (by linarith)] at h
        norm_num at h hd; linarith
      · rw [if_pos ⟨h1, h3⟩]
        exact boosted ⟨hb, hk0⟩ k' hk' h1
  · by_cases hkZ : c.k.toR < Z
    · have hzk : z.toR ≤ c.k.toR := not_lt.1 hb
      have hZabs : |Z| ≤ 4 + 1 / 2 ^ 28 := by
        rw [abs_le]; constructor <;> linarith [k4.1, k4.2, hclose.1, show (0 : ℝ) ≤ 1 / 2 ^ 28 by norm_num]
      have hd : Z - c.k.toR ≤ 233000 / 2 ^ 50 := by
        have := hclose.1
        norm_num at this hZabs ⊢
        linarith
      have hk' : |Z - c.k.toR| ≤ 1 / 2 ^ 30 := by
        rw [abs_le]; norm_num at hd ⊢; constructor <;> linarith
      refine ⟨Z, hk', fun h => absurd h hk0, fun h => absurd hk' (not_le.2 h), ?_⟩
      rw [if_neg (fun h => lt_irrefl _ h.1)]
      exact plain (fun h => hb h.1)
    · refine ⟨c.k.toR, by simp, fun h => h, fun _ => rfl, ?_⟩
      rw [if_neg (fun h => hkZ h.1)]
      exact plain (fun h => hb h.1)

/-- The exponent of the increase at the end of a period. -/
theorem boost_poly (L : E.Lib) {dev x : FP E} {c : GlickoBoost.GlickoBoostConfig (FP E)} {δ X ed ex : ℝ}
    (hc : BoostConfigUsual c) (hd : Near ed dev δ) (hδ : |δ| ≤ 350) (hx : Near ex x X) (hX : |X| ≤ 54)
    (hed : ed ≤ 1 / 2 ^ 20) (hex : ex ≤ 1 / 2 ^ 20) :
    Near (3 / 100 * ed + 41 / 100 * ex + 1 / 2 ^ 43) (Flt.mulAdd c.alpha.a4 (Flt.powi x 2)
        (Flt.mulAdd c.alpha.a3 x (Flt.mulAdd (c.alpha.a2 * dev) x (Flt.mulAdd c.alpha.a1 dev c.alpha.a0))))
      (c.alpha.a4.toR * X ^ 2 + (c.alpha.a3.toR * X + (c.alpha.a2.toR * δ * X
        + (c.alpha.a1.toR * δ + c.alpha.a0.toR)))) ∧
    |c.alpha.a4.toR * X ^ 2 + (c.alpha.a3.toR * X + (c.alpha.a2.toR * δ * X
        + (c.alpha.a1.toR * δ + c.alpha.a0.toR)))| ≤ 40 := by
  have ed0 : 0 ≤ ed := (abs_nonneg _).trans hd.2
  have ex0 : 0 ≤ ex := (abs_nonneg _).trans hx.2
  obtain ⟨-, -, -, -, ⟨f0, b0⟩, ⟨f1, b1⟩, ⟨f2, b2⟩, ⟨f3, b3⟩, ⟨f4, b4⟩⟩ := hc
  generalize ha0 : c.alpha.a0.toR = a0 at *
  generalize ha1 : c.alpha.a1.toR = a1 at *
  generalize ha2 : c.alpha.a2.toR = a2 at *
  generalize ha3 : c.alpha.a3.toR = a3 at *
  generalize ha4 : c.alpha.a4.toR = a4 at *
  have n0 : Near 0 c.alpha.a0 a0 := ha0 ▸ near_self f0
  have n1 : Near 0 c.alpha.a1 a1 := ha1 ▸ near_self f1
  have n2 : Near 0 c.alpha.a2 a2 := ha2 ▸ near_self f2
  have n3 : Near 0 c.alpha.a3 a3 := ha3 ▸ near_self f3
  have n4 : Near 0 c.alpha.a4 a4 := ha4 ▸ near_self f4
  have prod : ∀ {u v U V : ℝ}, |u| ≤ U → |v| ≤ V → |u * v| ≤ U * V := by
    intro u v U V hu hv
    rw [abs_mul]; exact mul_le_mul hu hv (abs_nonneg _) ((abs_nonneg _).trans hu)
  have big : ∀ M : ℝ, M ≤ 2 ^ 12 → M ≤ 2 ^ 1000 := fun M h => h.trans (le_huge 12 (by norm_num) (by norm_num))
  -- the constant and the deviation
  have s1 := prod b1 hδ
  have S1 : |a1 * δ + a0| ≤ 21 := (abs_add_le _ _).trans ((add_le_add s1 b0).trans (by norm_num))
  have e1 : |a1| * ed ≤ 1 / 1000 * ed := mul_le_mul_of_nonneg_right b1 ed0
  have t1 := (near_mulAdd n1 hd n0 (M := 22) (by
    generalize |a1 * δ + a0| = q at *; generalize |a1| * ed = q2 at *
    norm_num at S1 e1 hed ⊢; linarith) (by norm_num) (big _ (by norm_num))).mono
    (δ := 1 / 1000 * ed + 22 / 2 ^ 51) (by
      generalize |a1| * ed = q2 at *
      norm_num at e1 ⊢; linarith)
  -- the product of the deviation and the rating
  have s2 := prod b2 hδ
  have e2 : |a2| * ed ≤ 1 / 2000 * ed := mul_le_mul_of_nonneg_right b2 ed0
  have t2 := (near_mul n2 hd (M := 1) (by
    generalize |a2 * δ| = q at *; generalize |a2| * ed = q2 at *
    norm_num at s2 e2 hed ⊢; linarith) le_rfl (big _ (by norm_num))).mono
    (δ := 1 / 2000 * ed + 1 / 2 ^ 51) (by
      generalize |a2| * ed = q2 at *
      norm_num at e2 ⊢; linarith)
  have s3 := prod s2 hX
  have S3 : |a2 * δ * X + (a1 * δ + a0)| ≤ 31 := (abs_add_le _ _).trans ((add_le_add s3 S1).trans (by norm_num))
  have e3 : |a2 * δ| * ex ≤ 1 / 2000 * 350 * ex := mul_le_mul_of_nonneg_right s2 ex0
  have e3' : (1 / 2000 * ed + 1 / 2 ^ 51) * |X| ≤ (1 / 2000 * ed + 1 / 2 ^ 51) * 54 :=
    mul_le_mul_of_nonneg_left hX (by positivity)
  have e3'' : (1 / 2000 * ed + 1 / 2 ^ 51) * ex ≤ (1 / 2000 * ed + 1 / 2 ^ 51) * (1 / 2 ^ 20) :=
    mul_le_mul_of_nonneg_left hex (by positivity)
  have t3 := (near_mulAdd t2 hx t1 (M := 32) (by
    generalize |a2 * δ * X + (a1 * δ + a0)| = q at *; generalize |a2 * δ| * ex = q2 at *
    generalize (1 / 2000 * ed + 1 / 2 ^ 51) * ex = q3 at *
    generalize (1 / 2000 * ed + 1 / 2 ^ 51) * |X| = q4 at *
    norm_num at S3 e3 e3' e3'' hed hex ⊢; linarith) (by norm_num) (big _ (by norm_num))).mono
    (δ := 281 / 10000 * ed + 176 / 1000 * ex + 112 / 2 ^ 51) (by
    generalize |a2 * δ| * ex = q2 at *
    generalize (1 / 2000 * ed + 1 / 2 ^ 51) * ex = q3 at *
    generalize (1 / 2000 * ed + 1 / 2 ^ 51) * |X| = q4 at *
    norm_num at e3 e3' e3'' ⊢; linarith)
  -- the rating
  have s4 := prod b3 hX
  have S4 : |a3 * X + (a2 * δ * X + (a1 * δ + a0))| ≤ 32 :=
    (abs_add_le _ _).trans ((add_le_add s4 S3).trans (by norm_num))
  have e4 : |a3| * ex ≤ 1 / 100 * ex := mul_le_mul_of_nonneg_right b3 ex0
  have t4 := (near_mulAdd n3 hx t3 (M := 33) (by
    generalize |a3 * X + (a2 * δ * X + (a1 * δ + a0))| = q at *; generalize |a3| * ex = q2 at *
    norm_num at S4 e4 hed hex ⊢; linarith) (by norm_num) (big _ (by norm_num))).mono
    (δ := 281 / 10000 * ed + 186 / 1000 * ex + 146 / 2 ^ 51) (by
      generalize |a3| * ex = q2 at *
      norm_num at e4 ⊢; linarith)
  -- its square
  have sq := prod hX hX
  have e5 : ex * |X| ≤ ex * 54 := mul_le_mul_of_nonneg_left hX ex0
  have e5' : ex * ex ≤ ex * (1 / 2 ^ 20) := mul_le_mul_of_nonneg_left hex ex0
  have t5 := (near_mul hx hx (M := 3000) (by
    rw [mul_comm |X| ex]
    generalize |X * X| = q at *; generalize ex * |X| = q2 at *
    generalize ex * ex = q3 at *
    norm_num at sq e5 e5' hex ⊢; linarith) (by norm_num) (big _ (by norm_num))).mono
    (δ := 109 * ex + 3000 / 2 ^ 51) (by
    rw [mul_comm |X| ex]
    generalize ex * |X| = q2 at *
    generalize ex * ex = q3 at *
    norm_num at e5 e5' ⊢; linarith)
  have ep : Flt.powi x 2 = x * x := L.powi_two x
  rw [ep, pow_two]
  have s6 := prod b4 sq
  have S6 : |a4 * (X * X) + (a3 * X + (a2 * δ * X + (a1 * δ + a0)))| ≤ 40 :=
    (abs_add_le _ _).trans ((add_le_add s6 S4).trans (by norm_num))
  have e6 : |a4| * (109 * ex + 3000 / 2 ^ 51) ≤ 1 / 500 * (109 * ex + 3000 / 2 ^ 51) :=
    mul_le_mul_of_nonneg_right b4 (by positivity)
  refine ⟨(near_mulAdd n4 t5 t4 (M := 41) ?_ (by norm_num) (big _ (by norm_num))).mono ?_, S6⟩
  · generalize |a4 * (X * X) + (a3 * X + (a2 * δ * X + (a1 * δ + a0)))| = q at *
    generalize |a4| * (109 * ex + 3000 / 2 ^ 51) = q2 at *
    norm_num at S6 e6 hed hex ⊢; linarith
  · generalize |a4| * (109 * ex + 3000 / 2 ^ 51) = q2 at *
    norm_num at e6 ⊢; linarith

/-- The same parameters in exact arithmetic. -/
noncomputable def boostExactConfig (c : GlickoBoost.GlickoBoostConfig (FP E)) : GlickoBoost.GlickoBoostConfig ℝ :=
  ⟨c.eta.toR, c.k.toR, (c.b.1.toR, c.b.2.toR),
    ⟨c.alpha.a0.toR, c.alpha.a1.toR, c.alpha.a2.toR, c.alpha.a3.toR, c.alpha.a4.toR⟩⟩

/-- The same parameters in exact arithmetic, with another threshold. -/
noncomputable def boostExactAt (c : GlickoBoost.GlickoBoostConfig (FP E)) (k : ℝ) : GlickoBoost.GlickoBoostConfig ℝ :=
  { boostExactConfig c with k := k }

/-- The increase at the end of a period. -/
theorem boost_end_near (L : E.Lib) (A : E.Accurate) {dev rating : FP E} {c : GlickoBoost.GlickoBoostConfig (FP E)}
    {δ R κ ρ τ k : ℝ} (hc : BoostConfigUsual c) (hd : Ap κ 90 dev δ) (hδ : δ ≤ 350) (hκ : κ ≤ 990000)
    (hr : Near ρ rating R) (hR : |R| ≤ 53400) (hρ : ρ ≤ 1 / 2 ^ 12) (hκτ : 2 * κ + 1 / 4 ≤ 2 * τ + 2)
    (hτ : τ ≤ 2 ^ 26) (h : 3 / 100 * (κ / 2 ^ 50 * 350) + 41 / 100 * (ρ / 1000 + 1 / 2 ^ 45) + 1 / 2 ^ 43 ≤ τ / 2 ^ 50) :
    Near ((2 * τ + 4) / 2 ^ 50 * 350) (GlickoBoost.endDeviation dev rating c)
      (boostEnd (GlickoBoost.params (boostExactAt c k)) δ R) := by
  have κ0 := hd.1.nonneg
  have δ0 := hd.2.pos
  have ρ0 : 0 ≤ ρ := (abs_nonneg _).trans hr.2
  have h1000 := near_of_in (lit_in (E := E) (m := 10000) (s := true) (e := 1) (v := 1000) (by norm_num)
    (SRep.ofNat 1000 (by norm_num)))
  have x1 := (near_div_const hr h1000 (by norm_num) (M := 54) (by
    rw [div_le_iff₀ (by norm_num)]; norm_num at hρ ⊢; linarith) (by norm_num)
    (le_huge 12 (by norm_num) (by norm_num))).mono (δ := ρ / 1000 + 1 / 2 ^ 45) (by norm_num)
  have X1 : |R / 1000| ≤ 54 := by
    rw [abs_div, abs_of_pos (by norm_num : (0 : ℝ) < 1000), div_le_iff₀ (by norm_num)]; linarith
  have d1 := (hd.1.near δ0.le).mono (δ := κ / 2 ^ 50 * 350) (mul_le_mul_of_nonneg_left hδ (by positivity))
  obtain ⟨t1, t2⟩ := boost_poly L hc d1 (by rw [abs_of_pos δ0]; exact hδ) x1 X1
    (by norm_num at hκ ⊢; linarith) (by norm_num at hρ ⊢; linarith)
  have ex := exp_rel_big A (t1.mono h) (t2.trans (by norm_num)) hτ
  set T := c.alpha.a4.toR * (R / 1000) ^ 2 + (c.alpha.a3.toR * (R / 1000) + (c.alpha.a2.toR * δ * (R / 1000)
        + (c.alpha.a1.toR * δ + c.alpha.a0.toR))) with hT
  have mid : Mid 301 (δ * δ + Real.exp T) := ((hd.2.mul hd.2).mono (by norm_num)).add ex.2
  have mid9 := mid.mono (show 301 ≤ 900 by norm_num)
  have sqm := mid.sqrt.mono (show 301 ≤ 900 by norm_num)
  have s := rel_square_add hd.1 ex.1 δ0 ex.2.pos (by norm_num at hκ ⊢; linarith) (by norm_num at hτ ⊢; linarith)
    hκτ mid9.1 mid9.2
  have s2 := rel_sqrt_big s mid.pos (by norm_num at hτ ⊢; linarith) sqm.1 sqm.2
  have s3 := rel_cap_big s2 cap_ap sqm.pos (by norm_num) (by norm_num at hτ ⊢; linarith)
  have e : boostEnd (GlickoBoost.params (boostExactAt c k)) δ R = min √(δ * δ + Real.exp T) 350 := by
    simp only [boostEnd, GlickoBoost.params, boostExactAt, boostExactConfig, hT]
    rw [show c.alpha.a0.toR + c.alpha.a1.toR * δ + c.alpha.a2.toR * δ * (R / 1000) + c.alpha.a3.toR * (R / 1000)
      + c.alpha.a4.toR * (R / 1000) ^ 2 = c.alpha.a4.toR * (R / 1000) ^ 2 + (c.alpha.a3.toR * (R / 1000)
      + (c.alpha.a2.toR * δ * (R / 1000) + (c.alpha.a1.toR * δ + c.alpha.a0.toR))) by ring, pow_two δ]
  rw [e]
  have τ0 : 0 ≤ 2 * τ + 4 := by linarith
  refine (s3.near (le_min (Real.sqrt_nonneg _) (by norm_num))).mono ?_
  exact mul_le_mul (div_le_div_of_nonneg_right (by linarith) (by positivity)) (min_le_right _ _) (le_min (Real.sqrt_nonneg _) (by norm_num)) (by positivity)

end Skillratings
