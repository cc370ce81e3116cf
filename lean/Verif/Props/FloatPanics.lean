import Verif.Props.FloatWeights
/-
C107, continued: `trueskill_multi_team` panics in floating point for uncertainties that are not
zero but so small that their square is, and never otherwise.
-/

namespace Skillratings
open FP FPVal Spec
variable {E : FloatEnv}

namespace TrueSkill

private theorem sq_atLeast {u : FP E} {k : ℕ} (hk : 2 * k ≤ 960)
    (hu : AtLeast (E := E) (1 / 2 ^ k) (Flt.abs u)) :
    AtLeast (E := E) (1 / 2 ^ (2 * k)) (u * u) := by
  obtain ⟨h1, h2⟩ := hu
  by_cases hf : u.isFinite
  · obtain ⟨s, hs⟩ := mul_fin hf hf
    rw [hs]
    refine ⟨E.round_not_nan _ _, E.round_ge s (SRep.inv_two_pow _ (by omega)) ?_⟩
    have h3 : (1 / 2 ^ k : ℝ) ≤ |u.toR| := by
      cases u with
      | nan => exact hf.elim
      | inf => exact hf.elim
      | fin t m =>
        have : ((1 / 2 ^ k : ℝ) : EReal) ≤ ((signed false m.1 : ℝ) : EReal) := h2
        have h4 : (1 / 2 ^ k : ℝ) ≤ signed false m.1 := by exact_mod_cast this
        have h5 : |signed t m.1| = m.1 := signed_abs t m
        change _ ≤ |signed t m.1|
        rw [h5]
        simpa [signed] using h4
    rw [← abs_mul_abs_self u.toR, two_mul, pow_add, ← one_div_mul_one_div]
    exact mul_le_mul h3 h3 (by positivity) (abs_nonneg _)
  · cases u with
    | nan => exact (h1 trivial).elim
    | fin => exact (hf trivial).elim
    | inf t =>
      change ¬ FPVal.isNaN (E.mul (inf t) (inf t)) ∧ _ ≤ FPVal.toE (E.mul (inf t) (inf t))
      simp [FloatEnv.mul, FPVal.isNaN, FPVal.toE]

private theorem recip_small {y : FP E} {k : ℕ} (hk : k ≤ 960) (hy : AtLeast (E := E) (1 / 2 ^ k) y) :
    In (E := E) ((0 : ℝ) : EReal) (((2 : ℝ) ^ k : ℝ) : EReal) (Flt.recip y) := by
  obtain ⟨h1, h2⟩ := hy
  by_cases hf : y.isFinite
  · have h3 : (1 / 2 ^ k : ℝ) ≤ y.toR := toR_of_le hf h2
    have h4 : (0 : ℝ) < 1 / 2 ^ k := by positivity
    obtain ⟨s, hs⟩ := div_fin (one_in (E := E)).finite hf (by linarith)
    rw [recip_eq, hs]
    have h5 := (one_in (E := E)).toR
    rw [show FP.toR (1.0 : FP E) = 1 from le_antisymm h5.2 h5.1]
    refine In.of_round s SRep.zero (SRep.two_pow k (by omega))
      (div_nonneg zero_le_one (h4.le.trans h3)) ?_
    have := one_div_le_one_div_of_le h4 h3
    rwa [one_div_one_div] at this
  · cases y with
    | nan => exact (h1 trivial).elim
    | fin => exact (hf trivial).elim
    | inf t => exact (recip_inf t).mono le_rfl (by positivity)

private theorem sigma_pos (L : E.Lib) {u : FP E} (hu : AtLeast (E := E) (1 / 2 ^ 480) (Flt.abs u))
    (t : FP E) :
    AtLeast (E := E) (1 / 2 ^ 480) (Gaussian.sigma (⟨Flt.powi u (-2), t⟩ : Gaussian (FP E))) := by
  have e : Flt.powi u (-2) = Flt.recip (u * u) := L.powi_neg_two u
  have h1 := recip_small (k := 960) le_rfl (sq_atLeast (k := 480) le_rfl hu)
  simp only [Gaussian.sigma]
  rw [e]
  generalize Flt.recip (u * u) = p at h1
  by_cases h0 : (p ==? 0.0) = true
  · rw [if_pos h0]
    exact ⟨id, by simp [Flt.infinity, FP.toE, FPVal.toE]⟩
  · rw [if_neg h0]
    have hp := h1.toR
    have hpos : 0 < p.toR := by
      refine lt_of_le_of_ne hp.1 fun h => h0 (feq_zero_iff.2 ⟨h1.1, ?_⟩)
      refine (isFinite.toE_eq h1.finite).trans ?_
      exact_mod_cast h.symm
    obtain ⟨s, hs⟩ := div_fin (one_in (E := E)).finite h1.finite hpos.ne'
    have h5 := (one_in (E := E)).toR
    rw [show FP.toR (1.0 : FP E) = 1 from le_antisymm h5.2 h5.1, ← recip_eq] at hs
    have h2 : AtLeast (E := E) (1 / 2 ^ 960) (Flt.recip p) := by
      rw [hs]
      exact ⟨E.round_not_nan _ _, E.round_ge s (SRep.inv_two_pow _ (by omega))
        (one_div_le_one_div_of_le hpos hp.2)⟩
    generalize Flt.recip p = q at h2
    obtain ⟨g1, g2⟩ := h2
    by_cases hf : q.isFinite
    · have g3 : (1 / 2 ^ 960 : ℝ) ≤ q.toR := toR_of_le hf g2
      obtain ⟨s, hs⟩ := sqrt_fin hf (le_trans (by positivity) g3)
      rw [hs]
      refine ⟨E.round_not_nan _ _, E.round_ge s (SRep.inv_two_pow _ (by omega)) ?_⟩
      refine Real.le_sqrt_of_sq_le (le_trans (le_of_eq ?_) g3)
      rw [div_pow, one_pow, ← pow_mul]
    · cases q with
      | nan => exact (g1 trivial).elim
      | fin => exact (hf trivial).elim
      | inf t =>
        cases t
        · exact ⟨id, by
            change _ ≤ FPVal.toE (E.sqrt (inf false))
            simp [FloatEnv.sqrt, FPVal.toE]⟩
        · exfalso
          revert g2
          simp [FP.toE, FPVal.toE]

private theorem le_abs_toE (x : FPVal) : x.toE ≤ x.abs.toE := by
  cases x with
  | nan => exact le_rfl
  | inf s => cases s <;> simp [FPVal.abs, FPVal.toE]
  | fin s m =>
    have h : signed s m.1 ≤ signed false m.1 := by
      have := m.2.nonneg
      cases s
      · exact le_rfl
      · simp only [signed, if_true, Bool.false_eq_true, if_false]; linarith
    exact EReal.coe_le_coe_iff.2 h

private theorem atLeast_ne {x : FP E} {a : ℝ} (ha : 0 < a) (h : AtLeast (E := E) a x) :
    (x ==? 0.0) = false := by
  rw [Bool.eq_false_iff]
  intro h1
  obtain ⟨-, h3⟩ := feq_zero_iff.1 h1
  have h4 := h.2
  rw [h3] at h4
  have : a ≤ 0 := by exact_mod_cast h4
  linarith

private theorem prior_wide (L : E.Lib) {τ : FP E} (r : TrueSkillRating (FP E))
    (hu : AtLeast (E := E) (1 / 2 ^ 480) (Flt.abs r.uncertainty)) (hτ : ¬ τ.isNaN) :
    ∃ g, Trace.prior τ r = .ok g := by
  have h0 : (r.uncertainty ==? (0.0 : FP E)) = false := by
    rw [Bool.eq_false_iff]
    intro h1
    obtain ⟨h2, h3⟩ := feq_zero_iff.1 h1
    have h4 := hu.2
    have h5 : (Flt.abs r.uncertainty).toE = 0 := by
      refine (FPVal.toE_abs r.uncertainty).trans ?_
      have : FPVal.toE r.uncertainty = 0 := h3
      rw [this]; simp
    rw [h5] at h4
    have : (1 / 2 ^ 480 : ℝ) ≤ 0 := EReal.coe_le_coe_iff.1 h4
    exact absurd this (not_le.2 (by positivity))
  have hs := sigma_pos L hu (Flt.powi r.uncertainty (-2) * r.rating)
  simp only [Trace.prior, Gaussian.withMuSigma, h0, Bool.false_eq_true, if_false]
  generalize Gaussian.sigma (⟨Flt.powi r.uncertainty (-2), Flt.powi r.uncertainty (-2) * r.rating⟩ :
    Gaussian (FP E)) = σ at hs
  have h7 : AtLeast (E := E) (1 / 2 ^ 480) (Flt.hypot σ τ) := by
    refine ⟨L.hypot_nan σ τ hs.1 hτ, le_trans ?_ (L.hypot_left σ τ hs.1 hτ)⟩
    refine le_trans hs.2 ?_
    exact le_abs_toE σ
  rw [atLeast_ne (by positivity) h7]
  simp

private theorem min_delta : ((0.0 : FP E) <? 0.0001) = true := by
  refine lt_iff.2 ⟨zero_in.1, by rw [lit]; exact E.round_not_nan _ _, ?_⟩
  refine lt_of_le_of_lt zero_in.2.2 ?_
  rw [lit]
  refine lt_of_lt_of_le ?_ (E.round_ge false (SRep.inv_two_pow 20 (by norm_num)) ?_)
  · have : (0 : ℝ) < 1 / 2 ^ 20 := by positivity
    exact_mod_cast this
  · norm_num

/-- **C107.** In every floating-point arithmetic a match of two or more non-empty teams is rated,
without panic and without error, if every uncertainty is a number (possibly negative or infinite)
of magnitude at least `2 ^ -480` and the dynamics factor is a number; the ratings, the draw
probability and beta may be anything. -/
theorem C107_floats_do_not_panic_wide (L : E.Lib)
    (ts : List (List (TrueSkillRating (FP E)) × MultiTeamOutcome)) (cfg : TrueSkillConfig (FP E))
    (w : List (List (FP E))) (h2 : 2 ≤ ts.length) (hne : ∀ t ∈ ts, t.1 ≠ [])
    (hu : ∀ t ∈ ts, ∀ r ∈ t.1, AtLeast (E := E) (1 / 2 ^ 480) (Flt.abs r.uncertainty))
    (hτ : ¬ cfg.dynamicsFactor.isNaN) (hw : AdmittedWeights ts w) :
    (∃ out, trueskillMultiTeam ts cfg (some w) = .ok (.ok out) ∧
      out.map List.length = ts.map fun t => t.1.length) ∧
    ∃ out, trueskillMultiTeam ts cfg none = .ok (.ok out) ∧
      out.map List.length = ts.map fun t => t.1.length := by
  have hp : ∀ t ∈ ts, ∀ r ∈ t.1, ∃ g, Trace.prior cfg.dynamicsFactor r = .ok g := fun t ht r hr =>
    prior_wide L r (hu t ht r hr) hτ
  refine ⟨Trace.multi_ok ts cfg _ w ?_ h2 hne min_delta hp,
    Trace.multi_ok ts cfg none _ rfl h2 hne min_delta hp⟩
  refine (getWeights_ok _ _ _).2 ⟨rfl, by simpa using hw.1, fun k hk => ?_⟩
  have := hw.2 k (by simpa using hk)
  rw [List.map_map]
  exact this

/-! ### Uncertainties whose square is zero -/

private theorem sq_zero {u : FP E} (hE : E.mag (1 / 2 ^ 1200) = (Mag.zero : WithTop Mag))
    (hu : Within (E := E) (1 / 2 ^ 600) u) : (u * u).isFinite ∧ (u * u).toR = 0 := by
  obtain ⟨hf, hb⟩ := hu
  obtain ⟨s, hs⟩ := mul_fin hf hf
  rw [hs]
  by_cases h0 : u.toR * u.toR = 0
  · rw [h0]
    exact ⟨E.round_finite s SRep.zero, by
      have := (isFinite.toE_eq (E.round_finite s SRep.zero)).symm.trans (E.round_rep s SRep.zero)
      exact EReal.coe_eq_coe_iff.1 this⟩
  · have h1 : |u.toR * u.toR| ≤ 1 / 2 ^ 1200 := by
      rw [abs_mul, show (1200 : ℕ) = 600 + 600 from rfl, pow_add, ← one_div_mul_one_div]
      exact mul_le_mul hb hb (abs_nonneg _) (by positivity)
    have h2 : E.mag |u.toR * u.toR| = (Mag.zero : WithTop Mag) := by
      apply le_antisymm
      · rw [← hE]; exact E.mag_mono h1
      · have := E.mag_mono (abs_nonneg (u.toR * u.toR))
        rwa [show E.mag 0 = (Mag.zero : WithTop Mag) from E.mag_rep Mag.zero] at this
    have h3 : E.round s (u.toR * u.toR) = fin (decide (u.toR * u.toR < 0)) Mag.zero := by
      rw [FloatEnv.round, if_neg h0, h2]; rfl
    have h4 : ¬ u.toR * u.toR < 0 := not_lt.2 (mul_self_nonneg _)
    rw [h3, decide_eq_false h4]
    exact ⟨trivial, rfl⟩

private theorem sigma_zero (L : E.Lib) {u : FP E}
    (hE : E.mag (1 / 2 ^ 1200) = (Mag.zero : WithTop Mag)) (hu : Within (E := E) (1 / 2 ^ 600) u)
    (t : FP E) :
    (Gaussian.sigma (⟨Flt.powi u (-2), t⟩ : Gaussian (FP E))).isFinite ∧
    (Gaussian.sigma (⟨Flt.powi u (-2), t⟩ : Gaussian (FP E))).toR = 0 := by
  have e : Flt.powi u (-2) = Flt.recip (u * u) := L.powi_neg_two u
  obtain ⟨h1, h2⟩ := sq_zero hE hu
  have h3 : ∃ b, Flt.recip (u * u) = inf b := by
    rw [recip_def]
    generalize u * u = y at h1 h2
    have g1 := E.round_finite false SRep.one
    have g2 := E.round_rep false SRep.one
    revert g1 g2
    generalize E.round false 1 = o
    intro g1 g2
    cases o with
    | nan => exact g1.elim
    | inf => exact g1.elim
    | fin t m =>
      cases y with
      | nan => exact h1.elim
      | inf => exact h1.elim
      | fin v n =>
        have hn : n.1 = 0 := (fin_zero_iff v n).2 h2
        have hm : m.1 ≠ 0 := by
          intro hm
          simp [FPVal.toE, signed, hm] at g2
        exact ⟨xor t v, by simp [FloatEnv.div, hn, hm]; rfl⟩
  obtain ⟨b, hb⟩ := h3
  have h5 : (Flt.powi u (-2) ==? (0.0 : FP E)) = false := by
    rw [Bool.eq_false_iff]
    intro h6
    obtain ⟨-, h7⟩ := feq_zero_iff.1 h6
    rw [e, hb] at h7
    cases b <;> simp [FP.toE, FPVal.toE] at h7
  simp only [Gaussian.sigma, h5, Bool.false_eq_true, if_false]
  rw [e, hb]
  have h8 := recip_inf (E := E) b
  obtain ⟨s, hs⟩ := sqrt_fin h8.finite h8.toR.1
  rw [hs, show (Flt.recip (F := FP E) (inf b)).toR = 0 from le_antisymm h8.toR.2 h8.toR.1,
    Real.sqrt_zero]
  refine ⟨E.round_finite s SRep.zero, ?_⟩
  have := (isFinite.toE_eq (E.round_finite s SRep.zero)).symm.trans (E.round_rep s SRep.zero)
  exact EReal.coe_eq_coe_iff.1 this

private theorem prior_tiny (L : E.Lib) (hE : E.mag (1 / 2 ^ 1200) = (Mag.zero : WithTop Mag))
    {τ : FP E} (r : TrueSkillRating (FP E)) (hu : Within (E := E) (1 / 2 ^ 600) r.uncertainty)
    (hτ : τ.isFinite ∧ τ.toR = 0) (g : Gaussian (FP E)) : Trace.prior τ r ≠ .ok g := by
  intro h
  obtain ⟨h1, h2⟩ := sigma_zero L hE hu (Flt.powi r.uncertainty (-2) * r.rating)
  simp only [Trace.prior, Gaussian.withMuSigma] at h
  split_ifs at h with h0
  · simp only at h
    generalize Gaussian.sigma (⟨Flt.powi r.uncertainty (-2),
      Flt.powi r.uncertainty (-2) * r.rating⟩ : Gaussian (FP E)) = σ at h h1 h2
    have h3 : (Flt.hypot σ τ ==? (0.0 : FP E)) = true := by
      refine feq_zero_iff.2 ⟨L.hypot_nan σ τ (isFinite.not_nan h1) (isFinite.not_nan hτ.1), ?_⟩
      apply le_antisymm
      · refine (L.hypot_le σ τ 0 h1 hτ.1 Rep.zero ?_)
        change |σ.toR| + |τ.toR| ≤ 0
        rw [h2, hτ.2]; simp
      · refine le_trans ?_ (L.hypot_left σ τ (isFinite.not_nan h1) (isFinite.not_nan hτ.1))
        refine le_of_eq_of_le ?_ (le_of_eq (FPVal.toE_abs σ).symm)
        have : FPVal.toE σ = 0 := by
          refine (isFinite.toE_eq h1).trans ?_
          change ((σ.toR : ℝ) : EReal) = 0
          rw [h2]; rfl
        rw [this]; simp
    rw [h3] at h
    simp at h

/-- **C107.** The limit is real: with a dynamics factor of zero a player whose uncertainty is not
zero but at most `2 ^ -600` makes the function panic, in every arithmetic that rounds `2 ^ -1200`
to zero. -/
theorem C107_tiny_uncertainty_panics (L : E.Lib)
    (hE : E.mag (1 / 2 ^ 1200) = (Mag.zero : WithTop Mag))
    (ts : List (List (TrueSkillRating (FP E)) × MultiTeamOutcome)) (cfg : TrueSkillConfig (FP E))
    (w : List (List (FP E))) (hne : ∀ t ∈ ts, t.1 ≠ [])
    (hτ : cfg.dynamicsFactor.isFinite ∧ cfg.dynamicsFactor.toR = 0) (hw : AdmittedWeights ts w)
    (hu : ∃ t ∈ ts, ∃ r ∈ t.1, Within (E := E) (1 / 2 ^ 600) r.uncertainty) :
    ∃ e, trueskillMultiTeam ts cfg (some w) = .error e := by
  obtain ⟨t, ht, r, hr, hb⟩ := hu
  cases hres : trueskillMultiTeam ts cfg (some w) with
  | error e => exact ⟨e, rfl⟩
  | ok res =>
    exfalso
    obtain ⟨a, ha, rfl⟩ := List.getElem_of_mem ht
    obtain ⟨x, hx, rfl⟩ := List.getElem_of_mem hr
    cases res with
    | error e =>
      have hgw : getWeights (ts.map (·.1)) (some w) = .ok w := by
        refine (getWeights_ok _ _ _).2 ⟨rfl, by simpa using hw.1, fun k hk => ?_⟩
        have := hw.2 k (by simpa using hk)
        rw [List.map_map]
        exact this
      rw [multiTeam_eq ts cfg _ w (by rintro rfl; simp at ha) hne hgw] at hres
      revert hres
      cases core (sortTeams (withPos ts w)) cfg <;> simp
    | ok out =>
      obtain ⟨d, s, run, k, hk, hsz, hdτ, -, -, hR, -, -⟩ :=
        Trace.multi_trace ts cfg w out hne hres a ts[a].1 ts[a].2 (w[a]'(by rw [hw.1]; exact ha))
          (List.getElem?_eq_getElem ha) (List.getElem?_eq_getElem _)
      have hR' := hR x _ (List.getElem?_eq_getElem hx)
      have hlt : d.off k + x < d.n := by
        have h1 : d.off (k + 1) ≤ d.n := d.off_mono hk
        have h2 : d.off (k + 1) = d.off k + d.sz k := rfl
        omega
      have hp := run.prior _ hlt
      rw [hR', hdτ] at hp
      exact prior_tiny L hE _ hb hτ _ hp

/-- Rounding to nearest takes `2 ^ -1200` to zero. -/
theorem nearest_tiny : ieee.mag (1 / 2 ^ 1200) = (Mag.zero : WithTop Mag) := by
  change nearest (1 / 2 ^ 1200) = _
  have hx : (0 : ℝ) < 1 / 2 ^ 1200 := by positivity
  have hx1 : (1 / 2 ^ 1200 : ℝ) ≤ 1 := by
    rw [div_le_one (by positivity)]; exact one_le_pow₀ (by norm_num)
  have h1 : (1 / 2 ^ 1200 : ℝ) ≤ 2 ^ 1024 := hx1.trans (one_le_pow₀ (by norm_num))
  have h := nearest_nearest hx.le h1 (Mag.zero : WithTop Mag)
  have h2 : (2 : ℝ) * (1 / 2 ^ 1200) < 2 ^ (-1074 : ℤ) := by
    have e : (2 : ℝ) ^ (-1074 : ℤ) = 1 / 2 ^ 1074 := by
      rw [zpow_neg, one_div]; norm_cast
    rw [e, mul_one_div, div_lt_div_iff₀ (by positivity) (by positivity), one_mul,
      show (1200 : ℕ) = 1 + 1074 + 125 from rfl, pow_add, pow_add, pow_one]
    have : (0 : ℝ) < 2 ^ 1074 := by positivity
    generalize (2 : ℝ) ^ 1074 = P at *
    norm_num
    linarith
  generalize (1 / 2 ^ 1200 : ℝ) = x at *
  rw [show cval (Mag.zero : WithTop Mag) = 0 from rfl, sub_zero, abs_of_pos hx] at h
  generalize nearest x = c at h
  cases c with
  | top =>
    exfalso
    rw [cval_top, abs_le] at h
    have : (2 : ℝ) ^ (-1074 : ℤ) ≤ 1 := zpow_le_one_of_nonpos₀ (by norm_num) (by norm_num)
    have h4 : (1 : ℝ) ≤ 2 ^ 1024 := one_le_pow₀ (by norm_num)
    generalize (2 : ℝ) ^ 1024 = P at *
    generalize (2 : ℝ) ^ (-1074 : ℤ) = Q at *
    linarith
  | coe m =>
    rw [cval_coe, abs_le] at h
    have hm : m.1 < 2 ^ (-1074 : ℤ) := by linarith
    obtain ⟨n, k, -, hk, -, he⟩ := m.2
    have hn : n = 0 := by
      by_contra hn
      have h5 : (1 : ℝ) ≤ n := by exact_mod_cast Nat.one_le_iff_ne_zero.2 hn
      have h6 : (2 : ℝ) ^ (-1074 : ℤ) ≤ 2 ^ k := zpow_le_zpow_right₀ (by norm_num) hk
      have h7 : (2 : ℝ) ^ k ≤ n * 2 ^ k := le_mul_of_one_le_left (by positivity) h5
      rw [he] at hm
      exact absurd (h6.trans h7) (not_le.2 hm)
    have : m = Mag.zero := Subtype.ext (by rw [he, hn]; simp [Mag.zero])
    rw [this]

private theorem one_weights {a b : TrueSkillRating (FP ieee)} :
    AdmittedWeights (E := ieee) [([a], ⟨1⟩), ([b], ⟨2⟩)] [[1.0], [1.0]] := by
  have h1 : ¬ ((1.0 : FP ieee) <? 0.0) = true := by
    intro h
    have h1 := (lt_iff.1 h).2.2
    have h2 := lt_of_lt_of_le (lt_of_le_of_lt (one_in (E := ieee)).2.1 h1) (zero_in (E := ieee)).2.2
    have : (1 : ℝ) < 0 := by exact_mod_cast h2
    linarith
  refine ⟨rfl, fun k hk => ?_⟩
  have hk : k < 2 := hk
  interval_cases k
  · exact ⟨1, [1.0], rfl, rfl, rfl, fun c hc => by rw [List.mem_singleton.1 hc]; exact h1⟩
  · exact ⟨1, [1.0], rfl, rfl, rfl, fun c hc => by rw [List.mem_singleton.1 hc]; exact h1⟩

/-- An infinite uncertainty and a NaN rating against an uncertainty of 1: rated. -/
example : ∃ out, trueskillMultiTeam (F := FP ieee) [([⟨nan, inf true⟩], ⟨1⟩), ([⟨25.0, 1.0⟩], ⟨2⟩)]
    { drawProbability := 0.1, beta := 4.0, dynamicsFactor := 0.0 } (some [[1.0], [1.0]])
      = .ok (.ok out) ∧ out.map List.length = [1, 1] := by
  refine (C107_floats_do_not_panic_wide ieee_lib _ _ _ (by simp) (by simp) ?_ zero_in.1
    one_weights).1
  intro t ht r hr
  simp only [List.mem_cons, List.not_mem_nil, or_false] at ht
  rcases ht with rfl | rfl
  · obtain rfl := List.mem_singleton.1 hr
    exact ⟨id, by change _ ≤ FPVal.toE (inf false); simp [FPVal.toE]⟩
  · obtain rfl := List.mem_singleton.1 hr
    have h := one_in (E := ieee)
    refine ⟨?_, le_trans ?_ (le_abs_toE _)⟩
    · change ¬ FPVal.isNaN (FPVal.abs (1.0 : FP ieee))
      have h1 := h.finite
      revert h1
      generalize (1.0 : FP ieee) = o
      intro h1
      cases o with
      | nan => exact h1.elim
      | inf => exact h1.elim
      | fin => exact id
    · refine le_trans ?_ h.2.1
      refine EReal.coe_le_coe_iff.2 ?_
      rw [div_le_one (by positivity)]
      exact one_le_pow₀ (by norm_num)

/-- Uncertainty `2 ^ -600` and no dynamics: a panic, although no uncertainty is zero. -/
example : ∃ u : FP ieee, u.toE = ((1 / 2 ^ 600 : ℝ) : EReal) ∧ ∃ e, trueskillMultiTeam (F := FP ieee)
    [([⟨25.0, u⟩], ⟨1⟩), ([⟨25.0, 1.0⟩], ⟨2⟩)]
    { drawProbability := 0.1, beta := 4.0, dynamicsFactor := 0.0 } (some [[1.0], [1.0]])
      = .error e := by
  have hr : SRep (1 / 2 ^ 600) := SRep.inv_two_pow 600 (by norm_num)
  have hf := ieee.round_finite false hr
  have he := ieee.round_rep false hr
  refine ⟨ieee.round false (1 / 2 ^ 600), he,
    C107_tiny_uncertainty_panics ieee_lib nearest_tiny _ _ _ (by simp)
      ⟨zero_in.finite, le_antisymm zero_in.toR.2 zero_in.toR.1⟩ one_weights
      ⟨_, List.mem_cons_self, _, List.mem_cons_self, hf, le_of_eq ?_⟩⟩
  have := EReal.coe_eq_coe_iff.1 ((isFinite.toE_eq hf).symm.trans he)
  rw [show FP.toR (E := ieee) (ieee.round false (1 / 2 ^ 600)) = 1 / 2 ^ 600 from this,
    abs_of_pos (by positivity)]

end TrueSkill
end Skillratings
