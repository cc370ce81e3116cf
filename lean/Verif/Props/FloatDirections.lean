import Verif.Props.FloatSystems
import Verif.Proofs.FPError
/-
The direction of a change in floating point, continued (C80): Glicko, Glicko-Boost and DWZ rating
periods.
-/

namespace Skillratings
open FP FPVal Spec
variable {E : FloatEnv}

/-! Sums of floating-point numbers are monotone. -/

theorem toR_mono {x y : FP E} (hx : x.isFinite) (hy : y.isFinite) (h : x.toE ≤ y.toE) :
    x.toR ≤ y.toR := by
  refine toR_of_le hy ?_
  rwa [← isFinite.toE_eq hx]

theorem add_mono {x y x' y' : FP E} (hx : x.isFinite) (hy : y.isFinite) (hx' : x'.isFinite)
    (hy' : y'.isFinite) (h : (x + y).isFinite) (h' : (x' + y').isFinite) (h1 : x.toR ≤ x'.toR)
    (h2 : y.toR ≤ y'.toR) : (x + y).toR ≤ (x' + y').toR := by
  refine toR_mono h h' ?_
  obtain ⟨s, hs⟩ := add_fin hx hy
  obtain ⟨t, ht⟩ := add_fin hx' hy'
  rw [hs, ht]
  exact E.round_mono _ _ (by linarith)

theorem sum_mono {α : Type} (l : List α) (f g : α → FP E) (hl : l.length < 2 ^ 53)
    (hf : ∀ a ∈ l, Within 1 (f a)) (hg : ∀ a ∈ l, Within 1 (g a))
    (h : ∀ a ∈ l, (f a).toR ≤ (g a).toR) :
    (Flt.sum (l.map f)).toR ≤ (Flt.sum (l.map g)).toR := by
  have key : ∀ (l : List α) (m : ℕ) (s t : FP E), m + l.length < 2 ^ 53 →
      (∀ a ∈ l, Within 1 (f a)) → (∀ a ∈ l, Within 1 (g a)) → (∀ a ∈ l, (f a).toR ≤ (g a).toR) →
      Within (m : ℝ) s → Within (m : ℝ) t → s.toR ≤ t.toR →
      ((l.map f).foldl (· + ·) s).toR ≤ ((l.map g).foldl (· + ·) t).toR := by
    intro l
    induction l with
    | nil => intro m s t _ _ _ _ _ _ h; simpa using h
    | cons a l ih =>
      intro m s t hm hf hg h hs ht hst
      simp only [List.length_cons, List.map_cons, List.foldl_cons] at hm ⊢
      have fa := hf a List.mem_cons_self
      have ga := hg a List.mem_cons_self
      have hs' : Within ((m + 1 : ℕ) : ℝ) (s + f a) :=
        add_bound hs.1 fa.1 hs.2 fa.2 (within_nat (by omega)) (by push_cast; linarith)
      have ht' : Within ((m + 1 : ℕ) : ℝ) (t + g a) :=
        add_bound ht.1 ga.1 ht.2 ga.2 (within_nat (by omega)) (by push_cast; linarith)
      exact ih (m + 1) _ _ (by omega) (fun x hx => hf x (List.mem_cons_of_mem _ hx))
        (fun x hx => hg x (List.mem_cons_of_mem _ hx)) (fun x hx => h x (List.mem_cons_of_mem _ hx))
        hs' ht' (add_mono hs.1 fa.1 ht.1 ga.1 hs'.1 ht'.1 hst (h a List.mem_cons_self))
  have h0 : Within ((0 : ℕ) : ℝ) (Flt.sumZero : FP E) := by
    have := sum_zero_in (E := E)
    exact In.within (by simpa using this)
  rw [Flt.sum, Flt.sum]
  exact key l 0 _ _ (by omega) hf hg h h0 h0 le_rfl

/-- A sum of zeros. -/
theorem sum_zeros {α : Type} (l : List α) (f : α → FP E) (h : ∀ a ∈ l, (f a).isFinite ∧ (f a).toR = 0) :
    (Flt.sum (l.map f)).isFinite ∧ (Flt.sum (l.map f)).toR = 0 := by
  have key : ∀ (l : List α) (s : FP E), (∀ a ∈ l, (f a).isFinite ∧ (f a).toR = 0) →
      s.isFinite ∧ s.toR = 0 →
      ((l.map f).foldl (· + ·) s).isFinite ∧ ((l.map f).foldl (· + ·) s).toR = 0 := by
    intro l
    induction l with
    | nil => intro s _ hs; simpa using hs
    | cons a l ih =>
      intro s h hs
      obtain ⟨a1, a2⟩ := h a List.mem_cons_self
      simp only [List.map_cons, List.foldl_cons]
      refine ih _ (fun x hx => h x (List.mem_cons_of_mem _ hx)) ?_
      obtain ⟨t, ht⟩ := add_fin hs.1 a1
      have hi := In.of_round (E := E) t (v := s.toR + (f a).toR) SRep.zero SRep.zero
        (by rw [hs.2, a2]; norm_num) (by rw [hs.2, a2]; norm_num)
      rw [ht]
      exact ⟨hi.finite, le_antisymm hi.toR.2 hi.toR.1⟩
  have h0 := sum_zero_in (E := E)
  rw [Flt.sum]
  exact key l _ h ⟨h0.finite, le_antisymm h0.toR.2 h0.toR.1⟩

/-- Sums of numbers of one sign. -/
theorem sum_sign {α : Type} (l : List α) (f : α → FP E) (hl : l.length < 2 ^ 53)
    (hf : ∀ a ∈ l, Within 1 (f a)) :
    ((∀ a ∈ l, 0 ≤ (f a).toR) → 0 ≤ (Flt.sum (l.map f)).toR) ∧
    ((∀ a ∈ l, (f a).toR ≤ 0) → (Flt.sum (l.map f)).toR ≤ 0) := by
  have hz : In (E := E) ((0 : ℝ) : EReal) ((0 : ℝ) : EReal) (0.0 : FP E) :=
    lit_in (by norm_num) SRep.zero
  have hz' : FP.toR (0.0 : FP E) = 0 := le_antisymm hz.toR.2 hz.toR.1
  have z := (sum_zeros l (fun _ => (0.0 : FP E)) (fun _ _ => ⟨hz.finite, hz'⟩)).2
  have w : ∀ a ∈ l, Within 1 (0.0 : FP E) := fun _ _ => ⟨hz.finite, by rw [hz']; norm_num⟩
  refine ⟨fun h => ?_, fun h => ?_⟩
  · have := sum_mono l (fun _ => (0.0 : FP E)) f hl w hf (fun a ha => by rw [hz']; exact h a ha)
    rwa [z] at this
  · have := sum_mono l f (fun _ => (0.0 : FP E)) hl hf w (fun a ha => by rw [hz']; exact h a ha)
    rwa [z] at this

/-- The sign of a product. -/
theorem mul_sign {x y : FP E} (hx : x.isFinite) (hy : y.isFinite) (hxy : (x * y).isFinite)
    (h0 : 0 ≤ x.toR) : (0 ≤ y.toR → 0 ≤ (x * y).toR) ∧ (y.toR ≤ 0 → (x * y).toR ≤ 0) := by
  obtain ⟨s, hs⟩ := mul_fin hx hy
  refine ⟨fun h => toR_of_le hxy ?_, fun h => toR_le_of hxy ?_⟩
  · rw [hs]; exact E.round_ge s SRep.zero (mul_nonneg h0 h)
  · rw [hs]; exact E.round_le s SRep.zero (mul_nonpos_of_nonneg_of_nonpos h0 h)

/-! ### Glicko -/

/-- One side of a Glicko game. -/
theorem glicko_dir {B : ℕ} (L : E.Lib) (a b : Glicko.GlickoRating (FP E)) (c s : FP E) {v : ℝ}
    (ha : Within B a.rating) (hb : Within B b.rating) (hda : ¬ a.deviation.isNaN)
    (hdb : ¬ b.deviation.isNaN) (hc : c.isFinite) (hc1 : 1 ≤ c.toR) (hB : B < 2 ^ 53)
    (hs : In (E := E) (v : EReal) (v : EReal) s) (hv0 : 0 ≤ v) (hv1 : v ≤ 1) :
    let q : FP E := Flt.ln 10.0 / 400.0
    let g := Glicko.gValue q b.deviation
    let e := Glicko.eValue g a.rating b.rating
    let d := Glicko.dValue q g e
    let pre := Flt.fmin (Flt.hypot a.deviation c) (350.0 : FP E)
    ¬ (Glicko.newRating a.rating pre s q g e d).isNaN ∧
    (v = 1 → a.rating.toE ≤ (Glicko.newRating a.rating pre s q g e d).toE) ∧
    (v = 0 → (Glicko.newRating a.rating pre s q g e d).toE ≤ a.rating.toE) := by
  intro q g e d pre
  have hg : In 0 1 g := g_glicko_in L hdb
  have he : In 0 1 e := pow_score L (exponent_not_nan hg (diff_finite ha hb hB))
  have hd : d = Flt.recip (Flt.powi q 2 * Flt.powi g 2 * e * (1.0 - e)) := powi_neg_one' L _
  have hpre : In (E := E) ((1 : ℝ) : EReal) ((350 : ℝ) : EReal) pre := pre_in L hda hc hc1
  have ht := total_in L (k := 0) (by norm_num) hpre
    ((dValue_arg_in L hg he).mono le_rfl (by norm_num))
  have h1 := surprise hs he hv0 hv1
  have hkg := mul_in (gain_in L ht) (unit_in hg) le_rfl le_rfl SRep.zero
    (SRep.ofNat 958 (by norm_num)) (by norm_num) (by norm_num)
  simp only [Glicko.newRating, hd]
  have hc := change hkg.finite h1.1 (isFinite.not_nan ha.1)
  exact ⟨hc.1, fun h => hc.2.1 (mul_nonneg hkg.toR.1 (h1.2.2.2.1 h)),
    fun h => hc.2.2 (mul_nonpos_of_nonneg_of_nonpos hkg.toR.1 (h1.2.2.2.2 h))⟩

theorem C80_glicko_direction (L : E.Lib) (a b : Glicko.GlickoRating (FP E)) (o : Outcomes)
    (c : Glicko.GlickoConfig (FP E)) (B : ℕ) (ha : Within B a.rating) (hb : Within B b.rating)
    (hda : ¬ a.deviation.isNaN) (hdb : ¬ b.deviation.isNaN) (hc : c.c.isFinite)
    (hc1 : 1 ≤ c.c.toR) (hB : B < 2 ^ 53) :
    ¬ (Glicko.glicko a b o c).1.rating.isNaN ∧ ¬ (Glicko.glicko a b o c).2.rating.isNaN ∧
    (o = .WIN → a.rating.toE ≤ (Glicko.glicko a b o c).1.rating.toE ∧
      (Glicko.glicko a b o c).2.rating.toE ≤ b.rating.toE) ∧
    (o = .LOSS → (Glicko.glicko a b o c).1.rating.toE ≤ a.rating.toE ∧
      b.rating.toE ≤ (Glicko.glicko a b o c).2.rating.toE) := by
  have h1 := glicko_dir L a b c.c _ ha hb hda hdb hc hc1 hB (points_in (E := E) o)
    (pointsR_nonneg o) (pointsR_le_one o)
  have h2 := glicko_dir L b a c.c _ hb ha hdb hda hc hc1 hB (points_in' (E := E) o)
    (by linarith [pointsR_le_one o]) (by linarith [pointsR_nonneg o])
  refine ⟨h1.1, h2.1, ?_, ?_⟩
  · rintro rfl
    exact ⟨h1.2.1 rfl, h2.2.2 (by norm_num [pointsR])⟩
  · rintro rfl
    exact ⟨h1.2.2 rfl, h2.2.1 (by norm_num [pointsR])⟩

/-- A Glicko rating period: wins only never lower the rating, losses only never raise it. -/
theorem C80_glicko_period_direction (L : E.Lib) (p : Glicko.GlickoRating (FP E))
    (rs : List (Glicko.GlickoRating (FP E) × Outcomes)) (c : Glicko.GlickoConfig (FP E)) (B : ℕ)
    (hp : Within B p.rating) (hd : ¬ p.deviation.isNaN)
    (hr : ∀ r ∈ rs, Within B r.1.rating ∧ ¬ r.1.deviation.isNaN)
    (hc : c.c.isFinite) (hc1 : 1 ≤ c.c.toR) (hB : B < 2 ^ 53) (hl : rs.length < 2 ^ 53) :
    ¬ (Glicko.glickoRatingPeriod p rs c).rating.isNaN ∧
    ((∀ r ∈ rs, r.2 = .WIN) → p.rating.toE ≤ (Glicko.glickoRatingPeriod p rs c).rating.toE) ∧
    ((∀ r ∈ rs, r.2 = .LOSS) → (Glicko.glickoRatingPeriod p rs c).rating.toE ≤ p.rating.toE) := by
  have hpre := pre_in L hd hc hc1
  by_cases hne : rs = []
  · subst hne
    simpa [Glicko.glickoRatingPeriod, Glicko.decayDeviation] using isFinite.not_nan hp.1
  · have hem : rs.isEmpty = false := by simpa using hne
    simp only [Glicko.glickoRatingPeriod, hem, Bool.false_eq_true, if_false]
    have hg : ∀ r ∈ rs, In 0 1 (Glicko.gValue (Flt.ln (10.0 : FP E) / 400.0) r.1.deviation) :=
      fun r h => g_glicko_in L (hr r h).2
    have he : ∀ r ∈ rs, In 0 1 (Glicko.eValue (Glicko.gValue (Flt.ln (10.0 : FP E) / 400.0)
        r.1.deviation) p.rating r.1.rating) := fun r hm =>
      pow_score L (exponent_not_nan (hg r hm) (diff_finite hp (hr r hm).1 hB))
    have hi := sum_unit_in (rs.map fun r =>
        Flt.powi (Glicko.gValue (Flt.ln (10.0 : FP E) / 400.0) r.1.deviation) 2
        * Glicko.eValue (Glicko.gValue (Flt.ln (10.0 : FP E) / 400.0) r.1.deviation) p.rating
          r.1.rating
        * (1.0 - Glicko.eValue (Glicko.gValue (Flt.ln (10.0 : FP E) / 400.0) r.1.deviation)
          p.rating r.1.rating)) (by rw [List.length_map]; exact hl) (by
        intro x hx
        obtain ⟨r, hm, rfl⟩ := List.mem_map.1 hx
        exact information_in L (hg r hm) (he r hm))
    have hsur : ∀ r ∈ rs, _ := fun r hm => surprise (points_in (E := E) r.2) (he r hm)
      (pointsR_nonneg r.2) (pointsR_le_one r.2)
    have hw : ∀ r ∈ rs, Within 1 (Glicko.gValue (Flt.ln (10.0 : FP E) / 400.0) r.1.deviation
        * (r.2.toChessPoints - Glicko.eValue (Glicko.gValue (Flt.ln (10.0 : FP E) / 400.0)
          r.1.deviation) p.rating r.1.rating)) := fun r hm =>
      mul_abs_in (In.within ((unit_in (hg r hm)).mono (by norm_num) le_rfl))
          ⟨(hsur r hm).1, abs_le.2 ⟨(hsur r hm).2.1, (hsur r hm).2.2.1⟩⟩ SRep.one (by norm_num)
    have hsg := sum_sign rs _ hl hw
    have hm := sum_within (rs.map fun r =>
        Glicko.gValue (Flt.ln (10.0 : FP E) / 400.0) r.1.deviation
        * (r.2.toChessPoints - Glicko.eValue (Glicko.gValue (Flt.ln (10.0 : FP E) / 400.0)
          r.1.deviation) p.rating r.1.rating)) 1 (by rw [List.length_map]; omega) (by
        intro x hx
        obtain ⟨r, hm, rfl⟩ := List.mem_map.1 hx
        simpa using hw r hm)
    rw [List.length_map] at hi
    have hlen : (rs.length : ℝ) ≤ 2 ^ 53 := by exact_mod_cast hl.le
    have hqi := mul_in (q_sq_in L) hi le_rfl le_rfl SRep.zero (SRep.two_pow 53 (by norm_num))
      (by norm_num) (by linarith)
    have hk := gain_in L (total_in L (k := 53) (by norm_num) hpre hqi)
    have hch := change hk.finite hm.1 (isFinite.not_nan hp.1)
    refine ⟨hch.1, fun h => hch.2.1 (mul_nonneg hk.toR.1 (hsg.1 fun r hr' => ?_)),
      fun h => hch.2.2 (mul_nonpos_of_nonneg_of_nonpos hk.toR.1 (hsg.2 fun r hr' => ?_))⟩
    · exact (mul_sign (unit_in (hg r hr')).finite (hsur r hr').1 (hw r hr').1
        (unit_in (hg r hr')).toR.1).1 ((hsur r hr').2.2.2.1 (by rw [h r hr']; rfl))
    · exact (mul_sign (unit_in (hg r hr')).finite (hsur r hr').1 (hw r hr').1
        (unit_in (hg r hr')).toR.1).2 ((hsur r hr').2.2.2.2 (by rw [h r hr']; rfl))

/-! ### Glicko-Boost -/

theorem boost_dir {B : ℕ} {g e s dev r : FP E} {v : ℝ} (L : E.Lib)
    (hr : Within B r) (hg : In 0 1 g) (he : In 0 1 e)
    (hd : In (E := E) ((0 : ℝ) : EReal) ((350 : ℝ) : EReal) dev)
    (hs : In (E := E) (v : EReal) (v : EReal) s) (hv0 : 0 ≤ v) (hv1 : v ≤ 1) :
    ¬ (GlickoBoost.newRating r dev s (Flt.ln (10.0 : FP E) / 400.0) g e).isNaN ∧
    (v = 1 → r.toE ≤ (GlickoBoost.newRating r dev s (Flt.ln (10.0 : FP E) / 400.0) g e).toE) ∧
    (v = 0 → (GlickoBoost.newRating r dev s (Flt.ln (10.0 : FP E) / 400.0) g e).toE ≤ r.toE) := by
  have h1 := surprise hs he hv0 hv1
  have h2 := mul_in hd hd le_rfl le_rfl SRep.zero (SRep.ofNat 122500 (by norm_num)) (by norm_num)
    (by norm_num)
  have h3 := mul_in h2 (q_in' L) le_rfl (by positivity) SRep.zero (SRep.ofNat 958 (by norm_num))
    (by norm_num) (by norm_num)
  have h4 := mul_in h3 (unit_in hg) le_rfl le_rfl SRep.zero (SRep.ofNat 958 (by norm_num))
    (by norm_num) (by norm_num)
  rw [GlickoBoost.newRating, powi_two' L]
  have hc := change h4.finite h1.1 (isFinite.not_nan hr.1)
  exact ⟨hc.1, fun h => hc.2.1 (mul_nonneg h4.toR.1 (h1.2.2.2.1 h)),
    fun h => hc.2.2 (mul_nonpos_of_nonneg_of_nonpos h4.toR.1 (h1.2.2.2.2 h))⟩

theorem C80_boost_direction (L : E.Lib) (a b : GlickoBoost.GlickoBoostRating (FP E)) (o : Outcomes)
    (c : GlickoBoost.GlickoBoostConfig (FP E)) (B H : ℕ) (ha : Within B a.rating)
    (hb : Within B b.rating) (hda : ¬ a.deviation.isNaN) (hdb : ¬ b.deviation.isNaN)
    (hc : Within H c.eta) (h : B + H < 2 ^ 53) :
    ¬ (GlickoBoost.glickoBoost a b o c).1.rating.isNaN ∧
    ¬ (GlickoBoost.glickoBoost a b o c).2.rating.isNaN ∧
    (o = .WIN → a.rating.toE ≤ (GlickoBoost.glickoBoost a b o c).1.rating.toE ∧
      (GlickoBoost.glickoBoost a b o c).2.rating.toE ≤ b.rating.toE) ∧
    (o = .LOSS → (GlickoBoost.glickoBoost a b o c).1.rating.toE ≤ a.rating.toE ∧
      b.rating.toE ≤ (GlickoBoost.glickoBoost a b o c).2.rating.toE) := by
  have s1 := boost_score L ha hb hdb hc one_within h
  have s2 := boost_score L hb ha hda hc neg_one_within h
  have d1 := fun dev hd => boost_dir L (dev := dev) ha s1.1 s1.2 hd (points_in (E := E) o)
    (pointsR_nonneg o) (pointsR_le_one o)
  have d2 := fun dev hd => boost_dir L (dev := dev) hb s2.1 s2.2 hd (points_in' (E := E) o)
    (by linarith [pointsR_le_one o]) (by linarith [pointsR_nonneg o])
  refine ⟨(d1 _ (boost_dev _ _ _ _)).1, (d2 _ (boost_dev _ _ _ _)).1, ?_, ?_⟩
  · rintro rfl
    exact ⟨(d1 _ (boost_dev _ _ _ _)).2.1 rfl,
      (d2 _ (boost_dev _ _ _ _)).2.2 (by norm_num [pointsR])⟩
  · rintro rfl
    exact ⟨(d1 _ (boost_dev _ _ _ _)).2.2 rfl,
      (d2 _ (boost_dev _ _ _ _)).2.1 (by norm_num [pointsR])⟩

/-- A Glicko-Boost rating period. -/
theorem C80_boost_period_direction (L : E.Lib) (p : GlickoBoost.GlickoBoostRating (FP E))
    (rs : List (GlickoBoost.GlickoBoostRating (FP E) × Outcomes × Bool))
    (c : GlickoBoost.GlickoBoostConfig (FP E)) (B H : ℕ) (hp : Within B p.rating)
    (hr : ∀ r ∈ rs, Within B r.1.rating ∧ ¬ r.1.deviation.isNaN) (hc : Within H c.eta)
    (h : B + H < 2 ^ 53) (hl : rs.length < 2 ^ 53) :
    ¬ (GlickoBoost.glickoBoostRatingPeriod p rs c).rating.isNaN ∧
    ((∀ r ∈ rs, r.2.1 = .WIN) →
      p.rating.toE ≤ (GlickoBoost.glickoBoostRatingPeriod p rs c).rating.toE) ∧
    ((∀ r ∈ rs, r.2.1 = .LOSS) →
      (GlickoBoost.glickoBoostRatingPeriod p rs c).rating.toE ≤ p.rating.toE) := by
  by_cases hne : rs = []
  · subst hne
    simpa [GlickoBoost.glickoBoostRatingPeriod, GlickoBoost.decayDeviation] using isFinite.not_nan hp.1
  · have hem : rs.isEmpty = false := by simpa using hne
    simp only [GlickoBoost.glickoBoostRatingPeriod, hem, Bool.false_eq_true, if_false]
    have hcol : ∀ b : Bool, Within 1 (if b = true then (1.0 : FP E) else -1.0) := by
      intro b
      cases b
      · exact neg_one_within
      · exact one_within
    have hs : ∀ r ∈ rs, _ := fun r hm =>
      boost_score L hp (hr r hm).1 (hr r hm).2 hc (hcol r.2.2) h
    have hsur : ∀ r ∈ rs, _ := fun r hm => surprise (points_in (E := E) r.2.1) (hs r hm).2
      (pointsR_nonneg r.2.1) (pointsR_le_one r.2.1)
    have hw : ∀ r ∈ rs, Within 1 (GlickoBoost.gValue (Flt.ln (10.0 : FP E) / 400.0) r.1.deviation
        * (r.2.1.toChessPoints - GlickoBoost.eValue
          (GlickoBoost.gValue (Flt.ln (10.0 : FP E) / 400.0) r.1.deviation) p.rating r.1.rating
          c.eta (if r.2.2 then 1.0 else -1.0))) := fun r hm =>
      mul_abs_in (In.within ((unit_in (hs r hm).1).mono (by norm_num) le_rfl))
          ⟨(hsur r hm).1, abs_le.2 ⟨(hsur r hm).2.1, (hsur r hm).2.2.1⟩⟩ SRep.one (by norm_num)
    have hsg := sum_sign rs _ hl hw
    have hm := sum_within (rs.map fun r =>
        GlickoBoost.gValue (Flt.ln (10.0 : FP E) / 400.0) r.1.deviation
        * (r.2.1.toChessPoints - GlickoBoost.eValue
          (GlickoBoost.gValue (Flt.ln (10.0 : FP E) / 400.0) r.1.deviation) p.rating r.1.rating
          c.eta (if r.2.2 then 1.0 else -1.0))) 1 (by rw [List.length_map]; omega) (by
        intro x hx
        obtain ⟨r, hm, rfl⟩ := List.mem_map.1 hx
        simpa using hw r hm)
    have hk : ∀ dev : FP E, In (E := E) ((0 : ℝ) : EReal) ((350 : ℝ) : EReal) dev →
        (Flt.powi dev 2 * (Flt.ln (10.0 : FP E) / 400.0)).isFinite ∧
        0 ≤ (Flt.powi dev 2 * (Flt.ln (10.0 : FP E) / 400.0)).toR := by
      intro dev hd
      rw [powi_two' L]
      have h2 := mul_in hd hd le_rfl le_rfl SRep.zero (SRep.ofNat 122500 (by norm_num))
        (by norm_num) (by norm_num)
      have h3 := mul_in h2 (q_in' L) le_rfl (by positivity) SRep.zero
        (SRep.ofNat 958 (by norm_num)) (by norm_num) (by norm_num)
      exact ⟨h3.finite, h3.toR.1⟩
    have hch := fun dev hd => change (hk dev hd).1 hm.1 (isFinite.not_nan hp.1)
    refine ⟨(hch _ (boost_dev _ _ _ c)).1, fun h => (hch _ (boost_dev _ _ _ c)).2.1
        (mul_nonneg (hk _ (boost_dev _ _ _ c)).2 (hsg.1 fun r hr' => ?_)),
      fun h => (hch _ (boost_dev _ _ _ c)).2.2 (mul_nonpos_of_nonneg_of_nonpos
        (hk _ (boost_dev _ _ _ c)).2 (hsg.2 fun r hr' => ?_))⟩
    · exact (mul_sign (unit_in (hs r hr').1).finite (hsur r hr').1 (hw r hr').1
        (unit_in (hs r hr').1).toR.1).1 ((hsur r hr').2.2.2.1 (by rw [h r hr']; rfl))
    · exact (mul_sign (unit_in (hs r hr').1).finite (hsur r hr').1 (hw r hr').1
        (unit_in (hs r hr').1).toR.1).2 ((hsur r hr').2.2.2.2 (by rw [h r hr']; rfl))

/-! ### DWZ rating periods -/

/-- The sign of a difference. -/
theorem sub_sign {x y : FP E} (hx : x.isFinite) (hy : y.isFinite) (hxy : (x - y).isFinite) :
    (y.toR ≤ x.toR → 0 ≤ (x - y).toR) ∧ (x.toR ≤ y.toR → (x - y).toR ≤ 0) := by
  obtain ⟨s, hs⟩ := sub_fin hx hy
  refine ⟨fun h => toR_of_le hxy ?_, fun h => toR_le_of hxy ?_⟩
  · rw [hs]; exact E.round_ge s SRep.zero (by linarith)
  · rw [hs]; exact E.round_le s SRep.zero (by linarith)

/-- `800 / (e + n)` times at most `n` points. -/
theorem dwz_period_factor {e : FP E} (he : In (E := E) ((5 : ℝ) : EReal) ((150 : ℝ) : EReal) e)
    {n : ℕ} (hn : n < 2 ^ 50) :
    (800.0 / (e + Flt.ofNat n) : FP E).isFinite ∧ 0 ≤ (800.0 / (e + Flt.ofNat n) : FP E).toR ∧
      (800.0 / (e + Flt.ofNat n) : FP E).toR * n ≤ 801 := by
  have hn' := ofNat_in (E := E) (n := n) (by omega)
  have h800 := lit_in (E := E) (m := 8000) (s := true) (e := 1) (v := 800) (by norm_num)
    (SRep.ofNat 800 (by norm_num))
  have hlo : SRep ((5 + n : ℕ) : ℝ) := within_nat (by omega)
  have hhi : SRep ((150 + n : ℕ) : ℝ) := within_nat (by omega)
  have hden := add_in he hn' hlo hhi (by push_cast; linarith) (by push_cast; linarith)
  have n0 : (0 : ℝ) ≤ n := Nat.cast_nonneg n
  have hq := div_in h800 hden (by norm_num) (by push_cast; linarith) SRep.zero
    (SRep.ofNat 160 (by norm_num)) (by positivity) (by
      rw [div_le_iff₀ (by push_cast; linarith)]; push_cast; linarith)
  refine ⟨hq.finite, hq.toR.1, ?_⟩
  obtain ⟨s, hs⟩ := div_fin h800.finite hden.finite (by
    have := hden.toR.1; push_cast at this; linarith)
  have h8 : FP.toR (800.0 : FP E) = 800 := le_antisymm h800.toR.2 h800.toR.1
  have hd := hden.toR.1
  push_cast at hd
  set w := FP.toR (e + Flt.ofNat n) with hw
  have hw0 : 0 < w := by linarith
  have hx0 : 0 ≤ 800 / w := by positivity
  have hx1 : 800 / w ≤ 160 := by rw [div_le_iff₀ hw0]; linarith
  have h3 : (n : ℝ) ≤ 2 ^ 50 := by exact_mod_cast hn.le
  have hwu : w ≤ 2 ^ 51 := by
    have := hden.toR.2
    push_cast at this
    calc w ≤ 150 + n := this
      _ ≤ 2 ^ 51 := by
        rw [show (2 : ℝ) ^ 51 = 2 ^ 50 + 2 ^ 50 by norm_num]
        have : (150 : ℝ) ≤ 2 ^ 50 := by norm_num
        linarith
  have hr := round_rel (E := E) s (x := 800 / w) (by
      rw [abs_of_nonneg hx0]
      calc (1 : ℝ) / 2 ^ 1000 ≤ 1 / 2 ^ 51 := by
            apply one_div_le_one_div_of_le (by positivity)
            exact pow_le_pow_right₀ (by norm_num) (by norm_num)
        _ ≤ 800 / w := by
            rw [div_le_div_iff₀ (by positivity) hw0]
            norm_num at hwu ⊢; linarith) (by
      rw [abs_of_nonneg hx0]
      calc 800 / w ≤ 2 ^ 8 := by norm_num; linarith
        _ ≤ 2 ^ 1000 := pow_le_pow_right₀ (by norm_num) (by norm_num))
  rw [hs, h8]
  have h1 := (abs_le.1 hr.2).2
  rw [abs_of_nonneg hx0] at h1
  have h2 : (800 / w) * n ≤ 800 := by
    rw [div_mul_eq_mul_div, div_le_iff₀ hw0]; nlinarith
  have h4 : (E.round s (800 / w)).toR * n ≤ (800 / w + 800 / w / 2 ^ 51) * n :=
    mul_le_mul_of_nonneg_right (by linarith) n0
  refine h4.trans ?_
  have : (800 / w + 800 / w / 2 ^ 51) * n = (800 / w * n) * (1 + 1 / 2 ^ 51) := by ring
  rw [this]
  calc 800 / w * n * (1 + 1 / 2 ^ 51) ≤ 800 * (1 + 1 / 2 ^ 51) :=
        mul_le_mul_of_nonneg_right h2 (by positivity)
    _ ≤ 801 := by norm_num

/-- A DWZ rating period with any number of games: the rating moves by at most 801 points, wins only
never lower it and losses only never raise it. -/
theorem C80_dwz_period_direction (L : E.Lib) (p : Dwz.DWZRating (FP E))
    (rs : List (Dwz.DWZRating (FP E) × Outcomes)) (B M : ℕ) (hp : DwzSane B M p)
    (hr : ∀ r ∈ rs, r.1.rating.isFinite) (hB : B + 801 < 2 ^ 53) (hM : M < 2 ^ 50)
    (hl : rs.length < 2 ^ 50) :
    Within ((B + 801 : ℕ) : ℝ) (Dwz.dwzRatingPeriod p rs).rating ∧
    ((∀ r ∈ rs, r.2 = .WIN) → p.rating.toE ≤ (Dwz.dwzRatingPeriod p rs).rating.toE) ∧
    ((∀ r ∈ rs, r.2 = .LOSS) → (Dwz.dwzRatingPeriod p rs).rating.toE ≤ p.rating.toE) := by
  have hlen : rs.length < 2 ^ 53 := by omega
  have he : ∀ r ∈ rs, In (E := E) ((0 : ℝ) : EReal) ((1 : ℝ) : EReal) (Dwz.expectedScore p r.1).1 :=
    fun r hm => unit_in (pow_score L (dwz_exponent (sub_not_nan hp.1.1 (hr r hm))))
  have hs : ∀ r ∈ rs, In (E := E) ((0 : ℝ) : EReal) ((1 : ℝ) : EReal) (r.2.toChessPoints : FP E) :=
    fun r _ => (points_in (E := E) r.2).mono (pointsR_nonneg _) (pointsR_le_one _)
  have hS := sum_unit_in (rs.map fun r => (r.2.toChessPoints : FP E))
    (by rw [List.length_map]; exact hlen) (by
      intro x hx
      obtain ⟨r, hm, rfl⟩ := List.mem_map.1 hx
      exact hs r hm)
  have hX := sum_unit_in (rs.map fun r => (Dwz.expectedScore p r.1).1)
    (by rw [List.length_map]; exact hlen) (by
      intro x hx
      obtain ⟨r, hm, rfl⟩ := List.mem_map.1 hx
      exact he r hm)
  rw [List.length_map] at hS hX
  have hw1 : ∀ r ∈ rs, Within 1 (r.2.toChessPoints : FP E) := fun r hm =>
    In.within ((hs r hm).mono (by norm_num) le_rfl)
  have hw2 : ∀ r ∈ rs, Within 1 (Dwz.expectedScore p r.1).1 := fun r hm =>
    In.within ((he r hm).mono (by norm_num) le_rfl)
  simp only [Dwz.dwzRatingPeriod]
  set S := Flt.sum (rs.map fun r => (r.2.toChessPoints : FP E)) with hSd
  set X := Flt.sum (rs.map fun r => (Dwz.expectedScore p r.1).1) with hXd
  obtain ⟨kf, k0, kn⟩ := dwz_period_factor (dwz_e_in (E := E) L (s := S) (e := X) p.age hp.1
    (by omega) hp.2.1 (lt_of_le_of_lt hp.2.2 hM)) hl
  have hD : Within (rs.length : ℝ) (S - X) := In.within (sub_in hS hX
    (within_nat hlen).neg (within_nat hlen) (by linarith) (by linarith))
  have hc := change kf hD.1 (isFinite.not_nan hp.1.1)
  have hsg := sub_sign hS.finite hX.finite hD.1
  refine ⟨?_, fun h => hc.2.1 (mul_nonneg k0 (hsg.1 (sum_mono rs _ _ hlen hw2 hw1 fun r hm => ?_))),
    fun h => hc.2.2 (mul_nonpos_of_nonneg_of_nonpos k0
      (hsg.2 (sum_mono rs _ _ hlen hw1 hw2 fun r hm => ?_)))⟩
  · obtain ⟨t, ht⟩ := mulAdd_fin kf hD.1 hp.1.1
    rw [ht]
    have h1 : |(800.0 / (Dwz.eValue p.rating p.age S X p.index + Flt.ofNat rs.length) : FP E).toR
        * (S - X).toR| ≤ 801 := by
      rw [abs_mul, abs_of_nonneg k0]
      exact (mul_le_mul_of_nonneg_left hD.2 k0).trans kn
    have h2 := abs_le.1 ((abs_add_le _ _).trans (add_le_add h1 hp.1.2))
    refine In.within (In.of_round t (within_nat hB).neg (within_nat hB) ?_ ?_)
    · push_cast; linarith
    · push_cast; linarith
  · have := (points_in (E := E) r.2).toR.1
    rw [h r hm] at this ⊢
    exact (he r hm).toR.2.trans this
  · have := (points_in (E := E) r.2).toR.2
    rw [h r hm] at this ⊢
    exact this.trans (he r hm).toR.1

/-! Concrete instances: binary64 with rounding to nearest. -/

theorem sample_dev : ¬ (350.0 : FP ieee).isNaN := sample_sane.1.1

example : (1500.0 : FP ieee).toE
    ≤ (Glicko.glicko (F := FP ieee) ⟨1500.0, 350.0⟩ ⟨1400.0, 350.0⟩ .WIN ⟨64.0⟩).1.rating.toE :=
  ((C80_glicko_direction ieee_lib ⟨1500.0, 350.0⟩ ⟨1400.0, 350.0⟩ .WIN ⟨64.0⟩ 1500
    (sample_within 15000 1500 (by norm_num) (by norm_num))
    ((sample_within 14000 1400 (by norm_num) (by norm_num)).mono (by norm_num))
    sample_dev sample_dev sample_decay.1 sample_decay.2 (by norm_num)).2.2.1 rfl).1

example : (1500.0 : FP ieee).toE ≤ (Glicko.glickoRatingPeriod (F := FP ieee) ⟨1500.0, 350.0⟩
    [(⟨1400.0, 350.0⟩, .WIN), (⟨1500.0, 350.0⟩, .WIN)] ⟨64.0⟩).rating.toE :=
  (C80_glicko_period_direction ieee_lib ⟨1500.0, 350.0⟩
    [(⟨1400.0, 350.0⟩, .WIN), (⟨1500.0, 350.0⟩, .WIN)] ⟨64.0⟩ 1500
    (sample_within 15000 1500 (by norm_num) (by norm_num)) sample_dev
    (fun r h => by
      rcases List.mem_cons.1 h with rfl | h
      · exact ⟨(sample_within 14000 1400 (by norm_num) (by norm_num)).mono (by norm_num), sample_dev⟩
      · rw [List.mem_singleton.1 h]
        exact ⟨sample_within 15000 1500 (by norm_num) (by norm_num), sample_dev⟩)
    sample_decay.1 sample_decay.2 (by norm_num) (by norm_num)).2.1 (by simp)

example (b : FP ieee × FP ieee) (al : GlickoBoost.Alpha (FP ieee)) : (1500.0 : FP ieee).toE
    ≤ (GlickoBoost.glickoBoost (F := FP ieee) ⟨1500.0, 350.0⟩ ⟨1400.0, 350.0⟩ .WIN
        ⟨30.0, 2.0, b, al⟩).1.rating.toE :=
  ((C80_boost_direction ieee_lib ⟨1500.0, 350.0⟩ ⟨1400.0, 350.0⟩ .WIN ⟨30.0, 2.0, b, al⟩ 1500 30
    (sample_within 15000 1500 (by norm_num) (by norm_num))
    ((sample_within 14000 1400 (by norm_num) (by norm_num)).mono (by norm_num))
    sample_dev sample_dev (sample_within 300 30 (by norm_num) (by norm_num)) (by norm_num)).2.2.1 rfl).1

example (b : FP ieee × FP ieee) (al : GlickoBoost.Alpha (FP ieee)) :
    (GlickoBoost.glickoBoostRatingPeriod (F := FP ieee) ⟨1500.0, 350.0⟩
      [(⟨1400.0, 350.0⟩, .LOSS, true)] ⟨30.0, 2.0, b, al⟩).rating.toE ≤ (1500.0 : FP ieee).toE :=
  (C80_boost_period_direction ieee_lib ⟨1500.0, 350.0⟩ [(⟨1400.0, 350.0⟩, .LOSS, true)] ⟨30.0, 2.0, b, al⟩ 1500 30
    (sample_within 15000 1500 (by norm_num) (by norm_num))
    (fun r h => by
      rw [List.mem_singleton.1 h]
      exact ⟨(sample_within 14000 1400 (by norm_num) (by norm_num)).mono (by norm_num), sample_dev⟩)
    (sample_within 300 30 (by norm_num) (by norm_num)) (by norm_num) (by norm_num)).2.2 (by simp)

example : (1500.0 : FP ieee).toE ≤ (Dwz.dwzRatingPeriod (F := FP ieee) ⟨1500.0, 5, 20⟩
    [(⟨1400.0, 1, 30⟩, .WIN)]).rating.toE :=
  (C80_dwz_period_direction ieee_lib ⟨1500.0, 5, 20⟩ [(⟨1400.0, 1, 30⟩, .WIN)] 2000 5
    (sample_dwz 15000 (by norm_num) ⟨1500, by norm_num⟩ 20)
    (fun r h => by
      rw [List.mem_singleton.1 h]
      exact (sample_within 14000 1400 (by norm_num) (by norm_num)).1)
    (by norm_num) (by norm_num) (by norm_num)).2.1 (by simp)

end Skillratings
