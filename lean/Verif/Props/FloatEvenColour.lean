import Verif.Props.FloatDrawn
import Verif.Props.FloatStickoHistory
/-
C164, C165 for Sticko and Glicko-Boost: draws between equals change no rating when neither colour is
favoured and a game earns no bonus.
-/
namespace Skillratings
open FP FPVal Spec
variable {E : FloatEnv} {ι : Type} [DecidableEq ι]

theorem Is.mulAdd' {k d r : FP E} {v : ℝ} (hk : Is k 0) (hd : d.isFinite) (hr : Is r v) :
    Is (Flt.mulAdd k d r) v := by
  obtain ⟨s, hs⟩ := mulAdd_fin hk.1 hd hr.1
  have := isFinite.srep hr.1
  rw [hs, hk.2, hr.2, MulZeroClass.zero_mul, zero_add]
  exact round (hr.2 ▸ this)

theorem level_score (L : E.Lib) {g t : FP E} (hg : In 0 1 g) (ht : Is t 0) :
    Is (Flt.recip ((1.0 : FP E) + Flt.powf (10.0 : FP E) (-g * t / (400.0 : FP E)))) (1 / 2) := by
  have h := Is.lit (E := E) (m := 4000) (s := true) (e := 1) 400 (by norm_num) (by norm_num)
  exact Is.score L (Is.zero_div (Is.mul_zero ((isFinite_neg _).2 (unit_in hg).finite) ht)
    h.1 (by rw [h.2]; norm_num))

theorem colour_finite (b : Bool) : (if b = true then (1.0 : FP E) else -1.0).isFinite := by
  cases b
  · exact neg_one_within.1
  · exact one_within.1

/-! ### Sticko -/

/-- A configuration without advantage of colour and without bonus; the pull between 0 and 100 percent. -/
structure StickoNeutral (cf : Sticko.StickoConfig (FP E)) : Prop where
  c : cf.c.isFinite ∧ 1 ≤ cf.c.toR
  lambda : cf.lambda.isFinite ∧ 0 ≤ cf.lambda.toR ∧ cf.lambda.toR ≤ 100
  beta : Is cf.beta 0
  gamma : Is cf.gamma 0

theorem sticko_even (L : E.Lib) {g x y gamma col : FP E} {v : ℝ} (hg : In 0 1 g) (hx : Is x v) (hy : Is y v)
    (h0 : Is gamma 0) (hcol : col.isFinite) : Is (Sticko.eValue g x y gamma col) (1 / 2) :=
  level_score L hg (Is.mulAdd' h0 hcol (Is.sub_self hx hy))

theorem C164_sticko_expected (L : E.Lib) (a b : Sticko.StickoRating (FP E)) (c : Sticko.StickoConfig (FP E))
    (v : ℝ) (ha : Is a.rating v) (hb : Is b.rating v) (da : ¬ a.deviation.isNaN) (db : ¬ b.deviation.isNaN)
    (hc : Is c.gamma 0) :
    Is (Sticko.expectedScore a b c).1 (1 / 2) ∧ Is (Sticko.expectedScore a b c).2 (1 / 2) :=
  have h := level_score L (g_glicko_in L (L.hypot_nan _ _ da db)) (Is.sub_self (Is.add_zero ha hc) hb)
  ⟨h, Is.one_sub h⟩

/-- With any pull between 0 and 100 percent; the deviations may differ. -/
theorem C164_sticko (L : E.Lib) (a b : Sticko.StickoRating (FP E)) (c : Sticko.StickoConfig (FP E)) (v : ℝ)
    (ha : Is a.rating v) (hb : Is b.rating v) (da : ¬ a.deviation.isNaN) (db : ¬ b.deviation.isNaN)
    (hc : StickoNeutral c) :
    Is (Sticko.sticko a b .DRAW c).1.rating v ∧ Is (Sticko.sticko a b .DRAW c).2.rating v := by
  have side : ∀ {x y d d' s col : FP E}, Is x v → Is y v → ¬ d.isNaN → ¬ d'.isNaN → Is s (1 / 2) → col.isFinite →
      Is (Sticko.newRating x (Flt.fmin (Flt.hypot d c.c) 350.0) (Flt.ln 10.0 / 400.0)
        (Sticko.dValue (Flt.ln 10.0 / 400.0) (Sticko.gValue (Flt.ln 10.0 / 400.0) d')
          (Sticko.eValue (Sticko.gValue (Flt.ln 10.0 / 400.0) d') x y c.gamma col))
        (Sticko.gValue (Flt.ln 10.0 / 400.0) d') s
        (Sticko.eValue (Sticko.gValue (Flt.ln 10.0 / 400.0) d') x y c.gamma col) c.beta
        ((c.lambda / 100.0) * (y - x))) v := by
    intro x y d d' s col hx hy hd hd' hs hcol
    have hg : In 0 1 (Sticko.gValue (Flt.ln (10.0 : FP E) / 400.0) d') := g_glicko_in L hd'
    have he := sticko_even L hg hx hy hc.gamma hcol
    have hpre := pre_in L hd hc.c.1 hc.c.2
    have ht := total_in L (k := 0) (by norm_num) hpre
      ((dValue_arg_in L hg (Is.unit he)).mono le_rfl (by norm_num))
    have hkg := mul_in (gain_in L ht) (unit_in hg) le_rfl le_rfl SRep.zero
      (SRep.ofNat 958 (by norm_num)) (by norm_num) (by norm_num)
    have hdv : Sticko.dValue (Flt.ln (10.0 : FP E) / 400.0) (Sticko.gValue (Flt.ln 10.0 / 400.0) d')
        (Sticko.eValue (Sticko.gValue (Flt.ln 10.0 / 400.0) d') x y c.gamma col) = Flt.recip _ :=
      powi_neg_one' L _
    have hsh := share_in hc.lambda.1 hc.lambda.2.1 hc.lambda.2.2
    simp only [Sticko.newRating, hdv]
    exact Is.add_zero (Is.mulAdd hkg.finite (Is.add_zero (Is.sub_self hs he) hc.beta) hx)
      (Is.mul_zero hsh.finite (Is.sub_self hy hx))
  exact ⟨side ha hb da db Is.draw one_within.1, side hb ha db da (Is.one_sub Is.draw) neg_one_within.1⟩

/-- A period of draws, when nothing pulls the player towards the mean of the opponents: that mean is
rounded, so it can differ from the common rating. -/
theorem C164_sticko_period (L : E.Lib) (p : Sticko.StickoRating (FP E))
    (rs : List (Sticko.StickoRating (FP E) × Outcomes × Bool)) (c : Sticko.StickoConfig (FP E)) (v : ℝ) (B : ℕ)
    (hp : Is p.rating v) (hd : ¬ p.deviation.isNaN)
    (hr : ∀ r ∈ rs, Is r.1.rating v ∧ ¬ r.1.deviation.isNaN ∧ r.2.1 = .DRAW)
    (hc : StickoNeutral c) (hl : Is c.lambda 0) (hv : |v| ≤ B) (hB : rs.length * B < 2 ^ 53)
    (hB' : 2 * B < 2 ^ 53) (hn : rs.length < 2 ^ 53) :
    Is (Sticko.stickoRatingPeriod p rs c).rating v := by
  have hpre := pre_in L hd hc.c.1 hc.c.2
  have w : ∀ {x : FP E}, Is x v → Within (B : ℝ) x := fun h => ⟨h.1, by rw [h.2]; exact hv⟩
  by_cases hne : rs = []
  · subst hne
    simpa [Sticko.stickoRatingPeriod, Sticko.decayDeviation] using hp
  · have hem : rs.isEmpty = false := by simpa using hne
    simp only [Sticko.stickoRatingPeriod, hem, Bool.false_eq_true, if_false]
    have hg : ∀ r ∈ rs, In 0 1 (Sticko.gValue (Flt.ln (10.0 : FP E) / 400.0) r.1.deviation) :=
      fun r h => g_glicko_in L (hr r h).2.1
    have he : ∀ r ∈ rs, Is (Sticko.eValue (Sticko.gValue (Flt.ln (10.0 : FP E) / 400.0)
        r.1.deviation) p.rating r.1.rating c.gamma (if r.2.2 then 1.0 else -1.0)) (1 / 2) :=
      fun r hm => sticko_even L (hg r hm) hp (hr r hm).1 hc.gamma (colour_finite _)
    have hi := sum_unit_in (rs.map fun r =>
        Flt.powi (Sticko.gValue (Flt.ln (10.0 : FP E) / 400.0) r.1.deviation) 2
        * Sticko.eValue (Sticko.gValue (Flt.ln (10.0 : FP E) / 400.0) r.1.deviation) p.rating
          r.1.rating c.gamma (if r.2.2 then 1.0 else -1.0)
        * (1.0 - Sticko.eValue (Sticko.gValue (Flt.ln (10.0 : FP E) / 400.0) r.1.deviation)
          p.rating r.1.rating c.gamma (if r.2.2 then 1.0 else -1.0))) (by rw [List.length_map]; exact hn) (by
        intro x hx
        obtain ⟨r, hm, rfl⟩ := List.mem_map.1 hx
        exact information_in L (hg r hm) (Is.unit (he r hm)))
    have hm := sum_zeros rs (fun r =>
        Sticko.gValue (Flt.ln (10.0 : FP E) / 400.0) r.1.deviation
        * (r.2.1.toChessPoints - Sticko.eValue (Sticko.gValue (Flt.ln (10.0 : FP E) / 400.0)
          r.1.deviation) p.rating r.1.rating c.gamma (if r.2.2 then 1.0 else -1.0) + c.beta)) (fun r hm =>
        Is.mul_zero (unit_in (hg r hm)).finite
          (Is.add_zero (Is.sub_self (by rw [(hr r hm).2.2]; exact Is.draw) (he r hm)) hc.beta))
    rw [List.length_map] at hi
    have hlen : (rs.length : ℝ) ≤ 2 ^ 53 := by exact_mod_cast hn.le
    have hqi := mul_in (q_sq_in L) hi le_rfl le_rfl SRep.zero (SRep.two_pow 53 (by norm_num))
      (by norm_num) (by linarith)
    have hk := gain_in L (total_in L (k := 53) (by norm_num) hpre hqi)
    have hmean := mean_within (rs.map fun r => r.1.rating) (by simpa using hne) (B := B) (by
        intro x hx
        obtain ⟨r, hm, rfl⟩ := List.mem_map.1 hx
        exact w (hr r hm).1) (by rw [List.length_map]; exact hB) (by rw [List.length_map]; exact hn) (by omega)
    rw [List.length_map] at hmean
    have hdiff := sub_bound hmean.1 hp.1 hmean.2 (w hp).2 (within_nat hB') (by push_cast; linarith)
    have h100 := Is.lit (E := E) (m := 1000) (s := true) (e := 1) 100 (by norm_num) (by norm_num)
    have hz := Is.zero_div hl h100.1 (by rw [h100.2]; norm_num)
    have hpull : ∀ {x y : FP E}, Is x 0 → y.isFinite → Is (x * y) 0 := by
      intro x y hx hy
      obtain ⟨s, hs⟩ := mul_fin hx.1 hy
      rw [hs, hx.2, MulZeroClass.zero_mul]
      exact Is.round SRep.zero
    exact Is.add_zero (Is.mulAdd hk.finite hm hp) (hpull hz hdiff.1)

/-- Tournaments of draws. -/
theorem C165_sticko (L : E.Lib) (pool : ι → Sticko.StickoRating (FP E))
    (games : List (Game ι (Sticko.StickoConfig (FP E)))) (v : ℝ) (hp : ∀ i, Is (pool i).rating v)
    (hd : ∀ i, ¬ (pool i).deviation.isNaN)
    (hg : ∀ g ∈ games, g.outcome = .DRAW ∧ StickoNeutral g.config) (i : ι) :
    Is (tournament Sticko.sticko pool games i).rating v := by
  refine (tournament_games Sticko.sticko (fun _ a => Is a.rating v ∧ ¬ a.deviation.isNaN)
    (fun o c => o = .DRAW ∧ StickoNeutral c) games.length (fun n a h => h)
    (fun n a b o c hn hQ ha hb => ?_) pool games 0 (by omega) hg (fun i => ⟨hp i, hd i⟩) i).1
  obtain ⟨rfl, hc⟩ := hQ
  have h := C164_sticko L a b c v ha.1 hb.1 ha.2 hb.2 hc
  have cap := C101_sticko_cap a b .DRAW c
  exact ⟨⟨h.1, cap.1.1.1⟩, ⟨h.2, cap.2.1.1⟩⟩

/-! ### Glicko-Boost -/

theorem boost_even (L : E.Lib) {g x y eta col : FP E} {v : ℝ} (hg : In 0 1 g) (hx : Is x v) (hy : Is y v)
    (h0 : Is eta 0) (hcol : col.isFinite) : Is (GlickoBoost.eValue g x y eta col) (1 / 2) :=
  level_score L hg (Is.sub_self (Is.mulAdd hcol h0 hx) hy)

theorem C164_glickoBoost_expected (L : E.Lib) (a b : GlickoBoost.GlickoBoostRating (FP E))
    (c : GlickoBoost.GlickoBoostConfig (FP E)) (v : ℝ) (ha : Is a.rating v) (hb : Is b.rating v)
    (da : ¬ a.deviation.isNaN) (db : ¬ b.deviation.isNaN) (hc : Is c.eta 0) :
    Is (GlickoBoost.expectedScore a b c).1 (1 / 2) ∧ Is (GlickoBoost.expectedScore a b c).2 (1 / 2) :=
  have h := level_score L (g_glicko_in L (L.hypot_nan _ _ da db)) (Is.sub_self (Is.add_zero ha hc) hb)
  ⟨h, Is.one_sub h⟩

/-- With any parameters for boost and decay. -/
theorem C164_glickoBoost (L : E.Lib) (a b : GlickoBoost.GlickoBoostRating (FP E))
    (c : GlickoBoost.GlickoBoostConfig (FP E)) (v : ℝ) (ha : Is a.rating v) (hb : Is b.rating v)
    (da : ¬ a.deviation.isNaN) (db : ¬ b.deviation.isNaN) (hc : Is c.eta 0) :
    Is (GlickoBoost.glickoBoost a b .DRAW c).1.rating v ∧
      Is (GlickoBoost.glickoBoost a b .DRAW c).2.rating v := by
  have side : ∀ {x y d' dev s col : FP E}, Is x v → Is y v → ¬ d'.isNaN → Is s (1 / 2) → col.isFinite →
      In (E := E) ((0 : ℝ) : EReal) ((350 : ℝ) : EReal) dev →
      Is (GlickoBoost.newRating x dev s (Flt.ln (10.0 : FP E) / 400.0)
        (GlickoBoost.gValue (Flt.ln 10.0 / 400.0) d')
        (GlickoBoost.eValue (GlickoBoost.gValue (Flt.ln 10.0 / 400.0) d') x y c.eta col)) v := by
    intro x y d' dev s col hx hy hd' hs hcol hdev
    have hg : In 0 1 (GlickoBoost.gValue (Flt.ln (10.0 : FP E) / 400.0) d') := g_glicko_in L hd'
    have he := boost_even L hg hx hy hc hcol
    have hk := boost_gain L hdev
    have hkg := mul_abs_in hk (In.within ((unit_in hg).mono (by norm_num) le_rfl))
      (SRep.ofNat 958 (by norm_num)) (by norm_num)
    exact Is.mulAdd hkg.1 (Is.sub_self hs he) hx
  exact ⟨side ha hb db Is.draw one_within.1 (boost_dev _ _ _ _),
    side hb ha da (Is.one_sub Is.draw) neg_one_within.1 (boost_dev _ _ _ _)⟩

theorem C164_glickoBoost_period (L : E.Lib) (p : GlickoBoost.GlickoBoostRating (FP E))
    (rs : List (GlickoBoost.GlickoBoostRating (FP E) × Outcomes × Bool))
    (c : GlickoBoost.GlickoBoostConfig (FP E)) (v : ℝ) (hp : Is p.rating v)
    (hr : ∀ r ∈ rs, Is r.1.rating v ∧ ¬ r.1.deviation.isNaN ∧ r.2.1 = .DRAW) (hc : Is c.eta 0) :
    Is (GlickoBoost.glickoBoostRatingPeriod p rs c).rating v := by
  by_cases hne : rs = []
  · subst hne
    simpa [GlickoBoost.glickoBoostRatingPeriod, GlickoBoost.decayDeviation] using hp
  · have hem : rs.isEmpty = false := by simpa using hne
    simp only [GlickoBoost.glickoBoostRatingPeriod, hem, Bool.false_eq_true, if_false]
    have hg : ∀ r ∈ rs, In 0 1 (GlickoBoost.gValue (Flt.ln (10.0 : FP E) / 400.0) r.1.deviation) :=
      fun r h => g_glicko_in L (hr r h).2.1
    have hm := sum_zeros rs (fun r =>
        GlickoBoost.gValue (Flt.ln (10.0 : FP E) / 400.0) r.1.deviation
        * (r.2.1.toChessPoints - GlickoBoost.eValue
          (GlickoBoost.gValue (Flt.ln (10.0 : FP E) / 400.0) r.1.deviation) p.rating r.1.rating
          c.eta (if r.2.2 then 1.0 else -1.0))) (fun r hm =>
        Is.mul_zero (unit_in (hg r hm)).finite (Is.sub_self (by rw [(hr r hm).2.2]; exact Is.draw)
          (boost_even L (hg r hm) hp (hr r hm).1 hc (colour_finite _))))
    exact Is.mulAdd (boost_gain L (boost_dev _ _ _ c)).1 hm hp

/-- Tournaments of draws. -/
theorem C165_glickoBoost (L : E.Lib) (pool : ι → GlickoBoost.GlickoBoostRating (FP E))
    (games : List (Game ι (GlickoBoost.GlickoBoostConfig (FP E)))) (v : ℝ) (hp : ∀ i, Is (pool i).rating v)
    (hd : ∀ i, ¬ (pool i).deviation.isNaN)
    (hg : ∀ g ∈ games, g.outcome = .DRAW ∧ Is g.config.eta 0) (i : ι) :
    Is (tournament GlickoBoost.glickoBoost pool games i).rating v := by
  refine (tournament_games GlickoBoost.glickoBoost (fun _ a => Is a.rating v ∧ ¬ a.deviation.isNaN)
    (fun o c => o = .DRAW ∧ Is c.eta 0) games.length (fun n a h => h)
    (fun n a b o c hn hQ ha hb => ?_) pool games 0 (by omega) hg (fun i => ⟨hp i, hd i⟩) i).1
  obtain ⟨rfl, hc⟩ := hQ
  have h := C164_glickoBoost L a b c v ha.1 hb.1 ha.2 hb.2 hc
  exact ⟨⟨h.1, (boost_end _ _ _).1⟩, ⟨h.2, (boost_end _ _ _).1⟩⟩

/-! ### Examples -/

theorem even_0 : Is (0.0 : FP ieee) 0 := by
  have := Is.lit (E := ieee) (m := 0) (s := true) (e := 1) 0 (by norm_num) (by norm_num)
  simpa using this

/-- The default configuration of Sticko is neutral. -/
theorem sticko_default : StickoNeutral (Sticko.StickoConfig.new : Sticko.StickoConfig (FP ieee)) := by
  have h10 := Is.lit (E := ieee) (m := 100) (s := true) (e := 1) 10 (by norm_num) (by norm_num)
  have h2 := Is.lit (E := ieee) (m := 20) (s := true) (e := 1) 2 (by norm_num) (by norm_num)
  exact ⟨⟨h10.1, h10.2 ▸ by norm_num⟩, ⟨h2.1, h2.2 ▸ by norm_num, h2.2 ▸ by norm_num⟩, even_0, even_0⟩

example : Is (Sticko.sticko (⟨1500.0, 50.0⟩ : Sticko.StickoRating (FP ieee)) ⟨1500.0, 350.0⟩ .DRAW
    Sticko.StickoConfig.new).2.rating 1500 :=
  (C164_sticko ieee_lib _ _ _ 1500 even_1500 even_1500 (isFinite.not_nan even_50.1)
    (isFinite.not_nan even_350.1) sticko_default).2

example : Is (Sticko.stickoRatingPeriod (⟨1500.0, 50.0⟩ : Sticko.StickoRating (FP ieee))
    [(⟨1500.0, 350.0⟩, .DRAW, true), (⟨1500.0, 50.0⟩, .DRAW, false)]
    { (Sticko.StickoConfig.new : Sticko.StickoConfig (FP ieee)) with lambda := 0.0 }).rating 1500 :=
  C164_sticko_period ieee_lib _ _ _ 1500 1500 even_1500 (isFinite.not_nan even_50.1)
    (by simp [even_1500, show ¬ FP.isNaN (350.0 : FP ieee) from isFinite.not_nan even_350.1,
      show ¬ FP.isNaN (50.0 : FP ieee) from isFinite.not_nan even_50.1])
    ⟨sticko_default.c, ⟨even_0.1, even_0.2.ge, by rw [even_0.2]; norm_num⟩, even_0, even_0⟩ even_0 (by norm_num)
    (by norm_num) (by norm_num) (by norm_num)

example : Is (GlickoBoost.glickoBoost (⟨1500.0, 50.0⟩ : GlickoBoost.GlickoBoostRating (FP ieee)) ⟨1500.0, 350.0⟩
    .DRAW { (GlickoBoost.GlickoBoostConfig.new : GlickoBoost.GlickoBoostConfig (FP ieee)) with eta := 0.0 }).1.rating
    1500 :=
  (C164_glickoBoost ieee_lib _ _ _ 1500 even_1500 even_1500 (isFinite.not_nan even_50.1)
    (isFinite.not_nan even_350.1) even_0).1

example : Is (tournament Sticko.sticko
    (fun i : ℕ => (⟨1500.0, if i = 0 then 50.0 else 350.0⟩ : Sticko.StickoRating (FP ieee)))
    [⟨0, 1, by norm_num, .DRAW, Sticko.StickoConfig.new⟩, ⟨2, 0, by norm_num, .DRAW, Sticko.StickoConfig.new⟩,
      ⟨1, 2, by norm_num, .DRAW, Sticko.StickoConfig.new⟩] 2).rating 1500 :=
  C165_sticko ieee_lib _ _ 1500 (fun _ => even_1500)
    (fun i => by
      by_cases h : i = 0
      · simpa [h] using isFinite.not_nan even_50.1
      · simpa [h] using isFinite.not_nan even_350.1) (by simp [sticko_default]) 2

end Skillratings
