import Verif.Proofs.FPGlicko
import Verif.Props.FloatUpdates
import Verif.Model.Glicko2
/-
Histories in floating point: C100 (ratings stay finite, whatever the results are) and C101 (caps of
the deviations, for every input including NaN and infinities).
-/

namespace Skillratings
open FP FPVal Spec
variable {E : FloatEnv}

/-! ### C100: no NaN and no infinity in Elo, FIFA, Glicko and Glicko-Boost histories -/

theorem within_nat {N : ℕ} (h : N < 2 ^ 53) : SRep (N : ℝ) := SRep.nat h

/-- One Elo or FIFA update. -/
theorem step_within {B K : ℕ} {k d x : FP E} (hk : Within K k) (hd : d.isFinite ∧ -1 ≤ d.toR ∧ d.toR ≤ 1)
    (hx : Within B x) (h : B + K < 2 ^ 53) :
    Within ((B + K : ℕ) : ℝ) (Flt.mulAdd k d x) :=
  mulAdd_abs_in hk ⟨hd.1, abs_le.2 hd.2⟩ hx (within_nat h) (by push_cast; linarith)

theorem Spec.Within.mono {B C : ℝ} {x : FP E} (h : Within B x) (hBC : B ≤ C) : Within C x :=
  ⟨h.1, h.2.trans hBC⟩

/-- Elo: after `n` games with `|k| ≤ K` no rating exceeds `B + n K` in absolute value, in particular
every rating is finite, as long as this bound is below `2 ^ 53`. -/
theorem C100_elo_history {ι : Type} [DecidableEq ι] (L : E.Lib) (pool : ι → Elo.EloRating (FP E))
    (games : List (Game ι (Elo.EloConfig (FP E)))) (B K : ℕ)
    (hp : ∀ i, Within B (pool i).rating) (hk : ∀ g ∈ games, Within K g.config.k)
    (h : B + games.length * K < 2 ^ 53) (i : ι) :
    Within ((B + games.length * K : ℕ) : ℝ) (tournament Elo.elo pool games i).rating := by
  have := tournament_counted Elo.elo
    (fun n a => Within ((B + n * K : ℕ) : ℝ) a.rating) (fun c => Within K c.k) games.length
    (fun n a ha => ha.mono (by push_cast; nlinarith [Nat.cast_nonneg (α := ℝ) K]))
    (by
      intro n a b o c hn hc ha hb
      have hle : B + (n + 1) * K < 2 ^ 53 := by
        have := Nat.mul_le_mul_right K hn; omega
      have he := elo_score_in L (isFinite.not_nan ha.1) hb.1
      have h1 := surprise (points_in (E := E) o) he (pointsR_nonneg o) (pointsR_le_one o)
      have h2 := surprise (points_in' (E := E) o) (one_sub_in he)
        (by linarith [pointsR_le_one o]) (by linarith [pointsR_nonneg o])
      have e : B + (n + 1) * K = B + n * K + K := by ring
      rw [e] at hle ⊢
      exact ⟨step_within hc ⟨h1.1, h1.2.1, h1.2.2.1⟩ ha hle,
        step_within hc ⟨h2.1, h2.2.1, h2.2.2.1⟩ hb hle⟩)
    pool games 0 (by omega) hk (by simpa using hp) i
  simpa using this

/-- The same for a rating period. -/
theorem C100_elo_period (L : E.Lib) (p : Elo.EloRating (FP E))
    (rs : List (Elo.EloRating (FP E) × Outcomes)) (c : Elo.EloConfig (FP E)) (B K : ℕ)
    (hp : Within B p.rating) (hr : ∀ r ∈ rs, r.1.rating.isFinite) (hk : Within K c.k)
    (h : B + rs.length * K < 2 ^ 53) :
    Within ((B + rs.length * K : ℕ) : ℝ) (Elo.eloRatingPeriod p rs c).rating := by
  simp only [Elo.eloRatingPeriod]
  generalize p.rating = x at hp
  induction rs generalizing x B with
  | nil => simpa using hp
  | cons r rs ih =>
    simp only [List.length_cons] at h ⊢
    have e : B + (rs.length + 1) * K = B + K + rs.length * K := by ring
    rw [e] at h ⊢
    refine ih (B + K) (fun r h => hr r (List.mem_cons_of_mem _ h)) h _ ?_
    have he := elo_score_in L (isFinite.not_nan hp.1) (hr r List.mem_cons_self)
    have h1 := surprise (points_in (E := E) r.2) he (pointsR_nonneg r.2) (pointsR_le_one r.2)
    exact step_within hk ⟨h1.1, h1.2.1, h1.2.2.1⟩ hp (by omega)

theorem fifa_points_in (o : Outcomes) (pen : Bool) : ∃ v : ℝ, 0 ≤ v ∧ v ≤ 1 ∧
    In (E := E) (v : EReal) (v : EReal)
      (if pen = true then (if o = .WIN then (0.75 : FP E) else 0.5) else o.toChessPoints) := by
  cases pen
  · exact ⟨pointsR o, pointsR_nonneg o, pointsR_le_one o, points_in o⟩
  · by_cases ho : o = .WIN
    · refine ⟨3 / 4, by norm_num, by norm_num, ?_⟩
      rw [if_pos rfl, if_pos ho]
      refine lit_in (by norm_num) ?_
      have := SRep.scale (n := 3) (k := -2) (by norm_num) (by norm_num) (by norm_num)
      have e : (3 / 4 : ℝ) = ((3 : ℕ) : ℝ) * (2 : ℝ) ^ (-2 : ℤ) := by norm_num
      rw [e]; exact this
    · refine ⟨1 / 2, by norm_num, by norm_num, ?_⟩
      rw [if_pos rfl, if_neg ho]
      exact lit_in (by norm_num) SRep.half

theorem fifa_points_in' (o : Outcomes) (pen : Bool) : ∃ v : ℝ, 0 ≤ v ∧ v ≤ 1 ∧
    In (E := E) (v : EReal) (v : EReal)
      (if pen = true then (if o = .WIN then (0.75 : FP E) else 0.5) else
        (1.0 : FP E) - (if pen = true then (if o = .WIN then (0.75 : FP E) else 0.5)
          else o.toChessPoints)) := by
  cases pen
  · exact ⟨1 - pointsR o, by linarith [pointsR_le_one o], by linarith [pointsR_nonneg o],
      points_in' o⟩
  · exact fifa_points_in o true

theorem guard_within {B C : ℝ} {k : Bool} {new old : FP E} (hn : Within C new) (ho : Within B old)
    (h : B ≤ C) : Within C (if (k && (new <? old)) = true then old else new) := by
  split
  · exact ho.mono h
  · exact hn

/-- FIFA, with shootouts and knockout games. -/
theorem C100_fifa_history {ι : Type} [DecidableEq ι] (L : E.Lib) (pool : ι → Fifa.FifaRating (FP E))
    (games : List (Game ι (Fifa.FifaConfig (FP E)))) (B K : ℕ)
    (hp : ∀ i, Within B (pool i).rating) (hk : ∀ g ∈ games, Within K g.config.importance)
    (h : B + games.length * K < 2 ^ 53) (i : ι) :
    Within ((B + games.length * K : ℕ) : ℝ) (tournament Fifa.fifa pool games i).rating := by
  have := tournament_counted Fifa.fifa
    (fun n a => Within ((B + n * K : ℕ) : ℝ) a.rating) (fun c => Within K c.importance) games.length
    (fun n a ha => ha.mono (by push_cast; nlinarith [Nat.cast_nonneg (α := ℝ) K]))
    (by
      intro n a b o c hn hc ha hb
      have hle : B + (n + 1) * K < 2 ^ 53 := by
        have := Nat.mul_le_mul_right K hn; omega
      have he := fifa_score_in L (isFinite.not_nan ha.1) hb.1
      obtain ⟨v, v0, v1, hv⟩ := fifa_points_in (E := E) o c.penalties
      obtain ⟨w, w0, w1, hw⟩ := fifa_points_in' (E := E) o c.penalties
      have h1 := surprise hv he v0 v1
      have h2 := surprise hw (one_sub_in he) w0 w1
      have e : B + (n + 1) * K = B + n * K + K := by ring
      rw [e] at hle ⊢
      have hm : ((B + n * K : ℕ) : ℝ) ≤ ((B + n * K + K : ℕ) : ℝ) := by
        exact_mod_cast Nat.le_add_right _ _
      simp only [Fifa.fifa, Fifa.expectedScore]
      exact ⟨guard_within (step_within hc ⟨h1.1, h1.2.1, h1.2.2.1⟩ ha hle) ha hm,
        guard_within (step_within hc ⟨h2.1, h2.2.1, h2.2.2.1⟩ hb hle) hb hm⟩)
    pool games 0 (by omega) hk (by simpa using hp) i
  simpa using this

theorem C100_fifa_period (L : E.Lib) (p : Fifa.FifaRating (FP E))
    (rs : List (Fifa.FifaRating (FP E) × Outcomes × Fifa.FifaConfig (FP E))) (B K : ℕ)
    (hp : Within B p.rating)
    (hr : ∀ r ∈ rs, r.1.rating.isFinite ∧ Within K r.2.2.importance)
    (h : B + rs.length * K < 2 ^ 53) :
    Within ((B + rs.length * K : ℕ) : ℝ) (Fifa.fifaRatingPeriod p rs).rating := by
  simp only [Fifa.fifaRatingPeriod]
  generalize p.rating = x at hp
  induction rs generalizing x B with
  | nil => simpa using hp
  | cons r rs ih =>
    simp only [List.length_cons] at h ⊢
    have e : B + (rs.length + 1) * K = B + K + rs.length * K := by ring
    rw [e] at h ⊢
    refine ih (B + K) (fun r h => hr r (List.mem_cons_of_mem _ h)) h _ ?_
    obtain ⟨hf, hk⟩ := hr r List.mem_cons_self
    have he := fifa_score_in L (isFinite.not_nan hp.1) hf
    obtain ⟨v, v0, v1, hv⟩ := fifa_points_in (E := E) r.2.1 r.2.2.penalties
    have h1 := surprise hv he v0 v1
    simp only [Fifa.periodStep, Bool.not_eq_true', ← Bool.not_eq_true, ite_not]
    exact guard_within (step_within hk ⟨h1.1, h1.2.1, h1.2.2.1⟩ hp (by omega)) hp
      (by exact_mod_cast Nat.le_add_right _ _)

/-- What Glicko keeps of a deviation in floating point: a positive number that is at most 350, up to
the rounding of two divisions and a square root. -/
def SaneDeviation (x : FP E) : Prop := AtMost (350 + 1 / 128) x ∧ 0 < x.toE

theorem sane_of_in {x : FP E}
    (h : In (E := E) ((1 / 2 ^ 31 : ℝ) : EReal) ((44801 / 128 : ℝ) : EReal) x) :
    SaneDeviation x := by
  refine ⟨⟨h.1, h.2.2.trans ?_⟩, lt_of_lt_of_le ?_ h.2.1⟩
  · exact_mod_cast (by norm_num : (44801 / 128 : ℝ) ≤ 350 + 1 / 128)
  · exact_mod_cast (by positivity : (0 : ℝ) < 1 / 2 ^ 31)

theorem diff_finite {B : ℕ} {x y : FP E} (hx : Within B x) (hy : Within B y) (h : B < 2 ^ 53) :
    (x - y).isFinite := by
  refine (sub_bound hx.1 hy.1 hx.2 hy.2 (SRep.two_pow 54 (by norm_num)) ?_).1
  have : (B : ℝ) < 2 ^ 53 := by exact_mod_cast h
  rw [show (2 : ℝ) ^ 54 = 2 ^ 53 + 2 ^ 53 by norm_num]
  linarith

/-- One side of a Glicko game. -/
theorem glicko_side {B : ℕ} (L : E.Lib) (a b : Glicko.GlickoRating (FP E)) (c s : FP E) {v : ℝ}
    (ha : Within B a.rating) (hb : Within B b.rating) (hda : ¬ a.deviation.isNaN)
    (hdb : ¬ b.deviation.isNaN) (hc : c.isFinite) (hc1 : 1 ≤ c.toR) (hB : B + 958 < 2 ^ 53)
    (hs : In (E := E) (v : EReal) (v : EReal) s) (hv0 : 0 ≤ v) (hv1 : v ≤ 1) :
    let q : FP E := Flt.ln 10.0 / 400.0
    let g := Glicko.gValue q b.deviation
    let e := Glicko.eValue g a.rating b.rating
    let d := Glicko.dValue q g e
    let pre := Flt.fmin (Flt.hypot a.deviation c) (350.0 : FP E)
    Within ((B + 958 : ℕ) : ℝ) (Glicko.newRating a.rating pre s q g e d) ∧
      SaneDeviation (Glicko.newDeviation pre d) := by
  intro q g e d pre
  have hg : In 0 1 g := g_glicko_in L hdb
  have he : In 0 1 e := pow_score L (exponent_not_nan hg (diff_finite ha hb (by omega)))
  have hd : d = Flt.recip (Flt.powi q 2 * Flt.powi g 2 * e * (1.0 - e)) := powi_neg_one' L _
  have hpre : In (E := E) ((1 : ℝ) : EReal) ((350 : ℝ) : EReal) pre := pre_in L hda hc hc1
  have ht := total_in L (k := 0) (by norm_num) hpre
    ((dValue_arg_in L hg he).mono le_rfl (by norm_num))
  have h1 := surprise hs he hv0 hv1
  have hk := gain_in L ht
  have hkg := mul_in hk (unit_in hg) le_rfl le_rfl SRep.zero (SRep.ofNat 958 (by norm_num))
    (by norm_num) (by norm_num)
  refine ⟨?_, ?_⟩
  · simp only [Glicko.newRating, hd]
    refine mulAdd_abs_in (In.within (hkg.mono (by norm_num) le_rfl)) ⟨h1.1, abs_le.2 ⟨h1.2.1, h1.2.2.1⟩⟩
      ha (within_nat hB) (by push_cast; linarith)
  · simp only [Glicko.newDeviation, hd]
    exact sane_of_in (glicko_dev_in (by norm_num) ht)

/-- Glicko, with any decay constants from 1 on: a game moves a rating by less than 958 points, and
no deviation becomes NaN, zero or (but for rounding) greater than 350. -/
theorem C100_glicko_history {ι : Type} [DecidableEq ι] (L : E.Lib)
    (pool : ι → Glicko.GlickoRating (FP E)) (games : List (Game ι (Glicko.GlickoConfig (FP E))))
    (B : ℕ) (hp : ∀ i, Within B (pool i).rating) (hd : ∀ i, SaneDeviation (pool i).deviation)
    (hc : ∀ g ∈ games, g.config.c.isFinite ∧ 1 ≤ g.config.c.toR)
    (h : B + games.length * 958 < 2 ^ 53) (i : ι) :
    Within ((B + games.length * 958 : ℕ) : ℝ) (tournament Glicko.glicko pool games i).rating ∧
      SaneDeviation (tournament Glicko.glicko pool games i).deviation := by
  have := tournament_counted Glicko.glicko
    (fun n a => Within ((B + n * 958 : ℕ) : ℝ) a.rating ∧ SaneDeviation a.deviation)
    (fun c => c.c.isFinite ∧ 1 ≤ c.c.toR) games.length
    (fun n a ha => ⟨ha.1.mono (by push_cast; linarith), ha.2⟩)
    (by
      intro n a b o c hn hc ha hb
      have e : B + (n + 1) * 958 = B + n * 958 + 958 := by ring
      have hle : B + n * 958 + 958 < 2 ^ 53 := by omega
      rw [e]
      exact ⟨glicko_side L a b c.c _ ha.1 hb.1 ha.2.1.1 hb.2.1.1 hc.1 hc.2 hle
          (points_in (E := E) o) (pointsR_nonneg o) (pointsR_le_one o),
        glicko_side L b a c.c _ hb.1 ha.1 hb.2.1.1 ha.2.1.1 hc.1 hc.2 hle
          (points_in' (E := E) o) (by linarith [pointsR_le_one o])
          (by linarith [pointsR_nonneg o])⟩)
    pool games 0 (by omega) hc (by simpa using fun i => ⟨hp i, hd i⟩) i
  simpa using this

/-! Sums of numbers between 0 and 1, and between -1 and 1. -/

theorem sum_zero_in : In (E := E) ((0 : ℝ) : EReal) ((0 : ℝ) : EReal) (Flt.sumZero : FP E) := by
  change In (E := E) ((0 : ℝ) : EReal) ((0 : ℝ) : EReal) (FPVal.fin E.sumNeg Mag.zero)
  refine ⟨id, ?_, ?_⟩ <;> simp [FP.toE, FPVal.toE, signed, Mag.zero]

theorem sum_unit_in (l : List (FP E)) (hl : l.length < 2 ^ 53)
    (h : ∀ x ∈ l, In (E := E) ((0 : ℝ) : EReal) ((1 : ℝ) : EReal) x) :
    In (E := E) ((0 : ℝ) : EReal) ((l.length : ℝ) : EReal) (Flt.sum l) := by
  have key : ∀ (l : List (FP E)) (m : ℕ) (s : FP E), m + l.length < 2 ^ 53 →
      (∀ x ∈ l, In (E := E) ((0 : ℝ) : EReal) ((1 : ℝ) : EReal) x) →
      In (E := E) ((0 : ℝ) : EReal) ((m : ℝ) : EReal) s →
      In (E := E) ((0 : ℝ) : EReal) (((m + l.length : ℕ) : ℝ) : EReal) (l.foldl (· + ·) s) := by
    intro l
    induction l with
    | nil => intro m s _ _ hs; simpa using hs
    | cons a l ih =>
      intro m s hm h hs
      simp only [List.length_cons, List.foldl_cons] at hm ⊢
      have := ih (m + 1) (s + a) (by omega) (fun x hx => h x (List.mem_cons_of_mem _ hx))
        (add_in hs (h a List.mem_cons_self) SRep.zero (within_nat (by omega)) (by norm_num)
          (by push_cast; linarith))
      rwa [show m + 1 + l.length = m + (l.length + 1) by omega] at this
  rw [Flt.sum]
  simpa using key l 0 Flt.sumZero (by omega) h (by simpa using sum_zero_in)

theorem sum_within (l : List (FP E)) (K : ℕ) (hl : l.length * K < 2 ^ 53)
    (h : ∀ x ∈ l, Within K x) : Within ((l.length * K : ℕ) : ℝ) (Flt.sum l) := by
  have key : ∀ (l : List (FP E)) (m : ℕ) (s : FP E), m + l.length * K < 2 ^ 53 →
      (∀ x ∈ l, Within K x) → Within (m : ℝ) s →
      Within ((m + l.length * K : ℕ) : ℝ) (l.foldl (· + ·) s) := by
    intro l
    induction l with
    | nil => intro m s _ _ hs; simpa using hs
    | cons a l ih =>
      intro m s hm h hs
      simp only [List.length_cons, List.foldl_cons] at hm ⊢
      have e : m + (l.length + 1) * K = m + K + l.length * K := by ring
      rw [e] at hm ⊢
      exact ih (m + K) (s + a) hm (fun x hx => h x (List.mem_cons_of_mem _ hx))
        (add_bound hs.1 (h a List.mem_cons_self).1 hs.2 (h a List.mem_cons_self).2
          (within_nat (by omega)) (by push_cast; linarith))
  have h0 : Within ((0 : ℕ) : ℝ) (Flt.sumZero : FP E) := by
    have := sum_zero_in (E := E)
    exact In.within (by simpa using this)
  rw [Flt.sum]
  simpa using key l 0 Flt.sumZero (by omega) h h0

/-- A Glicko rating period with `n` games moves the rating by less than `958 n`. -/
theorem C100_glicko_period (L : E.Lib) (p : Glicko.GlickoRating (FP E))
    (rs : List (Glicko.GlickoRating (FP E) × Outcomes)) (c : Glicko.GlickoConfig (FP E)) (B : ℕ)
    (hp : Within B p.rating) (hd : ¬ p.deviation.isNaN)
    (hr : ∀ r ∈ rs, Within B r.1.rating ∧ ¬ r.1.deviation.isNaN)
    (hc : c.c.isFinite) (hc1 : 1 ≤ c.c.toR) (h : B + rs.length * 958 < 2 ^ 53) :
    Within ((B + rs.length * 958 : ℕ) : ℝ) (Glicko.glickoRatingPeriod p rs c).rating ∧
      SaneDeviation (Glicko.glickoRatingPeriod p rs c).deviation := by
  have hpre := pre_in L hd hc hc1
  by_cases hne : rs = []
  · subst hne
    refine ⟨by simpa [Glicko.glickoRatingPeriod, Glicko.decayDeviation] using hp, ?_⟩
    exact sane_of_in (hpre.mono (by norm_num) (by norm_num))
  · have hem : rs.isEmpty = false := by simpa using hne
    simp only [Glicko.glickoRatingPeriod, hem, Bool.false_eq_true, if_false]
    have hg : ∀ r ∈ rs, In 0 1 (Glicko.gValue (Flt.ln (10.0 : FP E) / 400.0) r.1.deviation) :=
      fun r h => g_glicko_in L (hr r h).2
    have he : ∀ r ∈ rs, In 0 1 (Glicko.eValue (Glicko.gValue (Flt.ln (10.0 : FP E) / 400.0)
        r.1.deviation) p.rating r.1.rating) := fun r hm =>
      pow_score L (exponent_not_nan (hg r hm) (diff_finite hp (hr r hm).1 (by omega)))
    have hi := sum_unit_in (rs.map fun r =>
        Flt.powi (Glicko.gValue (Flt.ln (10.0 : FP E) / 400.0) r.1.deviation) 2
        * Glicko.eValue (Glicko.gValue (Flt.ln (10.0 : FP E) / 400.0) r.1.deviation) p.rating
          r.1.rating
        * (1.0 - Glicko.eValue (Glicko.gValue (Flt.ln (10.0 : FP E) / 400.0) r.1.deviation)
          p.rating r.1.rating)) (by rw [List.length_map]; omega) (by
        intro x hx
        obtain ⟨r, hm, rfl⟩ := List.mem_map.1 hx
        exact information_in L (hg r hm) (he r hm))
    have hm := sum_within (rs.map fun r =>
        Glicko.gValue (Flt.ln (10.0 : FP E) / 400.0) r.1.deviation
        * (r.2.toChessPoints - Glicko.eValue (Glicko.gValue (Flt.ln (10.0 : FP E) / 400.0)
          r.1.deviation) p.rating r.1.rating)) 1 (by rw [List.length_map]; omega) (by
        intro x hx
        obtain ⟨r, hm, rfl⟩ := List.mem_map.1 hx
        have h1 := surprise (points_in (E := E) r.2) (he r hm) (pointsR_nonneg r.2)
          (pointsR_le_one r.2)
        exact mul_abs_in (In.within ((unit_in (hg r hm)).mono (by norm_num) le_rfl))
          ⟨h1.1, abs_le.2 ⟨h1.2.1, h1.2.2.1⟩⟩ (by simpa using SRep.one) (by norm_num))
    rw [List.length_map] at hi hm
    have hlen : (rs.length : ℝ) ≤ 2 ^ 53 := by
      have : rs.length ≤ 2 ^ 53 := by omega
      exact_mod_cast this
    have hqi := mul_in (q_sq_in L) hi le_rfl le_rfl SRep.zero (SRep.two_pow 53 (by norm_num))
      (by norm_num) (by linarith)
    have ht := total_in L (k := 53) (by norm_num) hpre hqi
    refine ⟨?_, sane_of_in (glicko_dev_in (by norm_num) ht)⟩
    refine mulAdd_abs_in (In.within ((gain_in L ht).mono (by norm_num) le_rfl)) hm hp
      (within_nat h) (by push_cast; linarith)

/-- One side of a Glicko-Boost game. -/
theorem boost_side {B : ℕ} {g e s dev r : FP E} {v : ℝ} (L : E.Lib)
    (hr : Within B r) (hg : In 0 1 g) (he : In 0 1 e) (hB : B + 958 < 2 ^ 53)
    (hd : In (E := E) ((0 : ℝ) : EReal) ((350 : ℝ) : EReal) dev)
    (hs : In (E := E) (v : EReal) (v : EReal) s) (hv0 : 0 ≤ v) (hv1 : v ≤ 1) :
    Within ((B + 958 : ℕ) : ℝ)
      (GlickoBoost.newRating r dev s (Flt.ln (10.0 : FP E) / 400.0) g e) := by
  have h1 := surprise hs he hv0 hv1
  have h2 := mul_in hd hd le_rfl le_rfl SRep.zero (SRep.ofNat 122500 (by norm_num)) (by norm_num)
    (by norm_num)
  have h3 := mul_in h2 (q_in' L) le_rfl (by positivity) SRep.zero (SRep.ofNat 958 (by norm_num))
    (by norm_num) (by norm_num)
  have h4 := mul_in h3 (unit_in hg) le_rfl le_rfl SRep.zero (SRep.ofNat 958 (by norm_num))
    (by norm_num) (by norm_num)
  rw [GlickoBoost.newRating, powi_two' L]
  exact mulAdd_abs_in (In.within (h4.mono (by norm_num) le_rfl))
    ⟨h1.1, abs_le.2 ⟨h1.2.1, h1.2.2.1⟩⟩ hr (within_nat hB) (by push_cast; linarith)

theorem boost_dev (dev d z : FP E) (c : GlickoBoost.GlickoBoostConfig (FP E)) :
    In (E := E) ((0 : ℝ) : EReal) ((350 : ℝ) : EReal) (GlickoBoost.newDeviation dev d z c) := by
  rw [GlickoBoost.newDeviation]
  split
  · exact capped_sqrt_in
  · exact capped_sqrt_in

theorem boost_end (dev r : FP E) (c : GlickoBoost.GlickoBoostConfig (FP E)) :
    In (E := E) ((0 : ℝ) : EReal) ((350 : ℝ) : EReal) (GlickoBoost.endDeviation dev r c) :=
  capped_sqrt_in

theorem boost_score {B H : ℕ} (L : E.Lib) {a b dev eta col : FP E} (ha : Within B a)
    (hb : Within B b) (hdev : ¬ dev.isNaN) (heta : Within H eta) (hcol : Within 1 col)
    (h : B + H < 2 ^ 53) :
    In 0 1 (GlickoBoost.gValue (Flt.ln (10.0 : FP E) / 400.0) dev) ∧
    In 0 1 (GlickoBoost.eValue (GlickoBoost.gValue (Flt.ln (10.0 : FP E) / 400.0) dev) a b eta col) := by
  have hg : In 0 1 (GlickoBoost.gValue (Flt.ln (10.0 : FP E) / 400.0) dev) := g_glicko_in L hdev
  refine ⟨hg, ?_⟩
  have h1 : Within ((B + H : ℕ) : ℝ) (Flt.mulAdd col eta a) :=
    mulAdd_abs_in hcol heta ha (within_nat h) (by push_cast; linarith)
  exact pow_score L (exponent_not_nan hg (diff_finite h1
    (hb.mono (by push_cast; linarith [Nat.cast_nonneg (α := ℝ) H])) h))

theorem one_within : Within 1 (1.0 : FP E) :=
  In.within ((one_in (E := E)).mono (by norm_num) le_rfl)

theorem neg_one_within : Within 1 (-1.0 : FP E) := by
  have h := one_within (E := E)
  exact ⟨by simpa using h.1, by rw [toR_neg', abs_neg]; exact h.2⟩

/-- Glicko-Boost, with any boost and decay parameters. -/
theorem C100_boost_history {ι : Type} [DecidableEq ι] (L : E.Lib)
    (pool : ι → GlickoBoost.GlickoBoostRating (FP E))
    (games : List (Game ι (GlickoBoost.GlickoBoostConfig (FP E)))) (B H : ℕ)
    (hp : ∀ i, Within B (pool i).rating) (hd : ∀ i, ¬ (pool i).deviation.isNaN)
    (hc : ∀ g ∈ games, Within H g.config.eta)
    (h : B + games.length * 958 + H < 2 ^ 53) (i : ι) :
    Within ((B + games.length * 958 : ℕ) : ℝ)
      (tournament GlickoBoost.glickoBoost pool games i).rating ∧
    ¬ (tournament GlickoBoost.glickoBoost pool games i).deviation.isNaN := by
  have := tournament_counted GlickoBoost.glickoBoost
    (fun n a => Within ((B + n * 958 : ℕ) : ℝ) a.rating ∧ ¬ a.deviation.isNaN)
    (fun c => Within H c.eta) games.length
    (fun n a ha => ⟨ha.1.mono (by push_cast; linarith), ha.2⟩)
    (by
      intro n a b o c hn hc ha hb
      have e : B + (n + 1) * 958 = B + n * 958 + 958 := by ring
      have hle : B + n * 958 + 958 < 2 ^ 53 :=
        lt_of_le_of_lt (by have := Nat.mul_le_mul_right 958 hn; linarith) h
      have hle' : B + n * 958 + H < 2 ^ 53 :=
        lt_of_le_of_lt (by have := Nat.mul_le_mul_right 958 hn; linarith) h
      rw [e]
      have s1 := boost_score L ha.1 hb.1 hb.2 hc one_within hle'
      have s2 := boost_score L hb.1 ha.1 ha.2 hc neg_one_within hle'
      exact ⟨⟨boost_side L ha.1 s1.1 s1.2 hle (boost_dev _ _ _ _)
          (points_in (E := E) o) (pointsR_nonneg o) (pointsR_le_one o), (boost_end _ _ _).1⟩,
        ⟨boost_side L hb.1 s2.1 s2.2 hle (boost_dev _ _ _ _)
          (points_in' (E := E) o) (by linarith [pointsR_le_one o])
          (by linarith [pointsR_nonneg o]), (boost_end _ _ _).1⟩⟩)
    pool games 0 (by omega) hc (by simpa using fun i => ⟨hp i, hd i⟩) i
  simpa using this

theorem boost_gain (L : E.Lib) {dev : FP E}
    (hd : In (E := E) ((0 : ℝ) : EReal) ((350 : ℝ) : EReal) dev) :
    Within 958 (Flt.powi dev 2 * (Flt.ln (10.0 : FP E) / 400.0)) := by
  rw [powi_two' L]
  have h2 := mul_in hd hd le_rfl le_rfl SRep.zero (SRep.ofNat 122500 (by norm_num)) (by norm_num)
    (by norm_num)
  have h3 := mul_in h2 (q_in' L) le_rfl (by positivity) SRep.zero (SRep.ofNat 958 (by norm_num))
    (by norm_num) (by norm_num)
  exact In.within (h3.mono (by norm_num) le_rfl)

/-- A Glicko-Boost rating period with `n` games moves the rating by less than `958 n`. -/
theorem C100_boost_period (L : E.Lib) (p : GlickoBoost.GlickoBoostRating (FP E))
    (rs : List (GlickoBoost.GlickoBoostRating (FP E) × Outcomes × Bool))
    (c : GlickoBoost.GlickoBoostConfig (FP E)) (B H : ℕ) (hp : Within B p.rating)
    (hr : ∀ r ∈ rs, Within B r.1.rating ∧ ¬ r.1.deviation.isNaN) (hc : Within H c.eta)
    (h : B + rs.length * 958 + H < 2 ^ 53) :
    Within ((B + rs.length * 958 : ℕ) : ℝ) (GlickoBoost.glickoBoostRatingPeriod p rs c).rating := by
  by_cases hne : rs = []
  · subst hne
    simpa [GlickoBoost.glickoBoostRatingPeriod, GlickoBoost.decayDeviation] using hp
  · have hem : rs.isEmpty = false := by simpa using hne
    simp only [GlickoBoost.glickoBoostRatingPeriod, hem, Bool.false_eq_true, if_false]
    have hcol : ∀ b : Bool, Within 1 (if b = true then (1.0 : FP E) else -1.0) := by
      intro b
      cases b
      · exact neg_one_within
      · exact one_within
    have hBH : B + H < 2 ^ 53 := lt_of_le_of_lt (by linarith [Nat.zero_le (rs.length * 958)]) h
    have hlen : rs.length * 1 < 2 ^ 53 :=
      lt_of_le_of_lt (by linarith [Nat.zero_le B, Nat.zero_le H]) h
    have hs : ∀ r ∈ rs, _ := fun r hm =>
      boost_score L hp (hr r hm).1 (hr r hm).2 hc (hcol r.2.2) hBH
    have hm := sum_within (rs.map fun r =>
        GlickoBoost.gValue (Flt.ln (10.0 : FP E) / 400.0) r.1.deviation
        * (r.2.1.toChessPoints - GlickoBoost.eValue
          (GlickoBoost.gValue (Flt.ln (10.0 : FP E) / 400.0) r.1.deviation) p.rating r.1.rating
          c.eta (if r.2.2 then 1.0 else -1.0))) 1 (by rw [List.length_map]; exact hlen) (by
        intro x hx
        obtain ⟨r, hm, rfl⟩ := List.mem_map.1 hx
        have h1 := surprise (points_in (E := E) r.2.1) (hs r hm).2 (pointsR_nonneg r.2.1)
          (pointsR_le_one r.2.1)
        exact mul_abs_in (In.within ((unit_in (hs r hm).1).mono (by norm_num) le_rfl))
          ⟨h1.1, abs_le.2 ⟨h1.2.1, h1.2.2.1⟩⟩ (by simpa using SRep.one) (by norm_num))
    rw [List.length_map] at hm
    exact mulAdd_abs_in (boost_gain L (boost_dev _ _ _ c)) hm hp
      (within_nat (lt_of_le_of_lt (by linarith [Nat.zero_le H]) h)) (by push_cast; linarith)

/-- One side of a Sticko game. -/
theorem sticko_side {B b C : ℕ} (L : E.Lib) (x y : Sticko.StickoRating (FP E))
    (c : Sticko.StickoConfig (FP E)) (s col : FP E) {v : ℝ}
    (hx : Within B x.rating) (hy : Within B y.rating) (hdx : ¬ x.deviation.isNaN)
    (hdy : ¬ y.deviation.isNaN) (hc : c.c.isFinite) (hc1 : 1 ≤ c.c.toR)
    (hl : Within 100 c.lambda) (hb : Within b c.beta) (hg : Within C c.gamma)
    (h : 3 * B + 958 * (1 + b) < 2 ^ 53) (h' : 2 * B + C < 2 ^ 53) (hcol : Within 1 col)
    (hs : In (E := E) (v : EReal) (v : EReal) s) (hv0 : 0 ≤ v) (hv1 : v ≤ 1) :
    let q : FP E := Flt.ln 10.0 / 400.0
    let g := Sticko.gValue q y.deviation
    let e := Sticko.eValue g x.rating y.rating c.gamma col
    let d := Sticko.dValue q g e
    let pre := Flt.fmin (Flt.hypot x.deviation c.c) (350.0 : FP E)
    Within ((3 * B + 958 * (1 + b) : ℕ) : ℝ) (Sticko.newRating x.rating pre q d g s e c.beta
      ((c.lambda / 100.0) * (y.rating - x.rating))) := by
  intro q g e d pre
  have hB : 2 * B < 2 ^ 53 := lt_of_le_of_lt (by linarith [Nat.zero_le C]) h'
  have hgr : In 0 1 g := g_glicko_in L hdy
  have hdiff : Within ((2 * B : ℕ) : ℝ) (x.rating - y.rating) :=
    sub_bound hx.1 hy.1 hx.2 hy.2 (within_nat hB) (by push_cast; linarith)
  have hdiff' : Within ((2 * B : ℕ) : ℝ) (y.rating - x.rating) :=
    sub_bound hy.1 hx.1 hy.2 hx.2 (within_nat hB) (by push_cast; linarith)
  have harg : Within ((2 * B + C : ℕ) : ℝ) (Flt.mulAdd c.gamma col (x.rating - y.rating)) :=
    mulAdd_abs_in hg hcol hdiff (within_nat h') (by push_cast; linarith)
  have he : In 0 1 e := pow_score L (exponent_not_nan hgr harg.1)
  have hd : d = Flt.recip (Flt.powi q 2 * Flt.powi g 2 * e * (1.0 - e)) := powi_neg_one' L _
  have hpre : In (E := E) ((1 : ℝ) : EReal) ((350 : ℝ) : EReal) pre := pre_in L hdx hc hc1
  have ht := total_in L (k := 0) (by norm_num) hpre
    ((dValue_arg_in L hgr he).mono le_rfl (by norm_num))
  have h1 := surprise hs he hv0 hv1
  have hkg := mul_in (gain_in L ht) (unit_in hgr) le_rfl le_rfl SRep.zero
    (SRep.ofNat 958 (by norm_num)) (by norm_num) (by norm_num)
  have hb1 : Within ((1 + b : ℕ) : ℝ) (s - e + c.beta) :=
    add_bound h1.1 hb.1 (abs_le.2 ⟨h1.2.1, h1.2.2.1⟩) hb.2
      (within_nat (lt_of_le_of_lt (by linarith [Nat.zero_le B]) h)) (by push_cast; linarith)
  have h100 := lit_in (E := E) (m := 1000) (s := true) (e := 1) (v := 100) (by norm_num)
    (SRep.ofNat 100 (by norm_num))
  have hlam : Within 1 (c.lambda / 100.0) := by
    obtain ⟨t, ht⟩ := div_fin hl.1 h100.finite (by intro h; linarith [h100.toR.1])
    have e100 : FP.toR (100.0 : FP E) = 100 := le_antisymm h100.toR.2 h100.toR.1
    have h2 := abs_le.1 hl.2
    rw [ht, e100]
    exact In.within (In.of_round t SRep.one.neg SRep.one
      (by rw [le_div_iff₀ (by norm_num)]; linarith)
      (by rw [div_le_iff₀ (by norm_num)]; linarith))
  have hl2 : Within ((2 * B : ℕ) : ℝ) ((c.lambda / 100.0) * (y.rating - x.rating)) :=
    mul_abs_in hlam hdiff' (within_nat hB) (by push_cast; linarith)
  have hm : Within ((B + 958 * (1 + b) : ℕ) : ℝ) (Flt.mulAdd ((q / (Flt.recip (Flt.powi pre 2)
      + Flt.recip d)) * g) (s - e + c.beta) x.rating) := by
    rw [hd]
    exact mulAdd_abs_in (In.within (hkg.mono (by norm_num) le_rfl)) hb1 hx
      (within_nat (lt_of_le_of_lt (by linarith [Nat.zero_le B]) h)) (by push_cast; linarith)
  exact add_bound hm.1 hl2.1 hm.2 hl2.2 (within_nat h) (by push_cast; linarith)

/-- Sticko: one game between numbers gives numbers. -/
theorem C100_sticko_game (L : E.Lib) (x y : Sticko.StickoRating (FP E)) (o : Outcomes)
    (c : Sticko.StickoConfig (FP E)) (B b C : ℕ)
    (hx : Within B x.rating) (hy : Within B y.rating) (hdx : ¬ x.deviation.isNaN)
    (hdy : ¬ y.deviation.isNaN) (hc : c.c.isFinite) (hc1 : 1 ≤ c.c.toR)
    (hl : Within 100 c.lambda) (hb : Within b c.beta) (hg : Within C c.gamma)
    (h : 3 * B + 958 * (1 + b) < 2 ^ 53) (h' : 2 * B + C < 2 ^ 53) :
    Within ((3 * B + 958 * (1 + b) : ℕ) : ℝ) (Sticko.sticko x y o c).1.rating ∧
    Within ((3 * B + 958 * (1 + b) : ℕ) : ℝ) (Sticko.sticko x y o c).2.rating :=
  ⟨sticko_side L x y c _ _ hx hy hdx hdy hc hc1 hl hb hg h h' one_within
      (points_in (E := E) o) (pointsR_nonneg o) (pointsR_le_one o),
    sticko_side L y x c _ _ hy hx hdy hdx hc hc1 hl hb hg h h' neg_one_within
      (points_in' (E := E) o) (by linarith [pointsR_le_one o]) (by linarith [pointsR_nonneg o])⟩

/-! ### C101: caps of the deviations -/

/-- Glicko-Boost: whatever the inputs are, the deviations after a game are numbers in `[0, 350]`. -/
theorem C101_boost_cap (a b : GlickoBoost.GlickoBoostRating (FP E)) (o : Outcomes)
    (c : GlickoBoost.GlickoBoostConfig (FP E)) :
    (AtLeast 0 (GlickoBoost.glickoBoost a b o c).1.deviation ∧
      AtMost 350 (GlickoBoost.glickoBoost a b o c).1.deviation) ∧
    (AtLeast 0 (GlickoBoost.glickoBoost a b o c).2.deviation ∧
      AtMost 350 (GlickoBoost.glickoBoost a b o c).2.deviation) := by
  have h1 := boost_end (E := E)
  exact ⟨⟨⟨(h1 _ _ _).1, (h1 _ _ _).2.1⟩, ⟨(h1 _ _ _).1, (h1 _ _ _).2.2⟩⟩,
    ⟨⟨(h1 _ _ _).1, (h1 _ _ _).2.1⟩, ⟨(h1 _ _ _).1, (h1 _ _ _).2.2⟩⟩⟩

theorem C101_boost_period_cap (p : GlickoBoost.GlickoBoostRating (FP E))
    (rs : List (GlickoBoost.GlickoBoostRating (FP E) × Outcomes × Bool))
    (c : GlickoBoost.GlickoBoostConfig (FP E)) :
    AtLeast 0 (GlickoBoost.glickoBoostRatingPeriod p rs c).deviation ∧
      AtMost 350 (GlickoBoost.glickoBoostRatingPeriod p rs c).deviation := by
  have h1 := boost_end (E := E)
  rw [GlickoBoost.glickoBoostRatingPeriod]
  split
  · exact ⟨⟨(h1 _ _ _).1, (h1 _ _ _).2.1⟩, ⟨(h1 _ _ _).1, (h1 _ _ _).2.2⟩⟩
  · exact ⟨⟨(h1 _ _ _).1, (h1 _ _ _).2.1⟩, ⟨(h1 _ _ _).1, (h1 _ _ _).2.2⟩⟩

theorem C101_sticko_cap (a b : Sticko.StickoRating (FP E)) (o : Outcomes)
    (c : Sticko.StickoConfig (FP E)) :
    (AtLeast 0 (Sticko.sticko a b o c).1.deviation ∧
      AtMost 350 (Sticko.sticko a b o c).1.deviation) ∧
    (AtLeast 0 (Sticko.sticko a b o c).2.deviation ∧
      AtMost 350 (Sticko.sticko a b o c).2.deviation) := by
  have h1 : ∀ x : FP E, In (E := E) ((0 : ℝ) : EReal) ((350 : ℝ) : EReal)
    (Flt.fmin (Flt.sqrt x) (350.0 : FP E)) := fun x => capped_sqrt_in
  exact ⟨⟨⟨(h1 _).1, (h1 _).2.1⟩, ⟨(h1 _).1, (h1 _).2.2⟩⟩,
    ⟨⟨(h1 _).1, (h1 _).2.1⟩, ⟨(h1 _).1, (h1 _).2.2⟩⟩⟩

theorem C101_sticko_period_cap (p : Sticko.StickoRating (FP E))
    (rs : List (Sticko.StickoRating (FP E) × Outcomes × Bool)) (c : Sticko.StickoConfig (FP E)) :
    AtMost 350 (Sticko.stickoRatingPeriod p rs c).deviation := by
  rw [Sticko.stickoRatingPeriod]
  split
  · exact cap_atMost
  · exact cap_atMost

theorem C101_decay_caps (a : Glicko.GlickoRating (FP E)) (c : Glicko.GlickoConfig (FP E))
    (b : Sticko.StickoRating (FP E)) (d : Sticko.StickoConfig (FP E))
    (p : GlickoBoost.GlickoBoostRating (FP E)) (e : GlickoBoost.GlickoBoostConfig (FP E)) :
    AtMost 350 (Glicko.decayDeviation a c).deviation ∧
    AtMost 350 (Sticko.decayDeviation b d).deviation ∧
    AtMost 350 (GlickoBoost.decayDeviation p e).deviation :=
  ⟨cap_atMost, cap_atMost, cap_atMost⟩

/-- Glicko-2: the deviation after a period without games. -/
theorem C101_glicko2_decay_cap (p : Glicko2.Glicko2Rating (FP E)) :
    AtMost 350 (Glicko2.decayDeviation p).deviation := cap_atMost

/-! Concrete instances: binary64 with rounding to nearest. -/

theorem sample_within (m : ℕ) (v : ℕ) (h : (OfScientific.ofScientific m true 1 : ℝ) = v)
    (hv : v < 2 ^ 53) : Within (v : ℝ) (OfScientific.ofScientific m true 1 : FP ieee) := by
  have := lit_rep (E := ieee) h (SRep.nat hv)
  exact ⟨this.1, by rw [this.2, abs_of_nonneg (by positivity)]⟩

/-- Three players and any series of games with `k = 32`. -/
example (games : List (Game (Fin 3) (Elo.EloConfig (FP ieee))))
    (hg : ∀ g ∈ games, g.config = ⟨32.0⟩) (hn : games.length ≤ 10 ^ 12) (i : Fin 3) :
    (tournament Elo.elo (fun _ => (⟨1000.0⟩ : Elo.EloRating (FP ieee))) games i).rating.isFinite :=
  (C100_elo_history ieee_lib _ games 1000 32
    (fun _ => sample_within 10000 1000 (by norm_num) (by norm_num))
    (fun g h => by rw [hg g h]; exact sample_within 320 32 (by norm_num) (by norm_num))
    (by norm_num; omega) i).1

/-- A knockout game that is decided by a shootout. -/
example : (tournament Fifa.fifa (fun _ => (⟨1000.0⟩ : Fifa.FifaRating (FP ieee)))
    [⟨0, 1, by decide, .WIN, ⟨60.0, true, true⟩⟩] (1 : Fin 2)).rating.isFinite :=
  (C100_fifa_history ieee_lib _ _ 1000 60
    (fun _ => sample_within 10000 1000 (by norm_num) (by norm_num))
    (fun g h => by
      rw [List.mem_singleton.1 h]; exact sample_within 600 60 (by norm_num) (by norm_num))
    (by norm_num) 1).1

example : (Elo.eloRatingPeriod (F := FP ieee) ⟨1000.0⟩ [(⟨1400.0⟩, .WIN)] ⟨32.0⟩).rating.isFinite :=
  (C100_elo_period ieee_lib _ _ _ 1000 32 (sample_within 10000 1000 (by norm_num) (by norm_num))
    (fun r h => by
      rw [List.mem_singleton.1 h]; exact lit_finite 1400 (by norm_num) (by norm_num))
    (sample_within 320 32 (by norm_num) (by norm_num)) (by norm_num)).1

example : (Fifa.fifaRatingPeriod (F := FP ieee) ⟨1000.0⟩
    [(⟨1400.0⟩, .WIN, ⟨60.0, true, true⟩)]).rating.isFinite :=
  (C100_fifa_period ieee_lib _ _ 1000 60 (sample_within 10000 1000 (by norm_num) (by norm_num))
    (fun r h => by
      rw [List.mem_singleton.1 h]
      exact ⟨lit_finite 1400 (by norm_num) (by norm_num),
        sample_within 600 60 (by norm_num) (by norm_num)⟩) (by norm_num)).1

theorem sample_sane : SaneDeviation (350.0 : FP ieee) := by
  have h := cap_in (E := ieee)
  refine ⟨⟨h.1, h.2.2.trans ?_⟩, lt_of_lt_of_le ?_ h.2.1⟩
  · exact_mod_cast (by norm_num : (350 : ℝ) ≤ 350 + 1 / 128)
  · exact_mod_cast (by norm_num : (0 : ℝ) < 350)

theorem sample_decay : (64.0 : FP ieee).isFinite ∧ 1 ≤ (64.0 : FP ieee).toR := by
  have h := lit_rep (E := ieee) (m := 640) (s := true) (e := 1) (v := 64) (by norm_num)
    (SRep.ofNat 64 (by norm_num))
  exact ⟨h.1, by rw [h.2]; norm_num⟩

example (games : List (Game (Fin 3) (Glicko.GlickoConfig (FP ieee))))
    (hg : ∀ g ∈ games, g.config = ⟨64.0⟩) (hn : games.length ≤ 10 ^ 12) (i : Fin 3) :
    (tournament Glicko.glicko (fun _ => (⟨1500.0, 350.0⟩ : Glicko.GlickoRating (FP ieee))) games
      i).rating.isFinite :=
  (C100_glicko_history ieee_lib _ games 1500
    (fun _ => sample_within 15000 1500 (by norm_num) (by norm_num)) (fun _ => sample_sane)
    (fun g h => by rw [hg g h]; exact sample_decay)
    (by norm_num; omega) i).1.1

example : SaneDeviation (Glicko.glickoRatingPeriod (F := FP ieee) ⟨1500.0, 350.0⟩
    [(⟨1400.0, 350.0⟩, .WIN)] ⟨64.0⟩).deviation :=
  (C100_glicko_period ieee_lib _ _ _ 1500 (sample_within 15000 1500 (by norm_num) (by norm_num))
    sample_sane.1.1
    (fun r h => by
      rw [List.mem_singleton.1 h]
      exact ⟨(sample_within 14000 1400 (by norm_num) (by norm_num)).mono (by norm_num),
        sample_sane.1.1⟩)
    sample_decay.1 sample_decay.2 (by norm_num)).2

example (b : FP ieee × FP ieee) (al : GlickoBoost.Alpha (FP ieee)) :
    (tournament GlickoBoost.glickoBoost
      (fun _ => (⟨1500.0, 350.0⟩ : GlickoBoost.GlickoBoostRating (FP ieee)))
      [⟨0, 1, by decide, .WIN, ⟨30.0, 2.0, b, al⟩⟩] (1 : Fin 2)).rating.isFinite :=
  (C100_boost_history ieee_lib _ _ 1500 30
    (fun _ => sample_within 15000 1500 (by norm_num) (by norm_num)) (fun _ => sample_sane.1.1)
    (fun g h => by
      rw [List.mem_singleton.1 h]; exact sample_within 300 30 (by norm_num) (by norm_num))
    (by norm_num) 1).1.1

example (b : FP ieee × FP ieee) (al : GlickoBoost.Alpha (FP ieee)) :
    (GlickoBoost.glickoBoostRatingPeriod (F := FP ieee) ⟨1500.0, 350.0⟩
      [(⟨1400.0, 350.0⟩, .WIN, true)] ⟨30.0, 2.0, b, al⟩).rating.isFinite :=
  (C100_boost_period ieee_lib _ _ _ 1500 30 (sample_within 15000 1500 (by norm_num) (by norm_num))
    (fun r h => by
      rw [List.mem_singleton.1 h]
      exact ⟨(sample_within 14000 1400 (by norm_num) (by norm_num)).mono (by norm_num),
        sample_sane.1.1⟩)
    (sample_within 300 30 (by norm_num) (by norm_num)) (by norm_num)).1

example : (Sticko.sticko (F := FP ieee) ⟨1500.0, 350.0⟩ ⟨1400.0, 350.0⟩ .WIN
    ⟨10.0, 0.0, 2.0, 30.0, 64.0⟩).1.rating.isFinite :=
  (C100_sticko_game ieee_lib _ _ _ _ 1500 0 30
    (sample_within 15000 1500 (by norm_num) (by norm_num))
    ((sample_within 14000 1400 (by norm_num) (by norm_num)).mono (by norm_num))
    sample_sane.1.1 sample_sane.1.1 sample_decay.1 sample_decay.2
    ((sample_within 20 2 (by norm_num) (by norm_num)).mono (by norm_num))
    (sample_within 0 0 (by norm_num) (by norm_num))
    (sample_within 300 30 (by norm_num) (by norm_num)) (by norm_num) (by norm_num)).1.1

/-- The caps hold after a game between a NaN and an infinite rating. -/
example (c : GlickoBoost.GlickoBoostConfig (FP E)) :
    AtMost 350 (GlickoBoost.glickoBoost (F := FP E) ⟨nan, nan⟩ ⟨inf false, inf true⟩ .DRAW c).1.deviation :=
  (C101_boost_cap _ _ _ c).1.2

end Skillratings
