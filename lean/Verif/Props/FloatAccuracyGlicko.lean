import Verif.Proofs.FPGlickoAccuracy
/-
C123 for Glicko: double precision stays close to exact arithmetic.
-/

namespace Skillratings
open FP FPVal Spec
variable {E : FloatEnv}

/-- The same player in exact arithmetic. -/
noncomputable def glickoExact (a : Glicko.GlickoRating (FP E)) : Glicko.GlickoRating ℝ :=
  ⟨a.rating.toR, a.deviation.toR⟩

/-- A player with a rating of magnitude at most `2 ^ 14` and a deviation between `2 ^ -10` and
`2 ^ 10`. -/
def GlickoUsual (a : Glicko.GlickoRating (FP E)) : Prop :=
  Within (2 ^ 14) a.rating ∧ Between (1 / 2 ^ 10) (2 ^ 10) a.deviation

theorem Spec.Between.ap {x : FP E} (h : Between (1 / 2 ^ 10) (2 ^ 10) x) : Ap 0 10 x x.toR :=
  ⟨Rel.exact h.1, h.2.1, h.2.2⟩

theorem glickoE01 (r rj rdj : ℝ) : 0 ≤ glickoE r rj rdj ∧ glickoE r rj rdj ≤ 1 := by
  rw [glickoE_eq]; exact sig01 _

theorem glickoG01 (rd : ℝ) : 0 < glickoG rd ∧ glickoG rd ≤ 1 := ⟨glickoG_pos rd, glickoG_le_one rd⟩

/-- The factor and the expected score of a game. -/
theorem glicko_parts (L : E.Lib) (A : E.Accurate) (P : E.Precise) {r : FP E}
    {b : Glicko.GlickoRating (FP E)} (hr : Within (2 ^ 14) r) (hb : GlickoUsual b) :
    Ap 15 60 (Glicko.gValue (Flt.ln (10.0 : FP E) / (400.0 : FP E)) b.deviation) (glickoG b.deviation.toR) ∧
    Near (1 / 2 ^ 35) (Glicko.eValue (Glicko.gValue (Flt.ln (10.0 : FP E) / (400.0 : FP E)) b.deviation)
      r b.rating) (glickoE r.toR b.rating.toR b.deviation.toR) := by
  have hg := (g_ap L P (by norm_num) (hb.2.ap.mono le_rfl (by norm_num))).mono (k' := 15) (by norm_num) le_rfl
  obtain ⟨t1, t2⟩ := diff_near hr hb.1
  exact ⟨hg, e_near A hg.1 (by norm_num) (glickoG_pos _) (glickoG_le_one _) t1 t2⟩

theorem glickoInfo_bounds (r rj rdj : ℝ) : 0 ≤ glickoInfo r rj rdj ∧ glickoInfo r rj rdj ≤ 1 := by
  have e := glickoE01 r rj rdj
  have g := glickoG01 rdj
  have q0 := glickoQ_pos
  have q1 := glickoQ_lt
  unfold glickoInfo
  have h1 : glickoQ ^ 2 ≤ 1 := pow_le_one₀ q0.le (by linarith)
  have h2 : glickoG rdj ^ 2 ≤ 1 := pow_le_one₀ g.1.le g.2
  have e' : 0 ≤ 1 - glickoE r rj rdj := by linarith [e.2]
  have e1 := e.1
  refine ⟨by positivity, ?_⟩
  exact mul_le_one₀ (mul_le_one₀ (mul_le_one₀ h1 (by positivity) h2) e.1 e.2) e' (by linarith)

theorem glickoQ_sq : glickoQ ^ 2 ≤ 1 / 30000 := by
  have h := glickoQ_lt
  have h0 := glickoQ_pos
  norm_num at h ⊢; nlinarith

/-- The score minus the expected score. -/
theorem surprise_near {s e : FP E} {v p : ℝ} (hs : Near 0 s v) (hv : 0 ≤ v ∧ v ≤ 1)
    (he : Near (1 / 2 ^ 35) e p) (hp : 0 ≤ p ∧ p ≤ 1) :
    Near (1 / 2 ^ 35 + 1 / 2 ^ 50) (s - e) (v - p) ∧ |v - p| ≤ 1 := by
  have hvp : |v - p| ≤ 1 := by rw [abs_le]; constructor <;> linarith [hv.1, hv.2, hp.1, hp.2]
  refine ⟨(near_sub hs he (M := 1 + 1 / 2 ^ 30) (by norm_num at hvp ⊢; linarith) (by norm_num)
    (le_huge 1 (by norm_num) (by norm_num))).mono (by norm_num), hvp⟩

/-- An update with a step size of at most 706. -/
theorem update_scaled {k t r : FP E} {S D K : ℝ} (hk : Rel K k S) (hK : K ≤ 2 ^ 28) (h0 : 0 < S)
    (h1 : S ≤ 706) (ht : Near (1 / 2 ^ 35 + 1 / 2 ^ 50) t D) (hD : |D| ≤ 1) (hr : Within (2 ^ 14) r) :
    Near ((706 * K + 1) / 2 ^ 50 + 707 / 2 ^ 35) (Flt.mulAdd k t r) (S * D + r.toR) := by
  have hK0 := hk.nonneg
  have hr2 := hr.2
  have n1 : Near (706 * K / 2 ^ 50) k S := (hk.near h0.le).mono (by
    have : K / 2 ^ 50 * S ≤ K / 2 ^ 50 * 706 := mul_le_mul_of_nonneg_left h1 (by positivity)
    linarith)
  have hSD : |S * D| ≤ 706 := by
    rw [abs_mul, abs_of_pos h0]; nlinarith [abs_nonneg D]
  have hsum := abs_add_le (S * D) r.toR
  have b1 : 706 * K / 2 ^ 50 * |D| ≤ 706 * K / 2 ^ 50 := mul_le_of_le_one_right (by positivity) hD
  have b2 : S * (1 / 2 ^ 35 + 1 / 2 ^ 50) ≤ 706 * (1 / 2 ^ 35 + 1 / 2 ^ 50) :=
    mul_le_mul_of_nonneg_right h1 (by positivity)
  have b3 : 706 * K / 2 ^ 50 ≤ 1 / 2 ^ 12 := by norm_num at hK ⊢; linarith
  have b4 : 706 * K / 2 ^ 50 * (1 / 2 ^ 35 + 1 / 2 ^ 50) ≤ 1 / 2 ^ 46 := by norm_num at b3 ⊢; linarith
  refine (near_mulAdd n1 ht hr.near (M := 2 ^ 15) ?_ (by norm_num) (le_huge 15 (by norm_num) (by norm_num))).mono ?_
  · rw [abs_of_pos h0]
    norm_num at b1 b2 b3 b4 hr2 ⊢
    linarith
  · rw [abs_of_pos h0, add_div]
    norm_num at b1 b2 b3 b4 ⊢
    linarith

theorem glicko_half (L : E.Lib) (A : E.Accurate) (P : E.Precise) {a b : Glicko.GlickoRating (FP E)}
    {c s : FP E} {v : ℝ} (ha : GlickoUsual a) (hb : GlickoUsual b) (hc : Within (2 ^ 20) c)
    (hs : Near 0 s v) (hv : 0 ≤ v ∧ v ≤ 1) :
    let q : FP E := Flt.ln (10.0 : FP E) / (400.0 : FP E)
    let g := Glicko.gValue q b.deviation
    let e := Glicko.eValue g a.rating b.rating
    let d := Glicko.dValue q g e
    let pre := Flt.fmin (Flt.hypot a.deviation c) (350.0 : FP E)
    Near (1 / 2 ^ 22) (Glicko.newRating a.rating pre s q g e d)
      (Glicko.rated a.rating.toR a.deviation.toR b.rating.toR b.deviation.toR v c.toR).rating ∧
    Near (1 / 2 ^ 23) (Glicko.newDeviation pre d)
      (Glicko.rated a.rating.toR a.deviation.toR b.rating.toR b.deviation.toR v c.toR).deviation := by
  intro q g e d pre
  obtain ⟨hg, he⟩ := glicko_parts L A P ha.1 hb
  change Ap 15 60 g _ at hg
  change Near _ e _ at he
  obtain ⟨p1, p2, p3⟩ := onset_rel P ha.2.1 ha.2.2.1 ha.2.2.2 hc
  change Rel 1 pre _ at p1
  have e01 := glickoE01 a.rating.toR b.rating.toR b.deviation.toR
  have g01 := glickoG01 b.deviation.toR
  have q2 := glickoQ_sq
  have w := (Ap.sq L (q_ap P) (by norm_num) (by norm_num)).mul (hg.sq L (by norm_num) (by norm_num))
    (by norm_num) (by norm_num) (by norm_num)
  have hW : glickoQ ^ 2 * glickoG b.deviation.toR ^ 2 ≤ 1 / 30000 := by
    have := pow_le_one₀ g01.1.le g01.2 (n := 2)
    have h0 := _root_.sq_nonneg glickoQ
    nlinarith
  have i1 := info_near (k := 64) (w.1.mono (by norm_num)) le_rfl w.2.pos hW (by norm_num) (by norm_num) he e01
  have hd : d = Flt.recip (Flt.powi q 2 * Flt.powi g 2 * e * ((1.0 : FP E) - e)) := powi_neg_one' L _
  have hgi : In 0 1 g := g_glicko_in L (isFinite.not_nan hb.2.1)
  have hei : In 0 1 e := pow_score L (exponent_not_nan hgi (diff_near ha.1 hb.1).1.1)
  have hI := glickoInfo_bounds a.rating.toR b.rating.toR b.deviation.toR
  have t1 := total_rel L (K := 290000) p1 p2 p3 (i1.mono (by norm_num)) (dValue_arg_in L hgi hei).toR.1
    hI.1 hI.2 (by norm_num) (by norm_num)
  obtain ⟨o1, o2, -, o4, o5, o6, o7⟩ := posterior_rel P t1 p2 p3 hI.1 hI.2 (by norm_num)
  change _ ∧ _
  rw [Glicko.newRating, Glicko.newDeviation, hd]
  change Rel _ (q / _) _ at o2
  set v2 := posterior (glickoOnset a.deviation.toR c.toR ^ 2) (glickoInfo a.rating.toR b.rating.toR b.deviation.toR) with hv2
  refine ⟨?_, ?_⟩
  · have o3 := Ap.mul (show Ap (290000 + 8 + 2 ^ 10) 31 _ _ from ⟨o2, o6⟩) hg (by norm_num) (by norm_num)
      (by norm_num)
    obtain ⟨s1, s2⟩ := surprise_near hs hv he e01
    have := update_scaled (K := 291048) (o3.1.mono (by norm_num)) (by norm_num) o3.2.pos
      (by have := o6.pos; nlinarith [g01.2]) s1 s2 ha.1
    rw [Glicko.rated]
    change Near _ _ (_ + glickoQ * v2 * _)
    rw [show ∀ x y z w : ℝ, x + glickoQ * v2 * (y * (z - w)) = glickoQ * v2 * y * (z - w) + x by intros; ring]
    exact this.mono (by norm_num)
  · refine (o1.near (Real.sqrt_nonneg _)).mono ?_
    have : √v2 ≤ 350 := by
      rw [Real.sqrt_le_iff]; exact ⟨by norm_num, o5.trans (by norm_num)⟩
    refine (mul_le_mul_of_nonneg_left this (by norm_num)).trans (by norm_num)

/-- Glicko, one game: the new ratings are within `2 ^ -22` and the new deviations within `2 ^ -23` of
the exact formulas applied to the same players. -/
theorem C123_glicko_game (L : E.Lib) (A : E.Accurate) (P : E.Precise)
    (a b : Glicko.GlickoRating (FP E)) (o : Outcomes) (c : Glicko.GlickoConfig (FP E))
    (ha : GlickoUsual a) (hb : GlickoUsual b) (hc : Within (2 ^ 20) c.c) :
    let x := Glicko.glicko a b o c
    let y := Glicko.glicko (glickoExact a) (glickoExact b) o ⟨c.c.toR⟩
    (Near (1 / 2 ^ 22) x.1.rating y.1.rating ∧ Near (1 / 2 ^ 23) x.1.deviation y.1.deviation) ∧
    (Near (1 / 2 ^ 22) x.2.rating y.2.rating ∧ Near (1 / 2 ^ 23) x.2.deviation y.2.deviation) := by
  intro x y
  have hs1 := near_of_in (points_in (E := E) o)
  have hs2 := near_of_in (points_in' (E := E) o)
  rw [pointsR_eq] at hs1 hs2
  have e : y = _ := Glicko.glicko_real _ _ _ _
  rw [e]
  exact ⟨glicko_half L A P ha hb hc hs1 ⟨points_nonneg o, points_le_one o⟩,
    glicko_half L A P hb ha hc hs2 ⟨by linarith [points_le_one o], by linarith [points_nonneg o]⟩⟩

/-- The information of a game without the factor `q²`. -/
theorem glicko_term (L : E.Lib) (A : E.Accurate) (P : E.Precise) {r : FP E}
    {b : Glicko.GlickoRating (FP E)} (hr : Within (2 ^ 14) r) (hb : GlickoUsual b) :
    let g := Glicko.gValue (Flt.ln (10.0 : FP E) / (400.0 : FP E)) b.deviation
    let e := Glicko.eValue g r b.rating
    let W := glickoG b.deviation.toR ^ 2 * glickoE r.toR b.rating.toR b.deviation.toR
      * (1 - glickoE r.toR b.rating.toR b.deviation.toR)
    Near (17 / 2 ^ 38) (Flt.powi g 2 * e * ((1.0 : FP E) - e)) W ∧ |W| ≤ 1 ∧
      In (E := E) ((0 : ℝ) : EReal) ((1 : ℝ) : EReal) (Flt.powi g 2 * e * ((1.0 : FP E) - e)) := by
  intro g e W
  obtain ⟨hg, he⟩ := glicko_parts L A P hr hb
  change Ap 15 60 g _ at hg
  change Near _ e _ at he
  have e01 := glickoE01 r.toR b.rating.toR b.deviation.toR
  have g01 := glickoG01 b.deviation.toR
  have w := hg.sq L (by norm_num) (by norm_num)
  have w1 := pow_le_one₀ g01.1.le g01.2 (n := 2)
  have i1 := info_near (k := 64) (w.1.mono (by norm_num)) le_rfl w.2.pos w1 (by norm_num) le_rfl he e01
  have hgi : In 0 1 g := g_glicko_in L (isFinite.not_nan hb.2.1)
  have hei : In 0 1 e := pow_score L (exponent_not_nan hgi (diff_near hr hb.1).1.1)
  have e' : 0 ≤ 1 - glickoE r.toR b.rating.toR b.deviation.toR := by linarith [e01.2]
  refine ⟨i1.mono (by norm_num), ?_, information_in L hgi hei⟩
  rw [abs_of_nonneg (mul_nonneg (mul_nonneg (by positivity) e01.1) e')]
  exact mul_le_one₀ (mul_le_one₀ w1 e01.1 e01.2) e' (by linarith [e01.1])

/-- The surprise of a game, weighted. -/
theorem glicko_surprise (L : E.Lib) (A : E.Accurate) (P : E.Precise) {r : FP E}
    {b : Glicko.GlickoRating (FP E)} (o : Outcomes) (hr : Within (2 ^ 14) r) (hb : GlickoUsual b) :
    let g := Glicko.gValue (Flt.ln (10.0 : FP E) / (400.0 : FP E)) b.deviation
    let e := Glicko.eValue g r b.rating
    let W := glickoG b.deviation.toR * (points o - glickoE r.toR b.rating.toR b.deviation.toR)
    Near (1 / 2 ^ 35 + 1 / 2 ^ 45) (g * (o.toChessPoints - e)) W ∧ |W| ≤ 1 := by
  intro g e W
  obtain ⟨hg, he⟩ := glicko_parts L A P hr hb
  change Ap 15 60 g _ at hg
  change Near _ e _ at he
  have e01 := glickoE01 r.toR b.rating.toR b.deviation.toR
  have g01 := glickoG01 b.deviation.toR
  have hs1 := near_of_in (points_in (E := E) o)
  rw [pointsR_eq] at hs1
  obtain ⟨s1, s2⟩ := surprise_near hs1 ⟨points_nonneg o, points_le_one o⟩ he e01
  have n1 : Near (15 / 2 ^ 50) g (glickoG b.deviation.toR) := (hg.1.near g01.1.le).mono (by
    have := g01.2
    norm_num; linarith)
  have hW : |W| ≤ 1 := by
    change |glickoG b.deviation.toR * _| ≤ 1
    rw [abs_mul, abs_of_pos g01.1]
    exact mul_le_one₀ g01.2 (abs_nonneg _) s2
  refine ⟨(near_mul n1 s1 (M := 2) ?_ (by norm_num) (le_huge 1 (by norm_num) (by norm_num))).mono ?_, hW⟩
  · change |W| + _ ≤ _
    rw [abs_of_pos g01.1]
    have := g01.2
    norm_num; linarith
  · rw [abs_of_pos g01.1]
    have := g01.2
    norm_num; linarith

/-- The update of a rating period from its sums. -/
theorem glicko_core (L : E.Lib) (P : E.Precise) {pre sI sM r : FP E} {v I M n : ℝ} (hp : Rel 1 pre v)
    (hv1 : 1 / 2 ^ 10 ≤ v) (hv2 : v ≤ 350) (n1 : 1 ≤ n) (n2 : n ≤ 256)
    (hI : Near (n * (17 / 2 ^ 38 + 1 / 2 ^ 40)) sI I) (hI0 : 0 ≤ sI.toR) (hI1 : 0 ≤ I) (hI2 : I ≤ n)
    (hM : Near (n * (1 / 2 ^ 35 + 1 / 2 ^ 45 + 1 / 2 ^ 40)) sM M) (hM1 : |M| ≤ n)
    (hr : Within (2 ^ 14) r) :
    let q : FP E := Flt.ln (10.0 : FP E) / (400.0 : FP E)
    let d := Flt.recip (Flt.powi pre 2) + Flt.recip (Flt.recip (Flt.powi q 2 * sI))
    Near (n ^ 2 / 2 ^ 22) (Flt.mulAdd (q / d) sM r)
      (glickoQ * posterior (v ^ 2) (glickoQ ^ 2 * I) * M + r.toR) ∧
    Near (n / 2 ^ 23) (Flt.sqrt (Flt.recip d)) √(posterior (v ^ 2) (glickoQ ^ 2 * I)) := by
  intro q d
  have q2 := glickoQ_sq
  have q0 := glickoQ_pos
  have hq : Ap 5 20 (Flt.powi q 2) (glickoQ ^ 2) :=
    (Ap.sq L (q_ap P) (by norm_num) (by norm_num)).mono (by norm_num) (by norm_num)
  have hq2 : Near (1 / 2 ^ 62) (Flt.powi q 2) (glickoQ ^ 2) := (hq.1.near (by positivity)).mono (by
    have : (5 : ℝ) / 2 ^ 50 * glickoQ ^ 2 ≤ 5 / 2 ^ 50 * (1 / 30000) := mul_le_mul_of_nonneg_left q2 (by norm_num)
    norm_num at this ⊢; linarith)
  have hprod : 0 ≤ glickoQ ^ 2 * I ∧ glickoQ ^ 2 * I ≤ n / 30000 := by
    refine ⟨by positivity, ?_⟩
    have := mul_le_mul q2 hI2 hI1 (by norm_num)
    linarith
  have p900 : (1 : ℝ) / 2 ^ 900 ≤ 1 / 2 ^ 20 :=
    one_div_le_one_div_of_le (by positivity) (pow_le_pow_right₀ (by norm_num) (by norm_num))
  have q900 : (2 : ℝ) ≤ 2 ^ 900 := le_self_pow₀ (by norm_num) (by norm_num)
  have b1 : glickoQ ^ 2 * (n * (17 / 2 ^ 38 + 1 / 2 ^ 40)) ≤ 1 / 30000 * (n * (17 / 2 ^ 38 + 1 / 2 ^ 40)) :=
    mul_le_mul_of_nonneg_right q2 (by positivity)
  have w := (small_mul hq2 hI (M := n / 15000) (by
    rw [abs_of_nonneg hprod.1, abs_of_nonneg hI1, abs_of_pos (by positivity : 0 < glickoQ ^ 2)]
    norm_num at b1 ⊢
    linarith [hprod.2]) (p900.trans (by norm_num; linarith))
    ((by linarith : n / 15000 ≤ 2).trans q900)).mono (δ := 300000 * n / 2 ^ 50 / 122500) (by
      rw [abs_of_nonneg hI1, abs_of_pos (by positivity : 0 < glickoQ ^ 2)]
      norm_num at b1 ⊢
      linarith)
  have w0 : 0 ≤ (Flt.powi q 2 * sI).toR := by
    have h := hq.1.pos (by norm_num) hq.2.pos
    obtain ⟨s, e⟩ := mul_fin hq.1.1 hI.1
    have hf := w.1
    rw [e] at hf ⊢
    exact toR_of_le hf (E.round_ge s SRep.zero (mul_nonneg h.1.le hI0))
  have t := total_rel L hp hv1 hv2 w w0 hprod.1 (by linarith [hprod.2]) (by positivity)
    (by norm_num; linarith)
  obtain ⟨o1, o2, -, o4, o5, o6, o7⟩ := posterior_rel P t hv1 hv2 hprod.1 (by linarith [hprod.2])
    (by norm_num; linarith)
  change Rel _ (q / d) _ at o2
  set S := glickoQ * posterior (v ^ 2) (glickoQ ^ 2 * I) with hS
  refine ⟨?_, ?_⟩
  · have h0 := o6.pos
    have k1 : Near (213000000 * n / 2 ^ 50) (q / d) S := (o2.near h0.le).mono (by
      have : (300000 * n + 8 + 2 ^ 10) / 2 ^ 50 * S ≤ (300000 * n + 8 + 2 ^ 10) / 2 ^ 50 * 706 :=
        mul_le_mul_of_nonneg_left o7 (by positivity)
      refine this.trans ?_
      norm_num; linarith)
    have hSM : |S * M| ≤ 706 * n := by
      rw [abs_mul, abs_of_pos h0]; exact mul_le_mul o7 hM1 (abs_nonneg _) (by norm_num)
    have hsum := abs_add_le (S * M) r.toR
    have hr2 := hr.2
    have b2 : 213000000 * n / 2 ^ 50 * |M| ≤ 213000000 * n / 2 ^ 50 * n :=
      mul_le_mul_of_nonneg_left hM1 (by positivity)
    have b3 : S * (n * (1 / 2 ^ 35 + 1 / 2 ^ 45 + 1 / 2 ^ 40)) ≤ 706 * (n * (1 / 2 ^ 35 + 1 / 2 ^ 45 + 1 / 2 ^ 40)) :=
      mul_le_mul_of_nonneg_right o7 (by positivity)
    have nn : n ≤ n ^ 2 := by nlinarith
    have nn2 : n ^ 2 ≤ 65536 := by nlinarith
    refine (near_mulAdd k1 hM hr.near (M := 2 ^ 18) ?_ (by norm_num) (le_huge 18 (by norm_num) (by norm_num))).mono ?_
    · rw [abs_of_pos h0]
      norm_num at b2 b3 hr2 ⊢
      nlinarith
    · rw [abs_of_pos h0]
      norm_num at b2 b3 ⊢
      nlinarith
  · refine (o1.near (Real.sqrt_nonneg _)).mono ?_
    have : √(posterior (v ^ 2) (glickoQ ^ 2 * I)) ≤ 350 := by
      rw [Real.sqrt_le_iff]; exact ⟨by norm_num, o5.trans (by norm_num)⟩
    refine (mul_le_mul_of_nonneg_left this (by positivity)).trans ?_
    norm_num; linarith

/-- Glicko, a rating period of `n` games (at most 256): the new rating is within `n² / 2 ^ 22` and the
new deviation within `n / 2 ^ 23` of the exact formulas applied to the same players. -/
theorem C123_glicko_period (L : E.Lib) (A : E.Accurate) (P : E.Precise)
    (p : Glicko.GlickoRating (FP E)) (rs : List (Glicko.GlickoRating (FP E) × Outcomes))
    (c : Glicko.GlickoConfig (FP E)) (hp : GlickoUsual p) (hr : ∀ r ∈ rs, GlickoUsual r.1)
    (hc : Within (2 ^ 20) c.c) (hn : rs.length ≤ 2 ^ 8) (hne : rs ≠ []) :
    let x := Glicko.glickoRatingPeriod p rs c
    let y := Glicko.glickoRatingPeriod (glickoExact p) (rs.map fun r => (glickoExact r.1, r.2)) ⟨c.c.toR⟩
    Near (rs.length ^ 2 / 2 ^ 22) x.rating y.rating ∧
      Near (rs.length / 2 ^ 23) x.deviation y.deviation := by
  intro x y
  have he : rs.isEmpty = false := by simpa [List.isEmpty_iff] using hne
  have hn1 : (1 : ℝ) ≤ rs.length := by
    exact_mod_cast Nat.one_le_iff_ne_zero.2 (by simpa using hne)
  have hn2 : (rs.length : ℝ) ≤ 256 := by exact_mod_cast hn
  have ey : y = _ := Glicko.period_real _ _ _ (by simpa using hne)
  rw [ey]
  simp only [List.map_map, glickoExact]
  obtain ⟨p1, p2, p3⟩ := onset_rel P hp.2.1 hp.2.2.1 hp.2.2.2 hc
  set q : FP E := Flt.ln (10.0 : FP E) / (400.0 : FP E) with hq
  -- the sums
  obtain ⟨i1, i2⟩ := near_sum rs
    (fun r => Flt.powi (Glicko.gValue q r.1.deviation) 2
      * Glicko.eValue (Glicko.gValue q r.1.deviation) p.rating r.1.rating
      * ((1.0 : FP E) - Glicko.eValue (Glicko.gValue q r.1.deviation) p.rating r.1.rating))
    (fun r => glickoG r.1.deviation.toR ^ 2 * glickoE p.rating.toR r.1.rating.toR r.1.deviation.toR
      * (1 - glickoE p.rating.toR r.1.rating.toR r.1.deviation.toR)) (ε := 17 / 2 ^ 38)
    (by norm_num) (by norm_num) (by omega)
    (fun r h => ⟨(glicko_term L A P hp.1 (hr r h)).1, (glicko_term L A P hp.1 (hr r h)).2.1⟩)
  obtain ⟨m1, m2⟩ := near_sum rs
    (fun r => Glicko.gValue q r.1.deviation * (r.2.toChessPoints
      - Glicko.eValue (Glicko.gValue q r.1.deviation) p.rating r.1.rating))
    (fun r => glickoG r.1.deviation.toR
      * (points r.2 - glickoE p.rating.toR r.1.rating.toR r.1.deviation.toR))
    (ε := 1 / 2 ^ 35 + 1 / 2 ^ 45) (by norm_num) (by norm_num) (by omega)
    (fun r h => glicko_surprise L A P r.2 hp.1 (hr r h))
  have hnn := sum_unit_in (rs.map fun r => Flt.powi (Glicko.gValue q r.1.deviation) 2
      * Glicko.eValue (Glicko.gValue q r.1.deviation) p.rating r.1.rating
      * ((1.0 : FP E) - Glicko.eValue (Glicko.gValue q r.1.deviation) p.rating r.1.rating))
    (by simp; omega) (by
      intro z hz
      obtain ⟨r, h, rfl⟩ := List.mem_map.1 hz
      exact (glicko_term L A P hp.1 (hr r h)).2.2)
  have i0 : 0 ≤ (rs.map fun r => glickoG r.1.deviation.toR ^ 2
      * glickoE p.rating.toR r.1.rating.toR r.1.deviation.toR
      * (1 - glickoE p.rating.toR r.1.rating.toR r.1.deviation.toR)).sum := by
    refine List.sum_nonneg ?_
    intro z hz
    obtain ⟨r, -, rfl⟩ := List.mem_map.1 hz
    have e01 := glickoE01 p.rating.toR r.1.rating.toR r.1.deviation.toR
    exact mul_nonneg (mul_nonneg (_root_.sq_nonneg _) e01.1) (by linarith [e01.2])
  obtain ⟨c1, c2⟩ := glicko_core L P p1 p2 p3 hn1 hn2 i1 hnn.toR.1 i0 (le_of_abs_le i2) m1 m2 hp.1
  have e1 : glickoQ ^ 2 * (rs.map fun r => glickoG r.1.deviation.toR ^ 2
      * glickoE p.rating.toR r.1.rating.toR r.1.deviation.toR
      * (1 - glickoE p.rating.toR r.1.rating.toR r.1.deviation.toR)).sum
      = (rs.map ((fun r : Glicko.GlickoRating ℝ × Outcomes => glickoInfo p.rating.toR r.1.rating r.1.deviation)
        ∘ fun r => (⟨r.1.rating.toR, r.1.deviation.toR⟩, r.2))).sum := by
    rw [List_sum_mul_left]
    simp only [glickoInfo, mul_assoc, Function.comp_def]
  rw [e1] at c1 c2
  rw [add_comm] at c1
  change Near _ (Glicko.glickoRatingPeriod p rs c).rating _ ∧ Near _ (Glicko.glickoRatingPeriod p rs c).deviation _
  simp only [Glicko.glickoRatingPeriod, he, Bool.false_eq_true, if_false]
  exact ⟨c1, c2⟩

/-- The combined deviation of two players. -/
theorem combined_ap (P : E.Precise) {x y : FP E} (hx : Between (1 / 2 ^ 10) (2 ^ 10) x)
    (hy : Between (1 / 2 ^ 10) (2 ^ 10) y) : Ap 1 11 (Flt.hypot x y) √(x.toR ^ 2 + y.toR ^ 2) := by
  obtain ⟨fx, x1, x2⟩ := hx
  obtain ⟨fy, y1, y2⟩ := hy
  have hx0 : 0 < x.toR := lt_of_lt_of_le (by positivity) x1
  have hy0 : 0 < y.toR := lt_of_lt_of_le (by positivity) y1
  have m : Mid 11 √(x.toR ^ 2 + y.toR ^ 2) := by
    constructor
    · refine Real.le_sqrt_of_sq_le ?_
      have : (1 / 2 ^ 10) ^ 2 ≤ x.toR ^ 2 := pow_le_pow_left₀ (by positivity) x1 2
      norm_num at this ⊢
      nlinarith [_root_.sq_nonneg y.toR]
    · rw [Real.sqrt_le_iff]
      refine ⟨by positivity, ?_⟩
      norm_num at x2 y2 ⊢
      nlinarith
  have h := P.hypot x y fx fy (m.mono (by norm_num : 11 ≤ 500)).1 (m.mono (by norm_num : 11 ≤ 500)).2
  exact ⟨Rel.of_near m.pos (h.mono (le_of_eq (by ring))), m⟩

/-- The expected score of a player. -/
theorem glicko_expected_near (L : E.Lib) (A : E.Accurate) (P : E.Precise)
    {a b : Glicko.GlickoRating (FP E)} (ha : GlickoUsual a) (hb : GlickoUsual b) :
    Near (1 / 2 ^ 35) (Flt.recip ((1.0 : FP E) + Flt.powf (10.0 : FP E)
      (-(Glicko.gValue (Flt.ln (10.0 : FP E) / (400.0 : FP E)) (Flt.hypot a.deviation b.deviation))
        * (a.rating - b.rating) / (400.0 : FP E))))
      (glickoE a.rating.toR b.rating.toR √(a.deviation.toR ^ 2 + b.deviation.toR ^ 2)) := by
  have hg := g_ap L P (by norm_num) (combined_ap P ha.2 hb.2)
  obtain ⟨t1, t2⟩ := diff_near ha.1 hb.1
  exact e_near A hg.1 (by norm_num) (glickoG_pos _) (glickoG_le_one _) t1 t2

/-- Glicko, expected scores: within `2 ^ -34` of the exact formula. -/
theorem C123_glicko_expected (L : E.Lib) (A : E.Accurate) (P : E.Precise)
    (a b : Glicko.GlickoRating (FP E)) (ha : GlickoUsual a) (hb : GlickoUsual b) :
    Near (1 / 2 ^ 34) (Glicko.expectedScore a b).1
      (Glicko.expectedScore (glickoExact a) (glickoExact b)).1 ∧
    Near (1 / 2 ^ 34) (Glicko.expectedScore a b).2
      (Glicko.expectedScore (glickoExact a) (glickoExact b)).2 := by
  have he := glicko_expected_near L A P ha hb
  rw [Glicko.expectedScore_real]
  exact ⟨he.mono (by norm_num), (compl_near he (glickoE01 _ _ _)).mono (by norm_num)⟩

/-- Glicko, expected scores of a rating period, opponent by opponent. -/
theorem C123_glicko_expected_period (L : E.Lib) (A : E.Accurate) (P : E.Precise)
    (p : Glicko.GlickoRating (FP E)) (os : List (Glicko.GlickoRating (FP E))) (hp : GlickoUsual p)
    (ho : ∀ o ∈ os, GlickoUsual o) :
    List.Forall₂ (Near (1 / 2 ^ 34)) (Glicko.expectedScoreRatingPeriod p os)
      (Glicko.expectedScoreRatingPeriod (glickoExact p) (os.map glickoExact)) := by
  induction os with
  | nil => exact List.Forall₂.nil
  | cons o os ih =>
    refine List.Forall₂.cons ?_ (ih fun x hx => ho x (List.mem_cons_of_mem _ hx))
    exact (C123_glicko_expected L A P p o hp (ho o List.mem_cons_self)).1

/-- Glicko, a period without games: the new deviation is within `2 ^ -41` of the exact formula, and the
rating is unchanged. -/
theorem C123_glicko_decay (P : E.Precise) (p : Glicko.GlickoRating (FP E))
    (c : Glicko.GlickoConfig (FP E)) (hp : GlickoUsual p) (hc : Within (2 ^ 20) c.c) :
    (Glicko.decayDeviation p c).rating = p.rating ∧
    Near (1 / 2 ^ 41) (Glicko.decayDeviation p c).deviation
      (Glicko.decayDeviation (glickoExact p) ⟨c.c.toR⟩).deviation := by
  obtain ⟨p1, p2, p3⟩ := onset_rel P hp.2.1 hp.2.2.1 hp.2.2.2 hc
  refine ⟨rfl, ?_⟩
  have e : (Glicko.decayDeviation (glickoExact p) ⟨c.c.toR⟩).deviation
      = glickoOnset p.deviation.toR c.c.toR := Glicko.onset_real _ _
  rw [e]
  refine (p1.near (by linarith [show (0 : ℝ) < 1 / 2 ^ 10 by positivity])).mono ?_
  norm_num; linarith

/-- Glicko, the ends of the confidence interval: within `2 ^ -35` of the exact ones. -/
theorem C123_glicko_interval (p : Glicko.GlickoRating (FP E)) (hp : GlickoUsual p) :
    Near (1 / 2 ^ 35) (Glicko.confidenceInterval p).1 (Glicko.confidenceInterval (glickoExact p)).1 ∧
    Near (1 / 2 ^ 35) (Glicko.confidenceInterval p).2 (Glicko.confidenceInterval (glickoExact p)).2 := by
  have l1 : Near (2 / 2 ^ 51) (1.96 : FP E) (1.96 : ℝ) :=
    round_abs false (by rw [abs_of_pos] <;> norm_num) (by norm_num) (le_huge 1 (by norm_num) (by norm_num))
  obtain ⟨⟨hr, hr2⟩, fd, d1, d2⟩ := hp
  have d0 : 0 < p.deviation.toR := lt_of_lt_of_le (by positivity) d1
  have key : ∀ (x : FP E) (d : ℝ), Near 0 x d → |d| ≤ 2 ^ 10 →
      Near (1 / 2 ^ 35) (Flt.mulAdd (1.96 : FP E) x p.rating) (1.96 * d + p.rating.toR) := by
    intro x d hx hd
    have hm : |1.96 * d + p.rating.toR| ≤ 2 ^ 14 + 2 ^ 11 := by
      refine (abs_add_le _ _).trans ?_
      rw [abs_mul, abs_of_pos (by norm_num : (0 : ℝ) < 1.96)]
      norm_num at hd hr2 ⊢; linarith
    refine (near_mulAdd l1 hx (near_self hr) (M := 2 ^ 15) ?_ (by norm_num)
      (le_huge 15 (by norm_num) (by norm_num))).mono ?_
    · norm_num at hm hd ⊢; linarith
    · norm_num at hd ⊢; linarith
  have hd : |p.deviation.toR| ≤ 2 ^ 10 := by rw [abs_of_pos d0]; exact d2
  refine ⟨?_, ?_⟩
  · have := key (-p.deviation) (-p.deviation.toR) (by simpa using (near_self fd).neg) (by rwa [abs_neg])
    simpa only [Glicko.confidenceInterval, glickoExact, flt] using this
  · have := key p.deviation p.deviation.toR (near_self fd) hd
    simpa only [Glicko.confidenceInterval, glickoExact, flt] using this

/-! ### Double precision -/

theorem usual_glicko : GlickoUsual (E := ieee) ⟨1500.0, 200.0⟩ ∧ GlickoUsual (E := ieee) ⟨1400.0, 30.0⟩ := by
  have h1 := lit_in (E := ieee) (m := 15000) (s := true) (e := 1) (v := 1500) (by norm_num)
    (SRep.ofNat 1500 (by norm_num))
  have h2 := lit_in (E := ieee) (m := 2000) (s := true) (e := 1) (v := 200) (by norm_num)
    (SRep.ofNat 200 (by norm_num))
  have h3 := lit_in (E := ieee) (m := 14000) (s := true) (e := 1) (v := 1400) (by norm_num)
    (SRep.ofNat 1400 (by norm_num))
  have h4 := lit_in (E := ieee) (m := 300) (s := true) (e := 1) (v := 30) (by norm_num)
    (SRep.ofNat 30 (by norm_num))
  refine ⟨⟨⟨h1.finite, ?_⟩, h2.finite, ?_, ?_⟩, ⟨⟨h3.finite, ?_⟩, h4.finite, ?_, ?_⟩⟩
  · rw [abs_le]; constructor
    · exact le_trans (by norm_num) h1.toR.1
    · exact h1.toR.2.trans (by norm_num)
  · exact le_trans (by norm_num) h2.toR.1
  · exact h2.toR.2.trans (by norm_num)
  · rw [abs_le]; constructor
    · exact le_trans (by norm_num) h3.toR.1
    · exact h3.toR.2.trans (by norm_num)
  · exact le_trans (by norm_num) h4.toR.1
  · exact h4.toR.2.trans (by norm_num)

theorem usual_decay : Within (E := ieee) (2 ^ 20) (16.0 : FP ieee) := by
  have h := lit_in (E := ieee) (m := 160) (s := true) (e := 1) (v := 16) (by norm_num)
    (SRep.ofNat 16 (by norm_num))
  refine ⟨h.finite, ?_⟩
  rw [abs_le]; constructor
  · exact le_trans (by norm_num) h.toR.1
  · exact h.toR.2.trans (by norm_num)

/-- A win of a player with rating 1500 and deviation 200 against one with rating 1400 and deviation 30,
in double precision. -/
example : Near (1 / 2 ^ 22)
    (Glicko.glicko (F := FP ieee) ⟨1500.0, 200.0⟩ ⟨1400.0, 30.0⟩ .WIN ⟨16.0⟩).1.rating
    (Glicko.glicko (glickoExact (E := ieee) ⟨1500.0, 200.0⟩) (glickoExact (E := ieee) ⟨1400.0, 30.0⟩) .WIN
      ⟨(16.0 : FP ieee).toR⟩).1.rating :=
  (C123_glicko_game ieee_lib ieee_accurate ieee_precise _ _ .WIN ⟨16.0⟩ usual_glicko.1 usual_glicko.2
    usual_decay).1.1

/-- A period of two games. -/
example : Near (2 ^ 2 / 2 ^ 22)
    (Glicko.glickoRatingPeriod (F := FP ieee) ⟨1500.0, 200.0⟩
      [(⟨1400.0, 30.0⟩, .WIN), (⟨1400.0, 30.0⟩, .LOSS)] ⟨16.0⟩).rating
    (Glicko.glickoRatingPeriod (glickoExact (E := ieee) ⟨1500.0, 200.0⟩)
      [(glickoExact (E := ieee) ⟨1400.0, 30.0⟩, .WIN), (glickoExact (E := ieee) ⟨1400.0, 30.0⟩, .LOSS)]
      ⟨(16.0 : FP ieee).toR⟩).rating := by
  have := (C123_glicko_period ieee_lib ieee_accurate ieee_precise _
    [(⟨1400.0, 30.0⟩, .WIN), (⟨1400.0, 30.0⟩, .LOSS)] ⟨16.0⟩ usual_glicko.1
    (by intro r hr; simp at hr; rcases hr with rfl | rfl <;> exact usual_glicko.2)
    usual_decay (by simp) (by simp)).1
  simpa using this

example : Near (1 / 2 ^ 34) (Glicko.expectedScore (F := FP ieee) ⟨1500.0, 200.0⟩ ⟨1400.0, 30.0⟩).1
    (Glicko.expectedScore (glickoExact (E := ieee) ⟨1500.0, 200.0⟩) (glickoExact (E := ieee) ⟨1400.0, 30.0⟩)).1 :=
  (C123_glicko_expected ieee_lib ieee_accurate ieee_precise _ _ usual_glicko.1 usual_glicko.2).1

example : List.Forall₂ (Near (1 / 2 ^ 34))
    (Glicko.expectedScoreRatingPeriod (F := FP ieee) ⟨1500.0, 200.0⟩ [⟨1400.0, 30.0⟩])
    (Glicko.expectedScoreRatingPeriod (glickoExact (E := ieee) ⟨1500.0, 200.0⟩)
      [glickoExact (E := ieee) ⟨1400.0, 30.0⟩]) :=
  C123_glicko_expected_period ieee_lib ieee_accurate ieee_precise _ [⟨1400.0, 30.0⟩] usual_glicko.1
    (by intro r hr; simp at hr; subst hr; exact usual_glicko.2)

example : Near (1 / 2 ^ 41) (Glicko.decayDeviation (F := FP ieee) ⟨1500.0, 200.0⟩ ⟨16.0⟩).deviation
    (Glicko.decayDeviation (glickoExact (E := ieee) ⟨1500.0, 200.0⟩) ⟨(16.0 : FP ieee).toR⟩).deviation :=
  (C123_glicko_decay ieee_precise _ ⟨16.0⟩ usual_glicko.1 usual_decay).2

example : Near (1 / 2 ^ 35) (Glicko.confidenceInterval (F := FP ieee) ⟨1500.0, 200.0⟩).1
    (Glicko.confidenceInterval (glickoExact (E := ieee) ⟨1500.0, 200.0⟩)).1 :=
  (C123_glicko_interval _ usual_glicko.1).1

end Skillratings
