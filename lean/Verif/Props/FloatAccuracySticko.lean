import Verif.Proofs.FPSticko
/-
C132: Sticko in double precision stays close to exact arithmetic.
-/

namespace Skillratings
open FP FPVal Spec
variable {E : FloatEnv}

/-- The same player in exact arithmetic. -/
noncomputable def stickoExact (a : Sticko.StickoRating (FP E)) : Sticko.StickoRating ℝ :=
  ⟨a.rating.toR, a.deviation.toR⟩

/-- The same parameters in exact arithmetic. -/
noncomputable def stickoExactConfig (c : Sticko.StickoConfig (FP E)) : Sticko.StickoConfig ℝ :=
  ⟨c.h.toR, c.beta.toR, c.lambda.toR, c.gamma.toR, c.c.toR⟩

/-- A player with a rating of magnitude at most `2 ^ 13` and a deviation between `2 ^ -10` and
`2 ^ 10`. -/
def StickoUsual (a : Sticko.StickoRating (FP E)) : Prop :=
  Within (2 ^ 13) a.rating ∧ Between (1 / 2 ^ 10) (2 ^ 10) a.deviation

/-- Parameters of moderate size. -/
structure StickoConfigUsual (c : Sticko.StickoConfig (FP E)) : Prop where
  h : Between 0 100 c.h
  beta : Within 1 c.beta
  lambda : Within 100 c.lambda
  gamma : Within (2 ^ 13) c.gamma
  c : Within (2 ^ 20) c.c

theorem within_mono {x : FP E} {B C : ℝ} (h : Within B x) (hBC : B ≤ C) : Within C x := ⟨h.1, h.2.trans hBC⟩

/-- The difference of two ratings with the advantage of one side. -/
theorem advantage_near {r s g col : FP E} {k : ℝ} (hr : Within (2 ^ 13) r) (hs : Within (2 ^ 13) s)
    (hg : Within (2 ^ 13) g) (hc : Near 0 col k) (hk : |k| = 1) :
    Near (1 / 2 ^ 35) (Flt.mulAdd g col (r - s)) (r.toR + g.toR * k - s.toR) ∧
      |r.toR + g.toR * k - s.toR| ≤ 2 ^ 15 + 1 := by
  have r2 := hr.2
  have s2 := hs.2
  have g2 := hg.2
  have hd : |r.toR - s.toR| ≤ 2 ^ 14 := (abs_sub _ _).trans (by norm_num at r2 s2 ⊢; linarith)
  have hgk : |g.toR * k| ≤ 2 ^ 13 := by rw [abs_mul, hk, mul_one]; exact g2
  have n1 := (near_sub hr.near hs.near (M := 2 ^ 14) (by linarith) (by norm_num)
    (le_huge 16 (by norm_num) (by norm_num))).mono (δ := 1 / 2 ^ 36) (by norm_num)
  have e : r.toR + g.toR * k - s.toR = g.toR * k + (r.toR - s.toR) := by ring
  have hsum : |g.toR * k + (r.toR - s.toR)| ≤ 2 ^ 13 + 2 ^ 14 := (abs_add_le _ _).trans (add_le_add hgk hd)
  rw [e]
  refine ⟨(near_mulAdd hg.near hc n1 (M := 2 ^ 15) ?_ (by norm_num) (le_huge 16 (by norm_num) (by norm_num))).mono ?_, ?_⟩
  · norm_num at hsum ⊢; linarith
  · norm_num
  · norm_num at hsum ⊢; linarith

theorem colour_near (b : Bool) : Near 0 (if b then (1.0 : FP E) else -1.0) (colour b) ∧ |colour b| = 1 := by
  have h1 := near_of_in (one_in (E := E))
  cases b with
  | true => exact ⟨h1, by simp [colour]⟩
  | false =>
    refine ⟨?_, by simp [colour]⟩
    have := h1.neg
    simpa [colour] using this

/-- The factor and the expected score of a game. -/
theorem sticko_parts (L : E.Lib) (A : E.Accurate) (P : E.Precise) {r g col : FP E} {k : ℝ}
    {b : Sticko.StickoRating (FP E)} (hr : Within (2 ^ 13) r) (hb : StickoUsual b)
    (hg : Within (2 ^ 13) g) (hc : Near 0 col k) (hk : |k| = 1) :
    Ap 15 60 (Sticko.gValue (Flt.ln (10.0 : FP E) / (400.0 : FP E)) b.deviation) (glickoG b.deviation.toR) ∧
    Near (1 / 2 ^ 35) (Sticko.eValue (Sticko.gValue (Flt.ln (10.0 : FP E) / (400.0 : FP E)) b.deviation)
      r b.rating g col) (glickoE (r.toR + g.toR * k) b.rating.toR b.deviation.toR) ∧
    In 0 1 (Sticko.gValue (Flt.ln (10.0 : FP E) / (400.0 : FP E)) b.deviation) ∧
    In 0 1 (Sticko.eValue (Sticko.gValue (Flt.ln (10.0 : FP E) / (400.0 : FP E)) b.deviation)
      r b.rating g col) := by
  have hg1 := (g_ap L P (by norm_num) (hb.2.ap.mono le_rfl (by norm_num))).mono (k' := 15) (by norm_num) le_rfl
  obtain ⟨t1, t2⟩ := advantage_near hr hb.1 hg hc hk
  have hgi := g_glicko_in L (isFinite.not_nan hb.2.1)
  exact ⟨hg1, e_near A hg1.1 (by norm_num) (glickoG_pos _) (glickoG_le_one _) t1 t2, hgi,
    pow_score L (exponent_not_nan hgi t1.1)⟩

/-- The surprise of a game with the activity bonus. -/
theorem bonus_near {s e β : FP E} {v p : ℝ} (hs : Near 0 s v) (hv : 0 ≤ v ∧ v ≤ 1)
    (he : Near (1 / 2 ^ 35) e p) (hp : 0 ≤ p ∧ p ≤ 1) (hβ : Within 1 β) :
    Near (1 / 2 ^ 35 + 1 / 2 ^ 48) (s - e + β) (v - p + β.toR) ∧ |v - p + β.toR| ≤ 2 := by
  obtain ⟨s1, s2⟩ := surprise_near hs hv he hp
  have h2 : |v - p + β.toR| ≤ 2 := (abs_add_le _ _).trans (by have := hβ.2; linarith)
  exact ⟨(near_add s1 hβ.near (M := 3) (by norm_num at h2 ⊢; linarith) (by norm_num)
    (le_huge 2 (by norm_num) (by norm_num))).mono (by norm_num), h2⟩

/-- The pull towards the opponents. -/
theorem pull_near {l m r : FP E} {μ : ℝ} (hl : Within 100 l) (hm : Near (1 / 2 ^ 25) m μ) (hμ : |μ| ≤ 2 ^ 13)
    (hr : Within (2 ^ 13) r) :
    Near (1 / 2 ^ 24) (l / (100.0 : FP E) * (m - r)) (l.toR / 100 * (μ - r.toR)) ∧
      |l.toR / 100 * (μ - r.toR)| ≤ 2 ^ 14 := by
  have r2 := hr.2
  have l2 := hl.2
  have h100 := near_of_in (lit_in (E := E) (m := 1000) (s := true) (e := 1) (v := 100) (by norm_num)
    (SRep.ofNat 100 (by norm_num)))
  have n1 := near_div_const hl.near h100 (by norm_num) (M := 1) (by norm_num; linarith) le_rfl
    (le_huge 1 (by norm_num) (by norm_num))
  have hd : |μ - r.toR| ≤ 2 ^ 14 := (abs_sub _ _).trans (by norm_num at r2 hμ ⊢; linarith)
  have n2 := (near_sub hm hr.near (M := 2 ^ 15) (by norm_num at hd ⊢; linarith) (by norm_num)
    (le_huge 16 (by norm_num) (by norm_num))).mono (δ := 1 / 2 ^ 25 + 1 / 2 ^ 36) (by norm_num)
  have hl1 : |l.toR / 100| ≤ 1 := by
    rw [abs_div, abs_of_pos (by norm_num : (0 : ℝ) < 100)]; linarith
  have hp : |l.toR / 100 * (μ - r.toR)| ≤ 2 ^ 14 := by
    rw [abs_mul]
    calc _ ≤ 1 * 2 ^ 14 := mul_le_mul hl1 hd (abs_nonneg _) (by norm_num)
      _ = _ := by norm_num
  refine ⟨(near_mul n1 n2 (M := 2 ^ 15) ?_ (by norm_num) (le_huge 16 (by norm_num) (by norm_num))).mono ?_, hp⟩
  · norm_num at hd hp hl1 ⊢
    linarith
  · norm_num at hd hl1 ⊢
    linarith

theorem sticko_half (L : E.Lib) (A : E.Accurate) (P : E.Precise) {a b : Sticko.StickoRating (FP E)}
    {cf : Sticko.StickoConfig (FP E)} {col s : FP E} {f : Bool} {v : ℝ} (ha : StickoUsual a) (hb : StickoUsual b)
    (hc : StickoConfigUsual cf) (hcol : Near 0 col (colour f)) (hs : Near 0 s v) (hv : 0 ≤ v ∧ v ≤ 1) :
    let q : FP E := Flt.ln (10.0 : FP E) / (400.0 : FP E)
    let g := Sticko.gValue q b.deviation
    let e := Sticko.eValue g a.rating b.rating cf.gamma col
    let d := Sticko.dValue q g e
    let pre := Flt.fmin (Flt.hypot a.deviation cf.c) (350.0 : FP E)
    let l := cf.lambda / (100.0 : FP E) * (b.rating - a.rating)
    let u := stickoUpdate (Sticko.params (stickoExactConfig cf)) a.rating.toR a.deviation.toR
      [⟨b.rating.toR, b.deviation.toR, v, f⟩]
    Near (1 / 2 ^ 20) (Sticko.newRating a.rating pre q d g s e cf.beta l) u.1 ∧
    Near (1 / 2 ^ 22) (Sticko.newDeviation pre d cf.h) u.2 := by
  intro q g e d pre l u
  obtain ⟨hg, he, hgi, hei⟩ := sticko_parts L A P ha.1 hb hc.gamma hcol (by cases f <;> simp [colour])
  change Ap 15 60 g _ at hg
  change Near _ e _ at he
  obtain ⟨p1, p2, p3⟩ := onset_rel P ha.2.1 ha.2.2.1 ha.2.2.2 hc.c
  change Rel 1 pre _ at p1
  set R := a.rating.toR + cf.gamma.toR * colour f with hR
  have e01 := glickoE01 R b.rating.toR b.deviation.toR
  have g01 := glickoG01 b.deviation.toR
  have q2 := glickoQ_sq
  have w := (Ap.sq L (q_ap P) (by norm_num) (by norm_num)).mul (hg.sq L (by norm_num) (by norm_num))
    (by norm_num) (by norm_num) (by norm_num)
  have hW : glickoQ ^ 2 * glickoG b.deviation.toR ^ 2 ≤ 1 / 30000 := by
    have := pow_le_one₀ g01.1.le g01.2 (n := 2)
    have h0 := _root_.sq_nonneg glickoQ
    nlinarith
  have i1 := info_near (k := 64) (w.1.mono (by norm_num)) le_rfl w.2.pos hW (by norm_num) (by norm_num) he e01
  have hd : d = Flt.recip (Flt.powi q 2 * Flt.powi g 2 * e * ((1.0 : FP E) - e)) := powi_neg_one' L _
  have hI := glickoInfo_bounds R b.rating.toR b.deviation.toR
  have hw0 := (dValue_arg_in L hgi hei).toR.1
  have t1 := total_rel L (K := 290000) p1 p2 p3 (i1.mono (by norm_num)) hw0
    hI.1 hI.2 (by norm_num) (by norm_num)
  obtain ⟨-, o2, -, o4, o5, o6, o7⟩ := posterior_rel P t1 p2 p3 hI.1 hI.2 (by norm_num)
  change Rel _ (q / _) _ at o2
  set O := glickoOnset a.deviation.toR cf.c.toR with hO
  set v2 := posterior (O ^ 2) (glickoInfo R b.rating.toR b.deviation.toR) with hv2
  have hu : u = (a.rating.toR + glickoQ * v2 * (glickoG b.deviation.toR
      * (v - glickoE R b.rating.toR b.deviation.toR + cf.beta.toR))
      + cf.lambda.toR / 100 * (b.rating.toR - a.rating.toR),
      min √(posterior (O ^ 2 + cf.h.toR) (glickoInfo R b.rating.toR b.deviation.toR)) 350) := by
    simp [u, stickoUpdate, stickoInfo, stickoE, Sticko.params, stickoExactConfig, glickoInfo, hv2, hO, hR]
  rw [hu]
  change _ ∧ _
  rw [Sticko.newRating, Sticko.newDeviation, hd]
  refine ⟨?_, ?_⟩
  · have o3 := Ap.mul (show Ap (290000 + 8 + 2 ^ 10) 31 _ _ from ⟨o2, o6⟩) hg (by norm_num) (by norm_num)
      (by norm_num)
    obtain ⟨s1, s2⟩ := bonus_near hs hv he e01 hc.beta
    obtain ⟨l1, l2⟩ := pull_near hc.lambda (hb.1.near.mono (by norm_num)) hb.1.2 ha.1
    change Near _ l _ at l1
    set S := glickoQ * v2 * glickoG b.deviation.toR with hS
    have S0 : 0 < S := o3.2.pos
    have S1 : S ≤ 706 := (mul_le_of_le_one_right o6.pos.le g01.2).trans o7
    set D := v - glickoE R b.rating.toR b.deviation.toR + cf.beta.toR with hD
    have n1 : Near (206000000 / 2 ^ 50) (q / (Flt.recip (Flt.powi pre 2) + Flt.recip (Flt.recip
        (Flt.powi q 2 * Flt.powi g 2 * e * ((1.0 : FP E) - e)))) * g) S := (o3.1.near S0.le).mono (by
      refine (mul_le_mul_of_nonneg_left S1 (by norm_num)).trans (by norm_num))
    have hSD : |S * D| ≤ 1412 := by
      rw [abs_mul, abs_of_pos S0]
      nlinarith [abs_nonneg D]
    have r2 := ha.1.2
    have hsum := (abs_add_le (S * D) a.rating.toR)
    have b2 : S * (1 / 2 ^ 35 + 1 / 2 ^ 48) ≤ 706 * (1 / 2 ^ 35 + 1 / 2 ^ 48) :=
      mul_le_mul_of_nonneg_right S1 (by norm_num)
    have n2 := (near_mulAdd n1 s1 ha.1.near (M := 2 ^ 14) (by
      rw [abs_of_pos S0]
      norm_num at b2 r2 s2 ⊢
      linarith) (by norm_num) (le_huge 15 (by norm_num) (by norm_num))).mono (δ := 1 / 2 ^ 21) (by
      rw [abs_of_pos S0]
      norm_num at b2 s2 ⊢
      linarith)
    have hsum2 := abs_add_le (S * D + a.rating.toR) (cf.lambda.toR / 100 * (b.rating.toR - a.rating.toR))
    have hsum3 := hsum2.trans (add_le_add (hsum.trans (add_le_add hSD r2)) l2)
    have n3 := near_add n2 l1 (M := 2 ^ 15) (by
      refine (add_le_add_left hsum3 _).trans (by norm_num)) (by norm_num)
      (le_huge 16 (by norm_num) (by norm_num))
    have e3 : a.rating.toR + glickoQ * v2 * (glickoG b.deviation.toR * D)
        + cf.lambda.toR / 100 * (b.rating.toR - a.rating.toR)
        = S * D + a.rating.toR + cf.lambda.toR / 100 * (b.rating.toR - a.rating.toR) := by rw [hS]; ring
    change Near _ _ (a.rating.toR + glickoQ * v2 * (glickoG b.deviation.toR * D)
        + cf.lambda.toR / 100 * (b.rating.toR - a.rating.toR))
    rw [e3]
    exact n3.mono (by norm_num)
  · obtain ⟨fh, h0, h1⟩ := hc.h
    have wr := widened_rel p1 p2 p3 ((near_self fh).mono (by positivity)) h0 (by linarith)
    have O0 : 0 < O := lt_of_lt_of_le (by positivity) p2
    have lo : (1 / 2 ^ 10) ^ 2 ≤ O ^ 2 := pow_le_pow_left₀ (by positivity) p2 2
    have hi : O ^ 2 ≤ 122500 := by nlinarith
    have sp := spread_near (K := 350000) wr (by norm_num at lo ⊢; linarith) (by linarith)
      (i1.mono (by norm_num)) hw0 hI.1 hI.2 (by norm_num) (by norm_num)
    exact near_cap (sp.mono (by norm_num))

/-- Sticko, one game: the new ratings are within `2 ^ -20` and the new deviations within `2 ^ -22` of
the exact formulas applied to the same players and parameters. -/
theorem C132_sticko_game (L : E.Lib) (A : E.Accurate) (P : E.Precise)
    (a b : Sticko.StickoRating (FP E)) (o : Outcomes) (c : Sticko.StickoConfig (FP E))
    (ha : StickoUsual a) (hb : StickoUsual b) (hc : StickoConfigUsual c) :
    let x := Sticko.sticko a b o c
    let y := Sticko.sticko (stickoExact a) (stickoExact b) o (stickoExactConfig c)
    (Near (1 / 2 ^ 20) x.1.rating y.1.rating ∧ Near (1 / 2 ^ 22) x.1.deviation y.1.deviation) ∧
    (Near (1 / 2 ^ 20) x.2.rating y.2.rating ∧ Near (1 / 2 ^ 22) x.2.deviation y.2.deviation) := by
  intro x y
  have hs1 := near_of_in (points_in (E := E) o)
  have hs2 := near_of_in (points_in' (E := E) o)
  rw [pointsR_eq] at hs1 hs2
  have e : y = _ := Sticko.sticko_real _ _ _ _
  rw [e]
  have c1 := (colour_near (E := E) true).1
  have c2 := (colour_near (E := E) false).1
  simp only [if_true, Bool.false_eq_true, if_false] at c1 c2
  refine ⟨sticko_half L A P ha hb hc c1 hs1 ⟨points_nonneg o, points_le_one o⟩, ?_⟩
  have := sticko_half L A P hb ha hc c2 hs2 ⟨by linarith [points_le_one o], by linarith [points_nonneg o]⟩
  simp only [Sticko.game, points_mirror]
  exact this

/-- The information of a game without the factor `q²`. -/
theorem sticko_term (L : E.Lib) (A : E.Accurate) (P : E.Precise) {r g col : FP E} {k : ℝ}
    {b : Sticko.StickoRating (FP E)} (hr : Within (2 ^ 13) r) (hb : StickoUsual b)
    (hgm : Within (2 ^ 13) g) (hc : Near 0 col k) (hk : |k| = 1) :
    let G := Sticko.gValue (Flt.ln (10.0 : FP E) / (400.0 : FP E)) b.deviation
    let e := Sticko.eValue G r b.rating g col
    let W := glickoG b.deviation.toR ^ 2 * glickoE (r.toR + g.toR * k) b.rating.toR b.deviation.toR
      * (1 - glickoE (r.toR + g.toR * k) b.rating.toR b.deviation.toR)
    Near (17 / 2 ^ 38) (Flt.powi G 2 * e * ((1.0 : FP E) - e)) W ∧ |W| ≤ 1 ∧
      In (E := E) ((0 : ℝ) : EReal) ((1 : ℝ) : EReal) (Flt.powi G 2 * e * ((1.0 : FP E) - e)) := by
  intro G e W
  obtain ⟨hg, he, hgi, hei⟩ := sticko_parts L A P hr hb hgm hc hk
  change Ap 15 60 G _ at hg
  change Near _ e _ at he
  have e01 := glickoE01 (r.toR + g.toR * k) b.rating.toR b.deviation.toR
  have g01 := glickoG01 b.deviation.toR
  have w := hg.sq L (by norm_num) (by norm_num)
  have w1 := pow_le_one₀ g01.1.le g01.2 (n := 2)
  have i1 := info_near (k := 64) (w.1.mono (by norm_num)) le_rfl w.2.pos w1 (by norm_num) le_rfl he e01
  have e' : 0 ≤ 1 - glickoE (r.toR + g.toR * k) b.rating.toR b.deviation.toR := by linarith [e01.2]
  refine ⟨i1.mono (by norm_num), ?_, information_in L hgi hei⟩
  rw [abs_of_nonneg (mul_nonneg (mul_nonneg (by positivity) e01.1) e')]
  exact mul_le_one₀ (mul_le_one₀ w1 e01.1 e01.2) e' (by linarith [e01.1])

/-- The surprise of a game, weighted. -/
theorem sticko_surprise (L : E.Lib) (A : E.Accurate) (P : E.Precise) {r g col β : FP E} {k : ℝ}
    {b : Sticko.StickoRating (FP E)} (o : Outcomes) (hr : Within (2 ^ 13) r) (hb : StickoUsual b)
    (hgm : Within (2 ^ 13) g) (hc : Near 0 col k) (hk : |k| = 1) (hβ : Within 1 β) :
    let G := Sticko.gValue (Flt.ln (10.0 : FP E) / (400.0 : FP E)) b.deviation
    let e := Sticko.eValue G r b.rating g col
    let W := glickoG b.deviation.toR
      * (points o - glickoE (r.toR + g.toR * k) b.rating.toR b.deviation.toR + β.toR)
    Near (1 / 2 ^ 35 + 1 / 2 ^ 44) (G * (o.toChessPoints - e + β)) W ∧ |W| ≤ 2 := by
  intro G e W
  obtain ⟨hg, he, -, -⟩ := sticko_parts L A P hr hb hgm hc hk
  change Ap 15 60 G _ at hg
  change Near _ e _ at he
  have e01 := glickoE01 (r.toR + g.toR * k) b.rating.toR b.deviation.toR
  have g01 := glickoG01 b.deviation.toR
  have hs1 := near_of_in (points_in (E := E) o)
  rw [pointsR_eq] at hs1
  obtain ⟨s1, s2⟩ := bonus_near hs1 ⟨points_nonneg o, points_le_one o⟩ he e01 hβ
  have n1 : Near (15 / 2 ^ 50) G (glickoG b.deviation.toR) := (hg.1.near g01.1.le).mono (by
    have := g01.2
    norm_num; linarith)
  have hW : |W| ≤ 2 := by
    change |glickoG b.deviation.toR * _| ≤ 2
    rw [abs_mul, abs_of_pos g01.1]
    calc _ ≤ 1 * 2 := mul_le_mul g01.2 s2 (abs_nonneg _) (by norm_num)
      _ = 2 := by norm_num
  have g2 := g01.2
  refine ⟨(near_mul n1 s1 (M := 3) ?_ (by norm_num) (le_huge 2 (by norm_num) (by norm_num))).mono ?_, hW⟩
  · change |W| + _ ≤ _
    rw [abs_of_pos g01.1]
    norm_num at s2 ⊢; linarith
  · rw [abs_of_pos g01.1]
    norm_num at s2 ⊢; linarith

/-- The update of a rating period from its sums. -/
theorem sticko_core (L : E.Lib) (P : E.Precise) {pre sI sM r l t : FP E} {v I M n Λ H : ℝ} (hp : Rel 1 pre v)
    (hv1 : 1 / 2 ^ 10 ≤ v) (hv2 : v ≤ 350) (n1 : 1 ≤ n) (n2 : n ≤ 256)
    (hI : Near (n * (17 / 2 ^ 38 + 1 / 2 ^ 40)) sI I) (hI0 : 0 ≤ sI.toR) (hI1 : 0 ≤ I) (hI2 : I ≤ n)
    (hM : Near (n * (1 / 2 ^ 35 + 1 / 2 ^ 38)) sM M) (hM1 : |M| ≤ n * 2)
    (hr : Within (2 ^ 13) r) (hl : Near (1 / 2 ^ 24) l Λ) (hΛ : |Λ| ≤ 2 ^ 14)
    (ht : Near ((H + 1 / 2 ^ 40) / 2 ^ 51) t H) (h0 : 0 ≤ H) (hH : H ≤ 25600) :
    let q : FP E := Flt.ln (10.0 : FP E) / (400.0 : FP E)
    let i := Flt.recip (Flt.recip (Flt.powi q 2 * sI))
    let d := Flt.recip (Flt.powi pre 2) + i
    Near (n ^ 2 / 2 ^ 20) (Flt.mulAdd (q / d) sM r + l)
      (r.toR + glickoQ * posterior (v ^ 2) (glickoQ ^ 2 * I) * M + Λ) ∧
    Near (n / 2 ^ 22) (Flt.sqrt (Flt.recip (Flt.recip (Flt.mulAdd pre pre t) + i)))
      √(posterior (v ^ 2 + H) (glickoQ ^ 2 * I)) := by
  intro q i d
  have q2 := glickoQ_sq
  have q0 := glickoQ_pos
  have hq : Ap 5 20 (Flt.powi q 2) (glickoQ ^ 2) :=
    (Ap.sq L (q_ap P) (by norm_num) (by norm_num)).mono (by norm_num) (by norm_num)
  have hq2 : Near (1 / 2 ^ 62) (Flt.powi q 2) (glickoQ ^ 2) := (hq.1.near (by positivity)).mono (by
    have : (5 : ℝ) / 2 ^ 50 * glickoQ ^ 2 ≤ 5 / 2 ^ 50 * (1 / 30000) := mul_le_mul_of_nonneg_left q2 (by norm_num)
    norm_num at this ⊢; linarith)
  have hprod : 0 ≤ glickoQ ^ 2 * I ∧ glickoQ ^ 2 * I ≤ n / 30000 := by
    refine ⟨by positivity, ?_⟩
    have := mul_le_mul q2 hI2 hI1 (by norm_num)
    linarith
  have p900 : (1 : ℝ) / 2 ^ 900 ≤ 1 / 2 ^ 20 :=
    one_div_le_one_div_of_le (by positivity) (pow_le_pow_right₀ (by norm_num) (by norm_num))
  have q900 : (2 : ℝ) ≤ 2 ^ 900 := le_self_pow₀ (by norm_num) (by norm_num)
  have b1 : glickoQ ^ 2 * (n * (17 / 2 ^ 38 + 1 / 2 ^ 40)) ≤ 1 / 30000 * (n * (17 / 2 ^ 38 + 1 / 2 ^ 40)) :=
    mul_le_mul_of_nonneg_right q2 (by positivity)
  have w := (small_mul hq2 hI (M := n / 15000) (by
    rw [abs_of_nonneg hprod.1, abs_of_nonneg hI1, abs_of_pos (by positivity : 0 < glickoQ ^ 2)]
    norm_num at b1 ⊢
    linarith [hprod.2]) (p900.trans (by norm_num; linarith))
    ((by linarith : n / 15000 ≤ 2).trans q900)).mono (δ := 300000 * n / 2 ^ 50 / 122500) (by
      rw [abs_of_nonneg hI1, abs_of_pos (by positivity : 0 < glickoQ ^ 2)]
      norm_num at b1 ⊢
      linarith)
  have w0 : 0 ≤ (Flt.powi q 2 * sI).toR := by
    have h := hq.1.pos (by norm_num) hq.2.pos
    obtain ⟨s, e⟩ := mul_fin hq.1.1 hI.1
    have hf := w.1
    rw [e] at hf ⊢
    exact toR_of_le hf (E.round_ge s SRep.zero (mul_nonneg h.1.le hI0))
  have t := total_rel L hp hv1 hv2 w w0 hprod.1 (by linarith [hprod.2]) (by positivity)
    (by norm_num; linarith)
  obtain ⟨-, o2, -, o4, o5, o6, o7⟩ := posterior_rel P t hv1 hv2 hprod.1 (by linarith [hprod.2])
    (by norm_num; linarith)
  change Rel _ (q / d) _ at o2
  set S := glickoQ * posterior (v ^ 2) (glickoQ ^ 2 * I) with hS
  refine ⟨?_, ?_⟩
  · have h0 := o6.pos
    have k1 : Near (213000000 * n / 2 ^ 50) (q / d) S := (o2.near h0.le).mono (by
      have : (300000 * n + 8 + 2 ^ 10) / 2 ^ 50 * S ≤ (300000 * n + 8 + 2 ^ 10) / 2 ^ 50 * 706 :=
        mul_le_mul_of_nonneg_left o7 (by positivity)
      refine this.trans ?_
      norm_num; linarith)
    have hSM : |S * M| ≤ 706 * (n * 2) := by
      rw [abs_mul, abs_of_pos h0]; exact mul_le_mul o7 hM1 (abs_nonneg _) (by norm_num)
    have hsum := abs_add_le (S * M) r.toR
    have hr2 := hr.2
    have b2 : 213000000 * n / 2 ^ 50 * |M| ≤ 213000000 * n / 2 ^ 50 * (n * 2) :=
      mul_le_mul_of_nonneg_left hM1 (by positivity)
    have b3 : S * (n * (1 / 2 ^ 35 + 1 / 2 ^ 38)) ≤ 706 * (n * (1 / 2 ^ 35 + 1 / 2 ^ 38)) :=
      mul_le_mul_of_nonneg_right o7 (by positivity)
    have nn : n ≤ n ^ 2 := by nlinarith
    have nn2 : n ^ 2 ≤ 65536 := by nlinarith
    have m1 : Near (n ^ 2 / 2 ^ 20 - 1 / 2 ^ 22) (Flt.mulAdd (q / d) sM r) (S * M + r.toR) := by
      refine (near_mulAdd k1 hM hr.near (M := 2 ^ 19) ?_ (by norm_num) (le_huge 19 (by norm_num) (by norm_num))).mono ?_
      · rw [abs_of_pos h0]
        norm_num at b2 b3 hr2 ⊢
        nlinarith
      · rw [abs_of_pos h0]
        norm_num at b2 b3 ⊢
        nlinarith
    have hsum2 := (abs_add_le (S * M + r.toR) Λ).trans
      (add_le_add (hsum.trans (add_le_add hSM hr2)) hΛ)
    rw [show r.toR + S * M + Λ = S * M + r.toR + Λ by ring]
    refine (near_add m1 hl (M := 2 ^ 20) ((add_le_add_left hsum2 _).trans ?_) (by norm_num)
      (le_huge 20 (by norm_num) (by norm_num))).mono (by norm_num; linarith)
    norm_num; linarith
  · have wr := widened_rel hp hv1 hv2 ht h0 hH
    have v0 : 0 < v := lt_of_lt_of_le (by positivity) hv1
    have lo : (1 / 2 ^ 10) ^ 2 ≤ v ^ 2 := pow_le_pow_left₀ (by positivity) hv1 2
    have hi : v ^ 2 ≤ 122500 := by nlinarith
    have sp := spread_near (K := 363000 * n) wr (by norm_num at lo ⊢; linarith) (by linarith)
      (w.mono (by norm_num; linarith)) w0 hprod.1 (by linarith [hprod.2]) (by positivity)
      (by norm_num; linarith)
    exact sp.mono (by norm_num; linarith)

/-- Sticko, a rating period of `n` games (at most 256): the new rating is within `n² / 2 ^ 20` and the
new deviation within `n / 2 ^ 22` of the exact formulas applied to the same players and parameters. -/
theorem C132_sticko_period (L : E.Lib) (A : E.Accurate) (P : E.Precise)
    (p : Sticko.StickoRating (FP E)) (rs : List (Sticko.StickoRating (FP E) × Outcomes × Bool))
    (c : Sticko.StickoConfig (FP E)) (hp : StickoUsual p) (hr : ∀ r ∈ rs, StickoUsual r.1)
    (hc : StickoConfigUsual c) (hn : rs.length ≤ 2 ^ 8) (hne : rs ≠ []) :
    let x := Sticko.stickoRatingPeriod p rs c
    let y := Sticko.stickoRatingPeriod (stickoExact p) (rs.map fun r => (stickoExact r.1, r.2))
      (stickoExactConfig c)
    Near (rs.length ^ 2 / 2 ^ 20) x.rating y.rating ∧
      Near (rs.length / 2 ^ 22) x.deviation y.deviation := by
  intro x y
  have he : rs.isEmpty = false := by simpa [List.isEmpty_iff] using hne
  have hn1 : (1 : ℝ) ≤ rs.length := by
    exact_mod_cast Nat.one_le_iff_ne_zero.2 (by simpa using hne)
  have hn2 : (rs.length : ℝ) ≤ 256 := by exact_mod_cast hn
  have ey : y = _ := Sticko.period_real _ _ _ (by simpa using hne)
  rw [ey]
  obtain ⟨p1, p2, p3⟩ := onset_rel P hp.2.1 hp.2.2.1 hp.2.2.2 hc.c
  set q : FP E := Flt.ln (10.0 : FP E) / (400.0 : FP E) with hq
  -- the sums
  have T := fun r (h : r ∈ rs) => sticko_term L A P hp.1 (hr r h) hc.gamma (colour_near (E := E) r.2.2).1
    (colour_near (E := E) r.2.2).2
  obtain ⟨i1, i2⟩ := near_sum rs
    (fun r => Flt.powi (Sticko.gValue q r.1.deviation) 2
      * Sticko.eValue (Sticko.gValue q r.1.deviation) p.rating r.1.rating c.gamma (if r.2.2 then 1.0 else -1.0)
      * ((1.0 : FP E) - Sticko.eValue (Sticko.gValue q r.1.deviation) p.rating r.1.rating c.gamma
        (if r.2.2 then 1.0 else -1.0)))
    (fun r => glickoG r.1.deviation.toR ^ 2
      * glickoE (p.rating.toR + c.gamma.toR * colour r.2.2) r.1.rating.toR r.1.deviation.toR
      * (1 - glickoE (p.rating.toR + c.gamma.toR * colour r.2.2) r.1.rating.toR r.1.deviation.toR))
    (ε := 17 / 2 ^ 38)
    (by norm_num) (by norm_num) (by omega)
    (fun r h => ⟨(T r h).1, (T r h).2.1⟩)
  obtain ⟨m1, m2⟩ := near_sum_big rs
    (fun r => Sticko.gValue q r.1.deviation * (r.2.1.toChessPoints
      - Sticko.eValue (Sticko.gValue q r.1.deviation) p.rating r.1.rating c.gamma (if r.2.2 then 1.0 else -1.0)
      + c.beta))
    (fun r => glickoG r.1.deviation.toR
      * (points r.2.1 - glickoE (p.rating.toR + c.gamma.toR * colour r.2.2) r.1.rating.toR r.1.deviation.toR
        + c.beta.toR))
    (B := 2) (ε := 1 / 2 ^ 35 + 1 / 2 ^ 44) (by norm_num) (by norm_num) (by norm_num) (by norm_num) (by omega)
    (fun r h => sticko_surprise L A P r.2.1 hp.1 (hr r h) hc.gamma (colour_near (E := E) r.2.2).1
      (colour_near (E := E) r.2.2).2 hc.beta)
  have hnn := sum_unit_in (rs.map fun r => Flt.powi (Sticko.gValue q r.1.deviation) 2
      * Sticko.eValue (Sticko.gValue q r.1.deviation) p.rating r.1.rating c.gamma (if r.2.2 then 1.0 else -1.0)
      * ((1.0 : FP E) - Sticko.eValue (Sticko.gValue q r.1.deviation) p.rating r.1.rating c.gamma
        (if r.2.2 then 1.0 else -1.0)))
    (by simp; omega) (by
      intro z hz
      obtain ⟨r, h, rfl⟩ := List.mem_map.1 hz
      exact (T r h).2.2)
  have i0 : 0 ≤ (rs.map fun r => glickoG r.1.deviation.toR ^ 2
      * glickoE (p.rating.toR + c.gamma.toR * colour r.2.2) r.1.rating.toR r.1.deviation.toR
      * (1 - glickoE (p.rating.toR + c.gamma.toR * colour r.2.2) r.1.rating.toR r.1.deviation.toR)).sum := by
    refine List.sum_nonneg ?_
    intro z hz
    obtain ⟨r, -, rfl⟩ := List.mem_map.1 hz
    have e01 := glickoE01 (p.rating.toR + c.gamma.toR * colour r.2.2) r.1.rating.toR r.1.deviation.toR
    exact mul_nonneg (mul_nonneg (_root_.sq_nonneg _) e01.1) (by linarith [e01.2])
  -- the average of the opponents
  obtain ⟨a1, -⟩ := average_near rs (fun r => r.1.rating) (by omega) hne
    (fun r h => within_mono (hr r h).1 (by norm_num))
  have a2 : |(rs.map fun r => r.1.rating.toR).sum / rs.length| ≤ 2 ^ 13 := by
    have := sum_limits rs (fun r => r.1.rating.toR) (lo := -2 ^ 13) (hi := 2 ^ 13)
      (fun r h => abs_le.1 (hr r h).1.2)
    rw [abs_le, le_div_iff₀ (by linarith), div_le_iff₀ (by linarith)]
    constructor <;> linarith [this.1, this.2]
  obtain ⟨l1, l2⟩ := pull_near hc.lambda a1 a2 hp.1
  -- the growth of the variance
  obtain ⟨fh, h0, h1⟩ := hc.h
  have hH0 : 0 ≤ c.h.toR * rs.length := by positivity
  have hH1 : c.h.toR * rs.length ≤ 100 * 256 := mul_le_mul h1 hn2 (by linarith) (by norm_num)
  have t1 := small_mul (near_self fh) (ofNat_near (E := E) (n := rs.length) (by omega))
    (M := c.h.toR * rs.length + 1 / 2 ^ 40) (by
      rw [abs_of_nonneg hH0]; norm_num) (by
      have : (1 : ℝ) / 2 ^ 900 ≤ 1 / 2 ^ 40 :=
        one_div_le_one_div_of_le (by positivity) (pow_le_pow_right₀ (by norm_num) (by norm_num))
      linarith) (by
      have : (2 : ℝ) ^ 20 ≤ 2 ^ 900 := pow_le_pow_right₀ (by norm_num) (by norm_num)
      refine le_trans ?_ this
      norm_num at hH1 ⊢; linarith)
  obtain ⟨c1, c2⟩ := sticko_core L P p1 p2 p3 hn1 hn2 i1 hnn.toR.1 i0 (le_of_abs_le i2)
    (m1.mono (mul_le_mul_of_nonneg_left (by norm_num) (by positivity))) m2 hp.1 l1 l2 (t1.mono (by simp)) hH0 (by linarith)
  have e1 : glickoQ ^ 2 * (rs.map fun r => glickoG r.1.deviation.toR ^ 2
      * glickoE (p.rating.toR + c.gamma.toR * colour r.2.2) r.1.rating.toR r.1.deviation.toR
      * (1 - glickoE (p.rating.toR + c.gamma.toR * colour r.2.2) r.1.rating.toR r.1.deviation.toR)).sum
      = (((rs.map fun r => (stickoExact r.1, r.2)).map Sticko.game).map
        (stickoInfo (Sticko.params (stickoExactConfig c)) p.rating.toR)).sum := by
    rw [List_sum_mul_left]
    simp only [List.map_map, stickoInfo, stickoE, mul_assoc, Function.comp_def, Sticko.game, stickoExact,
      Sticko.params, stickoExactConfig]
  rw [e1] at c1 c2
  change Near _ (Sticko.stickoRatingPeriod p rs c).rating _ ∧ Near _ (Sticko.stickoRatingPeriod p rs c).deviation _
  simp only [Sticko.stickoRatingPeriod, he, Bool.false_eq_true, if_false]
  refine ⟨?_, near_cap ?_⟩
  · simpa only [stickoUpdate, List.map_map, Function.comp_def, Sticko.game, stickoExact, stickoE,
      Sticko.params, stickoExactConfig, List.length_map] using c1
  · simpa only [stickoUpdate, List.map_map, Function.comp_def, Sticko.game, stickoExact, stickoE,
      Sticko.params, stickoExactConfig, List.length_map] using c2

/-- The expected score of a player with an advantage. -/
theorem sticko_expected_near (L : E.Lib) (A : E.Accurate) (P : E.Precise)
    {a b : Sticko.StickoRating (FP E)} {g : FP E} {γ : ℝ} (ha : StickoUsual a) (hb : StickoUsual b)
    (hg : Near 0 g γ) (hγ : |γ| ≤ 2 ^ 13) :
    Near (1 / 2 ^ 35) (Flt.recip ((1.0 : FP E) + Flt.powf (10.0 : FP E)
      (-(Sticko.gValue (Flt.ln (10.0 : FP E) / (400.0 : FP E)) (Flt.hypot a.deviation b.deviation))
        * (a.rating + g - b.rating) / (400.0 : FP E))))
      (glickoE (a.rating.toR + γ) b.rating.toR √(a.deviation.toR ^ 2 + b.deviation.toR ^ 2)) := by
  have a2 := ha.1.2
  have b2 := hb.1.2
  have hs : |a.rating.toR + γ| ≤ 2 ^ 14 := (abs_add_le _ _).trans (by norm_num at a2 hγ ⊢; linarith)
  have n1 := (near_add ha.1.near hg (M := 2 ^ 14) (by linarith) (by norm_num)
    (le_huge 16 (by norm_num) (by norm_num))).mono (δ := 1 / 2 ^ 36) (by norm_num)
  have hd : |a.rating.toR + γ - b.rating.toR| ≤ 2 ^ 14 + 2 ^ 13 := (abs_sub _ _).trans (add_le_add hs b2)
  have n2 := (near_sub n1 hb.1.near (M := 2 ^ 15) (by norm_num at hd ⊢; linarith) (by norm_num)
    (le_huge 16 (by norm_num) (by norm_num))).mono (δ := 1 / 2 ^ 35) (by norm_num)
  have hgv := g_ap L P (by norm_num) (combined_ap P ha.2 hb.2)
  exact e_near A hgv.1 (by norm_num) (glickoG_pos _) (glickoG_le_one _) n2
    (hd.trans (by norm_num))

/-- Sticko, expected scores: within `2 ^ -34` of the exact formula. -/
theorem C132_sticko_expected (L : E.Lib) (A : E.Accurate) (P : E.Precise)
    (a b : Sticko.StickoRating (FP E)) (c : Sticko.StickoConfig (FP E)) (ha : StickoUsual a)
    (hb : StickoUsual b) (hc : StickoConfigUsual c) :
    Near (1 / 2 ^ 34) (Sticko.expectedScore a b c).1
      (Sticko.expectedScore (stickoExact a) (stickoExact b) (stickoExactConfig c)).1 ∧
    Near (1 / 2 ^ 34) (Sticko.expectedScore a b c).2
      (Sticko.expectedScore (stickoExact a) (stickoExact b) (stickoExactConfig c)).2 := by
  have he := sticko_expected_near L A P ha hb hc.gamma.near hc.gamma.2
  rw [Sticko.expectedScore_real]
  exact ⟨he.mono (by norm_num), (compl_near he (glickoE01 _ _ _)).mono (by norm_num)⟩

/-- Sticko, expected scores of a rating period, opponent by opponent. -/
theorem C132_sticko_expected_period (L : E.Lib) (A : E.Accurate) (P : E.Precise)
    (p : Sticko.StickoRating (FP E)) (os : List (Sticko.StickoRating (FP E) × Bool))
    (c : Sticko.StickoConfig (FP E)) (hp : StickoUsual p) (ho : ∀ o ∈ os, StickoUsual o.1)
    (hc : StickoConfigUsual c) :
    List.Forall₂ (Near (1 / 2 ^ 34)) (Sticko.expectedScoreRatingPeriod p os c)
      (Sticko.expectedScoreRatingPeriod (stickoExact p) (os.map fun o => (stickoExact o.1, o.2))
        (stickoExactConfig c)) := by
  induction os with
  | nil => exact List.Forall₂.nil
  | cons o os ih =>
    refine List.Forall₂.cons ?_ (ih fun x hx => ho x (List.mem_cons_of_mem _ hx))
    have hb := ho o List.mem_cons_self
    obtain ⟨b, f⟩ := o
    have key : ∀ (g : FP E) (γ : ℝ), Near 0 g γ → |γ| ≤ 2 ^ 13 →
        Near (1 / 2 ^ 34) (Flt.recip ((1.0 : FP E) + Flt.powf (10.0 : FP E)
          (-(Sticko.gValue (Flt.ln (10.0 : FP E) / (400.0 : FP E)) (Flt.hypot p.deviation b.deviation))
            * (p.rating + g - b.rating) / (400.0 : FP E))))
          (Flt.recip ((1.0 : ℝ) + Flt.powf (10.0 : ℝ)
          (-(Sticko.gValue (Flt.ln (10.0 : ℝ) / (400.0 : ℝ)) (Flt.hypot p.deviation.toR b.deviation.toR))
            * (p.rating.toR + γ - b.rating.toR) / (400.0 : ℝ)))) := by
      intro g γ h1 h2
      have e := congrArg Prod.fst (Sticko.expectedScore_real (stickoExact p) (stickoExact b)
        { stickoExactConfig c with gamma := γ })
      simp only [Sticko.expectedScore, stickoExact] at e
      rw [e]
      exact (sticko_expected_near L A P hp hb h1 h2).mono (by norm_num)
    cases f with
    | true => exact key _ _ hc.gamma.near hc.gamma.2
    | false =>
      exact key (-c.gamma) (-c.gamma.toR) hc.gamma.near.neg (by rw [abs_neg]; exact hc.gamma.2)

/-- Sticko, a period without games: the new deviation is within `2 ^ -41` of the exact formula, and the
rating is unchanged. -/
theorem C132_sticko_decay (P : E.Precise) (p : Sticko.StickoRating (FP E))
    (c : Sticko.StickoConfig (FP E)) (hp : StickoUsual p) (hc : Within (2 ^ 20) c.c) :
    (Sticko.decayDeviation p c).rating = p.rating ∧
    (Sticko.stickoRatingPeriod p [] c).rating = p.rating ∧
    Near (1 / 2 ^ 41) (Sticko.decayDeviation p c).deviation
      (Sticko.decayDeviation (stickoExact p) (stickoExactConfig c)).deviation ∧
    Near (1 / 2 ^ 41) (Sticko.stickoRatingPeriod p [] c).deviation
      (Sticko.stickoRatingPeriod (stickoExact p) [] (stickoExactConfig c)).deviation := by
  have key : Near (1 / 2 ^ 41) (Sticko.decayDeviation p c).deviation
      (Sticko.decayDeviation (stickoExact p) (stickoExactConfig c)).deviation := by
    obtain ⟨p1, p2, p3⟩ := onset_rel P hp.2.1 hp.2.2.1 hp.2.2.2 hc
    rw [Sticko.decay_real]
    refine (p1.near (by linarith [show (0 : ℝ) < 1 / 2 ^ 10 by positivity])).mono ?_
    norm_num; linarith
  exact ⟨rfl, rfl, key, key⟩

/-- Sticko, the ends of the confidence interval: within `2 ^ -35` of the exact ones. -/
theorem C132_sticko_interval (p : Sticko.StickoRating (FP E)) (hp : StickoUsual p) :
    Near (1 / 2 ^ 35) (Sticko.confidenceInterval p).1 (Sticko.confidenceInterval (stickoExact p)).1 ∧
    Near (1 / 2 ^ 35) (Sticko.confidenceInterval p).2 (Sticko.confidenceInterval (stickoExact p)).2 :=
  C123_glicko_interval ⟨p.rating, p.deviation⟩ ⟨within_mono hp.1 (by norm_num), hp.2⟩

/-! ### Double precision -/

theorem usual_sticko : StickoUsual (E := ieee) ⟨1500.0, 200.0⟩ ∧ StickoUsual (E := ieee) ⟨1400.0, 30.0⟩ := by
  have h1 := lit_in (E := ieee) (m := 15000) (s := true) (e := 1) (v := 1500) (by norm_num)
    (SRep.ofNat 1500 (by norm_num))
  have h3 := lit_in (E := ieee) (m := 14000) (s := true) (e := 1) (v := 1400) (by norm_num)
    (SRep.ofNat 1400 (by norm_num))
  refine ⟨⟨⟨h1.finite, ?_⟩, usual_glicko.1.2⟩, ⟨⟨h3.finite, ?_⟩, usual_glicko.2.2⟩⟩
  · rw [abs_le]; constructor
    · exact le_trans (by norm_num) h1.toR.1
    · exact h1.toR.2.trans (by norm_num)
  · rw [abs_le]; constructor
    · exact le_trans (by norm_num) h3.toR.1
    · exact h3.toR.2.trans (by norm_num)

/-- The parameters of `StickoConfig::new` with a bonus of a half and an advantage of 30 points. -/
theorem usual_sticko_config : StickoConfigUsual (E := ieee) ⟨10.0, 0.5, 2.0, 30.0, 10.0⟩ := by
  have h10 := lit_in (E := ieee) (m := 100) (s := true) (e := 1) (v := 10) (by norm_num)
    (SRep.ofNat 10 (by norm_num))
  have h30 := lit_in (E := ieee) (m := 300) (s := true) (e := 1) (v := 30) (by norm_num)
    (SRep.ofNat 30 (by norm_num))
  have h2 := lit_in (E := ieee) (m := 20) (s := true) (e := 1) (v := 2) (by norm_num)
    (SRep.ofNat 2 (by norm_num))
  have hb := lit_in (E := ieee) (m := 5) (s := true) (e := 1) (v := 1 / 2) (by norm_num) SRep.half
  constructor
  · exact ⟨h10.finite, le_trans (by norm_num) h10.toR.1, h10.toR.2.trans (by norm_num)⟩
  · exact ⟨hb.finite, abs_le.2 ⟨le_trans (by norm_num) hb.toR.1, hb.toR.2.trans (by norm_num)⟩⟩
  · exact ⟨h2.finite, abs_le.2 ⟨le_trans (by norm_num) h2.toR.1, h2.toR.2.trans (by norm_num)⟩⟩
  · exact ⟨h30.finite, abs_le.2 ⟨le_trans (by norm_num) h30.toR.1, h30.toR.2.trans (by norm_num)⟩⟩
  · exact ⟨h10.finite, abs_le.2 ⟨le_trans (by norm_num) h10.toR.1, h10.toR.2.trans (by norm_num)⟩⟩

/-- A win of the first player in double precision. -/
example : Near (1 / 2 ^ 20)
    (Sticko.sticko (F := FP ieee) ⟨1500.0, 200.0⟩ ⟨1400.0, 30.0⟩ .WIN ⟨10.0, 0.5, 2.0, 30.0, 10.0⟩).1.rating
    (Sticko.sticko (stickoExact (E := ieee) ⟨1500.0, 200.0⟩) (stickoExact (E := ieee) ⟨1400.0, 30.0⟩) .WIN
      (stickoExactConfig (E := ieee) ⟨10.0, 0.5, 2.0, 30.0, 10.0⟩)).1.rating :=
  (C132_sticko_game ieee_lib ieee_accurate ieee_precise _ _ .WIN _ usual_sticko.1 usual_sticko.2
    usual_sticko_config).1.1

/-- A period of two games. -/
example : Near (2 ^ 2 / 2 ^ 20)
    (Sticko.stickoRatingPeriod (F := FP ieee) ⟨1500.0, 200.0⟩
      [(⟨1400.0, 30.0⟩, .WIN, true), (⟨1400.0, 30.0⟩, .LOSS, false)] ⟨10.0, 0.5, 2.0, 30.0, 10.0⟩).rating
    (Sticko.stickoRatingPeriod (stickoExact (E := ieee) ⟨1500.0, 200.0⟩)
      [(stickoExact (E := ieee) ⟨1400.0, 30.0⟩, .WIN, true), (stickoExact (E := ieee) ⟨1400.0, 30.0⟩, .LOSS, false)]
      (stickoExactConfig (E := ieee) ⟨10.0, 0.5, 2.0, 30.0, 10.0⟩)).rating := by
  have := (C132_sticko_period ieee_lib ieee_accurate ieee_precise _
    [(⟨1400.0, 30.0⟩, .WIN, true), (⟨1400.0, 30.0⟩, .LOSS, false)] ⟨10.0, 0.5, 2.0, 30.0, 10.0⟩ usual_sticko.1
    (by intro r hr; simp at hr; rcases hr with rfl | rfl <;> exact usual_sticko.2)
    usual_sticko_config (by simp) (by simp)).1
  simpa using this

example : Near (1 / 2 ^ 34)
    (Sticko.expectedScore (F := FP ieee) ⟨1500.0, 200.0⟩ ⟨1400.0, 30.0⟩ ⟨10.0, 0.5, 2.0, 30.0, 10.0⟩).1
    (Sticko.expectedScore (stickoExact (E := ieee) ⟨1500.0, 200.0⟩) (stickoExact (E := ieee) ⟨1400.0, 30.0⟩)
      (stickoExactConfig (E := ieee) ⟨10.0, 0.5, 2.0, 30.0, 10.0⟩)).1 :=
  (C132_sticko_expected ieee_lib ieee_accurate ieee_precise _ _ _ usual_sticko.1 usual_sticko.2
    usual_sticko_config).1

example : List.Forall₂ (Near (1 / 2 ^ 34))
    (Sticko.expectedScoreRatingPeriod (F := FP ieee) ⟨1500.0, 200.0⟩ [(⟨1400.0, 30.0⟩, false)]
      ⟨10.0, 0.5, 2.0, 30.0, 10.0⟩)
    (Sticko.expectedScoreRatingPeriod (stickoExact (E := ieee) ⟨1500.0, 200.0⟩)
      [(stickoExact (E := ieee) ⟨1400.0, 30.0⟩, false)]
      (stickoExactConfig (E := ieee) ⟨10.0, 0.5, 2.0, 30.0, 10.0⟩)) :=
  C132_sticko_expected_period ieee_lib ieee_accurate ieee_precise _ [(⟨1400.0, 30.0⟩, false)] _ usual_sticko.1
    (by intro r hr; simp at hr; subst hr; exact usual_sticko.2) usual_sticko_config

example : Near (1 / 2 ^ 41)
    (Sticko.decayDeviation (F := FP ieee) ⟨1500.0, 200.0⟩ ⟨10.0, 0.5, 2.0, 30.0, 10.0⟩).deviation
    (Sticko.decayDeviation (stickoExact (E := ieee) ⟨1500.0, 200.0⟩)
      (stickoExactConfig (E := ieee) ⟨10.0, 0.5, 2.0, 30.0, 10.0⟩)).deviation :=
  (C132_sticko_decay ieee_precise _ _ usual_sticko.1 usual_sticko_config.c).2.2.1

example : Near (1 / 2 ^ 35) (Sticko.confidenceInterval (F := FP ieee) ⟨1500.0, 200.0⟩).1
    (Sticko.confidenceInterval (stickoExact (E := ieee) ⟨1500.0, 200.0⟩)).1 :=
  (C132_sticko_interval _ usual_sticko.1).1

end Skillratings
