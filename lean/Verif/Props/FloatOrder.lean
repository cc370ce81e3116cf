import Verif.Props.FloatStrict
import Verif.Props.FloatAccuracyGlicko
import Verif.Props.FloatAccuracyEgf
import Verif.Props.FloatSeats
import Verif.Proofs.FPBoost
import Verif.Proofs.FPVolStart
/-
C169: in floating point a better result of a game gives a strictly better stored rating, and the opponent a
strictly worse one. Also the Glicko part of C168.
-/
namespace Skillratings
open FP FPVal Spec
variable {E : FloatEnv}

/-- Two different results are at least half a point apart. -/
theorem points_step {o o' : Outcomes} (h : points o < points o') : points o + 1 / 2 ≤ points o' := by
  revert h
  cases o <;> cases o' <;> norm_num [points]

/-- Two approximations of numbers that are further apart than their errors. -/
theorem near_lt {x y : FP E} {v w δ : ℝ} (hx : Near δ x v) (hy : Near δ y w) (h : v + 2 * δ < w) :
    (x <? y) = true := by
  rw [lt_iff_toR hx.1 hy.1]
  have h1 := abs_le.1 hx.2
  have h2 := abs_le.1 hy.2
  linarith

theorem C169_elo (A : E.Accurate) (a b : Elo.EloRating (FP E)) (o o' : Outcomes) (c : Elo.EloConfig (FP E))
    (ha : Within (2 ^ 14) a.rating) (hb : Within (2 ^ 14) b.rating) (hk : Within 512 c.k)
    (hk1 : 1 ≤ c.k.toR) (h : points o < points o') :
    ((Elo.elo a b o c).1.rating <? (Elo.elo a b o' c).1.rating) = true ∧
      ((Elo.elo a b o' c).2.rating <? (Elo.elo a b o c).2.rating) = true := by
  have hs := points_step h
  obtain ⟨h1, h2⟩ := C112_elo_game A a b o c ha hb hk
  obtain ⟨h1', h2'⟩ := C112_elo_game A a b o' c ha hb hk
  rw [Elo.elo_real] at h1 h2 h1' h2'
  exact ⟨near_lt h1 h1' (by norm_num; nlinarith), near_lt h2' h2 (by norm_num; nlinarith)⟩

theorem C169_fifa (A : E.Accurate) (a b : Fifa.FifaRating (FP E)) (o o' : Outcomes)
    (c : Fifa.FifaConfig (FP E)) (ha : Within (2 ^ 14) a.rating) (hb : Within (2 ^ 14) b.rating)
    (hk : Within 512 c.importance) (hk1 : 1 ≤ c.importance.toR) (hko : c.knockout = false)
    (hp : c.penalties = false) (h : points o < points o') :
    ((Fifa.fifa a b o c).1.rating <? (Fifa.fifa a b o' c).1.rating) = true ∧
      ((Fifa.fifa a b o' c).2.rating <? (Fifa.fifa a b o c).2.rating) = true := by
  have hs := points_step h
  obtain ⟨h1, h2⟩ := C112_fifa_game A a b o c ha hb hk
  obtain ⟨h1', h2'⟩ := C112_fifa_game A a b o' c ha hb hk
  have hpe : (fifaExact c).penalties = false := hp
  have hke : (fifaExact c).knockout = false := hko
  have hie : (fifaExact c).importance = c.importance.toR := rfl
  simp only [Fifa.fifa_real, Fifa.credit, Fifa.credit2, Fifa.guarded, hpe, hie, hke, Bool.false_eq_true,
    if_false] at h1 h2 h1' h2'
  exact ⟨near_lt h1 h1' (by norm_num; nlinarith), near_lt h2' h2 (by norm_num; nlinarith)⟩

/-- In Ingo the lower number is the better rating. -/
theorem C169_ingo (a b : Ingo.IngoRating (FP E)) (o o' : Outcomes) (ha : Within (2 ^ 14) a.rating)
    (hb : Within (2 ^ 14) b.rating) (h : points o < points o') :
    ((Ingo.ingo a b o').1.rating <? (Ingo.ingo a b o).1.rating) = true ∧
      ((Ingo.ingo a b o).2.rating <? (Ingo.ingo a b o').2.rating) = true := by
  have hs := points_step h
  obtain ⟨h1, h2⟩ := C112_ingo_game a b o ha hb
  obtain ⟨h1', h2'⟩ := C112_ingo_game a b o' ha hb
  obtain ⟨e1, e2⟩ := Ingo.C24_ingo_formula ⟨a.rating.toR, a.age⟩ ⟨b.rating.toR, b.age⟩ o
  obtain ⟨e1', e2'⟩ := Ingo.C24_ingo_formula ⟨a.rating.toR, a.age⟩ ⟨b.rating.toR, b.age⟩ o'
  rw [e1] at h1
  rw [e2, points_mirror] at h2
  rw [e1'] at h1'
  rw [e2', points_mirror] at h2'
  have key : ∀ (n : ℕ) (x y p q : ℝ), p + 1 / 2 ≤ q →
      (Ingo.perf y q + Ingo.development n * x) / (1 + Ingo.development n) + 2 * (1 / 2 ^ 33)
        < (Ingo.perf y p + Ingo.development n * x) / (1 + Ingo.development n) := by
    intro n x y p q hpq
    obtain ⟨d1, d2⟩ := development_bounds n
    have hd : 0 < 1 + Ingo.development n := by linarith
    rw [lt_div_iff₀ hd, add_mul, div_mul_cancel₀ _ hd.ne']
    unfold Ingo.perf
    norm_num
    nlinarith
  exact ⟨near_lt h1' h1 (key _ _ _ _ _ hs), near_lt h2 h2' (key _ _ _ _ _ (by linarith))⟩

theorem C169_egf (A : E.Accurate) (F : E.Faithful) (W : E.LogWide) (a b : Egf.EGFRating (FP E))
    (o o' : Outcomes) (c : Egf.EGFConfig (FP E)) (ha : EgfUsual a) (hb : EgfUsual b) (hc : HandicapUsual a b c)
    (ha6 : -600 ≤ a.rating.toR) (hb6 : -600 ≤ b.rating.toR) (h : points o < points o') :
    ((Egf.egf a b o c).1.rating <? (Egf.egf a b o' c).1.rating) = true ∧
      ((Egf.egf a b o' c).2.rating <? (Egf.egf a b o c).2.rating) = true := by
  have hs := points_step h
  obtain ⟨h1, h2⟩ := C131_egf_game A F W a b o c ha hb hc
  obtain ⟨h1', h2'⟩ := C131_egf_game A F W a b o' c ha hb hc
  rw [Egf.egf_real] at h1 h2 h1' h2'
  obtain ⟨p1, p2⟩ := egf_expected01 (egfExact a) (egfExact b) (egfConfigExact c)
  have key : ∀ (r p q e : ℝ), -600 ≤ r → r ≤ 3200 → 0 ≤ p → p + 1 / 2 ≤ q → e ≤ 1 →
      egfRating r p e + 2 * (1 / 2 ^ 22) < egfRating r q e := by
    intro r p q e hr hr' hp hpq he
    have hc1 := egfCon_bounds (r := r) (by linarith) (by linarith)
    have hb := Egf.egfBonus_pos r
    have hcl : 1 / 4 ≤ egfCon r := by
      unfold egfCon
      calc (1 / 4 : ℝ) = (1 / 2) ^ (2 : ℝ) := by norm_num
        _ ≤ (1 / 2) ^ (8 / 5 : ℝ) := Real.rpow_le_rpow_of_exponent_ge (by norm_num) (by norm_num) (by norm_num)
        _ ≤ ((3300 - r) / 200) ^ (8 / 5 : ℝ) := Real.rpow_le_rpow (by norm_num) (by linarith) (by norm_num)
    unfold egfRating
    norm_num at hc1
    have hlow : -900 ≤ r + egfCon r * (p - e) + egfBonus r := by nlinarith
    rw [max_eq_left hlow]
    refine lt_of_lt_of_le ?_ (le_max_left _ _)
    norm_num
    nlinarith
  exact ⟨near_lt h1 h1' (key _ _ _ _ ha6 ha.2.2 (points_nonneg o) hs p1.2),
    near_lt h2' h2 (key _ _ _ _ hb6 hb.2.2 (by linarith [points_le_one o']) (by linarith) p2.2)⟩

/-- The gain of half a point in exact Glicko, for deviations from 1 to 350. -/
theorem rated_step {r rd rj rdj p q c : ℝ} (h1 : 1 ≤ rd) (hj0 : 0 ≤ rdj) (hj : rdj ≤ 350)
    (h : p + 1 / 2 ≤ q) : (Glicko.rated r rd rj rdj p c).rating + 2 * (1 / 2 ^ 22)
      < (Glicko.rated r rd rj rdj q c).rating := by
  have hg := glickoG_sq_ge hj0 hj
  have hg0 := glickoG_pos rdj
  have hg1 := glickoG_le_one rdj
  have hgl : 44 / 100 ≤ glickoG rdj := by nlinarith
  have hq : 57 / 10000 ≤ glickoQ := by unfold glickoQ; linarith [log_ten_gt]
  have hq1 := glickoQ_lt
  have ho : 1 ≤ glickoOnset rd c ^ 2 := by
    have : 1 ≤ glickoOnset rd c := le_min (Real.one_le_sqrt.2 (by nlinarith [sq_nonneg c])) (by norm_num)
    nlinarith
  have hi0 := glickoInfo_pos r rj rdj
  have hi1 : glickoInfo r rj rdj ≤ 1 := by
    have e0 := glickoE_pos r rj rdj
    have e1 := glickoE_lt_one r rj rdj
    unfold glickoInfo
    have h1 : glickoQ ^ 2 * glickoG rdj ^ 2 ≤ 1 := mul_le_one₀ (by nlinarith) (by positivity) (by nlinarith)
    rw [mul_assoc]
    exact mul_le_one₀ h1 (by nlinarith) (by nlinarith)
  have hpost : 1 / 2 ≤ posterior (glickoOnset rd c ^ 2) (glickoInfo r rj rdj) := by
    unfold posterior
    have h2 : 1 / glickoOnset rd c ^ 2 ≤ 1 := by rw [div_le_one (by linarith)]; exact ho
    have h3 : 0 < 1 / glickoOnset rd c ^ 2 := by positivity
    exact one_div_le_one_div_of_le (by linarith) (by linarith)
  simp only [Glicko.rated]
  generalize posterior (glickoOnset rd c ^ 2) (glickoInfo r rj rdj) = v at *
  have hqv : 57 / 20000 ≤ glickoQ * v := by nlinarith
  have hd : 22 / 100 ≤ glickoG rdj * (q - p) := by nlinarith
  have : 57 / 20000 * (22 / 100) ≤ glickoQ * v * (glickoG rdj * (q - p)) :=
    mul_le_mul hqv hd (by norm_num) (by linarith)
  norm_num at this ⊢
  linarith

theorem C169_glicko (L : E.Lib) (A : E.Accurate) (P : E.Precise) (a b : Glicko.GlickoRating (FP E))
    (o o' : Outcomes) (c : Glicko.GlickoConfig (FP E)) (ha : GlickoUsual a) (hb : GlickoUsual b)
    (hc : Within (2 ^ 20) c.c) (ha1 : 1 ≤ a.deviation.toR) (hb1 : 1 ≤ b.deviation.toR)
    (ha2 : a.deviation.toR ≤ 350) (hb2 : b.deviation.toR ≤ 350) (h : points o < points o') :
    ((Glicko.glicko a b o c).1.rating <? (Glicko.glicko a b o' c).1.rating) = true ∧
      ((Glicko.glicko a b o' c).2.rating <? (Glicko.glicko a b o c).2.rating) = true := by
  have hs := points_step h
  obtain ⟨⟨h1, -⟩, ⟨h2, -⟩⟩ := C123_glicko_game L A P a b o c ha hb hc
  obtain ⟨⟨h1', -⟩, ⟨h2', -⟩⟩ := C123_glicko_game L A P a b o' c ha hb hc
  rw [Glicko.glicko_real] at h1 h2 h1' h2'
  exact ⟨near_lt h1 h1' (rated_step ha1 (zero_le_one.trans hb1) hb2 hs),
    near_lt h2' h2 (rated_step hb1 (zero_le_one.trans ha1) ha2 (by linarith))⟩

/-- The gain from a win in exact Glicko, for deviations from 30 to 350 and leads of at most 2400 points. -/
theorem rated_win {r rd rj rdj c : ℝ} (h1 : 30 ≤ rd) (hj0 : 0 ≤ rdj) (hj : rdj ≤ 350) (h : r - rj ≤ 2400) :
    r + 1 / 2 ^ 20 < (Glicko.rated r rd rj rdj 1 c).rating := by
  have hg := glickoG_sq_ge hj0 hj
  have hg0 := glickoG_pos rdj
  have hg1 := glickoG_le_one rdj
  have hgl : 44 / 100 ≤ glickoG rdj := by nlinarith
  have hq : 57 / 10000 ≤ glickoQ := by unfold glickoQ; linarith [log_ten_gt]
  have hq1 := glickoQ_lt
  have e0 := glickoE_pos r rj rdj
  have e1 := glickoE_lt_one r rj rdj
  have ho : 900 ≤ glickoOnset rd c ^ 2 := by
    have : 30 ≤ glickoOnset rd c :=
      le_min (Real.le_sqrt_of_sq_le (by nlinarith [sq_nonneg c])) (by norm_num)
    nlinarith
  have hi0 := glickoInfo_pos r rj rdj
  have hi1 : glickoInfo r rj rdj ≤ 1 / 10000 := by
    unfold glickoInfo
    have h1 : glickoQ ^ 2 * glickoG rdj ^ 2 ≤ 1 / 10000 * 1 :=
      mul_le_mul (by nlinarith) (by nlinarith) (by positivity) (by norm_num)
    rw [mul_assoc, ← mul_one (1 / 10000 : ℝ)]
    exact mul_le_mul (by linarith) (by nlinarith) (by nlinarith) (by norm_num)
  have hpost : 800 ≤ posterior (glickoOnset rd c ^ 2) (glickoInfo r rj rdj) := by
    unfold posterior
    have h2 : 1 / glickoOnset rd c ^ 2 ≤ 1 / 900 := one_div_le_one_div_of_le (by norm_num) ho
    have h3 : 0 < 1 / glickoOnset rd c ^ 2 := by positivity
    rw [le_div_iff₀ (by linarith)]
    linarith
  have he : 1 / (1 + 10 ^ 6) ≤ 1 - glickoE r rj rdj := by
    have hexp : -(6 : ℝ) ≤ -(glickoG rdj * (r - rj) / 400) := by
      rcases le_total (r - rj) 0 with hn | hn <;> nlinarith
    have hp : ((10 : ℝ) ^ 6)⁻¹ ≤ 10 ^ (-(glickoG rdj * (r - rj) / 400)) := by
      refine le_trans (le_of_eq ?_) (Real.rpow_le_rpow_of_exponent_le (by norm_num) hexp)
      rw [Real.rpow_neg (by norm_num)]; norm_num
    have : glickoE r rj rdj ≤ 1 / (1 + (10 ^ 6)⁻¹) :=
      one_div_le_one_div_of_le (by positivity) (by linarith)
    norm_num at this ⊢
    linarith
  simp only [Glicko.rated]
  generalize posterior (glickoOnset rd c ^ 2) (glickoInfo r rj rdj) = v at *
  have hqv : 4 ≤ glickoQ * v := by nlinarith
  have hd : 44 / 100 * (1 / (1 + 10 ^ 6)) ≤ glickoG rdj * (1 - glickoE r rj rdj) :=
    mul_le_mul hgl he (by norm_num) hg0.le
  have : 4 * (44 / 100 * (1 / (1 + 10 ^ 6))) ≤ glickoQ * v * (glickoG rdj * (1 - glickoE r rj rdj)) :=
    mul_le_mul hqv hd (by norm_num) (by linarith)
  norm_num at this ⊢
  linarith

/-- A loss is a win on the scale turned upside down. -/
theorem rated_neg (r rd rj rdj c : ℝ) :
    (Glicko.rated r rd rj rdj 0 c).rating = -(Glicko.rated (-r) rd (-rj) rdj 1 c).rating := by
  have he : glickoE (-r) (-rj) rdj = 1 - glickoE r rj rdj := by
    rw [glickoE_eq, glickoE_eq, ← Real.sigmoid_neg]
    congr 1; ring
  have hi : glickoInfo (-r) (-rj) rdj = glickoInfo r rj rdj := by
    unfold glickoInfo; rw [he]; ring
  simp only [Glicko.rated, hi, he]
  ring

/-- Glicko: after a win against an opponent who is at most 2400 points weaker the winner's rating is higher and
the loser's lower than before. -/
theorem C168_glicko_win (L : E.Lib) (A : E.Accurate) (P : E.Precise) (a b : Glicko.GlickoRating (FP E))
    (c : Glicko.GlickoConfig (FP E)) (ha : GlickoUsual a) (hb : GlickoUsual b) (hc : Within (2 ^ 20) c.c)
    (ha1 : 30 ≤ a.deviation.toR) (hb1 : 30 ≤ b.deviation.toR) (ha2 : a.deviation.toR ≤ 350)
    (hb2 : b.deviation.toR ≤ 350) (hd : a.rating.toR - b.rating.toR ≤ 2400) :
    (a.rating <? (Glicko.glicko a b .WIN c).1.rating) = true ∧
      ((Glicko.glicko a b .WIN c).2.rating <? b.rating) = true := by
  obtain ⟨⟨h1, -⟩, ⟨h2, -⟩⟩ := C123_glicko_game L A P a b .WIN c ha hb hc
  rw [Glicko.glicko_real] at h1 h2
  simp only [points, sub_self] at h1 h2
  rw [rated_neg] at h2
  have w1 := rated_win (c := c.c.toR) ha1 (by linarith : 0 ≤ b.deviation.toR) hb2 hd
  have w2 := rated_win (c := c.c.toR) (r := -b.rating.toR) (rj := -a.rating.toR) hb1
    (by linarith : 0 ≤ a.deviation.toR) ha2 (by linarith)
  refine ⟨near_lt ((near_self ha.1.1).mono (by norm_num)) h1 ?_,
    near_lt h2 ((near_self hb.1.1).mono (by norm_num)) ?_⟩
  · refine lt_of_le_of_lt ?_ w1
    norm_num
  · have : -(Glicko.rated (-b.rating.toR) b.deviation.toR (-a.rating.toR) a.deviation.toR 1 c.c.toR).rating
        + 1 / 2 ^ 20 < b.rating.toR := by linarith
    refine lt_of_le_of_lt ?_ this
    norm_num [glickoExact]

/-- The same with the winner in the second place. -/
theorem C168_glicko_loss (L : E.Lib) (A : E.Accurate) (P : E.Precise) (a b : Glicko.GlickoRating (FP E))
    (c : Glicko.GlickoConfig (FP E)) (ha : GlickoUsual a) (hb : GlickoUsual b) (hc : Within (2 ^ 20) c.c)
    (ha1 : 30 ≤ a.deviation.toR) (hb1 : 30 ≤ b.deviation.toR) (ha2 : a.deviation.toR ≤ 350)
    (hb2 : b.deviation.toR ≤ 350) (hd : b.rating.toR - a.rating.toR ≤ 2400) :
    (b.rating <? (Glicko.glicko a b .LOSS c).2.rating) = true ∧
      ((Glicko.glicko a b .LOSS c).1.rating <? a.rating) = true := by
  have h := C168_glicko_win L A P b a c hb ha hc hb1 ha1 hb2 ha2 hd
  have e : Glicko.glicko a b .LOSS c = (Glicko.glicko b a .WIN c).swap := C162_glicko b a .WIN c
  rw [e]
  exact h

/-! ### Examples -/

/-- A favourite with 1500 points against a player with 50 points: a draw against a loss. -/
example : ((Elo.elo (F := FP ieee) ⟨1500.0⟩ ⟨50.0⟩ .LOSS ⟨50.0⟩).1.rating <?
    (Elo.elo (F := FP ieee) ⟨1500.0⟩ ⟨50.0⟩ .DRAW ⟨50.0⟩).1.rating) = true :=
  (C169_elo ieee_accurate ⟨1500.0⟩ ⟨50.0⟩ .LOSS .DRAW ⟨50.0⟩ ⟨even_1500.1, by rw [even_1500.2]; norm_num⟩
    ⟨even_50.1, by rw [even_50.2]; norm_num⟩ ⟨even_50.1, by rw [even_50.2]; norm_num⟩
    (by rw [even_50.2]; norm_num) (by norm_num [points])).1

example : ((Fifa.fifa (F := FP ieee) ⟨1500.0⟩ ⟨50.0⟩ .WIN ⟨50.0, false, false⟩).2.rating <?
    (Fifa.fifa (F := FP ieee) ⟨1500.0⟩ ⟨50.0⟩ .DRAW ⟨50.0, false, false⟩).2.rating) = true :=
  (C169_fifa ieee_accurate ⟨1500.0⟩ ⟨50.0⟩ .DRAW .WIN ⟨50.0, false, false⟩
    ⟨even_1500.1, by rw [even_1500.2]; norm_num⟩ ⟨even_50.1, by rw [even_50.2]; norm_num⟩
    ⟨even_50.1, by rw [even_50.2]; norm_num⟩ (by rw [even_50.2]; norm_num) rfl rfl (by norm_num [points])).2

example : ((Ingo.ingo (F := FP ieee) ⟨350.0, 17⟩ ⟨50.0, 30⟩ .WIN).1.rating <?
    (Ingo.ingo (F := FP ieee) ⟨350.0, 17⟩ ⟨50.0, 30⟩ .DRAW).1.rating) = true :=
  (C169_ingo ⟨350.0, 17⟩ ⟨50.0, 30⟩ .DRAW .WIN ⟨even_350.1, by rw [even_350.2]; norm_num⟩
    ⟨even_50.1, by rw [even_50.2]; norm_num⟩ (by norm_num [points])).1

/-- Two newcomers to Glicko. -/
example : ((Glicko.glicko (F := FP ieee) ⟨1500.0, 350.0⟩ ⟨1500.0, 350.0⟩ .LOSS ⟨50.0⟩).1.rating <?
    (Glicko.glicko (F := FP ieee) ⟨1500.0, 350.0⟩ ⟨1500.0, 350.0⟩ .WIN ⟨50.0⟩).1.rating) = true := by
  have h : GlickoUsual (E := ieee) ⟨1500.0, 350.0⟩ :=
    ⟨⟨even_1500.1, by rw [even_1500.2]; norm_num⟩, even_350.1, by rw [even_350.2]; norm_num,
      by rw [even_350.2]; norm_num⟩
  exact (C169_glicko ieee_lib ieee_accurate ieee_precise _ _ .LOSS .WIN ⟨50.0⟩ h h
    ⟨even_50.1, by rw [even_50.2]; norm_num⟩ (by rw [even_350.2]; norm_num) (by rw [even_350.2]; norm_num)
    (by rw [even_350.2]) (by rw [even_350.2]) (by norm_num [points])).1

/-- A newcomer wins against another one. -/
example : ((1500.0 : FP ieee) <?
    (Glicko.glicko (F := FP ieee) ⟨1500.0, 350.0⟩ ⟨1500.0, 350.0⟩ .WIN ⟨50.0⟩).1.rating) = true := by
  have h : GlickoUsual (E := ieee) ⟨1500.0, 350.0⟩ :=
    ⟨⟨even_1500.1, by rw [even_1500.2]; norm_num⟩, even_350.1, by rw [even_350.2]; norm_num,
      by rw [even_350.2]; norm_num⟩
  exact (C168_glicko_win ieee_lib ieee_accurate ieee_precise _ _ ⟨50.0⟩ h h
    ⟨even_50.1, by rw [even_50.2]; norm_num⟩ (by rw [even_350.2]; norm_num) (by rw [even_350.2]; norm_num)
    (by rw [even_350.2]) (by rw [even_350.2]) (by norm_num)).1

/-- The first of two newcomers loses. -/
example : ((Glicko.glicko (F := FP ieee) ⟨1500.0, 350.0⟩ ⟨1500.0, 350.0⟩ .LOSS ⟨50.0⟩).1.rating <?
    (1500.0 : FP ieee)) = true := by
  have h : GlickoUsual (E := ieee) ⟨1500.0, 350.0⟩ :=
    ⟨⟨even_1500.1, by rw [even_1500.2]; norm_num⟩, even_350.1, by rw [even_350.2]; norm_num,
      by rw [even_350.2]; norm_num⟩
  exact (C168_glicko_loss ieee_lib ieee_accurate ieee_precise _ _ ⟨50.0⟩ h h
    ⟨even_50.1, by rw [even_50.2]; norm_num⟩ (by rw [even_350.2]; norm_num) (by rw [even_350.2]; norm_num)
    (by rw [even_350.2]) (by rw [even_350.2]) (by norm_num)).2

/-- A go game with a handicap of five stones. -/
example : ((Egf.egf (F := FP ieee) ⟨1500.0⟩ ⟨2300.0⟩ .DRAW ⟨-(5.0)⟩).1.rating <?
    (Egf.egf (F := FP ieee) ⟨1500.0⟩ ⟨2300.0⟩ .WIN ⟨-(5.0)⟩).1.rating) = true := by
  have h1 := egf_lit (E := ieee) (m := 15000) (v := 1500) (by norm_num) (by norm_num)
  have h2 := egf_lit (E := ieee) (m := 23000) (v := 2300) (by norm_num) (by norm_num)
  have h3 := (egf_lit (E := ieee) (m := 50) (v := 5) (by norm_num) (by norm_num)).neg
  push_cast at h1 h2 h3
  refine (C169_egf ieee_accurate ieee_faithful ieee_logWide ⟨1500.0⟩ ⟨2300.0⟩ .DRAW .WIN ⟨-(5.0)⟩
    ⟨h1.1, ?_, ?_⟩ ⟨h2.1, ?_, ?_⟩ ⟨⟨h3.1, ?_⟩, ?_, ?_⟩ ?_ ?_ (by norm_num [points])).1
  · rw [h1.eq]; norm_num
  · rw [h1.eq]; norm_num
  · rw [h2.eq]; norm_num
  · rw [h2.eq]; norm_num
  · rw [h3.eq]; norm_num
  · rw [h1.eq, h3.eq]; norm_num [egfFirst, egfStones]
  · rw [h2.eq, h3.eq]; norm_num [egfSecond, egfStones]
  · rw [h1.eq]; norm_num
  · rw [h2.eq]; norm_num

end Skillratings
