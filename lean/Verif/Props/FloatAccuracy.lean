import Verif.Proofs.FPError
import Verif.Proofs.Elo
import Verif.Proofs.Fifa
import Verif.Props.FloatHistories
import Verif.Props.Ingo
/-
C112: floating-point results stay close to the results of exact arithmetic.
-/

namespace Skillratings
open FP FPVal Spec
variable {E : FloatEnv}

/-! ### Elo and FIFA: one game -/

theorem le_huge {M : ℝ} (n : ℕ) (h : M ≤ 2 ^ n) (hn : n ≤ 1000) : M ≤ 2 ^ 1000 :=
  h.trans (pow_le_pow_right₀ (by norm_num) hn)

theorem lt_iff_toR {x y : FP E} (hx : x.isFinite) (hy : y.isFinite) :
    (x <? y) = true ↔ x.toR < y.toR := by
  rw [lt_iff, show x.toE = _ from isFinite.toE_eq hx, show y.toE = _ from isFinite.toE_eq hy,
    EReal.coe_lt_coe_iff]
  exact ⟨fun h => h.2.2, fun h => ⟨isFinite.not_nan hx, isFinite.not_nan hy, h⟩⟩

theorem Spec.Within.near {B : ℝ} {x : FP E} (h : Within B x) : Near 0 x x.toR := near_self h.1

/-- The exponent of an expected score: a difference of ratings over a constant between 400 and 600. -/
theorem exponent_near {x y d : FP E} {D : ℝ} (hx : Within (2 ^ 14) x) (hy : Within (2 ^ 14) y)
    (hd : Near 0 d D) (hD : 400 ≤ D) : Near (1 / 2 ^ 43) ((y - x) / d) ((y.toR - x.toR) / D) := by
  have hx2 := hx.2
  have hy2 := hy.2
  have hsub : |y.toR - x.toR| ≤ 2 ^ 15 := by
    refine (abs_sub _ _).trans ?_
    norm_num at hx2 hy2 ⊢; linarith
  have h1 := near_sub hy.near hx.near (M := 2 ^ 15 + 1) (by linarith) (by norm_num)
    (le_huge 16 (by norm_num) (by norm_num))
  have hb : (|y.toR - x.toR| + (0 + 0 + (2 ^ 15 + 1) / 2 ^ 51)) / D ≤ 128 := by
    rw [div_le_iff₀ (by linarith)]
    norm_num at hsub ⊢; linarith
  refine (near_div_const h1 hd (by linarith) hb (by norm_num)
    (le_huge 7 (by norm_num) (by norm_num))).mono ?_
  have : (0 + 0 + ((2 : ℝ) ^ 15 + 1) / 2 ^ 51) / D ≤ (0 + 0 + ((2 : ℝ) ^ 15 + 1) / 2 ^ 51) / 400 :=
    div_le_div_of_nonneg_left (by positivity) (by norm_num) hD
  norm_num at this ⊢; linarith

theorem ten_in : In (E := E) ((10 : ℝ) : EReal) ((10 : ℝ) : EReal) (10.0 : FP E) :=
  lit_in (by norm_num) (SRep.ofNat 10 (by norm_num))

/-- An expected score computed from an exponent. -/
theorem score_near (A : E.Accurate) {t : FP E} {z δ : ℝ} (ht : Near δ t z) (hδ : δ ≤ 1 / 2 ^ 10)
    (hz : |z| ≤ 200) :
    Near (12 * δ + 1 / 2 ^ 46) (Flt.recip ((1.0 : FP E) + Flt.powf (10.0 : FP E) t)) (1 / (1 + 10 ^ z)) := by
  have h10 : (10.0 : FP E).toE = ((10 : ℝ) : EReal) := le_antisymm ten_in.2.2 ten_in.2.1
  have hp := A.powf_ten (10.0 : FP E) t h10 ht.1 (by
    have := ht.abs_le
    have : δ ≤ 1 := hδ.trans (by norm_num)
    linarith)
  refine near_logistic_core ht hδ hz hp ?_
  obtain ⟨s, e⟩ := add_fin (E := E) (x := (1.0 : FP E)) one_in.finite hp.1
  have h1R : (1.0 : FP E).toR = 1 := le_antisymm one_in.toR.2 one_in.toR.1
  rw [h1R] at e
  exact ⟨s, e⟩

theorem elo_score_near (A : E.Accurate) {x y : FP E} (hx : Within (2 ^ 14) x) (hy : Within (2 ^ 14) y) :
    Near (1 / 2 ^ 39) (Flt.recip ((1.0 : FP E) + Flt.powf (10.0 : FP E) ((y - x) / (400.0 : FP E))))
      (Real.sigmoid (Real.log 10 / 400 * (x.toR - y.toR))) := by
  have h400 := near_of_in (lit_in (E := E) (m := 4000) (s := true) (e := 1) (v := 400) (by norm_num)
    (SRep.ofNat 400 (by norm_num)))
  have h := score_near A (exponent_near hx hy h400 le_rfl) (by norm_num) (by
    have hx2 := hx.2
    have hy2 := hy.2
    rw [abs_div, abs_of_pos (by norm_num : (0 : ℝ) < 400), div_le_iff₀ (by norm_num)]
    refine (abs_sub _ _).trans ?_
    norm_num at hx2 hy2 ⊢; linarith)
  rw [one_div (1 + _), inv_one_add_pow, show -(Real.log 10 * ((y.toR - x.toR) / 400))
    = Real.log 10 / 400 * (x.toR - y.toR) by ring] at h
  exact h.mono (by norm_num)

theorem fifa_score_near (A : E.Accurate) {x y : FP E} (hx : Within (2 ^ 14) x) (hy : Within (2 ^ 14) y) :
    Near (1 / 2 ^ 39) (Flt.recip ((1.0 : FP E) + Flt.powf (10.0 : FP E) (-(x - y) / (600.0 : FP E))))
      (Real.sigmoid (Real.log 10 / 600 * (x.toR - y.toR))) := by
  have h600 := near_of_in (lit_in (E := E) (m := 6000) (s := true) (e := 1) (v := 600) (by norm_num)
    (SRep.ofNat 600 (by norm_num)))
  have hx2 := hx.2
  have hy2 := hy.2
  have hsub : |x.toR - y.toR| ≤ 2 ^ 15 := by
    refine (abs_sub _ _).trans ?_
    norm_num at hx2 hy2 ⊢; linarith
  have h1 := (near_sub hx.near hy.near (M := 2 ^ 15 + 1) (by linarith) (by norm_num)
    (le_huge 16 (by norm_num) (by norm_num))).neg
  have hb : (|-(x.toR - y.toR)| + (0 + 0 + (2 ^ 15 + 1) / 2 ^ 51)) / 600 ≤ 128 := by
    rw [abs_neg, div_le_iff₀ (by norm_num)]
    norm_num at hsub ⊢; linarith
  have h2 := (near_div_const h1 h600 (by norm_num) hb (by norm_num)
    (le_huge 7 (by norm_num) (by norm_num))).mono
      (δ := 1 / 2 ^ 43) (by norm_num)
  have h := score_near A h2 (by norm_num) (by
    rw [abs_div, abs_neg, abs_of_pos (by norm_num : (0 : ℝ) < 600), div_le_iff₀ (by norm_num)]
    norm_num at hsub ⊢; linarith)
  rw [one_div (1 + _), inv_one_add_pow, show -(Real.log 10 * (-(x.toR - y.toR) / 600))
    = Real.log 10 / 600 * (x.toR - y.toR) by ring] at h
  exact h.mono (by norm_num)

/-- The complement of a score. -/
theorem one_sub_near {e : FP E} {p : ℝ} (h : Near (1 / 2 ^ 39) e p) (hp : 0 ≤ p ∧ p ≤ 1) :
    Near (1 / 2 ^ 39 + 1 / 2 ^ 49) ((1.0 : FP E) - e) (1 - p) := by
  refine (near_sub (near_of_in one_in) h (M := 2) ?_ (by norm_num) ?_).mono (by norm_num)
  · rw [abs_of_nonneg (by linarith)]; norm_num; linarith
  · exact le_huge 1 (by norm_num) (by norm_num)

/-- An update from a score. -/
theorem update_near {k e r s : FP E} {p v : ℝ} (hk : Within 512 k)
    (he : Near (1 / 2 ^ 39 + 1 / 2 ^ 49) e p) (hp : 0 ≤ p ∧ p ≤ 1) (hs : Near 0 s v) (hv : 0 ≤ v ∧ v ≤ 1)
    (hr : Within (2 ^ 14) r) : Near (1 / 2 ^ 29) (Flt.mulAdd k (s - e) r) (k.toR * (v - p) + r.toR) := by
  have hvp : |v - p| ≤ 1 := by rw [abs_le]; constructor <;> linarith
  have h1 := (near_sub hs he (M := 2) (by norm_num at hvp ⊢; linarith) (by norm_num) (le_huge 1 (by norm_num) (by norm_num))).mono
      (δ := 1 / 2 ^ 39 + 1 / 2 ^ 48) (by norm_num)
  have hk2 := hk.2
  have hr2 := hr.2
  have hprod : |k.toR * (v - p)| ≤ 512 := by
    rw [abs_mul]
    have := mul_le_mul hk2 hvp (abs_nonneg _) (by norm_num : (0 : ℝ) ≤ 512)
    linarith
  have hkd : |k.toR| * (1 / 2 ^ 39 + 1 / 2 ^ 48) ≤ 512 * (1 / 2 ^ 39 + 1 / 2 ^ 48) :=
    mul_le_mul_of_nonneg_right hk2 (by positivity)
  have hsum := (abs_add_le (k.toR * (v - p)) r.toR)
  refine (near_mulAdd hk.near h1 hr.near (M := 2 ^ 15) ?_ (by norm_num) ?_).mono ?_
  · norm_num at hkd hr2 ⊢; linarith
  · exact le_huge 15 (by norm_num) (by norm_num)
  · norm_num at hkd ⊢; linarith

theorem sig01 (x : ℝ) : 0 ≤ Real.sigmoid x ∧ Real.sigmoid x ≤ 1 :=
  ⟨(Real.sigmoid_pos x).le, (Real.sigmoid_lt_one x).le⟩

theorem pointsR_eq (o : Outcomes) : pointsR o = points o := by cases o <;> rfl

/-- Elo, one game: both new ratings are within `2 ^ -29` of the exact formulas applied to the same
ratings. -/
theorem C112_elo_game (A : E.Accurate) (a b : Elo.EloRating (FP E)) (o : Outcomes)
    (c : Elo.EloConfig (FP E)) (ha : Within (2 ^ 14) a.rating) (hb : Within (2 ^ 14) b.rating)
    (hk : Within 512 c.k) :
    Near (1 / 2 ^ 29) (Elo.elo a b o c).1.rating
      (Elo.elo (F := ℝ) ⟨a.rating.toR⟩ ⟨b.rating.toR⟩ o ⟨c.k.toR⟩).1.rating ∧
    Near (1 / 2 ^ 29) (Elo.elo a b o c).2.rating
      (Elo.elo (F := ℝ) ⟨a.rating.toR⟩ ⟨b.rating.toR⟩ o ⟨c.k.toR⟩).2.rating := by
  have he := elo_score_near A ha hb
  have he2 := one_sub_near he (sig01 _)
  have s := sig01 (Real.log 10 / 400 * (a.rating.toR - b.rating.toR))
  have hs1 := near_of_in (points_in (E := E) o)
  have hs2 := near_of_in (points_in' (E := E) o)
  rw [pointsR_eq] at hs1 hs2
  rw [Elo.elo_real]
  exact ⟨update_near hk (he.mono (by norm_num)) s hs1 ⟨points_nonneg o, points_le_one o⟩ ha,
    update_near hk he2 ⟨by linarith [s.2], by linarith [s.1]⟩ hs2
      ⟨by linarith [points_le_one o], by linarith [points_nonneg o]⟩ hb⟩

/-- Elo, expected scores. -/
theorem C112_elo_expected (A : E.Accurate) (a b : Elo.EloRating (FP E))
    (ha : Within (2 ^ 14) a.rating) (hb : Within (2 ^ 14) b.rating) :
    Near (1 / 2 ^ 38) (Elo.expectedScore a b).1
      (Elo.expectedScore (F := ℝ) ⟨a.rating.toR⟩ ⟨b.rating.toR⟩).1 ∧
    Near (1 / 2 ^ 38) (Elo.expectedScore a b).2
      (Elo.expectedScore (F := ℝ) ⟨a.rating.toR⟩ ⟨b.rating.toR⟩).2 := by
  have he := elo_score_near A ha hb
  have he2 := one_sub_near he (sig01 _)
  rw [Elo.expectedScore_real]
  exact ⟨he.mono (by norm_num), he2.mono (by norm_num)⟩

/-- FIFA, expected scores. -/
theorem C112_fifa_expected (A : E.Accurate) (a b : Fifa.FifaRating (FP E))
    (ha : Within (2 ^ 14) a.rating) (hb : Within (2 ^ 14) b.rating) :
    Near (1 / 2 ^ 38) (Fifa.expectedScore a b).1
      (Fifa.expectedScore (F := ℝ) ⟨a.rating.toR⟩ ⟨b.rating.toR⟩).1 ∧
    Near (1 / 2 ^ 38) (Fifa.expectedScore a b).2
      (Fifa.expectedScore (F := ℝ) ⟨a.rating.toR⟩ ⟨b.rating.toR⟩).2 := by
  have he := fifa_score_near A ha hb
  have he2 := one_sub_near he (sig01 _)
  rw [Fifa.expectedScore_real]
  exact ⟨he.mono (by norm_num), he2.mono (by norm_num)⟩

/-- The configuration of a game, as exact numbers. -/
noncomputable def fifaExact (c : Fifa.FifaConfig (FP E)) : Fifa.FifaConfig ℝ :=
  { importance := c.importance.toR, knockout := c.knockout, penalties := c.penalties }

theorem fifa_credit_near (o : Outcomes) (c : Fifa.FifaConfig (FP E)) :
    Near 0 (if c.penalties = true then (if o = .WIN then (0.75 : FP E) else 0.5) else o.toChessPoints)
      (Fifa.credit o (fifaExact c)) ∧
    Near 0 (if c.penalties = true then (if o = .WIN then (0.75 : FP E) else 0.5) else
        (1.0 : FP E) - (if c.penalties = true then (if o = .WIN then (0.75 : FP E) else 0.5)
          else o.toChessPoints)) (Fifa.credit2 o (fifaExact c)) := by
  have h34 : Near 0 (0.75 : FP E) (3 / 4) := by
    refine near_of_in (lit_in (by norm_num) ?_)
    have := SRep.scale (n := 3) (k := -2) (by norm_num) (by norm_num) (by norm_num)
    have e : (3 / 4 : ℝ) = ((3 : ℕ) : ℝ) * (2 : ℝ) ^ (-2 : ℤ) := by norm_num
    rw [e]; exact this
  have h12 : Near 0 (0.5 : FP E) (1 / 2) := near_of_in (lit_in (by norm_num) SRep.half)
  have hs1 := near_of_in (points_in (E := E) o)
  have hs2 := near_of_in (points_in' (E := E) o)
  rw [pointsR_eq] at hs1 hs2
  unfold Fifa.credit Fifa.credit2 fifaExact
  dsimp only
  cases c.penalties
  · simpa using ⟨hs1, hs2⟩
  · by_cases ho : o = .WIN
    · simp only [if_true, if_pos ho]; exact ⟨h34, h34⟩
    · simp only [if_true, if_neg ho]; exact ⟨h12, h12⟩

theorem credit01 (o : Outcomes) (c : Fifa.FifaConfig ℝ) :
    (0 ≤ Fifa.credit o c ∧ Fifa.credit o c ≤ 1) ∧ (0 ≤ Fifa.credit2 o c ∧ Fifa.credit2 o c ≤ 1) := by
  have h0 := points_nonneg o
  have h1 := points_le_one o
  unfold Fifa.credit Fifa.credit2
  cases c.penalties
  · simp only [Bool.false_eq_true, if_false]
    exact ⟨⟨h0, h1⟩, by linarith, by linarith⟩
  · by_cases ho : o = .WIN
    · simp only [if_true, if_pos ho]; norm_num
    · simp only [if_true, if_neg ho]; norm_num

/-- The guard of knockout games. -/
theorem guard_near {δ v : ℝ} {old new : FP E} (c : Fifa.FifaConfig (FP E)) (ho : old.isFinite)
    (hn : Near δ new v) :
    Near δ (if (c.knockout && (new <? old)) = true then old else new)
      (Fifa.guarded (fifaExact c) old.toR v) := by
  have hδ : 0 ≤ δ := (abs_nonneg _).trans hn.2
  have hlt : (new <? old) = true ↔ new.toR < old.toR := lt_iff_toR hn.1 ho
  unfold Fifa.guarded fifaExact
  dsimp only
  cases hc : c.knockout
  · simpa using hn
  · have key : Near δ (if (new <? old) = true then old else new) (max old.toR v) := by
      have h2 := abs_le.1 hn.2
      by_cases h : new.toR < old.toR
      · rw [if_pos (hlt.2 h)]
        refine ⟨ho, ?_⟩
        rw [abs_le]
        rcases le_total old.toR v with hv | hv
        · rw [max_eq_right hv]; constructor <;> linarith [h2.1, h2.2]
        · rw [max_eq_left hv]; constructor <;> linarith
      · rw [if_neg (fun h' => h (hlt.1 h'))]
        rw [not_lt] at h
        refine ⟨hn.1, ?_⟩
        rw [abs_le]
        rcases le_total old.toR v with hv | hv
        · rw [max_eq_right hv]; constructor <;> linarith [h2.1, h2.2]
        · rw [max_eq_left hv]; constructor <;> linarith [h2.1, h2.2]
    simpa using key

/-- FIFA, one game, with shootouts and knockout games. -/
theorem C112_fifa_game (A : E.Accurate) (a b : Fifa.FifaRating (FP E)) (o : Outcomes)
    (c : Fifa.FifaConfig (FP E)) (ha : Within (2 ^ 14) a.rating) (hb : Within (2 ^ 14) b.rating)
    (hk : Within 512 c.importance) :
    Near (1 / 2 ^ 29) (Fifa.fifa a b o c).1.rating
      (Fifa.fifa (F := ℝ) ⟨a.rating.toR⟩ ⟨b.rating.toR⟩ o (fifaExact c)).1.rating ∧
    Near (1 / 2 ^ 29) (Fifa.fifa a b o c).2.rating
      (Fifa.fifa (F := ℝ) ⟨a.rating.toR⟩ ⟨b.rating.toR⟩ o (fifaExact c)).2.rating := by
  have he := fifa_score_near A ha hb
  have he2 := one_sub_near he (sig01 _)
  have s := sig01 (Real.log 10 / 600 * (a.rating.toR - b.rating.toR))
  obtain ⟨hs1, hs2⟩ := fifa_credit_near (E := E) o c
  obtain ⟨c1, c2⟩ := credit01 o (fifaExact c)
  rw [Fifa.fifa_real]
  exact ⟨guard_near c ha.1 (update_near hk (he.mono (by norm_num)) s hs1 c1 ha),
    guard_near c hb.1 (update_near hk he2 ⟨by linarith [s.2], by linarith [s.1]⟩ hs2 c2 hb)⟩

/-! ### Histories -/

/-- Elo: a tournament computed in floating point stays close to the same tournament in exact
arithmetic.  Every game adds at most `2 ^ -29` to the distance, however the games are arranged. -/
theorem C112_elo_history {ι : Type} [DecidableEq ι] (L : E.Lib) (A : E.Accurate)
    (pool : ι → Elo.EloRating (FP E)) (exact : ι → Elo.EloRating ℝ)
    (games : List (Game ι (Elo.EloConfig (FP E)))) (B K : ℕ) (ε : ℝ)
    (hp : ∀ i, Within B (pool i).rating) (hε : ∀ i, Near ε (pool i).rating (exact i).rating)
    (hk : ∀ g ∈ games, Within K g.config.k ∧ 0 ≤ g.config.k.toR) (hK : K ≤ 512)
    (h : B + games.length * K ≤ 2 ^ 14) (i : ι) :
    Near (ε + games.length / 2 ^ 29) (tournament Elo.elo pool games i).rating
      (tournament Elo.elo exact (games.map (Game.mapConfig fun c => ⟨c.k.toR⟩)) i).rating := by
  have := tournament_related Elo.elo Elo.elo (fun c : Elo.EloConfig (FP E) => (⟨c.k.toR⟩ : Elo.EloConfig ℝ))
    (fun n a a' => Within ((B + n * K : ℕ) : ℝ) a.rating ∧
      Near (ε + n / 2 ^ 29) a.rating a'.rating)
    (fun c => Within K c.k ∧ 0 ≤ c.k.toR) games.length
    (fun n a a' ha => ⟨ha.1.mono (by push_cast; nlinarith [Nat.cast_nonneg (α := ℝ) K]),
      ha.2.mono (by push_cast; rw [add_div]; linarith [show (0 : ℝ) ≤ 1 / 2 ^ 29 by positivity])⟩)
    (by
      rintro n a b ⟨a'⟩ ⟨b'⟩ o c hn ⟨hc, hc0⟩ ⟨ha, ha'⟩ ⟨hb, hb'⟩
      have hle : B + n * K + K ≤ 2 ^ 14 := by
        have := Nat.mul_le_mul_right K hn
        have e : (n + 1) * K = n * K + K := by ring
        omega
      have he := elo_score_in L (isFinite.not_nan ha.1) hb.1
      have h1 := surprise (points_in (E := E) o) he (pointsR_nonneg o) (pointsR_le_one o)
      have h2 := surprise (points_in' (E := E) o) (one_sub_in he)
        (by linarith [pointsR_le_one o]) (by linarith [pointsR_nonneg o])
      have e : B + (n + 1) * K = B + n * K + K := by ring
      rw [e]
      have hcap : ((B + n * K : ℕ) : ℝ) ≤ 2 ^ 14 := by
        have : B + n * K ≤ 2 ^ 14 := by omega
        exact_mod_cast this
      have hK' : (K : ℝ) ≤ 512 := by exact_mod_cast hK
      have g := C112_elo_game A a b o c (ha.mono hcap) (hb.mono hcap) (hc.mono hK')
      have hlog := log_ten_lt
      have hslope : c.k.toR * (Real.log 10 / 400) ≤ 4 := by
        have h3 : c.k.toR ≤ 512 := (le_of_abs_le hc.2).trans hK'
        have h4 : Real.log 10 / 400 ≤ 3 / 400 := by linarith
        have := mul_le_mul h3 h4 (by have := log_ten_pos; positivity) (by norm_num : (0 : ℝ) ≤ 512)
        norm_num at this ⊢; linarith
      have hl0 : 0 ≤ Real.log 10 / 400 := by have := log_ten_pos; positivity
      refine ⟨⟨step_within hc ⟨h1.1, h1.2.1, h1.2.2.1⟩ ha (by omega), g.1.1, ?_⟩,
        step_within hc ⟨h2.1, h2.2.1, h2.2.2.1⟩ hb (by omega), g.2.1, ?_⟩
      · have s := step_nonexpansive (v := points o) hc0 hl0 hslope ha'.2 hb'.2
        have g1 := g.1.2
        rw [Elo.elo_real] at g1 ⊢
        refine (abs_sub_le _ _ _).trans ((add_le_add g1 s).trans ?_)
        push_cast; rw [add_div]; linarith
      · have s := step_nonexpansive' (v := 1 - points o) hc0 hl0 hslope ha'.2 hb'.2
        have g1 := g.2.2
        rw [Elo.elo_real] at g1 ⊢
        refine (abs_sub_le _ _ _).trans ((add_le_add g1 s).trans ?_)
        push_cast; rw [add_div]; linarith)
    pool exact games 0 (by omega) hk (by simpa using fun i => ⟨hp i, hε i⟩) i
  simpa using this.2

theorem guarded_nonexpansive (c : Fifa.FifaConfig ℝ) {x x' y y' ε : ℝ} (hx : |x - x'| ≤ ε)
    (hy : |y - y'| ≤ ε) : |Fifa.guarded c x y - Fifa.guarded c x' y'| ≤ ε := by
  unfold Fifa.guarded
  split
  · exact (abs_max_sub_max_le_max _ _ _ _).trans (max_le hx hy)
  · exact hy

/-- FIFA, with shootouts and knockout games. -/
theorem C112_fifa_history {ι : Type} [DecidableEq ι] (L : E.Lib) (A : E.Accurate)
    (pool : ι → Fifa.FifaRating (FP E)) (exact : ι → Fifa.FifaRating ℝ)
    (games : List (Game ι (Fifa.FifaConfig (FP E)))) (B K : ℕ) (ε : ℝ)
    (hp : ∀ i, Within B (pool i).rating) (hε : ∀ i, Near ε (pool i).rating (exact i).rating)
    (hk : ∀ g ∈ games, Within K g.config.importance ∧ 0 ≤ g.config.importance.toR) (hK : K ≤ 512)
    (h : B + games.length * K ≤ 2 ^ 14) (i : ι) :
    Near (ε + games.length / 2 ^ 29) (tournament Fifa.fifa pool games i).rating
      (tournament Fifa.fifa exact (games.map (Game.mapConfig fun c =>
        { importance := c.importance.toR, knockout := c.knockout, penalties := c.penalties }))
        i).rating := by
  have := tournament_related Fifa.fifa Fifa.fifa (fifaExact (E := E))
    (fun n a a' => Within ((B + n * K : ℕ) : ℝ) a.rating ∧
      Near (ε + n / 2 ^ 29) a.rating a'.rating)
    (fun c => Within K c.importance ∧ 0 ≤ c.importance.toR) games.length
    (fun n a a' ha => ⟨ha.1.mono (by push_cast; nlinarith [Nat.cast_nonneg (α := ℝ) K]),
      ha.2.mono (by push_cast; rw [add_div]; linarith [show (0 : ℝ) ≤ 1 / 2 ^ 29 by positivity])⟩)
    (by
      rintro n a b ⟨a'⟩ ⟨b'⟩ o c hn ⟨hc, hc0⟩ ⟨ha, ha'⟩ ⟨hb, hb'⟩
      have hle : B + n * K + K ≤ 2 ^ 14 := by
        have := Nat.mul_le_mul_right K hn
        have e : (n + 1) * K = n * K + K := by ring
        omega
      have he := fifa_score_in L (isFinite.not_nan ha.1) hb.1
      obtain ⟨v, v0, v1, hv⟩ := fifa_points_in (E := E) o c.penalties
      obtain ⟨w, w0, w1, hw⟩ := fifa_points_in' (E := E) o c.penalties
      have h1 := surprise hv he v0 v1
      have h2 := surprise hw (one_sub_in he) w0 w1
      have e : B + (n + 1) * K = B + n * K + K := by ring
      rw [e]
      have hm : ((B + n * K : ℕ) : ℝ) ≤ ((B + n * K + K : ℕ) : ℝ) := by
        exact_mod_cast Nat.le_add_right _ _
      have hcap : ((B + n * K : ℕ) : ℝ) ≤ 2 ^ 14 := by
        have : B + n * K ≤ 2 ^ 14 := by omega
        exact_mod_cast this
      have hK' : (K : ℝ) ≤ 512 := by exact_mod_cast hK
      have g := C112_fifa_game A a b o c (ha.mono hcap) (hb.mono hcap) (hc.mono hK')
      have hlog := log_ten_lt
      have hslope : (fifaExact c).importance * (Real.log 10 / 600) ≤ 4 := by
        have h3 : c.importance.toR ≤ 512 := (le_of_abs_le hc.2).trans hK'
        have h4 : Real.log 10 / 600 ≤ 3 / 600 := by linarith
        have := mul_le_mul h3 h4 (by have := log_ten_pos; positivity) (by norm_num : (0 : ℝ) ≤ 512)
        change c.importance.toR * (Real.log 10 / 600) ≤ 4
        norm_num at this ⊢; linarith
      have hl0 : 0 ≤ Real.log 10 / 600 := by have := log_ten_pos; positivity
      refine ⟨⟨?_, g.1.1, ?_⟩, ?_, g.2.1, ?_⟩
      · simp only [Fifa.fifa, Fifa.expectedScore]
        exact guard_within (step_within hc ⟨h1.1, h1.2.1, h1.2.2.1⟩ ha (by omega)) ha hm
      · have s := guarded_nonexpansive (fifaExact c) ha'.2 (step_nonexpansive
          (k := (fifaExact c).importance) (v := Fifa.credit o (fifaExact c)) hc0 hl0 hslope ha'.2 hb'.2)
        have g1 := g.1.2
        rw [Fifa.fifa_real] at g1 ⊢
        refine (abs_sub_le _ _ _).trans ((add_le_add g1 s).trans ?_)
        push_cast; rw [add_div]; linarith
      · simp only [Fifa.fifa, Fifa.expectedScore]
        exact guard_within (step_within hc ⟨h2.1, h2.2.1, h2.2.2.1⟩ hb (by omega)) hb hm
      · have s := guarded_nonexpansive (fifaExact c) hb'.2 (step_nonexpansive'
          (k := (fifaExact c).importance) (v := Fifa.credit2 o (fifaExact c)) hc0 hl0 hslope ha'.2 hb'.2)
        have g1 := g.2.2
        rw [Fifa.fifa_real] at g1 ⊢
        refine (abs_sub_le _ _ _).trans ((add_le_add g1 s).trans ?_)
        push_cast; rw [add_div]; linarith)
    pool exact games 0 (by omega) hk (by simpa using fun i => ⟨hp i, hε i⟩) i
  have r := this.2
  rw [Nat.zero_add] at r
  exact r

/-! ### Rating periods -/

/-- An Elo rating period. -/
theorem C112_elo_period (L : E.Lib) (A : E.Accurate) (p : Elo.EloRating (FP E)) (p' : Elo.EloRating ℝ)
    (rs : List (Elo.EloRating (FP E) × Outcomes)) (c : Elo.EloConfig (FP E)) (B K : ℕ) (ε : ℝ)
    (hp : Within B p.rating) (hp' : Near ε p.rating p'.rating)
    (hr : ∀ r ∈ rs, Within (2 ^ 14) r.1.rating) (hk : Within K c.k) (hk0 : 0 ≤ c.k.toR) (hK : K ≤ 512)
    (h : B + rs.length * K ≤ 2 ^ 14) :
    Near (ε + rs.length / 2 ^ 29) (Elo.eloRatingPeriod p rs c).rating
      (Elo.eloRatingPeriod p' (rs.map fun r => (⟨r.1.rating.toR⟩, r.2)) ⟨c.k.toR⟩).rating := by
  induction rs generalizing p p' B ε with
  | nil => simpa [Elo.eloRatingPeriod] using hp'
  | cons r rs ih =>
    have e1 : Elo.eloRatingPeriod p (r :: rs) c
        = Elo.eloRatingPeriod (Elo.elo p r.1 r.2 c).1 rs c := rfl
    have e2 : Elo.eloRatingPeriod p' ((r :: rs).map fun r => (⟨r.1.rating.toR⟩, r.2)) ⟨c.k.toR⟩
        = Elo.eloRatingPeriod (Elo.elo p' ⟨r.1.rating.toR⟩ r.2 ⟨c.k.toR⟩).1
          (rs.map fun r => (⟨r.1.rating.toR⟩, r.2)) ⟨c.k.toR⟩ := rfl
    rw [e1, e2]
    simp only [List.length_cons] at h ⊢
    have e3 : (rs.length + 1) * K = K + rs.length * K := by ring
    have hr1 := hr r List.mem_cons_self
    have hB : (B : ℝ) ≤ 2 ^ 14 := by
      have : B ≤ 2 ^ 14 := by omega
      exact_mod_cast this
    have hK' : (K : ℝ) ≤ 512 := by exact_mod_cast hK
    have g := (C112_elo_game A p r.1 r.2 c (hp.mono hB) hr1 (hk.mono hK')).1
    have hlog := log_ten_lt
    have hslope : c.k.toR * (Real.log 10 / 400) ≤ 4 := by
      have h3 : c.k.toR ≤ 512 := (le_of_abs_le hk.2).trans hK'
      have h4 : Real.log 10 / 400 ≤ 3 / 400 := by linarith
      have := mul_le_mul h3 h4 (by have := log_ten_pos; positivity) (by norm_num : (0 : ℝ) ≤ 512)
      norm_num at this ⊢; linarith
    have hl0 : 0 ≤ Real.log 10 / 400 := by have := log_ten_pos; positivity
    have hε : 0 ≤ ε := (abs_nonneg _).trans hp'.2
    have he := elo_score_in L (isFinite.not_nan hp.1) hr1.1
    have h1 := surprise (points_in (E := E) r.2) he (pointsR_nonneg r.2) (pointsR_le_one r.2)
    have := ih (Elo.elo p r.1 r.2 c).1 (Elo.elo p' ⟨r.1.rating.toR⟩ r.2 ⟨c.k.toR⟩).1 (B + K)
      (ε + 1 / 2 ^ 29) (step_within hk ⟨h1.1, h1.2.1, h1.2.2.1⟩ hp (by omega))
      ⟨g.1, by
        have s := step_nonexpansive (v := points r.2) (y := r.1.rating.toR) (y' := r.1.rating.toR)
          hk0 hl0 hslope hp'.2 (by simpa using hε)
        have g1 := g.2
        rw [Elo.elo_real] at g1 ⊢
        refine (abs_sub_le _ _ _).trans ((add_le_add g1 s).trans ?_)
        linarith⟩
      (fun r' h' => hr r' (List.mem_cons_of_mem _ h')) (by omega)
    refine this.mono (le_of_eq ?_)
    push_cast
    ring

/-! ### Ingo -/

theorem development_in (age : ℕ) : In (E := E) (Ingo.development age : EReal) (Ingo.development age : EReal)
    (Ingo.ageToDevcoefficient age : FP E) := by
  unfold Ingo.development Ingo.ageToDevcoefficient
  split_ifs
  · exact lit_in (by norm_num) (SRep.ofNat 10 (by norm_num))
  · exact lit_in (by norm_num) (SRep.ofNat 15 (by norm_num))
  · exact lit_in (by norm_num) (SRep.ofNat 20 (by norm_num))

theorem one_add_development_in (age : ℕ) : Near 0 ((1.0 : FP E) + Ingo.ageToDevcoefficient age)
    (1 + Ingo.development age) := by
  obtain ⟨s, e⟩ := add_fin (E := E) one_in.finite (development_in age).finite
  have h1 : (1.0 : FP E).toR = 1 := le_antisymm one_in.toR.2 one_in.toR.1
  have h2 : (Ingo.ageToDevcoefficient age : FP E).toR = Ingo.development age :=
    le_antisymm (development_in age).toR.2 (development_in age).toR.1
  have hr : SRep (1 + Ingo.development age) := by
    unfold Ingo.development
    split_ifs
    · simpa [show (1 : ℝ) + 10 = 11 by norm_num] using SRep.ofNat 11 (by norm_num)
    · simpa [show (1 : ℝ) + 15 = 16 by norm_num] using SRep.ofNat 16 (by norm_num)
    · simpa [show (1 : ℝ) + 20 = 21 by norm_num] using SRep.ofNat 21 (by norm_num)
  rw [h1, h2] at e
  rw [e]
  exact near_of_in (In.of_round s hr hr le_rfl le_rfl)

theorem development_bounds (age : ℕ) : 10 ≤ Ingo.development age ∧ Ingo.development age ≤ 20 := by
  unfold Ingo.development; split_ifs <;> norm_num

theorem ingo_update_near {x y s : FP E} {v : ℝ} (age : ℕ) (hx : Within (2 ^ 14) x)
    (hy : Within (2 ^ 14) y) (hs : Near 0 s v) (hv : 0 ≤ v ∧ v ≤ 1) :
    Near (1 / 2 ^ 33) (Flt.mulAdd (Ingo.performance y s) (1.0 : FP E) (x * Ingo.ageToDevcoefficient age)
        / ((1.0 : FP E) + Ingo.ageToDevcoefficient age))
      ((Ingo.perf y.toR v + Ingo.development age * x.toR) / (1 + Ingo.development age)) := by
  obtain ⟨d1, d2⟩ := development_bounds age
  have hx2 := hx.2
  have hy2 := hy.2
  have h100 := near_of_in (lit_in (E := E) (m := 1000) (s := true) (e := 1) (v := 100) (by norm_num)
    (SRep.ofNat 100 (by norm_num)))
  have h50 := (near_of_in (lit_in (E := E) (m := 500) (s := true) (e := 1) (v := 50) (by norm_num)
    (SRep.ofNat 50 (by norm_num)))).neg
  have b1 : |100 * v + -50| ≤ 50 := by rw [abs_le]; constructor <;> linarith
  have h1 := (near_mulAdd h100 hs h50 (M := 64) (by linarith) (by norm_num)
    (le_huge 6 (by norm_num) (by norm_num))).mono (δ := 1 / 2 ^ 45) (by norm_num)
  have b2 : |y.toR - (100 * v + -50)| ≤ 2 ^ 14 + 50 := (abs_sub _ _).trans (by linarith)
  have h2 := (near_sub hy.near h1 (M := 2 ^ 15) (by norm_num at b2 ⊢; linarith) (by norm_num)
    (le_huge 15 (by norm_num) (by norm_num))).mono (δ := 1 / 2 ^ 35) (by norm_num)
  have hd := near_of_in (development_in (E := E) age)
  have b3 : |x.toR * Ingo.development age| ≤ 2 ^ 14 * 20 := by
    rw [abs_mul, abs_of_nonneg (by linarith : 0 ≤ Ingo.development age)]
    exact mul_le_mul hx2 d2 (by linarith) (by positivity)
  have h3 := (near_mul hx.near hd (M := 2 ^ 19) (by norm_num at b3 ⊢; linarith) (by norm_num)
    (le_huge 19 (by norm_num) (by norm_num))).mono (δ := 1 / 2 ^ 32) (by norm_num)
  have b4 := abs_add_le (y.toR - (100 * v + -50)) (x.toR * Ingo.development age)
  have h4 := (near_mulAdd h2 (near_of_in one_in) h3 (M := 2 ^ 19)
    (by norm_num at b2 b3 b4 ⊢; linarith) (by norm_num)
    (le_huge 19 (by norm_num) (by norm_num))).mono (δ := 1 / 2 ^ 30) (by norm_num)
  have b5 : (|(y.toR - (100 * v + -50)) * 1 + x.toR * Ingo.development age| + 1 / 2 ^ 30)
      / (1 + Ingo.development age) ≤ 2 ^ 15 := by
    rw [div_le_iff₀ (by linarith)]
    have b6 : |x.toR * Ingo.development age| ≤ 2 ^ 14 * Ingo.development age := by
      rw [abs_mul, abs_of_nonneg (by linarith : 0 ≤ Ingo.development age)]
      exact mul_le_mul_of_nonneg_right hx2 (by linarith)
    norm_num at b2 b4 b6 ⊢; linarith
  have h5 := near_div_const h4 (one_add_development_in age) (by linarith) b5 (by norm_num)
    (le_huge 15 (by norm_num) (by norm_num))
  have e : ((y.toR - (100 * v + -50)) * 1 + x.toR * Ingo.development age) / (1 + Ingo.development age)
      = (Ingo.perf y.toR v + Ingo.development age * x.toR) / (1 + Ingo.development age) := by
    rw [Ingo.perf]; ring
  rw [← e]
  refine h5.mono ?_
  have : (1 : ℝ) / 2 ^ 30 / (1 + Ingo.development age) ≤ 1 / 2 ^ 30 / 11 :=
    div_le_div_of_nonneg_left (by positivity) (by norm_num) (by linarith)
  norm_num at this ⊢; linarith

/-- Ingo, one game. -/
theorem C112_ingo_game (a b : Ingo.IngoRating (FP E)) (o : Outcomes)
    (ha : Within (2 ^ 14) a.rating) (hb : Within (2 ^ 14) b.rating) :
    Near (1 / 2 ^ 33) (Ingo.ingo a b o).1.rating
      (Ingo.ingo (F := ℝ) ⟨a.rating.toR, a.age⟩ ⟨b.rating.toR, b.age⟩ o).1.rating ∧
    Near (1 / 2 ^ 33) (Ingo.ingo a b o).2.rating
      (Ingo.ingo (F := ℝ) ⟨a.rating.toR, a.age⟩ ⟨b.rating.toR, b.age⟩ o).2.rating := by
  have hs1 := near_of_in (points_in (E := E) o)
  have hs2 := near_of_in (points_in' (E := E) o)
  rw [pointsR_eq] at hs1 hs2
  obtain ⟨e1, e2⟩ := Ingo.C24_ingo_formula ⟨a.rating.toR, a.age⟩ ⟨b.rating.toR, b.age⟩ o
  rw [e1, e2, points_mirror]
  exact ⟨ingo_update_near a.age ha hb hs1 ⟨points_nonneg o, points_le_one o⟩,
    ingo_update_near b.age hb ha hs2 ⟨by linarith [points_le_one o], by linarith [points_nonneg o]⟩⟩

/-- The exact update is a mean. -/
theorem ingo_mean_near {d x x' y y' v ε : ℝ} (hd : 0 ≤ d) (hx : |x - x'| ≤ ε) (hy : |y - y'| ≤ ε) :
    |(Ingo.perf y v + d * x) / (1 + d) - (Ingo.perf y' v + d * x') / (1 + d)| ≤ ε := by
  have h1 : 0 < 1 + d := by linarith
  rw [← sub_div, abs_div, abs_of_pos h1, div_le_iff₀ h1, Ingo.perf, Ingo.perf]
  have e : y - (100 * v - 50) + d * x - (y' - (100 * v - 50) + d * x') = (y - y') + d * (x - x') := by ring
  rw [e]
  refine (abs_add_le _ _).trans ?_
  rw [abs_mul, abs_of_nonneg hd]
  nlinarith [mul_le_mul_of_nonneg_left hx hd]

theorem ingo_mean_bound {d x y v B : ℝ} (hd : 10 ≤ d) (hx : |x| ≤ B) (hy : |y| ≤ B)
    (hv : 0 ≤ v ∧ v ≤ 1) : |(Ingo.perf y v + d * x) / (1 + d)| ≤ B + 50 / 11 := by
  have h1 : 0 < 1 + d := by linarith
  rw [abs_div, abs_of_pos h1, div_le_iff₀ h1, Ingo.perf]
  obtain ⟨x1, x2⟩ := abs_le.1 hx
  obtain ⟨y1, y2⟩ := abs_le.1 hy
  have h2 := mul_le_mul_of_nonneg_left x2 (by linarith : 0 ≤ d)
  have h3 := mul_le_mul_of_nonneg_left x1 (by linarith : 0 ≤ d)
  rw [abs_le]
  constructor <;> nlinarith [hv.1, hv.2]

/-- Ingo: a tournament in floating point stays within `2 ^ -33` per game of the exact one.  No
rating grows by more than five points per game. -/
theorem C112_ingo_history {ι : Type} [DecidableEq ι] (pool : ι → Ingo.IngoRating (FP E))
    (exact : ι → Ingo.IngoRating ℝ) (games : List (Game ι Unit)) (B : ℕ) (ε : ℝ)
    (hp : ∀ i, Within B (pool i).rating)
    (hε : ∀ i, Near ε (pool i).rating (exact i).rating ∧ (pool i).age = (exact i).age)
    (h : B + games.length * 5 ≤ 2 ^ 14) (i : ι) :
    Within ((B + games.length * 5 : ℕ) : ℝ)
      (tournament (fun a b o _ => Ingo.ingo a b o) pool games i).rating ∧
    Near (ε + games.length / 2 ^ 33) (tournament (fun a b o _ => Ingo.ingo a b o) pool games i).rating
      (tournament (fun a b o _ => Ingo.ingo a b o) exact games i).rating := by
  have := tournament_related (fun a b o (_ : Unit) => Ingo.ingo a b o)
    (fun a b o (_ : Unit) => Ingo.ingo a b o) (fun c : Unit => c)
    (fun n a a' => Within ((B + n * 5 : ℕ) : ℝ) a.rating ∧ a.age = a'.age ∧
      Near (ε + n / 2 ^ 33) a.rating a'.rating)
    (fun _ => True) games.length
    (fun n a a' ha => ⟨ha.1.mono (by push_cast; linarith), ha.2.1,
      ha.2.2.mono (by push_cast; rw [add_div]; linarith [show (0 : ℝ) ≤ 1 / 2 ^ 33 by positivity])⟩)
    (by
      rintro n a b ⟨a', ga⟩ ⟨b', gb⟩ o - hn - ⟨ha, ga1, ha'⟩ ⟨hb, gb1, hb'⟩
      have hle : B + n * 5 ≤ 2 ^ 14 := by omega
      have hcap : ((B + n * 5 : ℕ) : ℝ) ≤ 2 ^ 14 := by exact_mod_cast hle
      have g := C112_ingo_game a b o (ha.mono hcap) (hb.mono hcap)
      have p0 := points_nonneg o
      have p1 := points_le_one o
      have e1 := Ingo.C24_ingo_formula ⟨a.rating.toR, a.age⟩ ⟨b.rating.toR, b.age⟩ o
      have e2 := Ingo.C24_ingo_formula ⟨a', a.age⟩ ⟨b', b.age⟩ o
      change a.age = ga at ga1
      change b.age = gb at gb1
      subst ga1 gb1
      have da := development_bounds a.age
      have db := development_bounds b.age
      have q := points_mirror o
      refine ⟨⟨⟨g.1.1, ?_⟩, rfl, g.1.1, ?_⟩, ⟨g.2.1, ?_⟩, rfl, g.2.1, ?_⟩
      · have bd := ingo_mean_bound (v := points o) da.1 ha.2 hb.2 ⟨p0, p1⟩
        have g1 := g.1.abs_le
        rw [e1.1] at g1
        push_cast at bd ⊢
        norm_num at g1 bd ⊢
        linarith
      · have s := ingo_mean_near (v := points o) (by linarith : 0 ≤ Ingo.development a.age) ha'.2 hb'.2
        have g1 := g.1.2
        rw [e1.1] at g1
        rw [e2.1]
        refine (abs_sub_le _ _ _).trans ((add_le_add g1 s).trans ?_)
        push_cast; rw [add_div]; linarith
      · have bd := ingo_mean_bound (v := points (mirror o)) db.1 hb.2 ha.2
          ⟨by rw [q]; linarith, by rw [q]; linarith⟩
        have g1 := g.2.abs_le
        rw [e1.2] at g1
        push_cast at bd ⊢
        norm_num at g1 bd ⊢
        linarith
      · have s := ingo_mean_near (v := points (mirror o)) (by linarith : 0 ≤ Ingo.development b.age)
          hb'.2 ha'.2
        have g1 := g.2.2
        rw [e1.2] at g1
        rw [e2.2]
        refine (abs_sub_le _ _ _).trans ((add_le_add g1 s).trans ?_)
        push_cast; rw [add_div]; linarith)
    pool exact games 0 (by omega) (fun _ _ => trivial)
      (fun i => ⟨by simpa using hp i, (hε i).2, by simpa using (hε i).1⟩) i
  have e : games.map (Game.mapConfig fun c : Unit => c) = games := by
    conv_rhs => rw [← List.map_id games]
    rfl
  rw [e, Nat.zero_add] at this
  exact ⟨this.1, this.2.2⟩

/-! ### Consequences -/

/-- Leaderboards: if the exact ratings of two players are further apart than twice the error, the
computed ratings compare in the same way. -/
theorem C112_elo_leaderboard {ι : Type} [DecidableEq ι] (L : E.Lib) (A : E.Accurate)
    (pool : ι → Elo.EloRating (FP E)) (exact : ι → Elo.EloRating ℝ)
    (games : List (Game ι (Elo.EloConfig (FP E)))) (B K : ℕ) (ε : ℝ)
    (hp : ∀ i, Within B (pool i).rating) (hε : ∀ i, Near ε (pool i).rating (exact i).rating)
    (hk : ∀ g ∈ games, Within K g.config.k ∧ 0 ≤ g.config.k.toR) (hK : K ≤ 512)
    (h : B + games.length * K ≤ 2 ^ 14) (i j : ι)
    (hij : (tournament Elo.elo exact (games.map (Game.mapConfig fun c => ⟨c.k.toR⟩)) i).rating
        + 2 * (ε + games.length / 2 ^ 29)
      < (tournament Elo.elo exact (games.map (Game.mapConfig fun c => ⟨c.k.toR⟩)) j).rating) :
    ((tournament Elo.elo pool games i).rating <? (tournament Elo.elo pool games j).rating) = true := by
  have hi := C112_elo_history L A pool exact games B K ε hp hε hk hK h i
  have hj := C112_elo_history L A pool exact games B K ε hp hε hk hK h j
  rw [lt_iff_toR hi.1 hj.1]
  have h1 := abs_le.1 hi.2
  have h2 := abs_le.1 hj.2
  linarith [h1.2, h2.1]

/-- The total of the ratings of a pool drifts by at most `2 ^ -28` per game, however large the pool
is. -/
theorem C112_elo_total {ι : Type} [Fintype ι] [DecidableEq ι] (L : E.Lib) (A : E.Accurate)
    (pool : ι → Elo.EloRating (FP E)) (games : List (Game ι (Elo.EloConfig (FP E)))) (B K : ℕ)
    (hp : ∀ i, Within B (pool i).rating) (hk : ∀ g ∈ games, Within K g.config.k) (hK : K ≤ 512)
    (h : B + games.length * K ≤ 2 ^ 14) :
    |∑ i, (tournament Elo.elo pool games i).rating.toR - ∑ i, (pool i).rating.toR|
      ≤ games.length / 2 ^ 28 := by
  induction games generalizing pool B with
  | nil => simp [tournament]
  | cons g gs ih =>
    have e : tournament Elo.elo pool (g :: gs) = tournament Elo.elo (playGame Elo.elo pool g) gs := rfl
    have hg := hk g List.mem_cons_self
    simp only [List.length_cons] at h
    have e2 : (gs.length + 1) * K = K + gs.length * K := by ring
    have one := C100_elo_history L pool [g] B K hp (by simpa using hg) (by simp; omega)
    have ih' := ih (playGame Elo.elo pool g) (B + K) (by simpa [tournament] using one)
      (fun g' hg' => hk g' (List.mem_cons_of_mem _ hg')) (by omega)
    have hB : (B : ℝ) ≤ 2 ^ 14 := by
      have : B ≤ 2 ^ 14 := by omega
      exact_mod_cast this
    have hK' : (K : ℝ) ≤ 512 := by exact_mod_cast hK
    have gm := C112_elo_game A (pool g.first) (pool g.second) g.outcome g.config ((hp _).mono hB)
      ((hp _).mono hB) (hg.mono hK')
    have step : |∑ i, (playGame Elo.elo pool g i).rating.toR - ∑ i, (pool i).rating.toR| ≤ 1 / 2 ^ 28 := by
      rw [← Finset.sum_sub_distrib]
      have hs : ∑ i, ((playGame Elo.elo pool g i).rating.toR - (pool i).rating.toR)
          = ((playGame Elo.elo pool g g.first).rating.toR - (pool g.first).rating.toR)
            + ((playGame Elo.elo pool g g.second).rating.toR - (pool g.second).rating.toR) := by
        rw [← Finset.sum_pair
          (f := fun i => (playGame Elo.elo pool g i).rating.toR - (pool i).rating.toR) g.ne]
        symm
        apply Finset.sum_subset (Finset.subset_univ _)
        intro j _ hj
        simp only [Finset.mem_insert, Finset.mem_singleton, not_or] at hj
        simp only [playGame]
        rw [Function.update_of_ne hj.2, Function.update_of_ne hj.1, sub_self]
      rw [hs]
      simp only [playGame]
      rw [Function.update_of_ne g.ne, Function.update_self, Function.update_self]
      have g1 := abs_le.1 gm.1.2
      have g2 := abs_le.1 gm.2.2
      rw [Elo.elo_real] at g1 g2
      dsimp only at g1 g2
      rw [abs_le]
      norm_num at g1 g2 ⊢
      constructor <;> linarith [g1.1, g1.2, g2.1, g2.2]
    rw [e]
    refine (abs_sub_le _ _ _).trans ((add_le_add ih' step).trans ?_)
    push_cast
    simp only [List.length_cons]
    push_cast
    rw [add_div]

/-! ### Examples -/

theorem within_lit {n : ℕ} (h : n < 2 ^ 53) {m : ℕ} {e : ℕ} {t : Bool}
    (hv : (OfScientific.ofScientific m t e : ℝ) = n) :
    Within (n : ℝ) (OfScientific.ofScientific m t e : FP E) := by
  have := near_of_in (lit_in (E := E) hv (SRep.nat h))
  refine ⟨this.1, ?_⟩
  have h2 := this.abs_le
  have h3 : |(n : ℝ)| = n := abs_of_nonneg (Nat.cast_nonneg n)
  linarith

/-- Binary64 with a correctly rounded library: thirty games of three players. -/
example (i : Fin 3) :
    Near (30 / 2 ^ 29) (tournament Elo.elo (fun _ : Fin 3 => (Elo.EloRating.new : Elo.EloRating (FP ieee)))
        (List.replicate 30 ⟨0, 1, by decide, .WIN, Elo.EloConfig.new⟩) i).rating
      (tournament Elo.elo (fun _ : Fin 3 => ⟨1000⟩)
        (List.replicate 30 ⟨0, 1, by decide, .WIN, ⟨32⟩⟩) i).rating := by
  have hr : In (E := ieee) ((1000 : ℝ) : EReal) ((1000 : ℝ) : EReal) (1000.0 : FP ieee) :=
    lit_in (by norm_num) (SRep.ofNat 1000 (by norm_num))
  have hk : In (E := ieee) ((32 : ℝ) : EReal) ((32 : ℝ) : EReal) (32.0 : FP ieee) :=
    lit_in (by norm_num) (SRep.ofNat 32 (by norm_num))
  have hkR : (32.0 : FP ieee).toR = 32 := le_antisymm hk.toR.2 hk.toR.1
  have h := C112_elo_history ieee_lib ieee_accurate
    (fun _ : Fin 3 => (Elo.EloRating.new : Elo.EloRating (FP ieee))) (fun _ : Fin 3 => ⟨1000⟩)
    (List.replicate 30 ⟨0, 1, by decide, .WIN, Elo.EloConfig.new⟩) 1000 32 0
    (fun _ => by exact_mod_cast within_lit (E := ieee) (n := 1000) (m := 10000) (t := true) (e := 1) (by norm_num) (by norm_num))
    (fun _ => near_of_in hr)
    (by
      intro g hg
      rw [List.eq_of_mem_replicate hg]
      exact ⟨by exact_mod_cast within_lit (E := ieee) (n := 32) (m := 320) (t := true) (e := 1) (by norm_num) (by norm_num),
        by change (0 : ℝ) ≤ (32.0 : FP ieee).toR; rw [hkR]; norm_num⟩)
    (by norm_num) (by norm_num) i
  rw [List.map_replicate, List.length_replicate, zero_add] at h
  have e : (Game.mapConfig (fun c : Elo.EloConfig (FP ieee) => (⟨c.k.toR⟩ : Elo.EloConfig ℝ))
      ⟨(0 : Fin 3), 1, by decide, .WIN, Elo.EloConfig.new⟩) = ⟨0, 1, by decide, .WIN, ⟨32⟩⟩ := by
    simp only [Game.mapConfig, Elo.EloConfig.new, hkR]
  rw [e] at h
  exact_mod_cast h

/-- Two default FIFA teams, a knockout game decided by a shootout. -/
example : Near (1 / 2 ^ 29)
    (Fifa.fifa (Fifa.FifaRating.new : Fifa.FifaRating (FP ieee)) Fifa.FifaRating.new .LOSS
      ⟨10.0, true, true⟩).2.rating
    (Fifa.fifa (F := ℝ) ⟨(1000.0 : FP ieee).toR⟩ ⟨(1000.0 : FP ieee).toR⟩ .LOSS
      ⟨(10.0 : FP ieee).toR, true, true⟩).2.rating := by
  have h1 := within_lit (E := ieee) (n := 1000) (m := 10000) (t := true) (e := 1) (by norm_num) (by norm_num)
  have h2 := within_lit (E := ieee) (n := 10) (m := 100) (t := true) (e := 1) (by norm_num) (by norm_num)
  exact (C112_fifa_game ieee_accurate _ _ .LOSS ⟨10.0, true, true⟩ (h1.mono (by norm_num))
    (h1.mono (by norm_num)) (h2.mono (by norm_num))).2

/-- Two Ingo players. -/
example : Near (1 / 2 ^ 33)
    (Ingo.ingo (Ingo.IngoRating.new 30 : Ingo.IngoRating (FP ieee)) (Ingo.IngoRating.new 18) .WIN).1.rating
    (Ingo.ingo (F := ℝ) ⟨(230.0 : FP ieee).toR, 30⟩ ⟨(230.0 : FP ieee).toR, 18⟩ .WIN).1.rating := by
  have h1 := within_lit (E := ieee) (n := 230) (m := 2300) (t := true) (e := 1) (by norm_num) (by norm_num)
  exact (C112_ingo_game (Ingo.IngoRating.new 30) (Ingo.IngoRating.new 18) .WIN (h1.mono (by norm_num))
    (h1.mono (by norm_num))).1

end Skillratings
