import Verif.Props.FloatAccuracy
import Verif.Props.FloatAccuracyGlicko
import Verif.Props.FloatAccuracyWengLin
import Verif.Props.Ingo
import Verif.Props.Fifa
import Verif.Props.Glicko2
import Verif.Props.FloatGlicko2
import Verif.Proofs.FPAverage
import Verif.Proofs.FPGlicko2Player
/-
C134: rating periods of FIFA and Ingo, expected scores of Ingo and Glicko-2, and the confidence
interval of Glicko-2, in double precision.
-/

namespace Skillratings
open FP FPVal Spec
variable {E : FloatEnv}

/-! ### FIFA -/

/-- A FIFA rating period, with a configuration for each match: every match adds at most `2 ^ -29` to
the distance from the exact result. -/
theorem C134_fifa_period (L : E.Lib) (A : E.Accurate) (p : Fifa.FifaRating (FP E)) (p' : Fifa.FifaRating ℝ)
    (rs : List (Fifa.FifaRating (FP E) × Outcomes × Fifa.FifaConfig (FP E))) (B K : ℕ) (ε : ℝ)
    (hp : Within B p.rating) (hp' : Near ε p.rating p'.rating)
    (hr : ∀ r ∈ rs, Within (2 ^ 14) r.1.rating)
    (hk : ∀ r ∈ rs, Within K r.2.2.importance ∧ 0 ≤ r.2.2.importance.toR) (hK : K ≤ 512)
    (h : B + rs.length * K ≤ 2 ^ 14) :
    Near (ε + rs.length / 2 ^ 29) (Fifa.fifaRatingPeriod p rs).rating
      (Fifa.fifaRatingPeriod p' (rs.map fun r => (⟨r.1.rating.toR⟩, r.2.1,
        { importance := r.2.2.importance.toR, knockout := r.2.2.knockout,
          penalties := r.2.2.penalties }))).rating := by
  rw [Fifa.C10_fifa_period_gauntlet, Fifa.C10_fifa_period_gauntlet]
  induction rs generalizing p p' B ε with
  | nil => simpa [gauntlet] using hp'
  | cons r rs ih =>
    obtain ⟨b, o, c⟩ := r
    simp only [List.length_cons] at h ⊢
    have e3 : (rs.length + 1) * K = K + rs.length * K := by ring
    have hb := hr _ List.mem_cons_self
    obtain ⟨hc, hc0⟩ := hk _ List.mem_cons_self
    have hB : (B : ℝ) ≤ 2 ^ 14 := by
      have : B ≤ 2 ^ 14 := by omega
      exact_mod_cast this
    have hK' : (K : ℝ) ≤ 512 := by exact_mod_cast hK
    have g := (C112_fifa_game A p b o c (hp.mono hB) hb (hc.mono hK')).1
    have hlog := log_ten_lt
    have hslope : (fifaExact c).importance * (Real.log 10 / 600) ≤ 4 := by
      have h3 : c.importance.toR ≤ 512 := (le_of_abs_le hc.2).trans hK'
      have h4 : Real.log 10 / 600 ≤ 3 / 600 := by linarith
      have := mul_le_mul h3 h4 (by have := log_ten_pos; positivity) (by norm_num : (0 : ℝ) ≤ 512)
      change c.importance.toR * (Real.log 10 / 600) ≤ 4
      norm_num at this ⊢; linarith
    have hl0 : 0 ≤ Real.log 10 / 600 := by have := log_ten_pos; positivity
    have hε : 0 ≤ ε := (abs_nonneg _).trans hp'.2
    have he := fifa_score_in L (isFinite.not_nan hp.1) hb.1
    obtain ⟨v, v0, v1, hv⟩ := fifa_points_in (E := E) o c.penalties
    have h1 := surprise hv he v0 v1
    have hm : ((B : ℕ) : ℝ) ≤ ((B + K : ℕ) : ℝ) := by exact_mod_cast Nat.le_add_right _ _
    have := ih (Fifa.fifa p b o c).1 (Fifa.fifa p' ⟨b.rating.toR⟩ o (fifaExact c)).1 (B + K)
      (ε + 1 / 2 ^ 29)
      (by
        simp only [Fifa.fifa, Fifa.expectedScore]
        exact guard_within (step_within hc ⟨h1.1, h1.2.1, h1.2.2.1⟩ hp (by omega)) hp hm)
      ⟨g.1, by
        have s := guarded_nonexpansive (fifaExact c) hp'.2 (step_nonexpansive
          (k := (fifaExact c).importance) (v := Fifa.credit o (fifaExact c)) (y := b.rating.toR)
          (y' := b.rating.toR) hc0 hl0 hslope hp'.2 (by simpa using hε))
        have g1 := g.2
        rw [Fifa.fifa_real] at g1 ⊢
        refine (abs_sub_le _ _ _).trans ((add_le_add g1 s).trans ?_)
        linarith⟩
      (fun r' h' => hr r' (List.mem_cons_of_mem _ h')) (fun r' h' => hk r' (List.mem_cons_of_mem _ h'))
      (by omega)
    refine this.mono (le_of_eq ?_)
    push_cast
    ring

/-! ### Ingo -/

/-- The development coefficient plus the number of games. -/
theorem development_add_near (age n : ℕ) (hn : n ≤ 2 ^ 10) :
    Near 0 ((Flt.ofNat n : FP E) + Ingo.ageToDevcoefficient age) (n + Ingo.development age) := by
  have h1 := ofNat_near (E := E) (n := n) (by omega)
  obtain ⟨s, e⟩ := add_fin (E := E) h1.1 (development_in age).finite
  have e1 : (Flt.ofNat n : FP E).toR = n := by
    have := abs_nonpos_iff.1 h1.2; linarith
  have h2 : (Ingo.ageToDevcoefficient age : FP E).toR = Ingo.development age :=
    le_antisymm (development_in age).toR.2 (development_in age).toR.1
  have hr : SRep (n + Ingo.development age) := by
    unfold Ingo.development
    split_ifs
    · have := SRep.nat (n := n + 10) (by omega)
      push_cast at this
      exact this
    · have := SRep.nat (n := n + 15) (by omega)
      push_cast at this
      exact this
    · have := SRep.nat (n := n + 20) (by omega)
      push_cast at this
      exact this
  rw [e1, h2] at e
  rw [e]
  exact near_of_in (In.of_round s hr hr le_rfl le_rfl)

/-- An Ingo rating period of `n` games, at most 1024: the new rating is within `2 ^ -23` of the exact
one. -/
theorem C134_ingo_period (p : Ingo.IngoRating (FP E)) (rs : List (Ingo.IngoRating (FP E) × Outcomes))
    (hp : Within (2 ^ 14) p.rating) (hr : ∀ r ∈ rs, Within (2 ^ 14) r.1.rating) (hne : rs ≠ [])
    (hn : rs.length ≤ 2 ^ 10) :
    Near (1 / 2 ^ 23) (Ingo.ingoRatingPeriod p rs).rating
      (Ingo.ingoRatingPeriod (F := ℝ) ⟨p.rating.toR, p.age⟩
        (rs.map fun r => (⟨r.1.rating.toR, r.1.age⟩, r.2))).rating ∧
    (Ingo.ingoRatingPeriod p rs).age = p.age := by
  refine ⟨?_, rfl⟩
  obtain ⟨d1, d2⟩ := development_bounds p.age
  have n1 : (1 : ℝ) ≤ rs.length := by
    exact_mod_cast Nat.one_le_iff_ne_zero.2 (by simpa using hne)
  have n0 : (0 : ℝ) < rs.length := by linarith
  have n2 : (rs.length : ℝ) ≤ 2 ^ 10 := by exact_mod_cast hn
  have hnn := ofNat_near (E := E) (n := rs.length) (by omega)
  obtain ⟨a1, a2⟩ := average_near rs (fun r => r.1.rating) hn hne hr
  obtain ⟨s1, s2⟩ := near_sum_big (E := E) rs (fun r => r.2.toChessPoints) (fun r => points r.2) (B := 1)
    (ε := 0) le_rfl (by norm_num) le_rfl (by norm_num) hn (fun r _ => by
      have := near_of_in (points_in (E := E) r.2)
      rw [pointsR_eq] at this
      exact ⟨this, abs_le.2 ⟨by linarith [points_nonneg r.2], points_le_one r.2⟩⟩)
  have s3 : Near (1 / 2 ^ 39) (Flt.sum (rs.map fun r => (r.2.toChessPoints : FP E)) / Flt.ofNat rs.length)
      ((rs.map fun r => points r.2).sum / rs.length) := by
    refine (near_div_const s1 hnn n0 (M := 2) ?_ (by norm_num) (le_huge 1 (by norm_num) (by norm_num))).mono ?_
    · rw [div_le_iff₀ n0]; norm_num at s2 ⊢; linarith
    · rw [mul_div_assoc, mul_comm, div_mul_cancel₀ _ n0.ne']; norm_num
  have s4 := sum_limits rs (fun r => points r.2) (lo := 0) (hi := 1) fun r _ => ⟨points_nonneg _, points_le_one _⟩
  have v0 : 0 ≤ (rs.map fun r => points r.2).sum / rs.length := div_nonneg (by linarith [s4.1]) n0.le
  have v1 : (rs.map fun r => points r.2).sum / rs.length ≤ 1 := by rw [div_le_one n0]; linarith [s4.2]
  rw [Ingo.C24_ingo_period_formula]
  simp only [List.length_map, List.map_map, Function.comp_def, Spec.score]
  set v := (rs.map fun r => points r.2).sum / rs.length
  set m := (rs.map fun r => r.1.rating.toR).sum / rs.length
  have h100 := near_of_in (lit_in (E := E) (m := 1000) (s := true) (e := 1) (v := 100) (by norm_num)
    (SRep.ofNat 100 (by norm_num)))
  have h50 := (near_of_in (lit_in (E := E) (m := 500) (s := true) (e := 1) (v := 50) (by norm_num)
    (SRep.ofNat 50 (by norm_num)))).neg
  have b1 : |100 * v + -50| ≤ 50 := by rw [abs_le]; constructor <;> linarith
  have h1 := (near_mulAdd h100 s3 h50 (M := 64) (by norm_num at b1 ⊢; linarith) (by norm_num)
    (le_huge 6 (by norm_num) (by norm_num))).mono (δ := 1 / 2 ^ 32) (by norm_num)
  have b2 : |m - (100 * v + -50)| ≤ 2 ^ 14 + 50 := (abs_sub _ _).trans (by linarith)
  have h2 := (near_sub a1 h1 (M := 2 ^ 15) (by norm_num at b2 ⊢; linarith) (by norm_num)
    (le_huge 15 (by norm_num) (by norm_num))).mono (δ := 1 / 2 ^ 25 + 1 / 2 ^ 31) (by norm_num)
  have hd := near_of_in (development_in (E := E) p.age)
  have b3 : |p.rating.toR * Ingo.development p.age| ≤ 2 ^ 14 * 20 := by
    rw [abs_mul, abs_of_nonneg (by linarith : 0 ≤ Ingo.development p.age)]
    exact mul_le_mul hp.2 d2 (by linarith) (by positivity)
  have h3 := (near_mul hp.near hd (M := 2 ^ 19) (by norm_num at b3 ⊢; linarith) (by norm_num)
    (le_huge 19 (by norm_num) (by norm_num))).mono (δ := 1 / 2 ^ 32) (by norm_num)
  have b5 : |(m - (100 * v + -50)) * rs.length + p.rating.toR * Ingo.development p.age|
      ≤ (2 ^ 14 + 50) * (rs.length + Ingo.development p.age) := by
    refine (abs_add_le _ _).trans ?_
    rw [abs_mul, abs_mul, abs_of_pos n0, abs_of_nonneg (by linarith : 0 ≤ Ingo.development p.age), mul_add]
    refine add_le_add (mul_le_mul_of_nonneg_right b2 n0.le) ?_
    exact mul_le_mul_of_nonneg_right (hp.2.trans (by norm_num)) (by linarith)
  have e0 : (1 / 2 ^ 25 + 1 / 2 ^ 31) * |(rs.length : ℝ)| = (1 / 2 ^ 25 + 1 / 2 ^ 31) * rs.length := by
    rw [abs_of_pos n0]
  have h4 : Near (1 / 2 ^ 24 * rs.length) (Flt.mulAdd (Ingo.performance
      (Flt.sum (rs.map fun r => r.1.rating) / Flt.ofNat rs.length)
      (Flt.sum (rs.map fun r => (r.2.toChessPoints : FP E)) / Flt.ofNat rs.length)) (Flt.ofNat rs.length)
      (p.rating * Ingo.ageToDevcoefficient p.age))
      ((m - (100 * v + -50)) * rs.length + p.rating.toR * Ingo.development p.age) := by
    refine (near_mulAdd h2 hnn h3 (M := 2 ^ 25) ?_ (by norm_num)
      (le_huge 25 (by norm_num) (by norm_num))).mono ?_
    · rw [e0]
      clear_value m v
      generalize |(m - (100 * v + -50)) * (rs.length : ℝ) + p.rating.toR * Ingo.development p.age| = t at *
      generalize |m - (100 * v + -50)| = u at *
      generalize (rs.length : ℝ) = w at *
      norm_num at b5 n2 ⊢
      nlinarith
    · rw [e0]
      clear_value m v
      generalize |m - (100 * v + -50)| = u at *
      generalize (rs.length : ℝ) = w at *
      norm_num at n1 ⊢; linarith
  have h5 := near_div_const h4 (development_add_near p.age rs.length hn) (by linarith) (M := 2 ^ 15) (by
    rw [div_le_iff₀ (by linarith)]
    norm_num at b5 ⊢
    generalize |(m - (100 * v + -50)) * (rs.length : ℝ) + p.rating.toR * Ingo.development p.age| = t at *
    linarith) (by norm_num) (le_huge 15 (by norm_num) (by norm_num))
  have e : ((m - (100 * v + -50)) * rs.length + p.rating.toR * Ingo.development p.age)
      / (rs.length + Ingo.development p.age)
      = (rs.length * Ingo.perf m v + Ingo.development p.age * p.rating.toR)
        / (rs.length + Ingo.development p.age) := by
    rw [Ingo.perf]; ring
  rw [← e]
  refine h5.mono ?_
  have : 1 / 2 ^ 24 * (rs.length : ℝ) / (rs.length + Ingo.development p.age) ≤ 1 / 2 ^ 24 := by
    rw [div_le_iff₀ (by linarith)]
    refine mul_le_mul_of_nonneg_left (by linarith) (by norm_num)
  norm_num at this ⊢; linarith

/-- Ingo, expected scores. -/
theorem C134_ingo_expected (a b : Ingo.IngoRating (FP E)) (ha : Within (2 ^ 14) a.rating)
    (hb : Within (2 ^ 14) b.rating) :
    Near (1 / 2 ^ 40) (Ingo.expectedScore a b).1
      (Ingo.expectedScore (F := ℝ) ⟨a.rating.toR, a.age⟩ ⟨b.rating.toR, b.age⟩).1 ∧
    Near (1 / 2 ^ 40) (Ingo.expectedScore a b).2
      (Ingo.expectedScore (F := ℝ) ⟨a.rating.toR, a.age⟩ ⟨b.rating.toR, b.age⟩).2 := by
  obtain ⟨e1, e2⟩ := Ingo.C26_ingo_expected_formula ⟨a.rating.toR, a.age⟩ ⟨b.rating.toR, b.age⟩
  have e3 : (Ingo.expectedScore (F := ℝ) ⟨a.rating.toR, a.age⟩ ⟨b.rating.toR, b.age⟩).2
      = 1 - (1 / 2 + (b.rating.toR - a.rating.toR) / 100) := by rw [← e1]; linarith
  rw [e1, e3]
  have b1 : |b.rating.toR - a.rating.toR| ≤ 2 ^ 15 := (abs_sub _ _).trans (by
    have := ha.2; have := hb.2; norm_num at *; linarith)
  have h100 := near_of_in (lit_in (E := E) (m := 1000) (s := true) (e := 1) (v := 100) (by norm_num)
    (SRep.ofNat 100 (by norm_num)))
  have h05 := near_of_in (lit_in (E := E) (m := 5) (s := true) (e := 1) (v := 1 / 2) (by norm_num) SRep.half)
  have h1 := (near_sub hb.near ha.near (M := 2 ^ 15) (by simpa using b1) (by norm_num)
    (le_huge 15 (by norm_num) (by norm_num)))
  have h2 := (near_div_const h1 h100 (by norm_num) (M := 400) (by
    rw [div_le_iff₀ (by norm_num)]; norm_num at b1 ⊢; linarith) (by norm_num)
    (le_huge 9 (by norm_num) (by norm_num))).mono (δ := 730 / 2 ^ 51) (by norm_num)
  have b2 : |1 / 2 + (b.rating.toR - a.rating.toR) / 100| ≤ 329 := by
    rw [abs_le] at b1 ⊢; constructor <;> linarith [b1.1, b1.2]
  have h3 := (near_add h05 h2 (M := 330) (by norm_num at b2 ⊢; linarith) (by norm_num)
    (le_huge 9 (by norm_num) (by norm_num))).mono (δ := 1060 / 2 ^ 51) (by norm_num)
  have b3 : |1 - (1 / 2 + (b.rating.toR - a.rating.toR) / 100)| ≤ 330 := by
    rw [abs_le] at b1 ⊢; constructor <;> linarith [b1.1, b1.2]
  have h4 := near_sub (near_of_in one_in) h3 (M := 331) (by norm_num at b3 ⊢; linarith) (by norm_num)
    (le_huge 9 (by norm_num) (by norm_num))
  exact ⟨h3.mono (by norm_num), h4.mono (by norm_num)⟩

/-- Ingo, expected scores of a rating period. -/
theorem C134_ingo_expected_period (p : Ingo.IngoRating (FP E)) (os : List (Ingo.IngoRating (FP E)))
    (hp : Within (2 ^ 14) p.rating) (ho : ∀ o ∈ os, Within (2 ^ 14) o.rating) :
    List.Forall₂ (Near (1 / 2 ^ 40)) (Ingo.expectedScoreRatingPeriod p os)
      (Ingo.expectedScoreRatingPeriod (F := ℝ) ⟨p.rating.toR, p.age⟩
        (os.map fun o => ⟨o.rating.toR, o.age⟩)) := by
  induction os with
  | nil => exact List.Forall₂.nil
  | cons o os ih =>
    refine List.Forall₂.cons ?_ (ih fun x hx => ho x (List.mem_cons_of_mem _ hx))
    exact (C134_ingo_expected p o hp (ho o List.mem_cons_self)).1

/-! ### Glicko-2 -/

/-- The same player in exact arithmetic. -/
noncomputable def glicko2Real (a : Glicko2.Glicko2Rating (FP E)) : Glicko2.Glicko2Rating ℝ :=
  ⟨a.rating.toR, a.deviation.toR, a.volatility.toR⟩

/-- The combined deviation of two players on the internal scale. -/
theorem hypot_ap_two (P : E.Precise) {x y : FP E} {φ ψ : ℝ} (hx : Ap 2 18 x φ) (hy : Ap 2 18 y ψ) :
    Ap 4 19 (Flt.hypot x y) √(φ ^ 2 + ψ ^ 2) := by
  have hφ := hx.2.pos
  have hψ := hy.2.pos
  have m : Mid 19 √(φ ^ 2 + ψ ^ 2) := by
    constructor
    · refine Real.le_sqrt_of_sq_le ?_
      have : (1 / 2 ^ 18) ^ 2 ≤ φ ^ 2 := pow_le_pow_left₀ (by positivity) hx.2.1 2
      norm_num at this ⊢
      nlinarith [_root_.sq_nonneg ψ]
    · rw [Real.sqrt_le_iff]
      have h1 := hx.2.2
      have h2 := hy.2.2
      refine ⟨by positivity, ?_⟩
      norm_num at h1 h2 ⊢
      nlinarith
  refine ⟨?_, m⟩
  have px := (hx.1.pos (by norm_num) hφ).1
  have py := (hy.1.pos (by norm_num) hψ).1
  have key : ∀ {x : FP E} {a : ℝ}, 0 < a → Rel 2 x a → (1 - 2 / 2 ^ 50) * a ≤ x.toR ∧ x.toR ≤ (1 + 2 / 2 ^ 50) * a := by
    intro x a h0 h
    have := abs_le.1 (h.near h0.le).2
    constructor <;> linarith [this.1, this.2]
  obtain ⟨x1, x2⟩ := key hφ hx.1
  obtain ⟨y1, y2⟩ := key hψ hy.1
  have u1 : √(x.toR ^ 2 + y.toR ^ 2) ≤ (1 + 2 / 2 ^ 50) * √(φ ^ 2 + ψ ^ 2) := by
    rw [Real.sqrt_le_iff]
    refine ⟨by positivity, ?_⟩
    rw [mul_pow, Real.sq_sqrt (by positivity), mul_add, ← mul_pow, ← mul_pow]
    exact add_le_add (pow_le_pow_left₀ px.le x2 2) (pow_le_pow_left₀ py.le y2 2)
  have u2 : (1 - 2 / 2 ^ 50) * √(φ ^ 2 + ψ ^ 2) ≤ √(x.toR ^ 2 + y.toR ^ 2) := by
    refine Real.le_sqrt_of_sq_le ?_
    rw [mul_pow, Real.sq_sqrt (by positivity), mul_add, ← mul_pow, ← mul_pow]
    have c : (0 : ℝ) ≤ 1 - 2 / 2 ^ 50 := by norm_num
    exact add_le_add (pow_le_pow_left₀ (mul_nonneg c hφ.le) x1 2) (pow_le_pow_left₀ (mul_nonneg c hψ.le) y1 2)
  have m1 := m.1
  have m2 := m.2
  have big : ∀ {z : ℝ}, 1 / 2 ^ 20 ≤ z → z ≤ 2 ^ 20 → 1 / 2 ^ 500 ≤ z ∧ z ≤ 2 ^ 500 := fun h1 h2 =>
    ⟨le_trans (one_div_le_one_div_of_le (by positivity) (pow_le_pow_right₀ (by norm_num) (by norm_num))) h1,
      h2.trans (pow_le_pow_right₀ (by norm_num) (by norm_num))⟩
  have b := big (z := √(x.toR ^ 2 + y.toR ^ 2)) (by norm_num at *; linarith) (by norm_num at *; linarith)
  have h := P.hypot x y hx.1.1 hy.1.1 b.1 b.2
  refine Rel.of_near m.pos ⟨h.1, ?_⟩
  have hh := h.2
  replace hh : |(Flt.hypot x y).toR - √(x.toR ^ 2 + y.toR ^ 2)| ≤ √(x.toR ^ 2 + y.toR ^ 2) / 2 ^ 50 := hh
  have mp := m.pos
  generalize √(φ ^ 2 + ψ ^ 2) = R at *
  generalize √(x.toR ^ 2 + y.toR ^ 2) = S at *
  have hk := abs_le.1 hh
  rw [abs_le]
  norm_num at *
  constructor <;> linarith [hk.1, hk.2]

/-- The weight of an opponent. -/
theorem g2_ap_wide (L : E.Lib) {x : FP E} {φ : ℝ} (hx : Ap 4 19 x φ) :
    Ap 17 45 (Glicko2.gValue x) (glicko2G φ) := by
  have h3 : Ap 0 2 (3.0 : FP E) 3 :=
    ⟨lit_rel (lit_in (E := E) (m := 30) (s := true) (e := 1) (v := 3) (by norm_num)
      (SRep.ofNat 3 (by norm_num))), by norm_num, by norm_num⟩
  have a1 := h3.mul (hx.sq L (by norm_num) (by norm_num)) (by norm_num) (by norm_num) (by norm_num)
  have a2 := a1.div (pi_ap.sq L (by norm_num) (by norm_num)) (by norm_num) (by norm_num)
    (by norm_num)
  have a3 := ((one_ap (E := E)).mono (by norm_num) (by norm_num)).add a2 (by norm_num) (by norm_num)
  have a4 := (a3.sqrt (by norm_num) (by norm_num)).recip (by norm_num) (by norm_num)
  exact a4.mono (by norm_num) (by norm_num)

/-- The logistic function of an approximated number. -/
theorem logistic_exp_near (A : E.Accurate) {t : FP E} {T τ : ℝ} (ht : Near (τ / 2 ^ 50) t T) (hT : |T| ≤ 200)
    (hτ : τ ≤ 2 ^ 12) :
    Near ((2 * τ + 4) / 2 ^ 50) (Flt.recip ((1.0 : FP E) + Flt.exp t)) (1 / (1 + Real.exp T)) := by
  have e1 := exp_ap A ht hT (by norm_num at hτ ⊢; linarith)
  have h0 := e1.1.nonneg
  have hk : 2 * τ + 2 ≤ 2 ^ 14 := by norm_num at hτ ⊢; linarith
  have r := ((((one_ap (E := E)).mono (k' := 2 * τ + 2) (n' := 300) h0 (by norm_num)).add e1
    (by norm_num at hk ⊢; linarith) (by norm_num)).recip (by norm_num at hk ⊢; linarith) (by norm_num))
  have hp := Real.exp_pos T
  refine (r.1.near (by positivity)).mono ?_
  have : 1 / (1 + Real.exp T) ≤ 1 := by rw [div_le_one (by positivity)]; linarith
  refine (mul_le_of_le_one_right (div_nonneg (by linarith) (by positivity)) this).trans (le_of_eq ?_)
  ring

theorem glicko2_expected_near (L : E.Lib) (A : E.Accurate) (P : E.Precise)
    {a b : Glicko2.Glicko2Rating (FP E)} (ha : Glicko2Usual a) (hb : Glicko2Usual b) (neg : Bool) :
    Near (1 / 2 ^ 37) (Flt.recip ((1.0 : FP E) + Flt.exp (bif neg then
        -(Glicko2.gValue (Flt.hypot (b.deviation / (173.7178 : FP E)) (a.deviation / (173.7178 : FP E)))
          * ((a.rating - (1500.0 : FP E)) / (173.7178 : FP E) - (b.rating - (1500.0 : FP E)) / (173.7178 : FP E)))
        else
        -Glicko2.gValue (Flt.hypot (b.deviation / (173.7178 : FP E)) (a.deviation / (173.7178 : FP E)))
          * ((a.rating - (1500.0 : FP E)) / (173.7178 : FP E) - (b.rating - (1500.0 : FP E)) / (173.7178 : FP E)))))
      (glicko2E (glicko2Mu a.rating.toR) (glicko2Mu b.rating.toR)
        √(glicko2Phi b.deviation.toR ^ 2 + glicko2Phi a.deviation.toR ^ 2)) := by
  have hg := g2_ap_wide L (hypot_ap_two P (Glicko2.phi_ap hb.deviation) (Glicko2.phi_ap ha.deviation))
  set G := glicko2G √(glicko2Phi b.deviation.toR ^ 2 + glicko2Phi a.deviation.toR ^ 2) with hG
  have G1 : G ≤ 1 := Glicko2.g2_le _
  have G0 : 0 < G := Glicko2.g2_pos _
  have ht := Glicko2.mu_diff ha.rating hb.rating
  have hD : |(a.rating.toR - b.rating.toR) / glicko2Scale| ≤ 95 := by
    rw [Glicko2.scale_eq, abs_div, abs_of_pos (by norm_num : (0 : ℝ) < 1737178 / 10000),
      div_le_iff₀ (by norm_num)]
    refine (abs_sub _ _).trans ?_
    have h1 := ha.rating.2
    have h2 := hb.rating.2
    norm_num at h1 h2 ⊢; linarith
  set D := (a.rating.toR - b.rating.toR) / glicko2Scale with hDD
  have n1 : Near (17 / 2 ^ 50) (Glicko2.gValue (Flt.hypot (b.deviation / (173.7178 : FP E))
      (a.deviation / (173.7178 : FP E)))) G := (hg.1.near G0.le).mono (by
    have : 17 / 2 ^ 50 * G ≤ 17 / 2 ^ 50 * 1 := mul_le_mul_of_nonneg_left G1 (by positivity)
    linarith)
  have hGD : |G * D| ≤ 95 := by
    rw [abs_mul, abs_of_pos G0]
    exact (mul_le_of_le_one_left (abs_nonneg _) G1).trans hD
  have key : Near (2500 / 2 ^ 50) (bif neg then
        -(Glicko2.gValue (Flt.hypot (b.deviation / (173.7178 : FP E)) (a.deviation / (173.7178 : FP E)))
          * ((a.rating - (1500.0 : FP E)) / (173.7178 : FP E) - (b.rating - (1500.0 : FP E)) / (173.7178 : FP E)))
        else
        -Glicko2.gValue (Flt.hypot (b.deviation / (173.7178 : FP E)) (a.deviation / (173.7178 : FP E)))
          * ((a.rating - (1500.0 : FP E)) / (173.7178 : FP E) - (b.rating - (1500.0 : FP E)) / (173.7178 : FP E)))
      (-(G * D)) := by
    have bound : ∀ g : ℝ, |g| = G → |g * D| = |G * D| → |g * D| + (17 / 2 ^ 50 * |D| + |g| * (800 / 2 ^ 50)
        + 17 / 2 ^ 50 * (800 / 2 ^ 50)) ≤ 96 ∧
        17 / 2 ^ 50 * |D| + |g| * (800 / 2 ^ 50) + 17 / 2 ^ 50 * (800 / 2 ^ 50) + 96 / 2 ^ 51 ≤ 2500 / 2 ^ 50 := by
      intro g e1 e2
      rw [e1, e2]
      generalize |G * D| = z at *
      constructor <;> norm_num at * <;> linarith
    cases neg with
    | false =>
      have n2 := n1.neg
      obtain ⟨k1, k2⟩ := bound (-G) (by rw [abs_neg, abs_of_pos G0]) (by rw [neg_mul, abs_neg])
      have := (near_mul n2 ht k1 (by norm_num) (le_huge 7 (by norm_num) (by norm_num))).mono k2
      rw [neg_mul] at this
      exact this
    | true =>
      obtain ⟨k1, k2⟩ := bound G (abs_of_pos G0) rfl
      exact ((near_mul n1 ht k1 (by norm_num) (le_huge 7 (by norm_num) (by norm_num))).mono k2).neg
  have hf := logistic_exp_near A key (by rw [abs_neg]; linarith) (by norm_num)
  have e : glicko2E (glicko2Mu a.rating.toR) (glicko2Mu b.rating.toR)
      √(glicko2Phi b.deviation.toR ^ 2 + glicko2Phi a.deviation.toR ^ 2) = 1 / (1 + Real.exp (-(G * D))) := by
    have e2 : glicko2Mu a.rating.toR - glicko2Mu b.rating.toR = D := by
      rw [hDD, glicko2Mu, glicko2Mu]; ring
    rw [glicko2E, e2, ← hG]
  rw [e]
  exact hf.mono (by norm_num)

/-- Glicko-2, expected scores: within `2 ^ -36` of the exact formula. -/
theorem C134_glicko2_expected (L : E.Lib) (A : E.Accurate) (P : E.Precise)
    (a b : Glicko2.Glicko2Rating (FP E)) (ha : Glicko2Usual a) (hb : Glicko2Usual b) :
    Near (1 / 2 ^ 37) (Glicko2.expectedScore a b).1
      (Glicko2.expectedScore (glicko2Real a) (glicko2Real b)).1 ∧
    Near (1 / 2 ^ 36) (Glicko2.expectedScore a b).2
      (Glicko2.expectedScore (glicko2Real a) (glicko2Real b)).2 := by
  have he := glicko2_expected_near L A P ha hb false
  rw [Glicko2.expectedScore_real]
  have h01 := (Glicko2.C35_glicko2_expected_probability (glicko2Real a) (glicko2Real b))
  rw [Glicko2.expectedScore_real] at h01
  refine ⟨he, ?_⟩
  set e := glicko2E (glicko2Mu a.rating.toR) (glicko2Mu b.rating.toR)
        √(glicko2Phi b.deviation.toR ^ 2 + glicko2Phi a.deviation.toR ^ 2)
  have p0 : 0 ≤ e ∧ e ≤ 1 := ⟨h01.fst_pos.le, h01.fst_lt_one.le⟩
  exact (near_sub (near_of_in one_in) he (M := 2) (by
    rw [abs_of_nonneg (by linarith [p0.2])]; norm_num; linarith [p0.1]) (by norm_num)
    (le_huge 1 (by norm_num) (by norm_num))).mono (by norm_num)

/-- Glicko-2, expected scores of a rating period, opponent by opponent. -/
theorem C134_glicko2_expected_period (L : E.Lib) (A : E.Accurate) (P : E.Precise)
    (p : Glicko2.Glicko2Rating (FP E)) (os : List (Glicko2.Glicko2Rating (FP E))) (hp : Glicko2Usual p)
    (ho : ∀ o ∈ os, Glicko2Usual o) :
    List.Forall₂ (Near (1 / 2 ^ 37)) (Glicko2.expectedScoreRatingPeriod p os)
      (Glicko2.expectedScoreRatingPeriod (glicko2Real p) (os.map glicko2Real)) := by
  induction os with
  | nil => exact List.Forall₂.nil
  | cons o os ih =>
    refine List.Forall₂.cons ?_ (ih fun x hx => ho x (List.mem_cons_of_mem _ hx))
    have e := Glicko2.C35_glicko2_expected_list (F := ℝ) (fun x y => neg_mul x y) (glicko2Real p) [glicko2Real o]
    simp only [Glicko2.expectedScoreRatingPeriod, List.map_cons, List.map_nil, List.cons.injEq, and_true] at e
    beta_reduce
    rw [e, Glicko2.expectedScore_real]
    exact glicko2_expected_near L A P hp (ho o List.mem_cons_self) true

/-- Glicko-2, the ends of the confidence interval: within `2 ^ -36` of the exact ones. -/
theorem C134_glicko2_interval (p : Glicko2.Glicko2Rating (FP E)) (hp : Glicko2Usual p) :
    Near (1 / 2 ^ 36) (Glicko2.confidenceInterval p).1 (Glicko2.confidenceInterval (glicko2Real p)).1 ∧
    Near (1 / 2 ^ 36) (Glicko2.confidenceInterval p).2 (Glicko2.confidenceInterval (glicko2Real p)).2 := by
  have l1 : Near (2 / 2 ^ 51) (1.96 : FP E) (1.96 : ℝ) :=
    round_abs false (by rw [abs_of_pos] <;> norm_num) (by norm_num) (le_huge 1 (by norm_num) (by norm_num))
  obtain ⟨⟨hr, hr2⟩, ⟨fd, d1, d2⟩, -⟩ := hp
  have d0 : 0 < p.deviation.toR := lt_of_lt_of_le (by positivity) d1
  have key : ∀ (x : FP E) (d : ℝ), Near 0 x d → |d| ≤ 1000 →
      Near (1 / 2 ^ 36) (Flt.mulAdd (1.96 : FP E) x p.rating) (1.96 * d + p.rating.toR) := by
    intro x d hx hd
    have hm : |1.96 * d + p.rating.toR| ≤ 2 ^ 13 + 2 ^ 11 := by
      refine (abs_add_le _ _).trans ?_
      rw [abs_mul, abs_of_pos (by norm_num : (0 : ℝ) < 1.96)]
      norm_num at hd hr2 ⊢; linarith
    refine (near_mulAdd l1 hx (near_self hr) (M := 2 ^ 14) ?_ (by norm_num)
      (le_huge 14 (by norm_num) (by norm_num))).mono ?_
    · norm_num at hm hd ⊢; linarith
    · norm_num at hd ⊢; linarith
  have hd : |p.deviation.toR| ≤ 1000 := by rw [abs_of_pos d0]; exact d2
  refine ⟨?_, ?_⟩
  · exact key (-p.deviation) (-p.deviation.toR) (by simpa using (near_self fd).neg) (by rwa [abs_neg])
  · exact key p.deviation p.deviation.toR (near_self fd) hd

/-! ### Concrete cases -/

/-- The standard Ingo player against another one. -/
example (o : Outcomes) :
    Near (1 / 2 ^ 23) (Ingo.ingoRatingPeriod (F := FP ieee) ⟨230.0, 30⟩ [(⟨190.0, 22⟩, o)]).rating
      (Ingo.ingoRatingPeriod (F := ℝ) ⟨(230.0 : FP ieee).toR, 30⟩ [(⟨(190.0 : FP ieee).toR, 22⟩, o)]).rating :=
  (C134_ingo_period _ [(⟨190.0, 22⟩, o)]
    (lit_usual (v := 230) (by norm_num) (SRep.ofNat 230 (by norm_num)) (by norm_num))
    (by
      simp only [List.mem_singleton]
      rintro r rfl
      exact lit_usual (v := 190) (by norm_num) (SRep.ofNat 190 (by norm_num)) (by norm_num))
    (by simp) (by simp)).1

/-- Two new Glicko-2 players. -/
example : Near (1 / 2 ^ 37) (Glicko2.expectedScore (F := FP ieee) Glicko2.Glicko2Rating.new
      Glicko2.Glicko2Rating.new).1 (1 / 2) := by
  have h := (C134_glicko2_expected ieee_lib ieee_accurate ieee_precise Glicko2.Glicko2Rating.new
    Glicko2.Glicko2Rating.new Glicko2.new_usual Glicko2.new_usual).1
  have e : (Glicko2.expectedScore (glicko2Real (E := ieee) Glicko2.Glicko2Rating.new)
      (glicko2Real (E := ieee) Glicko2.Glicko2Rating.new)).1 = 1 / 2 := by
    rw [Glicko2.expectedScore_real, glicko2E]
    norm_num
  rwa [e] at h

/-- A knockout match with an importance of 60, starting from the same rating. -/
example (o : Outcomes) :
    Near (0 + 1 / 2 ^ 29) (Fifa.fifaRatingPeriod (F := FP ieee) ⟨1500.0⟩ [(⟨1600.0⟩, o, ⟨60.0, true, false⟩)]).rating
      (Fifa.fifaRatingPeriod (F := ℝ) ⟨(1500.0 : FP ieee).toR⟩
        [(⟨(1600.0 : FP ieee).toR⟩, o, ⟨(60.0 : FP ieee).toR, true, false⟩)]).rating := by
  have h15 : Within (E := ieee) ((1500 : ℕ) : ℝ) (1500.0 : FP ieee) :=
    lit_usual (v := 1500) (by norm_num) (SRep.ofNat 1500 (by norm_num)) (by norm_num)
  have h60 := lit_in (E := ieee) (m := 600) (s := true) (e := 1) (v := 60) (by norm_num)
    (SRep.ofNat 60 (by norm_num))
  have := C134_fifa_period ieee_lib ieee_accurate ⟨1500.0⟩ ⟨(1500.0 : FP ieee).toR⟩
    [(⟨1600.0⟩, o, ⟨60.0, true, false⟩)] 1500 60 0 h15 (near_self h15.1)
    (by
      simp only [List.mem_singleton]
      rintro r rfl
      exact lit_usual (v := 1600) (by norm_num) (SRep.ofNat 1600 (by norm_num)) (by norm_num))
    (by
      simp only [List.mem_singleton]
      rintro r rfl
      exact ⟨lit_usual (v := 60) (by norm_num) (SRep.ofNat 60 (by norm_num)) (by norm_num),
        le_trans (by norm_num) h60.toR.1⟩) (by norm_num) (by norm_num)
  simpa using this

end Skillratings
