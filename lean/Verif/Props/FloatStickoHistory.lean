import Verif.Props.FloatHistories
import Verif.Props.FloatAccuracySticko
import Verif.Props.FloatSystems
/-
C100: histories of Sticko games and rating periods in floating point (src/sticko.rs).
-/
namespace Skillratings
open FP FPVal Spec
variable {E : FloatEnv}

/-- A rating that is pushed by at most `K` and pulled towards a number of the same size. -/
theorem pulled_within {B K : ℕ} {k s x μ l : FP E} (hk : k.isFinite) (hs : s.isFinite)
    (hks : |k.toR * s.toR| ≤ K) (hx : Within B x) (hμ : Within B μ) (hl : l.isFinite)
    (hl0 : 0 ≤ l.toR) (hl1 : l.toR ≤ 1) (h : B + K ≤ 2 ^ 30) :
    Within ((B + K + 1 : ℕ) : ℝ) (Flt.mulAdd k s x + l * (μ - x)) := by
  have hR : (B : ℝ) + K ≤ 2 ^ 30 := by exact_mod_cast h
  have hB : (0 : ℝ) ≤ B := Nat.cast_nonneg B
  have hK : (0 : ℝ) ≤ K := Nat.cast_nonneg K
  have hd : |μ.toR - x.toR| ≤ 2 ^ 31 := (abs_sub _ _).trans (by linarith [hx.2, hμ.2])
  have n1 := (near_sub (near_self hμ.1) (near_self hx.1) (M := 2 ^ 31) (by linarith)
    (by norm_num) (le_huge 31 le_rfl (by norm_num))).mono (δ := 1 / 2 ^ 20) (by norm_num)
  have hl2 : |l.toR| ≤ 1 := abs_le.2 ⟨by linarith, hl1⟩
  have hp : |l.toR * (μ.toR - x.toR)| ≤ 2 ^ 31 := by
    rw [abs_mul]
    calc _ ≤ 1 * |μ.toR - x.toR| := mul_le_mul_of_nonneg_right hl2 (abs_nonneg _)
      _ ≤ _ := by linarith
  have n2 := (near_mul (near_self hl) n1 (M := 2 ^ 32) (by linarith) (by norm_num)
    (le_huge 32 le_rfl (by norm_num))).mono (δ := 1 / 2 ^ 18) (by norm_num at hl2 ⊢; linarith)
  have hm : |k.toR * s.toR + x.toR| ≤ 2 ^ 30 := (abs_add_le _ _).trans (by linarith [hx.2])
  have n3 := (near_mulAdd (near_self hk) (near_self hs) (near_self hx.1) (M := 2 ^ 31)
    (by linarith) (by norm_num) (le_huge 31 le_rfl (by norm_num))).mono (δ := 1 / 2 ^ 20)
    (by norm_num)
  have n4 := near_add n3 n2 (M := 2 ^ 33) (by
    refine (add_le_add_left (abs_add_le _ _) _).trans ?_
    norm_num at hm hp ⊢
    linarith) (by norm_num) (le_huge 33 le_rfl (by norm_num))
  refine ⟨n4.1, ?_⟩
  have h1 := abs_le.1 n4.2
  have h2 := abs_le.1 hks
  have h3 := abs_le.1 hx.2
  have h4 := abs_le.1 hμ.2
  have h5 : |x.toR + l.toR * (μ.toR - x.toR)| ≤ B := by
    rw [abs_le]; constructor <;> nlinarith
  have h6 := abs_le.1 h5
  push_cast
  rw [abs_le]
  constructor <;> norm_num at h1 ⊢ <;> linarith

/-- The share `lambda / 100`. -/
theorem share_in {l : FP E} (hl : l.isFinite) (h0 : 0 ≤ l.toR) (h1 : l.toR ≤ 100) :
    In (E := E) ((0 : ℝ) : EReal) ((1 : ℝ) : EReal) (l / (100.0 : FP E)) := by
  have h100 := lit_in (E := E) (m := 1000) (s := true) (e := 1) (v := 100) (by norm_num)
    (SRep.ofNat 100 (by norm_num))
  obtain ⟨t, ht⟩ := div_fin hl h100.finite (by intro h; linarith [h100.toR.1])
  have e100 : FP.toR (100.0 : FP E) = 100 := le_antisymm h100.toR.2 h100.toR.1
  rw [ht, e100]
  exact In.of_round t SRep.zero SRep.one (by positivity) (by rw [div_le_one (by norm_num)]; exact h1)

/-- Parameters of Sticko in the range for which histories are bounded: the decay constant is at
least 1, the pull between 0 and 100 percent, the bonus at most `b`, the advantage at most `C`. -/
structure StickoMild (b C : ℕ) (cf : Sticko.StickoConfig (FP E)) : Prop where
  c : cf.c.isFinite ∧ 1 ≤ cf.c.toR
  lambda : cf.lambda.isFinite ∧ 0 ≤ cf.lambda.toR ∧ cf.lambda.toR ≤ 100
  beta : Within b cf.beta
  gamma : Within C cf.gamma

theorem sticko_side_mild {B b C : ℕ} (L : E.Lib) (x y : Sticko.StickoRating (FP E))
    (c : Sticko.StickoConfig (FP E)) (s col : FP E) {v : ℝ}
    (hx : Within B x.rating) (hy : Within B y.rating) (hdx : ¬ x.deviation.isNaN)
    (hdy : ¬ y.deviation.isNaN) (hc : StickoMild b C c)
    (h : B + 958 * (1 + b) ≤ 2 ^ 30) (h' : C ≤ 2 ^ 30) (hcol : Within 1 col)
    (hs : In (E := E) (v : EReal) (v : EReal) s) (hv0 : 0 ≤ v) (hv1 : v ≤ 1) :
    let q : FP E := Flt.ln 10.0 / 400.0
    let g := Sticko.gValue q y.deviation
    let e := Sticko.eValue g x.rating y.rating c.gamma col
    let d := Sticko.dValue q g e
    let pre := Flt.fmin (Flt.hypot x.deviation c.c) (350.0 : FP E)
    Within ((B + 958 * (1 + b) + 1 : ℕ) : ℝ) (Sticko.newRating x.rating pre q d g s e c.beta
      ((c.lambda / 100.0) * (y.rating - x.rating))) := by
  intro q g e d pre
  have hB : 2 * B + C < 2 ^ 53 := by
    have : (2 : ℕ) ^ 30 = 1073741824 := by norm_num
    omega
  have hgr : In 0 1 g := g_glicko_in L hdy
  have hdiff : Within ((2 * B : ℕ) : ℝ) (x.rating - y.rating) :=
    sub_bound hx.1 hy.1 hx.2 hy.2 (within_nat (by omega)) (by push_cast; linarith)
  have harg : Within ((2 * B + C : ℕ) : ℝ) (Flt.mulAdd c.gamma col (x.rating - y.rating)) :=
    mulAdd_abs_in hc.gamma hcol hdiff (within_nat hB) (by push_cast; linarith)
  have he : In 0 1 e := pow_score L (exponent_not_nan hgr harg.1)
  have hd : d = Flt.recip (Flt.powi q 2 * Flt.powi g 2 * e * (1.0 - e)) := powi_neg_one' L _
  have hpre : In (E := E) ((1 : ℝ) : EReal) ((350 : ℝ) : EReal) pre := pre_in L hdx hc.c.1 hc.c.2
  have ht := total_in L (k := 0) (by norm_num) hpre
    ((dValue_arg_in L hgr he).mono le_rfl (by norm_num))
  have h1 := surprise hs he hv0 hv1
  have hkg := mul_in (gain_in L ht) (unit_in hgr) le_rfl le_rfl SRep.zero
    (SRep.ofNat 958 (by norm_num)) (by norm_num) (by norm_num)
  have hb1 : Within ((1 + b : ℕ) : ℝ) (s - e + c.beta) :=
    add_bound h1.1 hc.beta.1 (abs_le.2 ⟨h1.2.1, h1.2.2.1⟩) hc.beta.2
      (within_nat (by omega)) (by push_cast; linarith)
  have hsh := share_in hc.lambda.1 hc.lambda.2.1 hc.lambda.2.2
  rw [← hd] at hkg
  refine pulled_within hkg.finite hb1.1 ?_ hx hy hsh.finite hsh.toR.1 hsh.toR.2 h
  have h2 := hkg.toR
  rw [abs_mul, abs_of_nonneg h2.1]
  push_cast
  have := mul_le_mul h2.2 hb1.2 (abs_nonneg _) (by norm_num)
  push_cast at this
  exact this

/-- Sticko: histories of any length. -/
theorem C100_sticko_history {ι : Type} [DecidableEq ι] (L : E.Lib)
    (pool : ι → Sticko.StickoRating (FP E)) (games : List (Game ι (Sticko.StickoConfig (FP E))))
    (B b C : ℕ) (hp : ∀ i, Within B (pool i).rating) (hd : ∀ i, ¬ (pool i).deviation.isNaN)
    (hc : ∀ g ∈ games, StickoMild b C g.config) (hC : C ≤ 2 ^ 30)
    (h : B + games.length * (958 * (1 + b) + 1) ≤ 2 ^ 30) (i : ι) :
    Within ((B + games.length * (958 * (1 + b) + 1) : ℕ) : ℝ)
      (tournament Sticko.sticko pool games i).rating ∧
    ¬ (tournament Sticko.sticko pool games i).deviation.isNaN := by
  have := tournament_counted Sticko.sticko
    (fun n a => Within ((B + n * (958 * (1 + b) + 1) : ℕ) : ℝ) a.rating ∧ ¬ a.deviation.isNaN)
    (StickoMild b C) games.length
    (fun n a ha => ⟨ha.1.mono (by push_cast; nlinarith [Nat.cast_nonneg (α := ℝ) b]), ha.2⟩)
    (by
      intro n a z o c hn hc ha hb
      have e : B + (n + 1) * (958 * (1 + b) + 1)
          = B + n * (958 * (1 + b) + 1) + 958 * (1 + b) + 1 := by ring
      have hle : B + n * (958 * (1 + b) + 1) + 958 * (1 + b) ≤ 2 ^ 30 := by
        have := Nat.mul_le_mul_right (958 * (1 + b) + 1) hn
        rw [Nat.add_mul, Nat.one_mul] at this
        omega
      rw [e]
      have cap := C101_sticko_cap a z o c
      exact ⟨⟨sticko_side_mild L a z c _ _ ha.1 hb.1 ha.2 hb.2 hc hle hC one_within
          (points_in (E := E) o) (pointsR_nonneg o) (pointsR_le_one o), cap.1.1.1⟩,
        ⟨sticko_side_mild L z a c _ _ hb.1 ha.1 hb.2 ha.2 hc hle hC neg_one_within
          (points_in' (E := E) o) (by linarith [pointsR_le_one o])
          (by linarith [pointsR_nonneg o]), cap.2.1.1⟩⟩)
    pool games 0 (by omega) hc (by simpa using fun i => ⟨hp i, hd i⟩) i
  simpa using this

/-- The mean of floating-point numbers up to `B` is up to `B`. -/
theorem mean_within {B : ℕ} (l : List (FP E)) (hl : l ≠ []) (h : ∀ x ∈ l, Within B x)
    (hB : l.length * B < 2 ^ 53) (hn : l.length < 2 ^ 53) (hB' : B < 2 ^ 53) :
    Within (B : ℝ) (Flt.sum l / Flt.ofNat l.length) := by
  have h1 := sum_within l B hB h
  have h2 := ofNat_in (E := E) hn
  have hpos : (0 : ℝ) < l.length := by
    have := List.length_pos_iff.2 hl
    exact_mod_cast this
  have e2 : FP.toR (Flt.ofNat l.length : FP E) = l.length := le_antisymm h2.toR.2 h2.toR.1
  obtain ⟨t, ht⟩ := div_fin h1.1 h2.finite (by rw [e2]; exact hpos.ne')
  rw [ht, e2]
  have h3 := abs_le.1 h1.2
  push_cast at h3
  exact In.within (In.of_round t (within_nat hB').neg (within_nat hB')
    (by rw [le_div_iff₀ hpos]; linarith) (by rw [div_le_iff₀ hpos]; linarith))

/-- A Sticko rating period of any length. -/
theorem C100_sticko_period (L : E.Lib) (p : Sticko.StickoRating (FP E))
    (rs : List (Sticko.StickoRating (FP E) × Outcomes × Bool)) (c : Sticko.StickoConfig (FP E))
    (B b C : ℕ) (hp : Within B p.rating) (hd : ¬ p.deviation.isNaN)
    (hr : ∀ r ∈ rs, Within B r.1.rating ∧ ¬ r.1.deviation.isNaN)
    (hc : StickoMild b C c) (hC : C ≤ 2 ^ 30) (hB : rs.length * B < 2 ^ 53)
    (h : B + 958 * (rs.length * (1 + b)) ≤ 2 ^ 30) :
    Within ((B + 958 * (rs.length * (1 + b)) + 1 : ℕ) : ℝ)
      (Sticko.stickoRatingPeriod p rs c).rating := by
  by_cases hne : rs = []
  · subst hne
    exact hp.mono (by simp)
  · have hem : rs.isEmpty = false := by simpa using hne
    have hpre := pre_in L hd hc.c.1 hc.c.2
    have hlen : rs.length ≤ 2 ^ 30 := by
      have : rs.length ≤ rs.length * (1 + b) := Nat.le_mul_of_pos_right _ (by omega)
      omega
    have h30 : (2 : ℕ) ^ 30 = 1073741824 := by norm_num
    have h53 : (2 : ℕ) ^ 53 = 9007199254740992 := by norm_num
    simp only [Sticko.stickoRatingPeriod, hem, Bool.false_eq_true, if_false]
    have hg : ∀ r ∈ rs, In 0 1 (Sticko.gValue (Flt.ln (10.0 : FP E) / 400.0) r.1.deviation) :=
      fun r h => g_glicko_in L (hr r h).2
    have hcol : ∀ f : Bool, Within 1 (if f then (1.0 : FP E) else -1.0) := by
      intro f; cases f
      · exact neg_one_within
      · exact one_within
    have he : ∀ r ∈ rs, In 0 1 (Sticko.eValue (Sticko.gValue (Flt.ln (10.0 : FP E) / 400.0)
        r.1.deviation) p.rating r.1.rating c.gamma (if r.2.2 then 1.0 else -1.0)) := fun r hm => by
      have hdiff : Within ((2 * B : ℕ) : ℝ) (p.rating - r.1.rating) :=
        sub_bound hp.1 (hr r hm).1.1 hp.2 (hr r hm).1.2 (within_nat (by omega))
          (by push_cast; linarith)
      have harg : Within ((2 * B + C : ℕ) : ℝ) (Flt.mulAdd c.gamma (if r.2.2 then 1.0 else -1.0)
          (p.rating - r.1.rating)) :=
        mulAdd_abs_in hc.gamma (hcol _) hdiff (within_nat (by omega)) (by push_cast; linarith)
      exact pow_score L (exponent_not_nan (hg r hm) harg.1)
    have hi := sum_unit_in (rs.map fun r =>
        Flt.powi (Sticko.gValue (Flt.ln (10.0 : FP E) / 400.0) r.1.deviation) 2
        * Sticko.eValue (Sticko.gValue (Flt.ln (10.0 : FP E) / 400.0) r.1.deviation) p.rating
          r.1.rating c.gamma (if r.2.2 then 1.0 else -1.0)
        * (1.0 - Sticko.eValue (Sticko.gValue (Flt.ln (10.0 : FP E) / 400.0) r.1.deviation)
          p.rating r.1.rating c.gamma (if r.2.2 then 1.0 else -1.0)))
        (by rw [List.length_map]; omega) (by
        intro x hx
        obtain ⟨r, hm, rfl⟩ := List.mem_map.1 hx
        exact information_in L (hg r hm) (he r hm))
    have hm := sum_within (rs.map fun r =>
        Sticko.gValue (Flt.ln (10.0 : FP E) / 400.0) r.1.deviation
        * (r.2.1.toChessPoints - Sticko.eValue (Sticko.gValue (Flt.ln (10.0 : FP E) / 400.0)
          r.1.deviation) p.rating r.1.rating c.gamma (if r.2.2 then 1.0 else -1.0) + c.beta))
        (1 + b) (by rw [List.length_map]; omega) (by
        intro x hx
        obtain ⟨r, hm, rfl⟩ := List.mem_map.1 hx
        have h1 := surprise (points_in (E := E) r.2.1) (he r hm) (pointsR_nonneg r.2.1)
          (pointsR_le_one r.2.1)
        have hb1 : Within ((1 + b : ℕ) : ℝ) (r.2.1.toChessPoints - Sticko.eValue (Sticko.gValue
            (Flt.ln (10.0 : FP E) / 400.0) r.1.deviation) p.rating r.1.rating c.gamma
            (if r.2.2 then 1.0 else -1.0) + c.beta) :=
          add_bound h1.1 hc.beta.1 (abs_le.2 ⟨h1.2.1, h1.2.2.1⟩) hc.beta.2
            (within_nat (by
              have : 1 + b ≤ rs.length * (1 + b) :=
                Nat.le_mul_of_pos_left _ (List.length_pos_iff.2 hne)
              omega)) (by push_cast; linarith)
        exact mul_abs_in (In.within ((unit_in (hg r hm)).mono (by norm_num) le_rfl)) hb1
          (within_nat (by
              have : 1 + b ≤ rs.length * (1 + b) :=
                Nat.le_mul_of_pos_left _ (List.length_pos_iff.2 hne)
              omega)) (by push_cast; linarith))
    rw [List.length_map] at hi hm
    have hlen' : (rs.length : ℝ) ≤ 2 ^ 53 := by
      have : rs.length ≤ 2 ^ 53 := by omega
      exact_mod_cast this
    have hqi := mul_in (q_sq_in L) hi le_rfl le_rfl SRep.zero (SRep.two_pow 53 (by norm_num))
      (by norm_num) (by linarith)
    have ht := total_in L (k := 53) (by norm_num) hpre hqi
    have hgn := gain_in L ht
    have hmean := mean_within (B := B) (rs.map fun r => r.1.rating) (by simpa using hne) (by
        intro x hx
        obtain ⟨r, hm, rfl⟩ := List.mem_map.1 hx
        exact (hr r hm).1) (by rw [List.length_map]; exact hB) (by rw [List.length_map]; omega)
        (by omega)
    rw [List.length_map] at hmean
    have hsh := share_in hc.lambda.1 hc.lambda.2.1 hc.lambda.2.2
    refine pulled_within hgn.finite hm.1 ?_ hp hmean hsh.finite hsh.toR.1 hsh.toR.2 h
    have h2 := hgn.toR
    rw [abs_mul, abs_of_nonneg h2.1]
    have := mul_le_mul h2.2 hm.2 (abs_nonneg _) (by norm_num)
    push_cast at this ⊢
    exact this

/-- Three players, any million games with the parameters of the documentation's default. -/
example (games : List (Game (Fin 3) (Sticko.StickoConfig (FP ieee))))
    (hg : ∀ g ∈ games, g.config = ⟨10.0, 0.0, 2.0, 0.0, 10.0⟩) (hn : games.length ≤ 10 ^ 6)
    (i : Fin 3) : (tournament Sticko.sticko
      (fun _ => (⟨1500.0, 350.0⟩ : Sticko.StickoRating (FP ieee))) games i).rating.isFinite := by
  have lit : ∀ (m v : ℕ), (OfScientific.ofScientific m true 1 : ℝ) = v → v < 2 ^ 53 →
      (OfScientific.ofScientific m true 1 : FP ieee).isFinite ∧
      (OfScientific.ofScientific m true 1 : FP ieee).toR = v := fun m v h hv =>
    lit_rep (E := ieee) h (SRep.nat hv)
  refine (C100_sticko_history ieee_lib _ games 1500 0 0
    (fun _ => sample_within 15000 1500 (by norm_num) (by norm_num))
    (fun _ => isFinite.not_nan (lit 3500 350 (by norm_num) (by norm_num)).1)
    (fun g h => ?_) (by norm_num) (by norm_num; omega) i).1.1
  rw [hg g h]
  have h10 := lit 100 10 (by norm_num) (by norm_num)
  have h2 := lit 20 2 (by norm_num) (by norm_num)
  exact ⟨⟨h10.1, by rw [h10.2]; norm_num⟩, ⟨h2.1, by rw [h2.2]; norm_num, by rw [h2.2]; norm_num⟩,
    sample_within 0 0 (by norm_num) (by norm_num), sample_within 0 0 (by norm_num) (by norm_num)⟩

end Skillratings
