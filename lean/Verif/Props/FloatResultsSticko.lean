import Verif.Props.FloatResults
/-
C154 for Sticko: single games and rating periods.
-/
namespace Skillratings
open FP FPVal Spec
variable {E : FloatEnv}

/-- A score with a bonus. -/
theorem sub_add_mono {s t e β : FP E} {v w : ℝ} {b : ℕ} (hs : In (E := E) (v : EReal) (v : EReal) s)
    (ht : In (E := E) (w : EReal) (w : EReal) t) (he : In 0 1 e) (hv0 : 0 ≤ v) (hv1 : v ≤ 1) (hw0 : 0 ≤ w)
    (hw1 : w ≤ 1) (h : v ≤ w) (hβ : Within b β) (hb : 1 + b < 2 ^ 53) :
    Within ((1 + b : ℕ) : ℝ) (s - e + β) ∧ Within ((1 + b : ℕ) : ℝ) (t - e + β) ∧
      (s - e + β).toR ≤ (t - e + β).toR := by
  have h1 := surprise hs he hv0 hv1
  have h2 := surprise ht he hw0 hw1
  have w1 : Within ((1 + b : ℕ) : ℝ) (s - e + β) :=
    add_bound h1.1 hβ.1 (abs_le.2 ⟨h1.2.1, h1.2.2.1⟩) hβ.2 (within_nat hb) (by push_cast; linarith)
  have w2 : Within ((1 + b : ℕ) : ℝ) (t - e + β) :=
    add_bound h2.1 hβ.1 (abs_le.2 ⟨h2.2.1, h2.2.2.1⟩) hβ.2 (within_nat hb) (by push_cast; linarith)
  exact ⟨w1, w2, add_mono h1.1 hβ.1 h2.1 hβ.1 w1.1 w2.1
    (sub_score_mono hs ht he hv0 hv1 hw0 hw1 h).2.2 le_rfl⟩

/-- Adding the same number to two ordered numbers. -/
theorem add_right_mono {x y z : FP E} (hx : x.isFinite) (hy : y.isFinite) (hz : z.isFinite)
    (h : x.toR ≤ y.toR) : (x + z).toE ≤ (y + z).toE := by
  obtain ⟨s, hs⟩ := add_fin hx hz
  obtain ⟨t, ht⟩ := add_fin hy hz
  rw [hs, ht]
  exact E.round_mono _ _ (by linarith)

/-- The connectivity bonus is finite. -/
theorem sticko_lambda {B : ℕ} {l d : FP E} (hl : Within 100 l) (hd : Within ((2 * B : ℕ) : ℝ) d)
    (hB : 2 * B < 2 ^ 53) : Within ((2 * B : ℕ) : ℝ) ((l / 100.0) * d) := by
  have h100 := lit_in (E := E) (m := 1000) (s := true) (e := 1) (v := 100) (by norm_num)
    (SRep.ofNat 100 (by norm_num))
  have hlam : Within 1 (l / 100.0) := by
    obtain ⟨t, ht⟩ := div_fin hl.1 h100.finite (by intro h; linarith [h100.toR.1])
    have e100 : FP.toR (100.0 : FP E) = 100 := le_antisymm h100.toR.2 h100.toR.1
    have h2 := abs_le.1 hl.2
    rw [ht, e100]
    exact In.within (In.of_round t SRep.one.neg SRep.one
      (by rw [le_div_iff₀ (by norm_num)]; linarith)
      (by rw [div_le_iff₀ (by norm_num)]; linarith))
  exact mul_abs_in hlam hd (within_nat hB) (by push_cast; linarith)

/-- The expected score Sticko uses. -/
theorem sticko_score {B C : ℕ} (L : E.Lib) {r r' dev gam col : FP E} (hr : Within B r) (hr' : Within B r')
    (hd : ¬ dev.isNaN) (hg : Within C gam) (hcol : Within 1 col) (h : 2 * B + C < 2 ^ 53) :
    In 0 1 (Sticko.gValue (Flt.ln (10.0 : FP E) / 400.0) dev) ∧
    In 0 1 (Sticko.eValue (Sticko.gValue (Flt.ln (10.0 : FP E) / 400.0) dev) r r' gam col) := by
  have hB : 2 * B < 2 ^ 53 := lt_of_le_of_lt (by linarith [Nat.zero_le C]) h
  have hgr : In 0 1 (Sticko.gValue (Flt.ln (10.0 : FP E) / 400.0) dev) := g_glicko_in L hd
  have hdiff : Within ((2 * B : ℕ) : ℝ) (r - r') :=
    sub_bound hr.1 hr'.1 hr.2 hr'.2 (within_nat hB) (by push_cast; linarith)
  have harg : Within ((2 * B + C : ℕ) : ℝ) (Flt.mulAdd gam col (r - r')) :=
    mulAdd_abs_in hg hcol hdiff (within_nat h) (by push_cast; linarith)
  exact ⟨hgr, pow_score L (exponent_not_nan hgr harg.1)⟩

theorem sticko_side_mono {B b C : ℕ} (L : E.Lib) (x y : Sticko.StickoRating (FP E))
    (c : Sticko.StickoConfig (FP E)) (s t col : FP E) {v w : ℝ}
    (hx : Within B x.rating) (hy : Within B y.rating) (hdx : ¬ x.deviation.isNaN)
    (hdy : ¬ y.deviation.isNaN) (hc : c.c.isFinite) (hc1 : 1 ≤ c.c.toR)
    (hl : Within 100 c.lambda) (hb : Within b c.beta) (hg : Within C c.gamma)
    (h : 3 * B + 958 * (1 + b) < 2 ^ 53) (h' : 2 * B + C < 2 ^ 53) (hcol : Within 1 col)
    (hs : In (E := E) (v : EReal) (v : EReal) s) (hv0 : 0 ≤ v) (hv1 : v ≤ 1)
    (ht : In (E := E) (w : EReal) (w : EReal) t) (hw0 : 0 ≤ w) (hw1 : w ≤ 1) (hvw : v ≤ w) :
    let q : FP E := Flt.ln 10.0 / 400.0
    let g := Sticko.gValue q y.deviation
    let e := Sticko.eValue g x.rating y.rating c.gamma col
    let d := Sticko.dValue q g e
    let pre := Flt.fmin (Flt.hypot x.deviation c.c) (350.0 : FP E)
    let l := (c.lambda / 100.0) * (y.rating - x.rating)
    (Sticko.newRating x.rating pre q d g s e c.beta l).toE
      ≤ (Sticko.newRating x.rating pre q d g t e c.beta l).toE := by
  intro q g e d pre l
  have hB : 2 * B < 2 ^ 53 := lt_of_le_of_lt (by linarith [Nat.zero_le C]) h'
  obtain ⟨hgr, he⟩ : In 0 1 g ∧ In 0 1 e := sticko_score L hx hy hdy hg hcol h'
  have hd : d = Flt.recip (Flt.powi q 2 * Flt.powi g 2 * e * (1.0 - e)) := powi_neg_one' L _
  have hpre : In (E := E) ((1 : ℝ) : EReal) ((350 : ℝ) : EReal) pre := pre_in L hdx hc hc1
  have htot := total_in L (k := 0) (by norm_num) hpre
    ((dValue_arg_in L hgr he).mono le_rfl (by norm_num))
  have hkg := mul_in (gain_in L htot) (unit_in hgr) le_rfl le_rfl SRep.zero
    (SRep.ofNat 958 (by norm_num)) (by norm_num) (by norm_num)
  obtain ⟨b1, b2, b3⟩ := sub_add_mono hs ht he hv0 hv1 hw0 hw1 hvw hb
    (lt_of_le_of_lt (by linarith [Nat.zero_le B]) h)
  have hl2 : Within ((2 * B : ℕ) : ℝ) l := sticko_lambda hl
    (sub_bound hy.1 hx.1 hy.2 hx.2 (within_nat hB) (by push_cast; linarith)) hB
  have hm : ∀ {z : FP E}, Within ((1 + b : ℕ) : ℝ) z → Within ((B + 958 * (1 + b) : ℕ) : ℝ)
      (Flt.mulAdd ((q / (Flt.recip (Flt.powi pre 2) + Flt.recip (Flt.recip
        (Flt.powi q 2 * Flt.powi g 2 * e * (1.0 - e))))) * g) z x.rating) := fun hz =>
    mulAdd_abs_in (In.within (hkg.mono (by norm_num) le_rfl)) hz hx
      (within_nat (lt_of_le_of_lt (by linarith [Nat.zero_le B]) h)) (by push_cast; linarith)
  simp only [Sticko.newRating, hd]
  exact add_right_mono (hm b1).1 (hm b2).1 hl2.1 (toR_mono (hm b1).1 (hm b2).1
    (mulAdd_mono hkg.finite hkg.toR.1 b1.1 b2.1 (isFinite.not_nan hx.1) b3))

theorem C154_sticko (L : E.Lib) (x y : Sticko.StickoRating (FP E)) (o o' : Outcomes)
    (c : Sticko.StickoConfig (FP E)) (B b C : ℕ)
    (hx : Within B x.rating) (hy : Within B y.rating) (hdx : ¬ x.deviation.isNaN)
    (hdy : ¬ y.deviation.isNaN) (hc : c.c.isFinite) (hc1 : 1 ≤ c.c.toR)
    (hl : Within 100 c.lambda) (hb : Within b c.beta) (hg : Within C c.gamma)
    (h : 3 * B + 958 * (1 + b) < 2 ^ 53) (h' : 2 * B + C < 2 ^ 53) (ho : pointsR o ≤ pointsR o') :
    (Sticko.sticko x y o c).1.rating.toE ≤ (Sticko.sticko x y o' c).1.rating.toE ∧
    (Sticko.sticko x y o' c).2.rating.toE ≤ (Sticko.sticko x y o c).2.rating.toE :=
  ⟨sticko_side_mono L x y c _ _ _ hx hy hdx hdy hc hc1 hl hb hg h h' one_within
      (points_in (E := E) o) (pointsR_nonneg o) (pointsR_le_one o)
      (points_in o') (pointsR_nonneg o') (pointsR_le_one o') ho,
    sticko_side_mono L y x c _ _ _ hy hx hdy hdx hc hc1 hl hb hg h h' neg_one_within
      (points_in' (E := E) o') (by linarith [pointsR_le_one o']) (by linarith [pointsR_nonneg o'])
      (points_in' o) (by linarith [pointsR_le_one o]) (by linarith [pointsR_nonneg o]) (by linarith)⟩

/-- `sum_mono` for terms of any size. -/
theorem sum_mono_big {α : Type} (l : List α) (f g : α → FP E) (K : ℕ) (hl : l.length * K < 2 ^ 53)
    (hf : ∀ a ∈ l, Within K (f a)) (hg : ∀ a ∈ l, Within K (g a))
    (h : ∀ a ∈ l, (f a).toR ≤ (g a).toR) :
    (Flt.sum (l.map f)).toR ≤ (Flt.sum (l.map g)).toR := by
  have key : ∀ (l : List α) (m : ℕ) (s t : FP E), m + l.length * K < 2 ^ 53 →
      (∀ a ∈ l, Within K (f a)) → (∀ a ∈ l, Within K (g a)) → (∀ a ∈ l, (f a).toR ≤ (g a).toR) →
      Within (m : ℝ) s → Within (m : ℝ) t → s.toR ≤ t.toR →
      ((l.map f).foldl (· + ·) s).toR ≤ ((l.map g).foldl (· + ·) t).toR := by
    intro l
    induction l with
    | nil => intro m s t _ _ _ _ _ _ h; simpa using h
    | cons a l ih =>
      intro m s t hm hf hg h hs ht hst
      simp only [List.length_cons, List.map_cons, List.foldl_cons] at hm ⊢
      have e : m + (l.length + 1) * K = m + K + l.length * K := by ring
      rw [e] at hm
      have fa := hf a List.mem_cons_self
      have ga := hg a List.mem_cons_self
      have hs' : Within ((m + K : ℕ) : ℝ) (s + f a) :=
        add_bound hs.1 fa.1 hs.2 fa.2 (within_nat (by omega)) (by push_cast; linarith)
      have ht' : Within ((m + K : ℕ) : ℝ) (t + g a) :=
        add_bound ht.1 ga.1 ht.2 ga.2 (within_nat (by omega)) (by push_cast; linarith)
      exact ih (m + K) _ _ hm (fun x hx => hf x (List.mem_cons_of_mem _ hx))
        (fun x hx => hg x (List.mem_cons_of_mem _ hx)) (fun x hx => h x (List.mem_cons_of_mem _ hx))
        hs' ht' (add_mono hs.1 fa.1 ht.1 ga.1 hs'.1 ht'.1 hst (h a List.mem_cons_self))
  have h0 : Within ((0 : ℕ) : ℝ) (Flt.sumZero : FP E) := by
    have := sum_zero_in (E := E)
    exact In.within (by simpa using this)
  rw [Flt.sum, Flt.sum]
  exact key l 0 _ _ (by omega) hf hg h h0 h0 le_rfl

/-- Sticko rating periods of any length and colours: each entry holds an opponent, two results, the second
at least as good as the first, and the colour. -/
theorem C154_sticko_period (L : E.Lib) (p : Sticko.StickoRating (FP E))
    (rs : List (Sticko.StickoRating (FP E) × (Outcomes × Outcomes) × Bool))
    (c : Sticko.StickoConfig (FP E)) (B b C : ℕ) (hp : Within B p.rating) (hd : ¬ p.deviation.isNaN)
    (hr : ∀ r ∈ rs, Within B r.1.rating ∧ ¬ r.1.deviation.isNaN)
    (hc : c.c.isFinite) (hc1 : 1 ≤ c.c.toR) (hl : Within 100 c.lambda) (hb : Within b c.beta)
    (hg : Within C c.gamma) (h : (rs.length + 3) * (B + 958 * (1 + b)) < 2 ^ 53)
    (h' : 2 * B + C < 2 ^ 53) (ho : ∀ r ∈ rs, pointsR r.2.1.1 ≤ pointsR r.2.1.2) :
    (Sticko.stickoRatingPeriod p (rs.map fun r => (r.1, r.2.1.1, r.2.2)) c).rating.toE
      ≤ (Sticko.stickoRatingPeriod p (rs.map fun r => (r.1, r.2.1.2, r.2.2)) c).rating.toE := by
  by_cases hne : rs = []
  · subst hne; exact le_rfl
  have hem : ∀ f : (Sticko.StickoRating (FP E) × (Outcomes × Outcomes) × Bool) →
      Sticko.StickoRating (FP E) × Outcomes × Bool,
      (rs.map f).isEmpty = false := by intro f; simpa using hne
  have hn : 0 < rs.length := List.length_pos_iff.2 hne
  have hexp : rs.length * B + 958 * (rs.length * (1 + b)) + (3 * B + 2874 * (1 + b)) < 2 ^ 53 := by
    calc rs.length * B + 958 * (rs.length * (1 + b)) + (3 * B + 2874 * (1 + b))
        = (rs.length + 3) * (B + 958 * (1 + b)) := by ring
      _ < 2 ^ 53 := h
  have hnb : rs.length ≤ rs.length * (1 + b) := Nat.le_mul_of_pos_right _ (by omega)
  have hB1 : B ≤ rs.length * B := Nat.le_mul_of_pos_left B hn
  generalize hKd : rs.length * (1 + b) = K at *
  generalize hMd : rs.length * B = M at *
  have hlen : rs.length < 2 ^ 53 := by omega
  have hB : 2 * B < 2 ^ 53 := by omega
  simp only [Sticko.stickoRatingPeriod, hem, Bool.false_eq_true, if_false, List.map_map, Function.comp_def,
    List.length_map]
  have hcol : ∀ b : Bool, Within 1 (if b = true then (1.0 : FP E) else -1.0) := by
    intro b
    cases b
    · exact neg_one_within
    · exact one_within
  have hs : ∀ r ∈ rs, _ := fun r hm => sticko_score L hp (hr r hm).1 (hr r hm).2 hg (hcol r.2.2) h'
  have hi := sum_unit_in (rs.map fun r =>
      Flt.powi (Sticko.gValue (Flt.ln (10.0 : FP E) / 400.0) r.1.deviation) 2
      * Sticko.eValue (Sticko.gValue (Flt.ln (10.0 : FP E) / 400.0) r.1.deviation) p.rating
        r.1.rating c.gamma (if r.2.2 then 1.0 else -1.0)
      * (1.0 - Sticko.eValue (Sticko.gValue (Flt.ln (10.0 : FP E) / 400.0) r.1.deviation)
        p.rating r.1.rating c.gamma (if r.2.2 then 1.0 else -1.0)))
      (by rw [List.length_map]; exact hlen) (by
      intro x hx
      obtain ⟨r, hm, rfl⟩ := List.mem_map.1 hx
      exact information_in L (hs r hm).1 (hs r hm).2)
  have ht : ∀ r ∈ rs, _ := fun r hm => sub_add_mono (points_in (E := E) r.2.1.1) (points_in r.2.1.2)
    (hs r hm).2 (pointsR_nonneg _) (pointsR_le_one _) (pointsR_nonneg _) (pointsR_le_one _) (ho r hm) hb
    (by omega)
  have hw : ∀ r ∈ rs, ∀ z : FP E, Within ((1 + b : ℕ) : ℝ) z → Within ((1 + b : ℕ) : ℝ)
      (Sticko.gValue (Flt.ln (10.0 : FP E) / 400.0) r.1.deviation * z) := fun r hm z hz =>
    mul_abs_in (In.within ((unit_in (hs r hm).1).mono (by norm_num) le_rfl)) hz (within_nat (by omega))
      (by push_cast; linarith)
  have hlen' : rs.length * (1 + b) < 2 ^ 53 := by omega
  have m1 := sum_within (rs.map fun r => Sticko.gValue (Flt.ln (10.0 : FP E) / 400.0) r.1.deviation
      * (r.2.1.1.toChessPoints - Sticko.eValue (Sticko.gValue (Flt.ln (10.0 : FP E) / 400.0)
        r.1.deviation) p.rating r.1.rating c.gamma (if r.2.2 then 1.0 else -1.0) + c.beta)) (1 + b)
      (by rw [List.length_map]; exact hlen') (by
      intro x hx
      obtain ⟨r, hm, rfl⟩ := List.mem_map.1 hx
      exact hw r hm _ (ht r hm).1)
  have m2 := sum_within (rs.map fun r => Sticko.gValue (Flt.ln (10.0 : FP E) / 400.0) r.1.deviation
      * (r.2.1.2.toChessPoints - Sticko.eValue (Sticko.gValue (Flt.ln (10.0 : FP E) / 400.0)
        r.1.deviation) p.rating r.1.rating c.gamma (if r.2.2 then 1.0 else -1.0) + c.beta)) (1 + b)
      (by rw [List.length_map]; exact hlen') (by
      intro x hx
      obtain ⟨r, hm, rfl⟩ := List.mem_map.1 hx
      exact hw r hm _ (ht r hm).2.1)
  have m3 : (Flt.sum (rs.map fun r => Sticko.gValue (Flt.ln (10.0 : FP E) / 400.0) r.1.deviation
      * (r.2.1.1.toChessPoints - Sticko.eValue (Sticko.gValue (Flt.ln (10.0 : FP E) / 400.0)
        r.1.deviation) p.rating r.1.rating c.gamma (if r.2.2 then 1.0 else -1.0) + c.beta))).toR
      ≤ (Flt.sum (rs.map fun r => Sticko.gValue (Flt.ln (10.0 : FP E) / 400.0) r.1.deviation
      * (r.2.1.2.toChessPoints - Sticko.eValue (Sticko.gValue (Flt.ln (10.0 : FP E) / 400.0)
        r.1.deviation) p.rating r.1.rating c.gamma (if r.2.2 then 1.0 else -1.0) + c.beta))).toR :=
    sum_mono_big rs _ _ (1 + b) hlen' (fun r hm => hw r hm _ (ht r hm).1)
      (fun r hm => hw r hm _ (ht r hm).2.1) fun r hm =>
      mul_mono (unit_in (hs r hm).1).finite (ht r hm).1.1 (ht r hm).2.1.1 (hw r hm _ (ht r hm).1).1
        (hw r hm _ (ht r hm).2.1).1 (unit_in (hs r hm).1).toR.1 (ht r hm).2.2
  have hO := sum_within (rs.map fun r => r.1.rating) B (by rw [List.length_map, hMd]; omega) (by
      intro x hx
      obtain ⟨r, hm, rfl⟩ := List.mem_map.1 hx
      exact (hr r hm).1)
  rw [List.length_map] at hi m1 m2 hO
  rw [hKd] at m1 m2
  have hN := ofNat_in (E := E) (n := rs.length) hlen
  have hn0 : (0 : ℝ) < rs.length := by exact_mod_cast hn
  have eN : FP.toR (Flt.ofNat rs.length : FP E) = rs.length := le_antisymm hN.toR.2 hN.toR.1
  have hav : Within B (Flt.sum (rs.map fun r => r.1.rating) / Flt.ofNat rs.length) := by
    obtain ⟨x, hx⟩ := div_fin hO.1 hN.finite (by rw [eN]; exact hn0.ne')
    have h2 := abs_le.1 hO.2
    push_cast at h2
    rw [hx, eN]
    refine In.within (In.of_round x (SRep.nat (by omega)).neg (SRep.nat (by omega)) ?_ ?_)
    · rw [le_div_iff₀ hn0]; linarith
    · rw [div_le_iff₀ hn0]; linarith
  have hl2 := sticko_lambda hl (sub_bound hav.1 hp.1 hav.2 hp.2 (within_nat hB) (by push_cast; linarith)) hB
  have hlenR : (rs.length : ℝ) ≤ 2 ^ 53 := by exact_mod_cast hlen.le
  have hqi := mul_in (q_sq_in L) hi le_rfl le_rfl SRep.zero (SRep.two_pow 53 (by norm_num))
    (by norm_num) (by linarith)
  have hk := gain_in L (total_in L (k := 53) (by norm_num) (pre_in L hd hc hc1) hqi)
  have hmm : ∀ {z : FP E}, Within ((K : ℕ) : ℝ) z → (Flt.mulAdd (Flt.ln (10.0 : FP E) / 400.0 / _) z
      p.rating).isFinite := fun hz =>
    (mulAdd_abs_in (hi := ((B + 958 * K : ℕ) : ℝ)) (In.within (hk.mono (by norm_num) le_rfl)) hz hp
      (within_nat (by omega)) (by push_cast; linarith)).1
  exact add_right_mono (hmm m1) (hmm m2) hl2.1 (toR_mono (hmm m1) (hmm m2)
    (mulAdd_mono hk.finite hk.toR.1 m1.1 m2.1 (isFinite.not_nan hp.1) m3))

/-! Concrete instances: binary64 with rounding to nearest. -/

example : (Sticko.sticko (F := FP ieee) ⟨1500.0, 350.0⟩ ⟨1400.0, 350.0⟩ .DRAW
      ⟨10.0, 0.0, 2.0, 30.0, 64.0⟩).1.rating.toE
    ≤ (Sticko.sticko (F := FP ieee) ⟨1500.0, 350.0⟩ ⟨1400.0, 350.0⟩ .WIN
      ⟨10.0, 0.0, 2.0, 30.0, 64.0⟩).1.rating.toE :=
  (C154_sticko ieee_lib ⟨1500.0, 350.0⟩ ⟨1400.0, 350.0⟩ .DRAW .WIN ⟨10.0, 0.0, 2.0, 30.0, 64.0⟩ 1500 0 30
    (sample_within 15000 1500 (by norm_num) (by norm_num))
    ((sample_within 14000 1400 (by norm_num) (by norm_num)).mono (by norm_num))
    sample_dev sample_dev sample_decay.1 sample_decay.2
    ((sample_within 20 2 (by norm_num) (by norm_num)).mono (by norm_num))
    (sample_within 0 0 (by norm_num) (by norm_num)) (sample_within 300 30 (by norm_num) (by norm_num))
    (by norm_num) (by norm_num) (by norm_num [pointsR])).1

example : (Sticko.stickoRatingPeriod (F := FP ieee) ⟨1500.0, 350.0⟩
      [(⟨1400.0, 350.0⟩, .LOSS, true), (⟨1500.0, 350.0⟩, .WIN, false)]
      ⟨10.0, 0.0, 2.0, 30.0, 64.0⟩).rating.toE
    ≤ (Sticko.stickoRatingPeriod (F := FP ieee) ⟨1500.0, 350.0⟩
      [(⟨1400.0, 350.0⟩, .DRAW, true), (⟨1500.0, 350.0⟩, .WIN, false)]
      ⟨10.0, 0.0, 2.0, 30.0, 64.0⟩).rating.toE :=
  C154_sticko_period ieee_lib ⟨1500.0, 350.0⟩
    [(⟨1400.0, 350.0⟩, (.LOSS, .DRAW), true), (⟨1500.0, 350.0⟩, (.WIN, .WIN), false)]
    ⟨10.0, 0.0, 2.0, 30.0, 64.0⟩ 1500 0 30
    (sample_within 15000 1500 (by norm_num) (by norm_num)) sample_dev
    (fun r h => by
      rcases List.mem_cons.1 h with rfl | h
      · exact ⟨(sample_within 14000 1400 (by norm_num) (by norm_num)).mono (by norm_num), sample_dev⟩
      · rw [List.mem_singleton.1 h]
        exact ⟨sample_within 15000 1500 (by norm_num) (by norm_num), sample_dev⟩)
    sample_decay.1 sample_decay.2 ((sample_within 20 2 (by norm_num) (by norm_num)).mono (by norm_num))
    (sample_within 0 0 (by norm_num) (by norm_num)) (sample_within 300 30 (by norm_num) (by norm_num))
    (by norm_num) (by norm_num) (by norm_num [pointsR])

end Skillratings
