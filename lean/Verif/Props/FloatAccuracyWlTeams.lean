import Verif.Proofs.FPWlTeams
/-
C135: Weng-Lin games of teams in double precision stay close to exact arithmetic.
-/

namespace Skillratings
open FP FPVal Spec
variable {E : FloatEnv}

namespace WengLin

theorem zero_near : Near 0 (0.0 : FP E) 0 :=
  near_of_in (lit_in (E := E) (m := 0) (s := true) (e := 1) (v := 0) (by norm_num) SRep.zero)

theorem sq_le_side {t : List (WengLinRating (FP E))} {a : WengLinRating (FP E)} (ha : a ∈ t) :
    a.uncertainty.toR ^ 2 ≤ (side (t.map wlExact)).v := by
  rw [side_exact]
  refine List.single_le_sum ?_ _ (List.mem_map.2 ⟨a, ha, rfl⟩)
  intro x hx
  obtain ⟨q, -, rfl⟩ := List.mem_map.1 hx
  positivity

theorem rating_big {c : WengLinConfig (FP E)} (hc : WlUsualConfig c) {x : ℝ} (h : |x| ≤ 64 * c.beta.toR) :
    |x| ≤ 2 ^ 30 := by
  have := hc.1.2.2
  refine h.trans ?_
  norm_num at this ⊢; linarith

theorem updateTeam_get {F : Type} [Flt F] (t : List (WengLinRating F)) (v κ Ω Δ : F) (j : ℕ)
    {a : WengLinRating F} (h : t[j]? = some a) :
    (updateTeam t v κ Ω Δ)[j]? = some ⟨newRatingTeams a.rating (Flt.powi a.uncertainty 2) v Ω,
      newUncertaintyTeams (Flt.powi a.uncertainty 2) v κ Δ⟩ := by
  rw [updateTeam, List.getElem?_map, h]; rfl

theorem update_get (t : List (WengLinRating (FP E))) (κ Ω Δ : ℝ) (j : ℕ) {a : WengLinRating (FP E)}
    (h : t[j]? = some a) :
    (update (t.map wlExact) κ Ω Δ)[j]? = some
      ⟨wlRating a.rating.toR (a.uncertainty.toR ^ 2) (side (t.map wlExact)).v Ω,
        wlUncertainty (a.uncertainty.toR ^ 2) (side (t.map wlExact)).v Δ κ⟩ := by
  rw [update, List.getElem?_map, List.getElem?_map, h]; rfl

theorem twoTeams_eq {F : Type} [Flt F] (s t : List (WengLinRating F)) (o : Outcomes) (c : WengLinConfig F)
    (hs : s ≠ []) (ht : t ≠ []) :
    let u := teamUncertaintySq s
    let u' := teamUncertaintySq t
    let cc := Flt.sqrt (Flt.mulAdd 2.0 (Flt.powi c.beta 2) (u + u'))
    let p := pValue (teamRating s) (teamRating t) cc
    wengLinTwoTeams s t o c =
      (updateTeam s u c.uncertaintyTolerance (smallDelta u cc p.1 o.toChessPoints) (eta u cc p.1 (gamma u cc)),
       updateTeam t u' c.uncertaintyTolerance (smallDelta u' cc p.2 (1.0 - o.toChessPoints))
        (eta u' cc p.2 (gamma u' cc))) := by
  have hs' : s.isEmpty = false := by simpa [List.isEmpty_iff] using hs
  have ht' : t.isEmpty = false := by simpa [List.isEmpty_iff] using ht
  simp only [wengLinTwoTeams, hs', ht', Bool.or_self, Bool.false_eq_true, if_false]

/-- Weng-Lin, a game of two teams: each new rating is within `(|rating| + uncertainty) / 2 ^ 32` and each
new uncertainty within `uncertainty / 2 ^ 30` of the exact formulas applied to the same teams. -/
theorem C135_wengLin_two_teams (L : E.Lib) (A : E.Accurate) (s t : List (WengLinRating (FP E)))
    (o : Outcomes) (c : WengLinConfig (FP E)) (hc : WlUsualConfig c) (hs : WlTeam c s) (ht : WlTeam c t) :
    let x := wengLinTwoTeams s t o c
    let y := wengLinTwoTeams (s.map wlExact) (t.map wlExact) o (wlConfigExact c)
    (∀ (j : ℕ) (a : WengLinRating (FP E)), s[j]? = some a → ∃ p q, x.1[j]? = some p ∧ y.1[j]? = some q ∧
      Near ((|a.rating.toR| + a.uncertainty.toR) / 2 ^ 32) p.rating q.rating ∧
      Near (a.uncertainty.toR / 2 ^ 30) p.uncertainty q.uncertainty) ∧
    (∀ (j : ℕ) (a : WengLinRating (FP E)), t[j]? = some a → ∃ p q, x.2[j]? = some p ∧ y.2[j]? = some q ∧
      Near ((|a.rating.toR| + a.uncertainty.toR) / 2 ^ 32) p.rating q.rating ∧
      Near (a.uncertainty.toR / 2 ^ 30) p.uncertainty q.uncertainty) := by
  intro x y
  have ey : y = _ := twoTeams_real _ _ o (wlConfigExact c) (by simpa using hs.1) (by simpa using ht.1)
  have hs' : s.isEmpty = false := by simpa [List.isEmpty_iff] using hs.1
  have ht' : t.isEmpty = false := by simpa [List.isEmpty_iff] using ht.1
  have S := summed_team L hc hs
  have T := summed_team L hc ht
  obtain ⟨h1, h2, h3, p1, p2⟩ := pair_near L A hc S T
  have o1 := near_of_in (points_in (E := E) o)
  have o2 := near_of_in (points_in' (E := E) o)
  rw [pointsR_eq] at o1 o2
  set C := wlC c.beta.toR (side (s.map wlExact)).v (side (t.map wlExact)).v with hC
  set P := wlP C (side (s.map wlExact)).μ (side (t.map wlExact)).μ with hP
  have hP0 : 0 ≤ P := (wlP_pos _ _ _).le
  have hP1 : P ≤ 1 := (wlP_lt_one _ _ _).le
  have e2 : wlP C (side (t.map wlExact)).μ (side (s.map wlExact)).μ = 1 - P := by
    rw [hP, ← wlP_symm]
  have eC : wlC c.beta.toR (side (t.map wlExact)).v (side (s.map wlExact)).v = C := by
    rw [hC, wlC, wlC]; congr 1; ring
  have d1 := smallDelta_near S.2.2 h1 h2 (p1.mono (by norm_num)) ⟨hP0, hP1⟩ o1 ⟨points_nonneg o, points_le_one o⟩
  have d2 := smallDelta_near T.2.2 h1 h3 p2 ⟨by linarith, by linarith⟩ o2
    ⟨by linarith [points_le_one o], by linarith [points_nonneg o]⟩
  have g1 := eta_near L S.2.2 h1 h2 (p1.mono (by norm_num)) ⟨hP0, hP1⟩
  have g2 := eta_near L T.2.2 h1 h3 p2 ⟨by linarith, by linarith⟩
  have r1 : wlDelta (wlConfigExact c).beta (side (s.map wlExact)) (side (t.map wlExact)) (points o)
      = (side (s.map wlExact)).v / C * (points o - P) := rfl
  have r2 : wlDelta (wlConfigExact c).beta (side (t.map wlExact)) (side (s.map wlExact)) (1 - points o)
      = (side (t.map wlExact)).v / C * (1 - points o - (1 - P)) := by
    change _ / wlC c.beta.toR _ _ * (_ - wlP (wlC c.beta.toR _ _) _ _) = _
    rw [eC, e2]
  have r3 : wlEta (wlConfigExact c).beta (side (s.map wlExact)) (side (t.map wlExact))
      = (√(side (s.map wlExact)).v / C) ^ 3 * P * (1 - P) := by
    change (_ / C) ^ 3 * P * wlP C _ _ = _
    rw [e2]
  have r4 : wlEta (wlConfigExact c).beta (side (t.map wlExact)) (side (s.map wlExact))
      = (√(side (t.map wlExact)).v / C) ^ 3 * (1 - P) * (1 - (1 - P)) := by
    change (_ / wlC c.beta.toR _ _) ^ 3 * wlP (wlC c.beta.toR _ _) _ _ * wlP (wlC c.beta.toR _ _) _ _ = _
    rw [eC, e2, ← hP]; ring
  rw [r1, r2, r3, r4] at ey
  have ex : x = _ := twoTeams_eq s t o c hs.1 ht.1
  have half : ∀ {u : List (WengLinRating (FP E))} {Ω Δ : FP E} {O D : ℝ}, WlTeam c u →
      (Near (√(side (u.map wlExact)).v * (131100 / 2 ^ 50)) Ω O ∧ |O| ≤ √(side (u.map wlExact)).v) →
      (Near (262300 / 2 ^ 50) Δ D ∧ 0 ≤ D ∧ D ≤ 1 / 4) →
      ∀ (j : ℕ) (a : WengLinRating (FP E)), u[j]? = some a →
      ∃ p q, (updateTeam u (teamUncertaintySq u) c.uncertaintyTolerance Ω Δ)[j]? = some p ∧
        (update (u.map wlExact) (wlConfigExact c).uncertaintyTolerance O D)[j]? = some q ∧
        Near ((|a.rating.toR| + a.uncertainty.toR) / 2 ^ 32) p.rating q.rating ∧
        Near (a.uncertainty.toR / 2 ^ 30) p.uncertainty q.uncertainty := by
    intro u Ω Δ O D hu hO hD j a ha
    have hmem := List.mem_of_getElem? ha
    have hU := summed_team L hc hu
    obtain ⟨m1, m2, m3⟩ := hu.2.2.1 a hmem
    have sq0 := Real.sqrt_nonneg (side (u.map wlExact)).v
    have hle := sq_le_side hmem
    have v0 := hU.2.2.2.pos
    have M := member_near L (w := 1) (κ := 3 / 4) m1 (rating_big hc m2) m3 hU.2.2 hle le_rfl (by norm_num)
      (hO.1.mono (by norm_num; linarith)) (by linarith [hO.2]) (hD.1.mono (by norm_num)) hD.2.1
      (by linarith [hD.2.2]) hc.2 (by norm_num) (by norm_num) (by
        refine le_trans ?_ (le_max_left _ _)
        have : a.uncertainty.toR ^ 2 / (side (u.map wlExact)).v * D ≤ 1 * D :=
          mul_le_mul_of_nonneg_right ((div_le_one v0).2 hle) hD.2.1
        linarith [hD.2.2])
    refine ⟨_, _, updateTeam_get u _ _ _ _ j ha, update_get u _ _ _ j ha, ?_, ?_⟩
    · simpa only [one_mul] using M.1
    · refine M.2.mono ?_
      have σ0 : 0 < a.uncertainty.toR := lt_of_lt_of_le (by norm_num) m3.2.1
      have : (1 : ℝ) / 2 ≤ √(3 / 4) := by
        apply Real.le_sqrt_of_sq_le; norm_num
      rw [one_mul]
      generalize √(3 / 4 : ℝ) = z at *
      apply div_le_div_of_nonneg_left σ0.le (by positivity)
      norm_num; linarith
  rw [ex, ey]
  exact ⟨half hs d1 g1, half ht d2 g2⟩

/-! ### Any number of teams -/

theorem rankScore_near (a b : MultiTeamOutcome) :
    Near 0 (rankScore a b : FP E) (rankPoints a b) ∧ 0 ≤ rankPoints a b ∧ rankPoints a b ≤ 1 := by
  unfold rankScore rankPoints MultiTeamOutcome.cmp
  rcases lt_trichotomy a.val b.val with h | h | h
  · rw [Nat.compare_eq_gt.2 h, if_pos h]
    exact ⟨near_of_in one_in, by norm_num, le_rfl⟩
  · rw [Nat.compare_eq_eq.2 h.symm, if_neg (by omega), if_pos h]
    exact ⟨near_of_in (lit_in (E := E) (m := 5) (s := true) (e := 1) (v := 1 / 2) (by norm_num) SRep.half), by norm_num, by norm_num⟩
  · rw [Nat.compare_eq_lt.2 h, if_neg (by omega), if_neg (by omega)]
    exact ⟨zero_near, by norm_num, by norm_num⟩

/-- The first component of a comparison of two teams. -/
def comparison {F : Type} [Flt F] (c : WengLinConfig F) (one two : TeamInfo F) : F × F :=
  let cc := Flt.sqrt (Flt.mulAdd 2.0 (Flt.powi c.beta 2) (one.uncertaintySq + two.uncertaintySq))
  let p := (pValue one.rating two.rating cc).1
  (smallDelta one.uncertaintySq cc p (rankScore one.rank two.rank),
    eta one.uncertaintySq cc p (gamma one.uncertaintySq cc))

theorem omegaDelta_eq {F α : Type} [Flt F] (l : List α) (g : α → TeamInfo F) (one : TeamInfo F) (i : ℕ)
    (c : WengLinConfig F) :
    omegaDelta (l.map g) one i c = (l.zipIdx.filter fun tq => !decide (i = tq.2)).foldl
      (fun acc tq => (acc.1 + (comparison c one (g tq.1)).1, acc.2 + (comparison c one (g tq.1)).2)) (0.0, 0.0) := by
  rw [omegaDelta, List.zipIdx_map, List.foldl_map, List.foldl_filter]
  congr 1
  funext acc tq
  obtain ⟨t, q⟩ := tq
  by_cases h : i = q
  · simp [h]
  · simp [h, comparison]

theorem others_length {α : Type} (l : List α) {i : ℕ} (hi : i < l.length) :
    (l.zipIdx.filter fun tq => !decide (i = tq.2)).length = l.length - 1 := by
  have h1 : (l.zipIdx.filter fun tq => !decide (i = tq.2)).length
      = ((l.zipIdx.map Prod.snd).filter fun q => !decide (i = q)).length := by
    rw [List.filter_map, List.length_map]; rfl
  have h2 : l.zipIdx.map Prod.snd = List.range l.length := by
    rw [List.zipIdx_map_snd, List.range_eq_range']
  have h3 : ((List.range l.length).filter fun q => !decide (i = q)) = (List.range l.length).erase i := by
    rw [List.nodup_range.erase_eq_filter]
    refine List.filter_congr fun q _ => ?_
    by_cases h : i = q
    · simp [h]
    · simp [h, Ne.symm h]
  rw [h1, h2, h3, List.length_erase_of_mem (List.mem_range.2 hi), List.length_range]

/-- The same team in exact arithmetic. -/
noncomputable def rankedExact (t : List (WengLinRating (FP E)) × MultiTeamOutcome) :
    List (WengLinRating ℝ) × MultiTeamOutcome := (t.1.map wlExact, t.2)

theorem multi_get {F : Type} [Flt F] (ts : List (List (WengLinRating F) × MultiTeamOutcome))
    (c : WengLinConfig F) (h : ∀ t ∈ ts, t.1 ≠ []) (i : ℕ) {t : List (WengLinRating F) × MultiTeamOutcome}
    (ht : ts[i]? = some t) :
    (wengLinMultiTeam ts c)[i]? = some (updateTeam t.1 (teamUncertaintySq t.1) c.uncertaintyTolerance
      (omegaDelta (ts.map teamInfo) (teamInfo t) i c).1 (omegaDelta (ts.map teamInfo) (teamInfo t) i c).2) := by
  have h1 : ts.isEmpty = false := by
    cases ts with
    | nil => simp at ht
    | cons => rfl
  have h2 : (ts.any fun t => t.1.isEmpty) = false := by
    rw [List.any_eq_false]
    intro t' ht'
    simpa [List.isEmpty_iff] using h t' ht'
  rw [wengLinMultiTeam, h1, h2, if_neg (by simp), if_neg (by simp)]
  simp only [List.getElem?_map, List.getElem?_zipIdx, ht, Option.map_some, zero_add]
  rfl

theorem comparison_real (c : WengLinConfig (FP E)) (t u : List (WengLinRating (FP E)) × MultiTeamOutcome) :
    let s := side (t.1.map wlExact)
    let s' := side (u.1.map wlExact)
    let C := wlC c.beta.toR s.v s'.v
    comparison (wlConfigExact c) (teamInfo (rankedExact t)) (teamInfo (rankedExact u)) =
      (s.v / C * (rankPoints t.2 u.2 - wlP C s.μ s'.μ),
        (√s.v / C) ^ 3 * wlP C s.μ s'.μ * (1 - wlP C s.μ s'.μ)) := by
  intro s s' C
  simp only [comparison, teamInfo, rankedExact, teamRating_real, teamUncertaintySq_real, c_real, pValue_real,
    rankScore_real, eta_real _ _ (side_v_nonneg _)]
  rfl

theorem comparison_near (L : E.Lib) (A : E.Accurate) {c : WengLinConfig (FP E)} (hc : WlUsualConfig c)
    {t u : List (WengLinRating (FP E)) × MultiTeamOutcome} (ht : WlTeam c t.1) (hu : WlTeam c u.1) :
    let x := comparison c (teamInfo t) (teamInfo u)
    let y := comparison (wlConfigExact c) (teamInfo (rankedExact t)) (teamInfo (rankedExact u))
    (Near (√(side (t.1.map wlExact)).v * (131100 / 2 ^ 50)) x.1 y.1 ∧ |y.1| ≤ √(side (t.1.map wlExact)).v) ∧
      Near (262300 / 2 ^ 50) x.2 y.2 ∧ 0 ≤ y.2 ∧ y.2 ≤ 1 / 4 := by
  intro x y
  have ey : y = _ := comparison_real c t u
  rw [ey]
  have S := summed_team L hc ht
  have T := summed_team L hc hu
  obtain ⟨h1, h2, h3, p1, p2⟩ := pair_near L A hc S T
  have hP0 := (wlP_pos (wlC c.beta.toR (side (t.1.map wlExact)).v (side (u.1.map wlExact)).v)
    (side (t.1.map wlExact)).μ (side (u.1.map wlExact)).μ).le
  have hP1 := (wlP_lt_one (wlC c.beta.toR (side (t.1.map wlExact)).v (side (u.1.map wlExact)).v)
    (side (t.1.map wlExact)).μ (side (u.1.map wlExact)).μ).le
  obtain ⟨o1, o2⟩ := rankScore_near (E := E) t.2 u.2
  exact ⟨smallDelta_near S.2.2 h1 h2 (p1.mono (by norm_num)) ⟨hP0, hP1⟩ o1 o2,
    eta_near L S.2.2 h1 h2 (p1.mono (by norm_num)) ⟨hP0, hP1⟩⟩

theorem multi_near (L : E.Lib) (A : E.Accurate)
    (ts : List (List (WengLinRating (FP E)) × MultiTeamOutcome)) (c : WengLinConfig (FP E)) {κ : ℝ}
    (hc : WlUsualConfig c) (hts : ∀ t ∈ ts, WlTeam c t.1) (h2 : 2 ≤ ts.length) (h65 : ts.length ≤ 65)
    (hκ0 : 1 / 2 ^ 20 ≤ κ) (hκ1 : κ ≤ 1)
    (hκ : ∀ D : ℝ, 0 ≤ D → D ≤ (ts.length - 1 : ℕ) * (1 / 4) → κ ≤ max (1 - D) c.uncertaintyTolerance.toR)
    (i : ℕ) (t : List (WengLinRating (FP E)) × MultiTeamOutcome) (ht : ts[i]? = some t) (j : ℕ)
    (a : WengLinRating (FP E)) (ha : t.1[j]? = some a) :
    ∃ p q, ((wengLinMultiTeam ts c)[i]?.bind fun u => u[j]?) = some p ∧
      ((wengLinMultiTeam (ts.map rankedExact) (wlConfigExact c))[i]?.bind fun u => u[j]?) = some q ∧
      Near ((|a.rating.toR| + (ts.length - 1 : ℕ) * a.uncertainty.toR) / 2 ^ 32) p.rating q.rating ∧
      Near ((ts.length - 1 : ℕ) * a.uncertainty.toR / (2 ^ 31 * √κ)) p.uncertainty q.uncertainty := by
  have hi : i < ts.length := (List.getElem?_eq_some_iff.1 ht).1
  have htm := List.mem_of_getElem? ht
  have hT := hts t htm
  have S := summed_team L hc hT
  have g1 := multi_get ts c (fun u hu => (hts u hu).1) i ht
  have g2 := multi_get (ts.map rankedExact) (wlConfigExact c) (by
    intro u hu
    obtain ⟨u', hu', rfl⟩ := List.mem_map.1 hu
    simpa [rankedExact] using (hts u' hu').1) i (t := rankedExact t) (by rw [List.getElem?_map, ht]; rfl)
  rw [List.map_map, omegaDelta_eq] at g2
  rw [omegaDelta_eq] at g1
  have hl := others_length ts hi
  set l := ts.zipIdx.filter fun tq => !decide (i = tq.2) with hld
  have hD := S.2.2.2.sqrt
  have v0 := S.2.2.2.pos
  set s := side (t.1.map wlExact) with hs
  have F := near_foldl_pair (E := E) l (fun tq => (comparison c (teamInfo t) (teamInfo tq.1)).1)
    (fun tq => (comparison c (teamInfo t) (teamInfo tq.1)).2)
    (fun tq => (comparison (wlConfigExact c) (teamInfo (rankedExact t)) (teamInfo (rankedExact tq.1))).1)
    (fun tq => (comparison (wlConfigExact c) (teamInfo (rankedExact t)) (teamInfo (rankedExact tq.1))).2)
    (D := √s.v) (e₁ := 131100 / 2 ^ 50) (e₂ := 262300 / 2 ^ 50) zero_near zero_near
    (le_trans (one_div_le_one_div_of_le (by positivity) (pow_le_pow_right₀ (by norm_num) (by norm_num))) hD.1)
    (hD.2.trans (pow_le_pow_right₀ (by norm_num) (by norm_num))) (by norm_num) (by norm_num)
    (by omega) (by
      intro tq htq
      have : tq.1 ∈ ts := by
        have h := (List.mem_filter.1 htq).1
        obtain ⟨tt, q⟩ := tq
        exact (List.mem_zipIdx h).2.2 ▸ List.getElem_mem _
      exact comparison_near L A hc hT (hts _ this))
  rw [hl] at F
  obtain ⟨⟨f1, f2⟩, f3, f4, f5⟩ := F
  have z0 : ((0.0 : ℝ), (0.0 : ℝ)) = (0, 0) := by rw [Flt.lit_0]
  simp only [Function.comp_apply] at g2
  change _ = some (updateTeam (t.1.map wlExact) (teamUncertaintySq (t.1.map wlExact)) _
    (l.foldl _ ((0.0 : ℝ), (0.0 : ℝ))).1 (l.foldl _ ((0.0 : ℝ), (0.0 : ℝ))).2) at g2
  rw [z0, teamUncertaintySq_real, updateTeam_real] at g2
  have hmem := List.mem_of_getElem? ha
  obtain ⟨m1, m2, m3⟩ := hT.2.2.1 a hmem
  have hle := sq_le_side hmem
  have hw1 : (1 : ℝ) ≤ (ts.length - 1 : ℕ) := by
    have : 1 ≤ ts.length - 1 := by omega
    exact_mod_cast this
  have hw2 : ((ts.length - 1 : ℕ) : ℝ) ≤ 64 := by
    have : ts.length - 1 ≤ 64 := by omega
    exact_mod_cast this
  have w0 : (0 : ℝ) ≤ (ts.length - 1 : ℕ) := Nat.cast_nonneg _
  have M := member_near L (w := (ts.length - 1 : ℕ)) (κ := κ) m1 (rating_big hc m2) m3 S.2.2 hle hw1 hw2
    (f1.mono (by
      refine mul_le_mul_of_nonneg_left (mul_le_mul_of_nonneg_left ?_ (Real.sqrt_nonneg _)) w0
      norm_num)) f2
    (f3.mono (by
      refine mul_le_mul_of_nonneg_left ?_ w0
      norm_num)) f4 f5 hc.2 hκ0 hκ1 (by
        have h1 : 0 ≤ a.uncertainty.toR ^ 2 / s.v := by positivity
        have h2 : a.uncertainty.toR ^ 2 / s.v ≤ 1 := (div_le_one v0).2 hle
        refine hκ _ (mul_nonneg h1 f4) ((mul_le_of_le_one_left f4 h2).trans f5))
  refine ⟨⟨_, _⟩, ⟨_, _⟩, ?_, ?_, M.1, M.2⟩
  · rw [g1]; exact updateTeam_get t.1 _ _ _ _ j ha
  · rw [g2]; exact update_get t.1 _ _ _ j ha

/-- Weng-Lin, a game of 2 to 65 teams, with a tolerance of at least `2 ^ -20`: each new rating is within
`(|rating| + n * uncertainty) / 2 ^ 32` and each new uncertainty within `n * uncertainty / 2 ^ 21` of the exact
formulas, where `n` is the number of opposing teams. -/
theorem C135_wengLin_multi_team (L : E.Lib) (A : E.Accurate)
    (ts : List (List (WengLinRating (FP E)) × MultiTeamOutcome)) (c : WengLinConfig (FP E))
    (hc : WlUsualConfig c) (hκ : 1 / 2 ^ 20 ≤ c.uncertaintyTolerance.toR) (hts : ∀ t ∈ ts, WlTeam c t.1)
    (h2 : 2 ≤ ts.length) (h65 : ts.length ≤ 65)
    (i : ℕ) (t : List (WengLinRating (FP E)) × MultiTeamOutcome) (ht : ts[i]? = some t) (j : ℕ)
    (a : WengLinRating (FP E)) (ha : t.1[j]? = some a) :
    ∃ p q, ((wengLinMultiTeam ts c)[i]?.bind fun u => u[j]?) = some p ∧
      ((wengLinMultiTeam (ts.map fun u => (u.1.map wlExact, u.2)) (wlConfigExact c))[i]?.bind
        fun u => u[j]?) = some q ∧
      Near ((|a.rating.toR| + (ts.length - 1 : ℕ) * a.uncertainty.toR) / 2 ^ 32) p.rating q.rating ∧
      Near ((ts.length - 1 : ℕ) * a.uncertainty.toR / 2 ^ 21) p.uncertainty q.uncertainty := by
  obtain ⟨p, q, h3, h4, h5, h6⟩ := multi_near L A ts c (κ := 1 / 2 ^ 20) hc hts h2 h65 le_rfl (by norm_num)
    (fun D _ _ => hκ.trans (le_max_right _ _)) i t ht j a ha
  refine ⟨p, q, h3, h4, h5, ?_⟩
  have : √(1 / 2 ^ 20 : ℝ) = 1 / 2 ^ 10 := by
    rw [Real.sqrt_eq_iff_mul_self_eq (by positivity) (by positivity)]; norm_num
  rw [this] at h6
  convert h6 using 2
  norm_num

/-- Weng-Lin, a game of at most four teams, with any tolerance between -1 and 1: each new uncertainty is within
`n * uncertainty / 2 ^ 30` of the exact formulas, where `n` is the number of opposing teams. -/
theorem C135_wengLin_few_teams (L : E.Lib) (A : E.Accurate)
    (ts : List (List (WengLinRating (FP E)) × MultiTeamOutcome)) (c : WengLinConfig (FP E))
    (hc : WlUsualConfig c) (hts : ∀ t ∈ ts, WlTeam c t.1) (h2 : 2 ≤ ts.length) (h4 : ts.length ≤ 4)
    (i : ℕ) (t : List (WengLinRating (FP E)) × MultiTeamOutcome) (ht : ts[i]? = some t) (j : ℕ)
    (a : WengLinRating (FP E)) (ha : t.1[j]? = some a) :
    ∃ p q, ((wengLinMultiTeam ts c)[i]?.bind fun u => u[j]?) = some p ∧
      ((wengLinMultiTeam (ts.map fun u => (u.1.map wlExact, u.2)) (wlConfigExact c))[i]?.bind
        fun u => u[j]?) = some q ∧
      Near ((|a.rating.toR| + (ts.length - 1 : ℕ) * a.uncertainty.toR) / 2 ^ 32) p.rating q.rating ∧
      Near ((ts.length - 1 : ℕ) * a.uncertainty.toR / 2 ^ 30) p.uncertainty q.uncertainty := by
  obtain ⟨p, q, h3, h4, h5, h6⟩ := multi_near L A ts c (κ := 1 / 4) hc hts h2 (by omega) (by norm_num) (by norm_num)
    (fun D _ hD => by
      refine le_trans ?_ (le_max_left _ _)
      have : ((ts.length - 1 : ℕ) : ℝ) ≤ 3 := by
        have : ts.length - 1 ≤ 3 := by omega
        exact_mod_cast this
      linarith) i t ht j a ha
  refine ⟨p, q, h3, h4, h5, ?_⟩
  have : √(1 / 4 : ℝ) = 1 / 2 := by
    rw [Real.sqrt_eq_iff_mul_self_eq (by positivity) (by positivity)]; norm_num
  rw [this] at h6
  convert h6 using 2
  norm_num

/-! ### Expected scores -/

/-- Weng-Lin, expected scores of two teams: within `2 ^ -33` of the exact formula. -/
theorem C135_wengLin_expected_two_teams (L : E.Lib) (A : E.Accurate) (s t : List (WengLinRating (FP E)))
    (c : WengLinConfig (FP E)) (hc : WlUsualConfig c) (hs : WlTeam c s) (ht : WlTeam c t) :
    let x := expectedScoreTwoTeams s t c
    let y := expectedScoreTwoTeams (s.map wlExact) (t.map wlExact) (wlConfigExact c)
    Near (1 / 2 ^ 33) x.1 y.1 ∧ Near (1 / 2 ^ 33) x.2 y.2 := by
  intro x y
  obtain ⟨h1, h2, h3, p1, p2⟩ := pair_near L A hc (summed_team L hc hs) (summed_team L hc ht)
  have ey : y = (wlP (wlC c.beta.toR (side (s.map wlExact)).v (side (t.map wlExact)).v) (side (s.map wlExact)).μ
      (side (t.map wlExact)).μ, 1 - wlP (wlC c.beta.toR (side (s.map wlExact)).v (side (t.map wlExact)).v)
      (side (s.map wlExact)).μ (side (t.map wlExact)).μ) := by
    simp only [y, expectedScoreTwoTeams, teamRating_real, teamUncertaintySq_real, c_real, pValue_real]
    rfl
  rw [ey]
  exact ⟨p1.mono (by norm_num), p2.mono (by norm_num)⟩

/-- Weng-Lin, expected scores of at most 64 teams: within `2 ^ -32` of the exact formula. -/
theorem C135_wengLin_expected_multi_team (L : E.Lib) (A : E.Accurate) (ts : List (List (WengLinRating (FP E))))
    (c : WengLinConfig (FP E)) (hc : WlUsualConfig c) (hts : ∀ t ∈ ts, WlTeam c t) (h64 : ts.length ≤ 64)
    (i : ℕ) (hi : i < ts.length) :
    ∃ p q, (expectedScoreMultiTeam ts c)[i]? = some p ∧
      (expectedScoreMultiTeam (ts.map fun t => t.map wlExact) (wlConfigExact c))[i]? = some q ∧
      Near (1 / 2 ^ 32) p q := by
  have hne : ts ≠ [] := by rintro rfl; simp at hi
  have hβ := FP.Spec.Between.ap' hc.1
  have h2 : Ap 0 1 (2.0 : FP E) 2 := ⟨lit_rel (lit_in (E := E) (m := 20) (s := true) (e := 1) (v := 2)
    (by norm_num) (SRep.ofNat 2 (by norm_num))), by norm_num, by norm_num⟩
  have hlen : (ts.length : ℝ) ≤ 64 := by exact_mod_cast h64
  have s1 := (TrueSkill.sum_ap ts teamUncertaintySq (fun t => (side (t.map wlExact)).v) (k := 33) (n := 46) (m := 6)
    (by norm_num) (by norm_num) hne (by norm_num; exact h64) (by norm_num)
    (fun t ht => (summed_team L hc (hts t ht)).2.2)).mono (k' := 97) (n' := 52) (by linarith) (by norm_num)
  have s2 := h2.mulAdd ((hβ.sq L (by norm_num) (by norm_num)).mono (k' := 97) (n' := 51) (by norm_num) (by norm_num))
    s1 (by norm_num) (by norm_num) (by norm_num) (by norm_num)
  have s3 := s2.sqrt (by norm_num) (by norm_num)
  set V := (ts.map fun t => (side (t.map wlExact)).v).sum with hV
  set C := √(2 * c.beta.toR ^ 2 + V) with hC
  set cc := Flt.sqrt (Flt.mulAdd (2.0 : FP E) (Flt.powi c.beta 2) (Flt.sum (ts.map teamUncertaintySq))) with hcc
  have hβ0 := hβ.2.pos
  have V0 := s1.2.pos
  have hC0 : 0 < C := s3.2.pos
  have hC2 : C ^ 2 = 2 * c.beta.toR ^ 2 + V := Real.sq_sqrt (by positivity)
  have hCβ : 7 / 5 * c.beta.toR ≤ C := by
    by_contra h
    nlinarith
  have exps : ∀ t ∈ ts, Ap 84970 300 (Flt.exp (teamRating t / cc) : FP E) (Real.exp ((side (t.map wlExact)).μ / C)) := by
    intro t ht
    obtain ⟨t1, t2, t3⟩ := summed_team L hc (hts t ht)
    have hq : |(side (t.map wlExact)).μ| / C ≤ 180 := by rw [div_le_iff₀ hC0]; linarith
    have n1 := near_quotient_of (τ := 24200) (t1.mono (by norm_num; linarith)) s3.1 hC0 hq (by norm_num) (by norm_num)
      (by norm_num) (by norm_num)
    refine (exp_ap A n1 (by rw [abs_div, abs_of_pos hC0]; linarith) (by norm_num)).mono (by norm_num) le_rfl
  have tot := (TrueSkill.foldl_ap ts (fun t => Flt.exp (teamRating t / cc))
    (fun t => Real.exp ((side (t.map wlExact)).μ / C)) (k := 84970) (n := 300) (m := 6) zero_near
    (by norm_num) (by norm_num) hne (by norm_num; exact h64) (by norm_num) exps).mono (k' := 85034) (n' := 306)
    (by linarith) (by norm_num)
  have hmem : ts[i] ∈ ts := List.getElem_mem hi
  have q := (exps _ hmem).div tot (by norm_num) (by norm_num) (by norm_num)
  set T := (ts.map fun t => Real.exp ((side (t.map wlExact)).μ / C)).sum with hT
  have hle : Real.exp ((side (ts[i].map wlExact)).μ / C) / T ≤ 1 := by
    rw [div_le_one tot.2.pos]
    refine List.single_le_sum ?_ _ (List.mem_map.2 ⟨_, hmem, rfl⟩)
    intro x hx
    obtain ⟨q, -, rfl⟩ := List.mem_map.1 hx
    exact (Real.exp_pos _).le
  refine ⟨_, _, ?_, ?_, (q.1.near q.2.pos.le).mono
    ((mul_le_of_le_one_right (by positivity) hle).trans (by norm_num))⟩
  · simp only [expectedScoreMultiTeam, List.map_map, List.getElem?_map, List.getElem?_eq_getElem hi, Option.map_some]
    rfl
  · simp only [expectedScoreMultiTeam, List.map_map, List.getElem?_map, List.getElem?_eq_getElem hi, Option.map_some,
      Function.comp_def, teamRating_real, teamUncertaintySq_real]
    have e1 : (Flt.sqrt (Flt.mulAdd 2.0 (Flt.powi (wlConfigExact c).beta 2)
        (Flt.sum (ts.map fun t => (side (t.map wlExact)).v))) : ℝ) = C := by
      simp only [flt]; rfl
    rw [e1, Flt.lit_0, ← List.sum_eq_foldl]
    rfl

/-! ### Examples -/

theorem usual_config : WlUsualConfig (E := ieee) ⟨4.0, 0.5⟩ := by
  have h4 := lit_in (E := ieee) (m := 40) (s := true) (e := 1) (v := 4) (by norm_num)
    (SRep.ofNat 4 (by norm_num))
  have h0 := lit_in (E := ieee) (m := 5) (s := true) (e := 1) (v := 1 / 2) (by norm_num) SRep.half
  have e4 := le_antisymm h4.toR.2 h4.toR.1
  have e0 := le_antisymm h0.toR.2 h0.toR.1
  refine ⟨⟨h4.finite, ?_, ?_⟩, h0.finite, ?_⟩
  · rw [e4]; norm_num
  · rw [e4]; norm_num
  · rw [e0]; norm_num

theorem usual_team : WlTeam (E := ieee) ⟨4.0, 0.5⟩ [⟨25.0, 8.0⟩, ⟨25.0, 8.0⟩] := by
  have h4 := lit_in (E := ieee) (m := 40) (s := true) (e := 1) (v := 4) (by norm_num)
    (SRep.ofNat 4 (by norm_num))
  have h25 := lit_in (E := ieee) (m := 250) (s := true) (e := 1) (v := 25) (by norm_num)
    (SRep.ofNat 25 (by norm_num))
  have h8 := lit_in (E := ieee) (m := 80) (s := true) (e := 1) (v := 8) (by norm_num)
    (SRep.ofNat 8 (by norm_num))
  have e4 := le_antisymm h4.toR.2 h4.toR.1
  have e8 := le_antisymm h8.toR.2 h8.toR.1
  have e25 := le_antisymm h25.toR.2 h25.toR.1
  refine ⟨by simp, by simp, ?_, ?_⟩
  · intro p hp
    have : p = ⟨25.0, 8.0⟩ := by simpa using hp
    subst this
    refine ⟨h25.finite, ?_, h8.finite, ?_, ?_⟩
    · rw [e25, e4]; norm_num
    · rw [e8]; norm_num
    · rw [e8]; norm_num
  · simp only [List.map_cons, List.map_nil, List.sum_cons, List.sum_nil]
    rw [e25, e4]; norm_num

/-- A win of two players against two others: the ratings of the winners are known. -/
example := C135_wengLin_two_teams (E := ieee) ieee_lib ieee_accurate _ _ .WIN ⟨4.0, 0.5⟩ usual_config usual_team
  usual_team

/-- Three teams, two of them tied for the first place. -/
example := C135_wengLin_multi_team (E := ieee) ieee_lib ieee_accurate
  [([⟨25.0, 8.0⟩, ⟨25.0, 8.0⟩], ⟨1⟩), ([⟨25.0, 8.0⟩, ⟨25.0, 8.0⟩], ⟨2⟩), ([⟨25.0, 8.0⟩, ⟨25.0, 8.0⟩], ⟨1⟩)]
  ⟨4.0, 0.5⟩ usual_config (by
    have h0 := lit_in (E := ieee) (m := 5) (s := true) (e := 1) (v := 1 / 2) (by norm_num) SRep.half
    have e0 := le_antisymm h0.toR.2 h0.toR.1
    change (1 : ℝ) / 2 ^ 20 ≤ (0.5 : FP ieee).toR
    rw [e0]; norm_num) (by
    intro t ht
    have : t.1 = [⟨25.0, 8.0⟩, ⟨25.0, 8.0⟩] := by
      simp only [List.mem_cons, List.not_mem_nil, or_false] at ht
      rcases ht with h | h | h <;> rw [h]
    rw [this]; exact usual_team) (by simp) (by simp) 1 _ rfl 0 _ rfl

example := C135_wengLin_expected_multi_team (E := ieee) ieee_lib ieee_accurate
  [[⟨25.0, 8.0⟩, ⟨25.0, 8.0⟩], [⟨25.0, 8.0⟩, ⟨25.0, 8.0⟩]] ⟨4.0, 0.5⟩ usual_config (by
    intro t ht
    have : t = [⟨25.0, 8.0⟩, ⟨25.0, 8.0⟩] := by simpa using ht
    rw [this]; exact usual_team) (by simp) 1 (by simp)

end WengLin
end Skillratings
