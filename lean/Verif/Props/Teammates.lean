import Verif.Props.WengLin
/-
C156: who you play with.  The strength of the team mates in Weng-Lin: the forecast follows every
single member, a result is worth less next to a stronger team mate, and larger teams of equals make
the favourite safer.
-/
namespace Skillratings
namespace WengLin
open Spec Real

/-- The team with one member swapped for `m`. -/
def lineup (l₁ : List (WengLinRating ℝ)) (m : WengLinRating ℝ) (l₂ : List (WengLinRating ℝ)) :
    List (WengLinRating ℝ) := l₁ ++ m :: l₂

theorem side_lineup_μ (l₁ l₂ : List (WengLinRating ℝ)) (m : WengLinRating ℝ) :
    (side (lineup l₁ m l₂)).μ = (side l₁).μ + (side l₂).μ + m.rating := by
  simp only [side, lineup, List.map_append, List.map_cons, List.sum_append, List.sum_cons]; ring

theorem side_lineup_v (l₁ l₂ : List (WengLinRating ℝ)) (m : WengLinRating ℝ) :
    (side (lineup l₁ m l₂)).v = (side l₁).v + (side l₂).v + m.uncertainty ^ 2 := by
  simp only [side, lineup, List.map_append, List.map_cons, List.sum_append, List.sum_cons]; ring

theorem lineup_ne (l₁ l₂ : List (WengLinRating ℝ)) (m : WengLinRating ℝ) : lineup l₁ m l₂ ≠ [] := by
  simp [lineup]

theorem wlC_pos' {β : ℝ} (hβ : β ≠ 0) (s t : List (WengLinRating ℝ)) :
    0 < wlC β (side s).v (side t).v := by
  have h1 := side_v_nonneg s
  have h2 := side_v_nonneg t
  apply Real.sqrt_pos.2; positivity

/-! ### Forecasts -/

/-- A stronger member, at any place of the team, makes the team's chance strictly better. -/
theorem C156_wengLin_stronger_member (l₁ l₂ t : List (WengLinRating ℝ)) (m m' : WengLinRating ℝ)
    (cfg : WengLinConfig ℝ) (hβ : cfg.beta ≠ 0) (hu : m.uncertainty = m'.uncertainty)
    (hr : m.rating < m'.rating) :
    (expectedScoreTwoTeams (l₁ ++ m :: l₂) t cfg).1 <
      (expectedScoreTwoTeams (l₁ ++ m' :: l₂) t cfg).1 := by
  change (expectedScoreTwoTeams (lineup l₁ m l₂) t cfg).1 <
    (expectedScoreTwoTeams (lineup l₁ m' l₂) t cfg).1
  have hc := wlC_pos' hβ (lineup l₁ m' l₂) t
  have hv : (side (lineup l₁ m l₂)).v = (side (lineup l₁ m' l₂)).v := by
    rw [side_lineup_v, side_lineup_v, hu]
  rw [expectedTwo_real, expectedTwo_real]
  simp only
  rw [wlP_eq, wlP_eq, hv]
  apply sigmoid_strictMono
  rw [div_lt_div_iff_of_pos_right hc, side_lineup_μ, side_lineup_μ]
  linarith

/-- A member of less certain strength brings the forecast closer to even. -/
theorem C156_wengLin_uncertain_member (l₁ l₂ t : List (WengLinRating ℝ)) (m m' : WengLinRating ℝ)
    (cfg : WengLinConfig ℝ) (hβ : cfg.beta ≠ 0) (hr : m.rating = m'.rating)
    (hu : m.uncertainty ^ 2 < m'.uncertainty ^ 2)
    (hf : 1 / 2 < (expectedScoreTwoTeams (l₁ ++ m :: l₂) t cfg).1) :
    1 / 2 < (expectedScoreTwoTeams (l₁ ++ m' :: l₂) t cfg).1 ∧
      (expectedScoreTwoTeams (l₁ ++ m' :: l₂) t cfg).1 <
        (expectedScoreTwoTeams (l₁ ++ m :: l₂) t cfg).1 := by
  change 1 / 2 < (expectedScoreTwoTeams (lineup l₁ m l₂) t cfg).1 at hf
  change 1 / 2 < (expectedScoreTwoTeams (lineup l₁ m' l₂) t cfg).1 ∧
    (expectedScoreTwoTeams (lineup l₁ m' l₂) t cfg).1 <
      (expectedScoreTwoTeams (lineup l₁ m l₂) t cfg).1
  have hc := wlC_pos' hβ (lineup l₁ m l₂) t
  have hc' := wlC_pos' hβ (lineup l₁ m' l₂) t
  have hμ : (side (lineup l₁ m' l₂)).μ = (side (lineup l₁ m l₂)).μ := by
    rw [side_lineup_μ, side_lineup_μ, hr]
  have hcc : wlC cfg.beta (side (lineup l₁ m l₂)).v (side t).v <
      wlC cfg.beta (side (lineup l₁ m' l₂)).v (side t).v := by
    have := side_v_nonneg (lineup l₁ m l₂)
    have := side_v_nonneg t
    apply Real.sqrt_lt_sqrt
    · positivity
    · rw [side_lineup_v, side_lineup_v]; linarith
  rw [expectedTwo_real] at hf ⊢
  rw [expectedTwo_real]
  simp only at hf ⊢
  rw [wlP_eq] at hf ⊢
  rw [wlP_eq, hμ]
  have h0 : sigmoid 0 = 1 / 2 := by rw [sigmoid_def]; norm_num
  rw [← h0] at hf ⊢
  have hd := sigmoid_strictMono.lt_iff_lt.1 hf
  have hd' : 0 < (side (lineup l₁ m l₂)).μ - (side t).μ := by
    by_contra h
    exact absurd hd (not_lt.2 (div_nonpos_of_nonpos_of_nonneg (not_lt.1 h) hc.le))
  exact ⟨sigmoid_strictMono (div_pos hd' hc'),
    sigmoid_strictMono (div_lt_div_of_pos_left hd' hc hcc)⟩

/-! ### Ratings -/

/-- The same result is worth strictly less to every other member when one member of the team is
replaced by a stronger one. -/
theorem C156_wengLin_carried (l₁ l₂ t : List (WengLinRating ℝ)) (m m' p : WengLinRating ℝ)
    (o : Outcomes) (cfg : WengLinConfig ℝ) (ht : t ≠ []) (hβ : cfg.beta ≠ 0)
    (hu : m.uncertainty = m'.uncertainty) (hr : m.rating < m'.rating) (j : ℕ)
    (hj : j ≠ l₁.length) (hp : (l₁ ++ m :: l₂)[j]? = some p) (hpu : p.uncertainty ≠ 0) :
    ∃ q q', (wengLinTwoTeams (l₁ ++ m :: l₂) t o cfg).1[j]? = some q ∧
      (wengLinTwoTeams (l₁ ++ m' :: l₂) t o cfg).1[j]? = some q' ∧ q'.rating < q.rating := by
  have hp' : (l₁ ++ m' :: l₂)[j]? = some p := by
    rw [← hp]
    rcases lt_or_gt_of_ne hj with h | h
    · rw [List.getElem?_append_left h, List.getElem?_append_left h]
    · rw [List.getElem?_append_right h.le, List.getElem?_append_right h.le]
      obtain ⟨k, hk⟩ := Nat.exists_eq_add_of_lt h
      have : j - l₁.length = k + 1 := by omega
      rw [this, List.getElem?_cons_succ, List.getElem?_cons_succ]
  change ∃ q q', (wengLinTwoTeams (lineup l₁ m l₂) t o cfg).1[j]? = some q ∧
      (wengLinTwoTeams (lineup l₁ m' l₂) t o cfg).1[j]? = some q' ∧ q'.rating < q.rating
  have hv : (side (lineup l₁ m l₂)).v = (side (lineup l₁ m' l₂)).v := by
    rw [side_lineup_v, side_lineup_v, hu]
  have hc := wlC_pos' hβ (lineup l₁ m' l₂) t
  have hvp : 0 < (side (lineup l₁ m' l₂)).v :=
    side_v_pos (p := p) (List.mem_of_getElem? hp') hpu
  have hP := C156_wengLin_stronger_member l₁ l₂ t m m' cfg hβ hu hr
  change (expectedScoreTwoTeams (lineup l₁ m l₂) t cfg).1 <
    (expectedScoreTwoTeams (lineup l₁ m' l₂) t cfg).1 at hP
  rw [expectedTwo_real, expectedTwo_real] at hP
  simp only [hv] at hP
  rw [twoTeams_real _ t o cfg (lineup_ne _ _ _) ht, twoTeams_real _ t o cfg (lineup_ne _ _ _) ht]
  simp only [update, List.getElem?_map]
  rw [show (lineup l₁ m l₂)[j]? = some p from hp, show (lineup l₁ m' l₂)[j]? = some p from hp']
  refine ⟨_, _, rfl, rfl, ?_⟩
  simp only [wlRating, wlDelta, hv]
  have hs : 0 < p.uncertainty ^ 2 := by positivity
  gcongr

/-- And it is worth strictly more to the opponents. -/
theorem C156_wengLin_stronger_opponents (l₁ l₂ t : List (WengLinRating ℝ))
    (m m' p : WengLinRating ℝ) (o : Outcomes) (cfg : WengLinConfig ℝ) (hβ : cfg.beta ≠ 0)
    (hu : m.uncertainty = m'.uncertainty) (hr : m.rating < m'.rating) (j : ℕ)
    (hp : t[j]? = some p) (hpu : p.uncertainty ≠ 0) :
    ∃ q q', (wengLinTwoTeams (l₁ ++ m :: l₂) t o cfg).2[j]? = some q ∧
      (wengLinTwoTeams (l₁ ++ m' :: l₂) t o cfg).2[j]? = some q' ∧ q.rating < q'.rating := by
  change ∃ q q', (wengLinTwoTeams (lineup l₁ m l₂) t o cfg).2[j]? = some q ∧
      (wengLinTwoTeams (lineup l₁ m' l₂) t o cfg).2[j]? = some q' ∧ q.rating < q'.rating
  have ht : t ≠ [] := by rintro rfl; simp at hp
  have hv : (side (lineup l₁ m l₂)).v = (side (lineup l₁ m' l₂)).v := by
    rw [side_lineup_v, side_lineup_v, hu]
  have hc := wlC_pos' hβ t (lineup l₁ m' l₂)
  have hvp : 0 < (side t).v := side_v_pos (p := p) (List.mem_of_getElem? hp) hpu
  have hP : wlP (wlC cfg.beta (side t).v (side (lineup l₁ m' l₂)).v) (side t).μ
      (side (lineup l₁ m' l₂)).μ < wlP (wlC cfg.beta (side t).v (side (lineup l₁ m' l₂)).v)
        (side t).μ (side (lineup l₁ m l₂)).μ := by
    rw [wlP_eq, wlP_eq]
    apply sigmoid_strictMono
    rw [div_lt_div_iff_of_pos_right hc, side_lineup_μ, side_lineup_μ]
    linarith
  rw [twoTeams_real _ t o cfg (lineup_ne _ _ _) ht, twoTeams_real _ t o cfg (lineup_ne _ _ _) ht]
  simp only [update, List.getElem?_map, hp]
  refine ⟨_, _, rfl, rfl, ?_⟩
  simp only [wlRating, wlDelta, hv]
  have hs : 0 < p.uncertainty ^ 2 := by positivity
  gcongr

/-! ### Teams of equals -/

theorem side_replicate (n : ℕ) (a : WengLinRating ℝ) :
    side (List.replicate n a) = ⟨n * a.rating, n * a.uncertainty ^ 2⟩ := by
  simp [side, List.map_replicate, List.sum_replicate]

/-- `n` players of one strength against `n` of a lower one: the more players a side, the safer the
favourites. -/
theorem C156_wengLin_larger_teams (a b : WengLinRating ℝ) (cfg : WengLinConfig ℝ)
    (hβ : cfg.beta ≠ 0) (hab : b.rating < a.rating) {n k : ℕ} (h : n < k) :
    (expectedScoreTwoTeams (List.replicate n a) (List.replicate n b) cfg).1 <
      (expectedScoreTwoTeams (List.replicate k a) (List.replicate k b) cfg).1 := by
  have hc := wlC_pos' hβ (List.replicate n a) (List.replicate n b)
  have hc' := wlC_pos' hβ (List.replicate k a) (List.replicate k b)
  rw [expectedTwo_real, expectedTwo_real]
  simp only [side_replicate] at hc hc' ⊢
  rw [wlP_eq, wlP_eq]
  apply sigmoid_strictMono
  have hn : (n : ℝ) < k := by exact_mod_cast h
  have hn0 : (0 : ℝ) ≤ n := n.cast_nonneg
  have hd : 0 < a.rating - b.rating := by linarith
  rw [← mul_sub, ← mul_sub, div_lt_div_iff₀ hc hc',
    mul_right_comm, mul_right_comm (k : ℝ)]
  apply mul_lt_mul_of_pos_right _ hd
  have hs : 0 ≤ a.uncertainty ^ 2 + b.uncertainty ^ 2 := by positivity
  have hb : 0 < cfg.beta ^ 2 := by positivity
  have hk : (0 : ℝ) < k := by linarith
  refine lt_of_pow_lt_pow_left₀ 2 (mul_pos hk hc).le ?_
  rw [mul_pow, mul_pow, wlC, wlC, Real.sq_sqrt (by positivity), Real.sq_sqrt (by positivity)]
  have h2 : (n : ℝ) ^ 2 < k ^ 2 := by nlinarith
  have e1 : (n : ℝ) ^ 2 * (k * a.uncertainty ^ 2 + k * b.uncertainty ^ 2 + 2 * cfg.beta ^ 2) =
    n * (n * k) * (a.uncertainty ^ 2 + b.uncertainty ^ 2) + n ^ 2 * (2 * cfg.beta ^ 2) := by ring
  have e2 : (k : ℝ) ^ 2 * (n * a.uncertainty ^ 2 + n * b.uncertainty ^ 2 + 2 * cfg.beta ^ 2) =
    k * (n * k) * (a.uncertainty ^ 2 + b.uncertainty ^ 2) + k ^ 2 * (2 * cfg.beta ^ 2) := by ring
  rw [e1, e2]
  have h3 : n * (n * k) * (a.uncertainty ^ 2 + b.uncertainty ^ 2) ≤
      k * (n * k) * (a.uncertainty ^ 2 + b.uncertainty ^ 2) := by gcongr
  have h4 : (n : ℝ) ^ 2 * (2 * cfg.beta ^ 2) < k ^ 2 * (2 * cfg.beta ^ 2) := by gcongr
  linarith

/-! ### Any number of teams -/

/-- One member of the team at place `T₁.length` becomes stronger: that team's chance rises, the
chance of every other team falls. -/
theorem C156_wengLin_multi_stronger_member (T₁ T₂ : List (List (WengLinRating ℝ)))
    (l₁ l₂ : List (WengLinRating ℝ)) (m m' : WengLinRating ℝ) (cfg : WengLinConfig ℝ)
    (hβ : cfg.beta ≠ 0) (hu : m.uncertainty = m'.uncertainty) (hr : m.rating < m'.rating)
    (hT : T₁ ++ T₂ ≠ []) (j : ℕ) (hj : j < T₁.length + T₂.length + 1) :
    let e := expectedScoreMultiTeam (T₁ ++ (l₁ ++ m :: l₂) :: T₂) cfg
    let e' := expectedScoreMultiTeam (T₁ ++ (l₁ ++ m' :: l₂) :: T₂) cfg
    ∃ x x', e[j]? = some x ∧ e'[j]? = some x' ∧
      (j = T₁.length → x < x') ∧ (j ≠ T₁.length → x' < x) := by
  change let e := expectedScoreMultiTeam (T₁ ++ lineup l₁ m l₂ :: T₂) cfg
    let e' := expectedScoreMultiTeam (T₁ ++ lineup l₁ m' l₂ :: T₂) cfg
    ∃ x x', e[j]? = some x ∧ e'[j]? = some x' ∧
      (j = T₁.length → x < x') ∧ (j ≠ T₁.length → x' < x)
  intro e e'
  have hv : (side (lineup l₁ m l₂)).v = (side (lineup l₁ m' l₂)).v := by
    rw [side_lineup_v, side_lineup_v, hu]
  have hC : multiC (T₁ ++ lineup l₁ m l₂ :: T₂) cfg.beta =
      multiC (T₁ ++ lineup l₁ m' l₂ :: T₂) cfg.beta := by
    simp only [multiC, List.map_append, List.map_cons, hv]
  have hc : 0 < multiC (T₁ ++ lineup l₁ m' l₂ :: T₂) cfg.beta := by
    apply Real.sqrt_pos.2
    have h1 : 0 < 2 * cfg.beta ^ 2 := by positivity
    have h2 : 0 ≤ ((T₁ ++ lineup l₁ m' l₂ :: T₂).map fun t => (side t).v).sum := by
      apply List.sum_nonneg
      intro y hy
      obtain ⟨u, -, rfl⟩ := List.mem_map.1 hy
      exact side_v_nonneg u
    linarith
  set c := multiC (T₁ ++ lineup l₁ m' l₂ :: T₂) cfg.beta with hcdef
  have hlt : exp ((side (lineup l₁ m l₂)).μ / c) < exp ((side (lineup l₁ m' l₂)).μ / c) := by
    apply Real.exp_lt_exp.2
    rw [div_lt_div_iff_of_pos_right hc, side_lineup_μ, side_lineup_μ]
    linarith
  have hR := multi_sum_pos (T₁ ++ T₂) c hT
  set w : List (WengLinRating ℝ) → ℝ := fun t => exp ((side t).μ / c) with hw
  have hwp : ∀ t, 0 < w t := fun t => Real.exp_pos _
  have hsum : ∀ x, ((T₁ ++ x :: T₂).map w).sum = ((T₁ ++ T₂).map w).sum + w x := by
    intro x
    simp only [List.map_append, List.map_cons, List.sum_append, List.sum_cons]; ring
  have he : e = (T₁ ++ lineup l₁ m l₂ :: T₂).map fun t =>
      w t / (((T₁ ++ T₂).map w).sum + w (lineup l₁ m l₂)) := by
    simp only [e]; rw [expectedMulti_real, hC, ← hsum]
  have he' : e' = (T₁ ++ lineup l₁ m' l₂ :: T₂).map fun t =>
      w t / (((T₁ ++ T₂).map w).sum + w (lineup l₁ m' l₂)) := by
    simp only [e']; rw [expectedMulti_real, ← hsum]
  set R := ((T₁ ++ T₂).map w).sum with hRdef
  have hlt' : w (lineup l₁ m l₂) < w (lineup l₁ m' l₂) := hlt
  have p1 := hwp (lineup l₁ m l₂)
  have p2 := hwp (lineup l₁ m' l₂)
  have hR' : 0 < R := hR
  rw [he, he', List.getElem?_map, List.getElem?_map]
  by_cases h : j = T₁.length
  · subst h
    refine ⟨_, _, by rw [List.getElem?_append_right le_rfl]; simp; rfl,
      by rw [List.getElem?_append_right le_rfl]; simp; rfl, fun _ => ?_, fun h => absurd rfl h⟩
    rw [div_lt_div_iff₀ (by linarith) (by linarith)]
    nlinarith
  · have hget : ∀ x, ∃ t, (T₁ ++ x :: T₂)[j]? = some t ∧
        ∀ y, (T₁ ++ y :: T₂)[j]? = some t := by
      intro x
      rcases lt_or_gt_of_ne h with h | h
      · exact ⟨T₁[j], by rw [List.getElem?_append_left h, List.getElem?_eq_getElem h],
          fun y => by rw [List.getElem?_append_left h, List.getElem?_eq_getElem h]⟩
      · obtain ⟨k, hk⟩ := Nat.exists_eq_add_of_lt h
        have hk' : j - T₁.length = k + 1 := by omega
        have hk2 : k < T₂.length := by omega
        exact ⟨T₂[k], by rw [List.getElem?_append_right h.le, hk', List.getElem?_cons_succ,
            List.getElem?_eq_getElem hk2],
          fun y => by rw [List.getElem?_append_right h.le, hk', List.getElem?_cons_succ,
            List.getElem?_eq_getElem hk2]⟩
    obtain ⟨t, h1, h2⟩ := hget (lineup l₁ m l₂)
    rw [h1, h2]
    refine ⟨_, _, rfl, rfl, fun h' => absurd h' h, fun _ => ?_⟩
    exact div_lt_div_of_pos_left (hwp t) (by linarith) (by linarith)

/-- Any number of teams: with a stronger member in team `i` the same ranking is worth strictly less
to the other members of that team, and strictly more to every member of every other team. -/
theorem C156_wengLin_multi_carried {n : ℕ} (hn : 2 ≤ n)
    (t : Fin n → List (WengLinRating ℝ) × MultiTeamOutcome) (h : ∀ i, (t i).1 ≠ []) (i : Fin n)
    (l₁ l₂ : List (WengLinRating ℝ)) (m m' : WengLinRating ℝ) (hi : (t i).1 = l₁ ++ m :: l₂)
    (cfg : WengLinConfig ℝ) (hβ : cfg.beta ≠ 0) (hu : m.uncertainty = m'.uncertainty)
    (hr : m.rating < m'.rating) (j : Fin n) (k : ℕ) (hk : j = i → k ≠ l₁.length)
    (p : WengLinRating ℝ) (hp : (t j).1[k]? = some p) (hpu : p.uncertainty ≠ 0) :
    let t' := Function.update t i (l₁ ++ m' :: l₂, (t i).2)
    ∃ T T' q q', (wengLinMultiTeam (List.ofFn t) cfg)[j]? = some T ∧
      (wengLinMultiTeam (List.ofFn t') cfg)[j]? = some T' ∧ T[k]? = some q ∧ T'[k]? = some q' ∧
      (j = i → q'.rating < q.rating) ∧ (j ≠ i → q.rating < q'.rating) := by
  intro t'
  have hi' : (t i).1 = lineup l₁ m l₂ := hi
  have ht'i : t' i = (lineup l₁ m' l₂, (t i).2) := Function.update_self ..
  have ht'n : ∀ q, q ≠ i → t' q = t q := fun q hq => Function.update_of_ne hq ..
  have h' : ∀ q, (t' q).1 ≠ [] := by
    intro q
    by_cases hq : q = i
    · rw [hq, ht'i]; exact lineup_ne _ _ _
    · rw [ht'n q hq]; exact h q
  have hv : (side (lineup l₁ m l₂)).v = (side (lineup l₁ m' l₂)).v := by
    rw [side_lineup_v, side_lineup_v, hu]
  have hμ : (side (lineup l₁ m l₂)).μ < (side (lineup l₁ m' l₂)).μ := by
    rw [side_lineup_μ, side_lineup_μ]; linarith
  have hvp : 0 < (side (t j).1).v := side_v_pos (p := p) (List.mem_of_getElem? hp) hpu
  have hs : 0 < p.uncertainty ^ 2 := by positivity
  rw [multi_real t cfg h, multi_real t' cfg h']
  have hp' : (t' j).1[k]? = some p := by
    by_cases hj : j = i
    · subst hj
      rw [ht'i, ← hp, hi]
      change (l₁ ++ m' :: l₂)[k]? = _
      rcases lt_or_gt_of_ne (hk rfl) with h | h
      · rw [List.getElem?_append_left h, List.getElem?_append_left h]
      · rw [List.getElem?_append_right h.le, List.getElem?_append_right h.le]
        obtain ⟨d, hd⟩ := Nat.exists_eq_add_of_lt h
        have : k - l₁.length = d + 1 := by omega
        rw [this, List.getElem?_cons_succ, List.getElem?_cons_succ]
    · rw [ht'n j hj, hp]
  refine ⟨_, _, _, _, by simp; rfl, by simp; rfl, by
    rw [WengLin.update, List.getElem?_map, hp]; rfl, by
    rw [WengLin.update, List.getElem?_map, hp']; rfl, ?_⟩
  by_cases hj : j = i
  · subst hj
    refine ⟨fun _ => ?_, fun h => absurd rfl h⟩
    simp only [wlRating, ht'i, hi', ← hv]
    rw [hi'] at hvp
    have hO : Omega cfg.beta t' j < Omega cfg.beta t j := by
      unfold Omega
      apply Finset.sum_lt_sum_of_nonempty
      · rw [← Finset.card_pos, Finset.card_erase_of_mem (Finset.mem_univ _), Finset.card_univ,
          Fintype.card_fin]
        omega
      · intro q hq
        have hq' := Finset.ne_of_mem_erase hq
        have hc := wlC_pos' hβ (lineup l₁ m l₂) (t q).1
        simp only [wlDelta, ht'i, ht'n q hq', hi', ← hv]
        have hP : wlP (wlC cfg.beta (side (lineup l₁ m l₂)).v (side (t q).1).v)
            (side (lineup l₁ m l₂)).μ (side (t q).1).μ <
            wlP (wlC cfg.beta (side (lineup l₁ m l₂)).v (side (t q).1).v)
            (side (lineup l₁ m' l₂)).μ (side (t q).1).μ := by
          rw [wlP_eq, wlP_eq]
          apply sigmoid_strictMono
          rw [div_lt_div_iff_of_pos_right hc]
          linarith
        gcongr
    gcongr
  · refine ⟨fun h => absurd h hj, fun _ => ?_⟩
    simp only [wlRating, ht'n j hj]
    have hO : Omega cfg.beta t j < Omega cfg.beta t' j := by
      unfold Omega
      have key : wlDelta cfg.beta (side (t j).1) (side (t i).1) (rankPoints (t j).2 (t i).2) <
          wlDelta cfg.beta (side (t' j).1) (side (t' i).1) (rankPoints (t' j).2 (t' i).2) := by
        have hc := wlC_pos' hβ (t j).1 (lineup l₁ m l₂)
        simp only [wlDelta, ht'i, ht'n j hj, hi', ← hv]
        have hP : wlP (wlC cfg.beta (side (t j).1).v (side (lineup l₁ m l₂)).v)
            (side (t j).1).μ (side (lineup l₁ m' l₂)).μ <
            wlP (wlC cfg.beta (side (t j).1).v (side (lineup l₁ m l₂)).v)
            (side (t j).1).μ (side (lineup l₁ m l₂)).μ := by
          rw [wlP_eq, wlP_eq]
          apply sigmoid_strictMono
          rw [div_lt_div_iff_of_pos_right hc]
          linarith
        gcongr
      apply Finset.sum_lt_sum
      · intro q _
        by_cases hq : q = i
        · rw [hq]; exact key.le
        · rw [ht'n q hq, ht'n j hj]
      · exact ⟨i, Finset.mem_erase.2 ⟨fun h => hj h.symm, Finset.mem_univ _⟩, key⟩
    gcongr

/-! ### Cases -/

example :
    (expectedScoreTwoTeams [⟨25, 8⟩, ⟨20, 3⟩] [⟨24, 6⟩] (WengLinConfig.new : WengLinConfig ℝ)).1 <
      (expectedScoreTwoTeams [⟨25, 8⟩, ⟨30, 3⟩] [⟨24, 6⟩] WengLinConfig.new).1 :=
  C156_wengLin_stronger_member [⟨25, 8⟩] [] [⟨24, 6⟩] ⟨20, 3⟩ ⟨30, 3⟩ _
    (by norm_num [WengLinConfig.new, flt]) rfl (by norm_num)

example : ∃ q q' : WengLinRating ℝ, (wengLinTwoTeams [⟨25, 8⟩, ⟨20, 3⟩] [⟨24, 6⟩] .WIN
      (WengLinConfig.new : WengLinConfig ℝ)).1[0]? = some q ∧
    (wengLinTwoTeams [⟨25, 8⟩, ⟨30, 3⟩] [⟨24, 6⟩] .WIN
        (WengLinConfig.new : WengLinConfig ℝ)).1[0]? = some q' ∧
      q'.rating < q.rating :=
  C156_wengLin_carried [⟨25, 8⟩] [] [⟨24, 6⟩] ⟨20, 3⟩ ⟨30, 3⟩ ⟨25, 8⟩ .WIN _ (by simp)
    (by norm_num [WengLinConfig.new, flt]) rfl (by norm_num) 0 (by simp) rfl (by norm_num)

example : ∃ q q' : WengLinRating ℝ, (wengLinTwoTeams [⟨25, 8⟩, ⟨20, 3⟩] [⟨24, 6⟩] .LOSS
      (WengLinConfig.new : WengLinConfig ℝ)).2[0]? = some q ∧
    (wengLinTwoTeams [⟨25, 8⟩, ⟨30, 3⟩] [⟨24, 6⟩] .LOSS
        (WengLinConfig.new : WengLinConfig ℝ)).2[0]? = some q' ∧
      q.rating < q'.rating :=
  C156_wengLin_stronger_opponents [⟨25, 8⟩] [] [⟨24, 6⟩] ⟨20, 3⟩ ⟨30, 3⟩ ⟨24, 6⟩ .LOSS _
    (by norm_num [WengLinConfig.new, flt]) rfl (by norm_num) 0 rfl (by norm_num)

example (a b : WengLinRating ℝ) (ha : a = ⟨30, 8⟩) (hb : b = ⟨25, 5⟩) :
    (expectedScoreTwoTeams (List.replicate 1 a) (List.replicate 1 b)
        (WengLinConfig.new : WengLinConfig ℝ)).1 <
      (expectedScoreTwoTeams (List.replicate 5 a) (List.replicate 5 b) WengLinConfig.new).1 :=
  C156_wengLin_larger_teams a b _ (by norm_num [WengLinConfig.new, flt])
    (by subst ha hb; norm_num) (by norm_num)

example :
    let e := expectedScoreMultiTeam [[⟨25, 8⟩], [⟨24, 6⟩, ⟨20, 3⟩], [⟨40, 5⟩]]
      (WengLinConfig.new : WengLinConfig ℝ)
    let e' := expectedScoreMultiTeam [[⟨25, 8⟩], [⟨24, 6⟩, ⟨30, 3⟩], [⟨40, 5⟩]]
      (WengLinConfig.new : WengLinConfig ℝ)
    ∃ x x', e[2]? = some x ∧ e'[2]? = some x' ∧ x' < x := by
  obtain ⟨x, x', h1, h2, -, h3⟩ := C156_wengLin_multi_stronger_member [[⟨25, 8⟩]] [[⟨40, 5⟩]]
    [⟨24, 6⟩] [] ⟨20, 3⟩ ⟨30, 3⟩ WengLinConfig.new (by norm_num [WengLinConfig.new, flt]) rfl
    (by norm_num) (by simp) 2 (by simp)
  exact ⟨x, x', h1, h2, h3 (by simp)⟩

example :
    let t : Fin 3 → List (WengLinRating ℝ) × MultiTeamOutcome :=
      ![([⟨25, 8⟩, ⟨20, 3⟩], ⟨1⟩), ([⟨24, 6⟩], ⟨2⟩), ([⟨40, 5⟩], ⟨3⟩)]
    ∃ T T' q q', (wengLinMultiTeam (List.ofFn t) WengLinConfig.new)[(0 : Fin 3)]? = some T ∧
      (wengLinMultiTeam (List.ofFn (Function.update t 0 ([⟨25, 8⟩, ⟨30, 3⟩], ⟨1⟩)))
        WengLinConfig.new)[(0 : Fin 3)]? = some T' ∧
      T[0]? = some q ∧ T'[0]? = some q' ∧ q'.rating < q.rating := by
  intro t
  obtain ⟨T, T', q, q', h1, h2, h3, h4, h5, -⟩ := C156_wengLin_multi_carried (n := 3) (by norm_num) t
    (by intro i; fin_cases i <;> simp [t]) 0 [⟨25, 8⟩] [] ⟨20, 3⟩ ⟨30, 3⟩ rfl WengLinConfig.new
    (by norm_num [WengLinConfig.new, flt]) rfl (by norm_num) 0 0 (by simp) ⟨25, 8⟩ rfl (by norm_num)
  exact ⟨T, T', q, q', h1, h2, h3, h4, h5 rfl⟩

/-- The hypotheses of the uncertain member: two against one, ahead in the forecast. -/
example : (1 / 2 : ℝ) < (expectedScoreTwoTeams ([⟨25, 8⟩] ++ ⟨20, 3⟩ :: []) [⟨24, 6⟩]
    (WengLinConfig.new : WengLinConfig ℝ)).1 := by
  have hc := wlC_pos' (β := (WengLinConfig.new : WengLinConfig ℝ).beta)
    (by norm_num [WengLinConfig.new, flt]) ([⟨25, 8⟩] ++ ⟨20, 3⟩ :: []) [⟨24, 6⟩]
  rw [expectedTwo_real]
  simp only
  rw [wlP_eq, show (1 / 2 : ℝ) = sigmoid 0 by rw [sigmoid_def]; norm_num]
  exact sigmoid_strictMono (div_pos (by norm_num [side]) hc)

end WengLin
end Skillratings
