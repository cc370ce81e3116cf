import Mathlib.Analysis.Convex.Deriv
import Verif.Proofs.DrawOrder
import Verif.Proofs.WengLin
import Verif.Props.Ingo
import Verif.Props.Glicko
import Verif.Props.Seats
/-
C149: of two players with the same rating and the same results the less established one moves further.

`x ∈ [[r, y]]` says that `x` lies between `r` and `y`, whichever of them is larger: with `r` the common old
rating it says that the player with the new rating `x` moved in the same direction as the one with the new
rating `y`, and not further.
-/
namespace Skillratings
open Real Spec

theorem moves_less {r m m' : ℝ} (h : 0 ≤ m ∧ m ≤ m' ∨ m' ≤ m ∧ m ≤ 0) :
    r + m ∈ Set.uIcc r (r + m') := by
  rw [Set.mem_uIcc]
  rcases h with h | h
  · exact Or.inl ⟨by linarith, by linarith⟩
  · exact Or.inr ⟨by linarith, by linarith⟩

theorem factor_less {r t t' x : ℝ} (h0 : 0 ≤ t) (h : t ≤ t') : r + t * x ∈ Set.uIcc r (r + t' * x) := by
  apply moves_less
  rcases le_total 0 x with hx | hx
  · exact Or.inl ⟨mul_nonneg h0 hx, mul_le_mul_of_nonneg_right h hx⟩
  · exact Or.inr ⟨mul_le_mul_of_nonpos_right h hx, mul_nonpos_of_nonneg_of_nonpos h0 hx⟩

/-! ### Glicko -/

theorem onset_mono {d d' : ℝ} (c : ℝ) (h0 : 0 < d) (h : d ≤ d') : glickoOnset d c ≤ glickoOnset d' c :=
  min_le_min_right _ (Real.sqrt_le_sqrt (by gcongr))

theorem est_posterior_mono {v v' i : ℝ} (h0 : 0 < v) (h : v ≤ v') (hi : 0 ≤ i) :
    0 ≤ posterior v i ∧ posterior v i ≤ posterior v' i := by
  unfold posterior
  have : 0 < v' := h0.trans_le h
  constructor
  · positivity
  · gcongr

/-- A single game, either seat: rating and deviation. -/
theorem C149_glicko_game (a a' b : Glicko.GlickoRating ℝ) (o : Outcomes) (c : Glicko.GlickoConfig ℝ)
    (hr : a'.rating = a.rating) (h0 : 0 < a.deviation) (h : a.deviation ≤ a'.deviation) :
    (Glicko.glicko a b o c).1.rating ∈ Set.uIcc a.rating (Glicko.glicko a' b o c).1.rating ∧
    (Glicko.glicko a b o c).1.deviation ≤ (Glicko.glicko a' b o c).1.deviation ∧
    (Glicko.glicko b a o c).2.rating ∈ Set.uIcc a.rating (Glicko.glicko b a' o c).2.rating ∧
    (Glicko.glicko b a o c).2.deviation ≤ (Glicko.glicko b a' o c).2.deviation := by
  have ho := glickoOnset_pos c.c h0
  have hm := onset_mono c.c h0 h
  have hv := est_posterior_mono (v := glickoOnset a.deviation c.c ^ 2) (by positivity)
    (pow_le_pow_left₀ ho.le hm 2) (glickoInfo_pos a.rating b.rating b.deviation).le
  have hq := glickoQ_pos
  have key : ∀ s : ℝ, (Glicko.rated a.rating a.deviation b.rating b.deviation s c.c).rating
        ∈ Set.uIcc a.rating (Glicko.rated a.rating a'.deviation b.rating b.deviation s c.c).rating ∧
      (Glicko.rated a.rating a.deviation b.rating b.deviation s c.c).deviation
        ≤ (Glicko.rated a.rating a'.deviation b.rating b.deviation s c.c).deviation := fun s =>
    ⟨factor_less (mul_nonneg hq.le hv.1) (mul_le_mul_of_nonneg_left hv.2 hq.le),
      Real.sqrt_le_sqrt hv.2⟩
  simp only [Glicko.glicko_real, hr]
  exact ⟨(key _).1, (key _).2, (key _).1, (key _).2⟩

/-- A rating period with any number of games. -/
theorem C149_glicko_period (a a' : Glicko.GlickoRating ℝ) (rs : List (Glicko.GlickoRating ℝ × Outcomes))
    (c : Glicko.GlickoConfig ℝ) (hr : a'.rating = a.rating) (h0 : 0 < a.deviation)
    (h : a.deviation ≤ a'.deviation) :
    (Glicko.glickoRatingPeriod a rs c).rating
      ∈ Set.uIcc a.rating (Glicko.glickoRatingPeriod a' rs c).rating ∧
    (Glicko.glickoRatingPeriod a rs c).deviation ≤ (Glicko.glickoRatingPeriod a' rs c).deviation := by
  have hm := onset_mono c.c h0 h
  rcases eq_or_ne rs [] with he | he
  · subst he
    simp only [Glicko.glickoRatingPeriod, List.isEmpty_nil, if_true, Glicko.decayDeviation,
      Glicko.onset_real, hr]
    exact ⟨Set.left_mem_uIcc, hm⟩
  · have ho := glickoOnset_pos c.c h0
    have hi : 0 ≤ (rs.map fun r => glickoInfo a.rating r.1.rating r.1.deviation).sum :=
      List.sum_nonneg (by
        intro x hx
        obtain ⟨y, _, rfl⟩ := List.mem_map.1 hx
        exact (glickoInfo_pos _ _ _).le)
    have hv := est_posterior_mono (v := glickoOnset a.deviation c.c ^ 2) (by positivity)
      (pow_le_pow_left₀ ho.le hm 2) hi
    have hq := glickoQ_pos
    rw [Glicko.period_real a rs c he, Glicko.period_real a' rs c he, hr]
    exact ⟨factor_less (mul_nonneg hq.le hv.1) (mul_le_mul_of_nonneg_left hv.2 hq.le),
      Real.sqrt_le_sqrt hv.2⟩

/-! ### Weng-Lin -/

theorem sigmoid_concave : ConcaveOn ℝ (Set.Ici (0 : ℝ)) sigmoid := by
  apply AntitoneOn.concaveOn_of_deriv (convex_Ici 0) differentiable_sigmoid.continuous.continuousOn
    differentiable_sigmoid.differentiableOn
  intro x hx y hy hxy
  rw [interior_Ici, Set.mem_Ioi] at hx hy
  rw [(hasDerivAt_sig x).deriv, (hasDerivAt_sig y).deriv]
  have h1 := half_lt_sigmoid hx
  have h2 : sigmoid x ≤ sigmoid y := sigmoid_monotone hxy
  nlinarith

theorem sigmoid_scaled {t x : ℝ} (hx : 0 ≤ x) (h0 : 0 ≤ t) (h1 : t ≤ 1) :
    t * (sigmoid x - 1 / 2) ≤ sigmoid (t * x) - 1 / 2 := by
  have := sigmoid_concave.2 (Set.mem_Ici.2 hx) (Set.mem_Ici.2 le_rfl) h0 (sub_nonneg.2 h1)
    (by ring : t + (1 - t) = 1)
  simp only [smul_eq_mul, mul_zero, add_zero, sigmoid_zero] at this
  norm_num at this ⊢
  linarith

/-- `s`, `c` and `s'`, `c'` belong to the two players. -/
theorem est_wl_factor {s s' c c' : ℝ} (hs : 0 < s) (hss : s ≤ s') (hc : 0 < c) (hcc : c ≤ c')
    (he : c' ^ 2 - c ^ 2 = s' ^ 2 - s ^ 2) (hsc : s ^ 2 ≤ c ^ 2) :
    s ^ 2 / c ≤ s' ^ 2 / c' * (c / c') ∧ s ^ 2 / c ≤ s' ^ 2 / c' := by
  have hc' : 0 < c' := hc.trans_le hcc
  have h1 : s ^ 2 / c ≤ s' ^ 2 / c' * (c / c') := by
    rw [div_mul_div_comm, div_le_div_iff₀ hc (by positivity)]
    have : 0 ≤ s' ^ 2 - s ^ 2 := by nlinarith
    have : s ^ 2 * c' ^ 2 ≤ s' ^ 2 * c ^ 2 := by nlinarith
    nlinarith
  refine ⟨h1, h1.trans ?_⟩
  have : c / c' ≤ 1 := (div_le_one hc').2 hcc
  have : 0 ≤ s' ^ 2 / c' := by positivity
  nlinarith

theorem est_wl_win {s s' c c' d : ℝ} (hs : 0 < s) (hss : s ≤ s') (hc : 0 < c) (hcc : c ≤ c')
    (he : c' ^ 2 - c ^ 2 = s' ^ 2 - s ^ 2) (hsc : s ^ 2 ≤ c ^ 2) :
    s ^ 2 / c * sigmoid (d / c) ≤ s' ^ 2 / c' * sigmoid (d / c') := by
  obtain ⟨f1, f2⟩ := est_wl_factor hs hss hc hcc he hsc
  have hc' : 0 < c' := hc.trans_le hcc
  have p := sigmoid_pos (d / c)
  rcases le_or_gt 0 d with hd | hd
  · have ht : c / c' ≤ 1 := (div_le_one hc').2 hcc
    have k := sigmoid_scaled (div_nonneg hd hc.le) (by positivity : 0 ≤ c / c') ht
    have e : c / c' * (d / c) = d / c' := by field_simp
    rw [e] at k
    have k' : c / c' * sigmoid (d / c) ≤ sigmoid (d / c') := by nlinarith
    calc s ^ 2 / c * sigmoid (d / c) ≤ s' ^ 2 / c' * (c / c') * sigmoid (d / c) :=
          mul_le_mul_of_nonneg_right f1 p.le
      _ = s' ^ 2 / c' * (c / c' * sigmoid (d / c)) := by ring
      _ ≤ _ := mul_le_mul_of_nonneg_left k' (by positivity)
  · have : sigmoid (d / c) ≤ sigmoid (d / c') := by
      apply sigmoid_monotone
      rw [div_le_div_iff₀ hc hc']
      nlinarith
    exact mul_le_mul f2 this p.le (by positivity)

theorem est_wl_draw {s s' c c' d : ℝ} (hs : 0 < s) (hss : s ≤ s') (hc : 0 < c) (hcc : c ≤ c')
    (he : c' ^ 2 - c ^ 2 = s' ^ 2 - s ^ 2) (hsc : s ^ 2 ≤ c ^ 2) (hd : 0 ≤ d) :
    0 ≤ s ^ 2 / c * (sigmoid (d / c) - 1 / 2) ∧
    s ^ 2 / c * (sigmoid (d / c) - 1 / 2) ≤ s' ^ 2 / c' * (sigmoid (d / c') - 1 / 2) := by
  obtain ⟨f1, f2⟩ := est_wl_factor hs hss hc hcc he hsc
  have hc' : 0 < c' := hc.trans_le hcc
  have p : 0 ≤ sigmoid (d / c) - 1 / 2 := by
    have : sigmoid 0 ≤ sigmoid (d / c) := sigmoid_monotone (div_nonneg hd hc.le)
    rw [sigmoid_zero] at this
    norm_num at this ⊢
    linarith
  have ht : c / c' ≤ 1 := (div_le_one hc').2 hcc
  have k := sigmoid_scaled (div_nonneg hd hc.le) (by positivity : 0 ≤ c / c') ht
  have e : c / c' * (d / c) = d / c' := by field_simp
  rw [e] at k
  refine ⟨by positivity, ?_⟩
  calc s ^ 2 / c * (sigmoid (d / c) - 1 / 2) ≤ s' ^ 2 / c' * (c / c') * (sigmoid (d / c) - 1 / 2) :=
        mul_le_mul_of_nonneg_right f1 p
    _ = s' ^ 2 / c' * (c / c' * (sigmoid (d / c) - 1 / 2)) := by ring
    _ ≤ _ := mul_le_mul_of_nonneg_left k (by positivity)

/-- A single game, either seat. -/
theorem C149_wengLin_game (a a' b : WengLin.WengLinRating ℝ) (o : Outcomes)
    (c : WengLin.WengLinConfig ℝ) (hr : a'.rating = a.rating) (h0 : 0 ≤ a.uncertainty)
    (h : a.uncertainty ≤ a'.uncertainty) :
    (WengLin.wengLin a b o c).1.rating ∈ Set.uIcc a.rating (WengLin.wengLin a' b o c).1.rating ∧
    (WengLin.wengLin b a o c).2.rating ∈ Set.uIcc a.rating (WengLin.wengLin b a' o c).2.rating := by
  have key : ∀ o, (WengLin.wengLin a b o c).1.rating
      ∈ Set.uIcc a.rating (WengLin.wengLin a' b o c).1.rating := by
    intro o
    simp only [WengLin.wengLin_real, hr, WengLin.wlP_eq]
    rcases h0.eq_or_lt with h0 | h0
    · rw [← h0]; simp
    have hsq : ∀ u : ℝ, wlC c.beta (u ^ 2) (b.uncertainty ^ 2) ^ 2
        = u ^ 2 + b.uncertainty ^ 2 + 2 * c.beta ^ 2 := fun u => by
      rw [wlC, Real.sq_sqrt (by positivity)]
    have hc : 0 < wlC c.beta (a.uncertainty ^ 2) (b.uncertainty ^ 2) := Real.sqrt_pos.2 (by positivity)
    have hcc : wlC c.beta (a.uncertainty ^ 2) (b.uncertainty ^ 2)
        ≤ wlC c.beta (a'.uncertainty ^ 2) (b.uncertainty ^ 2) := Real.sqrt_le_sqrt (by gcongr)
    have q1 := hsq a.uncertainty
    have q2 := hsq a'.uncertainty
    generalize wlC c.beta (a.uncertainty ^ 2) (b.uncertainty ^ 2) = x at *
    generalize wlC c.beta (a'.uncertainty ^ 2) (b.uncertainty ^ 2) = y at *
    have he : y ^ 2 - x ^ 2 = a'.uncertainty ^ 2 - a.uncertainty ^ 2 := by rw [q1, q2]; ring
    have hsc : a.uncertainty ^ 2 ≤ x ^ 2 := by rw [q1]; nlinarith [sq_nonneg c.beta, sq_nonneg b.uncertainty]
    have en : ∀ z : ℝ, sigmoid ((b.rating - a.rating) / z) = 1 - sigmoid ((a.rating - b.rating) / z) :=
      fun z => by rw [← sigmoid_neg]; congr 1; ring
    have hy := hc.trans_le hcc
    apply moves_less
    have px := div_pos (pow_pos h0 2) hc
    cases o with
    | WIN =>
      have k := est_wl_win (d := b.rating - a.rating) h0 h hc hcc he hsc
      rw [en, en] at k
      exact Or.inl ⟨mul_nonneg px.le (by rw [points]; linarith [sigmoid_lt_one ((a.rating - b.rating) / x)]), k⟩
    | LOSS =>
      have k := est_wl_win (d := a.rating - b.rating) h0 h hc hcc he hsc
      have p := mul_pos px (sigmoid_pos ((a.rating - b.rating) / x))
      simp only [points]
      exact Or.inr ⟨by linarith, by linarith⟩
    | DRAW =>
      simp only [points]
      rcases le_total a.rating b.rating with hd | hd
      · have k := est_wl_draw h0 h hc hcc he hsc (sub_nonneg.2 hd)
        rw [en, en] at k
        exact Or.inl ⟨by linarith [k.1], by linarith [k.2]⟩
      · have k := est_wl_draw h0 h hc hcc he hsc (sub_nonneg.2 hd)
        exact Or.inr ⟨by linarith [k.2], by linarith [k.1]⟩
  have hs : ∀ x, WengLin.wengLin b x o c = (WengLin.wengLin x b (mirror o) c).swap := fun x => by
    have := C108_wengLin_seats x b (mirror o) c
    cases o <;> exact this
  rw [hs a, hs a']
  exact ⟨key o, key (mirror o)⟩

/-! ### Ingo: younger players -/

theorem development_mono {x y : ℕ} (h : x ≤ y) : Ingo.development x ≤ Ingo.development y := by
  unfold Ingo.development
  split_ifs <;> first | (exfalso; omega) | norm_num

theorem C149_ingo_game (a a' b : Ingo.IngoRating ℝ) (o : Outcomes) (hr : a'.rating = a.rating)
    (h : a'.age ≤ a.age) :
    (Ingo.ingo a b o).1.rating ∈ Set.uIcc a.rating (Ingo.ingo a' b o).1.rating ∧
    (Ingo.ingo b a o).2.rating ∈ Set.uIcc a.rating (Ingo.ingo b a' o).2.rating := by
  have hd := development_mono h
  have hp := Ingo.development_pos a'.age
  have form : ∀ d p : ℝ, 0 < d → (p + d * a.rating) / (1 + d)
      = a.rating + 1 / (1 + d) * (p - a.rating) := by
    intro d p hd; field_simp; ring
  rw [(Ingo.C24_ingo_formula a b o).1, (Ingo.C24_ingo_formula a' b o).1,
    (Ingo.C24_ingo_formula b a o).2, (Ingo.C24_ingo_formula b a' o).2, hr,
    form _ _ (hp.trans_le hd), form _ _ hp, form _ _ (hp.trans_le hd), form _ _ hp]
  have h1 : 0 ≤ 1 / (1 + Ingo.development a.age) := by have := hp.trans_le hd; positivity
  have h2 : 1 / (1 + Ingo.development a.age) ≤ 1 / (1 + Ingo.development a'.age) := by gcongr
  exact ⟨factor_less h1 h2, factor_less h1 h2⟩

theorem C149_ingo_period (a a' : Ingo.IngoRating ℝ) (rs : List (Ingo.IngoRating ℝ × Outcomes))
    (hr : a'.rating = a.rating) (h : a'.age ≤ a.age) :
    (Ingo.ingoRatingPeriod a rs).rating ∈ Set.uIcc a.rating (Ingo.ingoRatingPeriod a' rs).rating := by
  have hd := development_mono h
  have hp := Ingo.development_pos a'.age
  have hn : (0 : ℝ) ≤ rs.length := Nat.cast_nonneg _
  have form : ∀ d p : ℝ, 0 < d → (rs.length * p + d * a.rating) / (rs.length + d)
      = a.rating + rs.length / (rs.length + d) * (p - a.rating) := by
    intro d p hd
    have : (rs.length : ℝ) + d ≠ 0 := by positivity
    field_simp; ring
  rw [Ingo.C24_ingo_period_formula, Ingo.C24_ingo_period_formula, hr, form _ _ (hp.trans_le hd),
    form _ _ hp]
  have := hp.trans_le hd
  exact factor_less (by positivity) (by gcongr)

/-! ### DWZ: players with fewer evaluations -/

theorem eValue_mono (r : ℝ) (age : ℕ) (s e : ℝ) {i i' : ℕ} (h : i ≤ i') :
    Dwz.eValue r age s e i ≤ Dwz.eValue r age s e i' := by
  have hi : (i : ℝ) ≤ i' := by exact_mod_cast h
  rw [Dwz.eValue_real, Dwz.eValue_real]
  dsimp only
  have hm : min 30 (5 * (i : ℝ)) ≤ min 30 (5 * (i' : ℝ)) := min_le_min_left _ (by linarith)
  generalize (if age < 20 ∧ e ≤ s then r / 2000 else 1)
    * ((r / 1000) ^ 4 + if age ≤ 20 then (5 : ℝ) else if age ≤ 25 then 10 else 15)
    + (if r < 1300 ∧ s ≤ e then exp ((1300 - r) / 150) - 1 else 0) = x
  generalize (if r < 1300 ∧ s ≤ e then exp ((1300 - r) / 150) - 1 else 0) = y
  split_ifs <;> linarith

theorem C149_dwz_game (a a' b : Dwz.DWZRating ℝ) (o : Outcomes) (hr : a'.rating = a.rating)
    (hage : a'.age = a.age) (h : a'.index ≤ a.index) :
    (Dwz.dwz a b o).1.rating ∈ Set.uIcc a.rating (Dwz.dwz a' b o).1.rating ∧
    (Dwz.dwz b a o).2.rating ∈ Set.uIcc a.rating (Dwz.dwz b a' o).2.rating := by
  have key : ∀ o, (Dwz.dwz a b o).1.rating ∈ Set.uIcc a.rating (Dwz.dwz a' b o).1.rating := by
    intro o
    have e : (Dwz.expectedScore a' b).1 = (Dwz.expectedScore a b).1 := by
      rw [Dwz.expectedScore_real, Dwz.expectedScore_real, hr]
    rw [Dwz.dwz_fst_real, Dwz.dwz_fst_real, e, hr, hage, add_comm _ a.rating, add_comm _ a.rating]
    have k := eValue_mono a.rating a.age (points o) (Dwz.expectedScore a b).1 h
    have k0 := Dwz.eValue_nonneg a.rating a.age (points o) (Dwz.expectedScore a b).1 a'.index
    have := k0.trans k
    exact factor_less (by positivity) (by gcongr)
  have hs : ∀ x, Dwz.dwz b x o = (Dwz.dwz x b (mirror o)).swap := fun x => by
    have := C108_dwz_seats x b (mirror o)
    cases o <;> exact this
  rw [hs a, hs a']
  exact ⟨key o, key (mirror o)⟩

theorem C149_dwz_period (a a' : Dwz.DWZRating ℝ) (rs : List (Dwz.DWZRating ℝ × Outcomes))
    (hr : a'.rating = a.rating) (hage : a'.age = a.age) (h : a'.index ≤ a.index) :
    (Dwz.dwzRatingPeriod a rs).rating ∈ Set.uIcc a.rating (Dwz.dwzRatingPeriod a' rs).rating := by
  rcases eq_or_ne rs [] with he | he
  · subst he; simp [Dwz.dwzRatingPeriod, flt, hr]
  have e : ∀ x, (Dwz.expectedScore a' x).1 = (Dwz.expectedScore a x).1 := fun x => by
    rw [Dwz.expectedScore_real, Dwz.expectedScore_real, hr]
  simp only [Dwz.dwzRatingPeriod, flt, e, hr, hage]
  rw [add_comm _ a.rating, add_comm _ a.rating]
  generalize (rs.map fun r => points r.2).sum = s
  generalize (rs.map fun r => (Dwz.expectedScore a r.1).1).sum = t
  have k := eValue_mono a.rating a.age s t h
  have k0 := Dwz.eValue_nonneg a.rating a.age s t a'.index
  have := k0.trans k
  have hn : (0 : ℝ) < rs.length := by exact_mod_cast List.length_pos_iff.2 he
  exact factor_less (by positivity) (by gcongr)

/-! ### USCF: players with fewer games -/

theorem max_less {r x y : ℝ} (hr : 100 ≤ r) (h : x ∈ Set.uIcc r y) : max x 100 ∈ Set.uIcc r (max y 100) := by
  rw [Set.mem_uIcc] at h ⊢
  rcases h with h | h
  · exact Or.inl ⟨h.1.trans (le_max_left _ _), max_le_max_right _ h.2⟩
  · exact Or.inr ⟨max_le_max_right _ h.1, max_le h.2 hr⟩

/-- Both established, or both provisional. -/
theorem C149_uscf_game (a a' b : Uscf.USCFRating ℝ) (o : Outcomes) (c : Uscf.USCFConfig ℝ)
    (hr : a'.rating = a.rating) (h100 : 100 ≤ a.rating) (h : a'.games ≤ a.games)
    (hreg : a.games ≤ 8 ∨ 9 ≤ a'.games) :
    (Uscf.uscf a b o c).1.rating ∈ Set.uIcc a.rating (Uscf.uscf a' b o c).1.rating ∧
    (Uscf.uscf b a o c).2.rating ∈ Set.uIcc a.rating (Uscf.uscf b a' o c).2.rating := by
  have key : ∀ o, (Uscf.uscf a b o c).1.rating ∈ Set.uIcc a.rating (Uscf.uscf a' b o c).1.rating := by
    intro o
    have hn : (a'.games : ℝ) ≤ a.games := by exact_mod_cast h
    rcases hreg with h8 | h9
    · rw [Uscf.C54_uscf_provisional a b o c h8, Uscf.C54_uscf_provisional a' b o c (h.trans h8), hr]
      apply max_less h100
      have form : ∀ n : ℕ, (n * a.rating + b.rating + 400 * Uscf.balance o) / ((n : ℝ) + 1)
          = a.rating + 1 / ((n : ℝ) + 1) * (b.rating + 400 * Uscf.balance o - a.rating) := by
        intro n; field_simp; ring
      rw [form, form]
      exact factor_less (by positivity) (by gcongr)
    · rw [Uscf.C54_uscf_established a b o c (h9.trans h), Uscf.C54_uscf_established a' b o c h9, hr]
      apply max_less h100
      have k0 := Uscf.effective_ge h9 h100
      have k : uscfEffective a.rating a'.games ≤ uscfEffective a.rating a.games :=
        min_le_min_left _ (min_le_min_right _ hn)
      refine factor_less ?_ ?_ <;> unfold uscfK
      · have := k0.trans k; positivity
      · gcongr
  have hs : ∀ x, Uscf.uscf b x o c = (Uscf.uscf x b (mirror o) c).swap := fun x => by
    have := C108_uscf_seats x b (mirror o) c
    cases o <;> exact this
  rw [hs a, hs a']
  exact ⟨key o, key (mirror o)⟩

/-- Rating periods, with the bonus. -/
theorem C149_uscf_period (a a' : Uscf.USCFRating ℝ) (rs : List (Uscf.USCFRating ℝ × Outcomes))
    (c : Uscf.USCFConfig ℝ) (hr : a'.rating = a.rating) (h100 : 100 ≤ a.rating)
    (h : a'.games ≤ a.games) (hreg : a.games ≤ 8 ∨ 9 ≤ a'.games) (ht : 0 ≤ c.t) :
    (Uscf.uscfRatingPeriod a rs c).rating ∈ Set.uIcc a.rating (Uscf.uscfRatingPeriod a' rs c).rating := by
  rcases eq_or_ne rs [] with he | he
  · subst he; simp [Uscf.uscfRatingPeriod, hr]
  have hn : (a'.games : ℝ) ≤ a.games := by exact_mod_cast h
  have hm : (0 : ℝ) < rs.length := by exact_mod_cast List.length_pos_iff.2 he
  rcases hreg with h8 | h9
  · rw [Uscf.C54_uscf_period_provisional a rs c h8 he,
      Uscf.C54_uscf_period_provisional a' rs c (h.trans h8) he, hr]
    generalize (rs.map fun r => r.1.rating).sum = S
    generalize 400 * ((Spec.wins rs : ℝ) - Spec.losses rs) = W
    have form : ∀ n : ℕ, (n * a.rating + S + W) / ((n : ℝ) + rs.length)
        = a.rating + 1 / ((n : ℝ) + rs.length) * (S + W - rs.length * a.rating) := by
      intro n
      have : (n : ℝ) + rs.length ≠ 0 := by positivity
      field_simp; ring
    rw [form, form]
    exact factor_less (by positivity) (by gcongr)
  · have e1 := Uscf.C54_uscf_period_established a rs c (h9.trans h) he
    have e2 := Uscf.C54_uscf_period_established a' rs c h9 he
    dsimp only at e1 e2
    rw [e1, e2, hr, add_assoc, add_assoc]
    generalize Spec.score rs - (rs.map fun r => Spec.logisticExpected a.rating r.1.rating).sum = y
    have hth : 0 ≤ c.t * √(min rs.length 4 : ℕ) := by positivity
    generalize c.t * √(min rs.length 4 : ℕ) = θ at *
    have k0 := Uscf.effective_ge h9 h100
    have k : uscfEffective a.rating a'.games ≤ uscfEffective a.rating a.games :=
      min_le_min_left _ (min_le_min_right _ hn)
    have K0 : 0 ≤ uscfK a.rating a.games rs.length := by
      unfold uscfK; have := k0.trans k; positivity
    have K1 : uscfK a.rating a.games rs.length ≤ uscfK a.rating a'.games rs.length := by
      unfold uscfK; gcongr
    generalize uscfK a.rating a.games rs.length = K at *
    generalize uscfK a.rating a'.games rs.length = K' at *
    apply moves_less
    rcases le_total 0 y with hy | hy
    · have m0 := mul_nonneg K0 hy
      have m1 := mul_le_mul_of_nonneg_right K1 hy
      left
      unfold uscfBonus
      split_ifs
      · exact ⟨by linarith, by linarith⟩
      · refine ⟨add_nonneg m0 (le_max_left _ _), add_le_add m1 (max_le_max_left _ (by linarith))⟩
    · have m0 := mul_nonpos_of_nonneg_of_nonpos K0 hy
      have m1 := mul_le_mul_of_nonpos_right K1 hy
      right
      unfold uscfBonus
      split_ifs
      · exact ⟨by linarith, by linarith⟩
      · rw [max_eq_left (by linarith), max_eq_left (by linarith)]
        exact ⟨by linarith, by linarith⟩

/-- Between provisional and established players it fails: for a win against an opponent 400 points weaker
a player with 8 games gets nothing, one with 9 games gains. -/
theorem C149_uscf_boundary (c : Uscf.USCFConfig ℝ) (r : ℝ) (hr : 100 ≤ r) :
    (Uscf.uscf ⟨r, 8⟩ ⟨r - 400, 8⟩ .WIN c).1.rating = r ∧
      r < (Uscf.uscf ⟨r, 9⟩ ⟨r - 400, 8⟩ .WIN c).1.rating := by
  constructor
  · rw [Uscf.C54_uscf_provisional _ _ _ c (by norm_num)]
    simp only [Uscf.balance]
    norm_num
    have : (8 * r + (r - 400) + 400) / 9 = r := by ring
    rw [this]
    exact max_eq_left hr
  · rw [Uscf.C54_uscf_established _ _ _ c (by norm_num)]
    simp only [Uscf.logisticExpected_eq, points]
    refine lt_max_of_lt_left ?_
    have k0 := Uscf.effective_ge (n := 9) (by norm_num) hr
    have : 0 < uscfK r 9 1 := by unfold uscfK; positivity
    have := mul_pos this (sub_pos.2 (sigmoid_lt_one (log 10 / 400 * (r - (r - 400)))))
    linarith

/-! Concrete cases: two newcomers and two old hands. -/
example (o : Outcomes) : (Glicko.glicko (⟨1500, 50⟩ : Glicko.GlickoRating ℝ) ⟨1700, 80⟩ o ⟨63.2⟩).1.rating
    ∈ Set.uIcc 1500 (Glicko.glicko (⟨1500, 350⟩ : Glicko.GlickoRating ℝ) ⟨1700, 80⟩ o ⟨63.2⟩).1.rating :=
  (C149_glicko_game ⟨1500, 50⟩ ⟨1500, 350⟩ ⟨1700, 80⟩ o ⟨63.2⟩ rfl (by norm_num) (by norm_num)).1
example (rs : List (Glicko.GlickoRating ℝ × Outcomes)) :
    (Glicko.glickoRatingPeriod (⟨1500, 50⟩ : Glicko.GlickoRating ℝ) rs ⟨63.2⟩).deviation
      ≤ (Glicko.glickoRatingPeriod (⟨1500, 350⟩ : Glicko.GlickoRating ℝ) rs ⟨63.2⟩).deviation :=
  (C149_glicko_period ⟨1500, 50⟩ ⟨1500, 350⟩ rs ⟨63.2⟩ rfl (by norm_num) (by norm_num)).2
example (c : WengLin.WengLinConfig ℝ) :
    (WengLin.wengLin (⟨25, 2⟩ : WengLin.WengLinRating ℝ) ⟨40, 3⟩ .WIN c).1.rating
      ∈ Set.uIcc 25 (WengLin.wengLin (⟨25, 8⟩ : WengLin.WengLinRating ℝ) ⟨40, 3⟩ .WIN c).1.rating :=
  (C149_wengLin_game ⟨25, 2⟩ ⟨25, 8⟩ ⟨40, 3⟩ .WIN c rfl (by norm_num) (by norm_num)).1
example : (Ingo.ingo (⟨150, 40⟩ : Ingo.IngoRating ℝ) ⟨100, 30⟩ .WIN).1.rating
    ∈ Set.uIcc 150 (Ingo.ingo (⟨150, 18⟩ : Ingo.IngoRating ℝ) ⟨100, 30⟩ .WIN).1.rating :=
  (C149_ingo_game ⟨150, 40⟩ ⟨150, 18⟩ ⟨100, 30⟩ .WIN rfl (by norm_num)).1
example : (Dwz.dwz (⟨1500, 30, 40⟩ : Dwz.DWZRating ℝ) ⟨1700, 5, 30⟩ .DRAW).1.rating
    ∈ Set.uIcc 1500 (Dwz.dwz (⟨1500, 2, 40⟩ : Dwz.DWZRating ℝ) ⟨1700, 5, 30⟩ .DRAW).1.rating :=
  (C149_dwz_game ⟨1500, 30, 40⟩ ⟨1500, 2, 40⟩ ⟨1700, 5, 30⟩ .DRAW rfl rfl (by norm_num)).1
example (c : Uscf.USCFConfig ℝ) : (Uscf.uscf (⟨1500, 45⟩ : Uscf.USCFRating ℝ) ⟨1700, 5⟩ .WIN c).1.rating
    ∈ Set.uIcc 1500 (Uscf.uscf (⟨1500, 12⟩ : Uscf.USCFRating ℝ) ⟨1700, 5⟩ .WIN c).1.rating :=
  (C149_uscf_game ⟨1500, 45⟩ ⟨1500, 12⟩ ⟨1700, 5⟩ .WIN c rfl (by norm_num) (by norm_num)
    (Or.inr (by norm_num))).1

end Skillratings
