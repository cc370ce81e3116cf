import Verif.Proofs.LongRun
import Verif.Proofs.Elo
import Verif.Proofs.Fifa
import Verif.Proofs.Dwz
import Verif.Proofs.Glicko
import Verif.Proofs.WengLin
import Verif.Props.Uscf
import Verif.Props.Ingo
/-
C111: ratings in the long run.
-/
namespace Skillratings
open Real Spec Filter Topology

/-! ### Winning and losing streaks -/

private theorem gap_antitone (k a B : ℝ) (hk : 0 < k) (ha : 0 < a) :
    Antitone fun y => k * (1 - sigmoid (a * (y - B))) := by
  intro x y h
  have := sigmoid_monotone (mul_le_mul_of_nonneg_left (sub_le_sub_right h B) ha.le)
  exact mul_le_mul_of_nonneg_left (by linarith) hk.le

private theorem gap_pos (k a B : ℝ) (hk : 0 < k) (y : ℝ) :
    0 < k * (1 - sigmoid (a * (y - B))) := mul_pos hk (by linarith [sigmoid_lt_one (a * (y - B))])

private theorem q400 : 0 < log 10 / 400 := div_pos log_ten_pos (by norm_num)
private theorem q600 : 0 < log 10 / 600 := div_pos log_ten_pos (by norm_num)

/-- Elo: whoever keeps winning, against any opponents rated at least `B`, leaves every bound. -/
theorem C111_elo_winning_streak (c : Elo.EloConfig ℝ) (hk : 0 < c.k) (a b : ℕ → Elo.EloRating ℝ)
    (B : ℝ) (hb : ∀ n, B ≤ (b n).rating) (h : ∀ n, a (n + 1) = (Elo.elo (a n) (b n) .WIN c).1) :
    Tendsto (fun n => (a n).rating) atTop atTop := by
  refine climbs (gap_antitone c.k _ B hk q400) (gap_pos c.k _ B hk) fun n => ?_
  have h1 : sigmoid (log 10 / 400 * ((a n).rating - (b n).rating))
      ≤ sigmoid (log 10 / 400 * ((a n).rating - B)) :=
    sigmoid_monotone (mul_le_mul_of_nonneg_left (by linarith [hb n]) q400.le)
  have h2 := mul_le_mul_of_nonneg_left h1 hk.le
  rw [h, Elo.elo_real]
  simp only [points]
  linarith

/-- Elo: and whoever keeps losing, against opponents rated at most `B`, falls without end. -/
theorem C111_elo_losing_streak (c : Elo.EloConfig ℝ) (hk : 0 < c.k) (a b : ℕ → Elo.EloRating ℝ)
    (B : ℝ) (hb : ∀ n, (b n).rating ≤ B) (h : ∀ n, a (n + 1) = (Elo.elo (a n) (b n) .LOSS c).1) :
    Tendsto (fun n => (a n).rating) atTop atBot := by
  refine falls (h := fun y => c.k * sigmoid (log 10 / 400 * (y - B))) (fun x y h => ?_)
    (fun y => mul_pos hk (sigmoid_pos _)) fun n => ?_
  · exact mul_le_mul_of_nonneg_left (sigmoid_monotone (mul_le_mul_of_nonneg_left
      (sub_le_sub_right h B) q400.le)) hk.le
  · have h1 : sigmoid (log 10 / 400 * ((a n).rating - B))
        ≤ sigmoid (log 10 / 400 * ((a n).rating - (b n).rating)) :=
      sigmoid_monotone (mul_le_mul_of_nonneg_left (by linarith [hb n]) q400.le)
    have h2 := mul_le_mul_of_nonneg_left h1 hk.le
    rw [h, Elo.elo_real]
    simp only [points]
    linarith

/-- FIFA, without penalty shootouts. -/
theorem C111_fifa_winning_streak (c : Fifa.FifaConfig ℝ) (hk : 0 < c.importance)
    (hp : c.penalties = false) (a b : ℕ → Fifa.FifaRating ℝ)
    (B : ℝ) (hb : ∀ n, B ≤ (b n).rating) (h : ∀ n, a (n + 1) = (Fifa.fifa (a n) (b n) .WIN c).1) :
    Tendsto (fun n => (a n).rating) atTop atTop := by
  refine climbs (gap_antitone c.importance _ B hk q600) (gap_pos c.importance _ B hk) fun n => ?_
  have h1 : sigmoid (log 10 / 600 * ((a n).rating - (b n).rating))
      ≤ sigmoid (log 10 / 600 * ((a n).rating - B)) :=
    sigmoid_monotone (mul_le_mul_of_nonneg_left (by linarith [hb n]) q600.le)
  have h2 := mul_le_mul_of_nonneg_left h1 hk.le
  rw [h, Fifa.fifa_real]
  have h3 : ∀ old new, new ≤ Fifa.guarded c old new := by
    intro old new
    unfold Fifa.guarded
    split_ifs
    · exact le_max_right _ _
    · exact le_rfl
  refine le_trans ?_ (h3 _ _)
  simp only [Fifa.credit, hp, points, Bool.false_eq_true, if_false]
  linarith

/-- DWZ. -/
theorem C111_dwz_winning_streak (a b : ℕ → Dwz.DWZRating ℝ)
    (B : ℝ) (hb : ∀ n, B ≤ (b n).rating) (h : ∀ n, a (n + 1) = (Dwz.dwz (a n) (b n) .WIN).1) :
    Tendsto (fun n => (a n).rating) atTop atTop := by
  have hE : ∀ (r : ℝ) (age : ℕ) (s e : ℝ) (i : ℕ), Dwz.eValue r age s e i ≤ 150 := by
    intro r age s e i
    rw [Dwz.eValue_real]
    dsimp only
    split_ifs with h1 h2 h3 h4 h5
    all_goals first
      | (norm_num; done)
      | exact (min_le_left _ _).trans (by norm_num)
      | exact (not_le.1 ‹_›).le.trans ((min_le_left _ _).trans (by norm_num))
      | exact (not_le.1 ‹_›).le
  refine climbs (gap_antitone (800 / 151) _ B (by norm_num) q400)
    (gap_pos (800 / 151) _ B (by norm_num)) fun n => ?_
  have h1 : sigmoid (log 10 / 400 * ((a n).rating - (b n).rating))
      ≤ sigmoid (log 10 / 400 * ((a n).rating - B)) :=
    sigmoid_monotone (mul_le_mul_of_nonneg_left (by linarith [hb n]) q400.le)
  have h0 := sigmoid_lt_one (log 10 / 400 * ((a n).rating - B))
  rw [h, Dwz.dwz_fst_real, Dwz.expectedScore_real]
  simp only [points]
  have h3 := hE (a n).rating (a n).age 1
    (sigmoid (log 10 / 400 * ((a n).rating - (b n).rating))) (a n).index
  have h4 := Dwz.eValue_nonneg (a n).rating (a n).age 1
    (sigmoid (log 10 / 400 * ((a n).rating - (b n).rating))) (a n).index
  have h5 : (800 / 151 : ℝ) ≤ 800 / (Dwz.eValue (a n).rating (a n).age 1
      (sigmoid (log 10 / 400 * ((a n).rating - (b n).rating))) (a n).index + 1) :=
    div_le_div_of_nonneg_left (by norm_num) (by linarith) (by linarith)
  have h6 := mul_le_mul h5 (sub_le_sub_left h1 1) (by linarith) (by positivity)
  linarith

/-- USCF: established players. -/
theorem C111_uscf_winning_streak (c : Uscf.USCFConfig ℝ) (a b : ℕ → Uscf.USCFRating ℝ)
    (B : ℝ) (hg : 9 ≤ (a 0).games) (hb : ∀ n, B ≤ (b n).rating)
    (h : ∀ n, a (n + 1) = (Uscf.uscf (a n) (b n) .WIN c).1) :
    Tendsto (fun n => (a n).rating) atTop atTop := by
  have hgames : ∀ n, 9 ≤ (a n).games := by
    intro n
    induction n with
    | zero => exact hg
    | succ n ih => rw [h, (Uscf.C54_uscf_games _ _ _ _).1]; omega
  refine climbs (gap_antitone (800 / 51) _ B (by norm_num) q400)
    (gap_pos (800 / 51) _ B (by norm_num)) fun n => ?_
  have h1 : sigmoid (log 10 / 400 * ((a n).rating - (b n).rating))
      ≤ sigmoid (log 10 / 400 * ((a n).rating - B)) :=
    sigmoid_monotone (mul_le_mul_of_nonneg_left (by linarith [hb n]) q400.le)
  have h0 := sigmoid_lt_one (log 10 / 400 * ((a n).rating - B))
  rw [h, Uscf.C54_uscf_established _ _ _ _ (hgames n), Uscf.logisticExpected_eq]
  refine le_max_of_le_left ?_
  obtain ⟨e1, -, e3⟩ := Uscf.C54_uscf_effective_range (a n).rating (a n).games
    (by have := hgames n; omega)
  have h5 : (800 / 51 : ℝ) ≤ uscfK (a n).rating (a n).games 1 := by
    unfold uscfK
    exact div_le_div_of_nonneg_left (by norm_num) (by push_cast; linarith) (by push_cast; linarith)
  have h6 := mul_le_mul h5 (sub_le_sub_left h1 1) (by linarith) (by linarith)
  simp only [points]
  linarith

/-- USCF: an established player who keeps losing, against opponents rated at most `B`, ends at the
floor of 100 after finitely many games and stays there. -/
theorem C111_uscf_losing_streak (c : Uscf.USCFConfig ℝ) (a b : ℕ → Uscf.USCFRating ℝ)
    (B : ℝ) (hg : 9 ≤ (a 0).games) (hb : ∀ n, (b n).rating ≤ B)
    (h : ∀ n, a (n + 1) = (Uscf.uscf (a n) (b n) .LOSS c).1) :
    ∃ N, ∀ n ≥ N, (a n).rating = 100 := by
  have hgames : ∀ n, 9 ≤ (a n).games := by
    intro n
    induction n with
    | zero => exact hg
    | succ n ih => rw [h, (Uscf.C54_uscf_games _ _ _ _).1]; omega
  have hform : ∀ n, (a (n + 1)).rating = max ((a n).rating + uscfK (a n).rating (a n).games 1
      * (0 - sigmoid (log 10 / 400 * ((a n).rating - (b n).rating)))) 100 := by
    intro n
    rw [h, Uscf.C54_uscf_established _ _ _ _ (hgames n), Uscf.logisticExpected_eq]
    rfl
  have hfloor : ∀ n, 100 ≤ (a (n + 1)).rating := fun n => by rw [hform]; exact le_max_right _ _
  have hstep : 0 < 800 / 51 * sigmoid (log 10 / 400 * (100 - B)) :=
    mul_pos (by norm_num) (sigmoid_pos _)
  obtain ⟨N, hN⟩ := reaches_floor (x := fun n => (a (n + 1)).rating) (f := 100) hstep (fun n => by
    rw [hform (n + 1)]
    refine max_le_max ?_ le_rfl
    have h1 : sigmoid (log 10 / 400 * (100 - B))
        ≤ sigmoid (log 10 / 400 * ((a (n + 1)).rating - (b (n + 1)).rating)) :=
      sigmoid_monotone (mul_le_mul_of_nonneg_left (by linarith [hb (n + 1), hfloor n]) q400.le)
    obtain ⟨e1, -, e3⟩ := Uscf.C54_uscf_effective_range (a (n + 1)).rating (a (n + 1)).games
      (by have := hgames (n + 1); omega)
    have h5 : (800 / 51 : ℝ) ≤ uscfK (a (n + 1)).rating (a (n + 1)).games 1 := by
      unfold uscfK
      exact div_le_div_of_nonneg_left (by norm_num) (by push_cast; linarith) (by push_cast; linarith)
    have h6 := mul_le_mul h5 h1 (sigmoid_pos _).le (by linarith)
    linarith) hfloor
  refine ⟨N + 1, fun n hn => ?_⟩
  obtain ⟨m, rfl⟩ : ∃ m, n = m + 1 := ⟨n - 1, by omega⟩
  exact hN m (by omega)

/-! ### Glicko -/

private theorem glickoG_anti {x D : ℝ} (h : |x| ≤ D) : glickoG D ≤ glickoG x := by
  rcases (abs_nonneg x).trans h |>.eq_or_lt with h0 | h0
  · rw [← h0] at h
    rw [abs_nonpos_iff.1 h, ← h0]
  · rcases h.eq_or_lt with h1 | h1
    · have : x ^ 2 = D ^ 2 := by rw [← h1, sq_abs]
      unfold glickoG
      rw [this]
    · exact (glickoG_lt_of_sq_lt (by
        have := pow_lt_pow_left₀ h1 (abs_nonneg x) (n := 2) (by norm_num)
        rwa [sq_abs] at this)).le

/-- Glicko: the same although the deviation may shrink towards zero (`c = 0`); the deviations of
the opponents are at most `D`. -/
theorem C111_glicko_winning_streak (c : Glicko.GlickoConfig ℝ) (a b : ℕ → Glicko.GlickoRating ℝ)
    (B D : ℝ) (hd : 0 < (a 0).deviation) (hb : ∀ n, B ≤ (b n).rating)
    (hD : ∀ n, |(b n).deviation| ≤ D)
    (h : ∀ n, a (n + 1) = (Glicko.glicko (a n) (b n) .WIN c).1) :
    Tendsto (fun n => (a n).rating) atTop atTop := by
  have hq := glickoQ_pos
  have hform : ∀ n, a (n + 1) = Glicko.rated (a n).rating (a n).deviation (b n).rating
      (b n).deviation 1 c.c := fun n => by rw [h, Glicko.glicko_real]; rfl
  -- the variance is at least `1 / (α + n q²/4)`
  set α : ℝ := max (((a 0).deviation ^ 2)⁻¹) ((350 : ℝ) ^ 2)⁻¹ + glickoQ ^ 2 / 4 with hα
  have hα0 : 0 < α := by
    have : 0 < max (((a 0).deviation ^ 2)⁻¹) ((350 : ℝ) ^ 2)⁻¹ :=
      lt_max_of_lt_right (by norm_num)
    positivity
  have hons : ∀ n, 0 < (a n).deviation → (glickoOnset (a n).deviation c.c ^ 2)⁻¹
      ≤ max (((a n).deviation ^ 2)⁻¹) ((350 : ℝ) ^ 2)⁻¹ := by
    intro n hn
    unfold glickoOnset
    rcases le_total √((a n).deviation ^ 2 + c.c ^ 2) 350 with h1 | h1
    · rw [min_eq_left h1, Real.sq_sqrt (by positivity)]
      refine le_max_of_le_left (inv_anti₀ (by positivity) ?_)
      have := sq_nonneg c.c
      linarith
    · rw [min_eq_right h1]
      exact le_max_right _ _
  have hinfo : ∀ n, glickoInfo (a n).rating (b n).rating (b n).deviation ≤ glickoQ ^ 2 / 4 := by
    intro n
    have h1 := glickoG_pos (b n).deviation
    have h2 := glickoG_le_one (b n).deviation
    have h3 : glickoE (a n).rating (b n).rating (b n).deviation
        * (1 - glickoE (a n).rating (b n).rating (b n).deviation) ≤ 1 / 4 := by
      rw [glickoE_eq]; exact sigmoid_mul_one_sub_le _
    have h4 : glickoG (b n).deviation ^ 2 ≤ 1 := pow_le_one₀ h1.le h2
    have h6 := glickoE_pos (a n).rating (b n).rating (b n).deviation
    have h7 := glickoE_lt_one (a n).rating (b n).rating (b n).deviation
    have h5 : 0 ≤ glickoE (a n).rating (b n).rating (b n).deviation
        * (1 - glickoE (a n).rating (b n).rating (b n).deviation) :=
      mul_nonneg h6.le (by linarith)
    unfold glickoInfo
    have := mul_le_mul h4 h3 h5 zero_le_one
    have hq2 : 0 ≤ glickoQ ^ 2 := sq_nonneg _
    nlinarith
  have key : ∀ n : ℕ, 0 < (a n).deviation ∧
      max (((a n).deviation ^ 2)⁻¹) ((350 : ℝ) ^ 2)⁻¹ + glickoQ ^ 2 / 4
        ≤ α + n * (glickoQ ^ 2 / 4) := by
    intro n
    induction n with
    | zero => exact ⟨hd, by simp [hα]⟩
    | succ n ih =>
      have hi := glickoInfo_pos (a n).rating (b n).rating (b n).deviation
      have ho := glickoOnset_pos c.c ih.1
      have hv := posterior_pos (v := glickoOnset (a n).deviation c.c ^ 2) (by positivity) hi.le
      rw [hform n]
      simp only [Glicko.rated]
      refine ⟨Real.sqrt_pos.2 hv, ?_⟩
      rw [Real.sq_sqrt hv.le, posterior_eq, inv_inv]
      have h1 := hons n ih.1
      have h2 := hinfo n
      have h3 : (glickoOnset (a n).deviation c.c ^ 2)⁻¹
          + glickoInfo (a n).rating (b n).rating (b n).deviation
          ≤ α + n * (glickoQ ^ 2 / 4) := by linarith [ih.2]
      have h4 : ((350 : ℝ) ^ 2)⁻¹ ≤ α + n * (glickoQ ^ 2 / 4) := by
        have := le_max_right (((a n).deviation ^ 2)⁻¹) ((350 : ℝ) ^ 2)⁻¹
        have : 0 ≤ glickoQ ^ 2 := sq_nonneg _
        linarith [ih.2]
      have := max_le h3 h4
      push_cast
      linarith
  have hG := glickoG_pos D
  refine climbs_slow (h := fun y => glickoQ * glickoG D * (1 - sigmoid (glickoQ * max 0 (y - B))))
    hα0 (by positivity : (0 : ℝ) ≤ glickoQ ^ 2 / 4) ?_ ?_ fun n => ?_
  · intro x y hxy
    have := sigmoid_monotone (mul_le_mul_of_nonneg_left
      (max_le_max (le_refl (0 : ℝ)) (sub_le_sub_right hxy B)) hq.le)
    exact mul_le_mul_of_nonneg_left (by linarith) (by positivity)
  · intro y
    have := sigmoid_lt_one (glickoQ * max 0 (y - B))
    exact mul_pos (by positivity) (by linarith)
  · have ho := glickoOnset_pos c.c (key n).1
    have hi := glickoInfo_pos (a n).rating (b n).rating (b n).deviation
    have hvlow : 1 / (α + n * (glickoQ ^ 2 / 4)) ≤ posterior (glickoOnset (a n).deviation c.c ^ 2)
        (glickoInfo (a n).rating (b n).rating (b n).deviation) := by
      rw [posterior_eq, one_div]
      refine inv_anti₀ (by positivity) ?_
      linarith [hons n (key n).1, hinfo n, (key n).2]
    have hE : glickoE (a n).rating (b n).rating (b n).deviation
        ≤ sigmoid (glickoQ * max 0 ((a n).rating - B)) := by
      rw [glickoE_eq]
      refine sigmoid_monotone (mul_le_mul_of_nonneg_left ?_ hq.le)
      have h1 := glickoG_pos (b n).deviation
      have h2 := glickoG_le_one (b n).deviation
      have h3 : (a n).rating - (b n).rating ≤ max 0 ((a n).rating - B) :=
        le_max_of_le_right (by linarith [hb n])
      calc glickoG (b n).deviation * ((a n).rating - (b n).rating)
          ≤ glickoG (b n).deviation * max 0 ((a n).rating - B) := mul_le_mul_of_nonneg_left h3 h1.le
        _ ≤ 1 * max 0 ((a n).rating - B) := mul_le_mul_of_nonneg_right h2 (le_max_left _ _)
        _ = _ := one_mul _
    have hs := sigmoid_lt_one (glickoQ * max 0 ((a n).rating - B))
    rw [hform]
    simp only [Glicko.rated]
    have h1 := mul_le_mul (glickoG_anti (hD n)) (sub_le_sub_left hE 1) (by linarith)
      (glickoG_pos (b n).deviation).le
    have h2 : 0 ≤ glickoG D * (1 - sigmoid (glickoQ * max 0 ((a n).rating - B))) :=
      mul_nonneg hG.le (by linarith)
    have hpost := posterior_pos (v := glickoOnset (a n).deviation c.c ^ 2) (by positivity) hi.le
    have h3 := mul_le_mul hvlow h1 h2 hpost.le
    have h4 := mul_le_mul_of_nonneg_left h3 hq.le
    have e1 : glickoQ * (1 / (α + n * (glickoQ ^ 2 / 4))
        * (glickoG D * (1 - sigmoid (glickoQ * max 0 ((a n).rating - B)))))
        = glickoQ * glickoG D * (1 - sigmoid (glickoQ * max 0 ((a n).rating - B)))
          / (α + n * (glickoQ ^ 2 / 4)) := by ring
    rw [e1] at h4
    linarith

/-! ### Weng-Lin -/

/-- Weng-Lin: the same although the uncertainty shrinks towards zero; the uncertainties of the
opponents are at most `U`. -/
theorem C111_wengLin_winning_streak (cfg : WengLin.WengLinConfig ℝ) (hβ : cfg.beta ≠ 0)
    (hκ : cfg.uncertaintyTolerance ≤ 1) (a b : ℕ → WengLin.WengLinRating ℝ) (B U : ℝ)
    (ha : 0 < (a 0).uncertainty) (hb : ∀ n, B ≤ (b n).rating) (hU : ∀ n, |(b n).uncertainty| ≤ U)
    (h : ∀ n, a (n + 1) = (WengLin.wengLin (a n) (b n) .WIN cfg).1) :
    Tendsto (fun n => (a n).rating) atTop atTop := by
  have hβ2 : 0 < cfg.beta ^ 2 := by positivity
  have hform : ∀ n, a (n + 1) = _ := fun n => (h n).trans
    (congrArg Prod.fst (WengLin.wengLin_real (a n) (b n) .WIN cfg))
  simp only [points] at hform
  set C : ℕ → ℝ := fun n => wlC cfg.beta ((a n).uncertainty ^ 2) ((b n).uncertainty ^ 2) with hC
  set P : ℕ → ℝ := fun n => wlP (C n) (a n).rating (b n).rating with hP
  have hCsq : ∀ n, C n ^ 2 = (a n).uncertainty ^ 2 + (b n).uncertainty ^ 2 + 2 * cfg.beta ^ 2 :=
    fun n => Real.sq_sqrt (by positivity)
  have hCpos : ∀ n, 0 < C n := fun n => Real.sqrt_pos.2 (by positivity)
  have hP0 : ∀ n, 0 < P n := fun n => WengLin.wlP_pos _ _ _
  have hP1 : ∀ n, P n < 1 := fun n => WengLin.wlP_lt_one _ _ _
  have hPq : ∀ n, P n * (1 - P n) ≤ 1 / 4 := fun n => by nlinarith [sq_nonneg (P n - 1 / 2)]
  have hP2 : ∀ n, 0 ≤ P n * (1 - P n) := fun n => mul_nonneg (hP0 n).le (by linarith [hP1 n])
  -- the factor by which the variance shrinks
  have hη : ∀ n, 0 < (a n).uncertainty →
      0 ≤ ((a n).uncertainty / C n) ^ 3 * P n * (1 - P n) ∧
      ((a n).uncertainty / C n) ^ 3 * P n * (1 - P n) ≤ 1 / 4 ∧
      ((a n).uncertainty / C n) ^ 3 * P n * (1 - P n)
        ≤ (a n).uncertainty ^ 2 / (8 * cfg.beta ^ 2) := by
    intro n hn
    have hb2 := sq_nonneg (b n).uncertainty
    have hr0 : 0 < (a n).uncertainty / C n := div_pos hn (hCpos n)
    have hr2 : ((a n).uncertainty / C n) ^ 2 ≤ (a n).uncertainty ^ 2 / (2 * cfg.beta ^ 2) := by
      rw [div_pow, hCsq]
      exact div_le_div_of_nonneg_left (by positivity) (by positivity) (by nlinarith)
    have hr1 : (a n).uncertainty / C n ≤ 1 := by
      rw [div_le_one (hCpos n)]
      refine le_of_sq_le_sq ?_ (hCpos n).le
      rw [hCsq]; linarith
    have hr3 : ((a n).uncertainty / C n) ^ 3 ≤ ((a n).uncertainty / C n) ^ 2 :=
      pow_le_pow_of_le_one hr0.le hr1 (by norm_num)
    have hr4 : ((a n).uncertainty / C n) ^ 2 ≤ 1 := pow_le_one₀ hr0.le hr1
    have h3 : 0 < ((a n).uncertainty / C n) ^ 3 := by positivity
    rw [mul_assoc]
    refine ⟨mul_nonneg h3.le (hP2 n), ?_, ?_⟩
    · calc _ ≤ 1 * (1 / 4) := mul_le_mul (hr3.trans hr4) (hPq n) (hP2 n) zero_le_one
        _ = _ := one_mul _
    · calc _ ≤ (a n).uncertainty ^ 2 / (2 * cfg.beta ^ 2) * (1 / 4) :=
            mul_le_mul (hr3.trans hr2) (hPq n) (hP2 n) (by positivity)
        _ = _ := by field_simp; norm_num
  set α : ℝ := ((a 0).uncertainty ^ 2)⁻¹ with hα
  have hα0 : 0 < α := by positivity
  have key : ∀ n : ℕ, 0 < (a n).uncertainty ∧ (a n).uncertainty ^ 2 ≤ (a 0).uncertainty ^ 2 ∧
      ((a n).uncertainty ^ 2)⁻¹ ≤ α + n * (1 / (6 * cfg.beta ^ 2)) := by
    intro n
    induction n with
    | zero => exact ⟨ha, le_rfl, by simp [hα]⟩
    | succ n ih =>
      obtain ⟨i1, i2, i3⟩ := ih
      obtain ⟨e0, e1, e2⟩ := hη n i1
      set η := ((a n).uncertainty / C n) ^ 3 * P n * (1 - P n) with hηd
      set f := max (1 - η) cfg.uncertaintyTolerance with hf
      have f1 : 1 - η ≤ f := le_max_left _ _
      have f2 : f ≤ 1 := max_le (by linarith) hκ
      have f0 : 0 < f := by linarith
      have hs : 0 < (a n).uncertainty ^ 2 := by positivity
      have eu : (a (n + 1)).uncertainty = √((a n).uncertainty ^ 2 * f) := by rw [hform n]
      rw [eu, Real.sq_sqrt (by positivity)]
      refine ⟨Real.sqrt_pos.2 (by positivity), ?_, ?_⟩
      · exact le_trans (mul_le_of_le_one_right hs.le f2) i2
      · have g1 : f⁻¹ ≤ 1 + 4 / 3 * η := by
          rw [inv_le_iff_one_le_mul₀ f0]
          nlinarith
        rw [mul_inv]
        have g2 := mul_le_mul_of_nonneg_left g1 (inv_pos.2 hs).le
        have g3 : ((a n).uncertainty ^ 2)⁻¹ * (4 / 3 * η) ≤ 1 / (6 * cfg.beta ^ 2) := by
          calc _ ≤ ((a n).uncertainty ^ 2)⁻¹ * (4 / 3 * ((a n).uncertainty ^ 2 / (8 * cfg.beta ^ 2))) :=
                mul_le_mul_of_nonneg_left (by linarith) (inv_pos.2 hs).le
            _ = _ := by field_simp; norm_num
        push_cast
        linarith
  set M : ℝ := √((a 0).uncertainty ^ 2 + U ^ 2 + 2 * cfg.beta ^ 2) with hM
  have hM0 : 0 < M := Real.sqrt_pos.2 (by positivity)
  have hCM : ∀ n, C n ≤ M := fun n => Real.sqrt_le_sqrt (by
    have h1 := (key n).2.1
    have h2 : (b n).uncertainty ^ 2 ≤ U ^ 2 := sq_le_sq' (by linarith [neg_le_of_abs_le (hU n)])
      (le_of_abs_le (hU n))
    linarith)
  set L : ℝ := √(2 * cfg.beta ^ 2) with hL
  have hL0 : 0 < L := Real.sqrt_pos.2 (by positivity)
  have hLC : ∀ n, L ≤ C n := fun n => Real.sqrt_le_sqrt (by
    have h1 := sq_nonneg (a n).uncertainty
    have h2 := sq_nonneg (b n).uncertainty
    linarith)
  refine climbs_slow (h := fun y => 1 / M * (1 - sigmoid (max 0 (y - B) / L)))
    hα0 (by positivity : (0 : ℝ) ≤ 1 / (6 * cfg.beta ^ 2)) ?_ ?_ fun n => ?_
  · intro x y hxy
    have := sigmoid_monotone (div_le_div_of_nonneg_right
      (max_le_max (le_refl (0 : ℝ)) (sub_le_sub_right hxy B)) hL0.le)
    exact mul_le_mul_of_nonneg_left (by linarith) (by positivity)
  · intro y
    have := sigmoid_lt_one (max 0 (y - B) / L)
    exact mul_pos (by positivity) (by linarith)
  · obtain ⟨i1, i2, i3⟩ := key n
    have hlow : 1 / (α + n * (1 / (6 * cfg.beta ^ 2))) ≤ (a n).uncertainty ^ 2 := by
      rw [one_div]
      exact inv_le_of_inv_le₀ (by positivity) i3
    have hPle : P n ≤ sigmoid (max 0 ((a n).rating - B) / L) := by
      rw [hP]
      simp only [WengLin.wlP_eq]
      apply sigmoid_monotone
      have h3 : (a n).rating - (b n).rating ≤ max 0 ((a n).rating - B) :=
        le_max_of_le_right (by linarith [hb n])
      calc ((a n).rating - (b n).rating) / C n ≤ max 0 ((a n).rating - B) / C n :=
            div_le_div_of_nonneg_right h3 (hCpos n).le
        _ ≤ _ := div_le_div_of_nonneg_left (le_max_left _ _) hL0 (hLC n)
    have hs := sigmoid_lt_one (max 0 ((a n).rating - B) / L)
    have er : (a (n + 1)).rating = (a n).rating + (a n).uncertainty ^ 2 / C n * (1 - P n) := by
      rw [hform n]
    rw [er]
    have hd0 : 0 < α + n * (1 / (6 * cfg.beta ^ 2)) := by positivity
    have h1 : 1 / (α + n * (1 / (6 * cfg.beta ^ 2))) / M ≤ (a n).uncertainty ^ 2 / C n :=
      div_le_div₀ (by positivity) hlow (hCpos n) (hCM n)
    have h2 := mul_le_mul h1 (sub_le_sub_left hPle 1) (by linarith)
      (div_nonneg (by positivity) (hCpos n).le)
    have e1 : 1 / M * (1 - sigmoid (max 0 ((a n).rating - B) / L))
        / (α + n * (1 / (6 * cfg.beta ^ 2)))
        = 1 / (α + n * (1 / (6 * cfg.beta ^ 2))) / M
          * (1 - sigmoid (max 0 ((a n).rating - B) / L)) := by ring
    linarith

/-- Such sequences exist for every start and every sequence of opponents: here for Glicko, Weng-Lin
and USCF players who meet the hypotheses above. -/
example (b : ℕ → Glicko.GlickoRating ℝ) : ∃ a : ℕ → Glicko.GlickoRating ℝ,
    a 0 = ⟨1500, 350⟩ ∧ ∀ n, a (n + 1) = (Glicko.glicko (a n) (b n) .WIN ⟨0⟩).1 :=
  ⟨fun n => n.rec ⟨1500, 350⟩ fun n r => (Glicko.glicko r (b n) .WIN ⟨0⟩).1, rfl, fun _ => rfl⟩

example (b : ℕ → WengLin.WengLinRating ℝ) : ∃ a : ℕ → WengLin.WengLinRating ℝ,
    a 0 = ⟨25, 25 / 3⟩ ∧ ∀ n, a (n + 1) = (WengLin.wengLin (a n) (b n) .WIN ⟨25 / 6, 0⟩).1 :=
  ⟨fun n => n.rec ⟨25, 25 / 3⟩ fun n r => (WengLin.wengLin r (b n) .WIN ⟨25 / 6, 0⟩).1, rfl,
    fun _ => rfl⟩

example (c : Uscf.USCFConfig ℝ) (b : ℕ → Uscf.USCFRating ℝ) : ∃ a : ℕ → Uscf.USCFRating ℝ,
    a 0 = ⟨1500, 20⟩ ∧ ∀ n, a (n + 1) = (Uscf.uscf (a n) (b n) .LOSS c).1 :=
  ⟨fun n => n.rec ⟨1500, 20⟩ fun n r => (Uscf.uscf r (b n) .LOSS c).1, rfl, fun _ => rfl⟩

/-! ### Rematches -/

/-- Elo: two players who keep drawing against each other end at the mean of their ratings, if
`k < 1600 / ln 10` (about 694). -/
theorem C111_elo_drawn_rematches (c : Elo.EloConfig ℝ) (hk : 0 < c.k)
    (hk' : c.k * (log 10 / 400) < 4) (a b : ℕ → Elo.EloRating ℝ)
    (h : ∀ n, (a (n + 1), b (n + 1)) = Elo.elo (a n) (b n) .DRAW c) :
    Tendsto (fun n => (a n).rating) atTop (𝓝 (((a 0).rating + (b 0).rating) / 2)) ∧
      Tendsto (fun n => (b n).rating) atTop (𝓝 (((a 0).rating + (b 0).rating) / 2)) := by
  have ha : ∀ n, (a (n + 1)).rating = c.k * (1 / 2 - sigmoid (log 10 / 400
      * ((a n).rating - (b n).rating))) + (a n).rating := by
    intro n
    have := congrArg (fun p => p.1.rating) (h n)
    rw [Elo.elo_real] at this
    simpa [points] using this
  have hb : ∀ n, (b (n + 1)).rating = -(c.k * (1 / 2 - sigmoid (log 10 / 400
      * ((a n).rating - (b n).rating)))) + (b n).rating := by
    intro n
    have := congrArg (fun p => p.2.rating) (h n)
    rw [Elo.elo_real] at this
    simp only [points] at this
    rw [this]; ring
  have hsum : ∀ n, (a n).rating + (b n).rating = (a 0).rating + (b 0).rating := by
    intro n
    induction n with
    | zero => rfl
    | succ n ih => rw [ha, hb, ← ih]; ring
  have hd : Tendsto (fun n => (a n).rating - (b n).rating) atTop (𝓝 0) :=
    drawn_tendsto hk q400 hk' fun n => by rw [ha, hb]; ring
  constructor
  · have := (hd.add_const ((a 0).rating + (b 0).rating)).div_const 2
    rw [zero_add] at this
    refine this.congr fun n => ?_
    rw [← hsum n]; ring
  · have := (hd.const_sub ((a 0).rating + (b 0).rating)).div_const 2
    rw [sub_zero] at this
    refine this.congr fun n => ?_
    rw [← hsum n]; ring

/-- The default `k = 32` is in the range. -/
example : (32 : ℝ) * (log 10 / 400) < 4 := by
  have := log_ten_lt
  linarith

/-- Elo: for larger `k` there are two different ratings that a draw exchanges, again and again. -/
theorem C111_elo_drawn_rematches_large (c : Elo.EloConfig ℝ) (hk' : 4 < c.k * (log 10 / 400)) :
    ∃ a b : Elo.EloRating ℝ, a.rating ≠ b.rating ∧ Elo.elo a b .DRAW c = (b, a) := by
  obtain ⟨x, hx, e⟩ := drawn_turn q400 hk'
  refine ⟨⟨x⟩, ⟨0⟩, hx.ne', ?_⟩
  rw [Elo.elo_real]
  simp only [points, sub_zero]
  have e' : c.k * (1 / 2 - sigmoid (log 10 / 400 * x)) = -x := by linarith
  refine Prod.ext ?_ ?_
  · rw [e']; simp
  · have : c.k * (1 - 1 / 2 - (1 - sigmoid (log 10 / 400 * x))) = x := by linarith
    rw [this]; simp

example : 4 < (700 : ℝ) * (log 10 / 400) := by
  have := log_ten_gt
  linarith

/-- FIFA: the same for draws in league matches. -/
theorem C111_fifa_drawn_rematches (c : Fifa.FifaConfig ℝ) (hk : 0 < c.importance)
    (hk' : c.importance * (log 10 / 600) < 4) (hp : c.penalties = false) (hko : c.knockout = false)
    (a b : ℕ → Fifa.FifaRating ℝ)
    (h : ∀ n, (a (n + 1), b (n + 1)) = Fifa.fifa (a n) (b n) .DRAW c) :
    Tendsto (fun n => (a n).rating) atTop (𝓝 (((a 0).rating + (b 0).rating) / 2)) ∧
      Tendsto (fun n => (b n).rating) atTop (𝓝 (((a 0).rating + (b 0).rating) / 2)) := by
  have ha : ∀ n, (a (n + 1)).rating = c.importance * (1 / 2 - sigmoid (log 10 / 600
      * ((a n).rating - (b n).rating))) + (a n).rating := by
    intro n
    have := congrArg (fun p => p.1.rating) (h n)
    rw [Fifa.fifa_real] at this
    simpa [points, Fifa.guarded, Fifa.credit, hp, hko] using this
  have hb : ∀ n, (b (n + 1)).rating = -(c.importance * (1 / 2 - sigmoid (log 10 / 600
      * ((a n).rating - (b n).rating)))) + (b n).rating := by
    intro n
    have := congrArg (fun p => p.2.rating) (h n)
    rw [Fifa.fifa_real] at this
    simp only [points, Fifa.guarded, Fifa.credit2, hp, hko, Bool.false_eq_true, if_false] at this
    rw [this]; ring
  have hsum : ∀ n, (a n).rating + (b n).rating = (a 0).rating + (b 0).rating := by
    intro n
    induction n with
    | zero => rfl
    | succ n ih => rw [ha, hb, ← ih]; ring
  have hd : Tendsto (fun n => (a n).rating - (b n).rating) atTop (𝓝 0) :=
    drawn_tendsto hk q600 hk' fun n => by rw [ha, hb]; ring
  constructor
  · have := (hd.add_const ((a 0).rating + (b 0).rating)).div_const 2
    rw [zero_add] at this
    refine this.congr fun n => ?_
    rw [← hsum n]; ring
  · have := (hd.const_sub ((a 0).rating + (b 0).rating)).div_const 2
    rw [sub_zero] at this
    refine this.congr fun n => ?_
    rw [← hsum n]; ring

/-! ### Ingo -/

/-- Ingo is different: the same result against equal opponents, again and again, brings the rating
to the performance of one game, and the distance shrinks by the same factor every time. -/
theorem C111_ingo_streak (a b : ℕ → Ingo.IngoRating ℝ) (o : Outcomes) (B : ℝ)
    (hb : ∀ n, (b n).rating = B) (h : ∀ n, a (n + 1) = (Ingo.ingo (a n) (b n) o).1) :
    (∀ n, (a n).rating - Ingo.perf B (points o) =
        (Ingo.development (a 0).age / (1 + Ingo.development (a 0).age)) ^ n
          * ((a 0).rating - Ingo.perf B (points o))) ∧
      Tendsto (fun n => (a n).rating) atTop (𝓝 (Ingo.perf B (points o))) := by
  have hage : ∀ n, (a n).age = (a 0).age := by
    intro n
    induction n with
    | zero => rfl
    | succ n ih => rw [h, (Ingo.C25_ingo_age _ _ _).1, ih]
  set d := Ingo.development (a 0).age with hd
  have hd0 : 0 < d := Ingo.development_pos _
  set p := Ingo.perf B (points o) with hp
  have hclosed : ∀ n, (a n).rating - p = (d / (1 + d)) ^ n * ((a 0).rating - p) := by
    intro n
    induction n with
    | zero => simp
    | succ n ih =>
      rw [pow_succ, mul_right_comm, ← ih, h, (Ingo.C24_ingo_formula _ _ _).1, hage, hb]
      rw [← hd, ← hp]
      have : 1 + d ≠ 0 := by positivity
      field_simp
      ring
  refine ⟨hclosed, ?_⟩
  have h0 : Tendsto (fun n : ℕ => (d / (1 + d)) ^ n) atTop (𝓝 0) :=
    tendsto_pow_atTop_nhds_zero_of_lt_one (by positivity) ((div_lt_one (by positivity)).2 (by linarith))
  have h1 := (h0.mul_const ((a 0).rating - p)).add_const p
  rw [zero_mul, zero_add] at h1
  refine h1.congr fun n => ?_
  rw [← hclosed n]; ring

end Skillratings
