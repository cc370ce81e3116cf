import Verif.Proofs.DrawTail
import Verif.Props.TrueSkillBayes
import Verif.Props.TrueSkillFactorGraph
import Verif.Proofs.TruncVar
/-
C115 for `trueskill_multi_team` with two teams, whose players may have weights: the update is
conditioning on the result, with prior variance `σ² + τ²` and a form of the day of variance `β²`.
-/
namespace Skillratings.TrueSkill
open MeasureTheory ProbabilityTheory Spec Real

section
variable {Ω : Type*} [MeasurableSpace Ω] {P : Measure Ω} [IsProbabilityMeasure P]

theorem fgTeam_ofFn (τ : ℝ) (s : List (TrueSkillRating ℝ)) (w : Fin s.length → ℝ) :
    fgTeam τ s (List.ofFn w) = List.ofFn fun i => fgPlayer τ s[i] (w i) := by
  apply List.ext_getElem <;> simp [fgTeam]

/-- The signed weights of two teams. -/
def signed {m n : ℕ} (ws : Fin m → ℝ) (wt : Fin n → ℝ) : Fin m ⊕ Fin n → ℝ :=
  Sum.elim ws fun i => -wt i

variable {s t : List (TrueSkillRating ℝ)} {ws : Fin s.length → ℝ} {wt : Fin t.length → ℝ} {τ β : ℝ}

theorem signed_mean : ∑ i, signed ws wt i * both s t (·.rating) i
    = fgMean (fgTeam τ s (List.ofFn ws)) - fgMean (fgTeam τ t (List.ofFn wt)) := by
  rw [fgTeam_ofFn, fgTeam_ofFn, Fintype.sum_sum_type]
  simp [fgMean, fgPlayer, signed, both, List.map_ofFn, List.sum_ofFn, Function.comp_def,
    Finset.sum_neg_distrib, sub_eq_add_neg]

theorem signed_var : ∑ i, signed ws wt i ^ 2 * (both s t (fun p => p.uncertainty ^ 2 + τ ^ 2) i + β ^ 2)
    = fgVariance β (fgTeam τ s (List.ofFn ws)) + fgVariance β (fgTeam τ t (List.ofFn wt)) := by
  rw [fgTeam_ofFn, fgTeam_ofFn, Fintype.sum_sum_type]
  simp [fgVariance, fgPlayer, signed, both, List.map_ofFn, List.sum_ofFn, Function.comp_def]

theorem signed_c (hs : s ≠ []) (hu : ∀ p ∈ s ++ t, p.uncertainty ≠ 0) (hws : ∀ i, 0 < ws i) :
    0 < fgC β (fgTeam τ s (List.ofFn ws)) (fgTeam τ t (List.ofFn wt)) ∧
    fgC β (fgTeam τ s (List.ofFn ws)) (fgTeam τ t (List.ofFn wt)) ^ 2
      = ∑ i, signed ws wt i ^ 2 * (both s t (fun p => p.uncertainty ^ 2 + τ ^ 2) i + β ^ 2) := by
  have hpos : 0 < ∑ i, signed ws wt i ^ 2 *
      (both s t (fun p => p.uncertainty ^ 2 + τ ^ 2) i + β ^ 2) := by
    apply Finset.sum_pos'
    · rintro (i | i) _ <;>
        exact mul_nonneg (sq_nonneg _) (add_nonneg (add_nonneg (sq_nonneg _) (sq_nonneg _)) (sq_nonneg _))
    · refine ⟨.inl ⟨0, List.length_pos_iff.2 hs⟩, Finset.mem_univ _, ?_⟩
      have h1 := hws ⟨0, List.length_pos_iff.2 hs⟩
      have h2 : s[0]'(List.length_pos_iff.2 hs) ∈ s ++ t := List.mem_append_left _ (List.getElem_mem _)
      have h3 := sq_pos_iff.2 (hu _ h2)
      simp only [signed, both, Sum.elim_inl]
      have : 0 < ws ⟨0, List.length_pos_iff.2 hs⟩ ^ 2 := by positivity
      refine mul_pos this ?_
      have := sq_nonneg τ
      have := sq_nonneg β
      simp only [Fin.getElem_fin]
      linarith
  rw [signed_var] at hpos ⊢
  exact ⟨Real.sqrt_pos.2 hpos, Real.sq_sqrt hpos.le⟩

theorem both_nonneg (s t : List (TrueSkillRating ℝ)) (τ : ℝ) (i) :
    0 ≤ both s t (fun p => p.uncertainty ^ 2 + τ ^ 2) i := by
  rcases i with i | i <;> simp only [both, Sum.elim_inl, Sum.elim_inr] <;> positivity

omit [IsProbabilityMeasure P] in
theorem read_off {c V W r B : ℝ} {E : Set Ω} {X : Fin s.length ⊕ Fin t.length → Ω → ℝ}
    (hn : ∀ j, |tsRating (both s t (·.rating) j) (both s t (·.uncertainty ^ 2) j) τ c (signed ws wt j * V)
        - ∫ ω, X j ω ∂P[|E]| ≤ r * |∫ ω, X j ω ∂P[|E] - both s t (·.rating) j| ∧
      |√((both s t (·.uncertainty ^ 2) j + τ ^ 2) * (1 - W * (signed ws wt j ^ 2 *
        (both s t (·.uncertainty ^ 2) j + τ ^ 2) / c ^ 2))) ^ 2 - Var[X j; P[|E]]|
        ≤ B * (both s t (·.uncertainty ^ 2) j + τ ^ 2)) :
    (∀ i : Fin s.length, ∃ p', ((fgTeam τ s (List.ofFn ws)).map (fgUpdate c V W))[i]? = some p' ∧
      |p'.rating - ∫ ω, X (.inl i) ω ∂P[|E]|
        ≤ r * |∫ ω, X (.inl i) ω ∂P[|E] - s[i].rating| ∧
      |p'.uncertainty ^ 2 - Var[X (.inl i); P[|E]]| ≤ B * (s[i].uncertainty ^ 2 + τ ^ 2)) ∧
    (∀ i : Fin t.length, ∃ p', ((fgTeam τ t (List.ofFn wt)).map (fgUpdate c (-V) W))[i]? = some p' ∧
      |p'.rating - ∫ ω, X (.inr i) ω ∂P[|E]|
        ≤ r * |∫ ω, X (.inr i) ω ∂P[|E] - t[i].rating| ∧
      |p'.uncertainty ^ 2 - Var[X (.inr i); P[|E]]| ≤ B * (t[i].uncertainty ^ 2 + τ ^ 2)) := by
  refine ⟨fun i => ⟨fgUpdate c V W (fgPlayer τ s[i] (ws i)), by simp [fgTeam_ofFn], ?_, ?_⟩,
    fun i => ⟨fgUpdate c (-V) W (fgPlayer τ t[i] (wt i)), by simp [fgTeam_ofFn], ?_, ?_⟩⟩
  · have := (hn (.inl i)).1
    simp only [tsRating, signed, both, Sum.elim_inl] at this
    simp only [fgUpdate, fgPlayer]
    convert this using 3
    ring
  · exact (hn (.inl i)).2
  · have := (hn (.inr i)).1
    simp only [tsRating, signed, both, Sum.elim_inr] at this
    simp only [fgUpdate, fgPlayer]
    convert this using 3
    ring
  · have := (hn (.inr i)).2
    simp only [signed, Sum.elim_inr, neg_sq] at this
    exact this

/-- The players of two teams with positive weights, after a decided match. -/
theorem C115_trueskill_multi_decided (s t : List (TrueSkillRating ℝ))
    (ws : Fin s.length → ℝ) (wt : Fin t.length → ℝ) (r₁ r₂ : MultiTeamOutcome)
    (cfg : TrueSkillConfig ℝ) (hs : s ≠ []) (ht : t ≠ []) (hu : ∀ p ∈ s ++ t, p.uncertainty ≠ 0)
    (hws : ∀ i, 0 < ws i) (hwt : ∀ i, 0 < wt i) (hr : r₁.rank ≠ r₂.rank)
    {X N : Fin s.length ⊕ Fin t.length → Ω → ℝ}
    (h : IsContest P X N (both s t (·.rating))
      (both s t (fun p => p.uncertainty ^ 2 + cfg.dynamicsFactor ^ 2)) cfg.beta)
    {ε c : ℝ} (hε : ε = tsMargin cfg.drawProbability cfg.beta (s.length + t.length))
    (hc : 0 < c) (hc2 : c ^ 2 = ∑ i, signed ws wt i ^ 2 *
      (both s t (fun p => p.uncertainty ^ 2 + cfg.dynamicsFactor ^ 2) i + cfg.beta ^ 2))
    {E : Set Ω} (hE : E = happened (outcomeOf r₁.rank r₂.rank) ε (lead (signed ws wt) X N))
    (hp : 3e-162 ≤ P.real E)
    {B : ℝ} (hB : B = 2e-6 *
      (1 + (|∑ i, signed ws wt i * both s t (·.rating) i| + |ε|) / c) ^ 2) :
    ∃ s' t', trueskillMultiTeam [(s, r₁), (t, r₂)] cfg (some [List.ofFn ws, List.ofFn wt])
        = .ok (.ok [s', t']) ∧
    (∀ i : Fin s.length, ∃ p', s'[i]? = some p' ∧
      |p'.rating - ∫ ω, X (.inl i) ω ∂P[|E]|
        ≤ 7e-7 * |∫ ω, X (.inl i) ω ∂P[|E] - s[i].rating| ∧
      |p'.uncertainty ^ 2 - Var[X (.inl i); P[|E]]|
        ≤ B * (s[i].uncertainty ^ 2 + cfg.dynamicsFactor ^ 2)) ∧
    (∀ i : Fin t.length, ∃ p', t'[i]? = some p' ∧
      |p'.rating - ∫ ω, X (.inr i) ω ∂P[|E]|
        ≤ 7e-7 * |∫ ω, X (.inr i) ω ∂P[|E] - t[i].rating| ∧
      |p'.uncertainty ^ 2 - Var[X (.inr i); P[|E]]|
        ≤ B * (t[i].uncertainty ^ 2 + cfg.dynamicsFactor ^ 2)) := by
  obtain ⟨hc', hc2'⟩ := signed_c (ws := ws) (wt := wt) (τ := cfg.dynamicsFactor) (β := cfg.beta)
    hs hu hws
  rw [← hc2] at hc2'
  have hcc := (pow_left_inj₀ hc'.le hc.le two_ne_zero).1 hc2'
  have hv := both_nonneg s t cfg.dynamicsFactor
  have ho : outcomeOf r₁.rank r₂.rank ≠ .DRAW := by
    simp only [outcomeOf]; split_ifs <;> simp
  have hlen : (fgTeam cfg.dynamicsFactor s (List.ofFn ws)).length
      + (fgTeam cfg.dynamicsFactor t (List.ofFn wt)).length = s.length + t.length := by
    simp [fgTeam]
  have hmean := signed_mean (s := s) (t := t) (ws := ws) (wt := wt) (τ := cfg.dynamicsFactor)
  have hT : fgT cfg.beta (fgTeam cfg.dynamicsFactor s (List.ofFn ws))
      (fgTeam cfg.dynamicsFactor t (List.ofFn wt))
      = (∑ i, signed ws wt i * both s t (·.rating) i) / c := by
    rw [fgT, hcc, hmean]
  have hM : fgMargin cfg.drawProbability cfg.beta (fgTeam cfg.dynamicsFactor s (List.ofFn ws))
      (fgTeam cfg.dynamicsFactor t (List.ofFn wt)) = ε / c := by
    rw [fgMargin, hcc, hlen, hε]
  have hn := fun j => decided_near h hv (signed ws wt) hc hc2 ε ho (hE ▸ hp) (j := j)
    (s := both s t (·.uncertainty ^ 2) j) (τ := cfg.dynamicsFactor) (by cases j <;> rfl)
  simp only [← hE, ← hB] at hn
  have htiny : tsTiny ≤ normalCdf ((if r₁.rank < r₂.rank then 1 else -1) *
      ((∑ i, signed ws wt i * both s t (·.rating) i) / c) - ε / c) := by
    split_ifs with hlt
    · have e := (h.posterior_win hv (signed ws wt) hc hc2 ε rfl).1
      have hE' : E = {ω | ε < lead (signed ws wt) X N ω} := by
        rw [hE, outcomeOf, if_pos hlt]; rfl
      rw [← hE'] at e
      rw [one_mul, ← sub_div]
      exact not_lt.1 (vwin_near (e ▸ hp)).1
    · have hc2n : c ^ 2 = ∑ i, (-signed ws wt i) ^ 2 *
          (both s t (fun p => p.uncertainty ^ 2 + cfg.dynamicsFactor ^ 2) i + cfg.beta ^ 2) := by
        simp only [neg_sq]; exact hc2
      have e := (h.posterior_win hv (fun i => -signed ws wt i) hc hc2n ε rfl).1
      have hE' : E = {ω | ε < lead (fun i => -signed ws wt i) X N ω} := by
        rw [hE, outcomeOf, if_neg hlt, if_neg hr]
        ext ω
        simp only [happened, Set.mem_ofPred_eq, lead_neg]
        constructor <;> intro h <;> linarith
      rw [← hE'] at e
      have e2 : -1 * ((∑ i, signed ws wt i * both s t (·.rating) i) / c) - ε / c
          = (∑ i, -signed ws wt i * both s t (·.rating) i - ε) / c := by
        simp only [neg_mul, Finset.sum_neg_distrib]; ring
      rw [e2]
      exact not_lt.1 (vwin_near (e ▸ hp)).1
  have key := C72_trueskill_multi_two_teams_decided s t (List.ofFn ws) (List.ofFn wt) r₁ r₂ cfg hs ht
    (by simp) (by simp) hu (by
      intro w hw
      rcases List.mem_append.1 hw with hw | hw <;> obtain ⟨i, rfl⟩ := List.mem_ofFn.1 hw
      exacts [hws i, hwt i]) hr
  simp only [hT, hM, hcc] at key
  exact ⟨_, _, key htiny, read_off hn⟩

/-- After a drawn match, provided the draw is not too improbable. -/
theorem C115_trueskill_multi_drawn (s t : List (TrueSkillRating ℝ))
    (ws : Fin s.length → ℝ) (wt : Fin t.length → ℝ) (r₁ r₂ : MultiTeamOutcome)
    (cfg : TrueSkillConfig ℝ) (hs : s ≠ []) (ht : t ≠ []) (hu : ∀ p ∈ s ++ t, p.uncertainty ≠ 0)
    (hws : ∀ i, 0 < ws i) (hwt : ∀ i, 0 < wt i) (hr : r₁.rank = r₂.rank)
    {X N : Fin s.length ⊕ Fin t.length → Ω → ℝ}
    (h : IsContest P X N (both s t (·.rating))
      (both s t (fun p => p.uncertainty ^ 2 + cfg.dynamicsFactor ^ 2)) cfg.beta)
    {ε c : ℝ} (hε : ε = tsMargin cfg.drawProbability cfg.beta (s.length + t.length))
    (hc : 0 < c) (hc2 : c ^ 2 = ∑ i, signed ws wt i ^ 2 *
      (both s t (fun p => p.uncertainty ^ 2 + cfg.dynamicsFactor ^ 2) i + cfg.beta ^ 2))
    {E : Set Ω} (hE : E = happened .DRAW ε (lead (signed ws wt) X N))
    {B : ℝ} (hB : B = 7e-7 / P.real E *
      (1 + 5 * ((|∑ i, signed ws wt i * both s t (·.rating) i| + ε) / c) ^ 2))
    (hp0 : 1e-5 ≤ P.real E) (hp : B < 0.23 * P.real E ^ 2) :
    ∃ s' t', trueskillMultiTeam [(s, r₁), (t, r₂)] cfg (some [List.ofFn ws, List.ofFn wt])
        = .ok (.ok [s', t']) ∧
    (∀ i : Fin s.length, ∃ p', s'[i]? = some p' ∧
      |p'.rating - ∫ ω, X (.inl i) ω ∂P[|E]|
        ≤ 7e-7 / P.real E * |∫ ω, X (.inl i) ω ∂P[|E] - s[i].rating| ∧
      |p'.uncertainty ^ 2 - Var[X (.inl i); P[|E]]|
        ≤ B * (s[i].uncertainty ^ 2 + cfg.dynamicsFactor ^ 2)) ∧
    (∀ i : Fin t.length, ∃ p', t'[i]? = some p' ∧
      |p'.rating - ∫ ω, X (.inr i) ω ∂P[|E]|
        ≤ 7e-7 / P.real E * |∫ ω, X (.inr i) ω ∂P[|E] - t[i].rating| ∧
      |p'.uncertainty ^ 2 - Var[X (.inr i); P[|E]]|
        ≤ B * (t[i].uncertainty ^ 2 + cfg.dynamicsFactor ^ 2)) := by
  obtain ⟨hc', hc2'⟩ := signed_c (ws := ws) (wt := wt) (τ := cfg.dynamicsFactor) (β := cfg.beta)
    hs hu hws
  rw [← hc2] at hc2'
  have hcc := (pow_left_inj₀ hc'.le hc.le two_ne_zero).1 hc2'
  have hv := both_nonneg s t cfg.dynamicsFactor
  have ho : outcomeOf r₁.rank r₂.rank = .DRAW := by simp [outcomeOf, hr]
  have hlen : (fgTeam cfg.dynamicsFactor s (List.ofFn ws)).length
      + (fgTeam cfg.dynamicsFactor t (List.ofFn wt)).length = s.length + t.length := by
    simp [fgTeam]
  have hmean := signed_mean (s := s) (t := t) (ws := ws) (wt := wt) (τ := cfg.dynamicsFactor)
  have hT : fgT cfg.beta (fgTeam cfg.dynamicsFactor s (List.ofFn ws))
      (fgTeam cfg.dynamicsFactor t (List.ofFn wt))
      = (∑ i, signed ws wt i * both s t (·.rating) i) / c := by
    rw [fgT, hcc, hmean]
  have hM : fgMargin cfg.drawProbability cfg.beta (fgTeam cfg.dynamicsFactor s (List.ofFn ws))
      (fgTeam cfg.dynamicsFactor t (List.ofFn wt)) = ε / c := by
    rw [fgMargin, hcc, hlen, hε]
  have hn := fun j => drawn_near h hv (signed ws wt) hc hc2 (hE ▸ hp0) (j := j)
    (s := both s t (·.uncertainty ^ 2) j) (τ := cfg.dynamicsFactor) (by cases j <;> rfl)
  simp only [← hE, ← hB] at hn
  have hPpos : 0 < P.real E := lt_of_lt_of_le (by norm_num) hp0
  have hε0 : 0 < ε := draw_margin_pos h hv (signed ws wt) hc hc2 (hE ▸ hPpos)
  have hPE := (h.posterior_draw hv (signed ws wt) hc hc2 hε0 rfl rfl).1
  have hW := tsWDraw_mem (t := (∑ i, signed ws wt i * both s t (·.rating) i) / c) (e := ε / c)
    (by positivity) (by
      rw [← hPE, show {ω | |lead (signed ws wt) X N ω| ≤ ε} = E from hE.symm, abs_div,
        abs_of_pos hc, ← add_div]
      have := mul_lt_mul_of_pos_right hp hPpos
      rw [hB] at this
      calc _ = _ := ?_
        _ < _ := this
        _ = _ := ?_
      · field_simp
      · ring)
  have key := C72_trueskill_multi_two_teams_weighted s t (List.ofFn ws) (List.ofFn wt) r₁ r₂ cfg hs ht
    (by simp) (by simp) hu (by
      intro w hw
      rcases List.mem_append.1 hw with hw | hw <;> obtain ⟨i, rfl⟩ := List.mem_ofFn.1 hw
      exacts [hws i, hwt i])
  simp only [hT, hM, hcc, ho] at key
  exact ⟨_, _, key hW.1 hW.2, read_off hn⟩

/-- The same for teams at least the draw margin apart, when the margin is not tiny. -/
theorem C115_trueskill_multi_drawn_apart (s t : List (TrueSkillRating ℝ))
    (ws : Fin s.length → ℝ) (wt : Fin t.length → ℝ) (r₁ r₂ : MultiTeamOutcome)
    (cfg : TrueSkillConfig ℝ) (hs : s ≠ []) (ht : t ≠ []) (hu : ∀ p ∈ s ++ t, p.uncertainty ≠ 0)
    (hws : ∀ i, 0 < ws i) (hwt : ∀ i, 0 < wt i) (hr : r₁.rank = r₂.rank)
    {X N : Fin s.length ⊕ Fin t.length → Ω → ℝ}
    (h : IsContest P X N (both s t (·.rating))
      (both s t (fun p => p.uncertainty ^ 2 + cfg.dynamicsFactor ^ 2)) cfg.beta)
    {ε c : ℝ} (hε : ε = tsMargin cfg.drawProbability cfg.beta (s.length + t.length))
    (hc : 0 < c) (hc2 : c ^ 2 = ∑ i, signed ws wt i ^ 2 *
      (both s t (fun p => p.uncertainty ^ 2 + cfg.dynamicsFactor ^ 2) i + cfg.beta ^ 2))
    {E : Set Ω} (hE : E = happened .DRAW ε (lead (signed ws wt) X N))
    {B : ℝ} (hB : B = 6.5e-6 *
      (1 + 5 * ((|∑ i, signed ws wt i * both s t (·.rating) i| + ε) / c) ^ 2))
    (hp : 3e-162 ≤ P.real E) (hd : ε ≤ |∑ i, signed ws wt i * both s t (·.rating) i|)
    (hw : 0.01 * (c + |∑ i, signed ws wt i * both s t (·.rating) i|) ≤ ε) :
    ∃ s' t', trueskillMultiTeam [(s, r₁), (t, r₂)] cfg (some [List.ofFn ws, List.ofFn wt])
        = .ok (.ok [s', t']) ∧
    (∀ i : Fin s.length, ∃ p', s'[i]? = some p' ∧
      |p'.rating - ∫ ω, X (.inl i) ω ∂P[|E]|
        ≤ 6.5e-6 * |∫ ω, X (.inl i) ω ∂P[|E] - s[i].rating| ∧
      |p'.uncertainty ^ 2 - Var[X (.inl i); P[|E]]|
        ≤ B * (s[i].uncertainty ^ 2 + cfg.dynamicsFactor ^ 2)) ∧
    (∀ i : Fin t.length, ∃ p', t'[i]? = some p' ∧
      |p'.rating - ∫ ω, X (.inr i) ω ∂P[|E]|
        ≤ 6.5e-6 * |∫ ω, X (.inr i) ω ∂P[|E] - t[i].rating| ∧
      |p'.uncertainty ^ 2 - Var[X (.inr i); P[|E]]|
        ≤ B * (t[i].uncertainty ^ 2 + cfg.dynamicsFactor ^ 2)) := by
  obtain ⟨hc', hc2'⟩ := signed_c (ws := ws) (wt := wt) (τ := cfg.dynamicsFactor) (β := cfg.beta)
    hs hu hws
  rw [← hc2] at hc2'
  have hcc := (pow_left_inj₀ hc'.le hc.le two_ne_zero).1 hc2'
  have hv := both_nonneg s t cfg.dynamicsFactor
  have ho : outcomeOf r₁.rank r₂.rank = .DRAW := by simp [outcomeOf, hr]
  have hlen : (fgTeam cfg.dynamicsFactor s (List.ofFn ws)).length
      + (fgTeam cfg.dynamicsFactor t (List.ofFn wt)).length = s.length + t.length := by
    simp [fgTeam]
  have hmean := signed_mean (s := s) (t := t) (ws := ws) (wt := wt) (τ := cfg.dynamicsFactor)
  have hT : fgT cfg.beta (fgTeam cfg.dynamicsFactor s (List.ofFn ws))
      (fgTeam cfg.dynamicsFactor t (List.ofFn wt))
      = (∑ i, signed ws wt i * both s t (·.rating) i) / c := by
    rw [fgT, hcc, hmean]
  have hM : fgMargin cfg.drawProbability cfg.beta (fgTeam cfg.dynamicsFactor s (List.ofFn ws))
      (fgTeam cfg.dynamicsFactor t (List.ofFn wt)) = ε / c := by
    rw [fgMargin, hcc, hlen, hε]
  have hn := fun j => drawn_rel h hv (signed ws wt) hc hc2 (hE ▸ hp) hd (j := j)
    (s := both s t (·.uncertainty ^ 2) j) (τ := cfg.dynamicsFactor) (by cases j <;> rfl)
  simp only [← hE, ← hB] at hn
  have hPpos : 0 < P.real E := lt_of_lt_of_le (by norm_num) hp
  have hε0 : 0 < ε := draw_margin_pos h hv (signed ws wt) hc hc2 (hE ▸ hPpos)
  have hPE := (h.posterior_draw hv (signed ws wt) hc hc2 hε0 rfl rfl).1
  have hte : ε / c ≤ |(∑ i, signed ws wt i * both s t (·.rating) i) / c| := by
    rw [abs_div, abs_of_pos hc]; gcongr
  have hnt := (inv_rel (by rw [← hPE, show {ω | |lead (signed ws wt) X N ω| ≤ ε} = E from hE.symm]; exact hp)
    (drawNorm_rel (by positivity : 0 < ε / c) hte) 0).1
  have hu' := tsWDraw_unit (t := (∑ i, signed ws wt i * both s t (·.rating) i) / c) (e := ε / c) (by
    rw [abs_div, abs_of_pos hc, le_div_iff₀ hc]
    have : 0.01 * (1 + |∑ i, signed ws wt i * both s t (·.rating) i| / c) * c
        = 0.01 * (c + |∑ i, signed ws wt i * both s t (·.rating) i|) := by field_simp
    rw [this]; exact hw)
  have hW := And.intro hu'.1 (hu'.2.resolve_left fun h => hnt h.2)
  have key := C72_trueskill_multi_two_teams_weighted s t (List.ofFn ws) (List.ofFn wt) r₁ r₂ cfg hs ht
    (by simp) (by simp) hu (by
      intro w hw
      rcases List.mem_append.1 hw with hw | hw <;> obtain ⟨i, rfl⟩ := List.mem_ofFn.1 hw
      exacts [hws i, hwt i])
  simp only [hT, hM, hcc, ho] at key
  exact ⟨_, _, key hW.1 hW.2, read_off hn⟩

/-- Without weights, all weights are one. -/
theorem C115_trueskill_multi_unweighted (s t : List (TrueSkillRating ℝ)) (r₁ r₂ : MultiTeamOutcome)
    (cfg : TrueSkillConfig ℝ) :
    trueskillMultiTeam [(s, r₁), (t, r₂)] cfg none = trueskillMultiTeam [(s, r₁), (t, r₂)] cfg
      (some [List.ofFn fun _ : Fin s.length => 1, List.ofFn fun _ : Fin t.length => 1]) ∧
    signed (fun _ : Fin s.length => 1) (fun _ : Fin t.length => 1) = versus s.length t.length := by
  refine ⟨?_, rfl⟩
  rw [(C68_no_weights_are_ones [(s, r₁), (t, r₂)] [] cfg (by simp only [flt]; norm_num)).1]
  simp [List.ofFn_const, flt]

/-- Three players of whom one was there for half of the match, and two opponents. -/
example : ∃ (X N : Fin 3 ⊕ Fin 2 → ((Fin 3 ⊕ Fin 2) ⊕ (Fin 3 ⊕ Fin 2) → ℝ) → ℝ)
    (P : Measure ((Fin 3 ⊕ Fin 2) ⊕ (Fin 3 ⊕ Fin 2) → ℝ)), IsProbabilityMeasure P ∧
      IsContest P X N (both [ada, eve, ada] [eve, eve] (·.rating))
        (both [ada, eve, ada] [eve, eve] (fun p => p.uncertainty ^ 2 + cfg0.dynamicsFactor ^ 2))
        cfg0.beta ∧
      (∀ p ∈ [ada, eve, ada] ++ [eve, eve], p.uncertainty ≠ 0) ∧
      (∀ i, 0 < (![1, 1, 1 / 2] : Fin 3 → ℝ) i) ∧ (∀ i, 0 < (![1, 1] : Fin 2 → ℝ) i) := by
  obtain ⟨X, N, P, h1, h2⟩ := exists_contest (both [ada, eve, ada] [eve, eve] (·.rating))
    (both [ada, eve, ada] [eve, eve] (fun p => p.uncertainty ^ 2 + cfg0.dynamicsFactor ^ 2)) cfg0.beta
  refine ⟨X, N, P, h1, h2, ?_, ?_, ?_⟩
  · simp [ada, eve]
  · intro i; fin_cases i <;> simp
  · intro i; fin_cases i <;> simp

/-- Two players far apart, drawing. -/
example : let a : TrueSkillRating ℝ := ⟨35, 25 / 3⟩
    let b : TrueSkillRating ℝ := ⟨10, 25 / 3⟩
    ∃ (X N : Fin 1 ⊕ Fin 1 → ((Fin 1 ⊕ Fin 1) ⊕ (Fin 1 ⊕ Fin 1) → ℝ) → ℝ)
      (P : Measure ((Fin 1 ⊕ Fin 1) ⊕ (Fin 1 ⊕ Fin 1) → ℝ)) (c ε : ℝ),
      IsProbabilityMeasure P ∧
      IsContest P X N (both [a] [b] (·.rating))
        (both [a] [b] (fun p => p.uncertainty ^ 2 + cfg0.dynamicsFactor ^ 2)) cfg0.beta ∧
      ε = tsMargin cfg0.drawProbability cfg0.beta ([a].length + [b].length) ∧ 0 < c ∧
      c ^ 2 = ∑ i, signed (fun _ : Fin 1 => 1) (fun _ : Fin 1 => 1) i ^ 2 *
        (both [a] [b] (fun p => p.uncertainty ^ 2 + cfg0.dynamicsFactor ^ 2) i + cfg0.beta ^ 2) ∧
      3e-162 ≤ P.real (happened .DRAW ε (lead (signed (fun _ : Fin 1 => 1) (fun _ : Fin 1 => 1)) X N)) ∧
      ε ≤ |∑ i, signed (fun _ : Fin 1 => 1) (fun _ : Fin 1 => 1) i * both [a] [b] (·.rating) i| ∧
      0.01 * (c + |∑ i, signed (fun _ : Fin 1 => 1) (fun _ : Fin 1 => 1) i * both [a] [b] (·.rating) i|) ≤ ε := by
  intro a b
  obtain ⟨X, N, P, hP, h⟩ := exists_contest (both [a] [b] (·.rating))
    (both [a] [b] (fun p => p.uncertainty ^ 2 + cfg0.dynamicsFactor ^ 2)) cfg0.beta
  have hm := margin_tenth (β := cfg0.beta) (by norm_num [cfg0])
  have hm0 : 0 < tsMargin cfg0.drawProbability cfg0.beta 2 :=
    lt_of_lt_of_le (by norm_num [cfg0]) hm.1
  set ε := tsMargin cfg0.drawProbability cfg0.beta 2 with hε
  have hm1 : (5 : ℝ) / 12 ≤ ε := le_trans (by norm_num [cfg0]) hm.1
  have hm2 : ε ≤ 2.5 := hm.2.trans (by norm_num [cfg0])
  have hmean : ∑ i, signed (fun _ : Fin 1 => 1) (fun _ : Fin 1 => 1) i * both [a] [b] (·.rating) i = 25 := by
    rw [Fintype.sum_sum_type]
    simp [signed, both, a, b]; norm_num
  set c2 := 2 * ((25 / 3) ^ 2 + cfg0.dynamicsFactor ^ 2 + cfg0.beta ^ 2) with hc2
  have hcl : (9 : ℝ) ≤ √c2 := by
    apply Real.le_sqrt_of_sq_le
    norm_num [hc2, cfg0]
  have hcu : √c2 ≤ 14 := by
    apply Real.sqrt_le_iff.2
    norm_num [hc2, cfg0]
  have hc : 0 < √c2 := by linarith
  have hcc : √c2 ^ 2 = ∑ i, signed (fun _ : Fin 1 => 1) (fun _ : Fin 1 => 1) i ^ 2 *
        (both [a] [b] (fun p => p.uncertainty ^ 2 + cfg0.dynamicsFactor ^ 2) i + cfg0.beta ^ 2) := by
    rw [Real.sq_sqrt (by positivity), Fintype.sum_sum_type]
    simp [signed, both, a, b, hc2]; ring
  refine ⟨X, N, P, √c2, ε, hP, h, by norm_num [hε], hc, hcc, ?_, ?_, ?_⟩
  · have hv := both_nonneg [a] [b] cfg0.dynamicsFactor
    have := (h.posterior_draw hv _ hc hcc hm0 rfl rfl).1
    refine le_trans ?_ (le_of_eq this.symm)
    refine le_trans (b := Phi (ε / √c2 - 25 / √c2) - Phi (-(ε / √c2) - 25 / √c2)) ?_
      (le_of_eq (by rw [← hmean]; rfl))
    refine le_trans (by norm_num) (window_far ?_ ?_ ?_)
    · rw [le_div_iff₀ hc]; norm_num; linarith
    · positivity
    · rw [div_le_iff₀ hc]; linarith
  · rw [hmean]; norm_num at hm2 ⊢; linarith
  · rw [hmean]; norm_num; linarith

end
end Skillratings.TrueSkill
