import Verif.Props.FloatMargin
/-
C125 for teams: `trueskill_two_teams` in double precision, against Bayes' rule.
-/

namespace Skillratings
open FP FPVal Spec MeasureTheory ProbabilityTheory
variable {E : FloatEnv}

namespace TrueSkill

/-- A member of a team with an uncertainty of at most 16 `beta` and a rating of at most 64 `beta`. -/
structure TsMate (c : TrueSkillConfig (FP E)) (a : TrueSkillRating (FP E)) : Prop where
  member : TsMember c a
  uncertainty : a.uncertainty.toR ≤ 16 * c.beta.toR

theorem TsMate.player {c : TrueSkillConfig (FP E)} {a : TrueSkillRating (FP E)} (h : TsMate c a)
    (hβ : Between (1 / 2 ^ 20) (2 ^ 20) c.beta) : TsPlayer c a :=
  ⟨h.member.1, h.member.2.trans (by have := hβ.2.2; norm_num at this ⊢; linarith), h.uncertainty⟩

/-- The standard deviation of the lead. -/
theorem team_spread (L : E.Lib) {s t : List (TrueSkillRating (FP E))} {c : TrueSkillConfig (FP E)}
    (hβ : Between (1 / 2 ^ 20) (2 ^ 20) c.beta) (hs : s ≠ []) (ht : t ≠ []) (hn : s.length + t.length ≤ 16)
    (hs' : ∀ a ∈ s, TsMate c a) (ht' : ∀ a ∈ t, TsMate c a) :
    Ap 20 50 (Flt.sqrt (Flt.mulAdd (Flt.ofNat (s.length + t.length) : FP E) (Flt.powi c.beta 2)
      (teamUncertaintySq s + teamUncertaintySq t)))
      (tsC c.beta.toR (side (s.map tsExact)) (side (t.map tsExact))) ∧
    tsC c.beta.toR (side (s.map tsExact)) (side (t.map tsExact)) ^ 2
      = ((s.length + t.length : ℕ) : ℝ) * c.beta.toR ^ 2 + ((s.map fun a => a.uncertainty.toR ^ 2).sum
        + (t.map fun a => a.uncertainty.toR ^ 2).sum) := by
  have hβ' := FP.Spec.Between.ap' hβ
  have ls : 0 < s.length := List.length_pos_iff.2 hs
  have lt : 0 < t.length := List.length_pos_iff.2 ht
  have v1 := sum_ap s (fun a => Flt.powi a.uncertainty 2) (fun a => a.uncertainty.toR ^ 2) (k := 1) (n := 40)
    (m := 4) (by norm_num) (by norm_num) hs (by omega) (by norm_num)
    (fun a ha => ((FP.Spec.Between.ap' (hs' a ha).member.1.2).sq L (by norm_num) (by norm_num)).mono (by norm_num)
      (by norm_num))
  have v2 := sum_ap t (fun a => Flt.powi a.uncertainty 2) (fun a => a.uncertainty.toR ^ 2) (k := 1) (n := 40)
    (m := 4) (by norm_num) (by norm_num) ht (by omega) (by norm_num)
    (fun a ha => ((FP.Spec.Between.ap' (ht' a ha).member.1.2).sq L (by norm_num) (by norm_num)).mono (by norm_num)
      (by norm_num))
  have ls' : (s.length : ℝ) ≤ 15 := by exact_mod_cast (by omega : s.length ≤ 15)
  have lt' : (t.length : ℝ) ≤ 15 := by exact_mod_cast (by omega : t.length ≤ 15)
  have n1 : Ap 0 4 (Flt.ofNat (s.length + t.length) : FP E) ((s.length + t.length : ℕ) : ℝ) := by
    refine ⟨(ofNat_ap (E := E) (n := s.length + t.length) (by omega) (by omega)).1, ?_, ?_⟩
    · have : (1 : ℝ) ≤ ((s.length + t.length : ℕ) : ℝ) := by exact_mod_cast (by omega : 1 ≤ s.length + t.length)
      norm_num at this ⊢; linarith
    · have : ((s.length + t.length : ℕ) : ℝ) ≤ 16 := by exact_mod_cast hn
      norm_num at this ⊢; linarith
  have c1 := (v1.mono (k' := 16) (n' := 44) (by linarith) (by norm_num)).add
    (v2.mono (k' := 16) (n' := 44) (by linarith) (by norm_num)) (by norm_num) (by norm_num)
  have c2 := (n1.mono (k' := 16) (n' := 5) (by norm_num) (by norm_num)).mulAdd
    ((hβ'.sq L (by norm_num) (by norm_num)).mono (k' := 1) (n' := 40) (by norm_num) (by norm_num))
    (c1.mono (k' := 17) (n' := 45) (by norm_num) (by norm_num))
    (by norm_num) (by norm_num) (by norm_num) (by norm_num)
  have c3 := c2.sqrt (by norm_num) (by norm_num)
  have p1 := v1.2.pos
  have p2 := v2.2.pos
  have e : tsC c.beta.toR (side (s.map tsExact)) (side (t.map tsExact))
      = √(((s.length + t.length : ℕ) : ℝ) * c.beta.toR ^ 2 + ((s.map fun a => a.uncertainty.toR ^ 2).sum
        + (t.map fun a => a.uncertainty.toR ^ 2).sum)) := by
    rw [tsC]
    congr 1
    simp only [side, List.length_map, List.map_map, Function.comp_def, tsExact]
    ring
  constructor
  · rw [e]; exact c3.mono (by norm_num) (by norm_num)
  · rw [e, Real.sq_sqrt (by positivity)]

/-- The members are part of the spread. -/
theorem mate_spread {s t : List (TrueSkillRating (FP E))} {β C : ℝ} (hs : s ≠ []) (ht : t ≠ [])
    (hC : C ^ 2 = ((s.length + t.length : ℕ) : ℝ) * β ^ 2 + ((s.map fun a => a.uncertainty.toR ^ 2).sum
        + (t.map fun a => a.uncertainty.toR ^ 2).sum)) {a : TrueSkillRating (FP E)} (ha : a ∈ s ∨ a ∈ t) :
    a.uncertainty.toR ^ 2 + 2 * β ^ 2 ≤ C ^ 2 := by
  have ls : 0 < s.length := List.length_pos_iff.2 hs
  have lt : 0 < t.length := List.length_pos_iff.2 ht
  have h2 : (2 : ℝ) ≤ ((s.length + t.length : ℕ) : ℝ) := by exact_mod_cast (by omega : 2 ≤ s.length + t.length)
  have h0 : ∀ l : List (TrueSkillRating (FP E)), 0 ≤ (l.map fun a => a.uncertainty.toR ^ 2).sum := by
    intro l
    refine List.sum_nonneg ?_
    intro x hx
    obtain ⟨y, -, rfl⟩ := List.mem_map.1 hx
    positivity
  have h1 : ∀ l : List (TrueSkillRating (FP E)), a ∈ l →
      a.uncertainty.toR ^ 2 ≤ (l.map fun a => a.uncertainty.toR ^ 2).sum := by
    intro l hl
    refine List.single_le_sum ?_ _ (List.mem_map.2 ⟨a, hl, rfl⟩)
    intro x hx
    obtain ⟨y, -, rfl⟩ := List.mem_map.1 hx
    positivity
  have h3 := mul_le_mul_of_nonneg_right h2 (_root_.sq_nonneg β)
  rw [hC]
  have hs0 := h0 s
  have ht0 := h0 t
  rcases ha with h | h
  · have := h1 s h; linarith
  · have := h1 t h; linarith

/-- The difference of the sums of the ratings. -/
theorem team_delta {s t : List (TrueSkillRating (FP E))} {c : TrueSkillConfig (FP E)} {C : ℝ}
    (hβ : Between (1 / 2 ^ 20) (2 ^ 20) c.beta) (hs : s ≠ []) (ht : t ≠ []) (hn : s.length + t.length ≤ 16)
    (hs' : ∀ a ∈ s, TsMember c a) (ht' : ∀ a ∈ t, TsMember c a) (hC0 : Mid 50 C)
    (hC2 : ((s.length + t.length : ℕ) : ℝ) * c.beta.toR ^ 2 ≤ C ^ 2)
    (h : |(side (s.map tsExact)).μ - (side (t.map tsExact)).μ| ≤ 28 * C) :
    Near (5 * C / 2 ^ 41) (teamRating s - teamRating t)
      ((side (s.map tsExact)).μ - (side (t.map tsExact)).μ) := by
  have hC := hC0.pos
  have hβ0 := (FP.Spec.Between.ap' hβ).2.pos
  have b1 := hβ.2.1
  have b2 := hβ.2.2
  have ls : 0 < s.length := List.length_pos_iff.2 hs
  have lt : 0 < t.length := List.length_pos_iff.2 ht
  have tiny : (1 : ℝ) / 2 ^ 800 ≤ 1 / 2 ^ 20 :=
    one_div_le_one_div_of_le (by positivity) (pow_le_pow_right₀ (by norm_num) (by norm_num))
  have hM1 : 1 / 2 ^ 800 ≤ 64 * c.beta.toR := tiny.trans (by norm_num at b1 ⊢; linarith)
  have hM2 : 64 * c.beta.toR ≤ 2 ^ 800 :=
    le_trans (b := 2 ^ 30) (by norm_num at b2 ⊢; linarith) (pow_le_pow_right₀ (by norm_num) (by norm_num))
  have m1 := (near_sum_of s (fun a => a.rating) hM1 hM2 s.length le_rfl (by omega)
    (fun a ha => ⟨(hs' a ha).1.1, (hs' a ha).2⟩)).1
  have m2 := (near_sum_of t (fun a => a.rating) hM1 hM2 t.length le_rfl (by omega)
    (fun a ha => ⟨(ht' a ha).1.1, (ht' a ha).2⟩)).1
  have es : (side (s.map tsExact)).μ = (s.map fun a => a.rating.toR).sum := by
    simp only [side, List.map_map, Function.comp_def, tsExact]
  have et : (side (t.map tsExact)).μ = (t.map fun a => a.rating.toR).sum := by
    simp only [side, List.map_map, Function.comp_def, tsExact]
  rw [← es] at m1
  rw [← et] at m2
  set x : ℝ := (s.length : ℝ) with hx
  set y : ℝ := (t.length : ℝ) with hy
  have x1 : 1 ≤ x := by rw [hx]; exact_mod_cast ls
  have y1 : 1 ≤ y := by rw [hy]; exact_mod_cast lt
  have hxy : x + y ≤ 16 := by rw [hx, hy]; exact_mod_cast hn
  have hN : ((s.length + t.length : ℕ) : ℝ) = x + y := Nat.cast_add _ _
  rw [hN] at hC2
  have hb : (x + y) ^ 2 * c.beta.toR ≤ 64 * C := by
    refine abs_le_of_sq_le_sq' ?_ (by positivity) |>.2
    have h1 : (x + y) ^ 3 ≤ 16 ^ 3 := pow_le_pow_left₀ (by linarith) hxy 3
    calc ((x + y) ^ 2 * c.beta.toR) ^ 2 = (x + y) ^ 3 * ((x + y) * c.beta.toR ^ 2) := by ring
      _ ≤ 16 ^ 3 * C ^ 2 := mul_le_mul h1 hC2 (by positivity) (by positivity)
      _ = (64 * C) ^ 2 := by ring
  have herr : x * ((x + 1) * (64 * c.beta.toR) / 2 ^ 51) + y * ((y + 1) * (64 * c.beta.toR) / 2 ^ 51)
      ≤ 64 * C * (64 / 2 ^ 51) := by
    rw [show x * ((x + 1) * (64 * c.beta.toR) / 2 ^ 51) + y * ((y + 1) * (64 * c.beta.toR) / 2 ^ 51)
          = (x ^ 2 + y ^ 2 + x + y) * c.beta.toR * (64 / 2 ^ 51) by ring]
    refine mul_le_mul_of_nonneg_right ?_ (by positivity)
    refine le_trans (mul_le_mul_of_nonneg_right ?_ hβ0.le) hb
    nlinarith
  have k1 := hC0.1
  have k2 := hC0.2
  refine (small_sub m1 m2 (M := 29 * C) ?_ ?_ ?_).mono ?_
  · norm_num at herr ⊢; linarith
  · exact (one_div_le_one_div_of_le (by positivity) (pow_le_pow_right₀ (by norm_num) (by norm_num : 50 ≤ 900))).trans
      (by linarith)
  · refine le_trans (b := 2 ^ 60) ?_ (pow_le_pow_right₀ (by norm_num) (by norm_num))
    norm_num at k2 ⊢; linarith
  · norm_num at herr ⊢; linarith

theorem updateTeam_get (l : List (TrueSkillRating (FP E))) (v w c τ m : FP E) {i : ℕ} (hi : i < l.length) :
    (updateTeam l v w c τ m)[i]? = some
      { rating := newRating l[i].rating l[i].uncertainty v c τ m
        uncertainty := newUncertainty l[i].uncertainty c w τ } := by
  simp [updateTeam, List.getElem?_map, List.getElem?_eq_getElem hi]

theorem sq_sum_nonneg (l : List (TrueSkillRating (FP E))) : 0 ≤ (l.map fun a => a.uncertainty.toR ^ 2).sum := by
  refine List.sum_nonneg ?_
  intro x hx
  obtain ⟨y, -, rfl⟩ := List.mem_map.1 hx
  positivity

section
variable {Ω : Type*} [MeasurableSpace Ω] {P : Measure Ω} [IsProbabilityMeasure P]

/-- The computed draw margin of a game of `n` players. -/
def IsMarginOf (c : TrueSkillConfig (FP E)) (n : ℕ) (ε : ℝ) : Prop :=
  (drawMargin c.drawProbability c.beta (Flt.ofNat n : FP E)).isFinite ∧
    (drawMargin c.drawProbability c.beta (Flt.ofNat n : FP E)).toR = ε

/-- Teams of together at most 16 players after a win or a loss: every member's new rating and
uncertainty are the mean and standard deviation of the skill given the result. -/
theorem C125_trueskill_two_teams_decided (L : E.Lib) (A : E.Accurate) (s t : List (TrueSkillRating (FP E)))
    (c : TrueSkillConfig (FP E)) {o : Outcomes} (ho : o ≠ .DRAW) (hβ : Between (1 / 2 ^ 20) (2 ^ 20) c.beta)
    (hs : s ≠ []) (ht : t ≠ []) (hn : s.length + t.length ≤ 16)
    (hs' : ∀ a ∈ s, TsMate c a) (ht' : ∀ a ∈ t, TsMate c a) (hτ : c.dynamicsFactor.isFinite) {f : ℝ}
    (hf : f ^ 2 + c.dynamicsFactor.toR ^ 2 = c.beta.toR ^ 2)
    {X N : Fin (s.map tsExact).length ⊕ Fin (t.map tsExact).length → Ω → ℝ}
    (h : IsContest P X N (both (s.map tsExact) (t.map tsExact) (·.rating))
      (both (s.map tsExact) (t.map tsExact) (fun p => p.uncertainty ^ 2 + c.dynamicsFactor.toR ^ 2)) f)
    {ε z : ℝ} (hε : IsMarginOf c (s.length + t.length) ε)
    (hz : z = (|(side (s.map tsExact)).μ - (side (t.map tsExact)).μ| + |ε|)
      / tsC c.beta.toR (side (s.map tsExact)) (side (t.map tsExact))) (hz' : z ≤ 27)
    {H : Set Ω} (hH : H = happened o ε (lead (versus (s.map tsExact).length (t.map tsExact).length) X N)) :
    (∀ i : Fin (s.map tsExact).length, ∃ p', (trueskillTwoTeams s t o c).1[i]? = some p' ∧
      AfterDecision (s.map tsExact)[i].rating (s.map tsExact)[i].uncertainty c.beta.toR
        ((s.map tsExact)[i].uncertainty ^ 2 + c.dynamicsFactor.toR ^ 2) z
        (∫ ω, X (.inl i) ω ∂P[|H]) (Var[X (.inl i); P[|H]]) p') ∧
    (∀ i : Fin (t.map tsExact).length, ∃ p', (trueskillTwoTeams s t o c).2[i]? = some p' ∧
      AfterDecision (t.map tsExact)[i].rating (t.map tsExact)[i].uncertainty c.beta.toR
        ((t.map tsExact)[i].uncertainty ^ 2 + c.dynamicsFactor.toR ^ 2) z
        (∫ ω, X (.inr i) ω ∂P[|H]) (Var[X (.inr i); P[|H]]) p') := by
  obtain ⟨hm, hm'⟩ := hε
  obtain ⟨hc, hC2⟩ := team_spread L hβ hs ht hn hs' ht'
  have hC0 := hc.2.pos
  have hc2 := versus_var (s.map tsExact) (t.map tsExact) hf
  set C := tsC c.beta.toR (side (s.map tsExact)) (side (t.map tsExact)) with hC
  have hv : ∀ i, 0 ≤ both (s.map tsExact) (t.map tsExact)
      (fun p => p.uncertainty ^ 2 + c.dynamicsFactor.toR ^ 2) i := by
    rintro (i | i) <;> simp only [both, Sum.elim_inl, Sum.elim_inr] <;> positivity
  have hβ0 := (FP.Spec.Between.ap' hβ).2.pos
  have hτβ : c.dynamicsFactor.toR ^ 2 ≤ c.beta.toR ^ 2 := by nlinarith [_root_.sq_nonneg f]
  have hb' : |(side (s.map tsExact)).μ - (side (t.map tsExact)).μ| + |ε| ≤ 28 * C := by
    have : z ≤ 28 := by linarith
    rwa [hz, div_le_iff₀ hC0] at this
  have hD : |(side (s.map tsExact)).μ - (side (t.map tsExact)).μ| ≤ 28 * C := by linarith [abs_nonneg ε]
  have hCn : ((s.length + t.length : ℕ) : ℝ) * c.beta.toR ^ 2 ≤ C ^ 2 := by
    have := sq_sum_nonneg s; have := sq_sum_nonneg t
    rw [hC2]; linarith
  have els : (s.map tsExact).length = s.length := List.length_map ..
  have elt : (t.map tsExact).length = t.length := List.length_map ..
  have hmem : ∀ i : Fin (s.map tsExact).length, s[(i : ℕ)]'(by rw [← els]; exact i.2) ∈ s := fun i => List.getElem_mem _
  have hmet : ∀ i : Fin (t.map tsExact).length, t[(i : ℕ)]'(by rw [← elt]; exact i.2) ∈ t := fun i => List.getElem_mem _
  have hcond : ¬ ((s.isEmpty || t.isEmpty) = true) := by
    simp [List.isEmpty_iff, hs, ht]
  cases o with
  | DRAW => exact absurd rfl ho
  | WIN =>
    have hd := team_delta hβ hs ht hn (fun a ha => (hs' a ha).member) (fun a ha => (ht' a ha).member) hc.2 hCn hD
    rw [← versus_mean (s.map tsExact) (t.map tsExact)] at hd hb' hz
    subst hm' hH
    have hp := win_far h hv _ hC0 hc2 (hz ▸ hz')
    rw [trueskillTwoTeams, if_neg hcond]
    constructor
    · intro i
      have ha := hs' _ (hmem i)
      have p0 := win_player_fp L A h hv _ hc2 hd hm hc le_rfl hb' hp (j := .inl i) ha.member.1.2 hβ0 hβ.2.2
        ha.uncertainty hτ hτβ (mate_spread hs ht hC2 (.inl (hmem i))) ha.member.1.1 (ha.player hβ).rating
        (by simp [both, tsExact]) (by simp [both, tsExact]) (κ := 1.0) one_near (by simp [versus])
      rw [← hz] at p0
      refine ⟨_, updateTeam_get _ _ _ _ _ _ (by rw [← els]; exact i.2), ?_⟩
      simp only [List.getElem_map, tsExact, Fin.getElem_fin]
      exact ⟨p0.1, p0.2.1, p0.2.2.1, p0.2.2.2⟩
    · intro i
      have ha := ht' _ (hmet i)
      have p0 := win_player_fp L A h hv _ hc2 hd hm hc le_rfl hb' hp (j := .inr i) ha.member.1.2 hβ0 hβ.2.2
        ha.uncertainty hτ hτβ (mate_spread hs ht hC2 (.inr (hmet i))) ha.member.1.1 (ha.player hβ).rating
        (by simp [both, tsExact]) (by simp [both, tsExact]) (κ := -1.0) neg_one_near (by simp [versus])
      rw [← hz] at p0
      refine ⟨_, updateTeam_get _ _ _ _ _ _ (by rw [← elt]; exact i.2), ?_⟩
      simp only [List.getElem_map, tsExact, Fin.getElem_fin]
      exact ⟨p0.1, p0.2.1, p0.2.2.1, p0.2.2.2⟩
  | LOSS =>
    have hset : {ω | ε < lead (fun i => -versus (s.map tsExact).length (t.map tsExact).length i) X N ω}
        = happened .LOSS ε (lead (versus (s.map tsExact).length (t.map tsExact).length) X N) := by
      ext ω
      simp only [happened, Set.mem_ofPred_eq, lead_neg]
      constructor <;> intro h <;> linarith
    have hc2' : C ^ 2 = ∑ i, (-versus (s.map tsExact).length (t.map tsExact).length i) ^ 2
        * (both (s.map tsExact) (t.map tsExact) (fun p => p.uncertainty ^ 2 + c.dynamicsFactor.toR ^ 2) i
          + f ^ 2) := by
      simp only [neg_sq]; exact hc2
    have hd := team_delta hβ ht hs (by omega) (fun a ha => (ht' a ha).member) (fun a ha => (hs' a ha).member) hc.2 (by rw [Nat.add_comm]; exact hCn)
      (by rw [abs_sub_comm]; exact hD)
    have em : ∑ i, -versus (s.map tsExact).length (t.map tsExact).length i
        * both (s.map tsExact) (t.map tsExact) (·.rating) i
        = (side (t.map tsExact)).μ - (side (s.map tsExact)).μ := by
      simp only [neg_mul, Finset.sum_neg_distrib, versus_mean]; ring
    rw [abs_sub_comm] at hb' hz
    rw [← em] at hd hb' hz
    rw [← hset] at hH
    subst hm' hH
    have hp := win_far h hv (fun i => -versus (s.map tsExact).length (t.map tsExact).length i) hC0 hc2' (hz ▸ hz')
    rw [trueskillTwoTeams, if_neg hcond]
    constructor
    · intro i
      have ha := hs' _ (hmem i)
      have p0 := win_player_fp L A h hv (fun i => -versus (s.map tsExact).length (t.map tsExact).length i) hc2' hd hm hc le_rfl hb' hp (j := .inl i) ha.member.1.2 hβ0 hβ.2.2
        ha.uncertainty hτ hτβ (mate_spread hs ht hC2 (.inl (hmem i))) ha.member.1.1 (ha.player hβ).rating
        (by simp [both, tsExact]) (by simp [both, tsExact]) (κ := -1.0) neg_one_near (by simp [versus])
      rw [← hz] at p0
      refine ⟨_, updateTeam_get _ _ _ _ _ _ (by rw [← els]; exact i.2), ?_⟩
      simp only [List.getElem_map, tsExact, Fin.getElem_fin]
      exact ⟨p0.1, p0.2.1, p0.2.2.1, p0.2.2.2⟩
    · intro i
      have ha := ht' _ (hmet i)
      have p0 := win_player_fp L A h hv (fun i => -versus (s.map tsExact).length (t.map tsExact).length i) hc2' hd hm hc le_rfl hb' hp (j := .inr i) ha.member.1.2 hβ0 hβ.2.2
        ha.uncertainty hτ hτβ (mate_spread hs ht hC2 (.inr (hmet i))) ha.member.1.1 (ha.player hβ).rating
        (by simp [both, tsExact]) (by simp [both, tsExact]) (κ := 1.0) (by
          rw [show -versus (s.map tsExact).length (t.map tsExact).length (.inr i) = 1 by simp [versus]]; exact one_near) (by simp [versus])
      rw [← hz] at p0
      refine ⟨_, updateTeam_get _ _ _ _ _ _ (by rw [← elt]; exact i.2), ?_⟩
      simp only [List.getElem_map, tsExact, Fin.getElem_fin]
      exact ⟨p0.1, p0.2.1, p0.2.2.1, p0.2.2.2⟩

/-- The same after a draw. -/
theorem C125_trueskill_two_teams_drawn (L : E.Lib) (A : E.Accurate) (s t : List (TrueSkillRating (FP E)))
    (c : TrueSkillConfig (FP E)) (hβ : Between (1 / 2 ^ 20) (2 ^ 20) c.beta)
    (hs : s ≠ []) (ht : t ≠ []) (hn : s.length + t.length ≤ 16)
    (hs' : ∀ a ∈ s, TsMate c a) (ht' : ∀ a ∈ t, TsMate c a) (hτ : c.dynamicsFactor.isFinite) {f : ℝ}
    (hf : f ^ 2 + c.dynamicsFactor.toR ^ 2 = c.beta.toR ^ 2)
    {X N : Fin (s.map tsExact).length ⊕ Fin (t.map tsExact).length → Ω → ℝ}
    (h : IsContest P X N (both (s.map tsExact) (t.map tsExact) (·.rating))
      (both (s.map tsExact) (t.map tsExact) (fun p => p.uncertainty ^ 2 + c.dynamicsFactor.toR ^ 2)) f)
    {ε z : ℝ} (hε : IsMarginOf c (s.length + t.length) ε) (hε0 : 0 < ε)
    (hz : z = (|(side (s.map tsExact)).μ - (side (t.map tsExact)).μ| + ε)
      / tsC c.beta.toR (side (s.map tsExact)) (side (t.map tsExact))) (hz' : z ≤ 28)
    {H : Set Ω} (hH : H = happened .DRAW ε (lead (versus (s.map tsExact).length (t.map tsExact).length) X N))
    (hp : (1 + 5 * z ^ 2) / 4000 ≤ P.real H) :
    (∀ i : Fin (s.map tsExact).length, ∃ p', (trueskillTwoTeams s t .DRAW c).1[i]? = some p' ∧
      AfterDraw (s.map tsExact)[i].rating (s.map tsExact)[i].uncertainty c.beta.toR
        ((s.map tsExact)[i].uncertainty ^ 2 + c.dynamicsFactor.toR ^ 2) z
        (P.real H) (∫ ω, X (.inl i) ω ∂P[|H]) (Var[X (.inl i); P[|H]]) p') ∧
    (∀ i : Fin (t.map tsExact).length, ∃ p', (trueskillTwoTeams s t .DRAW c).2[i]? = some p' ∧
      AfterDraw (t.map tsExact)[i].rating (t.map tsExact)[i].uncertainty c.beta.toR
        ((t.map tsExact)[i].uncertainty ^ 2 + c.dynamicsFactor.toR ^ 2) z
        (P.real H) (∫ ω, X (.inr i) ω ∂P[|H]) (Var[X (.inr i); P[|H]]) p') := by
  obtain ⟨hm, hm'⟩ := hε
  obtain ⟨hc, hC2⟩ := team_spread L hβ hs ht hn hs' ht'
  have hC0 := hc.2.pos
  have hc2 := versus_var (s.map tsExact) (t.map tsExact) hf
  set C := tsC c.beta.toR (side (s.map tsExact)) (side (t.map tsExact)) with hC
  have hv : ∀ i, 0 ≤ both (s.map tsExact) (t.map tsExact)
      (fun p => p.uncertainty ^ 2 + c.dynamicsFactor.toR ^ 2) i := by
    rintro (i | i) <;> simp only [both, Sum.elim_inl, Sum.elim_inr] <;> positivity
  have hβ0 := (FP.Spec.Between.ap' hβ).2.pos
  have hτβ : c.dynamicsFactor.toR ^ 2 ≤ c.beta.toR ^ 2 := by nlinarith [_root_.sq_nonneg f]
  have hb' : |(side (s.map tsExact)).μ - (side (t.map tsExact)).μ| + ε ≤ 28 * C := by
    rwa [hz, div_le_iff₀ hC0] at hz'
  have hD : |(side (s.map tsExact)).μ - (side (t.map tsExact)).μ| ≤ 28 * C := by linarith
  have hCn : ((s.length + t.length : ℕ) : ℝ) * c.beta.toR ^ 2 ≤ C ^ 2 := by
    have := sq_sum_nonneg s; have := sq_sum_nonneg t
    rw [hC2]; linarith
  have els : (s.map tsExact).length = s.length := List.length_map ..
  have elt : (t.map tsExact).length = t.length := List.length_map ..
  have hmem : ∀ i : Fin (s.map tsExact).length, s[(i : ℕ)]'(by rw [← els]; exact i.2) ∈ s := fun i => List.getElem_mem _
  have hmet : ∀ i : Fin (t.map tsExact).length, t[(i : ℕ)]'(by rw [← elt]; exact i.2) ∈ t := fun i => List.getElem_mem _
  have hcond : ¬ ((s.isEmpty || t.isEmpty) = true) := by
    simp [List.isEmpty_iff, hs, ht]
  have hd := team_delta hβ hs ht hn (fun a ha => (hs' a ha).member) (fun a ha => (ht' a ha).member) hc.2 hCn hD
  rw [← versus_mean (s.map tsExact) (t.map tsExact)] at hd hb' hz
  have hp' : 1 + 5 * z ^ 2 ≤ 4000 * P.real H := by linarith
  rw [hz] at hp'
  subst hm' hH
  rw [trueskillTwoTeams, if_neg hcond]
  constructor
  · intro i
    have ha := hs' _ (hmem i)
    have p0 := draw_player_fp L A h hv _ hc2 hd hm hε0 hc le_rfl hb' hp' (j := .inl i) ha.member.1.2 hβ0 hβ.2.2
      ha.uncertainty hτ hτβ (mate_spread hs ht hC2 (.inl (hmem i))) ha.member.1.1 (ha.player hβ).rating
      (by simp [both, tsExact]) (by simp [both, tsExact]) (κ := 1.0) one_near (by simp [versus])
    rw [← hz] at p0
    refine ⟨_, updateTeam_get _ _ _ _ _ _ (by rw [← els]; exact i.2), ?_⟩
    simp only [List.getElem_map, tsExact, Fin.getElem_fin]
    exact ⟨p0.1, p0.2.1, p0.2.2.1, p0.2.2.2⟩
  · intro i
    have ha := ht' _ (hmet i)
    have p0 := draw_player_fp L A h hv _ hc2 hd hm hε0 hc le_rfl hb' hp' (j := .inr i) ha.member.1.2 hβ0 hβ.2.2
      ha.uncertainty hτ hτβ (mate_spread hs ht hC2 (.inr (hmet i))) ha.member.1.1 (ha.player hβ).rating
      (by simp [both, tsExact]) (by simp [both, tsExact]) (κ := -1.0) neg_one_near (by simp [versus])
    rw [← hz] at p0
    refine ⟨_, updateTeam_get _ _ _ _ _ _ (by rw [← elt]; exact i.2), ?_⟩
    simp only [List.getElem_map, tsExact, Fin.getElem_fin]
    exact ⟨p0.1, p0.2.1, p0.2.2.1, p0.2.2.2⟩

end

/-! ### The hypotheses are satisfiable -/

theorem tom_mate : TsMate cfg4 tom :=
  ⟨⟨tom_player.usual, by rw [tom_rating, cfg4_beta]; norm_num⟩, tom_player.uncertainty⟩

theorem twos_spread : tsC cfg4.beta.toR (side ([tom, tom].map tsExact)) (side ([tom, tom].map tsExact)) = √320 := by
  rw [tsC]
  congr 1
  simp [side, tsExact, tom_uncertainty, cfg4_beta]; norm_num

theorem four_margin : ∃ ε, IsMarginOf cfg4 4 ε ∧ |ε| ≤ 80 ∧ |erfcExact (ε / (√2 * 8)) - (1 - cfg4.drawProbability.toR)|
    ≤ 7e-7 * (1 - cfg4.drawProbability.toR) := by
  obtain ⟨⟨nf, δ, hδ, e⟩, n1, n2⟩ := ofNat_ap (E := ieee) (n := 4) (by norm_num) (by norm_num)
  have hδ0 : δ = 0 := by simpa using hδ
  rw [hδ0, add_zero, mul_one] at e
  have s4 : √(4 : ℝ) = 2 := by rw [show (4 : ℝ) = 2 ^ 2 by norm_num, Real.sqrt_sq (by norm_num)]
  obtain ⟨m1, m2, m3⟩ := margin_fp ieee_lib ieee_accurate ieee_logAccurate cfg4_probability.1.1
    cfg4_probability.1.2.1 cfg4_probability.1.2.2 cfg4_usual (N := Flt.ofNat 4)
    ⟨nf, by rw [e]; norm_num, by rw [e]; norm_num⟩
  rw [e, cfg4_beta] at m2 m3
  push_cast at m2 m3
  rw [s4] at m2 m3
  refine ⟨_, ⟨m1, rfl⟩, m2.trans (by norm_num), ?_⟩
  rwa [mul_assoc, show (2 : ℝ) * 4 = 8 by norm_num] at m3

/-- Two against two at 25 ± 8 with a draw probability of 0.1: a loss. -/
example : ∃ (X N : Fin ([tom, tom].map tsExact).length ⊕ Fin ([tom, tom].map tsExact).length → _ → ℝ)
    (P : Measure ((Fin ([tom, tom].map tsExact).length ⊕ Fin ([tom, tom].map tsExact).length)
      ⊕ (Fin ([tom, tom].map tsExact).length ⊕ Fin ([tom, tom].map tsExact).length) → ℝ)) (ε z : ℝ)
    (H : Set _), IsProbabilityMeasure P ∧ H = happened .LOSS ε (lead (versus _ _) X N) ∧
    ∃ p', (trueskillTwoTeams [tom, tom] [tom, tom] .LOSS cfg4).2[1]? = some p' ∧
      AfterDecision 25 8 4 64 z (∫ ω, X (.inr ⟨1, by simp⟩) ω ∂P[|H]) (Var[X (.inr ⟨1, by simp⟩); P[|H]]) p' := by
  obtain ⟨X, N, P, hP, h⟩ := exists_contest (both ([tom, tom].map tsExact) ([tom, tom].map tsExact) (·.rating))
    (both ([tom, tom].map tsExact) ([tom, tom].map tsExact)
      (fun p => p.uncertainty ^ 2 + cfg4.dynamicsFactor.toR ^ 2)) cfg4.beta.toR
  obtain ⟨ε, hε, hb, -⟩ := four_margin
  have hs : (17 : ℝ) ≤ √320 := by rw [Real.le_sqrt' (by norm_num)]; norm_num
  obtain ⟨p', h1, h2⟩ := (C125_trueskill_two_teams_decided ieee_lib ieee_accurate [tom, tom] [tom, tom] cfg4
    (o := .LOSS) (by decide) cfg4_usual (by simp) (by simp) (by simp) (by simp [tom_mate]) (by simp [tom_mate])
    cfg4_dynamics.1 (f := cfg4.beta.toR) (by rw [cfg4_dynamics.2]; norm_num) h hε rfl (by
      rw [sub_self, abs_zero, zero_add, twos_spread, div_le_iff₀ (by linarith)]
      linarith) rfl).2 ⟨1, by simp⟩
  simp only [List.map_cons, List.map_nil, Fin.getElem_fin, List.getElem_cons_succ, List.getElem_cons_zero, tsExact,
    tom_rating, tom_uncertainty, cfg4_beta, cfg4_dynamics.2] at h2
  norm_num at h2
  exact ⟨X, N, P, ε, _, _, hP, rfl, p', h1, h2⟩

/-- The same teams, drawing. -/
example : ∃ (X N : Fin ([tom, tom].map tsExact).length ⊕ Fin ([tom, tom].map tsExact).length → _ → ℝ)
    (P : Measure ((Fin ([tom, tom].map tsExact).length ⊕ Fin ([tom, tom].map tsExact).length)
      ⊕ (Fin ([tom, tom].map tsExact).length ⊕ Fin ([tom, tom].map tsExact).length) → ℝ)) (ε z : ℝ)
    (H : Set _), IsProbabilityMeasure P ∧ H = happened .DRAW ε (lead (versus _ _) X N) ∧
    ∃ p', (trueskillTwoTeams [tom, tom] [tom, tom] .DRAW cfg4).1[1]? = some p' ∧
      AfterDraw 25 8 4 64 z (P.real H) (∫ ω, X (.inl ⟨1, by simp⟩) ω ∂P[|H]) (Var[X (.inl ⟨1, by simp⟩); P[|H]]) p' := by
  obtain ⟨X, N, P, hP, h⟩ := exists_contest (both ([tom, tom].map tsExact) ([tom, tom].map tsExact) (·.rating))
    (both ([tom, tom].map tsExact) ([tom, tom].map tsExact)
      (fun p => p.uncertainty ^ 2 + cfg4.dynamicsFactor.toR ^ 2)) cfg4.beta.toR
  obtain ⟨ε, hε, hb, m3⟩ := four_margin
  have hp := cfg4_probability.2
  have m3' := abs_le.1 m3
  have q0 : (0 : ℝ) < √2 := by positivity
  have q1 : (1.41 : ℝ) ≤ √2 := by rw [Real.le_sqrt' (by norm_num)]; norm_num
  -- the margin is not too small
  have hz : 0.079 ≤ ε / (√2 * 8) := by
    by_contra hlt
    rw [not_le] at hlt
    have h1 := erfcExact_strictAnti.antitone hlt.le
    have h2 := (erfc_linear (x := 0.079) (by norm_num)).1
    norm_num at h1 h2 m3' hp
    linarith [m3'.2, hp.1]
  have he1 : 0.88 ≤ ε := by
    rw [le_div_iff₀ (by positivity)] at hz
    norm_num at hz q1 ⊢; linarith
  have hε0 : 0 < ε := by norm_num at he1; linarith
  have s0 : (0 : ℝ) < √320 := by positivity
  have s1 : (17 : ℝ) ≤ √320 := by rw [Real.le_sqrt' (by norm_num)]; norm_num
  have s2 : √2 * √320 ≤ (25.3 : ℝ) := by
    rw [← Real.sqrt_mul (by norm_num), Real.sqrt_le_left (by norm_num)]; norm_num
  have hC2 := versus_var ([tom, tom].map tsExact) ([tom, tom].map tsExact) (f := cfg4.beta.toR)
    (τ := cfg4.dynamicsFactor.toR) (β := cfg4.beta.toR) (by rw [cfg4_dynamics.2]; norm_num)
  rw [twos_spread] at hC2
  have hv : ∀ i, 0 ≤ both ([tom, tom].map tsExact) ([tom, tom].map tsExact)
      (fun p => p.uncertainty ^ 2 + cfg4.dynamicsFactor.toR ^ 2) i := by
    rintro (i | i) <;> simp only [both, Sum.elim_inl, Sum.elim_inr] <;> positivity
  have hP1 := (h.posterior_draw hv _ s0 hC2 hε0 rfl rfl).1
  rw [versus_mean, sub_self, zero_div, sub_zero, sub_zero] at hP1
  have hPr : 0.035 ≤ P.real (happened .DRAW ε (lead (versus ([tom, tom].map tsExact).length
      ([tom, tom].map tsExact).length) X N)) := by
    rw [happened, hP1]
    have e : erfcExact (ε / (√2 * √320)) = 2 * Phi (-(ε / √320)) := by
      rw [erfcExact]
      congr 3
      field_simp
    have hx : 0.034 ≤ ε / (√2 * √320) := by
      rw [le_div_iff₀ (by positivity)]
      norm_num at he1 s2 ⊢; linarith
    have h1 := erfcExact_strictAnti.antitone hx
    have h2 := (erfc_linear (x := 0.034) (by norm_num)).2 (by norm_num)
    rw [e] at h1
    have h3 := Phi_neg (ε / √320)
    norm_num at h1 h2 ⊢; linarith
  have ht0 : 0 ≤ ε / √320 := by positivity
  have hb1 := (abs_le.1 hb).2
  have ht : ε / √320 ≤ 5 := by rw [div_le_iff₀ s0]; linarith
  have ht2 : (ε / √320) ^ 2 ≤ 20 := by
    rw [div_pow, Real.sq_sqrt (by norm_num), div_le_iff₀ (by norm_num)]
    nlinarith
  obtain ⟨p', h1, h2⟩ := (C125_trueskill_two_teams_drawn ieee_lib ieee_accurate [tom, tom] [tom, tom] cfg4
    cfg4_usual (by simp) (by simp) (by simp) (by simp [tom_mate]) (by simp [tom_mate])
    cfg4_dynamics.1 (f := cfg4.beta.toR) (by rw [cfg4_dynamics.2]; norm_num) h hε hε0 rfl (by
      rw [sub_self, abs_zero, zero_add, twos_spread]; linarith) rfl (by
      rw [sub_self, abs_zero, zero_add, twos_spread]
      norm_num at ht2 hPr ⊢; linarith)).1 ⟨1, by simp⟩
  simp only [List.map_cons, List.map_nil, Fin.getElem_fin, List.getElem_cons_succ, List.getElem_cons_zero, tsExact,
    tom_rating, tom_uncertainty, cfg4_beta, cfg4_dynamics.2] at h2
  norm_num at h2
  exact ⟨X, N, P, ε, _, _, hP, rfl, p', h1, h2⟩

end TrueSkill
end Skillratings
