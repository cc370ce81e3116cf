import Verif.Proofs.Trace
import Verif.Proofs.TrueSkillMulti
import Verif.Proofs.ChainCore
/-
From `trueskill_multi_team` to the trace of `run_schedule`, over any numbers; and when the
function does not panic.
-/
namespace Skillratings
namespace TrueSkill
namespace Trace
variable {F : Type} [Flt F]

/-! ### Success -/

theorem layer_ok (τ : F) : ∀ (rs : List (TrueSkillRating F)) (i : Nat) (s : Store F),
    (∀ r ∈ rs, ∃ g, prior τ r = .ok g) →
    ∃ fs s', buildRatingLayer τ 0 i rs = .ok fs ∧ priorsDown fs s = .ok s' := by
  intro rs
  induction rs with
  | nil => intro i s _; exact ⟨[], s, rfl, rfl⟩
  | cons r rs ih =>
    intro i s h
    obtain ⟨g, hg⟩ := h r (by simp)
    rw [prior] at hg
    cases hv : Gaussian.withMuSigma r.rating r.uncertainty with
    | error e => rw [hv] at hg; simp at hg
    | ok v =>
      rw [hv] at hg
      simp only at hg
      obtain ⟨fs, s', h1, h2⟩ := ih (i + 1)
        ((s.write (.rating i) ((s (.rating i)).updateValue (0 + i) g)).1) fun q hq =>
          h q (List.mem_cons_of_mem _ hq)
      refine ⟨{ id := 0 + i, var := .rating i, val := v, dynamic := τ } :: fs, s', ?_, ?_⟩
      · rw [buildRatingLayer, hv]; simp only [h1]
      · rw [priorsDown, PriorFactor.down]
        simp only [hg]
        exact h2

theorem run_ok (sizes : List Nat) (sorted : List (List (TrueSkillRating F) × MultiTeamOutcome))
    (R : List (TrueSkillRating F)) (W : List F) (τ β p md : F) (hmd : ((0.0 : F) <? md) = true)
    (h2 : 2 ≤ sorted.length) (hR : ∀ r ∈ R, ∃ g, prior τ r = .ok g) :
    ∃ s, runSchedule sizes sorted R W τ β p md = .ok s := by
  obtain ⟨fs, s', h3, h4⟩ := layer_ok τ R 0 ⟨fun _ => Variable.new⟩ hR
  rw [runSchedule, hmd]
  simp only [Bool.not_true, Bool.false_eq_true, if_false, h3, h4]
  have hne : buildTeamDiffLayer (F := F) (sorted.length - 1)
      (R.length + R.length + sorted.length) ≠ [] := by
    intro h
    have := congrArg List.length h
    simp [buildTeamDiffLayer] at this
    omega
  rw [List.head?_eq_some_head hne, List.getLast?_eq_some_getLast hne]
  exact ⟨_, rfl⟩

/-! ### The layout of sorted teams -/

/-- The layout of sorted teams. -/
def layOf (Z : List (PosTeam F)) (cfg : TrueSkillConfig F) : Lay F where
  m := Z.length
  sz := fun t => ((Z.map (·.team)).getD t []).length
  R := fun i => (Z.map (·.team)).flatten.getD i ⟨0.0, 0.0⟩
  w := fun i => (Z.map (·.weights)).flatten.getD i 0.0
  τ := cfg.dynamicsFactor
  β := cfg.beta

variable (Z : List (PosTeam F)) (cfg : TrueSkillConfig F)

theorem layOf_off (t : Nat) : (layOf Z cfg).off t =
    ∑ u ∈ Finset.range t, ((Z.map (·.team)).getD u []).length := by
  induction t with
  | zero => rfl
  | succ t ih => rw [Lay.off, ih, Finset.sum_range_succ]; rfl

theorem layOf_n : (layOf Z cfg).n = (Z.map (·.team)).flatten.length := by
  rw [Lay.n, layOf_off, ← flatten_length_sum, List.length_map]
  rfl

theorem weights_len (hl : ∀ p ∈ Z, p.weights.length = p.team.length) (u : Nat) :
    ((Z.map (·.weights)).getD u []).length = ((Z.map (·.team)).getD u []).length := by
  by_cases h : u < Z.length
  · simp only [List.getD_eq_getElem?_getD, List.getElem?_map, List.getElem?_eq_getElem h,
      Option.map_some, Option.getD_some]
    exact hl _ (List.getElem_mem h)
  · simp only [List.getD_eq_getElem?_getD, List.getElem?_map,
      List.getElem?_eq_none (Nat.le_of_not_lt h), Option.map_none, Option.getD_none]
    rfl

theorem weights_total (hl : ∀ p ∈ Z, p.weights.length = p.team.length) :
    (Z.map (·.weights)).flatten.length = (Z.map (·.team)).flatten.length := by
  rw [← flatten_length_sum, ← flatten_length_sum, List.length_map, List.length_map]
  exact Finset.sum_congr rfl fun u _ => weights_len Z hl u

theorem layOf_sizes : teamSizes (Z.map fun v => (v.team, v.rank)) =
    (List.range (layOf Z cfg).m).map fun t => (layOf Z cfg).off (t + 1) := by
  rw [teamSizes_eq, List.length_map]
  apply List.map_congr_left
  intro k _
  rw [layOf_off, ← take_sum, ← List.map_take, ← List.map_take, List.map_map, ← List.map_take,
    List.map_map]
  rfl

theorem layOf_player {t x : Nat} {p : PosTeam F} (hp : Z[t]? = some p) (hx : x < p.team.length) :
    (layOf Z cfg).R ((layOf Z cfg).off t + x) = p.team[x] := by
  have e : (Z.map (·.team)).getD t [] = p.team := by
    simp [List.getD_eq_getElem?_getD, hp]
  have h := flatten_getD (⟨0.0, 0.0⟩ : TrueSkillRating F) (Z.map (·.team)) t x (by rw [e]; exact hx)
  rw [← layOf_off Z cfg, e] at h
  refine h.trans ?_
  simp [hx]

theorem layOf_weight (hl : ∀ p ∈ Z, p.weights.length = p.team.length) {t x : Nat} {p : PosTeam F}
    (hp : Z[t]? = some p) (hx : x < p.weights.length) :
    (layOf Z cfg).w ((layOf Z cfg).off t + x) = p.weights[x] := by
  have e : (Z.map (·.weights)).getD t [] = p.weights := by
    simp [List.getD_eq_getElem?_getD, hp]
  have h := flatten_getD (0.0 : F) (Z.map (·.weights)) t x (by rw [e]; exact hx)
  have e2 : (layOf Z cfg).off t = ∑ u ∈ Finset.range t, ((Z.map (·.weights)).getD u []).length := by
    rw [layOf_off]
    exact Finset.sum_congr rfl fun u _ => (weights_len Z hl u).symm
  rw [← e2, e] at h
  refine h.trans ?_
  simp [hx]

theorem core_trace (hl : ∀ p ∈ Z, p.weights.length = p.team.length)
    (g : List (List (TrueSkillRating F))) (h : core Z cfg = .ok g) :
    ∃ s, Nonempty ((layOf Z cfg).Run s) ∧ ∀ t p, Z[t]? = some p → g[t]? =
      some ((List.range p.team.length).map fun x => readRating s ((layOf Z cfg).off t + x)) := by
  rw [core] at h
  split at h
  · simp at h
  · rename_i s hs
    injection h with h
    refine ⟨s, (layOf Z cfg).run s (Z.map fun v => (v.team, v.rank)) cfg.drawProbability 0.0001
      (List.length_map ..) ?_, ?_⟩
    · rw [← layOf_sizes, layOf_n]
      have e1 : (List.range (Z.map (·.team)).flatten.length).map (layOf Z cfg).R
          = (Z.map (·.team)).flatten :=
        (map_range_getD id _ _).trans (List.map_id _)
      have e2 : (List.range (Z.map (·.team)).flatten.length).map (layOf Z cfg).w
          = (Z.map (·.weights)).flatten := by
        rw [← weights_total Z hl]
        exact (map_range_getD id _ _).trans (List.map_id _)
      rw [e1, e2]
      exact hs
    · intro t p hp
      obtain ⟨ht, htp⟩ := List.getElem?_eq_some_iff.1 hp
      have hlens : teamSizes (Z.map fun v => (v.team, v.rank)) =
          (List.range (Z.map fun p => p.team.length).length).map
            fun k => ((Z.map fun p => p.team.length).take (k + 1)).sum := by
        rw [teamSizes_eq]
        simp only [List.length_map, ← List.map_take, List.map_map]
        rfl
      rw [hlens, regroup_eq] at h
      rw [← h, List.getElem?_map, List.getElem?_range (by simpa using ht)]
      simp only [Option.map_some, Option.some.injEq]
      have o : ∀ k, ((Z.map fun p => p.team.length).take k).sum = (layOf Z cfg).off k := by
        intro k
        rw [layOf_off, ← take_sum, List.map_map]; rfl
      rw [o, o, ← layOf_n Z cfg]
      have e : (layOf Z cfg).off (t + 1) = (layOf Z cfg).off t + p.team.length := by
        have : (layOf Z cfg).sz t = p.team.length := by
          simp [layOf, List.getD_eq_getElem?_getD, hp]
        rw [← this]; rfl
      rw [e]
      exact slice_range _ _ _ _ (by
        rw [← e]; exact (layOf Z cfg).off_mono (show t + 1 ≤ Z.length from ht))

/-! ### The function -/

/-- What happened to one team. -/
theorem multi_trace (ts : List (List (TrueSkillRating F) × MultiTeamOutcome))
    (cfg : TrueSkillConfig F) (w : List (List F)) (out : List (List (TrueSkillRating F)))
    (hne : ∀ t ∈ ts, t.1 ≠ []) (hout : trueskillMultiTeam ts cfg (some w) = .ok (.ok out))
    (a : Nat) (team : List (TrueSkillRating F)) (rank : MultiTeamOutcome) (wt : List F)
    (ha : ts[a]? = some (team, rank)) (hwa : w[a]? = some wt) :
    ∃ (d : Lay F) (s : Store F) (_ : d.Run s) (t : Nat), t < d.m ∧ d.sz t = team.length ∧
      d.τ = cfg.dynamicsFactor ∧ d.β = cfg.beta ∧ wt.length = team.length ∧
      (∀ x r, team[x]? = some r → d.R (d.off t + x) = r) ∧
      (∀ x c, wt[x]? = some c → d.w (d.off t + x) = c) ∧
      out[a]? = some ((List.range team.length).map fun x => readRating s (d.off t + x)) := by
  have h0 : ts ≠ [] := by rintro rfl; simp at ha
  cases hw : getWeights (ts.map (·.1)) (some w) with
  | error e =>
    have hemp : ts.isEmpty = false := by cases ts <;> simp_all
    have hany : ts.any (fun t => t.1.isEmpty) = false := by
      rw [List.any_eq_false]
      intro t ht
      simpa using hne t ht
    rw [trueskillMultiTeam, hemp, hany] at hout
    simp [hw] at hout
  | ok ws =>
    obtain ⟨rfl, hlen, hok⟩ := (getWeights_ok _ _ _).1 hw
    rw [multiTeam_eq ts cfg _ ws h0 hne hw] at hout
    split at hout
    · simp at hout
    · rename_i g hg
      have hout' : unsort ((sortTeams (withPos ts ws)).map (·.pos)) g = out := by
        injection hout with h; injection h
      have hlen' : ws.length = ts.length := by simpa using hlen
      set Z := sortTeams (withPos ts ws) with hZ
      have hmem : ∀ p ∈ Z, ts[p.pos]? = some (p.team, p.rank) ∧ ws[p.pos]? = some p.weights :=
        fun p hp => withPos_team ts ws hlen' p ((sortTeams_perm _).mem_iff.1 hp)
      have hl : ∀ p ∈ Z, p.weights.length = p.team.length := by
        intro p hp
        obtain ⟨h1, h2⟩ := hmem p hp
        have hlt : p.pos < (ts.map (·.1)).length := by
          have := (List.getElem?_eq_some_iff.1 h1).1
          simpa using this
        obtain ⟨n, l, h3, h4, h5, -⟩ := hok p.pos hlt
        rw [h2] at h4
        obtain rfl := Option.some.inj h4
        simp only [List.getElem?_map, h1, Option.map_some, Option.some.injEq] at h3
        rw [h5, ← h3]
      have hpos : (Z.map (·.pos)).Perm (List.range ts.length) := by
        rw [← withPos_pos ts ws hlen']
        exact (sortTeams_perm _).map _
      have halt : a < ts.length := (List.getElem?_eq_some_iff.1 ha).1
      obtain ⟨t, ht⟩ := List.mem_iff_getElem?.1 (hpos.mem_iff.2 (List.mem_range.2 halt))
      rw [List.getElem?_map] at ht
      cases hp : Z[t]? with
      | none => rw [hp] at ht; simp at ht
      | some p =>
        rw [hp] at ht
        obtain rfl : p.pos = a := by simpa using ht
        obtain ⟨h1, h2⟩ := hmem p (List.mem_of_getElem? hp)
        rw [ha] at h1
        rw [hwa] at h2
        obtain ⟨rfl, rfl⟩ : team = p.team ∧ rank = p.rank := by
          have := Option.some.inj h1; exact ⟨congrArg Prod.fst this, congrArg Prod.snd this⟩
        obtain rfl : wt = p.weights := Option.some.inj h2
        obtain ⟨s, ⟨r⟩, hr⟩ := core_trace Z cfg hl g hg
        have hlp := hl p (List.mem_of_getElem? hp)
        refine ⟨layOf Z cfg, s, r, t, (List.getElem?_eq_some_iff.1 hp).1, ?_, rfl, rfl, hlp, ?_, ?_, ?_⟩
        · simp [layOf, List.getD_eq_getElem?_getD, hp]
        · intro x q hx
          obtain ⟨hx', rfl⟩ := List.getElem?_eq_some_iff.1 hx
          exact layOf_player Z cfg hp hx'
        · intro x q hx
          obtain ⟨hx', rfl⟩ := List.getElem?_eq_some_iff.1 hx
          exact layOf_weight Z cfg hl hp hx'
        · rw [← hout', unsort_getElem? _ g ts.length hpos ?_ t p.pos (by simp [hp])]
          · exact hr t p hp
          · rw [(core_length Z cfg g hg).1, hZ, (sortTeams_perm _).length_eq]
            simp [withPos, hlen']

/-- The function succeeds. -/
theorem multi_ok (ts : List (List (TrueSkillRating F) × MultiTeamOutcome))
    (cfg : TrueSkillConfig F) (w : Option (List (List F))) (ws : List (List F))
    (hw : getWeights (ts.map (·.1)) w = .ok ws) (h2 : 2 ≤ ts.length) (hne : ∀ t ∈ ts, t.1 ≠ [])
    (hmd : ((0.0 : F) <? 0.0001) = true)
    (hp : ∀ t ∈ ts, ∀ r ∈ t.1, ∃ g, prior cfg.dynamicsFactor r = .ok g) :
    ∃ out, trueskillMultiTeam ts cfg w = .ok (.ok out) ∧
      out.map List.length = ts.map fun t => t.1.length := by
  have h0 : ts ≠ [] := by rintro rfl; simp at h2
  have hlen : ws.length = ts.length := by
    have := getWeights_length _ w ws hw; simpa using this
  rw [multiTeam_eq ts cfg w ws h0 hne hw]
  set Z := sortTeams (withPos ts ws) with hZ
  have hmem : ∀ p ∈ Z, ts[p.pos]? = some (p.team, p.rank) ∧ ws[p.pos]? = some p.weights :=
    fun p hp => withPos_team ts ws hlen p ((sortTeams_perm _).mem_iff.1 hp)
  have hZl : Z.length = ts.length := by
    rw [hZ, (sortTeams_perm _).length_eq]; simp [withPos, hlen]
  obtain ⟨s, hs⟩ := run_ok (teamSizes (Z.map fun v => (v.team, v.rank)))
    (Z.map fun v => (v.team, v.rank)) (Z.map (·.team)).flatten (Z.map (·.weights)).flatten
    cfg.dynamicsFactor cfg.beta cfg.drawProbability 0.0001 hmd (by simpa [hZl] using h2) (by
      intro r hr
      obtain ⟨l, hl, hr⟩ := List.mem_flatten.1 hr
      obtain ⟨p, hp', rfl⟩ := List.mem_map.1 hl
      exact hp _ (List.mem_of_getElem? (hmem p hp').1) r hr)
  have hc : ∃ g, core Z cfg = .ok g := by
    rw [core]; simp only [hs]; exact ⟨_, rfl⟩
  obtain ⟨g, hg⟩ := hc
  rw [hg]
  refine ⟨_, rfl, ?_⟩
  obtain ⟨c1, c2⟩ := core_length Z cfg g hg
  have hpos : (Z.map (·.pos)).Perm (List.range ts.length) := by
    rw [← withPos_pos ts ws hlen]
    exact (sortTeams_perm _).map _
  apply List.ext_getElem?
  intro a
  by_cases halt : a < ts.length
  · obtain ⟨t, ht⟩ := List.mem_iff_getElem?.1 (hpos.mem_iff.2 (List.mem_range.2 halt))
    rw [List.getElem?_map, List.getElem?_map, unsort_getElem? _ g ts.length hpos (by omega) t a ht]
    rw [List.getElem?_map] at ht
    cases hp : Z[t]? with
    | none => rw [hp] at ht; simp at ht
    | some p =>
      rw [hp] at ht
      obtain rfl : p.pos = a := by simpa using ht
      obtain ⟨l, h3, h4⟩ := c2 t p hp
      rw [h3, (hmem p (List.mem_of_getElem? hp)).1]
      simp [h4]
  · rw [List.getElem?_eq_none (by rw [List.length_map, unsort_length]; simp; omega),
      List.getElem?_eq_none (by simpa using Nat.le_of_not_lt halt)]

end Trace
end TrueSkill
end Skillratings
