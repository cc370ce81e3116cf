import Verif.Proofs.TrueSkillMulti
import Mathlib.Data.List.OfFn
import Mathlib.Data.List.FinRange
import Mathlib.Logic.Equiv.Basic
import Mathlib.Data.Fin.VecNotation
/-
Properties C69 and C71 of `trueskill_multi_team`, in any arithmetic.
-/
namespace Skillratings
namespace TrueSkill
variable {F : Type} [Flt F]

/-- Whenever ratings are returned, there is one list per team, in input order, with as many
players as the team has. -/
theorem C69_trueskill_multi_shape (ts : List (List (TrueSkillRating F) × MultiTeamOutcome))
    (cfg : TrueSkillConfig F) (w : Option (List (List F))) (r : List (List (TrueSkillRating F)))
    (h : trueskillMultiTeam ts cfg w = .ok (.ok r)) :
    r.map List.length = ts.map fun t => t.1.length := by
  by_cases h0 : ts = []
  · subst h0
    have : r = [] := by simpa [trueskillMultiTeam, eq_comm] using h
    subst this; rfl
  by_cases h1 : ∀ t ∈ ts, t.1 ≠ []
  · cases hw : getWeights (ts.map (·.1)) w with
    | error e =>
      rw [trueskillMultiTeam] at h
      have hne : ts.isEmpty = false := by cases ts <;> simp_all
      have hany : ts.any (fun t => t.1.isEmpty) = false := by
        rw [List.any_eq_false]
        intro t ht
        simpa using h1 t ht
      simp [hne, hany, hw] at h
    | ok ws =>
      have hlen : ws.length = ts.length := by
        simpa using getWeights_length _ w ws hw
      rw [multiTeam_eq ts cfg w ws h0 h1 hw] at h
      cases hc : core (sortTeams (withPos ts ws)) cfg with
      | error e => rw [hc] at h; simp at h
      | ok g =>
        rw [hc] at h
        simp only [Except.ok.injEq] at h
        obtain ⟨hg, hgl⟩ := core_length _ cfg g hc
        have hsl : (sortTeams (withPos ts ws)).length = ts.length := by
          rw [(sortTeams_perm _).length_eq, ← List.length_map (f := fun p : PosTeam F => p.pos),
            withPos_pos ts ws hlen, List.length_range]
        have hperm : ((sortTeams (withPos ts ws)).map (·.pos)).Perm (List.range ts.length) := by
          have := (sortTeams_perm (withPos ts ws)).map (fun p : PosTeam F => p.pos)
          rwa [withPos_pos ts ws hlen] at this
        have hrl : r.length = ts.length := by
          rw [← h, unsort_length, List.length_map]; omega
        apply List.ext_getElem?
        intro i
        by_cases hi : i < ts.length
        · have him : i ∈ (sortTeams (withPos ts ws)).map (·.pos) := by
            rw [hperm.mem_iff, List.mem_range]; exact hi
          obtain ⟨k, hk⟩ := List.mem_iff_getElem?.1 him
          have hu := unsort_getElem? _ g ts.length hperm (by omega) k i hk
          rw [h] at hu
          rw [List.getElem?_map] at hk
          cases hp : (sortTeams (withPos ts ws))[k]? with
          | none => rw [hp] at hk; simp at hk
          | some p =>
            rw [hp] at hk
            have hpi : p.pos = i := by simpa using hk
            obtain ⟨l, hl1, hl2⟩ := hgl k p hp
            have hpm : p ∈ withPos ts ws := by
              rw [← (sortTeams_perm _).mem_iff]
              exact List.mem_of_getElem? hp
            have htp := (withPos_team ts ws hlen p hpm).1
            rw [hpi] at htp
            rw [List.getElem?_map, List.getElem?_map, hu, hl1, htp]
            simp [hl2]
        · rw [List.getElem?_eq_none (by simp; omega), List.getElem?_eq_none (by simp; omega)]
  · rw [trueskillMultiTeam] at h
    have hne : ts.isEmpty = false := by cases ts <;> simp_all
    have hany : ts.any (fun t => t.1.isEmpty) = true := by
      rw [List.any_eq_true]
      push Not at h1
      obtain ⟨t, ht, hte⟩ := h1
      exact ⟨t, ht, by simp [hte]⟩
    simp only [hne, hany, Bool.false_eq_true, if_false, if_true, Except.ok.injEq] at h
    rw [← h, List.map_map]; rfl

/-- No teams give no teams; an empty team leaves everybody unchanged, whatever the weights. -/
theorem C69_trueskill_multi_empty (ts : List (List (TrueSkillRating F) × MultiTeamOutcome))
    (cfg : TrueSkillConfig F) (w : Option (List (List F))) (h : ts = [] ∨ ∃ t ∈ ts, t.1 = []) :
    trueskillMultiTeam ts cfg w = .ok (.ok (ts.map (·.1))) := by
  rcases h with rfl | ⟨t, ht, he⟩
  · rfl
  · rw [trueskillMultiTeam]
    have hne : ts.isEmpty = false := by cases ts <;> simp_all
    have hany : ts.any (fun t => t.1.isEmpty) = true := by
      rw [List.any_eq_true]
      exact ⟨t, ht, by simp [he]⟩
    simp [hne, hany]

example (a b : TrueSkillRating F) :
    ∃ t ∈ [([a], MultiTeamOutcome.new 1), ([], .new 2), ([b], .new 3)], t.1 = [] :=
  ⟨([], .new 2), by simp, rfl⟩

/-! ### C71 -/

theorem withPos_ofFn {n : Nat} (teams : Fin n → List (TrueSkillRating F))
    (rk : Fin n → MultiTeamOutcome) (W : Fin n → List F) :
    withPos (List.ofFn fun i => (teams i, rk i)) (List.ofFn W) =
      List.ofFn fun i : Fin n => ⟨i, teams i, rk i, W i⟩ := by
  apply List.ext_getElem
  · simp [withPos]
  · intro i h1 h2
    simp [withPos]

/-- Replacing the ranks by others with the same order (and hence the same ties) changes
nothing. -/
theorem C71_trueskill_multi_rank_order {n : Nat} (teams : Fin n → List (TrueSkillRating F))
    (rk rk' : Fin n → MultiTeamOutcome) (cfg : TrueSkillConfig F) (w : Option (List (List F)))
    (h : ∀ i j, (rk i).rank ≤ (rk j).rank ↔ (rk' i).rank ≤ (rk' j).rank) :
    trueskillMultiTeam (List.ofFn fun i => (teams i, rk i)) cfg w =
      trueskillMultiTeam (List.ofFn fun i => (teams i, rk' i)) cfg w := by
  have hmap : ∀ r : Fin n → MultiTeamOutcome,
      (List.ofFn fun i => (teams i, r i)).map (·.1) = List.ofFn teams := by
    intro r; rw [List.map_ofFn]; rfl
  rcases Nat.eq_zero_or_pos n with rfl | hn
  · rfl
  have hne : ∀ r : Fin n → MultiTeamOutcome, (List.ofFn fun i => (teams i, r i)) ≠ [] := by
    intro r hh
    have := congrArg List.length hh
    simp at this; omega
  by_cases h1 : ∀ i, teams i ≠ []
  · have hall : ∀ r : Fin n → MultiTeamOutcome,
        ∀ t ∈ List.ofFn fun i => (teams i, r i), t.1 ≠ [] := by
      intro r t ht
      rw [List.mem_ofFn] at ht
      obtain ⟨i, rfl⟩ := ht
      exact h1 i
    cases hw : getWeights (List.ofFn teams) w with
    | error e =>
      have herr : ∀ r : Fin n → MultiTeamOutcome,
          trueskillMultiTeam (List.ofFn fun i => (teams i, r i)) cfg w = .ok (.error e) := by
        intro r
        rw [trueskillMultiTeam, hmap, hw]
        rw [if_neg (by simpa using hne r), if_neg (by
          rw [Bool.not_eq_true, List.any_eq_false]
          intro t ht; simpa using hall r t ht)]
      rw [herr, herr]
    | ok ws =>
      have hl : ws.length = n := by simpa using getWeights_length _ w ws hw
      obtain ⟨W, rfl⟩ : ∃ W : Fin n → List F, List.ofFn W = ws := by
        subst hl; exact ⟨fun i => ws[i], by simp⟩
      rw [multiTeam_eq _ cfg w (List.ofFn W) (hne rk) (hall rk) (by rw [hmap]; exact hw),
        multiTeam_eq _ cfg w (List.ofFn W) (hne rk') (hall rk') (by rw [hmap]; exact hw),
        withPos_ofFn, withPos_ofFn]
      let f : PosTeam F → PosTeam F := fun p =>
        { p with rank := if hp : p.pos < n then rk' ⟨p.pos, hp⟩ else p.rank }
      let L : List (PosTeam F) := List.ofFn fun i : Fin n => ⟨i, teams i, rk i, W i⟩
      have hL' : (List.ofFn fun i : Fin n => (⟨i, teams i, rk' i, W i⟩ : PosTeam F)) = L.map f := by
        rw [List.map_ofFn]
        congr 1
        funext i
        simp [f]
      have hmem : ∀ p ∈ L, ∃ i : Fin n, p = ⟨i, teams i, rk i, W i⟩ := by
        intro p hp
        rw [List.mem_ofFn] at hp
        obtain ⟨i, rfl⟩ := hp
        exact ⟨i, rfl⟩
      have hsort : sortTeams (L.map f) = (sortTeams L).map f := by
        rw [sortTeams, sortTeams, List.map_mergeSort]
        intro a ha b hb
        obtain ⟨i, rfl⟩ := hmem a ha
        obtain ⟨j, rfl⟩ := hmem b hb
        have := h i j
        simp only [MultiTeamOutcome.rank] at this
        simp [f, this]
      have hcore : core ((sortTeams L).map f) cfg = core (sortTeams L) cfg := by
        apply core_congr
        · intros; rfl
        · intros; rfl
        · intro p hp q hq
          rw [(sortTeams_perm L).mem_iff] at hp hq
          obtain ⟨i, rfl⟩ := hmem p hp
          obtain ⟨j, rfl⟩ := hmem q hq
          have h1 := h i j
          have h2 := h j i
          simp only [MultiTeamOutcome.rank] at h1 h2
          have e : ∀ a b : MultiTeamOutcome, a = b ↔ a.val ≤ b.val ∧ b.val ≤ a.val := by
            intro a b
            constructor
            · rintro rfl; exact ⟨le_refl _, le_refl _⟩
            · rintro ⟨h3, h4⟩
              obtain ⟨a⟩ := a
              obtain ⟨b⟩ := b
              exact congrArg _ (le_antisymm h3 h4)
          simp [f, e, h1, h2]
      have hpos : ((sortTeams L).map f).map (·.pos) = (sortTeams L).map (·.pos) := by
        rw [List.map_map]; rfl
      rw [hL', hsort, hcore, hpos]
  · have h2 : ∀ r : Fin n → MultiTeamOutcome,
        ∃ t ∈ List.ofFn fun i => (teams i, r i), t.1 = [] := by
      intro r
      push Not at h1
      obtain ⟨i, hi⟩ := h1
      exact ⟨(teams i, r i), by rw [List.mem_ofFn]; exact ⟨i, rfl⟩, hi⟩
    rw [C69_trueskill_multi_empty _ cfg w (.inr (h2 rk)),
      C69_trueskill_multi_empty _ cfg w (.inr (h2 rk')), hmap, hmap]

/-- Ranks 1, 1, 3 and 0, 0, 7 order three teams in the same way. -/
example : ∀ i j : Fin 3, (![MultiTeamOutcome.new 1, .new 1, .new 3] i).rank ≤
      (![MultiTeamOutcome.new 1, .new 1, .new 3] j).rank ↔
    (![MultiTeamOutcome.new 0, .new 0, .new 7] i).rank ≤
      (![MultiTeamOutcome.new 0, .new 0, .new 7] j).rank := by decide

/-- Permuting teams with pairwise distinct ranks, together with their weights, permutes the
results: a successful call stays successful and a panic stays the same panic. -/
theorem C71_trueskill_multi_permutation {n : Nat} (teams : Fin n → List (TrueSkillRating F))
    (rk : Fin n → MultiTeamOutcome) (hrk : Function.Injective rk) (cfg : TrueSkillConfig F)
    (W : Option (Fin n → List F)) (σ : Equiv.Perm (Fin n)) :
    (∀ R : Fin n → List (TrueSkillRating F),
      trueskillMultiTeam (List.ofFn fun i => (teams i, rk i)) cfg (W.map List.ofFn)
        = .ok (.ok (List.ofFn R)) →
      trueskillMultiTeam (List.ofFn fun i => (teams (σ i), rk (σ i))) cfg
        (W.map fun w => List.ofFn (w ∘ σ)) = .ok (.ok (List.ofFn (R ∘ σ)))) ∧
    (∀ p, trueskillMultiTeam (List.ofFn fun i => (teams i, rk i)) cfg (W.map List.ofFn)
        = .error p →
      trueskillMultiTeam (List.ofFn fun i => (teams (σ i), rk (σ i))) cfg
        (W.map fun w => List.ofFn (w ∘ σ)) = .error p) := by
  rcases Nat.eq_zero_or_pos n with rfl | hn
  · constructor
    · intro R _; rfl
    · intro p hp; exact absurd hp (by simp [trueskillMultiTeam])
  have hmap : ∀ τ : Fin n → Fin n,
      (List.ofFn fun i => (teams (τ i), rk (τ i))).map (·.1) = List.ofFn (teams ∘ τ) := by
    intro r; rw [List.map_ofFn]; rfl
  have hne : ∀ τ : Fin n → Fin n, (List.ofFn fun i => (teams (τ i), rk (τ i))) ≠ [] := by
    intro r hh
    have := congrArg List.length hh
    simp at this; omega
  by_cases h1 : ∀ i, teams i ≠ []
  swap
  · have h2 : ∀ τ : Equiv.Perm (Fin n),
        ∃ t ∈ List.ofFn fun i => (teams (τ i), rk (τ i)), t.1 = [] := by
      intro τ
      push Not at h1
      obtain ⟨i, hi⟩ := h1
      exact ⟨(teams i, rk i), by rw [List.mem_ofFn]; exact ⟨τ.symm i, by simp⟩, hi⟩
    rw [C69_trueskill_multi_empty _ cfg _ (.inr (h2 σ)),
      C69_trueskill_multi_empty (List.ofFn fun i => (teams i, rk i)) cfg _
        (.inr (h2 (Equiv.refl _)))]
    constructor
    · intro R hR
      have := hmap (fun i => i)
      simp only [Except.ok.injEq] at hR ⊢
      rw [this] at hR
      have : teams = R := List.ofFn_injective hR
      rw [hmap, this]
    · intro p hp; simp at hp
  · have hall : ∀ τ : Fin n → Fin n,
        ∀ t ∈ List.ofFn fun i => (teams (τ i), rk (τ i)), t.1 ≠ [] := by
      intro r t ht
      rw [List.mem_ofFn] at ht
      obtain ⟨i, rfl⟩ := ht
      exact h1 _
    cases hw : getWeights (List.ofFn teams) (W.map List.ofFn) with
    | error e =>
      have : trueskillMultiTeam (List.ofFn fun i => (teams i, rk i)) cfg (W.map List.ofFn)
          = .ok (.error e) := by
        rw [trueskillMultiTeam, if_neg (by simpa using hne id), if_neg (by
          rw [Bool.not_eq_true, List.any_eq_false]
          intro t ht; simpa using hall id t ht)]
        have hm := hmap id
        simp only [id, Function.comp_id] at hm
        rw [hm, hw]
      rw [this]
      constructor
      · intro R hR; simp at hR
      · intro p hp; simp at hp
    | ok ws =>
      -- the weights of the permuted call are the permuted weights
      obtain ⟨V, hV, hVσ⟩ : ∃ V : Fin n → List F, ws = List.ofFn V ∧
          getWeights (List.ofFn (teams ∘ σ)) (W.map fun w => List.ofFn (w ∘ σ)) =
            .ok (List.ofFn (V ∘ σ)) := by
        cases W with
        | none =>
          refine ⟨fun i => List.replicate (teams i).length 1.0, ?_, ?_⟩
          · simp only [Option.map_none, getWeights, Except.ok.injEq] at hw
            rw [← hw, List.map_ofFn]; rfl
          · simp only [Option.map_none, getWeights, List.map_ofFn]; rfl
        | some w =>
          simp only [Option.map_some] at hw ⊢
          obtain ⟨h2, h3, h4⟩ := (getWeights_ok _ _ _).1 hw
          refine ⟨w, h2, ?_⟩
          rw [getWeights_ok]
          refine ⟨rfl, by simp, ?_⟩
          intro k hk
          have hk' : k < n := by simpa using hk
          obtain ⟨m, l, h5, h6, h7, h8⟩ := h4 (σ ⟨k, hk'⟩) (by simp)
          refine ⟨m, l, ?_, ?_, h7, h8⟩
          · simpa [hk'] using h5
          · simpa [hk'] using h6
      subst hV
      have hm := hmap id
      simp only [id, Function.comp_id] at hm
      rw [multiTeam_eq (List.ofFn fun i => (teams i, rk i)) cfg _ (List.ofFn V) (hne id) (hall id)
          (by rw [hm]; exact hw),
        multiTeam_eq _ cfg _ (List.ofFn (V ∘ σ)) (hne σ) (hall σ) (by rw [hmap]; exact hVσ),
        withPos_ofFn]
      have hwp' := withPos_ofFn (fun i => teams (σ i)) (fun i => rk (σ i)) (V ∘ σ)
      rw [hwp']
      let f : PosTeam F → PosTeam F := fun p =>
        { p with pos := if hp : p.pos < n then σ.symm ⟨p.pos, hp⟩ else p.pos }
      let L : List (PosTeam F) := List.ofFn fun i : Fin n => ⟨i, teams i, rk i, V i⟩
      let L' : List (PosTeam F) :=
        List.ofFn fun i : Fin n => ⟨i, teams (σ i), rk (σ i), (V ∘ σ) i⟩
      have hmem : ∀ p ∈ L, ∃ i : Fin n, p = ⟨i, teams i, rk i, V i⟩ := by
        intro p hp
        rw [List.mem_ofFn] at hp
        obtain ⟨i, rfl⟩ := hp
        exact ⟨i, rfl⟩
      have hLf : L.map f = List.ofFn fun i : Fin n => ⟨σ.symm i, teams i, rk i, V i⟩ := by
        rw [List.map_ofFn]
        congr 1
        funext i
        simp [f]
      have hpermL : (L.map f).Perm L' := by
        rw [hLf]
        have := Equiv.Perm.ofFn_comp_perm σ.symm
          (fun i : Fin n => (⟨i, teams (σ i), rk (σ i), (V ∘ σ) i⟩ : PosTeam F))
        refine List.Perm.trans (List.Perm.of_eq ?_) this
        congr 1
        funext i
        simp
      have hsort : sortTeams L' = (sortTeams L).map f := by
        have e1 : (sortTeams L).map f = sortTeams (L.map f) := by
          rw [sortTeams, sortTeams, List.map_mergeSort]
          intro a _ b _; rfl
        rw [e1]
        have hs : ∀ M : List (PosTeam F), (sortTeams M).Pairwise (fun a b => a.rank.val ≤ b.rank.val) := by
          intro M
          have := List.pairwise_mergeSort
            (le := fun a b : PosTeam F => decide (a.rank.val ≤ b.rank.val))
            (fun a b c => by simp only [decide_eq_true_eq]; exact Nat.le_trans)
            (fun a b => by
              simp only [Bool.or_eq_true, decide_eq_true_eq]
              exact Nat.le_total a.rank.val b.rank.val) M
          exact this.imp (by simp)
        refine List.Perm.eq_of_pairwise (le := fun a b : PosTeam F => a.rank.val ≤ b.rank.val)
          ?_ (hs _) (hs _) ?_
        · intro a b ha hb hab hba
          rw [(sortTeams_perm _).mem_iff] at ha hb
          rw [List.mem_ofFn] at ha
          rw [hpermL.mem_iff, List.mem_ofFn] at hb
          obtain ⟨i, rfl⟩ := ha
          obtain ⟨j, rfl⟩ := hb
          have hr : rk (σ i) = rk (σ j) := by
            have := le_antisymm hab hba
            simp only at this
            cases hi : rk (σ i); cases hj : rk (σ j)
            rw [hi, hj] at this
            exact congrArg _ this
          have : i = j := σ.injective (hrk hr)
          rw [this]
        · exact (sortTeams_perm _).trans (hpermL.symm.trans (sortTeams_perm _).symm)
      have hcore : core ((sortTeams L).map f) cfg = core (sortTeams L) cfg := by
        apply core_congr
        · intros; rfl
        · intros; rfl
        · intros; exact Iff.rfl
      change (∀ R : Fin n → List (TrueSkillRating F),
          (match core (sortTeams L) cfg with
            | .error e => .error e
            | .ok g => .ok (.ok (unsort ((sortTeams L).map (·.pos)) g))
            : Except Panic (Except WeightError _)) = .ok (.ok (List.ofFn R)) →
          (match core (sortTeams L') cfg with
            | .error e => .error e
            | .ok g => .ok (.ok (unsort ((sortTeams L').map (·.pos)) g))
            : Except Panic (Except WeightError _)) = .ok (.ok (List.ofFn (R ∘ σ)))) ∧
        (∀ p, (match core (sortTeams L) cfg with
            | .error e => .error e
            | .ok g => .ok (.ok (unsort ((sortTeams L).map (·.pos)) g))
            : Except Panic (Except WeightError _)) = .error p →
          (match core (sortTeams L') cfg with
            | .error e => .error e
            | .ok g => .ok (.ok (unsort ((sortTeams L').map (·.pos)) g))
            : Except Panic (Except WeightError _)) = .error p)
      rw [hsort, hcore]
      cases hc : core (sortTeams L) cfg with
      | error e => simp
      | ok g =>
        refine ⟨?_, by simp⟩
        intro R hR
        simp only [Except.ok.injEq] at hR ⊢
        obtain ⟨hg, -⟩ := core_length _ cfg g hc
        have hlen : ((List.ofFn fun i => (teams i, rk i)) : List _).length = n := by simp
        have hpos : L.map (·.pos) = List.range n := by
          rw [List.map_ofFn]
          apply List.ext_getElem
          · simp
          · intro i _ _; simp
        have hperm : ((sortTeams L).map (·.pos)).Perm (List.range n) := by
          have := (sortTeams_perm L).map (fun p : PosTeam F => p.pos)
          rwa [hpos] at this
        have hperm' : (((sortTeams L).map f).map (·.pos)).Perm (List.range n) := by
          rw [← hsort]
          have := (sortTeams_perm L').map (fun p : PosTeam F => p.pos)
          refine this.trans (List.Perm.of_eq ?_)
          rw [List.map_ofFn]
          apply List.ext_getElem
          · simp
          · intro i _ _; simp
        have hgn : g.length = n := by
          rw [hg, (sortTeams_perm L).length_eq]; simp [L]
        apply List.ext_getElem?
        intro j
        by_cases hj : j < n
        · have hjm : ((σ ⟨j, hj⟩ : Fin n) : ℕ) ∈ (sortTeams L).map (·.pos) := by
            rw [hperm.mem_iff, List.mem_range]; exact (σ ⟨j, hj⟩).2
          obtain ⟨k, hk⟩ := List.mem_iff_getElem?.1 hjm
          have hk' : (((sortTeams L).map f).map (·.pos))[k]? = some j := by
            rw [List.map_map]
            rw [List.getElem?_map] at hk ⊢
            cases hp : (sortTeams L)[k]? with
            | none => rw [hp] at hk; simp at hk
            | some p =>
              rw [hp] at hk
              have : p.pos = ((σ ⟨j, hj⟩ : Fin n) : ℕ) := by simpa using hk
              simp [f, this]
          have u1 := unsort_getElem? _ g n hperm hgn k _ hk
          have u2 := unsort_getElem? _ g n hperm' hgn k _ hk'
          rw [hR] at u1
          rw [u2, ← u1]
          simp [hj]
        · rw [List.getElem?_eq_none (by rw [unsort_length]; simp [hgn, L, (sortTeams_perm _).length_eq]; omega),
            List.getElem?_eq_none (by simp; omega)]

example : Function.Injective ![MultiTeamOutcome.new 2, .new 1, .new 3] := by
  intro i j; revert i j; decide

end TrueSkill
end Skillratings
