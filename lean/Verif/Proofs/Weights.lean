import Verif.Spec.Weights
import Mathlib.Tactic.Common
/-
Helper lemmas for the weight errors (C68).
-/
namespace Skillratings
namespace TrueSkill
open Spec
variable {F : Type} [Flt F]

theorem checkPlayers_ok (i : Nat) (l : List F) : ∀ j,
    checkPlayers i j l = .ok () ↔ ∀ w ∈ l, ¬ (w <? (0.0 : F)) = true := by
  induction l with
  | nil => intro j; simp [checkPlayers]
  | cons w ws ih =>
    intro j
    by_cases h : (w <? (0.0 : F)) = true
    · simp [checkPlayers, h]
    · rw [checkPlayers, if_neg h, ih]
      simp [h]

theorem checkPlayers_error (i : Nat) (l : List F) : ∀ j e, checkPlayers i j l = .error e ↔
    ∃ k w, e = .weight i (j + k) ∧ l[k]? = some w ∧ (w <? (0.0 : F)) = true ∧
      ∀ m < k, ∀ w, l[m]? = some w → ¬ (w <? (0.0 : F)) = true := by
  induction l with
  | nil => intro j e; simp [checkPlayers]
  | cons w ws ih =>
    intro j e
    by_cases h : (w <? (0.0 : F)) = true
    · rw [checkPlayers, if_pos h]
      constructor
      · intro he
        injection he with he
        exact ⟨0, w, by rw [← he]; rfl, rfl, h, fun m hm => absurd hm (Nat.not_lt_zero m)⟩
      · rintro ⟨k, w', rfl, -, -, hk⟩
        cases k with
        | zero => rfl
        | succ k => exact absurd h (hk 0 (Nat.succ_pos k) w rfl)
    · rw [checkPlayers, if_neg h, ih]
      constructor
      · rintro ⟨k, w', rfl, hw', hn, hk⟩
        refine ⟨k + 1, w', by rw [Nat.add_assoc, Nat.add_comm 1 k], hw', hn, ?_⟩
        intro m hm w'' hw''
        cases m with
        | zero =>
          have hww : w = w'' := by simpa using hw''
          exact hww ▸ h
        | succ m => exact hk m (by omega) w'' (by simpa using hw'')
      · rintro ⟨k, w', rfl, hw', hn, hk⟩
        cases k with
        | zero =>
          have hww : w = w' := by simpa using hw'
          exact absurd hn (hww ▸ h)
        | succ k =>
          refine ⟨k, w', by rw [Nat.add_assoc, Nat.add_comm 1 k], by simpa using hw', hn, ?_⟩
          intro m hm w'' hw''
          exact hk (m + 1) (by omega) w'' (by simpa using hw'')

theorem teamWeightsOk_cons (n : Nat) (ns : List Nat) (l : List F) (ls : List (List F)) (i : Nat) :
    TeamWeightsOk (n :: ns) (l :: ls) (i + 1) ↔ TeamWeightsOk ns ls i := by
  simp [TeamWeightsOk]

theorem teamWeightsOk_zero (n : Nat) (ns : List Nat) (l : List F) (ls : List (List F)) :
    TeamWeightsOk (n :: ns) (l :: ls) 0 ↔ l.length = n ∧ ∀ w ∈ l, ¬ (w <? (0.0 : F)) = true := by
  simp only [TeamWeightsOk, List.getElem?_cons_zero, Option.some.injEq]
  constructor
  · rintro ⟨_, _, rfl, rfl, h1, h2⟩; exact ⟨h1, h2⟩
  · rintro ⟨h1, h2⟩; exact ⟨n, l, rfl, rfl, h1, h2⟩

theorem checkTeams_ok (sizes : List Nat) : ∀ (ws : List (List F)) (i : Nat),
    ws.length = sizes.length →
    (checkTeams i sizes ws = .ok () ↔ ∀ k < sizes.length, TeamWeightsOk sizes ws k) := by
  induction sizes with
  | nil => intro ws i h; simp [checkTeams]
  | cons n ns ih =>
    intro ws i h
    cases ws with
    | nil => simp at h
    | cons l ls =>
      have hl : ls.length = ns.length := by simpa using h
      have split : (∀ k < (n :: ns).length, TeamWeightsOk (n :: ns) (l :: ls) k) ↔
          TeamWeightsOk (n :: ns) (l :: ls) 0 ∧ ∀ k < ns.length, TeamWeightsOk ns ls k := by
        constructor
        · intro hk
          exact ⟨hk 0 (by simp), fun k hk' =>
            (teamWeightsOk_cons n ns l ls k).1 (hk (k + 1) (by simpa using hk'))⟩
        · rintro ⟨h0, hs⟩ k hk
          cases k with
          | zero => exact h0
          | succ k => exact (teamWeightsOk_cons n ns l ls k).2 (hs k (by simpa using hk))
      rw [split, teamWeightsOk_zero, checkTeams]
      by_cases hn : l.length = n
      · rw [if_neg (by simpa using hn)]
        cases hc : checkPlayers i 0 l with
        | error e =>
          have : ¬ ∀ w ∈ l, ¬ (w <? (0.0 : F)) = true := by
            rw [← checkPlayers_ok i l 0, hc]; simp
          simp only [reduceCtorEq, false_iff]
          exact fun hh => this hh.1.2
        | ok u =>
          have := (checkPlayers_ok i l 0).1 hc
          simp only [ih ls (i + 1) hl]
          exact ⟨fun hh => ⟨⟨hn, this⟩, hh⟩, fun hh => hh.2⟩
      · rw [if_pos (by simpa using hn)]
        simp only [reduceCtorEq, false_iff]
        exact fun hh => hn hh.1.1

/-- The error with its team index moved by `i`. -/
def shiftError (i : Nat) : WeightError → WeightError
  | .teamAmount => .teamAmount
  | .playerAmount t => .playerAmount (i + t)
  | .weight t p => .weight (i + t) p

theorem isWeightError_cons (n : Nat) (ns : List Nat) (l : List F) (ls : List (List F))
    (hl : ls.length = ns.length) (h0 : TeamWeightsOk (n :: ns) (l :: ls) 0) (e : WeightError) :
    IsWeightError ns ls e ↔ e ≠ .teamAmount ∧ IsWeightError (n :: ns) (l :: ls) (shiftError 1 e) := by
  have step : ∀ t, (∀ k < t, TeamWeightsOk ns ls k) ↔
      ∀ k < 1 + t, TeamWeightsOk (n :: ns) (l :: ls) k := by
    intro t
    constructor
    · intro h k hk
      cases k with
      | zero => exact h0
      | succ k => exact (teamWeightsOk_cons n ns l ls k).2 (h k (by omega))
    · intro h k hk
      exact (teamWeightsOk_cons n ns l ls k).1 (h (k + 1) (by omega))
  cases e with
  | teamAmount => simp [IsWeightError, hl]
  | playerAmount t =>
    simp only [IsWeightError, shiftError, step t, hl, ne_eq, reduceCtorEq, not_false_eq_true,
      true_and, List.length_cons, Nat.add_comm 1 t, List.getElem?_cons_succ]
  | weight t p =>
    simp only [IsWeightError, shiftError, step t, hl, ne_eq, reduceCtorEq, not_false_eq_true,
      true_and, List.length_cons, Nat.add_comm 1 t, List.getElem?_cons_succ]

theorem checkTeams_error (sizes : List Nat) : ∀ (ws : List (List F)) (i : Nat) (e : WeightError),
    ws.length = sizes.length →
    (checkTeams i sizes ws = .error e ↔
      ∃ e', e' ≠ .teamAmount ∧ e = shiftError i e' ∧ IsWeightError sizes ws e') := by
  induction sizes with
  | nil =>
    intro ws i e h
    have : ws = [] := by simpa using h
    subst this
    simp only [checkTeams, reduceCtorEq, false_iff, not_exists, not_and]
    intro e' h1 _ h2
    cases e' with
    | teamAmount => exact h1 rfl
    | playerAmount t => obtain ⟨-, -, n, l, hn, -⟩ := h2; simp at hn
    | weight t p => obtain ⟨-, -, n, l, hn, -⟩ := h2; simp at hn
  | cons n ns ih =>
    intro ws i e h
    cases ws with
    | nil => simp at h
    | cons l ls =>
      have hl : ls.length = ns.length := by simpa using h
      rw [checkTeams]
      by_cases hn : l.length = n
      · rw [if_neg (by simpa using hn)]
        cases hc : checkPlayers i 0 l with
        | error e0 =>
          simp only
          obtain ⟨k, w, rfl, hk, hw, hlt⟩ := (checkPlayers_error i l 0 e0).1 hc
          have hnot : ¬ TeamWeightsOk (n :: ns) (l :: ls) 0 := by
            rw [teamWeightsOk_zero]
            exact fun hh => hh.2 w (List.mem_of_getElem? hk) hw
          constructor
          · intro he
            injection he with he
            refine ⟨.weight 0 k, by simp, by rw [← he]; simp [shiftError], h, ?_, n, l, rfl, rfl,
              hn, hlt, w, hk, hw⟩
            intro k hk; omega
          · rintro ⟨e', h1, rfl, h2⟩
            cases e' with
            | teamAmount => exact absurd rfl h1
            | playerAmount t =>
              obtain ⟨-, h3, n', l', hn', hl', hne⟩ := h2
              cases t with
              | zero =>
                simp at hn' hl'; subst hn' hl'; exact absurd hn hne
              | succ t => exact absurd (h3 0 (by omega)) hnot
            | weight t p =>
              obtain ⟨-, h3, n', l', hn', hl', -, hp, w', hw', hneg⟩ := h2
              cases t with
              | zero =>
                simp at hl'; subst hl'
                have : p = k := by
                  rcases Nat.lt_trichotomy p k with hlt' | heq | hgt
                  · exact absurd hneg (hlt p hlt' w' hw')
                  · exact heq
                  · exact absurd hw (hp k hgt w hk)
                subst this; simp [shiftError]
              | succ t => exact absurd (h3 0 (by omega)) hnot
        | ok u =>
          have h0 : TeamWeightsOk (n :: ns) (l :: ls) 0 :=
            (teamWeightsOk_zero n ns l ls).2 ⟨hn, (checkPlayers_ok i l 0).1 hc⟩
          simp only [ih ls (i + 1) e hl]
          constructor
          · rintro ⟨e', h1, rfl, h2⟩
            obtain ⟨-, h3⟩ := (isWeightError_cons n ns l ls hl h0 e').1 h2
            refine ⟨shiftError 1 e', ?_, ?_, h3⟩
            · cases e' <;> simp [shiftError] at h1 ⊢
            · cases e' <;> simp [shiftError] <;> omega
          · rintro ⟨e', h1, rfl, h2⟩
            cases e' with
            | teamAmount => exact absurd rfl h1
            | playerAmount t =>
              cases t with
              | zero =>
                obtain ⟨-, h3, n', l', hn', hl', hne⟩ := h2
                simp at hn' hl'; subst hn' hl'; exact absurd hn hne
              | succ t =>
                refine ⟨.playerAmount t, by simp, by simp [shiftError]; omega, ?_⟩
                rw [isWeightError_cons n ns l ls hl h0]
                exact ⟨by simp, by simpa [shiftError, Nat.add_comm] using h2⟩
            | weight t p =>
              cases t with
              | zero =>
                obtain ⟨-, h3, n', l', hn', hl', -, hp, w', hw', hneg⟩ := h2
                simp at hl'; subst hl'
                exact absurd hneg (((teamWeightsOk_zero n ns l ls).1 h0).2 w' (List.mem_of_getElem? hw'))
              | succ t =>
                refine ⟨.weight t p, by simp, by simp [shiftError]; omega, ?_⟩
                rw [isWeightError_cons n ns l ls hl h0]
                exact ⟨by simp, by simpa [shiftError, Nat.add_comm] using h2⟩
      · rw [if_pos (by simpa using hn)]
        have hnot : ¬ TeamWeightsOk (n :: ns) (l :: ls) 0 := by
          rw [teamWeightsOk_zero]; exact fun hh => hn hh.1
        constructor
        · intro he
          injection he with he
          refine ⟨.playerAmount 0, by simp, by rw [← he]; simp [shiftError], h, ?_, n, l, rfl, rfl, hn⟩
          intro k hk; omega
        · rintro ⟨e', h1, rfl, h2⟩
          cases e' with
          | teamAmount => exact absurd rfl h1
          | playerAmount t =>
            obtain ⟨-, h3, -⟩ := h2
            cases t with
            | zero => simp [shiftError]
            | succ t => exact absurd (h3 0 (by omega)) hnot
          | weight t p =>
            obtain ⟨-, h3, n', l', hn', hl', hlen, -⟩ := h2
            cases t with
            | zero => simp at hn' hl'; subst hn' hl'; exact absurd hlen hn
            | succ t => exact absurd (h3 0 (by omega)) hnot

theorem shiftError_zero (e : WeightError) : shiftError 0 e = e := by
  cases e <;> simp [shiftError]

/-- The error of `get_weights`. -/
theorem getWeights_error (teams : List (List (TrueSkillRating F))) (ws : List (List F))
    (e : WeightError) :
    getWeights teams (some ws) = .error e ↔ IsWeightError (teams.map List.length) ws e := by
  rw [getWeights]
  by_cases h : ws.length = teams.length
  · rw [if_neg (by simpa using h)]
    have key := checkTeams_error (teams.map List.length) ws 0 e (by simpa using h)
    have : (∃ e', e' ≠ .teamAmount ∧ e = shiftError 0 e' ∧
        IsWeightError (teams.map List.length) ws e') ↔ IsWeightError (teams.map List.length) ws e := by
      constructor
      · rintro ⟨e', -, rfl, h2⟩; rwa [shiftError_zero]
      · intro h2
        refine ⟨e, ?_, (shiftError_zero e).symm, h2⟩
        rintro rfl
        exact h2 (by simpa using h)
    rw [this] at key
    rw [← key]
    cases hc : checkTeams 0 (teams.map List.length) ws with
    | error e0 => simp
    | ok u => simp
  · rw [if_pos (by simpa using h)]
    constructor
    · intro he
      injection he with he
      rw [← he]; simpa [IsWeightError] using h
    · intro he
      cases e with
      | teamAmount => rfl
      | playerAmount t => exact absurd (by simpa using he.1) h
      | weight t p => exact absurd (by simpa using he.1) h

/-- Success of `get_weights`. -/
theorem getWeights_ok (teams : List (List (TrueSkillRating F))) (ws ws' : List (List F)) :
    getWeights teams (some ws) = .ok ws' ↔ ws' = ws ∧ ws.length = teams.length ∧
      ∀ k < teams.length, TeamWeightsOk (teams.map List.length) ws k := by
  rw [getWeights]
  by_cases h : ws.length = teams.length
  · rw [if_neg (by simpa using h)]
    have key := checkTeams_ok (teams.map List.length) ws 0 (by simpa using h)
    rw [List.length_map] at key
    rw [← key]
    cases hc : checkTeams 0 (teams.map List.length) ws with
    | error e0 => simp
    | ok u => simp [h, eq_comm]
  · rw [if_pos (by simpa using h)]
    simp [h]

end TrueSkill
end Skillratings
