import Verif.Proofs.Weights
import Verif.Proofs.Matrix
import Verif.Model.TrueSkill
import Verif.FltReal
/-
Property C68: the weight errors of the multi-team functions are the documented ones.
In any arithmetic.
-/
namespace Skillratings
namespace TrueSkill
open Spec
variable {F : Type} [Flt F]

/-- `trueskill_multi_team` returns an error iff the documentation prescribes that error. -/
theorem C68_trueskill_weight_error (ts : List (List (TrueSkillRating F) × MultiTeamOutcome))
    (cfg : TrueSkillConfig F) (ws : List (List F)) (e : WeightError)
    (h0 : ts ≠ []) (h : ∀ t ∈ ts, t.1 ≠ []) :
    trueskillMultiTeam ts cfg (some ws) = .ok (.error e) ↔
      IsWeightError (ts.map fun t => t.1.length) ws e := by
  have hne : ts.isEmpty = false := by cases ts <;> simp_all
  have hany : ts.any (fun t => t.1.isEmpty) = false := by
    rw [List.any_eq_false]
    intro t ht
    simpa using h t ht
  have hm : (ts.map fun t => t.1.length) = (ts.map (·.1)).map List.length := by
    rw [List.map_map]; rfl
  rw [hm, ← getWeights_error, trueskillMultiTeam, hne, hany]
  simp only [Bool.false_eq_true, if_false]
  cases hg : getWeights (ts.map (·.1)) (some ws) with
  | error e' => simp
  | ok w =>
    simp only [reduceCtorEq, iff_false]
    split <;> simp

/-- `match_quality_multi_team` returns an error iff the documentation prescribes that error. -/
theorem C68_quality_weight_error (ts : List (List (TrueSkillRating F)))
    (cfg : TrueSkillConfig F) (ws : List (List F)) (e : WeightError)
    (h0 : ts ≠ []) (h : ∀ t ∈ ts, t ≠ []) :
    matchQualityMultiTeam ts cfg (some ws) = .ok (.error e) ↔
      IsWeightError (ts.map List.length) ws e := by
  have hne : ts.isEmpty = false := by cases ts <;> simp_all
  have hany : ts.any (fun t => t.isEmpty) = false := by
    rw [List.any_eq_false]
    intro t ht
    simpa using h t ht
  rw [← getWeights_error, matchQualityMultiTeam, hne, hany]
  simp only [Bool.false_eq_true, if_false, Matrix.newDiagonal_eq, Matrix.createRotatedAMatrix]
  cases hg : getWeights ts (some ws) with
  | error e' => simp
  | ok w =>
    simp only [reduceCtorEq, iff_false]
    split
    · simp
    · rename_i h; split at h <;> simp at h
    · split <;> simp

/-- Valid weights are never reported, and are used as they are. -/
theorem C68_no_error_iff (ts : List (List (TrueSkillRating F) × MultiTeamOutcome))
    (cfg : TrueSkillConfig F) (ws : List (List F)) (h0 : ts ≠ []) (h : ∀ t ∈ ts, t.1 ≠ []) :
    (∀ e, trueskillMultiTeam ts cfg (some ws) ≠ .ok (.error e)) ↔
      ws.length = ts.length ∧
        ∀ k < ts.length, TeamWeightsOk (ts.map fun t => t.1.length) ws k := by
  have hm : (ts.map fun t => t.1.length) = (ts.map (·.1)).map List.length := by
    rw [List.map_map]; rfl
  simp only [ne_eq, C68_trueskill_weight_error ts cfg ws _ h0 h]
  rw [hm]
  simp only [← getWeights_error]
  have key := getWeights_ok (ts.map (·.1)) ws ws
  simp only [List.length_map, true_and] at key
  rw [← key]
  cases hg : getWeights (ts.map (·.1)) (some ws) with
  | error e => simp
  | ok w =>
    have := (getWeights_ok (ts.map (·.1)) ws w).1 hg
    simp [this.1]

/-- Without weights no error is ever reported. -/
theorem C68_no_weights_no_error (ts : List (List (TrueSkillRating F) × MultiTeamOutcome))
    (us : List (List (TrueSkillRating F))) (cfg : TrueSkillConfig F) (e : WeightError) :
    trueskillMultiTeam ts cfg none ≠ .ok (.error e) ∧
      matchQualityMultiTeam us cfg none ≠ .ok (.error e) := by
  constructor
  · rw [trueskillMultiTeam]
    simp only [getWeights]
    split_ifs
    · simp
    · simp
    · split <;> simp
  · rw [matchQualityMultiTeam]
    simp only [Matrix.newDiagonal_eq, Matrix.createRotatedAMatrix, getWeights]
    split_ifs
    · simp
    · simp
    · intro hcon
      split at hcon
      · simp at hcon
      · rename_i h; split at h <;> simp at h
      · split at hcon <;> simp at hcon

/-- No weights at all are the same as a weight of one for everybody. -/
theorem C68_no_weights_are_ones (ts : List (List (TrueSkillRating F) × MultiTeamOutcome))
    (us : List (List (TrueSkillRating F))) (cfg : TrueSkillConfig F)
    (hone : ¬ ((1.0 : F) <? (0.0 : F)) = true) :
    trueskillMultiTeam ts cfg none = trueskillMultiTeam ts cfg
        (some (ts.map fun t => List.replicate t.1.length (1.0 : F))) ∧
    matchQualityMultiTeam us cfg none = matchQualityMultiTeam us cfg
        (some (us.map fun t => List.replicate t.length (1.0 : F))) := by
  have key : ∀ vs : List (List (TrueSkillRating F)), getWeights vs none =
      getWeights vs (some (vs.map fun t => List.replicate t.length (1.0 : F))) := by
    intro vs
    rw [(getWeights_ok vs _ _).2 ⟨rfl, by simp, ?_⟩]
    · rfl
    · intro k hk
      refine ⟨vs[k].length, List.replicate vs[k].length (1.0 : F), by simp [hk], by simp [hk],
        by simp, ?_⟩
      intro w hw
      rw [List.eq_of_mem_replicate hw]; exact hone
  constructor
  · have hm : (ts.map fun t => List.replicate t.1.length (1.0 : F)) =
        (ts.map (·.1)).map fun t => List.replicate t.length (1.0 : F) := by
      rw [List.map_map]; rfl
    rw [trueskillMultiTeam, trueskillMultiTeam, key, hm]
  · rw [matchQualityMultiTeam, matchQualityMultiTeam, Matrix.createRotatedAMatrix,
      Matrix.createRotatedAMatrix, key]

/-- The first problem is unique: at most one error is prescribed. -/
theorem C68_error_unique (sizes : List Nat) (ws : List (List F)) (e e' : WeightError)
    (h : IsWeightError sizes ws e) (h' : IsWeightError sizes ws e') : e = e' := by
  have hs : ∃ teams : List (List (TrueSkillRating F)), teams.map List.length = sizes :=
    ⟨sizes.map fun n => List.replicate n TrueSkillRating.new, by
      rw [List.map_map]
      conv_rhs => rw [← List.map_id sizes]
      exact List.map_congr_left fun n _ => by simp⟩
  obtain ⟨teams, rfl⟩ := hs
  rw [← getWeights_error] at h h'
  rw [h] at h'
  injection h'

/-- Two teams of two; a negative weight for the second player of the second team. -/
example : IsWeightError [2, 2] [[1, 1 / 2], [1, (-1 : ℝ)]] (.weight 1 1) := by
  refine ⟨rfl, ?_, 2, [1, -1], rfl, rfl, rfl, ?_, -1, rfl, ?_⟩
  · intro k hk
    obtain rfl : k = 0 := by omega
    refine ⟨2, [1, 1 / 2], rfl, rfl, rfl, ?_⟩
    intro w hw
    simp only [List.mem_cons, List.not_mem_nil, or_false] at hw
    rcases hw with rfl | rfl <;> simp only [flt] <;> norm_num
  · intro k hk w hw
    obtain rfl : k = 0 := by omega
    have : w = 1 := by simpa using hw.symm
    subst this
    simp only [flt]; norm_num
  · simp only [flt]; norm_num

theorem repr_toList (n : Nat) : (toString n).toList = Nat.toDigits 10 n := by
  simp [toString, Nat.repr]

theorem digits_inj {m n : Nat} (h : Nat.toDigits 10 m = Nat.toDigits 10 n) : m = n := by
  rw [← Nat.ofDigitChars_ten_toDigits (n := m), h, Nat.ofDigitChars_ten_toDigits]

/-- A number is read up to the blank that follows it. -/
theorem number_read {m n : Nat} {u v : List Char}
    (h : Nat.toDigits 10 m ++ ' ' :: u = Nat.toDigits 10 n ++ ' ' :: v) : m = n ∧ u = v := by
  have hd : ∀ (k : Nat) (w : List Char),
      (Nat.toDigits 10 k ++ ' ' :: w).takeWhile Char.isDigit = Nat.toDigits 10 k ∧
      (Nat.toDigits 10 k ++ ' ' :: w).dropWhile Char.isDigit = ' ' :: w := by
    intro k w
    have hk : ∀ c ∈ Nat.toDigits 10 k, c.isDigit = true := fun c hc =>
      Nat.isDigit_of_mem_toDigits (by decide) (by decide) hc
    rw [List.takeWhile_append_of_pos hk, List.dropWhile_append_of_pos hk]
    simp
  have h1 := congrArg (List.takeWhile Char.isDigit) h
  have h2 := congrArg (List.dropWhile Char.isDigit) h
  rw [(hd _ _).1, (hd _ _).1] at h1
  rw [(hd _ _).2, (hd _ _).2] at h2
  exact ⟨digits_inj h1, (List.cons.inj h2).2⟩

theorem display_player (t : Nat) : (WeightError.playerAmount t).display.toList
    = "The amount of players in team ".toList ++ (Nat.toDigits 10 t ++ ' ' :: "is invalid.".toList) := by
  have e : (WeightError.playerAmount t).display
      = "The amount of players in team " ++ toString t ++ " is invalid." := rfl
  have : (" is invalid.".toList : List Char) = ' ' :: "is invalid.".toList := by rfl
  rw [← this, ← repr_toList, e, String.toList_append, String.toList_append, List.append_assoc]

theorem display_weight (t p : Nat) : (WeightError.weight t p).display.toList
    = "The weight for player ".toList ++ (Nat.toDigits 10 p ++ ' ' :: ("in team ".toList
      ++ (Nat.toDigits 10 t ++ ' ' :: "is invalid".toList))) := by
  have e : (WeightError.weight t p).display
      = "The weight for player " ++ toString p ++ " in team " ++ toString t ++ " is invalid" := rfl
  have h1 : (" is invalid".toList : List Char) = ' ' :: "is invalid".toList := by rfl
  have h2 : (" in team ".toList : List Char) = ' ' :: "in team ".toList := by rfl
  rw [← h1, ← List.cons_append, ← h2, ← repr_toList, ← repr_toList, e]
  simp only [String.toList_append, List.append_assoc]

theorem display_teams : WeightError.teamAmount.display.toList = "The amount of teams is invalid.".toList :=
  rfl

/-- The message of an error tells which error it is: the kind, the team and the player. -/
theorem C68_display_injective (e e' : WeightError) (h : e.display = e'.display) : e = e' := by
  have hc := congrArg String.toList h
  cases e <;> cases e' <;> simp only [display_player, display_weight, display_teams] at hc
  · rfl
  · simp at hc
  · simp at hc
  · simp at hc
  · rw [(number_read (List.append_cancel_left hc)).1]
  · simp at hc
  · simp at hc
  · simp at hc
  · obtain ⟨h1, h2⟩ := number_read (List.append_cancel_left hc)
    rw [h1, (number_read (List.append_cancel_left h2)).1]

example : (WeightError.weight 3 4).display = "The weight for player 4 in team 3 is invalid" := rfl

end TrueSkill
end Skillratings
