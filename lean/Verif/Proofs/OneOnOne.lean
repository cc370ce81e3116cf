import Verif.Proofs.TrueSkillMulti
/-
`trueskill_multi_team` for two teams of one player each, in any arithmetic: the sequence of
stores it runs through.
-/
namespace Skillratings
namespace TrueSkill
namespace OneOnOne
variable {F : Type} [Flt F]

theorem write_get (s : Store F) (r k : VarRef) (v : Variable F × F) :
    (s.write r v).1 k = if k = r then v.1 else s k := rfl

/-- The variable of a player after the prior. -/
def ratingVar (i : Nat) (g : Gaussian F) : Variable F := ((Variable.new).updateValue i g).1

/-- The store after the priors. -/
def s1 (ga gb : Gaussian F) : Store F :=
  ⟨fun k => if k = .rating 1 then ratingVar 1 gb else if k = .rating 0 then ratingVar 0 ga
    else Variable.new⟩

/-- The performance factor of player `i`. -/
def perfFactor (β : F) (i : Nat) : LikelihoodFactor F :=
  { id := 2 + i, mean := .rating i, value := .perf i, variance := Flt.powi β 2 }

/-- The factor of team `i`. -/
def teamFactor (w : F) (i : Nat) : SumFactor F :=
  { id := 4 + i, sum := .teamPerf i, terms := [.perf i], coeffs := [w] }

/-- The factor of the difference. -/
def diffFactor : SumFactor F :=
  { id := 6, sum := .teamDiff 0, terms := [.teamPerf 0, .teamPerf 1], coeffs := [1.0, -1.0] }

/-- The store before the iteration. -/
def s3 (ga gb : Gaussian F) (β w w' : F) : Store F :=
  ((teamFactor w' 1).down ((teamFactor w 0).down
    ((perfFactor β 1).down ((perfFactor β 0).down (s1 ga gb)).1).1).1).1

/-- The store at the end, given the one after the iteration. -/
def s7 (β w w' : F) (s4 : Store F) : Store F :=
  ((perfFactor β 1).up ((perfFactor β 0).up
    ((teamFactor w' 1).up 0 ((teamFactor w 0).up 0
      ((diffFactor).up 1 ((diffFactor).up 0 s4).1).1).1).1).1).1

theorem run_eq (a b : TrueSkillRating F) (r r' : MultiTeamOutcome) (τ β p w w' m : F)
    (va ga vb gb : Gaussian F)
    (ha : Gaussian.withMuSigma a.rating a.uncertainty = .ok va)
    (hb : Gaussian.withMuSigma b.rating b.uncertainty = .ok vb)
    (ha' : Gaussian.withMuSigma va.mu (Flt.hypot va.sigma τ) = .ok ga)
    (hb' : Gaussian.withMuSigma vb.mu (Flt.hypot vb.sigma τ) = .ok gb)
    (hm : ((0.0 : F) <? m) = true) :
    runSchedule [1, 2] [([a], r), ([b], r')] [a, b] [w, w'] τ β p m =
      .ok (s7 β w w' (iterLoop m [(diffFactor, truncFactor p β 7 0 ([a], r) ([b], r'))] 10
        (s3 ga gb β w w'))) := by
  simp only [runSchedule, hm, buildRatingLayer, ha, hb, priorsDown, PriorFactor.down, ha', hb']
  simp only [buildPerfLayer, buildTeamPerfLayer, slice, List.range, List.range.loop,
    buildTeamDiffLayer, buildTruncLayer]
  rfl

theorem multi_eq (a b : TrueSkillRating F) (r : MultiTeamOutcome) (cfg : TrueSkillConfig F)
    (va ga vb gb : Gaussian F)
    (ha : Gaussian.withMuSigma a.rating a.uncertainty = .ok va)
    (hb : Gaussian.withMuSigma b.rating b.uncertainty = .ok vb)
    (ha' : Gaussian.withMuSigma va.mu (Flt.hypot va.sigma cfg.dynamicsFactor) = .ok ga)
    (hb' : Gaussian.withMuSigma vb.mu (Flt.hypot vb.sigma cfg.dynamicsFactor) = .ok gb)
    (hm : ((0.0 : F) <? 0.0001) = true) (s : Store F)
    (hs : s = s7 cfg.beta 1.0 1.0 (iterLoop 0.0001 [(diffFactor,
      truncFactor cfg.drawProbability cfg.beta 7 0 ([a], r) ([b], r))] 10
        (s3 ga gb cfg.beta 1.0 1.0))) :
    trueskillMultiTeam [([a], r), ([b], r)] cfg none =
      .ok (.ok [[readRating s 0], [readRating s 1]]) := by
  have hr := run_eq a b r r cfg.dynamicsFactor cfg.beta cfg.drawProbability 1.0 1.0 0.0001
    va ga vb gb ha hb ha' hb' hm
  rw [← hs] at hr
  have hsort : ∀ x y : PosTeam F, x.rank.val ≤ y.rank.val →
      [x, y].mergeSort (fun a b => decide (a.rank.val ≤ b.rank.val)) = [x, y] := by
    intro x y h
    apply List.mergeSort_of_pairwise
    simp [h]
  have hsort' : ∀ x y : List (TrueSkillRating F),
      [(0, x), (1, y)].mergeSort (fun a b => decide (a.1 ≤ b.1)) = [(0, x), (1, y)] := by
    intro x y
    apply List.mergeSort_of_pairwise
    simp
  have hw : getWeights ([([a], r), ([b], r)].map (·.1)) (none : Option (List (List F)))
      = .ok [[1.0], [1.0]] := rfl
  rw [trueskillMultiTeam]
  simp only [hw]
  simp only [List.isEmpty_cons, List.any_cons, List.any_nil, Bool.or_self, Bool.false_eq_true,
    if_false, withPos, List.zip_cons_cons, List.zip_nil_left, List.zipIdx_cons, List.zipIdx_nil,
    List.map_cons, List.map_nil]
  rw [hsort ⟨0, [a], r, [1.0]⟩ ⟨0 + 1, [b], r, [1.0]⟩ (Nat.le_refl _)]
  have hts : teamSizes [([a], r), ([b], r)] = [1, 2] := rfl
  simp only [List.map_cons, List.map_nil, List.flatten_cons, List.flatten_nil, List.append_nil,
    List.cons_append, List.nil_append, hts, hr]
  have e : ((0 :: [1, 2].dropLast).zip [1, 2]).map (fun se : Nat × Nat =>
      slice ((List.range [a, b].length).map (readRating s)) se.1 se.2)
      = [[readRating s 0], [readRating s 1]] := rfl
  rw [e]
  simp only [List.zip_cons_cons, List.zip_nil_left]
  rw [hsort']
  rfl

/-! ### Reading the stores -/

/-- The message of a performance factor. -/
def lmsg (β : F) (g : Gaussian F) : Gaussian F :=
  { pi := Flt.recip (Flt.mulAdd (Flt.powi β 2) g.pi 1.0) * g.pi
    tau := Flt.recip (Flt.mulAdd (Flt.powi β 2) g.pi 1.0) * g.tau }

/-- The message of a sum factor. -/
def tmsg (l : List (Gaussian F × F)) : Gaussian F :=
  { pi := Flt.recip (SumFactor.accumulate l).1
    tau := Flt.recip (SumFactor.accumulate l).1 * (SumFactor.accumulate l).2 }

/-- The performance variable of a player before the iteration. -/
def perfVar (β : F) (i : Nat) (g : Gaussian F) : Variable F :=
  ((Variable.new).updateMessage (2 + i) (lmsg β (g / Gaussian.default))).1

/-- The variable of a team before the iteration. -/
def teamVar (β w : F) (i : Nat) (g : Gaussian F) : Variable F :=
  ((Variable.new).updateMessage (4 + i)
    (tmsg [((perfVar β i g).gaussian / Gaussian.default, w)])).1

theorem s3_rating0 (ga gb : Gaussian F) (β w w' : F) :
    s3 ga gb β w w' (.rating 0) = ratingVar 0 ga := rfl
theorem s3_rating1 (ga gb : Gaussian F) (β w w' : F) :
    s3 ga gb β w w' (.rating 1) = ratingVar 1 gb := rfl
theorem s3_perf0 (ga gb : Gaussian F) (β w w' : F) :
    s3 ga gb β w w' (.perf 0) = perfVar β 0 ga := rfl
theorem s3_perf1 (ga gb : Gaussian F) (β w w' : F) :
    s3 ga gb β w w' (.perf 1) = perfVar β 1 gb := rfl
theorem s3_team0 (ga gb : Gaussian F) (β w w' : F) :
    s3 ga gb β w w' (.teamPerf 0) = teamVar β w 0 ga := rfl
theorem s3_team1 (ga gb : Gaussian F) (β w w' : F) :
    s3 ga gb β w w' (.teamPerf 1) = teamVar β w' 1 gb := rfl

/-- A message written. -/
theorem updateMessage_eq (v : Variable F) (id : Nat) (m : Gaussian F) :
    (v.updateMessage id m).1 = ⟨v.gaussian / v.messages id * m,
      fun k => if k = id then m else v.messages k⟩ := rfl

/-- The iteration changes nothing but the difference. -/
theorem iterLoop_other (m : F) (T : TruncateFactor F) (hT : T.var = .teamDiff 0) (n : Nat)
    (s : Store F) (k : VarRef) (hk : k ≠ .teamDiff 0) :
    iterLoop m [(diffFactor, T)] n s k = s k := by
  have h1 : ∀ s : Store F, (iterate [(diffFactor, T)] s).1 k = s k := by
    intro s
    change ((T.up ((diffFactor).down s).1).1) k = s k
    change (if k = T.var then _ else (if k = .teamDiff 0 then _ else s k)) = s k
    rw [hT, if_neg hk, if_neg hk]
  induction n generalizing s with
  | zero => rfl
  | succ n ih =>
    rw [iterLoop]
    dsimp only
    split
    · exact h1 s
    · rw [ih, h1]

/-- What is said about the difference after every round holds after the iteration. -/
theorem iterLoop_diff (m : F) (T : TruncateFactor F) (P : Variable F → Prop)
    (h : ∀ s : Store F, P ((iterate [(diffFactor, T)] s).1 (.teamDiff 0))) (n : Nat)
    (s : Store F) : P (iterLoop m [(diffFactor, T)] (n + 1) s (.teamDiff 0)) := by
  induction n generalizing s with
  | zero =>
    rw [iterLoop]
    dsimp only
    split
    · exact h s
    · exact h s
  | succ n ih =>
    rw [iterLoop]
    dsimp only
    split
    · exact h s
    · exact ih _

/-! ### The way back -/

section
variable (β : F) (s : Store F)

/-- The message of the difference to the first team. -/
def back0 : Gaussian F :=
  tmsg [((s (.teamDiff 0)).gaussian / (s (.teamDiff 0)).messages 6, Flt.recip 1.0),
    ((s (.teamPerf 1)).gaussian / (s (.teamPerf 1)).messages 6, -(-1.0) / 1.0)]

/-- The variable of the first team after it. -/
def team0 : Variable F := ((s (.teamPerf 0)).updateMessage 6 (back0 s)).1

/-- The message of the difference to the second team. -/
def back1 : Gaussian F :=
  tmsg [((team0 s).gaussian / (team0 s).messages 6, -1.0 / -1.0),
    ((s (.teamDiff 0)).gaussian / (s (.teamDiff 0)).messages 6, Flt.recip (-1.0))]

/-- The variable of the second team after it. -/
def team1 : Variable F := ((s (.teamPerf 1)).updateMessage 6 (back1 s)).1

/-- The rest of the way to a player: team, performance, rating. -/
def finish (i : Nat) (t p r : Variable F) : Variable F :=
  let p' := (p.updateMessage (4 + i) (tmsg [(t.gaussian / t.messages (4 + i), Flt.recip 1.0)])).1
  (r.updateMessage (2 + i) (lmsg β (p'.gaussian / p'.messages (2 + i)))).1

theorem s7_rating (h1 : ((1.0 : F) ==? 0.0) = false) (h2 : ((-1.0 : F) ==? 0.0) = false) :
    s7 β 1.0 1.0 s (.rating 0) = finish β 0 (team0 s) (s (.perf 0)) (s (.rating 0)) ∧
    s7 β 1.0 1.0 s (.rating 1) = finish β 1 (team1 s) (s (.perf 1)) (s (.rating 1)) := by
  have c0 : SumFactor.upCoeffs [(1.0 : F), -1.0] 0 = [Flt.recip 1.0, -(-1.0) / 1.0] := by
    simp [SumFactor.upCoeffs, h1]
  have c1 : SumFactor.upCoeffs [(1.0 : F), -1.0] 1 = [-1.0 / -1.0, Flt.recip (-1.0)] := by
    simp [SumFactor.upCoeffs, h2]
  have c2 : SumFactor.upCoeffs [(1.0 : F)] 0 = [Flt.recip 1.0] := by
    simp [SumFactor.upCoeffs, h1]
  have e0 : ∀ s : Store F, ((diffFactor).up 0 s).1 = (s.write (.teamPerf 0)
      ((s (.teamPerf 0)).updateMessage 6 (back0 s))).1 := by
    intro s
    change ((diffFactor).update s (.teamPerf 0) [.teamDiff 0, .teamPerf 1]
      (SumFactor.upCoeffs [(1.0 : F), -1.0] 0)).1 = _
    rw [c0]; rfl
  have e1 : ∀ s : Store F, ((diffFactor).up 1 s).1 = (s.write (.teamPerf 1)
      ((s (.teamPerf 1)).updateMessage 6 (tmsg
        [((s (.teamPerf 0)).gaussian / (s (.teamPerf 0)).messages 6, -1.0 / -1.0),
        ((s (.teamDiff 0)).gaussian / (s (.teamDiff 0)).messages 6, Flt.recip (-1.0))]))).1 := by
    intro s
    change ((diffFactor).update s (.teamPerf 1) [.teamPerf 0, .teamDiff 0]
      (SumFactor.upCoeffs [(1.0 : F), -1.0] 1)).1 = _
    rw [c1]; rfl
  have e2 : ∀ (i : Nat) (s : Store F), ((teamFactor (1.0 : F) i).up 0 s).1 = (s.write (.perf i)
      ((s (.perf i)).updateMessage (4 + i) (tmsg
        [((s (.teamPerf i)).gaussian / (s (.teamPerf i)).messages (4 + i), Flt.recip 1.0)]))).1 := by
    intro i s
    change ((teamFactor (1.0 : F) i).update s (.perf i) [.teamPerf i]
      (SumFactor.upCoeffs [(1.0 : F)] 0)).1 = _
    rw [c2]; rfl
  simp only [s7, e0, e1, e2]
  exact ⟨rfl, rfl⟩

end

end OneOnOne
end TrueSkill
end Skillratings
