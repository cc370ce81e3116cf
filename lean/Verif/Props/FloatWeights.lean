import Verif.Proofs.FPZero
import Verif.Spec.Float
import Verif.Spec.Weights
import Verif.FPInstance
/-
C106: players of weight zero in `trueskill_multi_team`, in floating point.
C107: `trueskill_multi_team` does not panic in floating point.
-/

namespace Skillratings
open FP FPVal Spec
variable {E : FloatEnv}

namespace TrueSkill

/-- The range of uncertainties, dynamics factors and betas in the claims below. -/
def OrdinaryMatch (ts : List (List (TrueSkillRating (FP E)) × MultiTeamOutcome))
    (cfg : TrueSkillConfig (FP E)) : Prop :=
  (2 ≤ ts.length) ∧ (∀ t ∈ ts, t.1 ≠ []) ∧
  (∀ t ∈ ts, ∀ r ∈ t.1, In (E := E) ((1 / 4 : ℝ) : EReal) ((2 ^ 10 : ℝ) : EReal) r.uncertainty) ∧
  In (E := E) ((0 : ℝ) : EReal) ((2 ^ 10 : ℝ) : EReal) cfg.dynamicsFactor ∧
  In (E := E) ((0 : ℝ) : EReal) ((2 ^ 10 : ℝ) : EReal) cfg.beta

/-- The weights that the documentation admits: one per player, none negative. -/
def AdmittedWeights (ts : List (List (TrueSkillRating (FP E)) × MultiTeamOutcome))
    (w : List (List (FP E))) : Prop :=
  w.length = ts.length ∧ ∀ k < ts.length, TeamWeightsOk (ts.map fun t => t.1.length) w k

private theorem prior_of (L : E.Lib) {τ : FP E} (r : TrueSkillRating (FP E))
    (hσ : In (E := E) ((1 / 4 : ℝ) : EReal) ((2 ^ 10 : ℝ) : EReal) r.uncertainty)
    (hτ : In (E := E) ((0 : ℝ) : EReal) ((2 ^ 10 : ℝ) : EReal) τ) :
    ∃ g, Trace.prior τ r = .ok g ∧ Rg 22 4 g.pi ∧ g.sigma = carried r.uncertainty τ := by
  obtain ⟨v, g, h1, h2, h3⟩ := OneOnOne.prior_ok (μ := r.rating) L hσ hτ
  refine ⟨g, by rw [Trace.prior, h1]; exact h2, h3, ?_⟩
  have hσ' : Rg 2 10 r.uncertainty := by
    have : (1 / 4 : ℝ) = 1 / 2 ^ 2 := by norm_num
    rw [this] at hσ; exact hσ
  simp only [Gaussian.withMuSigma, hσ'.nb.ne_zero, Bool.false_eq_true, if_false,
    Except.ok.injEq] at h1
  simp only [Gaussian.withMuSigma] at h2
  split_ifs at h2
  simp only [Except.ok.injEq] at h2
  have hpi : (Flt.powi r.uncertainty (-2) ==? (0.0 : FP E)) = false := by
    have e : Flt.powi r.uncertainty (-2) = Flt.recip (r.uncertainty * r.uncertainty) :=
      L.powi_neg_two _
    rw [e]
    have h4 : Rg 4 20 (r.uncertainty * r.uncertainty) := by
      refine mul_in hσ' hσ' (by positivity) (by positivity) (SRep.inv_two_pow _ (by norm_num))
        (SRep.two_pow _ (by norm_num)) ?_ ?_ <;> norm_num
    exact (h4.nb.recip (by norm_num) (by norm_num)).ne_zero
  have hv : v.sigma = Flt.sqrt (Flt.recip (Flt.powi r.uncertainty (-2))) := by
    rw [← h1]
    simp only [Gaussian.sigma, hpi, Bool.false_eq_true, if_false]
  have hg : g.pi = Flt.powi (Flt.hypot v.sigma τ) (-2) := by rw [← h2]
  simp only [Gaussian.sigma, h3.nb.ne_zero, Bool.false_eq_true, if_false]
  rw [hg, hv]
  rfl

private theorem min_delta : ((0.0 : FP E) <? 0.0001) = true := by
  refine lt_iff.2 ⟨zero_in.1, by rw [lit]; exact E.round_not_nan _ _, ?_⟩
  refine lt_of_le_of_lt zero_in.2.2 ?_
  rw [lit]
  refine lt_of_lt_of_le ?_ (E.round_ge false (SRep.inv_two_pow 20 (by norm_num)) ?_)
  · have : (0 : ℝ) < 1 / 2 ^ 20 := by positivity
    exact_mod_cast this
  · norm_num

private theorem weights_ok {ts : List (List (TrueSkillRating (FP E)) × MultiTeamOutcome)}
    {w : List (List (FP E))} (hw : AdmittedWeights ts w) :
    getWeights (ts.map (·.1)) (some w) = .ok w := by
  refine (getWeights_ok _ _ _).2 ⟨rfl, by simpa using hw.1, fun k hk => ?_⟩
  have := hw.2 k (by simpa using hk)
  rw [List.map_map]
  exact this

/-- **C107.** A precision that changes by an infinite amount counts as no change: it does not keep
the message loop running.  All other changes count with the larger of the change of `τ` and the
square root of the change of `π`. -/
theorem C107_change_of_a_variable (v : Variable (FP E)) (g : Gaussian (FP E)) :
    ((v.gaussian.pi - g.pi).isFinite ∨ (v.gaussian.pi - g.pi).isNaN → (v.set g).2 =
      Flt.fmax (Flt.abs (v.gaussian.tau - g.tau)) (Flt.sqrt (Flt.abs (v.gaussian.pi - g.pi)))) ∧
    (¬ (v.gaussian.pi - g.pi).isFinite ∧ ¬ (v.gaussian.pi - g.pi).isNaN → (v.set g).2 = 0.0) := by
  simp only [Variable.set, Variable.delta]
  generalize v.gaussian.pi - g.pi = x
  cases x <;> simp [FPVal.isFinite, FPVal.isNaN, Flt.isInfinite, Flt.abs, FPVal.abs]

/-- **C107.** In every floating-point arithmetic a match of two or more teams with ordinary
uncertainties and admitted weights is rated: no panic and no error, whatever the ratings (infinite
or NaN ones too) and the draw probability, and every team comes back with as many players as it
had. -/
theorem C107_floats_do_not_panic (L : E.Lib)
    (ts : List (List (TrueSkillRating (FP E)) × MultiTeamOutcome)) (cfg : TrueSkillConfig (FP E))
    (w : List (List (FP E))) (hm : OrdinaryMatch ts cfg) (hw : AdmittedWeights ts w) :
    (∃ out, trueskillMultiTeam ts cfg (some w) = .ok (.ok out) ∧
      out.map List.length = ts.map fun t => t.1.length) ∧
    ∃ out, trueskillMultiTeam ts cfg none = .ok (.ok out) ∧
      out.map List.length = ts.map fun t => t.1.length := by
  obtain ⟨h2, hne, hσ, hτ, -⟩ := hm
  have hp : ∀ t ∈ ts, ∀ r ∈ t.1, ∃ g, Trace.prior cfg.dynamicsFactor r = .ok g := fun t ht r hr =>
    (prior_of L r (hσ t ht r hr) hτ).imp fun g h => h.1
  exact ⟨Trace.multi_ok ts cfg _ w (weights_ok hw) h2 hne min_delta hp,
    Trace.multi_ok ts cfg none _ rfl h2 hne min_delta hp⟩

private theorem traced (L : E.Lib)
    (ts : List (List (TrueSkillRating (FP E)) × MultiTeamOutcome)) (cfg : TrueSkillConfig (FP E))
    (w : List (List (FP E))) (hm : OrdinaryMatch ts cfg) (hw : AdmittedWeights ts w) (a : ℕ)
    (team : List (TrueSkillRating (FP E))) (rank : MultiTeamOutcome) (wt : List (FP E))
    (ha : ts[a]? = some (team, rank)) (hwa : w[a]? = some wt) :
    ∃ (out : List (List (TrueSkillRating (FP E)))) (d : Trace.Lay (FP E)) (s : Store (FP E))
      (r : d.Run s) (t : ℕ), trueskillMultiTeam ts cfg (some w) = .ok (.ok out) ∧ t < d.m ∧
      d.sz t = team.length ∧ 0 < team.length ∧ wt.length = team.length ∧
      In (E := E) ((0 : ℝ) : EReal) ((2 ^ 10 : ℝ) : EReal) d.β ∧
      (∀ x q, team[x]? = some q → Rg 22 4 (r.g (d.off t + x)).pi ∧
        (r.g (d.off t + x)).sigma = carried q.uncertainty cfg.dynamicsFactor) ∧
      (∀ x c, wt[x]? = some c → d.w (d.off t + x) = c) ∧
      out[a]? = some ((List.range team.length).map fun x =>
        { rating := (Trace.outcome d.β (r.g (d.off t + x)) (r.msg t x)).mu
          uncertainty := (Trace.outcome d.β (r.g (d.off t + x)) (r.msg t x)).sigma }) := by
  obtain ⟨⟨out, hout, -⟩, -⟩ := C107_floats_do_not_panic L ts cfg w hm hw
  obtain ⟨h2, hne, hσ, hτ, hβ⟩ := hm
  obtain ⟨d, s, r, t, ht, hsz, e1, e2, hlen, hR, hW, hres⟩ :=
    Trace.multi_trace ts cfg w out hne hout a team rank wt ha hwa
  refine ⟨out, d, s, r, t, hout, ht, hsz,
    List.length_pos_iff.2 (hne _ (List.mem_of_getElem? ha)), hlen, e2 ▸ hβ, ?_, hW, ?_⟩
  · intro x q hq
    obtain ⟨g, h1, h3, h4⟩ := prior_of L q
      (hσ _ (List.mem_of_getElem? ha) q (List.mem_of_getElem? hq)) hτ
    have hx : x < d.sz t := by
      rw [hsz]; exact (List.getElem?_eq_some_iff.1 hq).1
    have h5 := r.prior _ (d.off_lt ht hx)
    rw [hR x q hq, e1, h1] at h5
    obtain rfl : g = r.g (d.off t + x) := Except.ok.inj h5
    exact ⟨h3, h4⟩
  · rw [hres]
    congr 1
    apply List.map_congr_left
    intro x hx
    rw [List.mem_range, ← hsz] at hx
    rw [readRating, Trace.read_eq r t x ht hx]

/-- **C106, a team that did not play.** If every player of a team has weight zero, then all of
them end with a rating and an uncertainty that are not numbers. -/
theorem C106_team_of_weight_zero (L : E.Lib)
    (ts : List (List (TrueSkillRating (FP E)) × MultiTeamOutcome)) (cfg : TrueSkillConfig (FP E))
    (w : List (List (FP E))) (hm : OrdinaryMatch ts cfg) (hw : AdmittedWeights ts w) (a : ℕ)
    (team : List (TrueSkillRating (FP E))) (rank : MultiTeamOutcome) (wt : List (FP E))
    (ha : ts[a]? = some (team, rank)) (hwa : w[a]? = some wt)
    (h0 : ∀ c ∈ wt, (c ==? 0.0) = true) :
    ∃ out team', trueskillMultiTeam ts cfg (some w) = .ok (.ok out) ∧ out[a]? = some team' ∧
      team'.length = team.length ∧ ∀ r ∈ team', r.rating.isNaN ∧ r.uncertainty.isNaN := by
  obtain ⟨out, d, s, r, t, hout, ht, hsz, hpos, hlen, hβ, hg, hW, hres⟩ :=
    traced L ts cfg w hm hw a team rank wt ha hwa
  refine ⟨out, _, hout, hres, by simp, ?_⟩
  intro q hq
  obtain ⟨x, hx, rfl⟩ := List.mem_map.1 hq
  rw [List.mem_range, ← hsz] at hx
  have hw0 : ∀ x < d.sz t, (d.w (d.off t + x) ==? 0.0) = true := by
    intro x hx
    have hx' : x < wt.length := by omega
    rw [hW x wt[x] (by simp)]
    exact h0 _ (List.getElem_mem hx')
  have hg0 : ∀ x < d.sz t, Rg 22 4 (r.g (d.off t + x)).pi := fun x hx =>
    (hg x (team[x]'(by omega)) (by simp)).1
  obtain ⟨h1, h2⟩ := Trace.team_zero r L hβ ht hw0 hg0 (by omega) x hx
  exact Trace.outcome_nan h1 h2

/-- **C106, any player of weight zero.** Whatever the rest of the match, a player of weight zero
ends with a rating and an uncertainty that are not numbers, or learns nothing: the uncertainty is
the one carried into the match. -/
theorem C106_player_of_weight_zero (L : E.Lib)
    (ts : List (List (TrueSkillRating (FP E)) × MultiTeamOutcome)) (cfg : TrueSkillConfig (FP E))
    (w : List (List (FP E))) (hm : OrdinaryMatch ts cfg) (hw : AdmittedWeights ts w) (a x : ℕ)
    (team : List (TrueSkillRating (FP E))) (rank : MultiTeamOutcome) (wt : List (FP E))
    (q : TrueSkillRating (FP E)) (c : FP E) (ha : ts[a]? = some (team, rank))
    (hwa : w[a]? = some wt) (hq : team[x]? = some q) (hc : wt[x]? = some c)
    (h0 : (c ==? 0.0) = true) :
    ∃ out team' q', trueskillMultiTeam ts cfg (some w) = .ok (.ok out) ∧ out[a]? = some team' ∧
      team'[x]? = some q' ∧ ((q'.rating.isNaN ∧ q'.uncertainty.isNaN) ∨
        q'.uncertainty = carried q.uncertainty cfg.dynamicsFactor) := by
  obtain ⟨out, d, s, r, t, hout, ht, hsz, hpos, hlen, hβ, hg, hW, hres⟩ :=
    traced L ts cfg w hm hw a team rank wt ha hwa
  have hx : x < team.length := (List.getElem?_eq_some_iff.1 hq).1
  refine ⟨out, _, _, hout, hres, by rw [List.getElem?_map, List.getElem?_range hx]; rfl, ?_⟩
  obtain ⟨g1, g2⟩ := hg x q hq
  rcases Trace.msg_zero r L t x (by omega) (by rw [hW x c hc]; exact h0) with h | ⟨h, -⟩
  · exact Or.inl (Trace.outcome_nan h.1 h.2)
  · exact Or.inr ((Trace.outcome_empty L hβ g1 h).trans g2)

/-- **C106, a player of weight zero at the head of the team.** That player ends with a rating and
an uncertainty that are not numbers, unless nobody in the team learns anything from the match. -/
theorem C106_first_player_of_weight_zero (L : E.Lib)
    (ts : List (List (TrueSkillRating (FP E)) × MultiTeamOutcome)) (cfg : TrueSkillConfig (FP E))
    (w : List (List (FP E))) (hm : OrdinaryMatch ts cfg) (hw : AdmittedWeights ts w) (a : ℕ)
    (q : TrueSkillRating (FP E)) (mates : List (TrueSkillRating (FP E))) (rank : MultiTeamOutcome)
    (c : FP E) (wt : List (FP E)) (ha : ts[a]? = some (q :: mates, rank))
    (hwa : w[a]? = some (c :: wt)) (h0 : (c ==? 0.0) = true) :
    ∃ out q' mates', trueskillMultiTeam ts cfg (some w) = .ok (.ok out) ∧
      out[a]? = some (q' :: mates') ∧
      ((q'.rating.isNaN ∧ q'.uncertainty.isNaN) ∨
        (q' :: mates').map (·.uncertainty) =
          (q :: mates).map fun p => carried p.uncertainty cfg.dynamicsFactor) := by
  obtain ⟨out, d, s, r, t, hout, ht, hsz, hpos, hlen, hβ, hg, hW, hres⟩ :=
    traced L ts cfg w hm hw a (q :: mates) rank (c :: wt) ha hwa
  have hcons := hres
  rw [List.length_cons, List.range_succ_eq_map, List.map_cons] at hcons
  refine ⟨out, _, _, hout, hcons, ?_⟩
  rw [← Option.some.inj (hres.symm.trans hcons)]
  have hg0 : ∀ x < d.sz t, Rg 22 4 (r.g (d.off t + x)).pi := fun x hx =>
    (hg x ((q :: mates)[x]'(by omega)) (by simp)).1
  rcases Trace.head_zero r L hβ ht (by omega) (by rw [hW 0 c rfl]; exact h0) hg0 with h | h
  · exact Or.inl (Trace.outcome_nan h.1 h.2)
  · right
    rw [List.map_map]
    apply List.ext_getElem
    · simp
    · intro x h1 h2
      have hx : x < (q :: mates).length := by simpa using h1
      simp only [List.getElem_map, List.getElem_range, Function.comp]
      obtain ⟨g1, g2⟩ := hg x ((q :: mates)[x]) (by simp)
      exact (Trace.outcome_empty L hβ g1 (h x (by omega))).trans g2

/-! ### A concrete match -/

private theorem ex_match : OrdinaryMatch (E := ieee)
    [([⟨25.0, 8.0⟩, ⟨30.0, 2.0⟩], ⟨1⟩), ([⟨20.0, 4.0⟩], ⟨2⟩)]
    { drawProbability := 0.1, beta := 4.0, dynamicsFactor := 0.5 } := by
  have l2 := (lit_in (E := ieee) (m := 20) (s := true) (e := 1) (v := 2) (by norm_num)
    (SRep.ofNat 2 (by norm_num)))
  have l4 := (lit_in (E := ieee) (m := 40) (s := true) (e := 1) (v := 4) (by norm_num)
    (SRep.ofNat 4 (by norm_num)))
  have l8 := (lit_in (E := ieee) (m := 80) (s := true) (e := 1) (v := 8) (by norm_num)
    (SRep.ofNat 8 (by norm_num)))
  have lh := (lit_in (E := ieee) (m := 5) (s := true) (e := 1) (v := 1 / 2) (by norm_num) SRep.half)
  refine ⟨by simp, by simp, ?_, lh.mono (by norm_num) (by norm_num),
    l4.mono (by norm_num) (by norm_num)⟩
  intro t ht r hr
  simp only [List.mem_cons, List.not_mem_nil, or_false] at ht
  rcases ht with rfl | rfl
  · simp only [List.mem_cons, List.not_mem_nil, or_false] at hr
    rcases hr with rfl | rfl
    · exact l8.mono (by norm_num) (by norm_num)
    · exact l2.mono (by norm_num) (by norm_num)
  · simp only [List.mem_cons, List.not_mem_nil, or_false] at hr
    subst hr
    exact l4.mono (by norm_num) (by norm_num)

private theorem ex_weights {u v z : FP ieee} (hu : (u <? 0.0) = false) (hv : (v <? 0.0) = false)
    (hz : (z <? 0.0) = false) : AdmittedWeights (E := ieee)
    [([⟨25.0, 8.0⟩, ⟨30.0, 2.0⟩], ⟨1⟩), ([⟨20.0, 4.0⟩], ⟨2⟩)] [[u, v], [z]] := by
  refine ⟨rfl, fun k hk => ?_⟩
  have hk : k < 2 := hk
  interval_cases k
  · refine ⟨2, [u, v], rfl, rfl, rfl, ?_⟩
    intro c hc
    simp only [List.mem_cons, List.not_mem_nil, or_false] at hc
    rcases hc with rfl | rfl
    · rw [hu]; simp
    · rw [hv]; simp
  · refine ⟨1, [z], rfl, rfl, rfl, ?_⟩
    intro c hc
    obtain rfl : c = z := by simpa using hc
    rw [hz]; simp

private theorem zero_not_neg : ((0.0 : FP ieee) <? 0.0) = false := by
  rw [Bool.eq_false_iff]
  intro h
  exact lt_irrefl _ (lt_iff.1 h).2.2

private theorem one_not_neg : ((1.0 : FP ieee) <? 0.0) = false := by
  rw [Bool.eq_false_iff]
  intro h
  have h1 := (lt_iff.1 h).2.2
  have h2 := lt_of_lt_of_le (lt_of_le_of_lt (one_in (E := ieee)).2.1 h1) (zero_in (E := ieee)).2.2
  have : (1 : ℝ) < 0 := by exact_mod_cast h2
  linarith

private theorem zero_is_zero : ((0.0 : FP ieee) ==? 0.0) = true :=
  feq_zero_iff.2 ⟨zero_in.1, le_antisymm zero_in.2.2 zero_in.2.1⟩

/-- The lone loser has weight zero and ends with NaN. -/
example : ∃ (out : _) (q' : TrueSkillRating (FP ieee)), trueskillMultiTeam (F := FP ieee)
    [([⟨25.0, 8.0⟩, ⟨30.0, 2.0⟩], ⟨1⟩), ([⟨20.0, 4.0⟩], ⟨2⟩)]
    { drawProbability := 0.1, beta := 4.0, dynamicsFactor := 0.5 } (some [[1.0, 1.0], [0.0]])
      = .ok (.ok out) ∧ out[1]? = some [q'] ∧ q'.rating.isNaN ∧ q'.uncertainty.isNaN := by
  obtain ⟨out, team', h1, h2, h3, h4⟩ := C106_team_of_weight_zero ieee_lib _ _
    [[1.0, 1.0], [0.0]] ex_match (ex_weights one_not_neg one_not_neg zero_not_neg) 1 _ _ _ rfl rfl
    (by intro c hc; obtain rfl : c = 0.0 := by simpa using hc
        exact zero_is_zero)
  obtain ⟨q', rfl⟩ := List.length_eq_one_iff.1 h3
  exact ⟨out, q', h1, h2, h4 q' (by simp)⟩

/-- The first player of the winning team has weight zero. -/
example := C106_first_player_of_weight_zero ieee_lib _ _ [[0.0, 1.0], [1.0]] ex_match
  (ex_weights zero_not_neg one_not_neg one_not_neg) 0 _ _ _ _ _ rfl rfl zero_is_zero

/-- The second player of the winning team has weight zero. -/
example := C106_player_of_weight_zero ieee_lib _ _ [[1.0, 0.0], [1.0]] ex_match
  (ex_weights one_not_neg zero_not_neg one_not_neg) 0 1 _ _ _ _ _ rfl rfl rfl rfl zero_is_zero

/-- A match with ordinary weights is rated. -/
example := (C107_floats_do_not_panic ieee_lib _ _ [[1.0, 1.0], [1.0]] ex_match
  (ex_weights one_not_neg one_not_neg one_not_neg)).1

end TrueSkill
end Skillratings
