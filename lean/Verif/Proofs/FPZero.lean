import Verif.Proofs.FPTie
import Verif.Proofs.TraceMulti
/-
Players with weight zero in `trueskill_multi_team`, in floating point.
-/

namespace Skillratings
open FP FPVal
variable {E : FloatEnv} {x y z : FP E}

namespace FP

theorem zn_add (hx : ZN x) (hy : ZN y) : ZN (x + y) := by
  rcases hx with hx | ⟨hx, h0⟩
  · exact Or.inl (nan_add hx)
  · rcases hy with hy | ⟨hy, h1⟩
    · exact Or.inl (add_nan hy)
    · obtain ⟨s, hs⟩ := add_fin hx hy
      rw [hs]
      exact zn_of_round (by rw [h0, h1, add_zero])

theorem add_nonfin (h : ¬ y.isFinite) : ¬ (x + y).isFinite := by
  change ¬ (E.add x y).isFinite
  cases y with
  | fin => exact absurd trivial h
  | nan => cases x <;> exact id
  | inf t =>
    cases x with
    | nan => exact id
    | fin => exact id
    | inf s => by_cases hst : s = t <;> simp [FloatEnv.add, hst, FPVal.isFinite]

theorem nonfin_mul_zn (hx : ¬ x.isFinite) (hy : ZN y) : (x * y).isNaN := by
  rcases hy with h | ⟨h, h0⟩
  · exact mul_nan h
  · change (E.mul x y).isNaN
    cases y with
    | nan => exact h.elim
    | inf => exact h.elim
    | fin s m =>
      have h0 : m.1 = 0 := (fin_zero_iff s m).2 h0
      cases x with
      | nan => trivial
      | fin => exact absurd trivial hx
      | inf t => simp [FloatEnv.mul, h0, FPVal.isNaN]

theorem zn_mul_nonfin (hx : ZN x) (hy : ¬ y.isFinite) : (x * y).isNaN := by
  rcases hx with h | ⟨h, h0⟩
  · exact nan_mul h
  · change (E.mul x y).isNaN
    cases x with
    | nan => exact h.elim
    | inf => exact h.elim
    | fin s m =>
      have h0 : m.1 = 0 := (fin_zero_iff s m).2 h0
      cases y with
      | nan => trivial
      | fin => exact absurd trivial hy
      | inf t => simp [FloatEnv.mul, h0, FPVal.isNaN]

theorem feq_zero_zn (h : (x ==? 0.0) = true) : x.isFinite ∧ x.toR = 0 := by
  obtain ⟨h1, h2⟩ := feq_zero_iff.1 h
  have hf : x.isFinite := isFinite_iff.2 ⟨h1, fun h4 => EReal.zero_ne_top (h2.symm.trans h4),
    fun h4 => EReal.zero_ne_bot (h2.symm.trans h4)⟩
  refine ⟨hf, ?_⟩
  have := hf.toE_eq.symm.trans h2
  exact_mod_cast this

/-- The reciprocal of an infinity. -/
theorem recip_infinite (h : Flt.isInfinite x = true) : (Flt.recip x).isFinite ∧ (Flt.recip x).toR = 0 := by
  have hn : ¬ x.isNaN := by
    cases x with
    | nan => cases h
    | inf => exact id
    | fin => exact id
  have hx : ¬ x.isFinite := by
    cases x with
    | nan => exact id
    | inf => exact id
    | fin => cases h
  rw [recip_eq]
  rcases fin_div_nonfin one_in.finite hx with h1 | h1
  · exfalso
    revert h1
    change ¬ (E.div (1.0 : FP E) x).isNaN
    have h1f := (one_in (E := E)).finite
    generalize (1.0 : FP E) = o at h1f
    cases x with
    | nan => exact (hn trivial).elim
    | fin => exact (hx trivial).elim
    | inf t =>
      cases o with
      | nan => exact h1f.elim
      | inf => exact h1f.elim
      | fin => exact id
  · exact h1

/-- A nonzero finite value is determined by its real value. -/
theorem eq_of_toR {a b : FP E} (ha : a.isFinite) (hb : b.isFinite) (h : a.toR = b.toR)
    (h0 : b.toR ≠ 0) : a = b := by
  cases a with
  | nan => exact ha.elim
  | inf => exact ha.elim
  | fin s m =>
    cases b with
    | nan => exact hb.elim
    | inf => exact hb.elim
    | fin t n =>
      have hm := m.2.nonneg
      have hn := n.2.nonneg
      have h' : signed s m.1 = signed t n.1 := h
      have h0' : signed t n.1 ≠ 0 := h0
      cases s <;> cases t <;> simp only [signed, if_true, Bool.false_eq_true, if_false] at h' h0'
      · congr 1; exact Subtype.ext h'
      · exfalso; apply h0'; linarith
      · exfalso; apply h0'; linarith
      · congr 1; exact Subtype.ext (neg_injective h')

theorem add_zero_val (hx : x.isFinite) (hy : y.isFinite) (h0 : y.toR = 0) :
    (x + y).isFinite ∧ (x + y).toR = x.toR := by
  obtain ⟨s, hs⟩ := add_fin hx hy
  have h := hx.srep
  rw [hs, h0, add_zero]
  have hf := E.round_finite s h
  refine ⟨hf, ?_⟩
  have h1 := E.round_rep s h
  rw [hf.toE_eq] at h1
  exact_mod_cast h1

theorem sub_self_val (hx : x.isFinite) (hy : y.isFinite) (h : x.toR = y.toR) :
    (x - y).isFinite ∧ (x - y).toR = 0 := by
  obtain ⟨s, hs⟩ := sub_fin hx hy
  rw [hs, h, sub_self]
  rcases zn_of_round (E := E) (s := s) (v := 0) rfl with h1 | h1
  · exact (E.round_not_nan _ _ h1).elim
  · exact h1

end FP

namespace TrueSkill
namespace Trace
open OneOnOne FP

/-! ### Messages -/

/-- The accumulation, one pair at a time. -/
theorem accumulate_append (l : List (Gaussian (FP E) × FP E)) (e : Gaussian (FP E) × FP E) :
    SumFactor.accumulate (l ++ [e]) =
      (if Flt.isInfinite (SumFactor.accumulate l).1 then (SumFactor.accumulate l).1
        else if e.1.pi ==? 0.0 then Flt.infinity
        else (SumFactor.accumulate l).1 + Flt.powi e.2 2 / e.1.pi,
       (SumFactor.accumulate l).2 + e.2 * e.1.mu) := by
  rw [SumFactor.accumulate, List.foldl_append]
  simp only [List.foldl_cons, List.foldl_nil]
  rw [← SumFactor.accumulate]
  split_ifs <;> rfl

/-- With zero coefficients. -/
theorem accumulate_zero (L : E.Lib) (l : List (Gaussian (FP E) × FP E)) (h : ∀ e ∈ l, ZN e.2) :
    ZN (SumFactor.accumulate l).2 ∧ (ZN (SumFactor.accumulate l).1 ∨
      (Flt.isInfinite (SumFactor.accumulate l).1 = true ∧ ∃ e ∈ l, (e.1.pi ==? 0.0) = true)) := by
  induction l using List.reverseRecOn with
  | nil => exact ⟨zero_zn, Or.inl zero_zn⟩
  | append_singleton l e ih =>
    obtain ⟨i1, i2⟩ := ih fun e he => h e (by simp [he])
    have hc : ZN e.2 := h e (by simp)
    rw [accumulate_append]
    refine ⟨zn_add i1 (zn_mul hc), ?_⟩
    rcases i2 with i2 | ⟨i2, e', he', h0⟩
    · simp only [zn_not_infinite i2, Bool.false_eq_true, if_false]
      cases he : (e.1.pi ==? 0.0) with
      | true => exact Or.inr ⟨rfl, e, by simp, he⟩
      | false =>
        left
        simp only [Bool.false_eq_true, if_false]
        rw [powi_two' L]
        exact zn_add i2 (zn_div (zn_mul hc))
    · simp only [i2, if_true]
      exact Or.inr ⟨trivial, e', by simp [he'], h0⟩

/-- A value without precision among the terms makes the sum infinitely uncertain. -/
theorem accumulate_inf (l : List (Gaussian (FP E) × FP E)) (h : ∃ e ∈ l, (e.1.pi ==? 0.0) = true) :
    Flt.isInfinite (SumFactor.accumulate l).1 = true := by
  induction l using List.reverseRecOn with
  | nil => obtain ⟨e, he, -⟩ := h; simp at he
  | append_singleton l e ih =>
    rw [accumulate_append]
    by_cases hi : Flt.isInfinite (SumFactor.accumulate l).1 = true
    · simp only [hi, if_true]
    · obtain ⟨e', he', h0⟩ := h
      have hne : e' ∉ l := fun hm => hi (ih ⟨e', hm, h0⟩)
      obtain rfl : e' = e := by simpa [hne] using he'
      simp only [hi, h0, if_true]
      rfl

/-- The message to a player with zero coefficients. -/
theorem tmsg_zero (L : E.Lib) (l : List (Gaussian (FP E) × FP E)) (h : ∀ e ∈ l, ZN e.2)
    (h0 : ∀ e ∈ l, (e.1.pi ==? 0.0) = false) :
    ¬ (tmsg l).pi.isFinite ∧ (tmsg l).tau.isNaN := by
  obtain ⟨h1, h2⟩ := accumulate_zero L l h
  rcases h2 with h2 | ⟨-, e, he, h3⟩
  · have h3 : ¬ (tmsg l).pi.isFinite := by
      simp only [tmsg, recip_eq]; exact div_zn h2
    exact ⟨h3, nonfin_mul_zn h3 h1⟩
  · rw [h0 e he] at h3; cases h3

/-- The message that carries nothing. -/
def Empty (g : Gaussian (FP E)) : Prop := (g.pi.isFinite ∧ g.pi.toR = 0) ∧ ZN g.tau

theorem tmsg_inf (l : List (Gaussian (FP E) × FP E)) (h : ∃ e ∈ l, (e.1.pi ==? 0.0) = true) :
    Empty (tmsg l) := by
  have h1   := recip_infinite (accumulate_inf l h)
  exact ⟨h1, zn_mul (Or.inr h1)⟩

/-! ### From the message to the result -/

/-- The result of a player with prior `g` and message `M`. -/
noncomputable def outcome (β : FP E) (g M : Gaussian (FP E)) : Gaussian (FP E) :=
  g / Gaussian.default * lmsg β ((Gaussian.default / Gaussian.default * lmsg β (g / Gaussian.default))
    / Gaussian.default * M / lmsg β (g / Gaussian.default))

theorem outcome_nan {β : FP E} {g M : Gaussian (FP E)} (h : ¬ M.pi.isFinite) (h' : M.tau.isNaN) :
    (outcome β g M).mu.isNaN ∧ (outcome β g M).sigma.isNaN := by
  set X := (Gaussian.default / Gaussian.default * lmsg β (g / Gaussian.default))
    / Gaussian.default * M / lmsg β (g / Gaussian.default) with hX
  have hx : ¬ X.pi.isFinite := nonfin_sub (add_nonfin h)
  have ha : ZN (Flt.recip (Flt.mulAdd (Flt.powi β 2) X.pi (1.0 : FP E))) := by
    rw [recip_eq]
    refine fin_div_nonfin one_in.finite ?_
    change ¬ (E.mulAdd (Flt.powi β 2 : FP E) X.pi (1.0 : FP E)).isFinite
    have h1 := (one_in (E := E)).finite
    generalize (1.0 : FP E) = o at h1
    generalize (Flt.powi β 2 : FP E) = v
    generalize X.pi = p at hx
    cases p with
    | fin => exact absurd trivial hx
    | nan => cases v <;> cases o <;> exact id
    | inf t =>
      cases o with
      | nan => exact h1.elim
      | inf => exact h1.elim
      | fin s m =>
        cases v with
        | nan => exact id
        | inf u => exact id
        | fin u n =>
          simp only [FloatEnv.mulAdd, FloatEnv.mul, FloatEnv.add]
          split_ifs <;> exact id
  have hp : (outcome β g M).pi.isNaN := add_nan (zn_mul_nonfin ha hx)
  have ht : (outcome β g M).tau.isNaN := add_nan (mul_nan (nan_sub (add_nan h')))
  have hpf : ¬ (outcome β g M).pi.isFinite := fun h => h.not_nan hp
  refine ⟨mu_nan ht (nonfin_ne_zero hpf), ?_⟩
  simp only [Gaussian.sigma, nonfin_ne_zero hpf, Bool.false_eq_true, if_false]
  have hr : (Flt.recip (outcome β g M).pi).isNaN := by rw [recip_eq]; exact div_nan hp
  rw [nan_iff.1 hr]
  trivial

/-- The message from a rating to a performance. -/
theorem lmsg_bounds (L : E.Lib) {β : FP E} {g : Gaussian (FP E)}
    (hβ : In (E := E) ((0 : ℝ) : EReal) ((2 ^ 10 : ℝ) : EReal) β) (h : Rg 22 4 g.pi) :
    Rg 47 4 (lmsg β g).pi := by
  have hb : In (E := E) ((0 : ℝ) : EReal) ((2 ^ 20 : ℝ) : EReal) (Flt.powi β 2) := by
    rw [powi_two' L]
    exact mul_in hβ hβ le_rfl le_rfl SRep.zero (SRep.two_pow 20 (by norm_num)) (by norm_num)
      (by norm_num)
  have h1 : In (E := E) ((1 : ℝ) : EReal) ((2 ^ 25 : ℝ) : EReal)
      (Flt.mulAdd (Flt.powi β 2) g.pi (1.0 : FP E)) := by
    obtain ⟨s, hs⟩ := mulAdd_fin hb.finite h.finite (one_in (E := E)).finite
    rw [hs]
    have o := (one_in (E := E)).toR
    have h2 := hb.toR
    have h3 := h.toR
    have h4 : (0 : ℝ) < 1 / 2 ^ 22 := by positivity
    refine In.of_round s SRep.one (SRep.two_pow 25 (by norm_num)) ?_ ?_
    · have := mul_nonneg h2.1 (h4.le.trans h3.1)
      linarith [o.1]
    · have : (Flt.powi β 2 : FP E).toR * g.pi.toR ≤ 2 ^ 20 * 2 ^ 4 :=
        mul_le_mul h2.2 h3.2 (h4.le.trans h3.1) (by positivity)
      norm_num at this ⊢
      linarith [o.2]
  have h2 : In (E := E) ((1 / 2 ^ 25 : ℝ) : EReal) ((1 : ℝ) : EReal)
      (Flt.recip (Flt.mulAdd (Flt.powi β 2) g.pi (1.0 : FP E))) :=
    recip_bounds h1 one_pos (SRep.inv_two_pow 25 (by norm_num)) SRep.one le_rfl (by norm_num)
  refine mul_in h2 h (by positivity) (by positivity) (SRep.inv_two_pow 47 (by norm_num))
    (SRep.two_pow 4 (by norm_num)) ?_ ?_ <;> norm_num

/-- An empty message leaves the prior's precision. -/
theorem outcome_empty (L : E.Lib) {β : FP E} {g M : Gaussian (FP E)}
    (hβ : In (E := E) ((0 : ℝ) : EReal) ((2 ^ 10 : ℝ) : EReal) β) (h : Rg 22 4 g.pi)
    (hM : Empty M) : (outcome β g M).sigma = g.sigma := by
  have hg := rg_sub_zero h
  have hl := lmsg_bounds L (g := g / Gaussian.default) hβ hg.2.2
  set l := (lmsg β (g / Gaussian.default)).pi with hldef
  have z := sub_zero_val (E := E) zero_in.finite zero_in.finite zero_toR
  have p1 := zero_add_val z.1 hl.finite (z.2.trans zero_toR)
  have p2 := sub_zero_val p1.1 (zero_in (E := E)).finite zero_toR
  have p3 := add_zero_val p2.1 hM.1.1 hM.1.2
  have p4 := sub_self_val p3.1 hl.finite (p3.2.trans (p2.2.trans p1.2))
  set X : FP E := (0.0 : FP E) - 0.0 + l - 0.0 + M.pi - l with hX
  have hb : In (E := E) ((0 : ℝ) : EReal) ((2 ^ 20 : ℝ) : EReal) (Flt.powi β 2) := by
    rw [powi_two' L]
    exact mul_in hβ hβ le_rfl le_rfl SRep.zero (SRep.two_pow 20 (by norm_num)) (by norm_num)
      (by norm_num)
  have ha : In (E := E) ((1 : ℝ) : EReal) ((1 : ℝ) : EReal)
      (Flt.recip (Flt.mulAdd (Flt.powi β 2) X (1.0 : FP E))) := by
    have h1 : In (E := E) ((1 : ℝ) : EReal) ((1 : ℝ) : EReal)
        (Flt.mulAdd (Flt.powi β 2) X (1.0 : FP E)) := by
      obtain ⟨s, hs⟩ := mulAdd_fin hb.finite p4.1 (one_in (E := E)).finite
      have o := (one_in (E := E)).toR
      rw [hs, p4.2, mul_zero, zero_add]
      exact In.of_round s SRep.one SRep.one o.1 o.2
    exact recip_bounds h1 one_pos SRep.one SRep.one (by norm_num) (by norm_num)
  have hm : (Flt.recip (Flt.mulAdd (Flt.powi β 2) X (1.0 : FP E)) * X).isFinite ∧
      (Flt.recip (Flt.mulAdd (Flt.powi β 2) X (1.0 : FP E)) * X).toR = 0 := by
    obtain ⟨s, hs⟩ := mul_fin ha.finite p4.1
    rw [hs]
    rcases zn_of_round (E := E) (s := s) (v := (Flt.recip (Flt.mulAdd (Flt.powi β 2) X (1.0 : FP E))).toR
      * X.toR) (by rw [p4.2, mul_zero]) with h1 | h1
    · exact (E.round_not_nan _ _ h1).elim
    · exact h1
  have hr := add_zero_val hg.1 hm.1 hm.2
  have hpi : (outcome β g M).pi = g.pi := by
    refine eq_of_toR hr.1 h.finite (hr.2.trans hg.2.1) ?_
    have := h.toR.1
    have h4 : (0 : ℝ) < 1 / 2 ^ 22 := by positivity
    linarith
  simp only [Gaussian.sigma, hpi]

/-! ### The messages of a team -/

section
variable {F : Type} [Flt F]

/-- The place `y` in the message to the player at `x`. -/
def place (d : Lay F) (t x y : ℕ) : VarRef := if y = x then .teamPerf t else .perf (d.off t + y)

/-- What the message to the player at `x` takes from place `y`. -/
def term {d : Lay F} {s : Store F} (r : d.Run s) (t x y : ℕ) : Gaussian F :=
  (r.S (d.off t + x) (place d t x y)).gaussian /
    (r.S (d.off t + x) (place d t x y)).messages (d.n + d.n + t)

theorem terms_eq {d : Lay F} {s : Store F} (r : d.Run s) (t x : ℕ) :
    (((d.teamFactor t).terms.set x (.teamPerf t)).map fun val =>
      (r.S (d.off t + x) val).gaussian / (r.S (d.off t + x) val).messages (d.n + d.n + t)) =
    (List.range (d.sz t)).map (term r t x) := by
  apply List.ext_getElem
  · simp [Lay.teamFactor]
  · intro y h1 h2
    have hy : y < d.sz t := by simpa using h2
    simp only [List.getElem_map, List.getElem_set, List.getElem_range, Lay.teamFactor, term, place]
    by_cases h : x = y
    · subst h; simp
    · rw [if_neg h, if_neg (Ne.symm h)]

theorem upCoeffs_length (c : List F) (x : ℕ) : (SumFactor.upCoeffs c x).length = c.length := by
  simp [SumFactor.upCoeffs]

/-- The pairs of a message. -/
theorem msg_eq {d : Lay F} {s : Store F} (r : d.Run s) (t x : ℕ) :
    r.msg t x = tmsg (((List.range (d.sz t)).map (term r t x)).zip
      (SumFactor.upCoeffs (d.teamFactor t).coeffs x)) := by
  rw [Lay.Run.msg, terms_eq]

theorem mem_pairs {d : Lay F} {s : Store F} (r : d.Run s) (t x : ℕ) (c : List F)
    (e : Gaussian F × F) (he : e ∈ ((List.range (d.sz t)).map (term r t x)).zip c) :
    (∃ y < d.sz t, e.1 = term r t x y) ∧ e.2 ∈ c := by
  obtain ⟨h1, h2⟩ := List.of_mem_zip (a := e.1) (b := e.2) he
  obtain ⟨y, hy, h⟩ := List.mem_map.1 h1
  exact ⟨⟨y, List.mem_range.1 hy, h.symm⟩, h2⟩

theorem pairs_mem {d : Lay F} {s : Store F} (r : d.Run s) (t x : ℕ) (c : List F)
    (hc : c.length = d.sz t) (y : ℕ) (hy : y < d.sz t) :
    ∃ e ∈ ((List.range (d.sz t)).map (term r t x)).zip c, e.1 = term r t x y := by
  refine ⟨(((List.range (d.sz t)).map (term r t x)).zip c)[y]'(by simp [hc, hy]),
    List.getElem_mem _, ?_⟩
  simp

/-- The result, as a function of the message. -/
theorem read_eq {d : Lay (FP E)} {s : Store (FP E)} (r : d.Run s) (t x : ℕ) (ht : t < d.m)
    (hx : x < d.sz t) : (s (.rating (d.off t + x))).gaussian =
      outcome d.β (r.g (d.off t + x)) (r.msg t x) := r.result t x ht hx

end

variable {d : Lay (FP E)} {s : Store (FP E)} (r : d.Run s)

theorem upCoeffs_zero (c : List (FP E)) (x : ℕ) (hx : x < c.length) (h : (c[x] ==? 0.0) = true) :
    ∀ k ∈ SumFactor.upCoeffs c x, ZN k := by
  intro k hk
  obtain ⟨e, -, rfl⟩ := List.mem_map.1 hk
  have e1 : c.getD x 0.0 = c[x] := by simp [hx]
  simp only [e1, h, if_true]
  exact zero_zn

theorem coeffs_at (t x : ℕ) (hx : x < d.sz t) :
    (d.teamFactor t).coeffs[x]'(by simpa [Lay.teamFactor] using hx) = d.w (d.off t + x) := by
  simp [Lay.teamFactor]

/-- A player of weight zero gets either NaN or nothing. -/
theorem msg_zero (L : E.Lib) (t x : ℕ) (hx : x < d.sz t)
    (h : (d.w (d.off t + x) ==? 0.0) = true) :
    (¬ (r.msg t x).pi.isFinite ∧ (r.msg t x).tau.isNaN) ∨
      (Empty (r.msg t x) ∧ ∃ y < d.sz t, ((term r t x y).pi ==? 0.0) = true) := by
  rw [msg_eq]
  set l := ((List.range (d.sz t)).map (term r t x)).zip
      (SumFactor.upCoeffs (d.teamFactor t).coeffs x) with hl
  by_cases h0 : ∃ e ∈ l, (e.1.pi ==? 0.0) = true
  · right
    refine ⟨tmsg_inf l h0, ?_⟩
    obtain ⟨e, he, h0⟩ := h0
    obtain ⟨⟨y, hy, hy'⟩, -⟩ := mem_pairs r t x _ e he
    exact ⟨y, hy, by rw [← hy']; exact h0⟩
  · left
    refine tmsg_zero L l (fun e he => ?_) fun e he => ?_
    · exact upCoeffs_zero _ x (by simpa [Lay.teamFactor] using hx)
        (by rw [coeffs_at t x hx]; exact h) _ (mem_pairs r t x _ e he).2
    · rw [Bool.eq_false_iff]; exact fun h1 => h0 ⟨e, he, h1⟩

/-- A player who has not yet got the message. -/
theorem term_later (L : E.Lib) (hβ : In (E := E) ((0 : ℝ) : EReal) ((2 ^ 10 : ℝ) : EReal) d.β)
    {t x y : ℕ} (ht : t < d.m) (hxy : x < y) (hy : y < d.sz t)
    (hg : Rg 22 4 (r.g (d.off t + y)).pi) : ((term r t x y).pi ==? 0.0) = false := by
  have hi := d.off_lt ht hy
  rw [term, place, if_neg (by omega), r.perf_before _ hi _ (by omega)]
  have e1 : (d.perfVar (d.off t + y) (r.g (d.off t + y))).messages (d.n + d.n + t)
      = Gaussian.default := by
    rw [Lay.perfVar, OneOnOne.updateMessage_eq]
    simp only [Variable.new]
    exact if_neg (by omega)
  rw [e1]
  have h1 := fresh (id := d.n + (d.off t + y))
    (lmsg_bounds L (g := r.g (d.off t + y) / Gaussian.default) hβ (rg_sub_zero hg).2.2) (by norm_num) (by norm_num)
  exact (rg_sub_zero h1.2.2).2.2.nb.ne_zero

/-- A player who has got a message without a finite precision. -/
theorem term_earlier {t x y : ℕ} (ht : t < d.m) (hx : x < d.sz t) (hyx : y < x)
    (h : ¬ (r.msg t y).pi.isFinite) : ((term r t x y).pi ==? 0.0) = false := by
  have hi := d.off_lt ht hx
  rw [term, place, if_neg (by omega), r.perf_after t y ht (by omega) _ (by omega) (by omega)]
  rw [OneOnOne.updateMessage_eq]
  simp only [if_true]
  exact nonfin_ne_zero (nonfin_sub (add_nonfin h))

/-- The term of the team itself does not depend on the player. -/
theorem term_team {t x y : ℕ} (ht : t < d.m) (hx : x < d.sz t) (hy : y < d.sz t) :
    term r t x x = term r t y y := by
  have h1 := d.off_lt ht hx
  have h2 := d.off_lt ht hy
  simp only [term, place, if_true]
  rw [r.team_at t _ h1.le, r.team_at t _ h2.le]

/-- A team none of whose players counts. -/
theorem team_zero (L : E.Lib) (hβ : In (E := E) ((0 : ℝ) : EReal) ((2 ^ 10 : ℝ) : EReal) d.β)
    {t : ℕ} (ht : t < d.m) (hw : ∀ x < d.sz t, (d.w (d.off t + x) ==? 0.0) = true)
    (hg : ∀ x < d.sz t, Rg 22 4 (r.g (d.off t + x)).pi) (hn : 0 < d.sz t) :
    ∀ x < d.sz t, ¬ (r.msg t x).pi.isFinite ∧ (r.msg t x).tau.isNaN := by
  -- the team's own variable has no finite precision
  have hteam : ¬ (r.s2 (.teamPerf t)).gaussian.pi.isFinite := by
    rw [r.team2 t ht, OneOnOne.updateMessage_eq]
    simp only
    refine add_nonfin (tmsg_zero L _ (fun e he => ?_) fun e he => ?_).1
    · obtain ⟨-, h2⟩ := List.of_mem_zip (a := e.1) (b := e.2) he
      simp only [Lay.teamFactor, List.mem_map, List.mem_range] at h2
      obtain ⟨x, hx, h⟩ := h2
      rw [← h]
      exact Or.inr (feq_zero_zn (hw x hx))
    · obtain ⟨h1, -⟩ := List.of_mem_zip (a := e.1) (b := e.2) he
      obtain ⟨x, hx, h⟩ := List.mem_map.1 h1
      rw [List.mem_range] at hx
      rw [← h, r.perf2 _ (d.off_lt ht hx)]
      have e1 : (d.perfVar (d.off t + x) (r.g (d.off t + x))).messages (d.n + d.n + t)
          = Gaussian.default := by
        rw [Lay.perfVar, OneOnOne.updateMessage_eq]
        simp only [Variable.new]
        exact if_neg (by have := d.off_lt ht hx; omega)
      rw [e1]
      have h1 := fresh (id := d.n + (d.off t + x))
        (lmsg_bounds L (g := r.g (d.off t + x) / Gaussian.default) hβ (rg_sub_zero (hg x hx)).2.2) (by norm_num) (by norm_num)
      exact (rg_sub_zero h1.2.2).2.2.nb.ne_zero
  have hteam0 : ¬ (r.S 0 (.teamPerf t)).gaussian.pi.isFinite := by
    refine r.reach.team_inv (fun v => ¬ v.gaussian.pi.isFinite) ?_ t hteam
    intro v id M _ hv
    rw [OneOnOne.updateMessage_eq]
    exact nonfin_add (nonfin_sub hv)
  have hself : ∀ x < d.sz t, ((term r t x x).pi ==? 0.0) = false := by
    intro x hx
    simp only [term, place, if_true]
    rw [r.team_at t _ (d.off_lt ht hx).le]
    exact nonfin_ne_zero (nonfin_sub hteam0)
  intro x
  induction x using Nat.strong_induction_on with
  | _ x ih =>
    intro hx
    rcases msg_zero r L t x hx (hw x hx) with h | ⟨-, y, hy, h⟩
    · exact h
    · exfalso
      have : ((term r t x y).pi ==? 0.0) = false := by
        rcases lt_trichotomy y x with h1 | h1 | h1
        · exact term_earlier r ht hx h1 (ih y h1 hy).1
        · subst h1; exact hself y hy
        · exact term_later r L hβ ht h1 hy (hg y hy)
      rw [this] at h; cases h

/-- A player of weight zero at the head of the team: NaN, or nothing for the whole team. -/
theorem head_zero (L : E.Lib) (hβ : In (E := E) ((0 : ℝ) : EReal) ((2 ^ 10 : ℝ) : EReal) d.β)
    {t : ℕ} (ht : t < d.m) (hn : 0 < d.sz t) (hw : (d.w (d.off t + 0) ==? 0.0) = true)
    (hg : ∀ x < d.sz t, Rg 22 4 (r.g (d.off t + x)).pi) :
    (¬ (r.msg t 0).pi.isFinite ∧ (r.msg t 0).tau.isNaN) ∨ ∀ x < d.sz t, Empty (r.msg t x) := by
  rcases msg_zero r L t 0 hn hw with h | ⟨-, y, hy, h⟩
  · exact Or.inl h
  · right
    have hy0 : y = 0 := by
      by_contra hne
      rw [term_later r L hβ ht (by omega) hy (hg y hy)] at h
      cases h
    subst hy0
    intro x hx
    rw [msg_eq]
    refine tmsg_inf _ ?_
    obtain ⟨e, he, h1⟩ := pairs_mem r t x (SumFactor.upCoeffs (d.teamFactor t).coeffs x)
      (by rw [upCoeffs_length]; simp [Lay.teamFactor]) x hx
    exact ⟨e, he, by rw [h1, term_team r ht hx hn]; exact h⟩

end Trace
end TrueSkill
end Skillratings
