import Verif.Proofs.FactorGraphUp
import Verif.Spec.Chain
/-
The factor graph of any number of teams: what `run_schedule` does to the store, at the level of
teams (C97).
-/
namespace Skillratings
namespace TrueSkill
open Finset Spec

/-! ### Knowledge and Gaussians -/

/-- The same pair of numbers. -/
def gau (a : Info) : Gaussian ℝ := { pi := a.prec, tau := a.pm }

theorem gau_add (a b : Info) : gau (a + b) = gau a * gau b := rfl

theorem gau_none : gau Info.none = Gaussian.default := gaussian_ext Flt.lit_0.symm Flt.lit_0.symm

theorem gau_of (μ V : ℝ) : gau (.of μ V) = nrm μ V :=
  gaussian_ext (one_div V) (by simp only [gau, Info.of, nrm]; rw [div_eq_mul_inv, mul_comm])

theorem gau_nrm {a : Info} (h : 0 < a.prec) : gau a = nrm a.mean a.variance := by
  apply gaussian_ext
  · simp [gau, nrm, Info.variance]
  · simp only [gau, nrm, Info.variance, Info.mean]; field_simp

theorem variance_pos {a : Info} (h : 0 < a.prec) : 0 < a.variance := one_div_pos.2 h

theorem info_ext {a b : Info} (h1 : a.prec = b.prec) (h2 : a.pm = b.pm) : a = b := by
  cases a; cases b; simp_all

theorem of_prec_pos (μ : ℝ) {V : ℝ} (h : 0 < V) : 0 < (Info.of μ V).prec := one_div_pos.2 h

theorem add_prec (a b : Info) : (a + b).prec = a.prec + b.prec := rfl
theorem add_pm (a b : Info) : (a + b).pm = a.pm + b.pm := rfl

theorem of_mean {μ V : ℝ} (h : 0 < V) : (Info.of μ V).mean = μ := by
  simp only [Info.of, Info.mean]; field_simp

theorem of_variance {μ V : ℝ} : (Info.of μ V).variance = V := by
  simp only [Info.of, Info.variance, one_div_one_div]

/-! ### The field of teams -/

/-- The teams: sizes, players in the order of the teams, and weights. -/
structure Field where
  m : ℕ
  sz : ℕ → ℕ
  R : ℕ → TrueSkillRating ℝ
  w : ℕ → ℝ
  τ : ℝ
  β : ℝ

namespace Field
variable (d : Field)

/-- The number of players before a team. -/
def off (t : ℕ) : ℕ := ∑ u ∈ range t, d.sz u
/-- The number of players. -/
def n : ℕ := d.off d.m
/-- The mean of a player. -/
noncomputable def μ (i : ℕ) : ℝ := (d.R i).rating
/-- The variance of a player, after the dynamics. -/
noncomputable def S (i : ℕ) : ℝ := (d.R i).uncertainty ^ 2 + d.τ ^ 2
/-- The variance of the performance of a player. -/
noncomputable def V (i : ℕ) : ℝ := d.S i + d.β ^ 2
/-- The mean of the performance of a team. -/
noncomputable def M (t : ℕ) : ℝ := ∑ j ∈ range (d.sz t), d.w (d.off t + j) * d.μ (d.off t + j)
/-- The variance of the performance of a team. -/
noncomputable def Q (t : ℕ) : ℝ := ∑ j ∈ range (d.sz t), d.w (d.off t + j) ^ 2 * d.V (d.off t + j)

/-- All teams have players; no uncertainty and no weight is zero. -/
structure Ok : Prop where
  hm : 2 ≤ d.m
  hsz : ∀ t < d.m, 0 < d.sz t
  hR : ∀ i < d.n, (d.R i).uncertainty ≠ 0
  hw : ∀ i < d.n, d.w i ≠ 0

variable {d}

theorem off_succ (t : ℕ) : d.off (t + 1) = d.off t + d.sz t := sum_range_succ _ _

theorem off_mono {s t : ℕ} (h : s ≤ t) : d.off s ≤ d.off t :=
  sum_le_sum_of_subset (range_subset_range.2 h)

theorem off_lt {t x : ℕ} (ht : t < d.m) (hx : x < d.sz t) : d.off t + x < d.n := by
  have h1 := off_succ (d := d) t
  have h2 : d.off (t + 1) ≤ d.off d.m := off_mono (by omega)
  unfold n; omega

theorem S_pos (h : d.Ok) {i : ℕ} (hi : i < d.n) : 0 < d.S i := by
  have := h.hR i hi
  unfold S; positivity

theorem V_pos (h : d.Ok) {i : ℕ} (hi : i < d.n) : 0 < d.V i := by
  have := S_pos h hi
  unfold V; positivity

theorem term_pos (h : d.Ok) {t x : ℕ} (ht : t < d.m) (hx : x < d.sz t) :
    0 < d.w (d.off t + x) ^ 2 * d.V (d.off t + x) := by
  have h1 := V_pos h (off_lt ht hx)
  have h2 := h.hw _ (off_lt ht hx)
  positivity

theorem Q_ge (h : d.Ok) {t x : ℕ} (ht : t < d.m) (hx : x < d.sz t) :
    d.w (d.off t + x) ^ 2 * d.V (d.off t + x) ≤ d.Q t :=
  single_le_sum (f := fun j => d.w (d.off t + j) ^ 2 * d.V (d.off t + j))
    (fun j hj => (term_pos h ht (mem_range.1 hj)).le) (mem_range.2 hx)

theorem Q_pos (h : d.Ok) {t : ℕ} (ht : t < d.m) : 0 < d.Q t :=
  lt_of_lt_of_le (term_pos h ht (h.hsz t ht)) (Q_ge h ht (h.hsz t ht))

/-- The factor of a team. -/
noncomputable def teamFactor (d : Field) (t : ℕ) : SumFactor ℝ :=
  { id := d.n + d.n + t
    sum := .teamPerf t
    terms := (List.range (d.sz t)).map fun x => .perf (d.off t + x)
    coeffs := (List.range (d.sz t)).map fun x => d.w (d.off t + x) }

theorem teamLayer (d : Field) :
    buildTeamPerfLayer d.n ((List.range d.n).map d.w)
      ((List.range d.m).map fun t => d.off (t + 1)) (d.n + d.n) =
      (List.range d.m).map d.teamFactor := by
  rw [buildTeamPerfLayer, List.length_map, List.length_range]
  apply List.map_congr_left
  intro t ht
  rw [List.mem_range] at ht
  have e1 : ((List.range d.m).map fun t => d.off (t + 1)).getD t 0 = d.off t + d.sz t := by
    simp [ht, off_succ]
  have e2 : (if t > 0 then ((List.range d.m).map fun t => d.off (t + 1)).getD (t - 1) 0 else 0) =
      d.off t := by
    cases t with
    | zero => simp [off]
    | succ t => simp [show t < d.m by omega]
  have hle : d.off t + d.sz t ≤ d.n := by
    rw [← off_succ]; exact off_mono (by omega)
  have h1 := slice_range VarRef.perf d.n (d.off t) (d.sz t) hle
  have h2 := slice_range d.w d.n (d.off t) (d.sz t) hle
  simp only [e1, e2, h1, h2, teamFactor]

/-- The factor between ratings and performances. -/
noncomputable def perfFactor (d : Field) (i : ℕ) : LikelihoodFactor ℝ :=
  { id := d.n + i, mean := .rating i, value := .perf i, variance := d.β ^ 2 }

theorem perfLayer (d : Field) :
    buildPerfLayer d.n d.β d.n = (List.range d.n).map d.perfFactor := by
  rw [buildPerfLayer]
  apply List.map_congr_left
  intro i _
  simp only [perfFactor, flt]

/-- The factor of the difference between the teams `k` and `k + 1`. -/
noncomputable def diffFactor (d : Field) (k : ℕ) : SumFactor ℝ :=
  { id := d.n + d.n + d.m + k
    sum := .teamDiff k
    terms := (List.range 2).map fun j => .teamPerf (k + j)
    coeffs := (List.range 2).map fun j => if j = 0 then 1 else -1 }

theorem diffLayer (d : Field) : buildTeamDiffLayer (d.m - 1) (d.n + d.n + d.m) =
    (List.range (d.m - 1)).map d.diffFactor := by
  simp [buildTeamDiffLayer, diffFactor, List.range_succ, Flt.lit_1]

/-- The state before the iteration. -/
structure Before (d : Field) (s : Store ℝ) : Prop where
  rating : ∀ i < d.n, (s (.rating i)).gaussian = nrm (d.μ i) (d.S i) ∧
    (s (.rating i)).messages (d.n + i) = Gaussian.default
  perf : ∀ i < d.n, s (.perf i) =
    (Variable.new.updateMessage (d.n + i) (nrm (d.μ i) (d.V i))).1
  team : ∀ t < d.m, s (.teamPerf t) =
    (Variable.new.updateMessage (d.n + d.n + t) (nrm (d.M t) (d.Q t))).1
  diff : ∀ k, s (.teamDiff k) = Variable.new

open Duel (new_update new_messages)

theorem before (h : d.Ok) :
    ∃ fs, buildRatingLayer d.τ 0 0 ((List.range d.n).map d.R) = .ok fs ∧
    ∃ s, priorsDown fs ⟨fun _ => Variable.new⟩ = .ok s ∧
    Before d (((List.range d.m).map d.teamFactor).foldl (fun s f => (f.down s).1)
      (((List.range d.n).map d.perfFactor).foldl (fun s f => (f.down s).1) s)) := by
  obtain ⟨fs, hfs, s1, hs1, hr, ho⟩ := ratings_down d.τ ((List.range d.n).map d.R) 0
    ⟨fun _ => Variable.new⟩ (by
      intro r hr
      rw [List.mem_map] at hr
      obtain ⟨i, hi, rfl⟩ := hr
      exact h.hR i (List.mem_range.1 hi))
  refine ⟨fs, hfs, s1, hs1, ?_⟩
  simp only [Nat.zero_add, List.length_map, List.length_range] at hr ho
  have hr1 : ∀ i < d.n, s1 (.rating i) = (Variable.new.updateValue i (nrm (d.μ i) (d.S i))).1 := by
    intro i hi
    exact hr i (d.R i) (by simp [hi])
  -- performances
  rw [List.foldl_map (f := d.perfFactor)]
  obtain ⟨p1, p2⟩ := foldl_write (fun i s => ((d.perfFactor i).down s).1) .perf
    (fun i => (Variable.new.updateMessage (d.n + i) (nrm (d.μ i) (d.V i))).1) s1
    (fun i j hij => by injection hij) d.n (by
      intro i hi s hs hs0 k
      have e1 : s (.rating i) = _ := (hs0 _ (fun j _ hj => by simp at hj)).trans (hr1 i hi)
      have e2 : s (.perf i) = Variable.new := by
        rw [hs0 _ (fun j hj hij => by injection hij; omega), ho _ (fun k _ hk => by simp at hk)]
      have e3 : (s (.rating i)).gaussian / (s (.rating i)).messages (d.n + i) =
          nrm (d.μ i) (d.S i) := by
        rw [e1, updateValue_gaussian, updateValue_messages, if_neg (by omega)]
        exact div_default _
      have e4 := likelihood_message (d.perfFactor i) (d.μ i) (d.S i) (S_pos h hi) (sq_nonneg d.β)
      change ((d.perfFactor i).down s).1 k = _
      rw [LikelihoodFactor.down]
      change (s.write (.perf i) ((s (.perf i)).updateMessage (d.n + i)
        { pi := (d.perfFactor i).calcA ((s (.rating i)).gaussian
            / (s (.rating i)).messages (d.n + i)) * ((s (.rating i)).gaussian
            / (s (.rating i)).messages (d.n + i)).pi
          tau := (d.perfFactor i).calcA ((s (.rating i)).gaussian
            / (s (.rating i)).messages (d.n + i)) * ((s (.rating i)).gaussian
            / (s (.rating i)).messages (d.n + i)).tau })).1 k = _
      rw [e3, e4, e2, write_get]
      rfl)
  set s2 := (List.range d.n).foldl (fun s i => ((d.perfFactor i).down s).1) s1 with hs2
  -- teams
  rw [List.foldl_map (f := d.teamFactor)]
  obtain ⟨t1, t2⟩ := foldl_write (fun t s => ((d.teamFactor t).down s).1) .teamPerf
    (fun t => (Variable.new.updateMessage (d.n + d.n + t) (nrm (d.M t) (d.Q t))).1) s2
    (fun i j hij => by injection hij) d.m (by
      intro t ht s hs hs0 k
      have e1 : ∀ x < d.sz t, s (.perf (d.off t + x)) = _ := fun x hx =>
        (hs0 _ (fun j _ hj => by simp at hj)).trans (p1 _ (off_lt ht hx))
      have e2 : s (.teamPerf t) = Variable.new := by
        rw [hs0 _ (fun j hj hij => by injection hij; omega), p2 _ (fun k _ hk => by simp at hk),
          ho _ (fun k _ hk => by simp at hk)]
      change ((d.teamFactor t).update s (.teamPerf t) ((List.range (d.sz t)).map fun x =>
        .perf (d.off t + x)) ((List.range (d.sz t)).map fun x => d.w (d.off t + x))).1 k = _
      rw [update_nrm _ _ _ _ _ _ (fun x => d.μ (d.off t + x)) (fun x => d.V (d.off t + x))
        (fun x hx => (V_pos h (off_lt ht hx)).ne'), e2, write_get]
      · rfl
      · intro x hx
        rw [e1 x hx, new_update, new_messages, if_neg, div_default]
        change ¬ d.n + d.n + t = _
        have := off_lt ht hx
        omega)
  set s3 := (List.range d.m).foldl (fun s t => ((d.teamFactor t).down s).1) s2 with hs3
  refine ⟨?_, ?_, ?_, ?_⟩
  · intro i hi
    rw [t2 _ (fun j _ hj => by simp at hj), p2 _ (fun j _ hj => by simp at hj), hr1 i hi,
      updateValue_gaussian, updateValue_messages, if_neg (by omega)]
    exact ⟨rfl, rfl⟩
  · intro i hi
    rw [t2 _ (fun j _ hj => by simp at hj), p1 i hi]
  · intro t ht
    exact t1 t ht
  · intro k
    rw [t2 _ (fun j _ hj => by simp at hj), p2 _ (fun j _ hj => by simp at hj),
      ho _ (fun j _ hj => by simp at hj)]

/-! ### The store represents what the teams know -/

/-- The identifier of a difference factor. -/
def did (d : Field) (k : ℕ) : ℕ := d.n + d.n + d.m + k
/-- The identifier of a truncation factor. -/
def tid (d : Field) (k : ℕ) : ℕ := d.n + d.n + d.m + (d.m - 1) + k

/-- The league belongs to the field of teams and the truncation factors. -/
structure Fits (d : Field) (T : ℕ → TruncateFactor ℝ) (L : League) : Prop where
  n : L.n = d.m
  team : ∀ t < d.m, L.team t = .of (d.M t) (d.Q t)
  id : ∀ k, (T k).id = d.tid k
  var : ∀ k, (T k).var = .teamDiff k
  v : ∀ k, k + 1 < d.m → ∀ δ C : ℝ, 0 < C → (T k).vFunc (nrm δ C).tau
    ((T k).drawMargin * (nrm δ C).pi) (√(nrm δ C).pi) = L.v k (δ / √C) (L.margin k / √C)
  w : ∀ k, k + 1 < d.m → ∀ δ C : ℝ, 0 < C → (T k).wFunc (nrm δ C).tau
    ((T k).drawMargin * (nrm δ C).pi) (√(nrm δ C).pi) = L.w k (δ / √C) (L.margin k / √C)

/-- The store holds the messages of `m`; `s0` is the store before the iteration. -/
structure Rep (d : Field) (L : League) (s0 : Store ℝ) (m : Talk) (s : Store ℝ) : Prop where
  other : ∀ r, (∀ k, r ≠ .teamPerf k) → (∀ k, r ≠ .teamDiff k) → s r = s0 r
  gauss : ∀ k < d.m, (s (.teamPerf k)).gaussian = gau (L.team k + (m.down k + m.up k))
  own : ∀ k < d.m, (s (.teamPerf k)).messages (d.n + d.n + k) = gau (L.team k)
  down : ∀ k, k + 1 < d.m → (s (.teamPerf (k + 1))).messages (d.did k) = gau (m.down (k + 1))
  up : ∀ k, k + 1 < d.m → (s (.teamPerf k)).messages (d.did k) = gau (m.up k)
  diff : ∀ k, k + 1 < d.m → (s (.teamDiff k)).gaussian =
    (s (.teamDiff k)).messages (d.did k) * gau (m.result k)
  result : ∀ k, k + 1 < d.m → (s (.teamDiff k)).messages (d.tid k) = gau (m.result k)

/-- No knowledge has a negative precision. -/
structure Sane (L : League) (m : Talk) : Prop where
  team : ∀ k < L.n, 0 < (L.team k).prec
  down : ∀ k, 0 ≤ (m.down k).prec
  up : ∀ k, 0 ≤ (m.up k).prec
  result : ∀ k, 0 ≤ (m.result k).prec

theorem Sane.above {L : League} {m : Talk} (h : Sane L m) {k : ℕ} (hk : k < L.n) :
    0 < (L.above m k).prec := by
  have := h.team k hk; have := h.down k
  rw [League.above, add_prec]; linarith

theorem Sane.below {L : League} {m : Talk} (h : Sane L m) {k : ℕ} (hk : k < L.n) :
    0 < (L.below m k).prec := by
  have := h.team k hk; have := h.up k
  rw [League.below, add_prec]; linarith

theorem Sane.C {L : League} {m : Talk} (h : Sane L m) {k : ℕ} (hk : k + 1 < L.n) :
    0 < L.C m k :=
  add_pos (variance_pos (h.above (by omega))) (variance_pos (h.below hk))

section
variable {T : ℕ → TruncateFactor ℝ} {L : League} {s0 s : Store ℝ} {m : Talk}

theorem Rep.above (h : Rep d L s0 m s) {k : ℕ} (hk : k + 1 < d.m) :
    (s (.teamPerf k)).gaussian / (s (.teamPerf k)).messages (d.did k) = gau (L.above m k) := by
  rw [h.gauss k (by omega), h.up k hk]
  apply gaussian_ext
  · rw [div_pi]; simp only [gau, add_prec, League.above]; ring
  · rw [div_tau]; simp only [gau, add_pm, League.above]; ring

theorem Rep.below (h : Rep d L s0 m s) {k : ℕ} (hk : k + 1 < d.m) :
    (s (.teamPerf (k + 1))).gaussian / (s (.teamPerf (k + 1))).messages (d.did k) =
      gau (L.below m (k + 1)) := by
  rw [h.gauss (k + 1) hk, h.down k hk]
  apply gaussian_ext
  · rw [div_pi]; simp only [gau, add_prec, League.below]; ring
  · rw [div_tau]; simp only [gau, add_pm, League.below]; ring

/-- The two terms of a difference. -/
theorem Rep.terms (hF : Fits d T L) (hS : Sane L m) (h : Rep d L s0 m s) {k : ℕ}
    (hk : k + 1 < d.m) : ∀ j < 2, (s (.teamPerf (k + j))).gaussian /
      (s (.teamPerf (k + j))).messages (d.did k) =
      nrm (if j = 0 then (L.above m k).mean else (L.below m (k + 1)).mean)
        (if j = 0 then (L.above m k).variance else (L.below m (k + 1)).variance) := by
  have hn := hF.n
  intro j hj
  have : j = 0 ∨ j = 1 := by omega
  rcases this with rfl | rfl
  · rw [Nat.add_zero, h.above hk, gau_nrm (hS.above (by omega))]; rfl
  · rw [h.below hk, gau_nrm (hS.below (by omega))]; rfl

theorem Rep.terms_ne (hF : Fits d T L) (hS : Sane L m) {k : ℕ} (hk : k + 1 < d.m) (j : ℕ) :
    (if j = 0 then (L.above m k).variance else (L.below m (k + 1)).variance) ≠ 0 := by
  have hn := hF.n
  split_ifs
  · exact (variance_pos (hS.above (by omega))).ne'
  · exact (variance_pos (hS.below (by omega))).ne'

theorem did_ne_tid {d : Field} {k : ℕ} (hk : k + 1 < d.m) : d.did k ≠ d.tid k := by
  unfold did tid; omega

theorem compare_some {L : League} {m : Talk} {k : ℕ} {x : Info} (h : L.compare m k = some x) :
    0 < L.W m k ∧ L.W m k < 1 ∧ x = .of (L.δ m k + √(L.C m k) * L.V m k / L.W m k)
      (L.C m k * (1 - L.W m k) / L.W m k) := by
  rw [League.compare] at h
  split_ifs at h with hW
  exact ⟨hW.1, hW.2, (Option.some.inj h).symm⟩

theorem compare_pos {L : League} {m : Talk} {k : ℕ} {x : Info} (hC : 0 < L.C m k)
    (h : L.compare m k = some x) : 0 < x.prec := by
  obtain ⟨h0, h1, rfl⟩ := compare_some h
  exact of_prec_pos _ (div_pos (mul_pos hC (by linarith)) h0)

/-- A comparison. -/
theorem visit (hF : Fits d T L) (hS : Sane L m) (h : Rep d L s0 m s) {k : ℕ} (hk : k + 1 < d.m)
    {x : Info} (hx : L.compare m k = some x) :
    Rep d L s0 (m.hear k x) ((T k).up ((d.diffFactor k).down s).1).1 ∧
      ((T k).up ((d.diffFactor k).down s).1).2 = (m.result k).change x := by
  have hn := hF.n
  have hC := hS.C (k := k) (by omega)
  obtain ⟨h0, h1, hx⟩ := compare_some hx
  have hdown : (d.diffFactor k).down s = s.write (.teamDiff k)
      ((s (.teamDiff k)).updateMessage (d.did k) (nrm (L.δ m k) (L.C m k))) := by
    have := update_nrm (d.diffFactor k) s (.teamDiff k) 2 (fun j => .teamPerf (k + j))
      (fun j => if j = 0 then 1 else -1)
      (fun j => if j = 0 then (L.above m k).mean else (L.below m (k + 1)).mean)
      (fun j => if j = 0 then (L.above m k).variance else (L.below m (k + 1)).variance)
      (fun j _ => Rep.terms_ne hF hS hk j) (h.terms hF hS hk)
    rw [SumFactor.down]
    refine this.trans ?_
    simp only [sum_range_succ, sum_range_zero]
    norm_num
    rfl
  set s1 := ((d.diffFactor k).down s).1 with hs1
  have e1 : s1 (.teamDiff k) =
      ((s (.teamDiff k)).updateMessage (d.did k) (nrm (L.δ m k) (L.C m k))).1 := by
    rw [hs1, hdown, write_get, if_pos rfl]
  have e2 : ∀ r, r ≠ .teamDiff k → s1 r = s r := by
    intro r hr
    rw [hs1, hdown, write_get, if_neg hr]
  have g1 : (s1 (.teamDiff k)).gaussian = nrm (L.δ m k) (L.C m k) * gau (m.result k) := by
    rw [e1, updateMessage_gaussian, h.diff k hk, mul_div_left]
    exact gaussian_ext (by rw [mul_pi, mul_pi, add_comm]) (by rw [mul_tau, mul_tau, add_comm])
  have m1 : (s1 (.teamDiff k)).messages (d.tid k) = gau (m.result k) := by
    rw [e1, updateMessage_messages, if_neg (did_ne_tid hk).symm, h.result k hk]
  have m2 : (s1 (.teamDiff k)).messages (d.did k) = nrm (L.δ m k) (L.C m k) := by
    rw [e1, updateMessage_messages, if_pos rfl]
  have hdiv : (s1 (T k).var).gaussian / (s1 (T k).var).messages (T k).id =
      nrm (L.δ m k) (L.C m k) := by
    rw [hF.var, hF.id, g1, m1, mul_div_self]
  set P : Gaussian ℝ := nrm (L.δ m k) (L.C m k) * gau x with hP
  have hpost : ({ pi := (nrm (L.δ m k) (L.C m k)).pi / (1 - L.W m k)
                  tau := (Flt.mulAdd (√(nrm (L.δ m k) (L.C m k)).pi) (L.V m k)
                    (nrm (L.δ m k) (L.C m k)).tau) / (1 - L.W m k) } : Gaussian ℝ) = P := by
    have := trunc_message (L.δ m k) (L.C m k) (L.V m k) (L.W m k) hC h0 h1
    rw [hP, hx, gau_of (_ + _), ← this]
    apply gaussian_ext
    · simp only [div_pi, mul_pi]; ring
    · simp only [div_tau, mul_tau]; ring
  have hup : (T k).up s1 = s1.write (.teamDiff k)
      ((s1 (.teamDiff k)).updateValue (d.tid k) P) := by
    rw [TruncateFactor.up]
    simp only [hdiv, Flt.lit_1]
    have hv := hF.v k hk (L.δ m k) (L.C m k) hC
    have hw := hF.w k hk (L.δ m k) (L.C m k) hC
    have hq : (Flt.sqrt (nrm (L.δ m k) (L.C m k)).pi : ℝ) = √(nrm (L.δ m k) (L.C m k)).pi := by
      simp only [flt]
    rw [hq, hv, hw, hF.var, hF.id]
    exact congrArg (fun g => s1.write (.teamDiff k) ((s1 (.teamDiff k)).updateValue (d.tid k) g))
      hpost
  rw [hup]
  constructor
  · have keep : ∀ r, r ≠ .teamDiff k → (s1.write (.teamDiff k)
        ((s1 (.teamDiff k)).updateValue (d.tid k) P)).1 r = s r := by
      intro r hr
      rw [write_get, if_neg hr, e2 r hr]
    refine ⟨?_, ?_, ?_, ?_, ?_, ?_, ?_⟩
    · intro r h1 h2
      rw [keep r (h2 k)]
      exact h.other r h1 h2
    · intro j hj; rw [keep _ (by simp)]; exact h.gauss j hj
    · intro j hj; rw [keep _ (by simp)]; exact h.own j hj
    · intro j hj; rw [keep _ (by simp)]; exact h.down j hj
    · intro j hj; rw [keep _ (by simp)]; exact h.up j hj
    · intro j hj
      by_cases hjk : j = k
      · subst hjk
        rw [write_get, if_pos rfl, updateValue_gaussian, updateValue_messages,
          if_neg (did_ne_tid hk), m2, hP]
        simp [Talk.hear]
      · rw [keep _ (by simp [hjk]), h.diff j hj]
        simp [Talk.hear, hjk]
    · intro j hj
      by_cases hjk : j = k
      · subst hjk
        rw [write_get, if_pos rfl, updateValue_messages, if_pos rfl, m1, g1, hP]
        simp only [Talk.hear, Function.update_self]
        apply gaussian_ext
        · simp only [div_pi, mul_pi]; ring
        · simp only [div_tau, mul_tau]; ring
      · rw [keep _ (by simp [hjk]), h.result j hj]
        simp [Talk.hear, hjk]
  · change (s1 (.teamDiff k)).delta P = _
    simp only [Variable.delta, g1, hP, mul_pi, mul_tau, flt, Info.change]
    simp only [gau, Bool.false_eq_true, if_false]
    rw [add_sub_add_left_eq_sub, add_sub_add_left_eq_sub]

theorem hear_sane (hS : Sane L m) {k : ℕ} {x : Info} (hx : 0 < x.prec) :
    Sane L (m.hear k x) := by
  refine ⟨hS.team, hS.down, hS.up, fun j => ?_⟩
  simp only [Talk.hear, Function.update_apply]
  split_ifs
  · exact hx.le
  · exact hS.result j

theorem sum_div (h : Rep d L s0 m s) {k : ℕ} (hk : k + 1 < d.m) :
    (s (.teamDiff k)).gaussian / (s (.teamDiff k)).messages (d.did k) = gau (m.result k) := by
  rw [h.diff k hk, mul_div_left]

/-- Telling the worse team. -/
theorem tellDown (hF : Fits d T L) (hS : Sane L m) (h : Rep d L s0 m s) {k : ℕ} (hk : k + 1 < d.m)
    (hr : 0 < (m.result k).prec) :
    Rep d L s0 (L.tellDown m k) ((d.diffFactor k).up 1 s).1 := by
  have hn := hF.n
  have hup := up_nrm (d.diffFactor k) s 2 (fun j => .teamPerf (k + j))
    (fun j => if j = 0 then 1 else -1)
    (fun j => if j = 0 then (L.above m k).mean else (L.below m (k + 1)).mean)
    (fun j => if j = 0 then (L.above m k).variance else (L.below m (k + 1)).variance) rfl rfl
    1 (by omega) (by norm_num) (fun j _ _ => Rep.terms_ne hF hS hk j)
    (fun j hj _ => h.terms hF hS hk j hj) (m.result k).mean (m.result k).variance
    (variance_pos hr).ne' ((sum_div h hk).trans (gau_nrm hr))
  have hup' : (d.diffFactor k).up 1 s = s.write (.teamPerf (k + 1))
      ((s (.teamPerf (k + 1))).updateMessage (d.did k)
        (gau (.of ((L.above m k).mean - (m.result k).mean)
          ((L.above m k).variance + (m.result k).variance)))) := by
    rw [hup, gau_of]
    simp only [sum_range_succ, sum_range_zero]
    congr 4
    · norm_num; ring
    · norm_num; ring
  set x : Info := .of ((L.above m k).mean - (m.result k).mean)
          ((L.above m k).variance + (m.result k).variance) with hx
  rw [hup']
  have keep : ∀ r, r ≠ .teamPerf (k + 1) → (s.write (.teamPerf (k + 1))
        ((s (.teamPerf (k + 1))).updateMessage (d.did k) (gau x))).1 r = s r := by
    intro r hr
    rw [write_get, if_neg hr]
  refine ⟨?_, ?_, ?_, ?_, ?_, ?_, ?_⟩
  · intro r h1 h2
    rw [keep r (h1 _)]
    exact h.other r h1 h2
  · intro j hj
    by_cases hjk : j = k + 1
    · subst hjk
      rw [write_get, if_pos rfl, updateMessage_gaussian, h.gauss _ hj, h.down k hk]
      apply gaussian_ext
      · simp only [mul_pi, div_pi, gau, add_prec, League.tellDown, Function.update_self, hx]; ring
      · simp only [mul_tau, div_tau, gau, add_pm, League.tellDown, Function.update_self, hx]; ring
    · rw [keep _ (by simp [hjk]), h.gauss j hj]
      simp [League.tellDown, hjk]
  · intro j hj
    by_cases hjk : j = k + 1
    · subst hjk
      rw [write_get, if_pos rfl, updateMessage_messages, if_neg (by unfold did; omega), h.own _ hj]
    · rw [keep _ (by simp [hjk])]; exact h.own j hj
  · intro j hj
    by_cases hjk : j = k
    · subst hjk
      rw [write_get, if_pos rfl, updateMessage_messages, if_pos rfl]
      simp [League.tellDown, hx]
    · rw [keep _ (by simp [hjk]), h.down j hj]
      simp [League.tellDown, hjk]
  · intro j hj
    by_cases hjk : j = k + 1
    · subst hjk
      rw [write_get, if_pos rfl, updateMessage_messages, if_neg (by unfold did; omega), h.up _ hj]
      rfl
    · rw [keep _ (by simp [hjk]), h.up j hj]; rfl
  · intro j hj; rw [keep _ (by simp)]; exact h.diff j hj
  · intro j hj; rw [keep _ (by simp)]; exact h.result j hj

/-- Telling the better team. -/
theorem tellUp (hF : Fits d T L) (hS : Sane L m) (h : Rep d L s0 m s) {k : ℕ} (hk : k + 1 < d.m)
    (hr : 0 < (m.result k).prec) :
    Rep d L s0 (L.tellUp m k) ((d.diffFactor k).up 0 s).1 := by
  have hn := hF.n
  have hup := up_nrm (d.diffFactor k) s 2 (fun j => .teamPerf (k + j))
    (fun j => if j = 0 then 1 else -1)
    (fun j => if j = 0 then (L.above m k).mean else (L.below m (k + 1)).mean)
    (fun j => if j = 0 then (L.above m k).variance else (L.below m (k + 1)).variance) rfl rfl
    0 (by omega) (by norm_num) (fun j _ _ => Rep.terms_ne hF hS hk j)
    (fun j hj _ => h.terms hF hS hk j hj) (m.result k).mean (m.result k).variance
    (variance_pos hr).ne' ((sum_div h hk).trans (gau_nrm hr))
  have hup' : (d.diffFactor k).up 0 s = s.write (.teamPerf k)
      ((s (.teamPerf k)).updateMessage (d.did k)
        (gau (.of ((L.below m (k + 1)).mean + (m.result k).mean)
          ((L.below m (k + 1)).variance + (m.result k).variance)))) := by
    rw [hup, gau_of]
    simp only [sum_range_succ, sum_range_zero]
    congr 4
    · norm_num; ring
    · norm_num; ring
  set x : Info := .of ((L.below m (k + 1)).mean + (m.result k).mean)
          ((L.below m (k + 1)).variance + (m.result k).variance) with hx
  rw [hup']
  have keep : ∀ r, r ≠ .teamPerf k → (s.write (.teamPerf k)
        ((s (.teamPerf k)).updateMessage (d.did k) (gau x))).1 r = s r := by
    intro r hr
    rw [write_get, if_neg hr]
  refine ⟨?_, ?_, ?_, ?_, ?_, ?_, ?_⟩
  · intro r h1 h2
    rw [keep r (h1 _)]
    exact h.other r h1 h2
  · intro j hj
    by_cases hjk : j = k
    · subst hjk
      rw [write_get, if_pos rfl, updateMessage_gaussian, h.gauss _ hj, h.up j hk]
      apply gaussian_ext
      · simp only [mul_pi, div_pi, gau, add_prec, League.tellUp, Function.update_self, hx]; ring
      · simp only [mul_tau, div_tau, gau, add_pm, League.tellUp, Function.update_self, hx]; ring
    · rw [keep _ (by simp [hjk]), h.gauss j hj]
      simp [League.tellUp, hjk]
  · intro j hj
    by_cases hjk : j = k
    · subst hjk
      rw [write_get, if_pos rfl, updateMessage_messages, if_neg (by unfold did; omega), h.own _ hj]
    · rw [keep _ (by simp [hjk])]; exact h.own j hj
  · intro j hj
    by_cases hjk : j + 1 = k
    · rw [hjk, write_get, if_pos rfl, updateMessage_messages, if_neg (by unfold did; omega), ← hjk,
        h.down _ hj]
      rfl
    · rw [keep _ (by simp [hjk]), h.down j hj]; rfl
  · intro j hj
    by_cases hjk : j = k
    · subst hjk
      rw [write_get, if_pos rfl, updateMessage_messages, if_pos rfl]
      simp [League.tellUp, hx]
    · rw [keep _ (by simp [hjk]), h.up j hj]
      simp [League.tellUp, hjk]
  · intro j hj; rw [keep _ (by simp)]; exact h.diff j hj
  · intro j hj; rw [keep _ (by simp)]; exact h.result j hj

theorem tellDown_sane (hS : Sane L m) {k : ℕ} (hk : k + 1 < L.n) (hr : 0 < (m.result k).prec) :
    Sane L (L.tellDown m k) := by
  refine ⟨hS.team, fun j => ?_, hS.up, hS.result⟩
  simp only [League.tellDown, Function.update_apply]
  split_ifs
  · exact (of_prec_pos _ (add_pos (variance_pos (hS.above (by omega))) (variance_pos hr))).le
  · exact hS.down j

theorem tellUp_sane (hS : Sane L m) {k : ℕ} (hk : k + 1 < L.n) (hr : 0 < (m.result k).prec) :
    Sane L (L.tellUp m k) := by
  refine ⟨hS.team, hS.down, fun j => ?_, hS.result⟩
  simp only [League.tellUp, Function.update_apply]
  split_ifs
  · exact (of_prec_pos _ (add_pos (variance_pos (hS.below hk)) (variance_pos hr))).le
  · exact hS.up j

/-! ### Rounds -/

/-- `b` has heard of everything `a` has heard of. -/
def Later (a b : Talk) : Prop := ∀ j, (0 < (a.result j).prec → 0 < (b.result j).prec) ∧
  (0 < (a.down j).prec → 0 < (b.down j).prec)

theorem Later.trans {a b c : Talk} (h : Later a b) (h' : Later b c) : Later a c :=
  fun j => ⟨fun hj => (h' j).1 ((h j).1 hj), fun hj => (h' j).2 ((h j).2 hj)⟩

theorem Later.refl (a : Talk) : Later a a := fun _ => ⟨id, id⟩

/-- The pair of factors of a difference. -/
noncomputable def pair (d : Field) (T : ℕ → TruncateFactor ℝ) (k : ℕ) : DiffPair ℝ :=
  (d.diffFactor k, T k)

theorem hear_later {k : ℕ} {x : Info} (hx : 0 < x.prec) : Later m (m.hear k x) := by
  refine fun j => ⟨fun hj => ?_, id⟩
  simp only [Talk.hear, Function.update_apply]
  split_ifs
  · exact hx
  · exact hj

theorem told (hS : Sane L m) {k : ℕ} (hk : k + 1 < L.n) (hr : 0 < (m.result k).prec) :
    0 < ((L.tellDown m k).down (k + 1)).prec := by
  simp only [League.tellDown, Function.update_self]
  exact of_prec_pos _ (add_pos (variance_pos (hS.above (by omega))) (variance_pos hr))

theorem tellDown_later (hS : Sane L m) {k : ℕ} (hk : k + 1 < L.n) (hr : 0 < (m.result k).prec) :
    Later m (L.tellDown m k) := by
  refine fun j => ⟨id, fun hj => ?_⟩
  by_cases h : j = k + 1
  · subst h; exact told hS hk hr
  · simpa [League.tellDown, h] using hj

theorem forward_step (hF : Fits d T L) {a b : Talk × ℝ} {k : ℕ} (hk : k + 1 < d.m)
    (hS : Sane L a.1) (h : Rep d L s0 a.1 s) (hb : L.forward a k = some b) :
    ∃ s', sweepStep 1 (s, a.2) (d.pair T k) = (s', b.2) ∧ Rep d L s0 b.1 s' ∧ Sane L b.1 ∧
      Later a.1 b.1 ∧ 0 < (b.1.result k).prec ∧ 0 < (b.1.down (k + 1)).prec := by
  rw [League.forward, Option.map_eq_some_iff] at hb
  obtain ⟨x, hx, rfl⟩ := hb
  have hn := hF.n
  have hpos := compare_pos (hS.C (by omega)) hx
  obtain ⟨h1, h2⟩ := visit hF hS h hk hx
  have hr : 0 < ((a.1.hear k x).result k).prec := by simpa [Talk.hear] using hpos
  refine ⟨_, ?_, tellDown hF (hear_sane hS hpos) h1 hk hr,
    tellDown_sane (hear_sane hS hpos) (by omega) hr,
    (hear_later hpos).trans (tellDown_later (hear_sane hS hpos) (by omega) hr), hr,
    told (hear_sane hS hpos) (by omega) hr⟩
  rw [← h2]
  simp only [sweepStep, pair, flt]

theorem backward_step (hF : Fits d T L) {a b : Talk × ℝ} {k : ℕ} (hk : k + 1 < d.m)
    (hS : Sane L a.1) (h : Rep d L s0 a.1 s) (hb : L.backward a k = some b) :
    ∃ s', sweepStep 0 (s, a.2) (d.pair T k) = (s', b.2) ∧ Rep d L s0 b.1 s' ∧ Sane L b.1 ∧
      Later a.1 b.1 ∧ 0 < (b.1.result k).prec := by
  rw [League.backward, Option.map_eq_some_iff] at hb
  obtain ⟨x, hx, rfl⟩ := hb
  have hn := hF.n
  have hpos := compare_pos (hS.C (by omega)) hx
  obtain ⟨h1, h2⟩ := visit hF hS h hk hx
  have hr : 0 < ((a.1.hear k x).result k).prec := by simpa [Talk.hear] using hpos
  refine ⟨_, ?_, tellUp hF (hear_sane hS hpos) h1 hk hr,
    tellUp_sane (hear_sane hS hpos) (by omega) hr, hear_later hpos, hr⟩
  rw [← h2]
  simp only [sweepStep, pair, flt]

theorem fold_step {f : Talk × ℝ → ℕ → Option (Talk × ℝ)} {i : ℕ} {P : ℕ → Talk → Prop}
    (hP : ∀ {a b : Talk} {k : ℕ}, Later a b → P k a → P k b)
    (hf : ∀ {s : Store ℝ} {a b : Talk × ℝ} {k : ℕ}, k + 1 < d.m → Sane L a.1 →
      Rep d L s0 a.1 s → f a k = some b →
      ∃ s', sweepStep i (s, a.2) (d.pair T k) = (s', b.2) ∧ Rep d L s0 b.1 s' ∧ Sane L b.1 ∧
        Later a.1 b.1 ∧ P k b.1) (ks : List ℕ) :
    ∀ {s : Store ℝ} {a b : Talk × ℝ}, (∀ k ∈ ks, k + 1 < d.m) → Sane L a.1 → Rep d L s0 a.1 s →
      ks.foldlM f a = some b →
      ∃ s', (ks.map (d.pair T)).foldl (sweepStep i) (s, a.2) = (s', b.2) ∧ Rep d L s0 b.1 s' ∧
        Sane L b.1 ∧ Later a.1 b.1 ∧ ∀ k ∈ ks, P k b.1 := by
  induction ks with
  | nil =>
    intro s a b _ hS h hb
    obtain rfl : a = b := by simpa using hb
    exact ⟨s, rfl, h, hS, .refl _, by simp⟩
  | cons k ks ih =>
    intro s a b hks hS h hb
    rw [List.foldlM_cons] at hb
    obtain ⟨c, hc, hb⟩ := Option.bind_eq_some_iff.1 hb
    obtain ⟨s', e1, h1, S1, l1, p1⟩ := hf (hks k (by simp)) hS h hc
    obtain ⟨s'', e2, h2, S2, l2, p2⟩ := ih (fun j hj => hks j (by simp [hj])) S1 h1 hb
    refine ⟨s'', ?_, h2, S2, l1.trans l2, ?_⟩
    · rw [List.map_cons, List.foldl_cons, e1, e2]
    · intro j hj
      rcases List.mem_cons.1 hj with rfl | hj
      · exact hP l2 p1
      · exact p2 j hj

theorem pairs_dropLast (d : Field) (T : ℕ → TruncateFactor ℝ) :
    ((List.range (d.m - 1)).map (d.pair T)).dropLast = (List.range (d.m - 2)).map (d.pair T) := by
  rw [← List.map_dropLast, List.dropLast_eq_take, List.length_range, List.take_range]
  congr 2
  omega

theorem pairs_tail (d : Field) (T : ℕ → TruncateFactor ℝ) :
    ((List.range (d.m - 1)).map (d.pair T)).tail.reverse =
      ((List.range (d.m - 2)).map (· + 1)).reverse.map (d.pair T) := by
  rw [← List.map_tail, List.map_reverse]
  congr 2
  rcases Nat.lt_or_ge d.m 2 with h | h
  · have e1 : d.m - 1 = 0 := by omega
    have e2 : d.m - 2 = 0 := by omega
    rw [e1, e2]; rfl
  · obtain ⟨j, hj⟩ : ∃ j, d.m = j + 2 := ⟨d.m - 2, by omega⟩
    have e1 : d.m - 1 = j + 1 := by omega
    have e2 : d.m - 2 = j := by omega
    rw [e1, e2, List.range_succ_eq_map]
    rfl

/-- A round of the code is a round of the specification. -/
theorem round_step (hm : 2 ≤ d.m) (hF : Fits d T L) {b : Talk × ℝ} (hS : Sane L m)
    (h : Rep d L s0 m s) (hb : L.round m = some b) :
    ∃ s', iterate ((List.range (d.m - 1)).map (d.pair T)) s = (s', b.2) ∧ Rep d L s0 b.1 s' ∧
      Sane L b.1 ∧ Later m b.1 ∧ ∀ k, k + 1 < d.m →
        0 < (b.1.result k).prec ∧ (0 < k → 0 < (b.1.down k).prec) := by
  have hn := hF.n
  rw [League.round] at hb
  split_ifs at hb with h2
  · rw [hn] at h2
    obtain ⟨x, hx, rfl⟩ := Option.map_eq_some_iff.1 hb
    have hpos := compare_pos (hS.C (by omega)) hx
    obtain ⟨v1, v2⟩ := visit hF hS h (by omega) hx
    refine ⟨_, ?_, v1, hear_sane hS hpos, hear_later hpos, ?_⟩
    · rw [← v2, h2]; rfl
    · intro k hk
      obtain rfl : k = 0 := by omega
      exact ⟨by simpa [Talk.hear] using hpos, by omega⟩
  · rw [hn] at hb h2
    obtain ⟨c, hc, hb⟩ := Option.bind_eq_some_iff.1 hb
    obtain ⟨s1, e1, r1, S1, l1, p1⟩ := fold_step
      (P := fun k a => 0 < (a.result k).prec ∧ 0 < (a.down (k + 1)).prec)
      (fun l h => ⟨(l _).1 h.1, (l _).2 h.2⟩) (fun hk hS h hb => forward_step hF hk hS h hb) _ (fun k hk => by rw [List.mem_range] at hk; omega) hS h hc
    obtain ⟨s2, e2, r2, S2, l2, p2⟩ := fold_step
      (P := fun k a => 0 < (a.result k).prec) (fun l h => (l _).1 h)
      (fun hk hS h hb => backward_step hF hk hS h hb) _ (fun k hk => by simp at hk; omega) S1 r1 hb
    refine ⟨s2, ?_, r2, S2, l1.trans l2, ?_⟩
    · rw [iterate]
      · rw [pairs_dropLast, pairs_tail]
        simp only [flt] at e1 ⊢
        rw [e1, e2]
      · intro p hp
        have := congrArg List.length hp
        simp at this
        omega
    · intro k hk
      by_cases hk0 : k = 0
      · subst hk0
        exact ⟨(l2 0).1 (p1 0 (by simp; omega)).1, by omega⟩
      · refine ⟨p2 k (by simp; exact ⟨k - 1, by omega, by omega⟩), fun _ => ?_⟩
        have := (l2 (k - 1 + 1)).2 (p1 (k - 1) (by simp; omega)).2
        rwa [Nat.sub_add_cancel (by omega)] at this

/-- The loop. -/
theorem rounds_step (hm : 2 ≤ d.m) (hF : Fits d T L) (r : ℕ) : ∀ {s : Store ℝ} {m b : Talk},
    Sane L m → Rep d L s0 m s → L.rounds (r + 1) m = some b →
    Rep d L s0 b (iterLoop 0.0001 ((List.range (d.m - 1)).map (d.pair T)) (r + 1) s) ∧
      Sane L b ∧ ∀ k, k + 1 < d.m →
        0 < (b.result k).prec ∧ (0 < k → 0 < (b.down k).prec) := by
  induction r with
  | zero =>
    intro s m b hS h hb
    rw [League.rounds] at hb
    obtain ⟨c, hc, hb⟩ := Option.bind_eq_some_iff.1 hb
    obtain ⟨s', e, r1, S1, -, p1⟩ := round_step hm hF hS h hc
    have hcb : c.1 = b := by
      split_ifs at hb
      · exact Option.some.inj hb
      · rw [League.rounds] at hb; exact Option.some.inj hb
    subst hcb
    rw [iterLoop, e]
    simp only [iterLoop, ite_self]
    exact ⟨r1, S1, p1⟩
  | succ r ih =>
    intro s m b hS h hb
    rw [League.rounds] at hb
    obtain ⟨c, hc, hb⟩ := Option.bind_eq_some_iff.1 hb
    obtain ⟨s', e, r1, S1, -, p1⟩ := round_step hm hF hS h hc
    rw [iterLoop, e]
    simp only [flt]
    by_cases hle : c.2 ≤ 0.0001
    · rw [if_pos hle] at hb
      rw [if_pos hle]
      obtain rfl := Option.some.inj hb
      exact ⟨r1, S1, p1⟩
    · rw [if_neg hle] at hb
      rw [if_neg hle]
      exact ih S1 r1 hb

/-- The last two messages between teams. -/
theorem finish_step (hm : 2 ≤ d.m) (hF : Fits d T L) (hS : Sane L m) (h : Rep d L s0 m s)
    (hr : ∀ k, k + 1 < d.m → 0 < (m.result k).prec ∧ (0 < k → 0 < (m.down k).prec)) :
    Rep d L s0 (L.tellDown (L.tellUp m 0) (L.n - 2))
        ((d.diffFactor (d.m - 2)).up 1 ((d.diffFactor 0).up 0 s).1).1 ∧
      ∀ k < d.m, 0 < ((L.tellDown (L.tellUp m 0) (L.n - 2)).down k +
        (L.tellDown (L.tellUp m 0) (L.n - 2)).up k).prec := by
  have hn := hF.n
  have r1 := tellUp hF hS h (k := 0) (by omega) (hr 0 (by omega)).1
  have S1 := tellUp_sane hS (k := 0) (by omega) (hr 0 (by omega)).1
  have hr2 : 0 < ((L.tellUp m 0).result (d.m - 2)).prec := (hr (d.m - 2) (by omega)).1
  have r2 := tellDown hF S1 r1 (k := d.m - 2) (by omega) hr2
  have S2 := tellDown_sane S1 (k := d.m - 2) (by omega) hr2
  rw [hn]
  refine ⟨r2, fun k hk => ?_⟩
  have hd := S2.down k
  have hu := S2.up k
  rw [add_prec]
  by_cases h0 : k = 0
  · subst h0
    have : 0 < ((L.tellUp m 0).up 0).prec := by
      simp only [League.tellUp, Function.update_self]
      exact of_prec_pos _ (add_pos (variance_pos (hS.below (by omega)))
        (variance_pos (hr 0 (by omega)).1))
    have : 0 < ((L.tellDown (L.tellUp m 0) (d.m - 2)).up 0).prec := this
    linarith
  · have : 0 < ((L.tellDown (L.tellUp m 0) (d.m - 2)).down k).prec := by
      by_cases h1 : k = d.m - 2 + 1
      · rw [h1]; exact told S1 (by omega) hr2
      · exact (tellDown_later S1 (by omega) hr2 k).2 ((hr k (by omega)).2 (by omega))
    linarith

end

/-! ### Back to the players -/

open Duel (two_gaussian two_first two_second)

/-- The variable of the performance of player `i` of team `t` after the team factor, when the
results say that the team is `e` better than expected, with total variance `D`. -/
noncomputable def perfVar (d : Field) (e D : ℝ) (t i : ℕ) : Variable ℝ :=
  ((Variable.new.updateMessage (d.n + i) (nrm (d.μ i) (d.V i))).1.updateMessage (d.n + d.n + t)
    (nrm (d.μ i + e / d.w i) ((D - d.w i ^ 2 * d.V i) / d.w i ^ 2))).1

theorem team_up (h : d.Ok) (x : Info) (hx : 0 < x.prec) {t : ℕ} (ht : t < d.m) (s : Store ℝ)
    (hT : (s (.teamPerf t)).gaussian / (s (.teamPerf t)).messages (d.n + d.n + t) = gau x)
    (hp : ∀ j < d.sz t, s (.perf (d.off t + j)) =
      (Variable.new.updateMessage (d.n + (d.off t + j))
        (nrm (d.μ (d.off t + j)) (d.V (d.off t + j)))).1) :
    let s' := (List.range (d.teamFactor t).terms.length).foldl
      (fun s x => ((d.teamFactor t).up x s).1) s
    (∀ j < d.sz t, s' (.perf (d.off t + j)) =
      d.perfVar (x.mean - d.M t) (x.variance + d.Q t) t (d.off t + j)) ∧
      ∀ r, (∀ j < d.sz t, r ≠ .perf (d.off t + j)) → s' r = s r := by
  have hlen : (d.teamFactor t).terms.length = d.sz t := by simp [teamFactor]
  rw [hlen]
  exact foldl_write (fun x s => ((d.teamFactor t).up x s).1) (fun j => .perf (d.off t + j))
    (fun j => d.perfVar (x.mean - d.M t) (x.variance + d.Q t) t (d.off t + j)) s
    (fun i j hij => by injection hij; omega)
    (d.sz t) (by
      intro y hy s' h1' h2' k
      have hn : ∀ j < d.sz t, j ≠ y → (s' (.perf (d.off t + j))).gaussian /
          (s' (.perf (d.off t + j))).messages (d.teamFactor t).id =
          nrm (d.μ (d.off t + j)) (d.V (d.off t + j)) := by
        intro j hj hjx
        have hlt := off_lt ht hj
        change _ / (s' (.perf (d.off t + j))).messages (d.n + d.n + t) = _
        by_cases hlt' : j < y
        · rw [h1' j hlt', perfVar, two_second (by omega)]
        · rw [h2' _ (fun i hi hij => by injection hij; omega), hp j hj, new_update, new_messages,
            if_neg (by omega), div_default]
      have hS : (s' (d.teamFactor t).sum).gaussian /
          (s' (d.teamFactor t).sum).messages (d.teamFactor t).id =
          nrm x.mean x.variance := by
        change (s' (.teamPerf t)).gaussian / (s' (.teamPerf t)).messages (d.n + d.n + t) = _
        rw [h2' _ (fun i _ hi => by simp at hi), hT, gau_nrm hx]
      have hw := h.hw _ (off_lt ht hy)
      have := up_nrm (d.teamFactor t) s' (d.sz t) (fun j => .perf (d.off t + j))
        (fun j => d.w (d.off t + j)) (fun j => d.μ (d.off t + j)) (fun j => d.V (d.off t + j))
        rfl rfl y hy hw (fun j hj _ => (V_pos h (off_lt ht hj)).ne') hn _ _
        (variance_pos hx).ne' hS
      change ((d.teamFactor t).up y s').1 k = _
      rw [this, write_get, h2' _ (fun i hi hij => by injection hij; omega), hp y hy, perfVar]
      have e1 : (x.mean - ∑ j ∈ range (d.sz t), d.w (d.off t + j) * d.μ (d.off t + j)
          + d.w (d.off t + y) * d.μ (d.off t + y)) / d.w (d.off t + y) =
          d.μ (d.off t + y) + (x.mean - d.M t) / d.w (d.off t + y) := by
        change (x.mean - d.M t + _) / _ = _
        field_simp
        ring
      rw [e1]
      rfl)

theorem teams_up (h : d.Ok) (x : ℕ → Info) (hx : ∀ t < d.m, 0 < (x t).prec) (s : Store ℝ)
    (hT : ∀ t < d.m,
      (s (.teamPerf t)).gaussian / (s (.teamPerf t)).messages (d.n + d.n + t) = gau (x t))
    (hp : ∀ i < d.n, s (.perf i) = (Variable.new.updateMessage (d.n + i) (nrm (d.μ i) (d.V i))).1) :
    ∀ m ≤ d.m,
    let s' := ((List.range m).map d.teamFactor).foldl
      (fun s f => (List.range f.terms.length).foldl (fun s x => (f.up x s).1) s) s
    (∀ t < m, ∀ j < d.sz t, s' (.perf (d.off t + j)) =
      d.perfVar ((x t).mean - d.M t) ((x t).variance + d.Q t) t (d.off t + j)) ∧
      ∀ r, (∀ t < m, ∀ j < d.sz t, r ≠ .perf (d.off t + j)) → s' r = s r := by
  intro m
  induction m with
  | zero => intro _; exact ⟨by simp, fun r _ => rfl⟩
  | succ m ih =>
    intro hm s'
    obtain ⟨a1, a2⟩ := ih (by omega)
    set s1 := ((List.range m).map d.teamFactor).foldl
      (fun s f => (List.range f.terms.length).foldl (fun s x => (f.up x s).1) s) s with hs1
    have hs' : s' = (List.range (d.teamFactor m).terms.length).foldl
        (fun s x => ((d.teamFactor m).up x s).1) s1 := by
      simp only [s', List.range_succ, List.map_append, List.foldl_append, List.map_cons,
        List.map_nil, List.foldl_cons, List.foldl_nil, ← hs1]
    have sep : ∀ t < m, ∀ i < d.sz t, ∀ j < d.sz m,
        (VarRef.perf (d.off m + j)) ≠ .perf (d.off t + i) := by
      intro t ht i hi j hj hij
      injection hij with hij
      have h1 := off_succ (d := d) t
      have h2 : d.off (t + 1) ≤ d.off m := off_mono (by omega)
      omega
    obtain ⟨b1, b2⟩ := team_up h (x m) (hx m (by omega)) (t := m) (by omega) s1
      (by rw [a2 _ (fun t _ j _ hx => by simp at hx)]; exact hT m (by omega))
      (fun j hj => by
        rw [a2 _ (fun t ht i hi => sep t ht i hi j hj)]
        exact hp _ (off_lt (by omega) hj))
    rw [← hs'] at b1 b2
    constructor
    · intro t ht j hj
      by_cases htm : t = m
      · subst htm; exact b1 j hj
      · rw [b2 _ (fun i hi hij => sep t (by omega) j hj i hi hij.symm)]
        exact a1 t (by omega) j hj
    · intro r hr
      rw [b2 r (fun j hj => hr m (by omega) j hj), a2 r (fun t ht j hj => hr t (by omega) j hj)]

theorem perfs_up (h : d.Ok) (x : ℕ → Info) (hx : ∀ t < d.m, 0 < (x t).prec) (s : Store ℝ)
    (hr : ∀ i < d.n, (s (.rating i)).gaussian = nrm (d.μ i) (d.S i) ∧
      (s (.rating i)).messages (d.n + i) = Gaussian.default)
    (hp : ∀ t < d.m, ∀ j < d.sz t, s (.perf (d.off t + j)) =
      d.perfVar ((x t).mean - d.M t) ((x t).variance + d.Q t) t (d.off t + j)) :
    ∀ t < d.m, ∀ j < d.sz t,
      readRating (((List.range d.n).map d.perfFactor).foldl (fun s f => (f.up s).1) s)
        (d.off t + j) = chainUpdate (d.M t) (d.Q t) (x t)
          ⟨d.μ (d.off t + j), d.S (d.off t + j), d.w (d.off t + j)⟩ := by
  rw [List.foldl_map (f := d.perfFactor)]
  obtain ⟨k1, -⟩ := foldl_write (fun i s => ((d.perfFactor i).up s).1) .rating
    (fun i => ((d.perfFactor i).up s).1 (.rating i)) s
    (fun i j hij => by injection hij) d.n (by
      intro i hi s' h1' h2' k
      have e1 : s' (.perf i) = s (.perf i) := h2' _ (fun j _ hj => by simp at hj)
      have e2 : s' (.rating i) = s (.rating i) :=
        h2' _ (fun j hj hij => by injection hij; omega)
      simp only [LikelihoodFactor.up, perfFactor, e1, e2, write_get, if_true])
  intro t ht j hj
  set i := d.off t + j with hi
  have hin : i < d.n := off_lt ht hj
  have hw := h.hw i hin
  have hS := S_pos h hin
  have hU := variance_pos (hx t ht)
  have hQ := Q_ge h ht hj
  rw [← hi] at hQ
  set D := (x t).variance + d.Q t with hD
  have hbig : d.w i ^ 2 * d.V i < D := by linarith
  have hpos : 0 < (D - d.w i ^ 2 * d.V i) / d.w i ^ 2 := div_pos (by linarith) (by positivity)
  have e3 : (s (.perf i)).gaussian / (s (.perf i)).messages (d.n + i) =
      nrm (d.μ i + ((x t).mean - d.M t) / d.w i) ((D - d.w i ^ 2 * d.V i) / d.w i ^ 2) := by
    rw [hp t ht j hj, perfVar, two_first (by omega)]
  have e4 := likelihood_message (d.perfFactor i) (d.μ i + ((x t).mean - d.M t) / d.w i) _ hpos
    (sq_nonneg d.β)
  have e5 : ((d.perfFactor i).up s).1 (.rating i) = ((s (.rating i)).updateMessage (d.n + i)
      (nrm (d.μ i + ((x t).mean - d.M t) / d.w i)
        ((D - d.w i ^ 2 * d.V i) / d.w i ^ 2 + d.β ^ 2))).1 := by
    rw [LikelihoodFactor.up]
    change (s.write (.rating i) ((s (.rating i)).updateMessage (d.n + i)
        { pi := (d.perfFactor i).calcA ((s (.perf i)).gaussian
            / (s (.perf i)).messages (d.n + i)) * ((s (.perf i)).gaussian
            / (s (.perf i)).messages (d.n + i)).pi
          tau := (d.perfFactor i).calcA ((s (.perf i)).gaussian
            / (s (.perf i)).messages (d.n + i)) * ((s (.perf i)).gaussian
            / (s (.perf i)).messages (d.n + i)).tau })).1 (.rating i) = _
    rw [e3, e4, write_get, if_pos rfl]
    rfl
  have hV : (D - d.w i ^ 2 * d.V i) / d.w i ^ 2 + d.β ^ 2 = D / d.w i ^ 2 - d.S i := by
    unfold V
    field_simp
    ring
  have hlt : d.S i < D / d.w i ^ 2 := by
    rw [lt_div_iff₀ (by positivity)]
    have h3 : d.w i ^ 2 * d.S i ≤ d.w i ^ 2 * d.V i := by
      unfold V
      have : 0 ≤ d.w i ^ 2 * d.β ^ 2 := by positivity
      linarith
    linarith
  obtain ⟨c1, c2⟩ := Duel.combine (d.μ i) (d.S i) (((x t).mean - d.M t) / d.w i) _ hS hlt
  rw [readRating, k1 i hin, e5, updateMessage_gaussian, (hr i hin).1, (hr i hin).2, div_default, hV,
    c1, c2, chainUpdate]
  have hD0 : D ≠ 0 := by
    have : 0 ≤ d.w i ^ 2 * d.V i := by have := V_pos h hin; positivity
    linarith
  simp only [← hD]
  congr 1
  · field_simp
  · congr 1
    field_simp

/-! ### The whole schedule -/

theorem start_sane (h : d.Ok) {T : ℕ → TruncateFactor ℝ} {L : League} (hF : Fits d T L) :
    Sane L ⟨fun _ => .none, fun _ => .none, fun _ => .none⟩ := by
  refine ⟨fun k hk => ?_, fun _ => le_rfl, fun _ => le_rfl, fun _ => le_rfl⟩
  rw [hF.n] at hk
  rw [hF.team k hk]
  exact of_prec_pos _ (Q_pos h hk)

theorem start_rep {T : ℕ → TruncateFactor ℝ} {L : League} (hF : Fits d T L)
    {s : Store ℝ} (hs : Before d s) :
    Rep d L s ⟨fun _ => .none, fun _ => .none, fun _ => .none⟩ s := by
  refine ⟨fun _ _ _ => rfl, ?_, ?_, ?_, ?_, ?_, ?_⟩
  · intro k hk
    rw [hs.team k hk, new_update, hF.team k hk, ← gau_of]
    exact gaussian_ext (by simp [gau, add_prec, Info.none]) (by simp [gau, add_pm, Info.none])
  · intro k hk
    rw [hs.team k hk, new_messages, if_pos rfl, hF.team k hk, gau_of]
  · intro k hk
    rw [hs.team _ hk, new_messages, if_neg (by unfold did; omega), gau_none]
  · intro k hk
    rw [hs.team _ (by omega), new_messages, if_neg (by unfold did; omega), gau_none]
  · intro k hk
    rw [hs.diff, gau_none]
    exact (default_mul _).symm
  · intro k hk
    rw [hs.diff, gau_none]
    rfl

/-- What the factor graph computes. -/
theorem result (h : d.Ok) (p : ℝ) (ts : List (List (TrueSkillRating ℝ) × MultiTeamOutcome))
    (hts : ts.length = d.m) (T : ℕ → TruncateFactor ℝ) (L : League) (hF : Fits d T L)
    (hT : buildTruncLayer p d.β (d.n + d.n + d.m + (d.m - 1)) 0 ts = (List.range (d.m - 1)).map T)
    (x : ℕ → Info) (hx : L.heard = some x) :
    ∃ s, runSchedule ((List.range d.m).map fun t => d.off (t + 1)) ts ((List.range d.n).map d.R)
        ((List.range d.n).map d.w) d.τ d.β p 0.0001 = .ok s ∧
      ∀ t < d.m, ∀ j < d.sz t, readRating s (d.off t + j) = chainUpdate (d.M t) (d.Q t) (x t)
          ⟨d.μ (d.off t + j), d.S (d.off t + j), d.w (d.off t + j)⟩ := by
  have hm : (!((0.0 : ℝ) <? (0.0001 : ℝ))) = false := by
    have : ((0.0 : ℝ) <? (0.0001 : ℝ)) = true := by
      rw [Flt.lt_real]; norm_num
    rw [this]; rfl
  rw [League.heard, Option.map_eq_some_iff] at hx
  obtain ⟨m, hround, hx⟩ := hx
  obtain ⟨fs, hfs, s, hs, hb⟩ := before h
  set s3 := ((List.range d.m).map d.teamFactor).foldl (fun s f => (f.down s).1)
      (((List.range d.n).map d.perfFactor).foldl (fun s f => (f.down s).1) s) with hs3
  obtain ⟨r4, S4, p4⟩ := rounds_step h.hm hF 9 (start_sane h hF) (start_rep hF hb) hround
  set s4 := iterLoop 0.0001 ((List.range (d.m - 1)).map (d.pair T)) (9 + 1) s3 with hs4
  obtain ⟨r5, p5⟩ := finish_step h.hm hF S4 r4 p4
  set s5 := ((d.diffFactor (d.m - 2)).up 1 ((d.diffFactor 0).up 0 s4).1).1 with hs5
  subst hx
  obtain ⟨w1, w2⟩ := teams_up h _ p5 s5 (by
    intro t ht
    rw [r5.gauss t ht, r5.own t ht, gau_add, mul_div_left]) (by
    intro i hi
    rw [r5.other _ (by simp) (by simp)]
    exact hb.perf i hi) d.m le_rfl
  set s6 := ((List.range d.m).map d.teamFactor).foldl
      (fun s f => (List.range f.terms.length).foldl (fun s x => (f.up x s).1) s) s5 with hs6
  have hfin := perfs_up h _ p5 s6 (by
    intro i hi
    rw [w2 _ (fun t _ j _ ht => by simp at ht), r5.other _ (by simp) (by simp)]
    exact hb.rating i hi) w1
  refine ⟨((List.range d.n).map d.perfFactor).foldl (fun s f => (f.up s).1) s6, ?_, hfin⟩
  have hm2 := h.hm
  obtain ⟨j, hj⟩ : ∃ j, d.m = j + 2 := ⟨d.m - 2, by omega⟩
  have hhead : ((List.range (d.m - 1)).map d.diffFactor).head? = some (d.diffFactor 0) := by
    rw [hj]; simp [List.range_succ_eq_map]
  have hlast : ((List.range (d.m - 1)).map d.diffFactor).getLast? =
      some (d.diffFactor (d.m - 2)) := by
    rw [hj]; simp [List.range_succ]
  have hzip : ((List.range (d.m - 1)).map d.diffFactor).zip ((List.range (d.m - 1)).map T) =
      (List.range (d.m - 1)).map (d.pair T) := by
    rw [List.zip_map']; rfl
  rw [runSchedule, hm]
  simp only [Bool.false_eq_true, if_false, hfs, hs, List.length_map, List.length_range, hts,
    perfLayer, teamLayer, diffLayer, hT, hzip, hhead, hlast]
  rfl

end Field
end TrueSkill
end Skillratings
