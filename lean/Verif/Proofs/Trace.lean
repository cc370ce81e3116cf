import Verif.Proofs.OneOnOne
import Verif.Proofs.ChainCore
/-
`run_schedule` in any arithmetic: which variables change when (C106).
-/
namespace Skillratings
namespace TrueSkill
namespace Trace
variable {F : Type} [Flt F]
open OneOnOne (lmsg tmsg)

theorem write_get (s : Store F) (r k : VarRef) (v : Variable F × F) :
    (s.write r v).1 k = if k = r then v.1 else s k := rfl

/-! ### The iteration leaves players alone -/

/-- Only differences and teams are written, the latter as messages with numbers from `lo` on. -/
inductive Reach (lo : Nat) (s : Store F) : Store F → Prop
  | refl : Reach lo s s
  | diff (s' : Store F) (k : Nat) (v : Variable F × F) (h : Reach lo s s') :
    Reach lo s (s'.write (.teamDiff k) v).1
  | team (s' : Store F) (t id : Nat) (msg : Gaussian F) (hid : lo ≤ id) (h : Reach lo s s') :
    Reach lo s (s'.write (.teamPerf t) ((s' (.teamPerf t)).updateMessage id msg)).1

namespace Reach
variable {lo : Nat} {s s' s'' : Store F}

theorem trans (h : Reach lo s s') (h' : Reach lo s' s'') : Reach lo s s'' := by
  induction h' with
  | refl => exact h
  | diff s'' k v _ ih => exact ih.diff s'' k v
  | team s'' t id msg hid _ ih => exact ih.team s'' t id msg hid

theorem rating (h : Reach lo s s') (i : Nat) : s' (.rating i) = s (.rating i) := by
  induction h with
  | refl => rfl
  | diff s' k v _ ih => rw [write_get, if_neg (by simp)]; exact ih
  | team s' t id msg hid _ ih => rw [write_get, if_neg (by simp)]; exact ih

theorem perf (h : Reach lo s s') (i : Nat) : s' (.perf i) = s (.perf i) := by
  induction h with
  | refl => rfl
  | diff s' k v _ ih => rw [write_get, if_neg (by simp)]; exact ih
  | team s' t id msg hid _ ih => rw [write_get, if_neg (by simp)]; exact ih

/-- Whatever messages keep is kept. -/
theorem team_inv (h : Reach lo s s') (P : Variable F → Prop)
    (hP : ∀ v id msg, lo ≤ id → P v → P (v.updateMessage id msg).1) (t : Nat)
    (h0 : P (s (.teamPerf t))) : P (s' (.teamPerf t)) := by
  induction h with
  | refl => exact h0
  | diff s' k v _ ih => rw [write_get, if_neg (by simp)]; exact ih
  | team s' u id msg hid _ ih =>
    rw [write_get]
    split_ifs with hu
    · obtain rfl : t = u := by simpa using hu
      exact hP _ _ _ hid ih
    · exact ih

end Reach

/-- A factor of a difference of teams. -/
structure IsDiff (lo : Nat) (f : SumFactor F) : Prop where
  id : lo ≤ f.id
  sum : ∃ k, f.sum = .teamDiff k
  terms : ∃ k l, f.terms = [.teamPerf k, .teamPerf l]

variable {lo : Nat}

theorem IsDiff.down {f : SumFactor F} (h : IsDiff lo f) (s : Store F) : Reach lo s (f.down s).1 := by
  obtain ⟨k, hk⟩ := h.sum
  rw [SumFactor.down, SumFactor.update, hk]
  exact Reach.refl.diff _ _ _

theorem IsDiff.up {f : SumFactor F} (h : IsDiff lo f) (x : Nat) (hx : x < 2) (s : Store F) :
    Reach lo s (f.up x s).1 := by
  obtain ⟨k, l, hk⟩ := h.terms
  have : ∃ t, f.terms.getD x f.sum = .teamPerf t := by
    rw [hk]
    match x, hx with
    | 0, _ => exact ⟨k, rfl⟩
    | 1, _ => exact ⟨l, rfl⟩
  obtain ⟨t, ht⟩ := this
  rw [SumFactor.up, SumFactor.update, ht]
  exact Reach.refl.team _ _ _ _ h.id

theorem trunc_up {f : TruncateFactor F} (h : ∃ k, f.var = .teamDiff k) (s : Store F) :
    Reach lo s (f.up s).1 := by
  obtain ⟨k, hk⟩ := h
  rw [TruncateFactor.up, hk]
  exact Reach.refl.diff _ _ _

/-- The pairs of the iteration. -/
def IsPair (lo : Nat) (d : DiffPair F) : Prop := IsDiff lo d.1 ∧ ∃ k, d.2.var = .teamDiff k

theorem sweep_reach (x : Nat) (hx : x < 2) : ∀ (ds : List (DiffPair F)) (s : Store F) (acc : Store F × F),
    (∀ d ∈ ds, IsPair lo d) → Reach lo s acc.1 → Reach lo s (ds.foldl (sweepStep x) acc).1 := by
  intro ds
  induction ds with
  | nil => intro s acc _ h; exact h
  | cons d ds ih =>
    intro s acc hd h
    have h1 := hd d (by simp)
    rw [List.foldl_cons]
    refine ih s _ (fun e he => hd e (List.mem_cons_of_mem _ he)) ?_
    exact ((h.trans (h1.1.down _)).trans (trunc_up h1.2 _)).trans (h1.1.up x hx _)

theorem iterate_reach (ds : List (DiffPair F)) (hd : ∀ d ∈ ds, IsPair lo d) (s : Store F) :
    Reach lo s (iterate ds s).1 := by
  have hsweep : Reach lo s (ds.tail.reverse.foldl (sweepStep 0)
      (ds.dropLast.foldl (sweepStep 1) (s, 0.0))).1 := by
    refine sweep_reach 0 (by omega) _ s _ (fun d h => hd d ?_) ?_
    · exact List.mem_of_mem_tail (List.mem_reverse.1 h)
    · exact sweep_reach 1 (by omega) _ s _ (fun d h => hd d (List.mem_of_mem_dropLast h)) .refl
  match ds, hd, hsweep with
  | [], _, h => exact h
  | [d], hd, _ =>
    have h1 := hd d (by simp)
    exact (h1.1.down s).trans (trunc_up h1.2 _)
  | _ :: _ :: _, _, h => exact h

theorem iterLoop_reach (m : F) (ds : List (DiffPair F)) (hd : ∀ d ∈ ds, IsPair lo d) :
    ∀ (n : Nat) (s : Store F), Reach lo s (iterLoop m ds n s)
  | 0, s => .refl
  | n + 1, s => by
    have h1 := iterate_reach ds hd s
    rw [iterLoop]
    simp only
    split_ifs
    · exact h1
    · exact h1.trans (iterLoop_reach m ds hd n _)

theorem diffLayer_isDiff (n lo' : Nat) (h : lo ≤ lo') (f : SumFactor F)
    (hf : f ∈ buildTeamDiffLayer n lo') : IsDiff lo f := by
  rw [buildTeamDiffLayer, List.mem_map] at hf
  obtain ⟨k, -, rfl⟩ := hf
  exact ⟨h.trans (Nat.le_add_right _ _), ⟨k, rfl⟩, ⟨k, k + 1, rfl⟩⟩

theorem truncLayer_var (p b : F) (id : Nat) (l : List (List (TrueSkillRating F) × MultiTeamOutcome)) :
    ∀ x, ∀ f ∈ buildTruncLayer p b id x l, ∃ k, f.var = .teamDiff k := by
  induction l with
  | nil => intro x f hf; simp [buildTruncLayer] at hf
  | cons a l ih =>
    intro x f hf
    cases l with
    | nil => simp [buildTruncLayer] at hf
    | cons c l =>
      rw [buildTruncLayer, List.mem_cons] at hf
      rcases hf with rfl | hf
      · exact ⟨x, rfl⟩
      · exact ih (x + 1) f hf

/-! ### Writing one variable after the other -/

omit [Flt F] in
theorem foldl_keep (f : Nat → Store F → Store F) (tgt : Nat → VarRef) (s : Store F)
    (hf : ∀ i s k, k ≠ tgt i → f i s k = s k) (hinj : ∀ i j, tgt i = tgt j → i = j) (n : Nat) :
    (∀ k, (∀ i < n, k ≠ tgt i) → (List.range n).foldl (fun s i => f i s) s k = s k) ∧
    ∀ i < n, (List.range n).foldl (fun s i => f i s) s (tgt i)
      = f i ((List.range i).foldl (fun s i => f i s) s) (tgt i) := by
  induction n with
  | zero => exact ⟨fun _ _ => rfl, fun i hi => absurd hi (Nat.not_lt_zero i)⟩
  | succ n ih =>
    rw [List.range_succ, List.foldl_append]
    simp only [List.foldl_cons, List.foldl_nil]
    constructor
    · intro k hk
      rw [hf n _ k (hk n (by omega))]
      exact ih.1 k fun i hi => hk i (by omega)
    · intro i hi
      by_cases h : i = n
      · rw [h]
      · rw [hf n _ _ fun h' => h (hinj _ _ h')]
        exact ih.2 i (by omega)

/-! ### Priors -/

/-- The prior of a player, as computed. -/
def prior (τ : F) (r : TrueSkillRating F) : Except Panic (Gaussian F) :=
  match Gaussian.withMuSigma r.rating r.uncertainty with
  | .error e => .error e
  | .ok v => Gaussian.withMuSigma v.mu (Flt.hypot v.sigma τ)

theorem ratings_down (τ : F) : ∀ (rs : List (TrueSkillRating F)) (i : Nat) (fs : List (PriorFactor F))
    (s s' : Store F), buildRatingLayer τ 0 i rs = .ok fs → priorsDown fs s = .ok s' →
    (∀ (j : Nat) r, rs[j]? = some r → ∃ g, prior τ r = .ok g ∧
      s' (.rating (i + j)) = ((s (.rating (i + j))).updateValue (i + j) g).1) ∧
    ∀ k, (∀ j < rs.length, k ≠ .rating (i + j)) → s' k = s k := by
  intro rs
  induction rs with
  | nil =>
    intro i fs s s' h h'
    rw [buildRatingLayer] at h
    obtain rfl := Except.ok.inj h
    rw [priorsDown] at h'
    obtain rfl := Except.ok.inj h'
    exact ⟨fun j r hr => by simp at hr, fun _ _ => rfl⟩
  | cons r rs ih =>
    intro i fs s s' h h'
    rw [buildRatingLayer] at h
    cases hv : Gaussian.withMuSigma r.rating r.uncertainty with
    | error e => rw [hv] at h; simp at h
    | ok v =>
      rw [hv] at h
      simp only at h
      cases hb : buildRatingLayer τ 0 (i + 1) rs with
      | error e => rw [hb] at h; simp at h
      | ok fs' =>
        rw [hb] at h
        obtain rfl := Except.ok.inj h
        rw [priorsDown, PriorFactor.down] at h'
        cases hg : Gaussian.withMuSigma v.mu (Flt.hypot v.sigma τ) with
        | error e => simp only [hg] at h'; simp at h'
        | ok g =>
          simp only [hg, Nat.zero_add] at h'
          obtain ⟨i1, i2⟩ := ih (i + 1) fs' _ s' hb h'
          constructor
          · intro j q hq
            cases j with
            | zero =>
              obtain rfl : r = q := by simpa using hq
              refine ⟨g, by rw [prior, hv]; exact hg, ?_⟩
              rw [Nat.add_zero, i2 (.rating i) (by
                intro j _ h; have := VarRef.rating.inj h; omega), write_get, if_pos rfl]
            | succ j =>
              obtain ⟨g', h1, h2⟩ := i1 j q (by simpa using hq)
              refine ⟨g', h1, ?_⟩
              rw [show i + (j + 1) = i + 1 + j by omega, h2, write_get, if_neg (by
                intro h; have := VarRef.rating.inj h; omega)]
          · intro k hk
            rw [i2 k (fun j hj => by
              have := hk (j + 1) (by simp only [List.length_cons]; omega)
              rwa [show i + 1 + j = i + (j + 1) by omega]), write_get, if_neg (by
              have := hk 0 (by simp)
              rwa [Nat.add_zero] at this)]

/-! ### The layout of the teams -/

/-- The teams: number, sizes, players in the order of the teams, and weights. -/
structure Lay (F : Type) where
  m : Nat
  sz : Nat → Nat
  R : Nat → TrueSkillRating F
  w : Nat → F
  τ : F
  β : F

namespace Lay

/-- The number of players before a team. -/
def off (d : Lay F) : Nat → Nat
  | 0 => 0
  | t + 1 => d.off t + d.sz t

variable (d : Lay F)

/-- The number of players. -/
def n : Nat := d.off d.m

theorem off_mono {a b : Nat} (h : a ≤ b) : d.off a ≤ d.off b := by
  induction h with
  | refl => exact Nat.le_refl _
  | step _ ih => exact ih.trans (Nat.le_add_right _ _)

theorem off_lt {t x : Nat} (ht : t < d.m) (hx : x < d.sz t) : d.off t + x < d.n := by
  have h1 : d.off (t + 1) = d.off t + d.sz t := rfl
  have h2 : d.off (t + 1) ≤ d.off d.m := d.off_mono ht
  unfold n; omega

/-- The factor of a team. -/
def teamFactor (t : Nat) : SumFactor F :=
  { id := d.n + d.n + t
    sum := .teamPerf t
    terms := (List.range (d.sz t)).map fun x => .perf (d.off t + x)
    coeffs := (List.range (d.sz t)).map fun x => d.w (d.off t + x) }

theorem teamLayer :
    buildTeamPerfLayer d.n ((List.range d.n).map d.w)
      ((List.range d.m).map fun t => d.off (t + 1)) (d.n + d.n) =
      (List.range d.m).map d.teamFactor := by
  rw [buildTeamPerfLayer, List.length_map, List.length_range]
  apply List.map_congr_left
  intro t ht
  rw [List.mem_range] at ht
  have e1 : ((List.range d.m).map fun t => d.off (t + 1)).getD t 0 = d.off t + d.sz t := by
    simp [ht, off]
  have e2 : (if t > 0 then ((List.range d.m).map fun t => d.off (t + 1)).getD (t - 1) 0 else 0) =
      d.off t := by
    cases t with
    | zero => simp [off]
    | succ t => simp [show t < d.m by omega]
  have hle : d.off t + d.sz t ≤ d.n := d.off_mono (a := t + 1) ht
  have h1 := slice_range VarRef.perf d.n (d.off t) (d.sz t) hle
  have h2 := slice_range d.w d.n (d.off t) (d.sz t) hle
  simp only [e1, e2, h1, h2, teamFactor]

/-- The factor between ratings and performances. -/
def perfFactor (i : Nat) : LikelihoodFactor F :=
  { id := d.n + i, mean := .rating i, value := .perf i, variance := Flt.powi d.β 2 }

theorem perfLayer : buildPerfLayer d.n d.β d.n = (List.range d.n).map d.perfFactor := rfl

theorem perf_down (i : Nat) (s : Store F) : ((d.perfFactor i).down s).1 (.perf i)
    = ((s (.perf i)).updateMessage (d.n + i) (lmsg d.β ((s (.rating i)).gaussian /
      (s (.rating i)).messages (d.n + i)))).1 := if_pos rfl

theorem perf_up (i : Nat) (s : Store F) : ((d.perfFactor i).up s).1 (.rating i)
    = ((s (.rating i)).updateMessage (d.n + i) (lmsg d.β ((s (.perf i)).gaussian /
      (s (.perf i)).messages (d.n + i)))).1 := if_pos rfl

/-- The performance of a player with a prior, before the iteration. -/
def perfVar (i : Nat) (g : Gaussian F) : Variable F :=
  ((Variable.new).updateMessage (d.n + i) (lmsg d.β (g / Gaussian.default))).1

/-- The team of a player and the place in it. -/
theorem split : ∀ m i, i < d.off m → ∃ t x, t < m ∧ x < d.sz t ∧ i = d.off t + x
  | 0, i, h => absurd h (Nat.not_lt_zero i)
  | m + 1, i, h => by
    by_cases h1 : i < d.off m
    · obtain ⟨t, x, h2, h3⟩ := split m i h1
      exact ⟨t, x, h2.trans (Nat.lt_succ_self m), h3⟩
    · exact ⟨m, i - d.off m, Nat.lt_succ_self m, by
        have : i < d.off m + d.sz m := h
        omega, by omega⟩

/-- What `run_schedule` did, in stages. -/
structure Run (s : Store F) where
  /-- The priors. -/
  g : Nat → Gaussian F
  /-- The store before the iteration. -/
  s2 : Store F
  /-- The store after the iteration and `k` messages from teams to players. -/
  S : Nat → Store F
  prior : ∀ i < d.n, Trace.prior d.τ (d.R i) = .ok (g i)
  perf2 : ∀ i < d.n, s2 (.perf i) = d.perfVar i (g i)
  team2 : ∀ t < d.m, s2 (.teamPerf t) = ((Variable.new).updateMessage (d.n + d.n + t)
    (tmsg (((List.range (d.sz t)).map fun x => (s2 (.perf (d.off t + x))).gaussian /
      (s2 (.perf (d.off t + x))).messages (d.n + d.n + t)).zip (d.teamFactor t).coeffs))).1
  reach : Reach (d.n + d.n + d.m) s2 (S 0)
  step : ∀ t x, t < d.m → x < d.sz t →
    S (d.off t + x + 1) = ((d.teamFactor t).up x (S (d.off t + x))).1
  last : ∀ i < d.n, (s (.rating i)).gaussian = g i / Gaussian.default *
    lmsg d.β ((S d.n (.perf i)).gaussian / (S d.n (.perf i)).messages (d.n + i))

theorem team_ups (s : Store F) : ∀ m, ∃ S : Nat → Store F, S 0 = s ∧
    (∀ t x, t < m → x < d.sz t → S (d.off t + x + 1) = ((d.teamFactor t).up x (S (d.off t + x))).1) ∧
    ((List.range m).map d.teamFactor).foldl (fun s f => (List.range f.terms.length).foldl
      (fun s x => (f.up x s).1) s) s = S (d.off m) := by
  intro m
  induction m with
  | zero => exact ⟨fun _ => s, rfl, fun t x ht => absurd ht (Nat.not_lt_zero t), rfl⟩
  | succ m ih =>
    obtain ⟨S, h0, h1, h2⟩ := ih
    have hin : ∀ j, ∃ S' : Nat → Store F, (∀ k ≤ d.off m, S' k = S k) ∧
        (∀ x < j, S' (d.off m + x + 1) = ((d.teamFactor m).up x (S' (d.off m + x))).1) ∧
        (List.range j).foldl (fun s x => ((d.teamFactor m).up x s).1) (S (d.off m))
          = S' (d.off m + j) := by
      intro j
      induction j with
      | zero => exact ⟨S, fun _ _ => rfl, fun x hx => absurd hx (Nat.not_lt_zero x), rfl⟩
      | succ j ihj =>
        obtain ⟨S', a1, a2, a3⟩ := ihj
        refine ⟨fun k => if k = d.off m + j + 1 then ((d.teamFactor m).up j (S' (d.off m + j))).1
          else S' k, ?_, ?_, ?_⟩
        · intro k hk
          simp only
          rw [if_neg (by omega)]; exact a1 k hk
        · intro x hx
          simp only
          by_cases hxj : x = j
          · subst hxj; rw [if_pos rfl, if_neg (by omega)]
          · rw [if_neg (by omega), if_neg (by omega)]; exact a2 x (by omega)
        · rw [List.range_succ, List.foldl_append, a3]
          simp only [List.foldl_cons, List.foldl_nil]
          rw [if_pos (by omega)]
    obtain ⟨S', a1, a2, a3⟩ := hin (d.sz m)
    refine ⟨S', by rw [a1 0 (Nat.zero_le _)]; exact h0, ?_, ?_⟩
    · intro t x ht hx
      by_cases htm : t = m
      · subst htm; exact a2 x hx
      · have hle : d.off (t + 1) ≤ d.off m := d.off_mono (by omega)
        have e : d.off (t + 1) = d.off t + d.sz t := rfl
        rw [a1 _ (by omega), a1 _ (by omega)]
        exact h1 t x (by omega) hx
    · rw [List.range_succ, List.map_append, List.foldl_append, h2]
      simp only [List.map_cons, List.map_nil, List.foldl_cons, List.foldl_nil]
      rw [show (d.teamFactor m).terms.length = d.sz m by simp [teamFactor]]
      exact a3

/-- One message from a team to a player. -/
theorem up_write (t x : Nat) (hx : x < d.sz t) (s : Store F) :
    ∃ dl, ((d.teamFactor t).up x s).1 = (s.write (.perf (d.off t + x))
      (((s (.perf (d.off t + x))).updateMessage (d.n + d.n + t)
        (tmsg ((((d.teamFactor t).terms.set x (.teamPerf t)).map fun val =>
          (s val).gaussian / (s val).messages (d.n + d.n + t)).zip
          (SumFactor.upCoeffs (d.teamFactor t).coeffs x)))).1, dl)).1 := by
  have e : (d.teamFactor t).terms.getD x (d.teamFactor t).sum = .perf (d.off t + x) := by
    simp [teamFactor, hx]
  rw [SumFactor.up, SumFactor.update, e]
  exact ⟨0.0, rfl⟩

theorem run (s : Store F) (sorted : List (List (TrueSkillRating F) × MultiTeamOutcome)) (p md : F)
    (hm : sorted.length = d.m)
    (hs : runSchedule ((List.range d.m).map fun t => d.off (t + 1)) sorted
      ((List.range d.n).map d.R) ((List.range d.n).map d.w) d.τ d.β p md = .ok s) :
    Nonempty (d.Run s) := by
  rw [runSchedule] at hs
  split_ifs at hs
  simp only [List.length_map, List.length_range, hm] at hs
  cases hb : buildRatingLayer d.τ 0 0 ((List.range d.n).map d.R) with
  | error e => rw [hb] at hs; simp at hs
  | ok fs =>
  rw [hb] at hs
  simp only at hs
  cases hp : priorsDown fs ⟨fun _ => Variable.new⟩ with
  | error e => rw [hp] at hs; simp at hs
  | ok s0 =>
  rw [hp] at hs
  simp only at hs
  obtain ⟨r1, r2⟩ := ratings_down d.τ _ 0 fs _ s0 hb hp
  simp only [Nat.zero_add, List.length_map, List.length_range] at r1 r2
  have r1' : ∀ i, ∃ g, i < d.n → Trace.prior d.τ (d.R i) = .ok g ∧
      s0 (.rating i) = ((Variable.new : Variable F).updateValue i g).1 := by
    intro i
    by_cases hi : i < d.n
    · obtain ⟨g, h⟩ := r1 i (d.R i) (by simp [hi])
      exact ⟨g, fun _ => h⟩
    · exact ⟨Gaussian.default, fun h => absurd h hi⟩
  choose g hg using r1'
  rw [d.perfLayer, d.teamLayer] at hs
  simp only [List.foldl_map] at hs
  -- performances
  set s1 := (List.range d.n).foldl (fun s i => ((d.perfFactor i).down s).1) s0 with hs1
  have k1 := foldl_keep (fun i s => ((d.perfFactor i).down s).1) VarRef.perf s0
    (fun i s k hk => by
      simp only [LikelihoodFactor.down, write_get]
      exact if_neg hk) (fun i j h => VarRef.perf.inj h)
  have s1r : ∀ i, s1 (.rating i) = s0 (.rating i) := fun i => (k1 d.n).1 _ fun _ _ => by simp
  have s1p : ∀ i < d.n, s1 (.perf i) = d.perfVar i (g i) := by
    intro i hi
    rw [hs1, (k1 d.n).2 i hi]
    have e1 := (k1 i).1 (.rating i) fun _ _ => by simp
    have e2 := (k1 i).1 (.perf i) fun j hj => by
      intro h; have := VarRef.perf.inj h; omega
    rw [perf_down]
    rw [show ((List.range i).foldl (fun s i => ((d.perfFactor i).down s).1) s0) (.perf i)
      = (Variable.new : Variable F) from e2.trans (r2 _ fun _ _ => by simp),
      show ((List.range i).foldl (fun s i => ((d.perfFactor i).down s).1) s0) (.rating i)
      = ((Variable.new : Variable F).updateValue i (g i)).1 from e1.trans (hg i hi).2]
    have hne : ¬ d.n + i = i := by omega
    have e3 : ((Variable.new : Variable F).updateValue i (g i)).1.messages (d.n + i)
        = Gaussian.default := if_neg hne
    rw [e3]
    rfl
  have s1t : ∀ t, s1 (.teamPerf t) = Variable.new := fun t =>
    ((k1 d.n).1 _ fun _ _ => by simp).trans (r2 _ fun _ _ => by simp)
  -- teams
  set s2 := (List.range d.m).foldl (fun s t => ((d.teamFactor t).down s).1) s1 with hs2
  have k2 := foldl_keep (fun t s => ((d.teamFactor t).down s).1) VarRef.teamPerf s1
    (fun i s k hk => by
      simp only [SumFactor.down, SumFactor.update, write_get]
      exact if_neg hk) (fun i j h => VarRef.teamPerf.inj h)
  have s2r : ∀ i, s2 (.rating i) = s0 (.rating i) := fun i =>
    ((k2 d.m).1 _ fun _ _ => by simp).trans (s1r i)
  have s2p' : ∀ i, s2 (.perf i) = s1 (.perf i) := fun i => (k2 d.m).1 _ fun _ _ => by simp
  have s2t : ∀ t < d.m, s2 (.teamPerf t) = ((Variable.new).updateMessage (d.n + d.n + t)
      (tmsg (((List.range (d.sz t)).map fun x => (s2 (.perf (d.off t + x))).gaussian /
        (s2 (.perf (d.off t + x))).messages (d.n + d.n + t)).zip (d.teamFactor t).coeffs))).1 := by
    intro t ht
    rw [hs2, (k2 d.m).2 t ht, ← hs2]
    have e1 : ∀ i, (List.range t).foldl (fun s t => ((d.teamFactor t).down s).1) s1 (.perf i)
        = s2 (.perf i) := fun i => ((k2 t).1 _ fun _ _ => by simp).trans (s2p' i).symm
    have e2 : (List.range t).foldl (fun s t => ((d.teamFactor t).down s).1) s1 (.teamPerf t)
        = Variable.new := ((k2 t).1 _ fun j hj => by
          intro h; have := VarRef.teamPerf.inj h; omega).trans (s1t t)
    set q := (List.range t).foldl (fun s t => ((d.teamFactor t).down s).1) s1 with hq
    have e3 : ((d.teamFactor t).down q).1 (.teamPerf t)
        = ((q (.teamPerf t)).updateMessage (d.n + d.n + t)
          (tmsg (((d.teamFactor t).terms.map fun val => (q val).gaussian /
            (q val).messages (d.n + d.n + t)).zip (d.teamFactor t).coeffs))).1 := by
      rw [SumFactor.down, SumFactor.update, write_get]
      exact if_pos rfl
    rw [e3, e2]
    have e4 : ((d.teamFactor t).terms.map fun val => (q val).gaussian /
            (q val).messages (d.n + d.n + t)) = (List.range (d.sz t)).map fun x =>
            (s2 (.perf (d.off t + x))).gaussian /
              (s2 (.perf (d.off t + x))).messages (d.n + d.n + t) := by
      rw [teamFactor, List.map_map]
      apply List.map_congr_left
      intro x _
      simp only [Function.comp, e1]
    rw [e4]
  -- iteration
  set DL := buildTeamDiffLayer (F := F) (d.m - 1) (d.n + d.n + d.m) with hDL
  cases hh : DL.head? with
  | none => rw [hh] at hs; simp at hs
  | some first =>
  cases hl : DL.getLast? with
  | none => rw [hh, hl] at hs; simp at hs
  | some last =>
  rw [hh, hl] at hs
  simp only [Except.ok.injEq] at hs
  have hfirst : IsDiff (d.n + d.n + d.m) first :=
    diffLayer_isDiff _ _ (Nat.le_refl _) _ (List.mem_of_mem_head? hh)
  have hlast : IsDiff (d.n + d.n + d.m) last :=
    diffLayer_isDiff _ _ (Nat.le_refl _) _ (List.mem_of_mem_getLast? hl)
  set TL := buildTruncLayer p d.β (d.n + d.n + d.m + (d.m - 1)) 0 sorted with hTL
  have hpairs : ∀ e ∈ DL.zip TL, IsPair (d.n + d.n + d.m) e := by
    intro e he
    have := List.of_mem_zip (a := e.1) (b := e.2) he
    exact ⟨diffLayer_isDiff _ _ (Nat.le_refl _) _ this.1, truncLayer_var _ _ _ _ _ _ this.2⟩
  have hreach : Reach (d.n + d.n + d.m) s2
      (last.up 1 (first.up 0 (iterLoop md (DL.zip TL) 10 s2)).1).1 :=
    ((iterLoop_reach md _ hpairs 10 s2).trans (hfirst.up 0 (by omega) _)).trans
      (hlast.up 1 (by omega) _)
  obtain ⟨S, S0, S1, S2⟩ := d.team_ups (last.up 1 (first.up 0 (iterLoop md (DL.zip TL) 10 s2)).1).1 d.m
  rw [List.foldl_map] at S2
  rw [S2] at hs
  -- ratings
  have k3 := foldl_keep (fun i s => ((d.perfFactor i).up s).1) VarRef.rating (S (d.off d.m))
    (fun i s k hk => by
      simp only [LikelihoodFactor.up, write_get]
      exact if_neg hk) (fun i j h => VarRef.rating.inj h)
  have hSr : ∀ k ≤ d.n, ∀ i, S k (.rating i) = S 0 (.rating i) := by
    intro k
    induction k with
    | zero => intro _ i; rfl
    | succ k ih =>
      intro hk i
      obtain ⟨t, x, ht, hx, rfl⟩ := d.split d.m k (by unfold n at hk; omega)
      rw [S1 t x ht hx]
      obtain ⟨dl, h⟩ := d.up_write t x hx (S (d.off t + x))
      rw [h, write_get, if_neg (by simp)]
      exact ih (by omega) i
  refine ⟨⟨g, s2, S, fun i hi => (hg i hi).1, fun i hi => (s2p' i).trans (s1p i hi), s2t,
    by rw [S0]; exact hreach, S1, ?_⟩⟩
  intro i hi
  rw [← hs, (k3 d.n).2 i hi]
  have e1 := (k3 i).1 (.perf i) fun _ _ => by simp
  have e2 := (k3 i).1 (.rating i) fun j hj => by
    intro h; have := VarRef.rating.inj h; omega
  rw [perf_up]
  have e4 : S (d.off d.m) (.rating i) = ((Variable.new : Variable F).updateValue i (g i)).1 := by
    rw [hSr (d.off d.m) (Nat.le_refl _) i, S0, hreach.rating, s2r]
    exact (hg i hi).2
  rw [show ((List.range i).foldl (fun s i => ((d.perfFactor i).up s).1) (S (d.off d.m))) (.perf i)
      = S (d.off d.m) (.perf i) from e1,
    show ((List.range i).foldl (fun s i => ((d.perfFactor i).up s).1) (S (d.off d.m))) (.rating i)
      = ((Variable.new : Variable F).updateValue i (g i)).1 from e2.trans e4]
  have hne : ¬ d.n + i = i := by omega
  have e3 : ((Variable.new : Variable F).updateValue i (g i)).1.messages (d.n + i)
      = Gaussian.default := if_neg hne
  rw [OneOnOne.updateMessage_eq]
  simp only
  rw [e3]
  rfl

namespace Run
variable {d} {s : Store F} (r : d.Run s)

/-- Messages to players only change the player. -/
theorem step_other (k : Nat) (hk : k < d.n) (v : VarRef) (hv : v ≠ .perf k) :
    r.S (k + 1) v = r.S k v := by
  obtain ⟨t, x, ht, hx, rfl⟩ := d.split d.m k hk
  rw [r.step t x ht hx]
  obtain ⟨dl, h⟩ := d.up_write t x hx (r.S (d.off t + x))
  rw [h, write_get, if_neg hv]

theorem before (k : Nat) (hk : k ≤ d.n) (v : VarRef) (hv : ∀ j < k, v ≠ .perf j) :
    r.S k v = r.S 0 v := by
  induction k with
  | zero => rfl
  | succ k ih =>
    rw [r.step_other k hk v (hv k (Nat.lt_succ_self k))]
    exact ih (Nat.le_of_succ_le hk) fun j hj => hv j (Nat.lt_succ_of_lt hj)

theorem after (j : Nat) (hj : j ≤ d.n) (k : Nat) (hk : k ≤ j) (v : VarRef)
    (hv : ∀ i, k ≤ i → i < j → v ≠ .perf i) : r.S j v = r.S k v := by
  induction j with
  | zero => rw [show k = 0 by omega]
  | succ j ih =>
    by_cases h : k = j + 1
    · rw [h]
    · rw [r.step_other j hj v (hv j (by omega) (Nat.lt_succ_self j))]
      exact ih (by omega) (by omega) fun i h1 h2 => hv i h1 (by omega)

/-- A player before the message. -/
theorem perf_before (i : Nat) (hi : i < d.n) (k : Nat) (hk : k ≤ i) :
    r.S k (.perf i) = d.perfVar i (r.g i) := by
  rw [r.before k (by omega) _ fun j hj h => by have := VarRef.perf.inj h; omega, r.reach.perf]
  exact r.perf2 i hi

/-- The message from the team to a player. -/
def msg (t x : Nat) : Gaussian F :=
  tmsg ((((d.teamFactor t).terms.set x (.teamPerf t)).map fun val =>
    (r.S (d.off t + x) val).gaussian / (r.S (d.off t + x) val).messages (d.n + d.n + t)).zip
    (SumFactor.upCoeffs (d.teamFactor t).coeffs x))

/-- A player after the message. -/
theorem perf_after (t x : Nat) (ht : t < d.m) (hx : x < d.sz t) (k : Nat) (hk : k ≤ d.n)
    (hlt : d.off t + x < k) : r.S k (.perf (d.off t + x))
      = ((d.perfVar (d.off t + x) (r.g (d.off t + x))).updateMessage (d.n + d.n + t) (r.msg t x)).1 := by
  rw [r.after k hk (d.off t + x + 1) hlt _ fun j h1 _ h => by have := VarRef.perf.inj h; omega,
    r.step t x ht hx]
  obtain ⟨dl, h⟩ := d.up_write t x hx (r.S (d.off t + x))
  rw [h, write_get, if_pos rfl, r.perf_before _ (by omega) _ (Nat.le_refl _)]
  rfl

/-- The team while its players get their messages. -/
theorem team_at (t : Nat) (k : Nat) (hk : k ≤ d.n) : r.S k (.teamPerf t) = r.S 0 (.teamPerf t) :=
  r.before k hk _ fun _ _ => by simp

/-- The result for a player, from the message of the team. -/
theorem result (t x : Nat) (ht : t < d.m) (hx : x < d.sz t) :
    (s (.rating (d.off t + x))).gaussian = r.g (d.off t + x) / Gaussian.default *
      lmsg d.β ((d.perfVar (d.off t + x) (r.g (d.off t + x))).gaussian / Gaussian.default
        * r.msg t x / lmsg d.β (r.g (d.off t + x) / Gaussian.default)) := by
  have hi := d.off_lt ht hx
  rw [r.last _ hi, r.perf_after t x ht hx d.n (Nat.le_refl _) hi]
  have hn : d.n ≠ 0 := by omega
  have e1 : (d.perfVar (d.off t + x) (r.g (d.off t + x))).messages (d.n + d.n + t)
      = Gaussian.default := by
    rw [perfVar, OneOnOne.updateMessage_eq]
    simp only [Variable.new]
    exact if_neg (by omega)
  have e2 : (d.perfVar (d.off t + x) (r.g (d.off t + x))).messages (d.n + (d.off t + x))
      = lmsg d.β (r.g (d.off t + x) / Gaussian.default) := by
    rw [perfVar, OneOnOne.updateMessage_eq]
    simp only [Variable.new]
    exact if_pos trivial
  rw [OneOnOne.updateMessage_eq]
  simp only [e1]
  rw [if_neg (by omega), e2]

end Run
end Lay
end Trace
end TrueSkill
end Skillratings
