import Verif.Proofs.ChainBounds
/-
The chain of teams when all performances are shifted by the same amount.
-/
namespace Skillratings
namespace TrueSkill
open Spec Field

/-- The knowledge of a quantity, moved by `c`. -/
noncomputable def shiftI (c : ℝ) (a : Info) : Info := ⟨a.prec, a.pm + c * a.prec⟩

noncomputable def shiftL (c : ℝ) (L : League) : League := { L with team := fun k => shiftI c (L.team k) }

noncomputable def shiftT (c : ℝ) (m : Talk) : Talk :=
  { m with down := fun k => shiftI c (m.down k), up := fun k => shiftI c (m.up k) }

theorem shiftI_none (c : ℝ) : shiftI c .none = .none := by simp [shiftI, Info.none]

theorem shiftI_add (c : ℝ) (a b : Info) : shiftI c (a + b) = shiftI c a + shiftI c b :=
  info_ext rfl (by simp only [shiftI, add_prec, add_pm]; ring)

theorem shiftI_of (c μ V : ℝ) : shiftI c (.of μ V) = .of (μ + c) V :=
  info_ext rfl (by simp only [shiftI, Info.of]; ring)

theorem shiftI_mean (c : ℝ) {a : Info} (h : 0 < a.prec) : (shiftI c a).mean = a.mean + c := by
  simp only [shiftI, Info.mean]
  field_simp

theorem shiftI_variance (c : ℝ) (a : Info) : (shiftI c a).variance = a.variance := rfl

section
variable {L : League} {m : Talk} (c : ℝ)

theorem above_shift (k : ℕ) : (shiftL c L).above (shiftT c m) k = shiftI c (L.above m k) :=
  (shiftI_add _ _ _).symm

theorem below_shift (k : ℕ) : (shiftL c L).below (shiftT c m) k = shiftI c (L.below m k) :=
  (shiftI_add _ _ _).symm

theorem compare_shift (hS : Sane L m) {k : ℕ} (hk : k + 1 < L.n) :
    (shiftL c L).compare (shiftT c m) k = L.compare m k := by
  have hδ : (shiftL c L).δ (shiftT c m) k = L.δ m k := by
    rw [League.δ, League.δ, above_shift, below_shift, shiftI_mean _ (hS.above (by omega)),
      shiftI_mean _ (hS.below hk)]
    ring
  have hC : (shiftL c L).C (shiftT c m) k = L.C m k := by
    rw [League.C, League.C, above_shift, below_shift, shiftI_variance, shiftI_variance]
  have hV : (shiftL c L).V (shiftT c m) k = L.V m k := by
    rw [League.V, League.V, hδ, hC]; rfl
  have hW : (shiftL c L).W (shiftT c m) k = L.W m k := by
    rw [League.W, League.W, hδ, hC]; rfl
  unfold League.compare
  rw [hδ, hC, hV, hW]

theorem hear_shift (k : ℕ) (x : Info) : (shiftT c m).hear k x = shiftT c (m.hear k x) := rfl

private theorem update_shift (f : ℕ → Info) (k : ℕ) (x : Info) :
    Function.update (fun j => shiftI c (f j)) k (shiftI c x)
      = fun j => shiftI c (Function.update f k x j) := by
  funext j
  by_cases h : j = k
  · subst h; simp
  · simp [h]

theorem tellDown_shift (hS : Sane L m) {k : ℕ} (hk : k + 1 < L.n) :
    (shiftL c L).tellDown (shiftT c m) k = shiftT c (L.tellDown m k) := by
  simp only [League.tellDown, above_shift, shiftI_mean _ (hS.above (by omega : k < L.n)),
    shiftI_variance]
  simp only [shiftT]
  rw [← update_shift, shiftI_of]
  congr 3
  ring

theorem tellUp_shift (hS : Sane L m) {k : ℕ} (hk : k + 1 < L.n) :
    (shiftL c L).tellUp (shiftT c m) k = shiftT c (L.tellUp m k) := by
  simp only [League.tellUp, below_shift, shiftI_mean _ (hS.below hk), shiftI_variance]
  simp only [shiftT]
  rw [← update_shift, shiftI_of]
  congr 3
  ring

theorem foldlM_sim {α β : Type} {f f' : α → β → Option α} {φ : α → α} {I : α → Prop} (ks : List β)
    (hf : ∀ k ∈ ks, ∀ a, I a → f' (φ a) k = (f a k).map φ ∧ ∀ b, f a k = some b → I b) :
    ∀ a, I a → ks.foldlM f' (φ a) = (ks.foldlM f a).map φ := by
  induction ks with
  | nil => intro a _; rfl
  | cons k ks ih =>
    intro a ha
    obtain ⟨h1, h2⟩ := hf k (by simp) a ha
    rw [List.foldlM_cons, List.foldlM_cons, h1]
    cases hb : f a k with
    | none => rfl
    | some b => exact ih (fun k hk => hf k (by simp [hk])) b (h2 b hb)

theorem forward_shift (a : Talk × ℝ) (hS : Sane L a.1) {k : ℕ} (hk : k + 1 < L.n) :
    (shiftL c L).forward (shiftT c a.1, a.2) k =
      (L.forward a k).map fun b => (shiftT c b.1, b.2) := by
  rw [League.forward, League.forward, compare_shift c hS hk]
  cases hx : L.compare a.1 k with
  | none => rfl
  | some x =>
    simp only [Option.map_some, hear_shift,
      tellDown_shift c (hear_sane hS (compare_pos hS hk hx)) hk]
    rfl

theorem backward_shift (a : Talk × ℝ) (hS : Sane L a.1) {k : ℕ} (hk : k + 1 < L.n) :
    (shiftL c L).backward (shiftT c a.1, a.2) k =
      (L.backward a k).map fun b => (shiftT c b.1, b.2) := by
  rw [League.backward, League.backward, compare_shift c hS hk]
  cases hx : L.compare a.1 k with
  | none => rfl
  | some x =>
    simp only [Option.map_some, hear_shift,
      tellUp_shift c (hear_sane hS (compare_pos hS hk hx)) hk]
    rfl

theorem round_shift (hn : 2 ≤ L.n) (hS : Sane L m) :
    (shiftL c L).round (shiftT c m) = (L.round m).map fun b => (shiftT c b.1, b.2) := by
  rw [League.round, League.round]
  by_cases h2 : L.n = 2
  · rw [if_pos (show (shiftL c L).n = 2 from h2), if_pos h2, compare_shift c hS (by omega)]
    cases L.compare m 0 <;> rfl
  · rw [if_neg (show ¬(shiftL c L).n = 2 from h2), if_neg h2]
    change Option.bind ((List.range (L.n - 2)).foldlM (shiftL c L).forward (shiftT c m, 0))
      (fun acc => ((List.range (L.n - 2)).map (· + 1)).reverse.foldlM (shiftL c L).backward acc) = _
    have h1 := foldlM_sim (f := L.forward) (f' := (shiftL c L).forward)
      (φ := fun b => (shiftT c b.1, b.2)) (I := fun a => Sane L a.1) (List.range (L.n - 2))
      (fun k hk a ha => by
        have hk' : k + 1 < L.n := by have := List.mem_range.1 hk; omega
        exact ⟨forward_shift c a ha hk',
          fun b hb => (forward_kept (kept_sane L) hk' a b ha hb).1⟩) (m, 0) hS
    simp only at h1
    rw [h1]
    cases hb : (List.range (L.n - 2)).foldlM L.forward (m, 0) with
    | none => rfl
    | some b =>
      have hSb : Sane L b.1 := by
        obtain ⟨i1, -⟩ := foldlM_inv (α := Talk × ℝ) (I := fun a => Sane L a.1)
          (Later := fun _ _ => True) (P := fun _ _ => True)
          (fun a => trivial) (fun _ _ _ _ _ => trivial) (fun _ _ _ _ _ => trivial)
          (List.range (L.n - 2))
          (fun k hk a b ha hb => ⟨(forward_kept (kept_sane L)
            (by have := List.mem_range.1 hk; omega) a b ha hb).1, trivial, trivial⟩) _ _ hS hb
        exact i1
      simp only [Option.map_some, Option.bind_some]
      exact foldlM_sim (f := L.backward) (f' := (shiftL c L).backward)
        (φ := fun b => (shiftT c b.1, b.2)) (I := fun a => Sane L a.1) _
        (fun k hk a ha => by
          have hk' : k + 1 < L.n := by
            rw [List.mem_reverse, List.mem_map] at hk
            obtain ⟨j, hj, rfl⟩ := hk
            have := List.mem_range.1 hj; omega
          exact ⟨backward_shift c a ha hk',
            fun b hb => (backward_kept (kept_sane L) hk' a b ha hb).1⟩) b hSb

theorem rounds_shift (hn : 2 ≤ L.n) : ∀ (r : ℕ) (m : Talk), Sane L m →
    (shiftL c L).rounds r (shiftT c m) = (L.rounds r m).map (shiftT c) := by
  intro r
  induction r with
  | zero => intro m _; rfl
  | succ r ih =>
    intro m hS
    rw [League.rounds, League.rounds, round_shift c hn hS]
    cases hb : L.round m with
    | none => rfl
    | some b =>
      simp only [Option.map_some, Option.bind_some]
      split_ifs
      · rfl
      · exact ih _ (round_kept (kept_sane L) hn m b hS hb).1

/-- What is heard of the teams is shifted by the same amount. -/
theorem heard_shift (hn : 2 ≤ L.n) (ht : ∀ k < L.n, 0 < (L.team k).prec) :
    (shiftL c L).heard = L.heard.map fun x k => shiftI c (x k) := by
  have h0 : shiftT c ⟨fun _ => .none, fun _ => .none, fun _ => .none⟩
      = ⟨fun _ => .none, fun _ => .none, fun _ => .none⟩ := by
    simp only [shiftT, shiftI_none]
  have hr := rounds_shift c hn 10 _ (sane_start ht)
  rw [h0] at hr
  rw [League.heard, League.heard, hr]
  cases hm : L.rounds 10 ⟨fun _ => .none, fun _ => .none, fun _ => .none⟩ with
  | none => rfl
  | some m =>
    obtain ⟨S, t⟩ := rounds_kept (kept_sane L) hn 9 _ _ (sane_start ht) hm
    have S1 := tellUp_sane S (k := 0) (by omega) (t 0 (by omega)).1
    simp only [Option.map_some]
    rw [tellUp_shift c S (by omega)]
    change some (fun k => ((shiftL c L).tellDown (shiftT c (L.tellUp m 0)) (L.n - 2)).down k + 
      ((shiftL c L).tellDown (shiftT c (L.tellUp m 0)) (L.n - 2)).up k) = _
    rw [tellDown_shift c S1 (by omega)]
    simp only [shiftI_add]
    rfl

end
end TrueSkill
end Skillratings
