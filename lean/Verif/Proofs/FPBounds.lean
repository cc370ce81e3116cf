import Verif.Proofs.FPUpdates
import Verif.Proofs.Tournament
/-
Bounds of floating-point results, and histories with a bound that grows with the number of games.
-/

namespace Skillratings
open FP FPVal
variable {E : FloatEnv} {x y z : FP E}

namespace FP

theorem within_in {B : ℝ} (h : x.isFinite ∧ |x.toR| ≤ B) : In (E := E) ((-B : ℝ) : EReal) (B : EReal) x := by
  have h1 := abs_le.1 h.2
  have h2 : x.toE = (x.toR : EReal) := isFinite.toE_eq h.1
  refine ⟨isFinite.not_nan h.1, ?_, ?_⟩
  · rw [h2]; exact_mod_cast h1.1
  · rw [h2]; exact_mod_cast h1.2

theorem In.within {B : ℝ} (h : In (E := E) ((-B : ℝ) : EReal) (B : EReal) x) :
    x.isFinite ∧ |x.toR| ≤ B := ⟨h.finite, abs_le.2 h.toR⟩

theorem In.mono {a b c d : ℝ} (h : In (E := E) (a : EReal) (b : EReal) x) (h1 : c ≤ a) (h2 : b ≤ d) :
    In (E := E) (c : EReal) (d : EReal) x :=
  ⟨h.1, le_trans (by exact_mod_cast h1) h.2.1, h.2.2.trans (by exact_mod_cast h2)⟩

/-- Bounds of a finite sum. -/
theorem add_in {a b c d lo hi : ℝ} (hx : In (E := E) (a : EReal) (b : EReal) x)
    (hy : In (E := E) (c : EReal) (d : EReal) y)
    (hlo : SRep lo) (hhi : SRep hi) (h1 : lo ≤ a + c) (h2 : b + d ≤ hi) :
    In (E := E) (lo : EReal) (hi : EReal) (x + y) := by
  obtain ⟨s, hs⟩ := add_fin hx.finite hy.finite
  rw [hs]
  have h3 := hx.toR
  have h4 := hy.toR
  exact In.of_round s hlo hhi (by linarith) (by linarith)

/-- Bounds of a finite difference. -/
theorem sub_in {a b c d lo hi : ℝ} (hx : In (E := E) (a : EReal) (b : EReal) x)
    (hy : In (E := E) (c : EReal) (d : EReal) y)
    (hlo : SRep lo) (hhi : SRep hi) (h1 : lo ≤ a - d) (h2 : b - c ≤ hi) :
    In (E := E) (lo : EReal) (hi : EReal) (x - y) := by
  obtain ⟨s, hs⟩ := sub_fin hx.finite hy.finite
  rw [hs]
  have h3 := hx.toR
  have h4 := hy.toR
  exact In.of_round s hlo hhi (by linarith) (by linarith)

/-- Bounds of a product of a non-negative and a signed number. -/
theorem mul_abs_in {a b hi : ℝ} (hx : x.isFinite ∧ |x.toR| ≤ a) (hy : y.isFinite ∧ |y.toR| ≤ b)
    (hhi : SRep hi) (h : a * b ≤ hi) : (x * y).isFinite ∧ |(x * y).toR| ≤ hi := by
  obtain ⟨s, hs⟩ := mul_fin hx.1 hy.1
  have h1 : |x.toR * y.toR| ≤ hi := by
    rw [abs_mul]
    exact (mul_le_mul hx.2 hy.2 (abs_nonneg _) ((abs_nonneg _).trans hx.2)).trans h
  have h2 := abs_le.1 h1
  rw [hs]
  exact In.within (In.of_round s hhi.neg hhi h2.1 h2.2)

/-- Bounds of a fused multiply-add. -/
theorem mulAdd_abs_in {a b c hi : ℝ} (hx : x.isFinite ∧ |x.toR| ≤ a)
    (hy : y.isFinite ∧ |y.toR| ≤ b) (hz : z.isFinite ∧ |z.toR| ≤ c)
    (hhi : SRep hi) (h : a * b + c ≤ hi) :
    (Flt.mulAdd x y z).isFinite ∧ |(Flt.mulAdd x y z).toR| ≤ hi := by
  obtain ⟨s, hs⟩ := mulAdd_fin hx.1 hy.1 hz.1
  have h1 : |x.toR * y.toR + z.toR| ≤ hi := by
    refine (abs_add_le _ _).trans (le_trans (add_le_add ?_ hz.2) h)
    rw [abs_mul]
    exact mul_le_mul hx.2 hy.2 (abs_nonneg _) ((abs_nonneg _).trans hx.2)
  have h2 := abs_le.1 h1
  rw [hs]
  exact In.within (In.of_round s hhi.neg hhi h2.1 h2.2)

/-- Bounds of a square root. -/
theorem sqrt_in {a b lo hi : ℝ} (hx : In (E := E) (a : EReal) (b : EReal) x) (ha : 0 ≤ a)
    (hlo : SRep lo) (hhi : SRep hi) (h0 : 0 ≤ hi) (h1 : lo ^ 2 ≤ a) (h2 : b ≤ hi ^ 2) :
    In (E := E) (lo : EReal) (hi : EReal) (Flt.sqrt x) := by
  have h3 := hx.toR
  obtain ⟨s, hs⟩ := sqrt_fin hx.finite (ha.trans h3.1)
  rw [hs]
  refine In.of_round s hlo hhi ?_ ?_
  · exact Real.le_sqrt_of_sq_le (h1.trans h3.1)
  · rw [Real.sqrt_le_iff]; exact ⟨h0, h3.2.trans h2⟩

/-- Bounds of a reciprocal. -/
theorem recip_bounds {a b lo hi : ℝ} (hx : In (E := E) (a : EReal) (b : EReal) x) (ha : 0 < a)
    (hlo : SRep lo) (hhi : SRep hi) (h1 : lo ≤ 1 / b) (h2 : 1 / a ≤ hi) :
    In (E := E) (lo : EReal) (hi : EReal) (Flt.recip x) := by
  rw [recip_eq]
  exact div_in one_in hx zero_le_one ha hlo hhi h1 h2

/-- The reciprocal of an infinity is a zero. -/
theorem recip_inf (s : Bool) : In (E := E) ((0 : ℝ) : EReal) ((0 : ℝ) : EReal)
    (Flt.recip (F := FP E) (inf s)) := by
  change In (E := E) _ _ (E.div (E.round false 1) (inf s))
  have h1 := E.round_finite false SRep.one
  revert h1
  generalize E.round false 1 = o
  intro h1
  cases o with
  | nan => exact h1.elim
  | inf => exact h1.elim
  | fin t m =>
    refine ⟨?_, ?_, ?_⟩ <;> simp [FloatEnv.div, FP.isNaN, FPVal.isNaN, FP.toE, FPVal.toE, signed, Mag.zero]

/-- The reciprocal of the reciprocal of a number between 0 and `B`; also when the inner
reciprocal overflows. -/
theorem recip_recip_in' {B : ℝ} (h2 : 0 < B) (hB : SRep B) (hB' : SRep (1 / B))
    (hx : In (E := E) ((0 : ℝ) : EReal) (B : EReal) x) :
    In (E := E) ((0 : ℝ) : EReal) (B : EReal) (Flt.recip (Flt.recip x)) := by
  have h0 := hx.toR
  -- either the inner reciprocal is an infinity or it is at least `1 / B`
  have key : (∃ s, Flt.recip x = inf s) ∨
      (¬ (Flt.recip x).isNaN ∧ ((1 / B : ℝ) : EReal) ≤ (Flt.recip x).toE) := by
    rcases h0.1.eq_or_lt with hz | hz
    · left
      rw [recip_def]
      have h1 := E.round_finite false SRep.one
      have h1' := E.round_rep false SRep.one
      revert h1 h1'
      generalize E.round false 1 = o
      intro h1 h1'
      have hf := hx.finite
      cases o with
      | nan => exact h1.elim
      | inf => exact h1.elim
      | fin t m =>
        cases x with
        | nan => exact hf.elim
        | inf => exact hf.elim
        | fin u n =>
          have hn : n.1 = 0 := (fin_zero_iff u n).2 hz.symm
          have hm : m.1 ≠ 0 := by
            intro hm
            simp [FPVal.toE, signed, hm] at h1'
          exact ⟨xor t u, by simp [FloatEnv.div, hn, hm]; rfl⟩
    · right
      rw [recip_eq]
      obtain ⟨s, hs⟩ := div_fin (one_in (E := E)).finite hx.finite hz.ne'
      rw [hs]
      refine ⟨E.round_not_nan _ _, E.round_ge s hB' ?_⟩
      have h3 := (one_in (E := E)).toR
      rw [show FP.toR (1.0 : FP E) = 1 from le_antisymm h3.2 h3.1]
      exact one_div_le_one_div_of_le hz h0.2
  rcases key with ⟨s, hs⟩ | ⟨hn, hr⟩
  · rw [hs]; exact (recip_inf s).mono le_rfl h2.le
  · by_cases hf : (Flt.recip x).isFinite
    · have h3 : (1 / B : ℝ) ≤ (Flt.recip x).toR := toR_of_le hf hr
      rw [recip_eq (Flt.recip x)]
      have h4 : (0 : ℝ) < 1 / B := by positivity
      obtain ⟨s, hs⟩ := div_fin (one_in (E := E)).finite hf (by linarith)
      rw [hs]
      have h5 := (one_in (E := E)).toR
      rw [show FP.toR (1.0 : FP E) = 1 from le_antisymm h5.2 h5.1]
      refine In.of_round s SRep.zero hB ?_ ?_
      · exact div_nonneg zero_le_one (h4.le.trans h3)
      · rw [div_le_iff₀ (h4.trans_le h3)]
        calc (1 : ℝ) = B * (1 / B) := by field_simp
          _ ≤ B * (Flt.recip x).toR := by gcongr
    · have : ∃ s, Flt.recip x = inf s := by
        revert hn hf
        generalize Flt.recip x = w
        intro hn hf
        cases w with
        | nan => exact (hn trivial).elim
        | inf s => exact ⟨s, rfl⟩
        | fin => exact (hf trivial).elim
      obtain ⟨s, hs⟩ := this
      rw [hs]; exact (recip_inf s).mono le_rfl h2.le

theorem recip_recip_in {k : ℕ} (hk : k ≤ 971)
    (hx : In (E := E) ((0 : ℝ) : EReal) (((2 : ℝ) ^ k : ℝ) : EReal) x) :
    In (E := E) ((0 : ℝ) : EReal) (((2 : ℝ) ^ k : ℝ) : EReal) (Flt.recip (Flt.recip x)) :=
  recip_recip_in' (by positivity) (SRep.two_pow k hk) (SRep.inv_two_pow k (by omega)) hx

end FP

/-- If every game preserves a predicate that may weaken with the number of games played, then it
holds for the whole pool after the games. -/
theorem tournament_counted {ι γ R : Type} [DecidableEq ι]
    (rate : R → R → Outcomes → γ → R × R) (P : ℕ → R → Prop) (Q : γ → Prop) (N : ℕ)
    (hmono : ∀ n a, P n a → P (n + 1) a)
    (h : ∀ n a b o c, n + 1 ≤ N → Q c → P n a → P n b →
      P (n + 1) (rate a b o c).1 ∧ P (n + 1) (rate a b o c).2)
    (pool : ι → R) (games : List (Spec.Game ι γ)) (m : ℕ) (hN : m + games.length ≤ N)
    (hQ : ∀ g ∈ games, Q g.config) (hp : ∀ i, P m (pool i)) (i : ι) :
    P (m + games.length) (Spec.tournament rate pool games i) := by
  induction games generalizing pool m with
  | nil => exact hp i
  | cons g gs ih =>
    have e : Spec.tournament rate pool (g :: gs)
        = Spec.tournament rate (Spec.playGame rate pool g) gs := rfl
    rw [e]
    simp only [List.length_cons] at hN ⊢
    have := ih (Spec.playGame rate pool g) (m + 1) (by omega)
      (fun g' hg' => hQ g' (List.mem_cons_of_mem _ hg')) (by
        intro j
        have hg := h m (pool g.first) (pool g.second) g.outcome g.config (by omega)
          (hQ g List.mem_cons_self) (hp _) (hp _)
        simp only [Spec.playGame]
        by_cases h2 : j = g.second
        · subst h2; rw [Function.update_self]; exact hg.2
        · rw [Function.update_of_ne h2]
          by_cases h1 : j = g.first
          · subst h1; rw [Function.update_self]; exact hg.1
          · rw [Function.update_of_ne h1]; exact hmono _ _ (hp j))
    rwa [show m + 1 + gs.length = m + (gs.length + 1) by omega] at this

end Skillratings
