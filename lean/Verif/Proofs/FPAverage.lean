import Verif.Proofs.FPQuantile
import Verif.Props.FloatAccuracyWengLin
import Verif.Props.FloatSystems
/-
Sums and averages of ratings, and positive parts, in floating-point arithmetic.
-/

namespace Skillratings
open FP FPVal Spec
variable {E : FloatEnv}

namespace FP
variable {x y z : FP E} {a b ε δ : ℝ}

/-- A sum of at most 1024 numbers of magnitude at most `B`, from a given start. -/
theorem near_foldl_big {β : Type} (l : List β) (f : β → FP E) (h : β → ℝ) {B : ℝ} (hB : 1 ≤ B) (hB' : B ≤ 2 ^ 20)
    (hε : 0 ≤ ε) (hε' : ε ≤ 1 / 2 ^ 20)
    {start : FP E} (hst : Near 0 start 0) (hn : l.length ≤ 2 ^ 10) (hf : ∀ r ∈ l, Near ε (f r) (h r) ∧ |h r| ≤ B) :
    Near (l.length * (ε + B / 2 ^ 40)) ((l.map f).foldl (· + ·) start) (l.map h).sum ∧
      |(l.map h).sum| ≤ l.length * B := by
  have key : ∀ (l : List β) (acc : FP E) (A : ℝ) (k : ℕ), k + l.length ≤ 2 ^ 10 →
      (∀ r ∈ l, Near ε (f r) (h r) ∧ |h r| ≤ B) →
      Near (k * (ε + B / 2 ^ 40)) acc A → |A| ≤ k * B →
      Near ((k + l.length) * (ε + B / 2 ^ 40)) ((l.map f).foldl (· + ·) acc) (A + (l.map h).sum) ∧
        |A + (l.map h).sum| ≤ (k + l.length) * B := by
    intro l
    induction l with
    | nil => intro acc A k _ _ h1 h2; simpa only [List.map_nil, List.foldl_nil, List.sum_nil, add_zero, List.length_nil, Nat.cast_zero] using And.intro h1 h2
    | cons r l ih =>
      intro acc A k hk hl h1 h2
      obtain ⟨r1, r2⟩ := hl r (by simp)
      have hk' : ((k : ℝ) + 1) ≤ 2 ^ 10 := by
        have : k + 1 ≤ 2 ^ 10 := by simp only [List.length_cons] at hk; omega
        exact_mod_cast this
      have h3 : |A + h r| ≤ (k + 1) * B := (abs_add_le _ _).trans (by linarith)
      have h3' : (k + 1) * B ≤ 2 ^ 10 * B := mul_le_mul_of_nonneg_right hk' (by linarith)
      have h4 : (k : ℝ) * (ε + B / 2 ^ 40) + ε ≤ 1 := by
        have e1 : ε + B / 2 ^ 40 ≤ 1 / 2 ^ 19 := by norm_num at hε' hB' ⊢; linarith
        have : (k : ℝ) * (ε + B / 2 ^ 40) ≤ k * (1 / 2 ^ 19) :=
          mul_le_mul_of_nonneg_left e1 (Nat.cast_nonneg k)
        norm_num at this hk' hε' ⊢
        linarith
      have h5 := (near_add h1 r1 (M := 2 ^ 10 * B + 1) (by linarith) (by linarith [show 0 ≤ 2 ^ 10 * B by positivity])
        (le_huge 31 (by norm_num at hB' ⊢; linarith) (by norm_num))).mono
          (δ := ((k + 1 : ℕ) : ℝ) * (ε + B / 2 ^ 40)) (by
          push_cast
          have : ((2 : ℝ) ^ 10 * B + 1) / 2 ^ 51 ≤ B / 2 ^ 40 := by norm_num; linarith
          linarith)
      have := ih (acc + f r) (A + h r) (k + 1) (by simp only [List.length_cons] at hk; omega)
        (fun r' hr' => hl r' (List.mem_cons_of_mem _ hr')) h5 (by push_cast; exact h3)
      simp only [List.map_cons, List.foldl_cons, List.sum_cons, List.length_cons]
      push_cast at this ⊢
      rw [show A + (h r + (l.map h).sum) = A + h r + (l.map h).sum by ring,
        show (k : ℝ) + (l.length + 1) = k + 1 + l.length by ring]
      exact this
  have := key l start 0 0 (by omega) hf (by
    rw [Nat.cast_zero, zero_mul]
    exact hst) (by simp)
  simpa using this

/-- A sum of at most 1024 numbers of magnitude at most `B`. -/
theorem near_sum_big {β : Type} (l : List β) (f : β → FP E) (h : β → ℝ) {B : ℝ} (hB : 1 ≤ B) (hB' : B ≤ 2 ^ 20)
    (hε : 0 ≤ ε) (hε' : ε ≤ 1 / 2 ^ 20)
    (hn : l.length ≤ 2 ^ 10) (hf : ∀ r ∈ l, Near ε (f r) (h r) ∧ |h r| ≤ B) :
    Near (l.length * (ε + B / 2 ^ 40)) (Flt.sum (l.map f)) (l.map h).sum ∧
      |(l.map h).sum| ≤ l.length * B := by
  exact near_foldl_big l f h hB hB' hε hε' sumZero_near hn hf

theorem sum_limits {β : Type} (l : List β) (q : β → ℝ) {lo hi : ℝ} (h : ∀ r ∈ l, lo ≤ q r ∧ q r ≤ hi) :
    l.length * lo ≤ (l.map q).sum ∧ (l.map q).sum ≤ l.length * hi := by
  induction l with
  | nil => simp
  | cons r l ih =>
    obtain ⟨i1, i2⟩ := ih fun r hr => h r (List.mem_cons_of_mem _ hr)
    obtain ⟨h1, h2⟩ := h r (by simp)
    simp only [List.map_cons, List.sum_cons, List.length_cons]
    push_cast
    constructor <;> linarith

/-- A literal that is a floating-point number. -/
theorem lit_usual {m : ℕ} {s : Bool} {e : ℕ} {v B : ℝ} (h : (OfScientific.ofScientific m s e : ℝ) = v)
    (hv : SRep v) (hB : |v| ≤ B) : Within B (OfScientific.ofScientific m s e : FP E) := by
  have h := lit_in (E := E) h hv
  refine ⟨h.finite, ?_⟩
  rwa [show FP.toR (OfScientific.ofScientific m s e : FP E) = v from le_antisymm h.toR.2 h.toR.1]

theorem ofNat_near {n : ℕ} (h : n < 2 ^ 53) : Near 0 (Flt.ofNat n : FP E) n := near_of_in (ofNat_in h)

/-- The average of at most 1024 ratings. -/
theorem average_near {β : Type} (l : List β) (f : β → FP E) (hn : l.length ≤ 2 ^ 10) (hne : l ≠ [])
    (hf : ∀ r ∈ l, Within (2 ^ 14) (f r)) :
    Near (1 / 2 ^ 25) (Flt.sum (l.map f) / Flt.ofNat l.length) ((l.map fun r => (f r).toR).sum / l.length) ∧
      |(l.map fun r => (f r).toR).sum / l.length| ≤ 2 ^ 14 := by
  obtain ⟨s1, s2⟩ := near_sum_big (E := E) l f (fun r => (f r).toR) (B := 2 ^ 14) (ε := 0) (by norm_num) (by norm_num)
    le_rfl (by norm_num) hn (fun r hr => ⟨(hf r hr).near, (hf r hr).2⟩)
  have n1 : (1 : ℝ) ≤ l.length := by
    exact_mod_cast Nat.one_le_iff_ne_zero.2 (by simpa using hne)
  have n0 : (0 : ℝ) < l.length := by linarith
  have h2 : |(l.map fun r => (f r).toR).sum / l.length| ≤ 2 ^ 14 := by
    rw [abs_div, abs_of_pos n0, div_le_iff₀ n0]; linarith
  refine ⟨?_, h2⟩
  refine (near_div_const s1 (ofNat_near (by norm_num at hn ⊢; omega)) n0 (M := 2 ^ 14 + 1) ?_ (by norm_num)
    (le_huge 15 (by norm_num) (by norm_num))).mono ?_
  · rw [div_le_iff₀ n0]
    norm_num at s2 ⊢
    linarith
  · rw [mul_div_assoc, mul_comm, div_mul_cancel₀ _ n0.ne']
    norm_num

/-- The positive part of a difference, as the code computes it. -/
theorem excess_near (hx : Near ε x a) (hy : Near δ y b) {M : ℝ} (hM : |a - b| + (ε + δ) ≤ M) (h1 : 1 ≤ M)
    (h2 : M ≤ 2 ^ 1000) :
    Near (ε + δ + M / 2 ^ 51) (if x <=? y then (0.0 : FP E) else x - y) (max 0 (a - b)) := by
  have hε : 0 ≤ ε := (abs_nonneg _).trans hx.2
  have hδ : 0 ≤ δ := (abs_nonneg _).trans hy.2
  have hM0 : 0 ≤ M / 2 ^ 51 := by positivity
  have k1 := abs_le.1 hx.2
  have k2 := abs_le.1 hy.2
  have hs := near_sub hx hy hM h1 h2
  by_cases h : (x <=? y) = true
  · rw [if_pos h]
    rw [le_iff_toR hx.1 hy.1] at h
    have h0 := near_of_in (lit_in (E := E) (m := 0) (s := true) (e := 1) (v := 0) (by norm_num) SRep.zero)
    refine ⟨h0.1, ?_⟩
    have e0 : FP.toR (0.0 : FP E) = 0 := by simpa using h0.2
    rw [e0, zero_sub, abs_neg, abs_of_nonneg (le_max_left _ _)]
    exact max_le (by positivity) (by linarith [k1.1, k2.2])
  · rw [if_neg h]
    rw [le_iff_toR hx.1 hy.1, not_le] at h
    rcases le_total 0 (a - b) with hab | hab
    · rw [max_eq_right hab]; exact hs
    · rw [max_eq_left hab]
      refine ⟨hs.1, ?_⟩
      have k3 := abs_le.1 hs.2
      have p0 : 0 ≤ (x - y).toR := by
        obtain ⟨s, e⟩ := sub_fin hx.1 hy.1
        have hf := hs.1
        rw [e] at hf ⊢
        exact toR_of_le hf (E.round_ge s SRep.zero (by linarith))
      rw [sub_zero, abs_of_nonneg p0]
      linarith [k3.2]

end FP
end Skillratings
