import Verif.Model.TrueSkill.Matrix
import Mathlib.Data.List.Basic
import Mathlib.Data.List.Range
import Mathlib.Tactic.Ring
/-
The loops of the matrix routines, in any arithmetic: a matrix is described by its dimensions
and the function of its entries.
-/
namespace Skillratings
namespace TrueSkill
namespace Matrix
variable {F : Type} [Flt F]

/-- The `R × C` matrix with the entries `g`. -/
def mk' (R C : Nat) (g : Nat → Nat → F) : Matrix F :=
  { data := (List.range (R * C)).map fun k => g (k / C) (k % C), rows := R, cols := C }

@[simp] theorem mk'_rows (R C : Nat) (g : Nat → Nat → F) : (mk' R C g).rows = R := rfl
@[simp] theorem mk'_cols (R C : Nat) (g : Nat → Nat → F) : (mk' R C g).cols = C := rfl

theorem flat_lt {R C i j : Nat} (hi : i < R) (hj : j < C) : i * C + j < R * C := by
  calc i * C + j < i * C + C := by omega
    _ = (i + 1) * C := by ring
    _ ≤ R * C := Nat.mul_le_mul_right C hi

theorem flat_div {C i j : Nat} (hj : j < C) : (i * C + j) / C = i := by
  rw [Nat.add_comm, Nat.add_mul_div_right _ _ (by omega), Nat.div_eq_of_lt hj, Nat.zero_add]

theorem flat_mod {C i j : Nat} (hj : j < C) : (i * C + j) % C = j := by
  rw [Nat.add_comm, Nat.add_mul_mod_self_right, Nat.mod_eq_of_lt hj]

theorem mk'_congr {R C : Nat} {g h : Nat → Nat → F} (e : ∀ i < R, ∀ j < C, g i j = h i j) :
    mk' R C g = mk' R C h := by
  rw [mk', mk']
  congr 1
  apply List.map_congr_left
  intro k hk
  rw [List.mem_range] at hk
  have hC : 0 < C := by
    rcases Nat.eq_zero_or_pos C with rfl | h
    · simp at hk
    · exact h
  exact e _ ((Nat.div_lt_iff_lt_mul hC).2 hk) _ (Nat.mod_lt _ hC)

/-- Every matrix whose vector has the right length is of this form. -/
theorem exists_mk' (m : Matrix F) (h : m.data.length = m.rows * m.cols) :
    ∃ g, m = mk' m.rows m.cols g := by
  obtain ⟨d, R, C⟩ := m
  refine ⟨fun i j => d.getD (i * C + j) (0.0 : F), ?_⟩
  simp only [mk', Matrix.mk.injEq, and_true]
  simp only at h
  apply List.ext_getElem
  · simp [h]
  · intro k h1 h2
    simp only [List.getElem_map, List.getElem_range]
    rw [Nat.mul_comm, Nat.div_add_mod]
    rw [List.getD_eq_getElem?_getD, List.getElem?_eq_getElem h1, Option.getD_some]

theorem new_eq (R C : Nat) : (new R C : Matrix F) = mk' R C fun _ _ => 0.0 := by
  rw [new, mk']
  congr 1
  apply List.ext_getElem <;> simp

theorem get_mk' {R C : Nat} (g : Nat → Nat → F) {i j : Nat} (hi : i < R) (hj : j < C) :
    (mk' R C g).get i j = .ok (g i j) := by
  rw [get, index]
  simp only [mk']
  rw [List.getElem?_map, List.getElem?_range (flat_lt hi hj)]
  simp only [Option.map_some, flat_div hj, flat_mod hj]

/-- A function changed at one place. -/
def upd (g : Nat → Nat → F) (a b : Nat) (v : F) : Nat → Nat → F :=
  fun i j => if i = a ∧ j = b then v else g i j

theorem set_mk' {R C : Nat} (g : Nat → Nat → F) {a b : Nat} (ha : a < R) (hb : b < C) (v : F) :
    (mk' R C g).set a b v = .ok (mk' R C (upd g a b v)) := by
  have hlt := flat_lt ha hb
  rw [set, if_pos (by simpa [mk'] using hlt)]
  simp only [mk', Except.ok.injEq, Matrix.mk.injEq, and_true]
  apply List.ext_getElem
  · simp
  · intro k h1 h2
    simp only [List.getElem_set, List.getElem_map, List.getElem_range, upd]
    by_cases hk : a * C + b = k
    · subst hk
      rw [if_pos rfl, flat_div hb, flat_mod hb, if_pos ⟨rfl, rfl⟩]
    · rw [if_neg hk, if_neg]
      rintro ⟨h3, h4⟩
      apply hk
      rw [← h3, ← h4, Nat.mul_comm, Nat.div_add_mod]

/-! ### Monadic loops that never fail -/

theorem foldlM_ok {α β : Type} (l : List α) (f : β → α → Except Panic β) (g : β → α → β)
    (P : β → Prop) (hf : ∀ b, P b → ∀ a ∈ l, f b a = .ok (g b a)) (hP : ∀ b, P b → ∀ a ∈ l, P (g b a)) :
    ∀ b, P b → l.foldlM f b = .ok (l.foldl g b) ∧ P (l.foldl g b) := by
  induction l with
  | nil => intro b hb; exact ⟨rfl, hb⟩
  | cons a l ih =>
    intro b hb
    rw [List.foldlM_cons, hf b hb a (by simp)]
    exact ih (fun b hb a ha => hf b hb a (List.mem_cons_of_mem _ ha))
      (fun b hb a ha => hP b hb a (List.mem_cons_of_mem _ ha)) _ (hP b hb a (by simp))

theorem sumLoop_ok (n : Nat) (term : Nat → Except Panic F) (t : Nat → F)
    (h : ∀ k < n, term k = .ok (t k)) :
    sumLoop n term = .ok ((List.range n).foldl (fun s k => s + t k) (0.0 : F)) := by
  refine (foldlM_ok (List.range n) _ (fun s k => s + t k) (fun _ => True) ?_
    (fun _ _ _ _ => trivial) _ trivial).1
  intro b _ k hk
  rw [h k (List.mem_range.1 hk)]
  rfl

/-- The entries after the inner loop. -/
def innerFold (cols : Nat) (step : (Nat → Nat → F) → Nat → (Nat → Nat → F)) (g : Nat → Nat → F) :
    Nat → Nat → F := (List.range cols).foldl step g

/-- The loops, on entries. -/
theorem forLoops_ok (rows cols R C : Nat) (g : Nat → Nat → F)
    (body : Matrix F → Nat → Nat → Except Panic (Matrix F))
    (step : (Nat → Nat → F) → Nat → Nat → (Nat → Nat → F))
    (h : ∀ g, ∀ i < rows, ∀ j < cols, body (mk' R C g) i j = .ok (mk' R C (step g i j))) :
    forLoops rows cols (mk' R C g) body = .ok (mk' R C
      ((List.range rows).foldl (fun g i => (List.range cols).foldl (fun g j => step g i j) g) g)) := by
  have inner : ∀ i < rows, ∀ (l : List Nat), (∀ j ∈ l, j < cols) → ∀ g,
      l.foldlM (fun m j => body m i j) (mk' R C g) =
        .ok (mk' R C (l.foldl (fun g j => step g i j) g)) := by
    intro i hi l
    induction l with
    | nil => intro _ g; rfl
    | cons j l ih =>
      intro hl g
      rw [List.foldlM_cons, h g i hi j (hl j (by simp))]
      exact ih (fun k hk => hl k (List.mem_cons_of_mem _ hk)) _
  have outer : ∀ (l : List Nat), (∀ i ∈ l, i < rows) → ∀ g,
      l.foldlM (fun m i => (List.range cols).foldlM (fun m j => body m i j) m) (mk' R C g) =
        .ok (mk' R C (l.foldl
          (fun g i => (List.range cols).foldl (fun g j => step g i j) g) g)) := by
    intro l
    induction l with
    | nil => intro _ g; rfl
    | cons i l ih =>
      intro hl g
      rw [List.foldlM_cons, inner i (hl i (by simp)) (List.range cols)
        (fun j hj => List.mem_range.1 hj)]
      exact ih (fun k hk => hl k (List.mem_cons_of_mem _ hk)) _
  exact outer (List.range rows) (fun i hi => List.mem_range.1 hi) g

/-- Conditional assignments along one row of the loop. -/
theorem innerFold_spec (c : Nat → Prop) [DecidablePred c] (p q : Nat → Nat) (v : Nat → F)
    (g : Nat → Nat → F) (cols : Nat)
    (hinj : ∀ j < cols, ∀ j' < cols, c j → c j' → p j = p j' → q j = q j' → j = j') :
    (∀ j < cols, c j →
      ((List.range cols).foldl (fun g j => if c j then upd g (p j) (q j) (v j) else g) g)
        (p j) (q j) = v j) ∧
    (∀ a b, (∀ j < cols, c j → ¬ (p j = a ∧ q j = b)) →
      ((List.range cols).foldl (fun g j => if c j then upd g (p j) (q j) (v j) else g) g) a b
        = g a b) := by
  induction cols with
  | zero => exact ⟨fun j hj => absurd hj (Nat.not_lt_zero j), fun a b _ => rfl⟩
  | succ n ih =>
    obtain ⟨ih1, ih2⟩ := ih (fun j hj j' hj' => hinj j (by omega) j' (by omega))
    constructor
    · intro j hj hc
      rw [List.range_succ, List.foldl_append]
      simp only [List.foldl_cons, List.foldl_nil]
      by_cases hn : c n
      · rw [if_pos hn, upd]
        by_cases hjn : j = n
        · subst hjn; rw [if_pos ⟨rfl, rfl⟩]
        · rw [if_neg, ih1 j (by omega) hc]
          rintro ⟨h1, h2⟩
          exact hjn (hinj j hj n (by omega) hc hn h1 h2)
      · rw [if_neg hn]
        have hjn : j ≠ n := fun e => hn (e ▸ hc)
        exact ih1 j (by omega) hc
    · intro a b hab
      rw [List.range_succ, List.foldl_append]
      simp only [List.foldl_cons, List.foldl_nil]
      by_cases hn : c n
      · rw [if_pos hn, upd, if_neg, ih2 a b (fun j hj => hab j (by omega))]
        rintro ⟨h1, h2⟩
        exact hab n (by omega) hn ⟨h1.symm, h2.symm⟩
      · rw [if_neg hn, ih2 a b (fun j hj => hab j (by omega))]

/-- Conditional assignments in a double loop to pairwise different places. -/
theorem fold_spec (c : Nat → Nat → Prop) [∀ i, DecidablePred (c i)] (p q : Nat → Nat → Nat)
    (v : Nat → Nat → F) (g : Nat → Nat → F) (rows cols : Nat)
    (hinj : ∀ i < rows, ∀ j < cols, ∀ i' < rows, ∀ j' < cols, c i j → c i' j' →
      p i j = p i' j' → q i j = q i' j' → i = i' ∧ j = j') :
    ∀ i < rows, ∀ j < cols, c i j →
      ((List.range rows).foldl (fun g i => (List.range cols).foldl
        (fun g j => if c i j then upd g (p i j) (q i j) (v i j) else g) g) g) (p i j) (q i j)
        = v i j := by
  induction rows with
  | zero => intro i hi; exact absurd hi (Nat.not_lt_zero i)
  | succ n ih =>
    intro i hi j hj hc
    rw [List.range_succ, List.foldl_append]
    simp only [List.foldl_cons, List.foldl_nil]
    have hi' := fun g => innerFold_spec (c n) (p n) (q n) (v n) g cols
      (fun j hj j' hj' h1 h2 h3 h4 =>
        (hinj n (by omega) j hj n (by omega) j' hj' h1 h2 h3 h4).2)
    by_cases hin : i = n
    · subst hin
      exact (hi' _).1 j hj hc
    · rw [(hi' _).2, ih (fun i hi j hj i' hi' j' hj' => hinj i (by omega) j hj i' (by omega) j' hj')
        i (by omega) j hj hc]
      intro j' hj' hc' h
      exact hin (hinj i hi j hj n (by omega) j' hj' hc hc' h.1.symm h.2.symm).1

/-- A double loop that fills a matrix. -/
theorem forLoops_fill (R C : Nat) (g : Nat → Nat → F)
    (body : Matrix F → Nat → Nat → Except Panic (Matrix F)) (v : Nat → Nat → F)
    (h : ∀ m : Matrix F, m.cols = C → ∀ i < R, ∀ j < C, body m i j = m.set i j (v i j)) :
    forLoops R C (mk' R C g) body = .ok (mk' R C v) := by
  rw [forLoops_ok R C R C g body (fun g i j => upd g i j (v i j))]
  · congr 1
    apply mk'_congr
    intro i hi j hj
    have := fold_spec (fun _ _ => True) (fun i _ => i) (fun _ j => j) v g R C
      (fun i _ j _ i' _ j' _ _ _ h1 h2 => ⟨h1, h2⟩) i hi j hj trivial
    simpa using this
  · intro g i hi j hj
    rw [h _ rfl i hi j hj, set_mk' g hi hj]

theorem transpose_mk' (R C : Nat) (g : Nat → Nat → F) :
    (mk' R C g).transpose = .ok (mk' C R fun i j => g j i) := by
  rw [transpose, new_eq]
  simp only [mk'_rows, mk'_cols]
  rw [forLoops_ok R C C R _ _ (fun h i j => upd h j i (g i j))]
  · congr 1
    apply mk'_congr
    intro i hi j hj
    have := fold_spec (fun _ _ => True) (fun _ j => j) (fun i _ => i) g (fun _ _ => 0.0) R C
      (fun i _ j _ i' _ j' _ _ _ h1 h2 => ⟨h2, h1⟩) j hj i hi trivial
    simpa using this
  · intro h i hi j hj
    rw [get_mk' g hi hj]
    exact set_mk' h hj hi _

theorem scale_mk' (R C : Nat) (g : Nat → Nat → F) (x : F) :
    (mk' R C g).scale x = .ok (mk' R C fun i j => g i j * x) := by
  rw [scale, new_eq]
  simp only [mk'_rows, mk'_cols]
  apply forLoops_fill
  intro m _ i hi j hj
  rw [get_mk' g hi hj]
  rfl

theorem add_mk' (R C : Nat) (g h : Nat → Nat → F) :
    (mk' R C g).add (mk' R C h) = .ok (mk' R C fun i j => g i j + h i j) := by
  rw [add]
  simp only [mk'_rows, mk'_cols, ne_eq, not_true_eq_false, if_false]
  rw [new_eq]
  apply forLoops_fill
  intro m _ i hi j hj
  rw [get_mk' g hi hj, get_mk' h hi hj]
  rfl

/-- The sum of a product, as the loop computes it. -/
def dot (n : Nat) (t : Nat → F) : F := (List.range n).foldl (fun s k => s + t k) (0.0 : F)

theorem mul_mk' (R K C : Nat) (g h : Nat → Nat → F) :
    (mk' R K g).mul (mk' K C h) = .ok (mk' R C fun i j => dot K fun k => g i k * h k j) := by
  rw [mul]
  simp only [mk'_rows, mk'_cols, if_true]
  rw [new_eq]
  apply forLoops_fill
  intro m _ i hi j hj
  rw [sumLoop_ok K _ (fun k => g i k * h k j)]
  · rfl
  · intro k hk
    rw [get_mk' g hi hk, get_mk' h hk hj]
    rfl

/-- The second branch of the product: both factors are read transposed. -/
theorem mul_mk'_transposed (R K C : Nat) (g h : Nat → Nat → F) (hne : R ≠ C) :
    (mk' K R g).mul (mk' C K h) = .ok (mk' R C fun i j => dot K fun k => g k i * h j k) := by
  rw [mul]
  simp only [mk'_rows, mk'_cols, hne, if_true, if_false]
  rw [new_eq]
  apply forLoops_fill
  intro m _ i hi j hj
  rw [sumLoop_ok K _ (fun k => g k i * h j k)]
  · rfl
  · intro k hk
    rw [get_mk' g hk hi, get_mk' h hj hk]
    rfl

theorem mul_panic (a b : Matrix F) (h1 : a.cols ≠ b.rows) (h2 : a.rows ≠ b.cols) :
    a.mul b = .error .mulDimensions := by
  rw [mul, if_neg h1, if_neg h2]

/-- The index skipping `row`. -/
def skip (row a : Nat) : Nat := if a < row then a else a + 1

theorem minor_mk' (R C : Nat) (g : Nat → Nat → F) (row col : Nat) (hr : row < R + 1)
    (hc : col < C + 1) :
    (mk' (R + 1) (C + 1) g).minor row col =
      .ok (mk' R C fun a b => g (skip row a) (skip col b)) := by
  rw [minor, new_eq]
  simp only [mk'_rows, mk'_cols, Nat.add_sub_cancel]
  rw [forLoops_ok (R + 1) (C + 1) R C _ _
    (fun h i j => if i ≠ row ∧ j ≠ col then
      upd h (if i > row then i - 1 else i) (if j > col then j - 1 else j) (g i j) else h)]
  · congr 1
    apply mk'_congr
    intro a ha b hb
    have := fold_spec (fun i j => i ≠ row ∧ j ≠ col) (fun i _ => if i > row then i - 1 else i)
      (fun _ j => if j > col then j - 1 else j) g (fun _ _ => 0.0) (R + 1) (C + 1) ?_
      (skip row a) (by unfold skip; split <;> omega) (skip col b)
      (by unfold skip; split <;> omega)
      ⟨by unfold skip; split <;> omega, by unfold skip; split <;> omega⟩
    · have e : ∀ r x : Nat, (if skip r x > r then skip r x - 1 else skip r x) = x := by
        intro r x
        unfold skip
        split <;> split <;> omega
      rw [e, e] at this
      exact this
    · intro i hi j hj i' hi' j' hj' h1 h2 h3 h4
      constructor
      · split_ifs at h3 <;> omega
      · split_ifs at h4 <;> omega
  · intro h i hi j hj
    by_cases hij : i ≠ row ∧ j ≠ col
    · rw [if_pos hij, if_pos hij, get_mk' g hi hj]
      exact set_mk' h (by split <;> omega) (by split <;> omega) _
    · rw [if_neg hij, if_neg hij]
      rfl

theorem newDiagonal_eq (l : List F) :
    newDiagonal l = .ok (mk' l.length l.length fun i j => if i = j then l.getD i 0.0 else 0.0) := by
  rw [newDiagonal, new_eq]
  have key : ∀ (m : List F) (k : Nat) (g : Nat → Nat → F), k + m.length ≤ l.length →
      (m.zipIdx k).foldlM (fun M vi => M.set vi.2 vi.2 vi.1) (mk' l.length l.length g) =
        .ok (mk' l.length l.length fun i j =>
          if i = j ∧ k ≤ i ∧ i < k + m.length then m.getD (i - k) 0.0 else g i j) := by
    intro m
    induction m with
    | nil =>
      intro k g _
      simp only [List.zipIdx_nil, List.foldlM_nil]
      congr 1
      apply mk'_congr
      intro i _ j _
      rw [if_neg]
      simp only [List.length_nil]
      omega
    | cons x m ih =>
      intro k g hk
      simp only [List.length_cons] at hk
      rw [List.zipIdx_cons, List.foldlM_cons, set_mk' g (by omega) (by omega)]
      refine (ih (k + 1) (upd g k k x) (by omega)).trans ?_
      congr 1
      apply mk'_congr
      intro i _ j _
      simp only [List.length_cons, upd]
      by_cases hij : i = j
      · subst hij
        by_cases hik : i = k
        · subst hik
          rw [if_neg (by omega), if_pos ⟨rfl, rfl⟩, if_pos ⟨rfl, by omega, by omega⟩]
          simp
        · by_cases hlt : k + 1 ≤ i ∧ i < k + 1 + m.length
          · rw [if_pos ⟨rfl, hlt⟩, if_pos ⟨rfl, by omega, by omega⟩]
            obtain ⟨d, rfl⟩ : ∃ d, i = k + 1 + d := ⟨i - (k + 1), by omega⟩
            rw [Nat.add_sub_cancel_left, show k + 1 + d - k = d + 1 by omega]
            rfl
          · rw [if_neg (by omega), if_neg (by omega), if_neg (by omega)]
      · rw [if_neg (by omega), if_neg (by omega), if_neg (by omega)]
  refine (key l 0 _ (by omega)).trans ?_
  congr 1
  apply mk'_congr
  intro i hi j _
  simp only [Nat.zero_add, Nat.zero_le, true_and, Nat.sub_zero]
  by_cases hij : i = j
  · rw [if_pos ⟨hij, hi⟩, if_pos hij]
  · rw [if_neg (fun h => hij h.1), if_neg hij]

end Matrix
end TrueSkill
end Skillratings
