import Verif.Props.FloatHistories
/-
Floating-point histories and directions of DWZ, Ingo and USCF: C80 (the direction of a change survives
rounding) and C100 (no sequence of games produces NaN or an infinity), continued.
-/

namespace Skillratings
open FP FPVal Spec
variable {E : FloatEnv}

section
variable {x y z : FP E}

theorem le_iff : (x <=? y) = true ↔ ¬ x.isNaN ∧ ¬ y.isNaN ∧ x.toE ≤ y.toE := by
  change FPVal.le x y = true ↔ _
  simp [FPVal.le]

/-- A number between two bounds that is not below `c` as computed. -/
theorem above_of_not_le {c : ℝ} (hx : ¬ x.isNaN)
    (hy : In (E := E) (c : EReal) (c : EReal) y) (h : ¬ (x <=? y) = true) : (c : EReal) ≤ x.toE := by
  have e : y.toE = (c : EReal) := le_antisymm hy.2.2 hy.2.1
  rw [le_iff, e] at h
  exact (lt_of_not_ge fun h' => h ⟨hx, hy.1, h'⟩).le

theorem below_of_not_le {c : ℝ} (hx : ¬ x.isNaN)
    (hy : In (E := E) (c : EReal) (c : EReal) y) (h : ¬ (y <=? x) = true) : x.toE ≤ (c : EReal) := by
  have e : y.toE = (c : EReal) := le_antisymm hy.2.2 hy.2.1
  rw [le_iff, e] at h
  exact (lt_of_not_ge fun h' => h ⟨hy.1, hx, h'⟩).le

theorem fmax_eq (hx : ¬ x.isNaN) (hy : ¬ y.isNaN) :
    Flt.fmax x y = if (x <? y) = true then y else x := by
  change FPVal.max x y = if FPVal.lt x y = true then y else x
  cases x with
  | nan => exact (hx trivial).elim
  | inf s => cases y with
    | nan => exact (hy trivial).elim
    | inf => rfl
    | fin => rfl
  | fin s m => cases y with
    | nan => exact (hy trivial).elim
    | inf => rfl
    | fin => rfl

theorem fmin_in {a b : ℝ} (hx : In (E := E) (a : EReal) (b : EReal) x) {c d : ℝ}
    (hy : In (E := E) (c : EReal) (d : EReal) y) :
    In (E := E) ((min a c : ℝ) : EReal) ((min b d : ℝ) : EReal) (Flt.fmin x y) := by
  have ha : ((min a c : ℝ) : EReal) ≤ (a : EReal) := by exact_mod_cast min_le_left a c
  have hc : ((min a c : ℝ) : EReal) ≤ (c : EReal) := by exact_mod_cast min_le_right a c
  rw [fmin_eq hx.1 hy.1]
  have hx2 := hx.2.2
  have hy2 := hy.2.2
  have cast : ((min b d : ℝ) : EReal) = min (b : EReal) (d : EReal) := by
    rcases le_total b d with h | h
    · rw [min_eq_left h, min_eq_left (by exact_mod_cast h)]
    · rw [min_eq_right h, min_eq_right (by exact_mod_cast h)]
  rw [cast]
  split
  · rename_i h
    rw [lt_iff] at h
    exact ⟨hy.1, hc.trans hy.2.1, le_min (h.2.2.le.trans hx2) hy2⟩
  · rename_i h
    rw [lt_iff] at h
    have : x.toE ≤ y.toE := not_lt.1 fun h' => h ⟨hy.1, hx.1, h'⟩
    exact ⟨hx.1, ha.trans hx.2.1, le_min hx2 (this.trans hy2)⟩

theorem ofNat_in {n : ℕ} (h : n < 2 ^ 53) :
    In (E := E) ((n : ℝ) : EReal) ((n : ℝ) : EReal) (Flt.ofNat n : FP E) :=
  In.of_round false (SRep.nat h) (SRep.nat h) le_rfl le_rfl

theorem ofInt_within {n : ℤ} {m : ℕ} (h : |n| ≤ m) (hm : m < 2 ^ 53) :
    Within (m : ℝ) (Flt.ofInt n : FP E) := by
  have h1 : |(n : ℝ)| ≤ m := by exact_mod_cast h
  have h2 := abs_le.1 h1
  exact In.within (In.of_round false (SRep.nat hm).neg (SRep.nat hm) h2.1 h2.2)

end

/-! ### DWZ -/

/-- The development coefficient. -/
theorem dwz_e_in (L : E.Lib) {B : ℕ} {r s e : FP E} (age : ℕ) {index : ℕ} (hr : Within B r)
    (hB : B < 2 ^ 53) (hi : 1 ≤ index) (hi' : index < 2 ^ 50) :
    In (E := E) ((5 : ℝ) : EReal) ((150 : ℝ) : EReal) (Dwz.eValue r age s e index) := by
  have hB' : (B : ℝ) ≤ 2 ^ 53 := by exact_mod_cast hB.le
  have five := lit_in (E := E) (m := 50) (s := true) (e := 1) (v := 5) (by norm_num)
    (SRep.ofNat 5 (by norm_num))
  have thirty := lit_in (E := E) (m := 300) (s := true) (e := 1) (v := 30) (by norm_num)
    (SRep.ofNat 30 (by norm_num))
  have cap := lit_in (E := E) (m := 1500) (s := true) (e := 1) (v := 150) (by norm_num)
    (SRep.ofNat 150 (by norm_num))
  have lim := lit_in (E := E) (m := 13000) (s := true) (e := 1) (v := 1300) (by norm_num)
    (SRep.ofNat 1300 (by norm_num))
  have thousand := lit_in (E := E) (m := 10000) (s := true) (e := 1) (v := 1000) (by norm_num)
    (SRep.ofNat 1000 (by norm_num))
  have thousand2 := lit_in (E := E) (m := 20000) (s := true) (e := 1) (v := 2000) (by norm_num)
    (SRep.ofNat 2000 (by norm_num))
  -- a quotient by a large constant
  have quot : ∀ {c : FP E} {v : ℝ}, 1 ≤ v → In (E := E) (v : EReal) (v : EReal) c →
      (r / c).isFinite ∧ |(r / c).toR| ≤ 2 ^ 53 := by
    intro c v hv hc
    have e : c.toR = v := le_antisymm hc.toR.2 hc.toR.1
    obtain ⟨t, ht⟩ := div_fin hr.1 hc.finite (by rw [e]; linarith)
    have hq : |r.toR / c.toR| ≤ 2 ^ 53 := by
      have hv' : |v| = v := abs_of_pos (by linarith)
      rw [abs_div, e, hv', div_le_iff₀ (by linarith)]
      nlinarith [hr.2]
    have h2 := abs_le.1 hq
    rw [ht]
    exact In.within (In.of_round t (SRep.two_pow 53 (by norm_num)).neg
      (SRep.two_pow 53 (by norm_num)) h2.1 h2.2)
  set j : FP E := if age ≤ 20 then 5.0 else if age ≤ 25 then 10.0 else 15.0 with hj
  have hj' : j.isFinite ∧ |j.toR| ≤ 2 ^ 10 := by
    rw [hj]
    split
    · exact In.within (five.mono (by norm_num) (by norm_num))
    · split
      · exact In.within ((lit_in (E := E) (m := 100) (s := true) (e := 1) (v := 10) (by norm_num)
          (SRep.ofNat 10 (by norm_num))).mono (by norm_num) (by norm_num))
      · exact In.within ((lit_in (E := E) (m := 150) (s := true) (e := 1) (v := 15) (by norm_num)
          (SRep.ofNat 15 (by norm_num))).mono (by norm_num) (by norm_num))
  set e0 : FP E := Flt.powi (r / 1000.0) 4 + j with he0
  have he0' : e0.isFinite := by
    have h1 := quot (by norm_num) thousand
    have h2 := mul_abs_in h1 h1 (SRep.two_pow 106 (by norm_num)) (by norm_num)
    have h4 := mul_abs_in h2 h2 (SRep.two_pow 212 (by norm_num)) (by norm_num)
    have e : Flt.powi (r / 1000.0) 4 = (r / 1000.0) * (r / 1000.0) * ((r / 1000.0) * (r / 1000.0)) :=
      L.powi_four _
    rw [he0, e]
    exact (add_bound h4.1 hj'.1 h4.2 hj'.2 (SRep.two_pow 213 (by norm_num)) (by norm_num)).1
  set a : FP E := if decide (age < 20) && (e <=? s) then r / 2000.0 else 1.0 with ha
  have ha' : a.isFinite := by
    rw [ha]
    split
    · exact (quot (by norm_num) thousand2).1
    · exact (one_in (E := E)).finite
  set b : FP E := if (r <? 1300.0) && (s <=? e)
    then Flt.expM1 ((1300.0 - r) / 150.0) else 0.0 with hb
  have hb' : ¬ b.isNaN := by
    rw [hb]
    split
    · rename_i h
      rw [Bool.and_eq_true, lt_iff] at h
      have h1 : r.toR ≤ 1300 := toR_le_of hr.1 (h.1.2.2.le.trans lim.2.2)
      have h2 := sub_in lim (within_in hr) (lo := 0 - 2 ^ 54) (hi := 2 ^ 54)
        (by rw [zero_sub]; exact (SRep.two_pow 54 (by norm_num)).neg) (SRep.two_pow 54 (by norm_num))
        (by norm_num; linarith) (by norm_num; linarith)
      have h3 : 0 ≤ ((1300.0 : FP E) - r).toR := by
        refine toR_of_le h2.finite ?_
        obtain ⟨t, ht⟩ := sub_fin lim.finite hr.1
        rw [ht]
        exact E.round_ge t SRep.zero (by linarith [lim.toR.1])
      have h4 := div_pos_nonneg (x := (1300.0 : FP E) - r) cap.finite (by linarith [cap.toR.1])
        (isFinite.not_nan h2.finite) (by
          have h5 : ((1300.0 : FP E) - r).toE = _ := isFinite.toE_eq h2.finite
          rw [h5]; exact_mod_cast h3)
      exact (L.expM1_pos _ h4.1 h4.2).1
    · exact isFinite.not_nan (lit_in (E := E) (m := 0) (s := true) (e := 1) (v := 0) (by norm_num)
        SRep.zero).finite
  have hn : ¬ (Flt.mulAdd a e0 b).isNaN := (change ha' he0' hb').1
  have hm : In (E := E) ((5 : ℝ) : EReal) ((30 : ℝ) : EReal)
      (Flt.fmin (30.0 : FP E) ((5.0 : FP E) * Flt.ofNat index)) := by
    have hidx := ofNat_in (E := E) (n := index) (by omega)
    have h1 : (1 : ℝ) ≤ index := by exact_mod_cast hi
    have h2 : (index : ℝ) ≤ 2 ^ 50 := by exact_mod_cast hi'.le
    have h3 := mul_in five (hidx.mono h1 h2) (by norm_num) (by norm_num) (SRep.ofNat 5 (by norm_num))
      (SRep.two_pow 53 (by norm_num)) (by norm_num) (by norm_num)
    exact (fmin_in thirty h3).mono (by norm_num) (by norm_num)
  change In (E := E) _ _ (if Flt.mulAdd a e0 b <=? 5.0 then 5.0
    else if b ==? 0.0 then
      if Flt.fmin 30.0 (5.0 * Flt.ofNat index) <=? Flt.mulAdd a e0 b
        then Flt.fmin 30.0 (5.0 * Flt.ofNat index) else Flt.mulAdd a e0 b
    else if (150.0 : FP E) <=? Flt.mulAdd a e0 b then 150.0
    else Flt.mulAdd a e0 b)
  split
  · exact five.mono le_rfl (by norm_num)
  · rename_i h5
    have hlow := above_of_not_le hn five h5
    split
    · split
      · exact hm.mono le_rfl (by norm_num)
      · rename_i h
        rw [le_iff] at h
        refine ⟨hn, hlow, ?_⟩
        have h6 := (lt_of_not_ge fun h' => h ⟨hm.1, hn, h'⟩).le
        refine h6.trans (hm.2.2.trans ?_)
        exact_mod_cast (by norm_num : (30 : ℝ) ≤ 150)
    · split
      · exact cap.mono (by norm_num) le_rfl
      · rename_i h
        exact ⟨hn, hlow, below_of_not_le hn cap h⟩

/-- The factor of a DWZ game. -/
theorem dwz_factor_in {e : FP E} (he : In (E := E) ((5 : ℝ) : EReal) ((150 : ℝ) : EReal) e) :
    In (E := E) ((0 : ℝ) : EReal) ((134 : ℝ) : EReal) ((800.0 : FP E) / (e + (1.0 : FP E))) := by
  have h800 := lit_in (E := E) (m := 8000) (s := true) (e := 1) (v := 800) (by norm_num)
    (SRep.ofNat 800 (by norm_num))
  have h1 := add_in he one_in (SRep.ofNat 6 (by norm_num)) (SRep.ofNat 151 (by norm_num))
    (by norm_num) (by norm_num)
  exact div_in h800 h1 (by norm_num) (by norm_num) SRep.zero (SRep.ofNat 134 (by norm_num))
    (by norm_num) (by norm_num)

/-- What DWZ needs of a player: a finite rating and an index that counts games. -/
def DwzSane (B M : ℕ) (a : Dwz.DWZRating (FP E)) : Prop :=
  Within B a.rating ∧ 1 ≤ a.index ∧ a.index ≤ M

/-- One side of a DWZ game. -/
theorem dwz_side (L : E.Lib) {B M : ℕ} {a : Dwz.DWZRating (FP E)} {s e : FP E} {v : ℝ}
    (ha : DwzSane B M a) (hB : B + 134 < 2 ^ 53) (hM : M < 2 ^ 50)
    (hs : In (E := E) (v : EReal) (v : EReal) s) (hv0 : 0 ≤ v) (hv1 : v ≤ 1) (he : In 0 1 e) :
    Within ((B + 134 : ℕ) : ℝ)
      (Dwz.newRating a.rating (Dwz.eValue a.rating a.age s e a.index) s e 1.0) ∧
    (v = 1 → a.rating.toE ≤
      (Dwz.newRating a.rating (Dwz.eValue a.rating a.age s e a.index) s e 1.0).toE) ∧
    (v = 0 → (Dwz.newRating a.rating (Dwz.eValue a.rating a.age s e a.index) s e 1.0).toE
      ≤ a.rating.toE) := by
  have hf := dwz_factor_in (dwz_e_in (E := E) L (s := s) (e := e) a.age ha.1 (by omega) ha.2.1
    (lt_of_le_of_lt ha.2.2 hM))
  have h1 := surprise hs he hv0 hv1
  have hc := change hf.finite h1.1 (isFinite.not_nan ha.1.1)
  simp only [Dwz.newRating]
  refine ⟨?_, fun h => hc.2.1 (mul_nonneg hf.toR.1 (h1.2.2.2.1 h)),
    fun h => hc.2.2 (mul_nonpos_of_nonneg_of_nonpos hf.toR.1 (h1.2.2.2.2 h))⟩
  exact mulAdd_abs_in (In.within (hf.mono (by norm_num) le_rfl)) ⟨h1.1, abs_le.2 ⟨h1.2.1, h1.2.2.1⟩⟩
    ha.1 (within_nat hB) (by push_cast; linarith)

/-- Direction: the winner never drops and the loser never rises. -/
theorem C80_dwz_direction (L : E.Lib) (a b : Dwz.DWZRating (FP E)) (o : Outcomes) (B M : ℕ)
    (ha : DwzSane B M a) (hb : DwzSane B M b) (hB : B + 134 < 2 ^ 53) (hM : M < 2 ^ 50) :
    ¬ (Dwz.dwz a b o).1.rating.isNaN ∧ ¬ (Dwz.dwz a b o).2.rating.isNaN ∧
    (o = .WIN → a.rating.toE ≤ (Dwz.dwz a b o).1.rating.toE ∧
      (Dwz.dwz a b o).2.rating.toE ≤ b.rating.toE) ∧
    (o = .LOSS → (Dwz.dwz a b o).1.rating.toE ≤ a.rating.toE ∧
      b.rating.toE ≤ (Dwz.dwz a b o).2.rating.toE) := by
  have he : In 0 1 (Dwz.expectedScore a b).1 := pow_score L (dwz_exponent (sub_not_nan ha.1.1 hb.1.1))
  have h1 := dwz_side L ha hB hM (points_in (E := E) o) (pointsR_nonneg o) (pointsR_le_one o) he
  have h2 := dwz_side L hb hB hM (points_in' (E := E) o) (by linarith [pointsR_le_one o])
    (by linarith [pointsR_nonneg o]) (one_sub_in he)
  refine ⟨isFinite.not_nan h1.1.1, isFinite.not_nan h2.1.1, ?_, ?_⟩
  · rintro rfl
    exact ⟨h1.2.1 rfl, h2.2.2 (by norm_num [pointsR])⟩
  · rintro rfl
    exact ⟨h1.2.2 rfl, h2.2.1 (by norm_num [pointsR])⟩

/-- DWZ: a game moves a rating by at most 134 points, and nothing overflows. -/
theorem C100_dwz_history {ι : Type} [DecidableEq ι] (L : E.Lib) (pool : ι → Dwz.DWZRating (FP E))
    (games : List (Game ι Unit)) (B M : ℕ) (hp : ∀ i, DwzSane B M (pool i))
    (h : B + games.length * 134 < 2 ^ 53) (hM : M + games.length < 2 ^ 50) (i : ι) :
    DwzSane (B + games.length * 134) (M + games.length)
      (tournament (fun a b o (_ : Unit) => Dwz.dwz a b o) pool games i) := by
  have := tournament_counted (fun a b o (_ : Unit) => Dwz.dwz a b o)
    (fun n a => DwzSane (E := E) (B + n * 134) (M + n) a) (fun _ => True) games.length
    (fun n a ha => ⟨ha.1.mono (by push_cast; linarith), ha.2.1, by have := ha.2.2; omega⟩)
    (by
      intro n a b o c hn _ ha hb
      have e : B + (n + 1) * 134 = B + n * 134 + 134 := by ring
      have hle : B + n * 134 + 134 < 2 ^ 53 := by omega
      have hM' : M + n < 2 ^ 50 := by omega
      have he : In 0 1 (Dwz.expectedScore a b).1 :=
        pow_score L (dwz_exponent (sub_not_nan ha.1.1 hb.1.1))
      have h1 := dwz_side L ha hle hM' (points_in (E := E) o) (pointsR_nonneg o) (pointsR_le_one o) he
      have h2 := dwz_side L hb hle hM' (points_in' (E := E) o) (by linarith [pointsR_le_one o])
        (by linarith [pointsR_nonneg o]) (one_sub_in he)
      rw [e]
      have i1 := ha.2
      have i2 := hb.2
      refine ⟨⟨h1.1, ?_, ?_⟩, ⟨h2.1, ?_, ?_⟩⟩ <;> simp only [Dwz.dwz] <;> omega)
    pool games 0 (by omega) (fun _ _ => trivial) (by simpa using hp) i
  simpa using this

/-! ### Ingo -/

theorem ingo_dev_in (age : ℕ) : ∃ d : ℕ, 10 ≤ d ∧ d ≤ 20 ∧
    In (E := E) ((d : ℝ) : EReal) ((d : ℝ) : EReal) (Ingo.ageToDevcoefficient age : FP E) := by
  unfold Ingo.ageToDevcoefficient
  split
  · exact ⟨10, by norm_num, by norm_num, lit_in (by norm_num) (SRep.nat (by norm_num))⟩
  · split
    · exact ⟨15, by norm_num, by norm_num, lit_in (by norm_num) (SRep.nat (by norm_num))⟩
    · exact ⟨20, by norm_num, by norm_num, lit_in (by norm_num) (SRep.nat (by norm_num))⟩

/-- One side of an Ingo game. -/
theorem ingo_side {B : ℕ} {r p d s : FP E} {v : ℝ} {k : ℕ} (hr : Within B r) (hp : Within B p)
    (hk : 10 ≤ k) (hk' : k ≤ 20) (hd : In (E := E) ((k : ℝ) : EReal) ((k : ℝ) : EReal) d)
    (hs : In (E := E) (v : EReal) (v : EReal) s) (hv0 : 0 ≤ v) (hv1 : v ≤ 1)
    (hB : 21 * (B + 5) < 2 ^ 53) :
    Within ((B + 5 : ℕ) : ℝ)
      (Flt.mulAdd (Ingo.performance p s) 1.0 (r * d) / (1.0 + d)) := by
  have hundred := lit_in (E := E) (m := 1000) (s := true) (e := 1) (v := 100) (by norm_num)
    (SRep.ofNat 100 (by norm_num))
  have fifty := lit_in (E := E) (m := 500) (s := true) (e := 1) (v := 50) (by norm_num)
    (SRep.ofNat 50 (by norm_num))
  have hf : Within 50 (Flt.mulAdd (100.0 : FP E) s (-(50.0 : FP E))) := by
    have hn : (-(50.0 : FP E)).isFinite := by simpa using fifty.finite
    obtain ⟨t, ht⟩ := mulAdd_fin hundred.finite hs.finite hn
    have h1 := hundred.toR
    have h2 := hs.toR
    have h3 := fifty.toR
    have e : FP.toR (-(50.0 : FP E)) = -FP.toR (50.0 : FP E) := toR_neg'
    have e1 : FP.toR (100.0 : FP E) = 100 := le_antisymm h1.2 h1.1
    have e2 : FP.toR s = v := le_antisymm h2.2 h2.1
    have e3 : FP.toR (50.0 : FP E) = 50 := le_antisymm h3.2 h3.1
    rw [ht]
    exact In.within (In.of_round t (SRep.ofNat 50 (by norm_num)).neg (SRep.ofNat 50 (by norm_num))
      (by rw [e, e1, e2, e3]; linarith) (by rw [e, e1, e2, e3]; linarith))
  have hperf : Within ((B + 50 : ℕ) : ℝ) (Ingo.performance p s) :=
    sub_bound hp.1 hf.1 hp.2 hf.2 (SRep.nat (by omega)) (by push_cast; linarith)
  have hk0 : (0 : ℝ) ≤ k := Nat.cast_nonneg k
  have hrd : Within ((B * k : ℕ) : ℝ) (r * d) :=
    mul_abs_in hr (In.within (hd.mono (by linarith) le_rfl))
      (SRep.nat (lt_of_le_of_lt (Nat.mul_le_mul_left B hk') (by omega))) (by push_cast; linarith)
  have hle : B + 50 + B * k < 2 ^ 53 :=
    lt_of_le_of_lt (Nat.add_le_add_left (Nat.mul_le_mul_left B hk') _) (by omega)
  have hnum : Within ((B + 50 + B * k : ℕ) : ℝ)
      (Flt.mulAdd (Ingo.performance p s) (1.0 : FP E) (r * d)) :=
    mulAdd_abs_in hperf (one_within (E := E)) hrd (SRep.nat hle) (by push_cast; linarith)
  have hden := add_in one_in hd (lo := ((1 + k : ℕ) : ℝ)) (hi := ((1 + k : ℕ) : ℝ))
    (SRep.nat (by omega)) (SRep.nat (by omega)) (by push_cast; linarith) (by push_cast; linarith)
  have e : FP.toR ((1.0 : FP E) + d) = ((1 + k : ℕ) : ℝ) := le_antisymm hden.toR.2 hden.toR.1
  have hpos : (0 : ℝ) < ((1 + k : ℕ) : ℝ) := by push_cast; linarith
  obtain ⟨t, ht⟩ := div_fin hnum.1 hden.finite (by rw [e]; exact hpos.ne')
  have hq : |FP.toR (Flt.mulAdd (Ingo.performance p s) (1.0 : FP E) (r * d)) / FP.toR ((1.0 : FP E) + d)|
      ≤ ((B + 5 : ℕ) : ℝ) := by
    rw [abs_div, e, abs_of_pos hpos, div_le_iff₀ hpos]
    refine hnum.2.trans ?_
    have : B + 50 + B * k ≤ (B + 5) * (1 + k) := by nlinarith
    exact_mod_cast this
  have h2 := abs_le.1 hq
  rw [ht]
  exact In.within (In.of_round t (SRep.nat (by omega)).neg (SRep.nat (by omega)) h2.1 h2.2)

/-- Ingo: a game moves the bound of all ratings by at most 5 points. -/
theorem C100_ingo_history {ι : Type} [DecidableEq ι] (pool : ι → Ingo.IngoRating (FP E))
    (games : List (Game ι Unit)) (B : ℕ) (hp : ∀ i, Within B (pool i).rating)
    (h : 21 * (B + games.length * 5) < 2 ^ 53) (i : ι) :
    Within ((B + games.length * 5 : ℕ) : ℝ)
      (tournament (fun a b o (_ : Unit) => Ingo.ingo a b o) pool games i).rating := by
  have := tournament_counted (fun a b o (_ : Unit) => Ingo.ingo a b o)
    (fun n a => Within (E := E) ((B + n * 5 : ℕ) : ℝ) a.rating) (fun _ => True) games.length
    (fun n a ha => ha.mono (by push_cast; linarith))
    (by
      intro n a b o c hn _ ha hb
      have e : B + (n + 1) * 5 = B + n * 5 + 5 := by ring
      have hle : 21 * (B + n * 5 + 5) < 2 ^ 53 := by omega
      rw [e]
      obtain ⟨k, hk, hk', hd⟩ := ingo_dev_in (E := E) a.age
      obtain ⟨l, hl, hl', hd'⟩ := ingo_dev_in (E := E) b.age
      exact ⟨ingo_side ha hb hk hk' hd (points_in (E := E) o) (pointsR_nonneg o) (pointsR_le_one o) hle,
        ingo_side hb ha hl hl' hd' (points_in' (E := E) o) (by linarith [pointsR_le_one o])
          (by linarith [pointsR_nonneg o]) hle⟩)
    pool games 0 (by omega) (fun _ _ => trivial) (by simpa using hp) i
  simpa using this

/-! ### USCF -/

/-- The rating of a provisional player. -/
theorem uscf_provisional_within {B : ℕ} {r p : FP E} {n : ℕ} {w l : ℤ} (hr : Within B r)
    (hp : Within B p) (hn : n ≤ 8) (hwl : |w - l| ≤ 1) (hB : 9 * (B + 400) < 2 ^ 53) :
    Within ((B + 400 : ℕ) : ℝ) (Uscf.newRatingProvisional r n 1 p w l) := by
  have hn' := ofNat_in (E := E) (n := n) (by omega)
  have h1' := ofNat_in (E := E) (n := 1) (by norm_num)
  have hn0 : (0 : ℝ) ≤ n := Nat.cast_nonneg n
  have h400 := lit_in (E := E) (m := 4000) (s := true) (e := 1) (v := 400) (by norm_num)
    (SRep.ofNat 400 (by norm_num))
  have hwl' := ofInt_within (E := E) (n := w - l) (m := 1) (by exact_mod_cast hwl) (by norm_num)
  have h1 : Within (B : ℝ) ((Flt.ofNat 1 : FP E) * p) :=
    mul_abs_in (In.within (h1'.mono (by norm_num) le_rfl)) hp (SRep.nat (by omega)) (by simp)
  have hle : n * B + B ≤ 9 * B := by clear hB; nlinarith
  have h2 : Within ((n * B + B : ℕ) : ℝ) (Flt.mulAdd (Flt.ofNat n) r ((Flt.ofNat 1 : FP E) * p)) :=
    mulAdd_abs_in (In.within (hn'.mono (by linarith) le_rfl)) hr h1 (SRep.nat (by omega))
      (by push_cast; linarith)
  have h3 : Within ((n * B + B + 400 : ℕ) : ℝ) (Flt.mulAdd (Flt.ofInt (w - l)) (400.0 : FP E)
      (Flt.mulAdd (Flt.ofNat n) r ((Flt.ofNat 1 : FP E) * p))) :=
    mulAdd_abs_in hwl' (In.within (h400.mono (by norm_num) le_rfl)) h2 (SRep.nat (by omega))
      (by push_cast; linarith)
  have hden := ofNat_in (E := E) (n := n + 1) (by omega)
  have e : FP.toR (Flt.ofNat (n + 1) : FP E) = ((n + 1 : ℕ) : ℝ) :=
    le_antisymm hden.toR.2 hden.toR.1
  have hpos : (0 : ℝ) < ((n + 1 : ℕ) : ℝ) := by positivity
  obtain ⟨t, ht⟩ := div_fin h3.1 hden.finite (by rw [e]; exact hpos.ne')
  have hq : |FP.toR (Flt.mulAdd (Flt.ofInt (w - l)) (400.0 : FP E)
      (Flt.mulAdd (Flt.ofNat n) r ((Flt.ofNat 1 : FP E) * p))) / FP.toR (Flt.ofNat (n + 1) : FP E)|
      ≤ ((B + 400 : ℕ) : ℝ) := by
    rw [abs_div, e, abs_of_pos hpos, div_le_iff₀ hpos]
    refine h3.2.trans ?_
    have : n * B + B + 400 ≤ (B + 400) * (n + 1) := by
      rw [show (B + 400) * (n + 1) = n * B + B + 400 + 400 * n by ring]
      exact Nat.le_add_right _ _
    exact_mod_cast this
  have h4 := abs_le.1 hq
  simp only [Uscf.newRatingProvisional]
  rw [ht]
  exact In.within (In.of_round t (SRep.nat (by omega)).neg (SRep.nat (by omega)) h4.1 h4.2)

/-- The effective number of games of an established player. -/
theorem uscf_effective_in (L : E.Lib) {B : ℕ} {r : FP E} {n : ℕ} (hr : Within B r)
    (hB : B < 2 ^ 53) (hn : n < 2 ^ 53) :
    In (E := E) ((0 : ℝ) : EReal) ((50 : ℝ) : EReal) (Uscf.effectiveGameNumber r n) := by
  have hB' : (B : ℝ) ≤ 2 ^ 53 := by exact_mod_cast hB.le
  have h50 := lit_in (E := E) (m := 500) (s := true) (e := 1) (v := 50) (by norm_num)
    (SRep.ofNat 50 (by norm_num))
  have hg := fmin_in (ofNat_in (E := E) hn) h50
  have hg' : In (E := E) ((0 : ℝ) : EReal) ((50 : ℝ) : EReal)
      (Flt.fmin (Flt.ofNat n) (50.0 : FP E)) :=
    hg.mono (le_min (Nat.cast_nonneg n) (by norm_num)) (min_le_right _ _)
  have hx : In (E := E) ((0 : ℝ) : EReal) ((100 : ℝ) : EReal) (if r <? 2355.0 then
      50.0 / Flt.sqrt (Flt.mulAdd 0.00000739 (Flt.powi (2569.0 - r) 2) 0.662)
     else 50.0 : FP E) := by
    split
    · have h2569 := lit_in (E := E) (m := 25690) (s := true) (e := 1) (v := 2569) (by norm_num)
        (SRep.ofNat 2569 (by norm_num))
      have h1 := sub_bound h2569.finite hr.1 (a := 2569) (b := 2 ^ 53)
        (abs_le.2 ⟨by linarith [h2569.toR.1], h2569.toR.2⟩) (hr.2.trans hB')
        (SRep.two_pow 54 (by norm_num)) (by norm_num)
      have h2 := mul_abs_in h1 h1 (SRep.two_pow 108 (by norm_num)) (by norm_num)
      have h2' : In (E := E) ((0 : ℝ) : EReal) ((2 ^ 108 : ℝ) : EReal)
          (((2569.0 : FP E) - r) * ((2569.0 : FP E) - r)) := by
        have := FP.sq_nonneg (E := E) (isFinite.not_nan h1.1)
        exact ⟨this.1, by simpa using this.2, (within_in h2).2.2⟩
      have hs : In (E := E) ((0 : ℝ) : EReal) ((1 : ℝ) : EReal) (0.00000739 : FP E) :=
        In.of_round false SRep.zero SRep.one (by norm_num) (by norm_num)
      have ho : In (E := E) ((1 / 2 ^ 1 : ℝ) : EReal) ((1 : ℝ) : EReal) (0.662 : FP E) :=
        In.of_round false (SRep.inv_two_pow 1 (by norm_num)) SRep.one (by norm_num) (by norm_num)
      have hm : In (E := E) ((1 / 2 ^ 2 : ℝ) : EReal) ((2 ^ 110 : ℝ) : EReal)
          (Flt.mulAdd (0.00000739 : FP E) (((2569.0 : FP E) - r) * ((2569.0 : FP E) - r))
            (0.662 : FP E)) := by
        obtain ⟨t, ht⟩ := mulAdd_fin hs.finite h2.1 ho.finite
        have a1 := hs.toR
        have a2 := h2'.toR
        have a3 := ho.toR
        have p0 := mul_nonneg a1.1 a2.1
        have p1 := mul_le_mul a1.2 a2.2 a2.1 zero_le_one
        rw [ht]
        refine In.of_round t (SRep.inv_two_pow 2 (by norm_num)) (SRep.two_pow 110 (by norm_num)) ?_ ?_
        · norm_num at a3 ⊢; linarith
        · norm_num at p1 ⊢; linarith
      have hq := sqrt_in hm (by norm_num) (SRep.inv_two_pow 1 (by norm_num))
        (SRep.two_pow 55 (by norm_num)) (by norm_num) (by norm_num) (by norm_num)
      rw [powi_two' L]
      exact div_in h50 hq (by norm_num) (by norm_num) SRep.zero (SRep.ofNat 100 (by norm_num))
        (by norm_num) (by norm_num)
    · exact h50.mono (by norm_num) (by norm_num)
  exact (fmin_in hx hg').mono (by norm_num) (by norm_num)

/-- The factor of an established player in a single game. -/
theorem uscf_factor_in (L : E.Lib) {B : ℕ} {r : FP E} {n : ℕ} (hr : Within B r)
    (hB : B < 2 ^ 53) (hn : n < 2 ^ 53) :
    In (E := E) ((0 : ℝ) : EReal) ((800 : ℝ) : EReal)
      ((800.0 : FP E) / (Uscf.effectiveGameNumber r n + Flt.ofNat 1)) := by
  have h800 := lit_in (E := E) (m := 8000) (s := true) (e := 1) (v := 800) (by norm_num)
    (SRep.ofNat 800 (by norm_num))
  have h1 := add_in (uscf_effective_in L hr hB hn) (ofNat_in (E := E) (n := 1) (by norm_num))
    SRep.one (SRep.ofNat 51 (by norm_num)) (by norm_num) (by norm_num)
  exact div_in h800 h1 (by norm_num) (by norm_num) SRep.zero (SRep.ofNat 800 (by norm_num))
    (by norm_num) (by norm_num)

/-- One game of an established player (no bonus in a single game). -/
theorem uscf_established (L : E.Lib) {B : ℕ} {r s e : FP E} {n : ℕ} {v : ℝ}
    (c : Uscf.USCFConfig (FP E)) (hr : Within B r) (hB : B + 800 < 2 ^ 53) (hn : n < 2 ^ 53)
    (hs : In (E := E) (v : EReal) (v : EReal) s) (hv0 : 0 ≤ v) (hv1 : v ≤ 1) (he : In 0 1 e) :
    Within ((B + 800 : ℕ) : ℝ) (Uscf.newRating r n 1 s e c) ∧
    (v = 1 → r.toR ≤ (Uscf.newRating r n 1 s e c).toR) ∧
    (v = 0 → (Uscf.newRating r n 1 s e c).toR ≤ r.toR) := by
  have hf := uscf_factor_in L hr (by omega) hn
  have h1 := surprise hs he hv0 hv1
  have h2 : Within ((B + 800 : ℕ) : ℝ) (Flt.mulAdd
      ((800.0 : FP E) / (Uscf.effectiveGameNumber r n + Flt.ofNat 1)) (s - e) r) :=
    mulAdd_abs_in (In.within (hf.mono (by norm_num) le_rfl)) ⟨h1.1, abs_le.2 ⟨h1.2.1, h1.2.2.1⟩⟩
      hr (within_nat hB) (by push_cast; linarith)
  have hz := lit_in (E := E) (m := 0) (s := true) (e := 1) (v := 0) (by norm_num) SRep.zero
  have hc := change hf.finite h1.1 (isFinite.not_nan hr.1)
  obtain ⟨t, ht⟩ := add_fin h2.1 hz.finite
  have e0 : FP.toR (0.0 : FP E) = 0 := le_antisymm hz.toR.2 hz.toR.1
  have key : Uscf.newRating r n 1 s e c = E.round t (Flt.mulAdd
      ((800.0 : FP E) / (Uscf.effectiveGameNumber r n + Flt.ofNat 1)) (s - e) r).toR := by
    rw [e0, add_zero] at ht
    rw [← ht]
    simp [Uscf.newRating, Uscf.getBoostValue]
  have hrep := isFinite.srep h2.1
  have hval : (Uscf.newRating r n 1 s e c).toE = ((Flt.mulAdd
      ((800.0 : FP E) / (Uscf.effectiveGameNumber r n + Flt.ofNat 1)) (s - e) r).toR : EReal) := by
    rw [key]; exact E.round_rep t hrep
  have hfin : (Uscf.newRating r n 1 s e c).isFinite := by rw [key]; exact E.round_finite t hrep
  have hval' : (Uscf.newRating r n 1 s e c).toR = (Flt.mulAdd
      ((800.0 : FP E) / (Uscf.effectiveGameNumber r n + Flt.ofNat 1)) (s - e) r).toR := by
    have h3 := isFinite.toE_eq hfin
    rw [show FPVal.toE (Uscf.newRating (F := FP E) r n 1 s e c) = _ from hval] at h3
    exact_mod_cast h3.symm
  have hr3 : r.toE = (r.toR : EReal) := isFinite.toE_eq hr.1
  refine ⟨⟨hfin, by rw [hval']; exact h2.2⟩, fun h => ?_, fun h => ?_⟩
  · rw [hval']
    exact toR_of_le h2.1 (by rw [← hr3]; exact hc.2.1 (mul_nonneg hf.toR.1 (h1.2.2.2.1 h)))
  · rw [hval']
    exact toR_le_of h2.1 (by
      rw [← hr3]; exact hc.2.2 (mul_nonpos_of_nonneg_of_nonpos hf.toR.1 (h1.2.2.2.2 h)))

/-- The floor of 100 points keeps a number within its bounds. -/
theorem floor_within {B : ℕ} {x : FP E} (hx : Within B x) (hB : 100 ≤ B) :
    Within B (Flt.fmax x (100.0 : FP E)) := by
  have h := lit_in (E := E) (m := 1000) (s := true) (e := 1) (v := 100) (by norm_num)
    (SRep.ofNat 100 (by norm_num))
  have hB' : (100 : ℝ) ≤ B := by exact_mod_cast hB
  have hw : Within (B : ℝ) (100.0 : FP E) := In.within (h.mono (by linarith) hB')
  rw [fmax_eq (isFinite.not_nan hx.1) h.1]
  split
  · exact hw
  · exact hx

/-- USCF: a game moves the bound of all ratings by at most 800 points, whatever the numbers of games. -/
theorem C100_uscf_history {ι : Type} [DecidableEq ι] (L : E.Lib) (pool : ι → Uscf.USCFRating (FP E))
    (games : List (Game ι (Uscf.USCFConfig (FP E)))) (B M : ℕ) (hB : 100 ≤ B)
    (hp : ∀ i, Within B (pool i).rating ∧ (pool i).games ≤ M)
    (h : 9 * (B + games.length * 800) < 2 ^ 53) (hM : M + games.length < 2 ^ 53) (i : ι) :
    Within ((B + games.length * 800 : ℕ) : ℝ) (tournament Uscf.uscf pool games i).rating := by
  have := tournament_counted Uscf.uscf
    (fun n a => Within (E := E) ((B + n * 800 : ℕ) : ℝ) a.rating ∧ a.games ≤ M + n) (fun _ => True)
    games.length
    (fun n a ha => ⟨ha.1.mono (by push_cast; linarith), by have := ha.2; omega⟩)
    (by
      intro n a b o c hn _ ha hb
      have e : B + (n + 1) * 800 = B + n * 800 + 800 := by ring
      have hle : 9 * (B + n * 800 + 800) < 2 ^ 53 := by omega
      have h9 : 9 * (B + n * 800 + 400) < 2 ^ 53 :=
        lt_of_le_of_lt (Nat.mul_le_mul_left 9 (by omega)) hle
      have ga := ha.2
      have gb := hb.2
      rw [e]
      have he : In 0 1 (Uscf.eValue a.rating b.rating) := uscf_eValue_in L ha.1.1 hb.1.1
      have he' : In 0 1 (Uscf.eValue b.rating a.rating) := uscf_eValue_in L hb.1.1 ha.1.1
      refine ⟨⟨?_, by simp only [Uscf.uscf]; omega⟩, ⟨?_, by simp only [Uscf.uscf]; omega⟩⟩
      · refine floor_within ?_ (by omega)
        split
        · rename_i h8
          refine Spec.Within.mono (uscf_provisional_within ha.1 hb.1 h8 ?_ h9)
            (by push_cast; linarith)
          cases o <;> simp [Uscf.fromBool]
        · exact (uscf_established L c ha.1 (by omega) (by omega) (points_in (E := E) o)
            (pointsR_nonneg o) (pointsR_le_one o) he).1
      · refine floor_within ?_ (by omega)
        split
        · rename_i h8
          refine Spec.Within.mono (uscf_provisional_within hb.1 ha.1 h8 ?_ h9)
            (by push_cast; linarith)
          cases o <;> simp [Uscf.fromBool]
        · exact (uscf_established L c hb.1 (by omega) (by omega) (points_in' (E := E) o)
            (by linarith [pointsR_le_one o]) (by linarith [pointsR_nonneg o]) he').1)
    pool games 0 (by omega) (fun _ _ => trivial) (by simpa using hp) i
  simpa using this.1

/-- Direction: an established player who wins never drops, and an established player above the floor
who loses never rises. -/
theorem C80_uscf_direction (L : E.Lib) (a b : Uscf.USCFRating (FP E)) (o : Outcomes)
    (c : Uscf.USCFConfig (FP E)) (B : ℕ) (ha : Within B a.rating) (hb : Within B b.rating)
    (hB : B + 800 < 2 ^ 53) (hg : 9 ≤ a.games) (hg' : a.games < 2 ^ 53) :
    ¬ (Uscf.uscf a b o c).1.rating.isNaN ∧
    (o = .WIN → a.rating.toE ≤ (Uscf.uscf a b o c).1.rating.toE) ∧
    (o = .LOSS → 100 ≤ a.rating.toR → (Uscf.uscf a b o c).1.rating.toE ≤ a.rating.toE) := by
  have he : In 0 1 (Uscf.eValue a.rating b.rating) := uscf_eValue_in L ha.1 hb.1
  have h1 := uscf_established L c ha hB hg' (points_in (E := E) o)
    (pointsR_nonneg o) (pointsR_le_one o) he
  have hne : ¬ a.games ≤ 8 := by omega
  have h100 := lit_in (E := E) (m := 1000) (s := true) (e := 1) (v := 100) (by norm_num)
    (SRep.ofNat 100 (by norm_num))
  have hr : (Uscf.uscf a b o c).1.rating
      = Flt.fmax (Uscf.newRating a.rating a.games 1 o.toChessPoints
          (Uscf.eValue a.rating b.rating) c) 100.0 := by
    simp only [Uscf.uscf, if_neg hne]
  have ea : a.rating.toE = (a.rating.toR : EReal) := isFinite.toE_eq ha.1
  have en : (Uscf.newRating a.rating a.games 1 o.toChessPoints
      (Uscf.eValue a.rating b.rating) c).toE = _ := isFinite.toE_eq h1.1.1
  rw [hr, fmax_eq (isFinite.not_nan h1.1.1) h100.1]
  refine ⟨by split; exacts [h100.1, isFinite.not_nan h1.1.1], ?_, ?_⟩
  · rintro rfl
    have h2 := h1.2.1 rfl
    have h3 : a.rating.toE ≤ (Uscf.newRating a.rating a.games 1 Outcomes.WIN.toChessPoints
        (Uscf.eValue a.rating b.rating) c).toE := by rw [ea, en]; exact_mod_cast h2
    split
    · rename_i h4
      rw [lt_iff] at h4
      exact h3.trans h4.2.2.le
    · exact h3
  · rintro rfl hfl
    have h2 := h1.2.2 rfl
    split
    · rw [ea]; exact h100.2.2.trans (by exact_mod_cast hfl)
    · rw [ea, en]; exact_mod_cast h2

/-! Concrete instances: binary64 with rounding to nearest. -/

theorem sample_dwz (r : ℕ) (h : (OfScientific.ofScientific r true 1 : ℝ) ≤ 2000)
    (hr : ∃ v : ℕ, (OfScientific.ofScientific r true 1 : ℝ) = v) (age : ℕ) :
    DwzSane 2000 5 (⟨OfScientific.ofScientific r true 1, 5, age⟩ : Dwz.DWZRating (FP ieee)) := by
  obtain ⟨v, hv⟩ := hr
  have h2 : (v : ℝ) ≤ 2000 := hv ▸ h
  have h3 : v ≤ 2000 := by exact_mod_cast h2
  exact ⟨(sample_within r v hv (by omega)).mono (by exact_mod_cast h2), by simp, by simp⟩

example : (1500.0 : FP ieee).toE
    ≤ (Dwz.dwz (F := FP ieee) ⟨1500.0, 5, 20⟩ ⟨1900.0, 5, 40⟩ .WIN).1.rating.toE :=
  ((C80_dwz_direction ieee_lib _ _ .WIN 2000 5
    (sample_dwz 15000 (by norm_num) ⟨1500, by norm_num⟩ 20)
    (sample_dwz 19000 (by norm_num) ⟨1900, by norm_num⟩ 40) (by norm_num) (by norm_num)).2.2.1 rfl).1

example (games : List (Game (Fin 3) Unit)) (hn : games.length ≤ 10 ^ 12) (i : Fin 3) :
    (tournament (fun a b o (_ : Unit) => Dwz.dwz a b o)
      (fun _ => (⟨1500.0, 5, 20⟩ : Dwz.DWZRating (FP ieee))) games i).rating.isFinite :=
  (C100_dwz_history ieee_lib _ games 2000 5
    (fun _ => sample_dwz 15000 (by norm_num) ⟨1500, by norm_num⟩ 20)
    (by norm_num; omega) (by norm_num; omega) i).1.1

example (games : List (Game (Fin 3) Unit)) (hn : games.length ≤ 10 ^ 12) (i : Fin 3) :
    (tournament (fun a b o (_ : Unit) => Ingo.ingo a b o)
      (fun _ => (⟨230.0, 26⟩ : Ingo.IngoRating (FP ieee))) games i).rating.isFinite :=
  (C100_ingo_history _ games 230 (fun _ => sample_within 2300 230 (by norm_num) (by norm_num))
    (by norm_num; omega) i).1

/-- New players, whose first games are rated provisionally. -/
example (games : List (Game (Fin 3) (Uscf.USCFConfig (FP ieee)))) (hn : games.length ≤ 10 ^ 12)
    (i : Fin 3) :
    (tournament Uscf.uscf (fun _ => (⟨1300.0, 0⟩ : Uscf.USCFRating (FP ieee))) games
      i).rating.isFinite :=
  (C100_uscf_history ieee_lib _ games 1300 0 (by norm_num)
    (fun _ => ⟨sample_within 13000 1300 (by norm_num) (by norm_num), le_rfl⟩)
    (by norm_num; omega) (by norm_num; omega) i).1

example (t : FP ieee) : (1300.0 : FP ieee).toE
    ≤ (Uscf.uscf (F := FP ieee) ⟨1300.0, 40⟩ ⟨1200.0, 3⟩ .WIN ⟨t⟩).1.rating.toE :=
  (C80_uscf_direction ieee_lib ⟨1300.0, 40⟩ ⟨1200.0, 3⟩ .WIN ⟨t⟩ 1300
    (sample_within 13000 1300 (by norm_num) (by norm_num))
    ((sample_within 12000 1200 (by norm_num) (by norm_num)).mono (by norm_num)) (by norm_num)
    (by norm_num) (by norm_num)).2.1 rfl

end Skillratings
