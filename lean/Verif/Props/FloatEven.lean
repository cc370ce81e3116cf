import Verif.Props.FloatDirections
import Verif.Props.FloatWengLin
/-
C164: a draw between equally rated players changes no rating, in floating point.
-/
namespace Skillratings
open FP FPVal Spec
variable {E : FloatEnv}

/-- A floating-point number whose value is `v`. -/
def Is (x : FP E) (v : ℝ) : Prop := x.isFinite ∧ x.toR = v

namespace Is

theorem iff_in {x : FP E} {v : ℝ} : Is x v ↔ In (E := E) (v : EReal) (v : EReal) x := by
  refine ⟨fun h => ?_, fun h => ⟨h.finite, le_antisymm h.toR.2 h.toR.1⟩⟩
  have h1 : x.toE = (v : EReal) := by rw [← h.2]; exact isFinite.toE_eq h.1
  exact ⟨isFinite.not_nan h.1, h1.ge, h1.le⟩

theorem round {s : Bool} {v : ℝ} (h : SRep v) : Is (E := E) (E.round s v) v :=
  iff_in.2 (In.of_round s h h le_rfl le_rfl)

theorem neg {x : FP E} {v : ℝ} (h : Is x v) : Is (-x) (-v) :=
  ⟨(isFinite_neg _).2 h.1, by rw [← h.2]; exact toR_neg' ..⟩

theorem sub_self {x y : FP E} {v : ℝ} (hx : Is x v) (hy : Is y v) : Is (x - y) 0 := by
  obtain ⟨s, hs⟩ := sub_fin hx.1 hy.1
  rw [hs, hx.2, hy.2, _root_.sub_self]
  exact round SRep.zero

theorem zero_div {x y : FP E} (hx : Is x 0) (hy : y.isFinite) (h0 : y.toR ≠ 0) : Is (x / y) 0 := by
  obtain ⟨s, hs⟩ := div_fin hx.1 hy h0
  rw [hs, hx.2, _root_.zero_div]
  exact round SRep.zero

theorem mul_zero {x y : FP E} (hx : x.isFinite) (hy : Is y 0) : Is (x * y) 0 := by
  obtain ⟨s, hs⟩ := mul_fin hx hy.1
  rw [hs, hy.2, MulZeroClass.mul_zero]
  exact round SRep.zero

/-- Nothing is added. -/
theorem mulAdd {k d r : FP E} {v : ℝ} (hk : k.isFinite) (hd : Is d 0) (hr : Is r v) :
    Is (Flt.mulAdd k d r) v := by
  obtain ⟨s, hs⟩ := mulAdd_fin hk hd.1 hr.1
  have := isFinite.srep hr.1
  rw [hs, hd.2, hr.2, MulZeroClass.mul_zero, zero_add]
  exact round (hr.2 ▸ this)

theorem add_zero {x y : FP E} {v : ℝ} (hx : Is x v) (hy : Is y 0) : Is (x + y) v := by
  obtain ⟨s, hs⟩ := add_fin hx.1 hy.1
  have := isFinite.srep hx.1
  rw [hs, hx.2, hy.2, _root_.add_zero]
  exact round (hx.2 ▸ this)

/-- `10 ^ 0` -/
theorem pow (L : E.Lib) {y : FP E} (hy : Is y 0) : Is (Flt.powf (10.0 : FP E) y) 1 := by
  have h := lit_in (E := E) (m := 100) (s := true) (e := 1) (v := 10) (by norm_num)
    (SRep.ofNat 10 (by norm_num))
  have hy' := iff_in.1 hy
  have h1 : (1 : EReal) ≤ FPVal.toE (10.0 : FP E) :=
    le_trans (by exact_mod_cast (by norm_num : (1 : ℝ) ≤ 10)) h.2.1
  refine iff_in.2 ⟨(powf_ten L hy'.1).1, ?_, ?_⟩
  · exact_mod_cast L.powf_ge_one _ _ h.1 hy'.1 h1 (by simpa using hy'.2.1)
  · exact_mod_cast L.powf_le_one _ _ h.1 hy'.1 h1 (by simpa using hy'.2.2)

theorem two_recip {x : FP E} (h : Is x 2) : Is (Flt.recip x) (1 / 2) :=
  iff_in.2 (recip_bounds (iff_in.1 h) (by norm_num) SRep.half SRep.half (by norm_num) (by norm_num))

theorem one_one {x y : FP E} (hx : Is x 1) (hy : Is y 1) : Is (x + y) 2 :=
  iff_in.2 (add_in (iff_in.1 hx) (iff_in.1 hy) (SRep.ofNat 2 (by norm_num)) (SRep.ofNat 2 (by norm_num))
    (by norm_num) (by norm_num))

theorem one : Is (1.0 : FP E) 1 := iff_in.2 one_in

theorem score (L : E.Lib) {y : FP E} (hy : Is y 0) :
    Is (Flt.recip ((1.0 : FP E) + Flt.powf (10.0 : FP E) y)) (1 / 2) := two_recip (one_one one (pow L hy))

theorem score' (L : E.Lib) {y : FP E} (hy : Is y 0) :
    Is (Flt.recip (Flt.powf (10.0 : FP E) y + (1.0 : FP E))) (1 / 2) := two_recip (one_one (pow L hy) one)

theorem one_sub {x : FP E} (h : Is x (1 / 2)) : Is ((1.0 : FP E) - x) (1 / 2) :=
  iff_in.2 (sub_in one_in (iff_in.1 h) SRep.half SRep.half (by norm_num) (by norm_num))

theorem draw : Is (Outcomes.DRAW.toChessPoints : FP E) (1 / 2) := by
  have := points_in (E := E) .DRAW
  exact iff_in.2 (by simpa [pointsR] using this)

theorem lit {m : ℕ} {s : Bool} {e : ℕ} (n : ℕ) (h : (OfScientific.ofScientific m s e : ℝ) = n) (hn : n < 2 ^ 53) :
    Is (OfScientific.ofScientific m s e : FP E) n := iff_in.2 (lit_in h (within_nat hn))

theorem unit {x : FP E} (h : Is x (1 / 2)) : In 0 1 x := by
  have := (iff_in.1 h).mono (c := 0) (d := 1) (by norm_num) (by norm_num)
  simpa using this

/-- Sums over two lists of halves agree. -/
theorem sums {α : Type} (l : List α) (f g : α → FP E) (hl : l.length < 2 ^ 53)
    (hf : ∀ a ∈ l, Is (f a) (1 / 2)) (hg : ∀ a ∈ l, Is (g a) (1 / 2)) :
    Is (Flt.sum (l.map f)) (Flt.sum (l.map g)).toR ∧ (Flt.sum (l.map g)).isFinite := by
  have w : ∀ {f : α → FP E}, (∀ a ∈ l, Is (f a) (1 / 2)) → ∀ a ∈ l, Within 1 (f a) := fun h a ha =>
    ⟨(h a ha).1, by rw [(h a ha).2]; norm_num⟩
  have fin : ∀ {f : α → FP E}, (∀ a ∈ l, Is (f a) (1 / 2)) → (Flt.sum (l.map f)).isFinite := fun h =>
    (sum_unit_in (l.map _) (by rw [List.length_map]; exact hl) (by
      intro x hx
      obtain ⟨r, hm, rfl⟩ := List.mem_map.1 hx
      exact (iff_in.1 (h r hm)).mono (by norm_num) (by norm_num))).finite
  refine ⟨⟨fin hf, le_antisymm ?_ ?_⟩, fin hg⟩
  · exact sum_mono l f g hl (w hf) (w hg) fun a ha => by rw [(hf a ha).2, (hg a ha).2]
  · exact sum_mono l g f hl (w hg) (w hf) fun a ha => by rw [(hf a ha).2, (hg a ha).2]

end Is

/-! ### Elo -/

theorem elo_even (L : E.Lib) {x y : FP E} {v : ℝ} (hx : Is x v) (hy : Is y v) :
    Is (Flt.recip ((1.0 : FP E) + Flt.powf (10.0 : FP E) ((y - x) / (400.0 : FP E)))) (1 / 2) := by
  have h := Is.lit (E := E) (m := 4000) (s := true) (e := 1) 400 (by norm_num) (by norm_num)
  exact Is.score L (Is.zero_div (Is.sub_self hy hx) h.1 (by rw [h.2]; norm_num))

theorem C164_elo_expected (L : E.Lib) (a b : Elo.EloRating (FP E)) (v : ℝ) (ha : Is a.rating v)
    (hb : Is b.rating v) : Is (Elo.expectedScore a b).1 (1 / 2) ∧ Is (Elo.expectedScore a b).2 (1 / 2) :=
  ⟨elo_even L ha hb, Is.one_sub (elo_even L ha hb)⟩

theorem C164_elo (L : E.Lib) (a b : Elo.EloRating (FP E)) (c : Elo.EloConfig (FP E)) (v : ℝ)
    (ha : Is a.rating v) (hb : Is b.rating v) (hk : c.k.isFinite) :
    Is (Elo.elo a b .DRAW c).1.rating v ∧ Is (Elo.elo a b .DRAW c).2.rating v :=
  have h := C164_elo_expected L a b v ha hb
  ⟨Is.mulAdd hk (Is.sub_self Is.draw h.1) ha, Is.mulAdd hk (Is.sub_self (Is.one_sub Is.draw) h.2) hb⟩

theorem C164_elo_period (L : E.Lib) (p : Elo.EloRating (FP E)) (rs : List (Elo.EloRating (FP E) × Outcomes))
    (c : Elo.EloConfig (FP E)) (v : ℝ) (hp : Is p.rating v) (hr : ∀ r ∈ rs, Is r.1.rating v ∧ r.2 = .DRAW)
    (hk : c.k.isFinite) : Is (Elo.eloRatingPeriod p rs c).rating v := by
  have key : ∀ x : FP E, Is x v → Is (rs.foldl (Elo.periodStep c) x) v := by
    induction rs with
    | nil => exact fun _ h => h
    | cons r rs ih =>
      intro x hx
      obtain ⟨h1, h2⟩ := hr r List.mem_cons_self
      refine ih (fun r h => hr r (List.mem_cons_of_mem _ h)) _ ?_
      simp only [Elo.periodStep, h2]
      exact Is.mulAdd hk (Is.sub_self Is.draw (elo_even L hx h1)) hx
  exact key _ hp

/-! ### FIFA -/

theorem fifa_even (L : E.Lib) {x y : FP E} {v : ℝ} (hx : Is x v) (hy : Is y v) :
    Is (Flt.recip ((1.0 : FP E) + Flt.powf (10.0 : FP E) (-(x - y) / (600.0 : FP E)))) (1 / 2) := by
  have h := Is.lit (E := E) (m := 6000) (s := true) (e := 1) 600 (by norm_num) (by norm_num)
  have h0 := Is.neg (Is.sub_self hx hy)
  rw [neg_zero] at h0
  exact Is.score L (Is.zero_div h0 h.1 (by rw [h.2]; norm_num))

theorem C164_fifa_expected (L : E.Lib) (a b : Fifa.FifaRating (FP E)) (v : ℝ) (ha : Is a.rating v)
    (hb : Is b.rating v) : Is (Fifa.expectedScore a b).1 (1 / 2) ∧ Is (Fifa.expectedScore a b).2 (1 / 2) :=
  ⟨fifa_even L ha hb, Is.one_sub (fifa_even L ha hb)⟩

theorem guard_is {k : Bool} {x old : FP E} {v : ℝ} (hx : Is x v) (ho : Is old v) :
    Is (if (k && (x <? old)) = true then old else x) v := by
  split_ifs
  · exact ho
  · exact hx

/-- With and without knockout, and with a shootout entered as a draw. -/
theorem C164_fifa (L : E.Lib) (a b : Fifa.FifaRating (FP E)) (c : Fifa.FifaConfig (FP E)) (v : ℝ)
    (ha : Is a.rating v) (hb : Is b.rating v) (hk : c.importance.isFinite) :
    Is (Fifa.fifa a b .DRAW c).1.rating v ∧ Is (Fifa.fifa a b .DRAW c).2.rating v := by
  have h := C164_fifa_expected L a b v ha hb
  have h5 : Is (0.5 : FP E) (1 / 2) := Is.draw
  have o1 : Is (if c.penalties = true then (if Outcomes.DRAW = .WIN then 0.75 else 0.5)
      else Outcomes.DRAW.toChessPoints : FP E) (1 / 2) := by
    cases c.penalties
    · exact Is.draw
    · exact h5
  have o2 : Is (if c.penalties = true then (if Outcomes.DRAW = .WIN then 0.75 else 0.5)
      else 1.0 - (if c.penalties = true then (if Outcomes.DRAW = .WIN then 0.75 else 0.5)
        else Outcomes.DRAW.toChessPoints) : FP E) (1 / 2) := by
    cases c.penalties
    · exact Is.one_sub Is.draw
    · exact h5
  exact ⟨guard_is (Is.mulAdd hk (Is.sub_self o1 h.1) ha) ha, guard_is (Is.mulAdd hk (Is.sub_self o2 h.2) hb) hb⟩

theorem C164_fifa_period (L : E.Lib) (p : Fifa.FifaRating (FP E))
    (rs : List (Fifa.FifaRating (FP E) × Outcomes × Fifa.FifaConfig (FP E))) (v : ℝ) (hp : Is p.rating v)
    (hr : ∀ r ∈ rs, Is r.1.rating v ∧ r.2.1 = .DRAW ∧ r.2.2.importance.isFinite) :
    Is (Fifa.fifaRatingPeriod p rs).rating v := by
  have key : ∀ x : FP E, Is x v → Is (rs.foldl Fifa.periodStep x) v := by
    induction rs with
    | nil => exact fun _ h => h
    | cons r rs ih =>
      intro x hx
      obtain ⟨h1, h2, h3⟩ := hr r List.mem_cons_self
      refine ih (fun r h => hr r (List.mem_cons_of_mem _ h)) _ ?_
      obtain ⟨q, o, c⟩ := r
      subst h2
      have o1 : Is (if c.penalties = true then (if Outcomes.DRAW = .WIN then 0.75 else 0.5)
          else Outcomes.DRAW.toChessPoints : FP E) (1 / 2) := by
        cases c.penalties <;> exact Is.draw
      have h4 := Is.mulAdd h3 (Is.sub_self o1 (fifa_even L hx h1)) hx
      simp only [Fifa.periodStep]
      split_ifs at h4 ⊢ <;> first | exact h4 | exact hx
  exact key _ hp

/-! ### DWZ -/

theorem C164_dwz_expected (L : E.Lib) (a b : Dwz.DWZRating (FP E)) (v : ℝ) (ha : Is a.rating v)
    (hb : Is b.rating v) : Is (Dwz.expectedScore a b).1 (1 / 2) ∧ Is (Dwz.expectedScore a b).2 (1 / 2) := by
  have h := Is.lit (E := E) (m := 4000) (s := true) (e := 1) 400 (by norm_num) (by norm_num)
  have h1 : (Flt.recip (400.0 : FP E)).isFinite :=
    (recip_bounds (Is.iff_in.1 h) (by norm_num) SRep.zero SRep.one (by norm_num) (by norm_num)).finite
  have h2 : Is (Dwz.expectedScore a b).1 (1 / 2) :=
    Is.score L (Is.mul_zero ((isFinite_neg _).2 h1) (Is.sub_self ha hb))
  exact ⟨h2, Is.one_sub h2⟩

theorem C164_dwz (L : E.Lib) (a b : Dwz.DWZRating (FP E)) (v : ℝ) (B M : ℕ) (ha : Is a.rating v)
    (hb : Is b.rating v) (sa : DwzSane B M a) (sb : DwzSane B M b) (hB : B + 134 < 2 ^ 53) (hM : M < 2 ^ 50) :
    Is (Dwz.dwz a b .DRAW).1.rating v ∧ Is (Dwz.dwz a b .DRAW).2.rating v := by
  have h := C164_dwz_expected L a b v ha hb
  have f : ∀ (p : Dwz.DWZRating (FP E)) (s e : FP E), DwzSane B M p →
      ((800.0 : FP E) / (Dwz.eValue p.rating p.age s e p.index + (1.0 : FP E))).isFinite := fun p s e hp =>
    (dwz_factor_in (dwz_e_in L p.age hp.1 (by omega) hp.2.1 (by have := hp.2.2; omega))).finite
  exact ⟨Is.mulAdd (f a _ _ sa) (Is.sub_self Is.draw h.1) ha,
    Is.mulAdd (f b _ _ sb) (Is.sub_self (Is.one_sub Is.draw) h.2) hb⟩

/-- Rating periods of draws against equals, of any length. -/
theorem C164_dwz_period (L : E.Lib) (p : Dwz.DWZRating (FP E)) (rs : List (Dwz.DWZRating (FP E) × Outcomes))
    (v : ℝ) (B M : ℕ) (hp : Is p.rating v) (sp : DwzSane B M p)
    (hr : ∀ r ∈ rs, Is r.1.rating v ∧ r.2 = .DRAW) (hB : B < 2 ^ 53) (hM : M < 2 ^ 50)
    (hl : rs.length < 2 ^ 50) : Is (Dwz.dwzRatingPeriod p rs).rating v := by
  have hlen : rs.length < 2 ^ 53 := by omega
  have he : ∀ r ∈ rs, Is (Dwz.expectedScore p r.1).1 (1 / 2) := fun r h =>
    (C164_dwz_expected L p r.1 v hp (hr r h).1).1
  have hs : ∀ r ∈ rs, Is (r.2.toChessPoints : FP E) (1 / 2) := fun r h => by
    rw [(hr r h).2]; exact Is.draw
  have hh : Is (Flt.sum (rs.map fun r => (r.2.toChessPoints : FP E)))
      (Flt.sum (rs.map fun r => (Dwz.expectedScore p r.1).1)).toR ∧
      (Flt.sum (rs.map fun r => (Dwz.expectedScore p r.1).1)).isFinite := Is.sums rs _ _ hlen hs he
  simp only [Dwz.dwzRatingPeriod]
  obtain ⟨kf, -, -⟩ := dwz_period_factor (dwz_e_in (E := E) L
    (s := Flt.sum (rs.map fun r => (r.2.toChessPoints : FP E)))
    (e := Flt.sum (rs.map fun r => (Dwz.expectedScore p r.1).1)) p.age sp.1
    hB sp.2.1 (lt_of_le_of_lt sp.2.2 hM)) hl
  exact Is.mulAdd kf (Is.sub_self hh.1 ⟨hh.2, rfl⟩) hp

/-! ### USCF -/

theorem uscf_even (L : E.Lib) {x y : FP E} {v : ℝ} (hx : Is x v) (hy : Is y v) :
    Is (Uscf.eValue x y) (1 / 2) := by
  have h := Is.lit (E := E) (m := 4000) (s := true) (e := 1) 400 (by norm_num) (by norm_num)
  have h0 := Is.neg (Is.sub_self hx hy)
  rw [neg_zero] at h0
  exact Is.score' L (Is.zero_div h0 h.1 (by rw [h.2]; norm_num))

theorem C164_uscf_expected (L : E.Lib) (a b : Uscf.USCFRating (FP E)) (v : ℝ) (ha : Is a.rating v)
    (hb : Is b.rating v) : Is (Uscf.expectedScore a b).1 (1 / 2) ∧ Is (Uscf.expectedScore a b).2 (1 / 2) :=
  ⟨uscf_even L ha hb, Is.one_sub (uscf_even L ha hb)⟩

theorem floor_is {x : FP E} {v : ℝ} (hx : Is x v) (hv : 100 ≤ v) : Is (Flt.fmax x 100.0) v := by
  have h := Is.lit (E := E) (m := 1000) (s := true) (e := 1) 100 (by norm_num) (by norm_num)
  rw [fmax_eq (isFinite.not_nan hx.1) (isFinite.not_nan h.1)]
  split_ifs with hc
  · rw [lt_iff] at hc
    have h1 : x.toE = (v : EReal) := by rw [← hx.2]; exact isFinite.toE_eq hx.1
    have h2 : FP.toE (100.0 : FP E) = ((100 : ℝ) : EReal) := by
      rw [show (100 : ℝ) = ((100 : ℕ) : ℝ) by norm_num, ← h.2]; exact isFinite.toE_eq h.1
    rw [h1, h2] at hc
    have : v < 100 := by exact_mod_cast hc.2.2
    linarith
  · exact hx

/-- Both players are past their provisional games. -/
theorem C164_uscf (L : E.Lib) (a b : Uscf.USCFRating (FP E)) (c : Uscf.USCFConfig (FP E)) (v : ℝ) (B : ℕ)
    (ha : Is a.rating v) (hb : Is b.rating v) (hv : 100 ≤ v) (hvB : v ≤ B) (hB : B < 2 ^ 53)
    (ga : 9 ≤ a.games) (gb : 9 ≤ b.games) (ga' : a.games < 2 ^ 53) (gb' : b.games < 2 ^ 53) :
    Is (Uscf.uscf a b .DRAW c).1.rating v ∧ Is (Uscf.uscf a b .DRAW c).2.rating v := by
  have hz : Is (0.0 : FP E) 0 := by
    have := Is.lit (E := E) (m := 0) (s := true) (e := 1) 0 (by norm_num) (by norm_num)
    simpa using this
  have side : ∀ {r s e : FP E} {n : ℕ}, Is r v → n < 2 ^ 53 → Is s (1 / 2) → Is e (1 / 2) →
      Is (Uscf.newRating r n 1 s e c) v := by
    intro r s e n hr hn hs he
    have w : Within (B : ℝ) r := ⟨hr.1, by rw [hr.2]; exact abs_le.2 ⟨by linarith, hvB⟩⟩
    have hf := uscf_factor_in L w (by omega) hn
    have := Is.add_zero (Is.mulAdd hf.finite (Is.sub_self hs he) hr) hz
    simpa [Uscf.newRating, Uscf.getBoostValue] using this
  have n1 : ¬ a.games ≤ 8 := by omega
  have n2 : ¬ b.games ≤ 8 := by omega
  simp only [Uscf.uscf, if_neg n1, if_neg n2]
  exact ⟨floor_is (side ha ga' Is.draw (uscf_even L ha hb)) hv,
    floor_is (side hb gb' (Is.one_sub Is.draw) (uscf_even L hb ha)) hv⟩

/-- The bonus for several games stays out while its threshold is not negative. -/
theorem C164_uscf_period (L : E.Lib) (p : Uscf.USCFRating (FP E)) (rs : List (Uscf.USCFRating (FP E) × Outcomes))
    (c : Uscf.USCFConfig (FP E)) (v : ℝ) (B : ℕ) (hp : Is p.rating v)
    (hr : ∀ r ∈ rs, Is r.1.rating v ∧ r.2 = .DRAW) (hvB : |v| ≤ B) (hB : B < 2 ^ 53) (hg : 9 ≤ p.games)
    (hg' : p.games < 2 ^ 53) (hl : rs.length < 2 ^ 50) (ht : c.t.isFinite) (ht0 : 0 ≤ c.t.toR)
    (ht1 : c.t.toR ≤ 2 ^ 52) :
    Is (Uscf.uscfRatingPeriod p rs c).rating v := by
  by_cases hne : rs = []
  · subst hne
    simpa [Uscf.uscfRatingPeriod] using hp
  have hem : rs.isEmpty = false := by simpa using hne
  have n1 : ¬ p.games ≤ 8 := by omega
  have hlen : rs.length < 2 ^ 53 := by omega
  have he : ∀ r ∈ rs, Is (Uscf.eValue p.rating r.1.rating) (1 / 2) := fun r h => uscf_even L hp (hr r h).1
  have hs : ∀ r ∈ rs, Is (r.2.toChessPoints : FP E) (1 / 2) := fun r h => by
    rw [(hr r h).2]; exact Is.draw
  have hh := Is.sums rs _ _ hlen hs he
  have hz : Is (0.0 : FP E) 0 := by
    have := Is.lit (E := E) (m := 0) (s := true) (e := 1) 0 (by norm_num) (by norm_num)
    simpa using this
  have hd := Is.sub_self hh.1 ⟨hh.2, rfl⟩
  have w : Within (B : ℝ) p.rating := ⟨hp.1, by rw [hp.2]; exact hvB⟩
  have hpos : 1 ≤ rs.length := List.length_pos_iff.2 hne
  have hpos' : (1 : ℝ) ≤ rs.length := by exact_mod_cast hpos
  have hlen' : (rs.length : ℝ) ≤ 2 ^ 50 := by exact_mod_cast hl.le
  have h800 := lit_in (E := E) (m := 8000) (s := true) (e := 1) (v := 800) (by norm_num)
    (SRep.ofNat 800 (by norm_num))
  have h1 := add_in (uscf_effective_in L w hB hg') (ofNat_in (E := E) (n := rs.length) hlen)
    SRep.one (SRep.two_pow 51 (by norm_num)) (by linarith) (by linarith)
  have hk := div_in h800 h1 (by norm_num) (by norm_num) SRep.zero (SRep.ofNat 800 (by norm_num))
    (by positivity) (by norm_num)
  have hb : Is (Uscf.getBoostValue rs.length
      ((800.0 : FP E) / (Uscf.effectiveGameNumber p.rating p.games + Flt.ofNat rs.length))
      (Flt.sum (rs.map fun r => Uscf.eValue p.rating r.1.rating))
      (Flt.sum (rs.map fun r => (r.2.toChessPoints : FP E))) c.t) 0 := by
    simp only [Uscf.getBoostValue]
    split_ifs with h3 h4
    · exact hz
    · exact hz
    · exfalso
      apply h4
      have hx := Is.mul_zero hk.finite hd
      have hn := ofNat_in (E := E) (n := min rs.length 4) (by omega)
      have hm : ((min rs.length 4 : ℕ) : ℝ) ≤ 4 := by exact_mod_cast min_le_right _ _
      have hsq := sqrt_in hn (by positivity) SRep.zero (SRep.ofNat 2 (by norm_num)) (by norm_num)
        (by norm_num) (by norm_num)
      have hti : In (E := E) ((0 : ℝ) : EReal) ((2 ^ 52 : ℝ) : EReal) c.t :=
        (Is.iff_in.1 ⟨ht, rfl⟩).mono ht0 ht1
      have htm := mul_in hti hsq le_rfl le_rfl SRep.zero (SRep.two_pow 53 (by norm_num))
        (by norm_num) (by norm_num)
      refine le_iff.2 ⟨isFinite.not_nan hx.1, htm.1, ?_⟩
      exact (Is.iff_in.1 hx).2.2.trans htm.2.1
  have := Is.add_zero (Is.mulAdd hk.finite hd hp) hb
  simpa [Uscf.uscfRatingPeriod, hem, n1, Uscf.newRating] using this

/-! ### Glicko -/

theorem glicko_even (L : E.Lib) {g x y : FP E} {v : ℝ} (hg : In 0 1 g) (hx : Is x v) (hy : Is y v) :
    Is (Flt.recip ((1.0 : FP E) + Flt.powf (10.0 : FP E) (-g * (x - y) / (400.0 : FP E)))) (1 / 2) := by
  have h := Is.lit (E := E) (m := 4000) (s := true) (e := 1) 400 (by norm_num) (by norm_num)
  exact Is.score L (Is.zero_div (Is.mul_zero ((isFinite_neg _).2 (unit_in hg).finite) (Is.sub_self hx hy))
    h.1 (by rw [h.2]; norm_num))

theorem C164_glicko_expected (L : E.Lib) (a b : Glicko.GlickoRating (FP E)) (v : ℝ) (ha : Is a.rating v)
    (hb : Is b.rating v) (da : ¬ a.deviation.isNaN) (db : ¬ b.deviation.isNaN) :
    Is (Glicko.expectedScore a b).1 (1 / 2) ∧ Is (Glicko.expectedScore a b).2 (1 / 2) :=
  have h := glicko_even L (g_glicko_in L (L.hypot_nan _ _ da db)) ha hb
  ⟨h, Is.one_sub h⟩

/-- The deviations may differ. -/
theorem C164_glicko (L : E.Lib) (a b : Glicko.GlickoRating (FP E)) (c : Glicko.GlickoConfig (FP E)) (v : ℝ)
    (ha : Is a.rating v) (hb : Is b.rating v) (da : ¬ a.deviation.isNaN) (db : ¬ b.deviation.isNaN)
    (hc : c.c.isFinite) (hc1 : 1 ≤ c.c.toR) :
    Is (Glicko.glicko a b .DRAW c).1.rating v ∧ Is (Glicko.glicko a b .DRAW c).2.rating v := by
  have side : ∀ {x y d d' s : FP E}, Is x v → Is y v → ¬ d.isNaN → ¬ d'.isNaN → Is s (1 / 2) →
      Is (Glicko.newRating x (Flt.fmin (Flt.hypot d c.c) 350.0) s (Flt.ln 10.0 / 400.0)
        (Glicko.gValue (Flt.ln 10.0 / 400.0) d') (Glicko.eValue (Glicko.gValue (Flt.ln 10.0 / 400.0) d') x y)
        (Glicko.dValue (Flt.ln 10.0 / 400.0) (Glicko.gValue (Flt.ln 10.0 / 400.0) d')
          (Glicko.eValue (Glicko.gValue (Flt.ln 10.0 / 400.0) d') x y))) v := by
    intro x y d d' s hx hy hd hd' hs
    have hg : In 0 1 (Glicko.gValue (Flt.ln (10.0 : FP E) / 400.0) d') := g_glicko_in L hd'
    have he := glicko_even L hg hx hy
    have hpre := pre_in L hd hc hc1
    have ht := total_in L (k := 0) (by norm_num) hpre
      ((dValue_arg_in L hg (Is.unit he)).mono le_rfl (by norm_num))
    have hkg := mul_in (gain_in L ht) (unit_in hg) le_rfl le_rfl SRep.zero
      (SRep.ofNat 958 (by norm_num)) (by norm_num) (by norm_num)
    have hdv : Glicko.dValue (Flt.ln (10.0 : FP E) / 400.0) (Glicko.gValue (Flt.ln 10.0 / 400.0) d')
        (Glicko.eValue (Glicko.gValue (Flt.ln 10.0 / 400.0) d') x y) = Flt.recip _ := powi_neg_one' L _
    simp only [Glicko.newRating, hdv]
    exact Is.mulAdd hkg.finite (Is.sub_self hs he) hx
  exact ⟨side ha hb da db Is.draw, side hb ha db da (Is.one_sub Is.draw)⟩

theorem C164_glicko_period (L : E.Lib) (p : Glicko.GlickoRating (FP E))
    (rs : List (Glicko.GlickoRating (FP E) × Outcomes)) (c : Glicko.GlickoConfig (FP E)) (v : ℝ)
    (hp : Is p.rating v) (hd : ¬ p.deviation.isNaN)
    (hr : ∀ r ∈ rs, Is r.1.rating v ∧ ¬ r.1.deviation.isNaN ∧ r.2 = .DRAW)
    (hc : c.c.isFinite) (hc1 : 1 ≤ c.c.toR) (hl : rs.length < 2 ^ 53) :
    Is (Glicko.glickoRatingPeriod p rs c).rating v := by
  have hpre := pre_in L hd hc hc1
  by_cases hne : rs = []
  · subst hne
    simpa [Glicko.glickoRatingPeriod, Glicko.decayDeviation] using hp
  · have hem : rs.isEmpty = false := by simpa using hne
    simp only [Glicko.glickoRatingPeriod, hem, Bool.false_eq_true, if_false]
    have hg : ∀ r ∈ rs, In 0 1 (Glicko.gValue (Flt.ln (10.0 : FP E) / 400.0) r.1.deviation) :=
      fun r h => g_glicko_in L (hr r h).2.1
    have he : ∀ r ∈ rs, Is (Glicko.eValue (Glicko.gValue (Flt.ln (10.0 : FP E) / 400.0)
        r.1.deviation) p.rating r.1.rating) (1 / 2) := fun r hm => glicko_even L (hg r hm) hp (hr r hm).1
    have hi := sum_unit_in (rs.map fun r =>
        Flt.powi (Glicko.gValue (Flt.ln (10.0 : FP E) / 400.0) r.1.deviation) 2
        * Glicko.eValue (Glicko.gValue (Flt.ln (10.0 : FP E) / 400.0) r.1.deviation) p.rating
          r.1.rating
        * (1.0 - Glicko.eValue (Glicko.gValue (Flt.ln (10.0 : FP E) / 400.0) r.1.deviation)
          p.rating r.1.rating)) (by rw [List.length_map]; exact hl) (by
        intro x hx
        obtain ⟨r, hm, rfl⟩ := List.mem_map.1 hx
        exact information_in L (hg r hm) (Is.unit (he r hm)))
    have hm := sum_zeros rs (fun r =>
        Glicko.gValue (Flt.ln (10.0 : FP E) / 400.0) r.1.deviation
        * (r.2.toChessPoints - Glicko.eValue (Glicko.gValue (Flt.ln (10.0 : FP E) / 400.0)
          r.1.deviation) p.rating r.1.rating)) (fun r hm =>
        Is.mul_zero (unit_in (hg r hm)).finite (Is.sub_self (by rw [(hr r hm).2.2]; exact Is.draw) (he r hm)))
    rw [List.length_map] at hi
    have hlen : (rs.length : ℝ) ≤ 2 ^ 53 := by exact_mod_cast hl.le
    have hqi := mul_in (q_sq_in L) hi le_rfl le_rfl SRep.zero (SRep.two_pow 53 (by norm_num))
      (by norm_num) (by linarith)
    have hk := gain_in L (total_in L (k := 53) (by norm_num) hpre hqi)
    exact Is.mulAdd hk.finite hm hp

/-! ### Weng-Lin -/

/-- Doubling is exact. -/
theorem srep_double {x : ℝ} (h : SRep x) (h0 : 0 < x) (h1 : x ≤ 2 ^ 751) : SRep (x + x) := by
  obtain ⟨n, k, hn, hk, hk', e⟩ := h
  rw [abs_of_pos h0] at e
  have hk2 : k + 1 ≤ 971 := by
    by_contra hc
    have hk3 : k = 971 := by omega
    subst hk3
    have n1 : (1 : ℝ) ≤ n := by
      rcases Nat.eq_zero_or_pos n with h | h
      · subst h; simp at e; linarith
      · exact_mod_cast h
    have h2 : (2 : ℝ) ^ 751 < 2 ^ (971 : ℤ) := by
      rw [← zpow_natCast]
      exact zpow_lt_zpow_right₀ (by norm_num) (by norm_num)
    have h3 : (0 : ℝ) < 2 ^ (971 : ℤ) := by positivity
    have h4 := le_mul_of_one_le_left h3.le n1
    exact absurd (h2.trans_le (h4.trans (e ▸ h1))) (lt_irrefl _)
  refine ⟨n, k + 1, hn, by omega, hk2, ?_⟩
  rw [abs_of_pos (by linarith), zpow_add_one₀ (by norm_num), e]
  ring

theorem wl_even (A : E.Accurate) {b : ℕ} (hb : 1 ≤ b) {r c : FP E} (hr : Within ((500 * b : ℕ) : ℝ) r)
    (hc : In (E := E) ((b : ℝ) : EReal) ((2048 : ℝ) : EReal) c) : Is (WengLin.pValue r r c).1 (1 / 2) := by
  have b1 : (1 : ℝ) ≤ b := by exact_mod_cast hb
  have hc' := hc.toR
  have hq : Within 500 (r / c) := by
    obtain ⟨t, ht⟩ := div_fin hr.1 hc.finite (by linarith)
    have h1 : |r.toR / c.toR| ≤ 500 := by
      rw [abs_div, abs_of_pos (by linarith : 0 < c.toR), div_le_iff₀ (by linarith)]
      have := hr.2
      push_cast at this
      nlinarith
    rw [ht]
    have h2 := abs_le.1 h1
    exact In.within (In.of_round t (SRep.ofNat 500 (by norm_num)).neg (SRep.ofNat 500 (by norm_num))
      h2.1 h2.2)
  obtain ⟨f1, p1, u1⟩ := exp_moderate A hq
  simp only [WengLin.pValue]
  set x := (Flt.exp (r / c) : FP E)
  obtain ⟨t, ht⟩ := add_fin f1 f1
  have hs : Is (x + x) (x.toR + x.toR) := by
    rw [ht]; exact Is.round (srep_double (isFinite.srep f1) p1 u1)
  obtain ⟨k, hk⟩ := div_fin f1 hs.1 (by rw [hs.2]; linarith)
  have e : x.toR / (x + x).toR = 1 / 2 := by
    rw [hs.2]; field_simp; ring
  rw [hk, e]
  exact Is.round SRep.half

/-- Two players of the same rating, whatever their uncertainties. -/
theorem C164_wengLin_expected (L : E.Lib) (A : E.Accurate) (r u w : FP E)
    (c : WengLin.WengLinConfig (FP E)) (k : ℕ) (hk : 1 ≤ k) (hk' : k ≤ 1000) (hc : WlConfig k c)
    (ha : WlSane ((500 * k : ℕ) : ℝ) 1000 ⟨r, u⟩) (hb : WlSane ((500 * k : ℕ) : ℝ) 1000 ⟨r, w⟩) :
    Is (WengLin.expectedScore ⟨r, u⟩ ⟨r, w⟩ c).1 (1 / 2) ∧
    Is (WengLin.expectedScore ⟨r, u⟩ ⟨r, w⟩ c).2 (1 / 2) := by
  have hcc := (wl_c_in L hk hk' (β := c.beta) ⟨hc.1.1, hc.1.2, hc.2.1.2⟩
    (by simpa using wl_sane_in ha) (by simpa using wl_sane_in hb)).1
  have h := wl_even A hk ha.1 hcc
  exact ⟨h, Is.one_sub h⟩

theorem C164_wengLin (L : E.Lib) (A : E.Accurate) (r u w : FP E)
    (c : WengLin.WengLinConfig (FP E)) (k : ℕ) (hk : 1 ≤ k) (hk' : k ≤ 1000) (hc : WlConfig k c)
    (ha : WlSane ((500 * k : ℕ) : ℝ) 1000 ⟨r, u⟩) (hb : WlSane ((500 * k : ℕ) : ℝ) 1000 ⟨r, w⟩) :
    Is (WengLin.wengLin ⟨r, u⟩ ⟨r, w⟩ .DRAW c).1.rating r.toR ∧
    Is (WengLin.wengLin ⟨r, u⟩ ⟨r, w⟩ .DRAW c).2.rating r.toR := by
  obtain ⟨hcc, hcw⟩ := wl_c_in L hk hk' (β := c.beta) ⟨hc.1.1, hc.1.2, hc.2.1.2⟩
    (wl_sane_in ha) (wl_sane_in hb)
  have h := wl_even A hk ha.1 hcc
  have hc1 := hcc.mono (c := 1) (d := 2048) (by exact_mod_cast hk) le_rfl
  have f1 := wl_factor L (U := 1000) le_rfl (by exact_mod_cast wl_sane_in ha) hc1 (hcw _ (Or.inl rfl))
  have f2 := wl_factor L (U := 1000) le_rfl (by exact_mod_cast wl_sane_in hb) hc1 (hcw _ (Or.inr rfl))
  exact ⟨Is.mulAdd f1.finite (Is.sub_self Is.draw h) ⟨ha.1.1, rfl⟩,
    Is.mulAdd f2.finite (Is.sub_self (Is.one_sub Is.draw) (Is.one_sub h)) ⟨ha.1.1, rfl⟩⟩

/-! ### Example -/

theorem even_1500 : Is (1500.0 : FP ieee) 1500 := by
  have := Is.lit (E := ieee) (m := 15000) (s := true) (e := 1) 1500 (by norm_num) (by norm_num)
  simpa using this

theorem even_50 : Is (50.0 : FP ieee) 50 := by
  have := Is.lit (E := ieee) (m := 500) (s := true) (e := 1) 50 (by norm_num) (by norm_num)
  simpa using this

theorem even_350 : Is (350.0 : FP ieee) 350 := by
  have := Is.lit (E := ieee) (m := 3500) (s := true) (e := 1) 350 (by norm_num) (by norm_num)
  simpa using this

/-- A newcomer draws with a settled player of the same rating. -/
example : Is (Glicko.glicko (⟨1500.0, 50.0⟩ : Glicko.GlickoRating (FP ieee)) ⟨1500.0, 350.0⟩ .DRAW
    ⟨50.0⟩).2.rating 1500 :=
  (C164_glicko ieee_lib _ _ _ 1500 even_1500 even_1500 (isFinite.not_nan even_50.1)
    (isFinite.not_nan even_350.1) even_50.1 (by rw [even_50.2]; norm_num)).2

/-- A knockout match that went to a shootout, entered as a draw. -/
example : Is (Fifa.fifa (⟨1500.0⟩ : Fifa.FifaRating (FP ieee)) ⟨1500.0⟩ .DRAW ⟨50.0, true, true⟩).1.rating 1500 :=
  (C164_fifa ieee_lib _ _ _ 1500 even_1500 even_1500 even_50.1).1

example : Is (Dwz.dwz (⟨1500.0, 10, 30⟩ : Dwz.DWZRating (FP ieee)) ⟨1500.0, 1, 18⟩ .DRAW).1.rating 1500 :=
  have w : Within ((1500 : ℕ) : ℝ) (1500.0 : FP ieee) := ⟨even_1500.1, by rw [even_1500.2]; norm_num⟩
  (C164_dwz ieee_lib _ _ 1500 1500 10 even_1500 even_1500 ⟨w, by norm_num, by norm_num⟩
    ⟨w, by norm_num, by norm_num⟩ (by norm_num) (by norm_num)).1

example : Is (Uscf.uscf (⟨1500.0, 10⟩ : Uscf.USCFRating (FP ieee)) ⟨1500.0, 100⟩ .DRAW ⟨14.0⟩).2.rating 1500 :=
  (C164_uscf ieee_lib _ _ _ 1500 1500 even_1500 even_1500 (by norm_num) (by norm_num) (by norm_num)
    (by norm_num) (by norm_num) (by norm_num) (by norm_num)).2

/-- Three draws in one period. -/
example : Is (Glicko.glickoRatingPeriod (⟨1500.0, 50.0⟩ : Glicko.GlickoRating (FP ieee))
    [(⟨1500.0, 350.0⟩, .DRAW), (⟨1500.0, 50.0⟩, .DRAW), (⟨1500.0, 50.0⟩, .DRAW)] ⟨50.0⟩).rating 1500 :=
  C164_glicko_period ieee_lib _ _ _ 1500 even_1500 (isFinite.not_nan even_50.1)
    (by simp [even_1500, show ¬ FP.isNaN (350.0 : FP ieee) from isFinite.not_nan even_350.1,
      show ¬ FP.isNaN (50.0 : FP ieee) from isFinite.not_nan even_50.1])
    even_50.1 (by rw [even_50.2]; norm_num) (by norm_num)

example : Is (Dwz.dwzRatingPeriod (⟨1500.0, 10, 30⟩ : Dwz.DWZRating (FP ieee))
    [(⟨1500.0, 1, 18⟩, .DRAW), (⟨1500.0, 9, 60⟩, .DRAW)]).rating 1500 :=
  C164_dwz_period ieee_lib _ _ 1500 1500 10 even_1500
    ⟨⟨even_1500.1, by rw [even_1500.2]; norm_num⟩, by norm_num, by norm_num⟩ (by simp [even_1500])
    (by norm_num) (by norm_num) (by norm_num)

example : Is (Uscf.uscfRatingPeriod (⟨1500.0, 10⟩ : Uscf.USCFRating (FP ieee))
    [(⟨1500.0, 1⟩, .DRAW), (⟨1500.0, 9⟩, .DRAW), (⟨1500.0, 7⟩, .DRAW)] ⟨50.0⟩).rating 1500 :=
  C164_uscf_period ieee_lib _ _ _ 1500 1500 even_1500 (by simp [even_1500]) (by norm_num) (by norm_num)
    (by norm_num) (by norm_num) (by norm_num) even_50.1 (by rw [even_50.2]; norm_num)
    (by rw [even_50.2]; norm_num)

example : Is (WengLin.wengLin (F := FP ieee) ⟨25.0, 8.0⟩ ⟨25.0, 8.0⟩ .DRAW ⟨4.0, 0.0⟩).1.rating
    (FP.toR (25.0 : FP ieee)) :=
  (C164_wengLin ieee_lib ieee_accurate _ _ _ _ 4 (by norm_num) (by norm_num) sample_config
    (sample_player (by norm_num) (by norm_num)) (sample_player (by norm_num) (by norm_num))).1

example : Is (Elo.eloRatingPeriod (⟨1000.0⟩ : Elo.EloRating (FP ieee))
    [(⟨1000.0⟩, .DRAW), (⟨1000.0⟩, .DRAW)] ⟨32.0⟩).rating 1000 := by
  have h : Is (1000.0 : FP ieee) 1000 := by
    have := Is.lit (E := ieee) (m := 10000) (s := true) (e := 1) 1000 (by norm_num) (by norm_num)
    simpa using this
  exact C164_elo_period ieee_lib _ _ _ _ h (by simp [h])
    (Is.lit (E := ieee) (m := 320) (s := true) (e := 1) 32 (by norm_num) (by norm_num)).1

end Skillratings
