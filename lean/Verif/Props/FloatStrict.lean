import Verif.Props.FloatScoreSum
import Verif.Props.FloatAccuracy
/-
C168: in floating point a win really raises an Elo rating while the lead of the winner is at most 3200 points,
and changes nothing at all once the lead is 7000 points.
-/
namespace Skillratings
open FP FPVal Spec
variable {E : FloatEnv}

/-- What the exact expected score leaves to a favourite who leads by at most 3200 points. -/
theorem score_left {d : ℝ} (h : d ≤ 3200) : 1 / (1 + 10 ^ 8) ≤ 1 - Real.sigmoid (Real.log 10 / 400 * d) := by
  have hl : 0 < Real.log 10 := Real.log_pos (by norm_num)
  have hm : Real.sigmoid (Real.log 10 / 400 * d) ≤ Real.sigmoid (Real.log 10 * 8) :=
    Real.sigmoid_monotone (by nlinarith)
  have hv : Real.sigmoid (Real.log 10 * 8) = (1 + (10 ^ 8)⁻¹)⁻¹ := by
    rw [Real.sigmoid_def, Real.exp_neg, Real.exp_mul, Real.exp_log (by norm_num)]
    norm_num
  rw [hv] at hm
  norm_num at hm ⊢
  linarith

/-- A win that both players notice: the winner's rating rises and the loser's falls, in the stored numbers. -/
theorem C168_elo_win (A : E.Accurate) (a b : Elo.EloRating (FP E)) (c : Elo.EloConfig (FP E))
    (ha : Within (2 ^ 14) a.rating) (hb : Within (2 ^ 14) b.rating) (hk : Within 512 c.k) (hk1 : 1 ≤ c.k.toR)
    (hd : a.rating.toR - b.rating.toR ≤ 3200) :
    (a.rating <? (Elo.elo a b .WIN c).1.rating) = true ∧ ((Elo.elo a b .WIN c).2.rating <? b.rating) = true := by
  obtain ⟨h1, h2⟩ := C112_elo_game A a b .WIN c ha hb hk
  have hs := score_left hd
  rw [Elo.elo_real] at h1 h2
  simp only [Spec.points] at h1 h2
  have hg : 1 / (1 + 10 ^ 8) ≤ c.k.toR * (1 - Real.sigmoid (Real.log 10 / 400 * (a.rating.toR - b.rating.toR))) :=
    hs.trans (le_mul_of_one_le_left (le_trans (by norm_num) hs) hk1)
  have e1 := abs_le.1 h1.2
  have e2 := abs_le.1 h2.2
  norm_num at hg e1 e2
  rw [lt_iff_toR ha.1 h1.1, lt_iff_toR h2.1 hb.1]
  constructor <;> nlinarith

/-- The mirror image: the first player loses. -/
theorem C168_elo_loss (A : E.Accurate) (a b : Elo.EloRating (FP E)) (c : Elo.EloConfig (FP E))
    (ha : Within (2 ^ 14) a.rating) (hb : Within (2 ^ 14) b.rating) (hk : Within 512 c.k) (hk1 : 1 ≤ c.k.toR)
    (hd : b.rating.toR - a.rating.toR ≤ 3200) :
    ((Elo.elo a b .LOSS c).1.rating <? a.rating) = true ∧ (b.rating <? (Elo.elo a b .LOSS c).2.rating) = true := by
  obtain ⟨h1, h2⟩ := C112_elo_game A a b .LOSS c ha hb hk
  have hs := score_left hd
  rw [show Real.log 10 / 400 * (b.rating.toR - a.rating.toR)
    = -(Real.log 10 / 400 * (a.rating.toR - b.rating.toR)) by ring, Real.sigmoid_neg] at hs
  rw [Elo.elo_real] at h1 h2
  simp only [Spec.points] at h1 h2
  have hs' : 1 / (1 + 10 ^ 8) ≤ Real.sigmoid (Real.log 10 / 400 * (a.rating.toR - b.rating.toR)) := by linarith
  have hg : 1 / (1 + 10 ^ 8) ≤ c.k.toR * Real.sigmoid (Real.log 10 / 400 * (a.rating.toR - b.rating.toR)) :=
    hs'.trans (le_mul_of_one_le_left (le_trans (by norm_num) hs') hk1)
  have e1 := abs_le.1 h1.2
  have e2 := abs_le.1 h2.2
  norm_num at hg e1 e2
  rw [lt_iff_toR h1.1 ha.1, lt_iff_toR hb.1 h2.1]
  constructor <;> nlinarith

/-- FIFA: a win without a penalty shoot-out raises the rating of a team that leads by at most 4800 points, and
the losing team's falls unless the match is a knockout match. -/
theorem C168_fifa_win (A : E.Accurate) (a b : Fifa.FifaRating (FP E)) (c : Fifa.FifaConfig (FP E))
    (ha : Within (2 ^ 14) a.rating) (hb : Within (2 ^ 14) b.rating) (hk : Within 512 c.importance)
    (hk1 : 1 ≤ c.importance.toR) (hp : c.penalties = false) (hd : a.rating.toR - b.rating.toR ≤ 4800) :
    (a.rating <? (Fifa.fifa a b .WIN c).1.rating) = true ∧
      (c.knockout = false → ((Fifa.fifa a b .WIN c).2.rating <? b.rating) = true) := by
  obtain ⟨h1, h2⟩ := C112_fifa_game A a b .WIN c ha hb hk
  have hs := score_left (d := (a.rating.toR - b.rating.toR) * (2 / 3)) (by linarith)
  rw [show Real.log 10 / 400 * ((a.rating.toR - b.rating.toR) * (2 / 3))
    = Real.log 10 / 600 * (a.rating.toR - b.rating.toR) by ring] at hs
  rw [Fifa.fifa_real] at h1 h2
  have hpe : (fifaExact c).penalties = false := hp
  have hie : (fifaExact c).importance = c.importance.toR := rfl
  simp only [Fifa.credit, Fifa.credit2, hpe, hie, Spec.points, Bool.false_eq_true, if_false] at h1 h2
  have hg : 1 / (1 + 10 ^ 8) ≤
      c.importance.toR * (1 - Real.sigmoid (Real.log 10 / 600 * (a.rating.toR - b.rating.toR))) :=
    hs.trans (le_mul_of_one_le_left (le_trans (by norm_num) hs) hk1)
  have e1 := abs_le.1 h1.2
  have e2 := abs_le.1 h2.2
  rw [lt_iff_toR ha.1 h1.1, lt_iff_toR h2.1 hb.1]
  constructor
  · have hge : c.importance.toR * (1 - Real.sigmoid (Real.log 10 / 600 * (a.rating.toR - b.rating.toR)))
        + a.rating.toR ≤ Fifa.guarded (fifaExact c) a.rating.toR (c.importance.toR *
          (1 - Real.sigmoid (Real.log 10 / 600 * (a.rating.toR - b.rating.toR))) + a.rating.toR) := by
      unfold Fifa.guarded
      split_ifs
      · exact le_max_right _ _
      · exact le_rfl
    norm_num at hg e1
    linarith
  · intro hko
    have hke : (fifaExact c).knockout = false := hko
    simp only [Fifa.guarded, hke, Bool.false_eq_true, if_false] at e2
    norm_num at hg e2
    nlinarith

/-- The mirror image: the second team wins. -/
theorem C168_fifa_loss (A : E.Accurate) (a b : Fifa.FifaRating (FP E)) (c : Fifa.FifaConfig (FP E))
    (ha : Within (2 ^ 14) a.rating) (hb : Within (2 ^ 14) b.rating) (hk : Within 512 c.importance)
    (hk1 : 1 ≤ c.importance.toR) (hp : c.penalties = false) (hd : b.rating.toR - a.rating.toR ≤ 4800) :
    (b.rating <? (Fifa.fifa a b .LOSS c).2.rating) = true ∧
      (c.knockout = false → ((Fifa.fifa a b .LOSS c).1.rating <? a.rating) = true) := by
  obtain ⟨h1, h2⟩ := C112_fifa_game A a b .LOSS c ha hb hk
  have hs := score_left (d := (b.rating.toR - a.rating.toR) * (2 / 3)) (by linarith)
  rw [show Real.log 10 / 400 * ((b.rating.toR - a.rating.toR) * (2 / 3))
    = -(Real.log 10 / 600 * (a.rating.toR - b.rating.toR)) by ring, Real.sigmoid_neg] at hs
  rw [Fifa.fifa_real] at h1 h2
  have hpe : (fifaExact c).penalties = false := hp
  have hie : (fifaExact c).importance = c.importance.toR := rfl
  simp only [Fifa.credit, Fifa.credit2, hpe, hie, Spec.points, Bool.false_eq_true, if_false, sub_zero] at h1 h2
  have hg : 1 / (1 + 10 ^ 8) ≤ c.importance.toR *
      (1 - (1 - Real.sigmoid (Real.log 10 / 600 * (a.rating.toR - b.rating.toR)))) :=
    hs.trans (le_mul_of_one_le_left (le_trans (by norm_num) hs) hk1)
  have e1 := abs_le.1 h1.2
  have e2 := abs_le.1 h2.2
  rw [lt_iff_toR hb.1 h2.1, lt_iff_toR h1.1 ha.1]
  constructor
  · have hge : c.importance.toR * (1 - (1 - Real.sigmoid (Real.log 10 / 600 * (a.rating.toR - b.rating.toR))))
        + b.rating.toR ≤ Fifa.guarded (fifaExact c) b.rating.toR (c.importance.toR *
          (1 - (1 - Real.sigmoid (Real.log 10 / 600 * (a.rating.toR - b.rating.toR)))) + b.rating.toR) := by
      unfold Fifa.guarded
      split_ifs
      · exact le_max_right _ _
      · exact le_rfl
    norm_num at hg e2 hge
    linarith
  · intro hko
    have hke : (fifaExact c).knockout = false := hko
    simp only [Fifa.guarded, hke, Bool.false_eq_true, if_false] at e1
    norm_num at hg e1
    nlinarith

/-- A lead of 7000 points: the expected score of the favourite is rounded to one. -/
theorem score_one (hE : E.ToNearest) (A : E.Accurate) {x y : FP E} (hx : Within (2 ^ 14) x)
    (hy : Within (2 ^ 14) y) (hd : 7000 ≤ x.toR - y.toR) :
    Is (Flt.recip ((1.0 : FP E) + Flt.powf (10.0 : FP E) ((y - x) / (400.0 : FP E)))) 1 := by
  have h400 := near_of_in (lit_in (E := E) (m := 4000) (s := true) (e := 1) (v := 400) (by norm_num)
    (SRep.ofNat 400 (by norm_num)))
  have ht := exponent_near hx hy h400 le_rfl
  have hx2 := abs_le.1 hx.2
  have hy2 := abs_le.1 hy.2
  have hta := abs_le.1 ht.2
  set t := (y - x) / (400.0 : FP E)
  norm_num at hta hx2 hy2
  have ht17 : t.toR ≤ (-17 : ℝ) := by linarith
  have h10 : (10.0 : FP E).toE = ((10 : ℝ) : EReal) := le_antisymm ten_in.2.2 ten_in.2.1
  have hp := A.powf_ten (10.0 : FP E) t h10 ht.1 (abs_le.2 ⟨by linarith, by linarith⟩)
  have hle : (10 : ℝ) ^ t.toR ≤ 1 / 10 ^ 17 := by
    refine (Real.rpow_le_rpow_of_exponent_le (by norm_num) ht17).trans (le_of_eq ?_)
    rw [Real.rpow_neg (by norm_num)]; norm_num
  have hpos : 0 < (10 : ℝ) ^ t.toR := Real.rpow_pos_of_pos (by norm_num) _
  have hpa := abs_le.1 hp.2
  have h1 := Is.one (E := E)
  obtain ⟨s, e⟩ := add_fin (E := E) (x := (1.0 : FP E)) h1.1 hp.1
  rw [h1.2] at e
  norm_num at hpa hle
  have hr := round_cval hE (s := s) (x := 1 + (E.powf (10.0 : FP E) t).toR) (by linarith) (by linarith)
  rw [nearest_one (by rw [abs_le]; norm_num; constructor <;> linarith), ← e] at hr
  exact Is.iff_in.2 (recip_bounds (Is.iff_in.1 hr) (by norm_num) SRep.one SRep.one (by norm_num) (by norm_num))

/-- A favourite who leads by 7000 points or more is expected to score exactly one, … -/
theorem C168_elo_expected (hE : E.ToNearest) (A : E.Accurate) (a b : Elo.EloRating (FP E))
    (ha : Within (2 ^ 14) a.rating) (hb : Within (2 ^ 14) b.rating) (hd : 7000 ≤ a.rating.toR - b.rating.toR) :
    Is (Elo.expectedScore a b).1 1 ∧ Is (Elo.expectedScore a b).2 0 := by
  have h := score_one hE A ha hb hd
  exact ⟨h, Is.sub_self Is.one h⟩

/-- … so that a win changes neither rating. -/
theorem C168_elo_stale (hE : E.ToNearest) (A : E.Accurate) (a b : Elo.EloRating (FP E))
    (c : Elo.EloConfig (FP E)) (ha : Within (2 ^ 14) a.rating) (hb : Within (2 ^ 14) b.rating)
    (hk : c.k.isFinite) (hd : 7000 ≤ a.rating.toR - b.rating.toR) :
    Is (Elo.elo a b .WIN c).1.rating a.rating.toR ∧ Is (Elo.elo a b .WIN c).2.rating b.rating.toR := by
  obtain ⟨h1, h2⟩ := C168_elo_expected hE A a b ha hb hd
  have hw : Is (Outcomes.WIN.toChessPoints : FP E) 1 := Is.one
  exact ⟨Is.mulAdd hk (Is.sub_self hw h1) ⟨ha.1, rfl⟩,
    Is.mulAdd hk (Is.sub_self (Is.sub_self Is.one hw) h2) ⟨hb.1, rfl⟩⟩

/-- … and neither do any number of wins against such opponents in a rating period. -/
theorem C168_elo_period (hE : E.ToNearest) (A : E.Accurate) (p : Elo.EloRating (FP E))
    (rs : List (Elo.EloRating (FP E) × Outcomes)) (c : Elo.EloConfig (FP E)) (hp : Within (2 ^ 14) p.rating)
    (hk : c.k.isFinite) (hrs : ∀ r ∈ rs, r.2 = .WIN ∧ Within (2 ^ 14) r.1.rating ∧
      7000 ≤ p.rating.toR - r.1.rating.toR) :
    Is (Elo.eloRatingPeriod p rs c).rating p.rating.toR := by
  have key : ∀ (l : List (Elo.EloRating (FP E) × Outcomes)) (x : FP E), (∀ r ∈ l, r ∈ rs) →
      Is x p.rating.toR → Is (l.foldl (Elo.periodStep c) x) p.rating.toR := by
    intro l
    induction l with
    | nil => intro x _ hx; exact hx
    | cons r l ih =>
      intro x hl hx
      refine ih _ (fun q hq => hl q (List.mem_cons_of_mem _ hq)) ?_
      obtain ⟨ho, hw, hd⟩ := hrs r (hl r List.mem_cons_self)
      have hx' : Within (2 ^ 14) x := ⟨hx.1, by rw [hx.2]; exact hp.2⟩
      have h1 := score_one hE A hx' hw (by rw [hx.2]; exact hd)
      have hw1 : Is (r.2.toChessPoints : FP E) 1 := by rw [ho]; exact Is.one
      exact Is.mulAdd hk (Is.sub_self hw1 h1) hx
  exact key rs p.rating (fun _ h => h) ⟨hp.1, rfl⟩

/-! ### Examples -/

/-- A favourite with 1500 points beats a player with 50 points at `k = 50`. -/
example : ((1500.0 : FP ieee) <? (Elo.elo (F := FP ieee) ⟨1500.0⟩ ⟨50.0⟩ .WIN ⟨50.0⟩).1.rating) = true :=
  (C168_elo_win ieee_accurate ⟨1500.0⟩ ⟨50.0⟩ ⟨50.0⟩ ⟨even_1500.1, by rw [even_1500.2]; norm_num⟩
    ⟨even_50.1, by rw [even_50.2]; norm_num⟩ ⟨even_50.1, by rw [even_50.2]; norm_num⟩
    (by rw [even_50.2]; norm_num) (by rw [even_1500.2, even_50.2]; norm_num)).1

/-- The same two players meet again, and the weaker one wins. -/
example : ((50.0 : FP ieee) <? (Elo.elo (F := FP ieee) ⟨50.0⟩ ⟨1500.0⟩ .WIN ⟨50.0⟩).1.rating) = true :=
  (C168_elo_win ieee_accurate ⟨50.0⟩ ⟨1500.0⟩ ⟨50.0⟩ ⟨even_50.1, by rw [even_50.2]; norm_num⟩
    ⟨even_1500.1, by rw [even_1500.2]; norm_num⟩ ⟨even_50.1, by rw [even_50.2]; norm_num⟩
    (by rw [even_50.2]; norm_num) (by rw [even_1500.2, even_50.2]; norm_num)).1

/-- … who now is the second player. -/
example : ((Elo.elo (F := FP ieee) ⟨1500.0⟩ ⟨50.0⟩ .LOSS ⟨50.0⟩).1.rating <? (1500.0 : FP ieee)) = true :=
  (C168_elo_loss ieee_accurate ⟨1500.0⟩ ⟨50.0⟩ ⟨50.0⟩ ⟨even_1500.1, by rw [even_1500.2]; norm_num⟩
    ⟨even_50.1, by rw [even_50.2]; norm_num⟩ ⟨even_50.1, by rw [even_50.2]; norm_num⟩
    (by rw [even_50.2]; norm_num) (by rw [even_1500.2, even_50.2]; norm_num)).1

/-- A knockout match of importance 50. -/
example : ((1500.0 : FP ieee) <? (Fifa.fifa (F := FP ieee) ⟨1500.0⟩ ⟨50.0⟩ .WIN ⟨50.0, true, false⟩).1.rating)
    = true :=
  (C168_fifa_win ieee_accurate ⟨1500.0⟩ ⟨50.0⟩ ⟨50.0, true, false⟩ ⟨even_1500.1, by rw [even_1500.2]; norm_num⟩
    ⟨even_50.1, by rw [even_50.2]; norm_num⟩ ⟨even_50.1, by rw [even_50.2]; norm_num⟩
    (by rw [even_50.2]; norm_num) rfl (by rw [even_1500.2, even_50.2]; norm_num)).1

/-- The first team loses an ordinary match. -/
example : ((Fifa.fifa (F := FP ieee) ⟨1500.0⟩ ⟨50.0⟩ .LOSS ⟨50.0, false, false⟩).1.rating <? (1500.0 : FP ieee))
    = true :=
  (C168_fifa_loss ieee_accurate ⟨1500.0⟩ ⟨50.0⟩ ⟨50.0, false, false⟩
    ⟨even_1500.1, by rw [even_1500.2]; norm_num⟩ ⟨even_50.1, by rw [even_50.2]; norm_num⟩
    ⟨even_50.1, by rw [even_50.2]; norm_num⟩ (by rw [even_50.2]; norm_num) rfl
    (by rw [even_1500.2, even_50.2]; norm_num)).2 rfl

theorem even_8000 : Is (8000.0 : FP ieee) 8000 := by
  have := Is.lit (E := ieee) (m := 80000) (s := true) (e := 1) 8000 (by norm_num) (by norm_num)
  norm_num at this ⊢
  exact this

/-- A player with 8000 points beats one with 50 points. -/
example : Is (Elo.elo (F := FP ieee) ⟨8000.0⟩ ⟨50.0⟩ .WIN ⟨50.0⟩).1.rating 8000 := by
  have := (C168_elo_stale ieee_toNearest ieee_accurate ⟨8000.0⟩ ⟨50.0⟩ ⟨50.0⟩
    ⟨even_8000.1, by rw [even_8000.2]; norm_num⟩ ⟨even_50.1, by rw [even_50.2]; norm_num⟩ even_50.1
    (by rw [even_8000.2, even_50.2]; norm_num)).1
  rwa [even_8000.2] at this

/-- Three such wins in a rating period. -/
example : Is (Elo.eloRatingPeriod (F := FP ieee) ⟨8000.0⟩ [(⟨50.0⟩, .WIN), (⟨350.0⟩, .WIN), (⟨50.0⟩, .WIN)]
    ⟨50.0⟩).rating 8000 := by
  have := C168_elo_period ieee_toNearest ieee_accurate ⟨8000.0⟩
    [(⟨50.0⟩, .WIN), (⟨350.0⟩, .WIN), (⟨50.0⟩, .WIN)] ⟨50.0⟩
    ⟨even_8000.1, by rw [even_8000.2]; norm_num⟩ even_50.1 (by
      intro r hr
      simp only [List.mem_cons, List.not_mem_nil, or_false] at hr
      rcases hr with rfl | rfl | rfl
      · exact ⟨rfl, ⟨even_50.1, by rw [even_50.2]; norm_num⟩, by rw [even_8000.2, even_50.2]; norm_num⟩
      · exact ⟨rfl, ⟨even_350.1, by rw [even_350.2]; norm_num⟩, by rw [even_8000.2, even_350.2]; norm_num⟩
      · exact ⟨rfl, ⟨even_50.1, by rw [even_50.2]; norm_num⟩, by rw [even_8000.2, even_50.2]; norm_num⟩)
  rwa [even_8000.2] at this

end Skillratings
