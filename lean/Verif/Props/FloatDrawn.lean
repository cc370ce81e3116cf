import Verif.Props.FloatEven
import Verif.Proofs.FPTsGame
import Verif.Proofs.FPZero
import Verif.Props.FloatHistories
/-
C165: tournaments of draws among equals do not drift, in floating point.
-/
namespace Skillratings
open FP FPVal Spec
variable {E : FloatEnv} {ι : Type} [DecidableEq ι]

/-- Elo: any number of draws, with any K factors, leaves all ratings where they were. -/
theorem C165_elo (L : E.Lib) (pool : ι → Elo.EloRating (FP E)) (games : List (Game ι (Elo.EloConfig (FP E))))
    (v : ℝ) (hp : ∀ i, Is (pool i).rating v) (hg : ∀ g ∈ games, g.outcome = .DRAW ∧ g.config.k.isFinite) (i : ι) :
    Is (tournament Elo.elo pool games i).rating v :=
  tournament_games Elo.elo (fun _ a => Is a.rating v) (fun o c => o = .DRAW ∧ c.k.isFinite) games.length
    (fun _ _ h => h) (fun _ a b _ c _ hQ ha hb => by
      obtain ⟨rfl, hk⟩ := hQ
      exact C164_elo L a b c v ha hb hk) pool games 0 (by omega) hg hp i

/-- FIFA: the same, knockout matches and shootouts entered as draws included. -/
theorem C165_fifa (L : E.Lib) (pool : ι → Fifa.FifaRating (FP E)) (games : List (Game ι (Fifa.FifaConfig (FP E))))
    (v : ℝ) (hp : ∀ i, Is (pool i).rating v)
    (hg : ∀ g ∈ games, g.outcome = .DRAW ∧ g.config.importance.isFinite) (i : ι) :
    Is (tournament Fifa.fifa pool games i).rating v :=
  tournament_games Fifa.fifa (fun _ a => Is a.rating v) (fun o c => o = .DRAW ∧ c.importance.isFinite) games.length
    (fun _ _ h => h) (fun _ a b _ c _ hQ ha hb => by
      obtain ⟨rfl, hk⟩ := hQ
      exact C164_fifa L a b c v ha hb hk) pool games 0 (by omega) hg hp i

/-- DWZ: while the counts of tournaments stay below 2^50. -/
theorem C165_dwz (L : E.Lib) (pool : ι → Dwz.DWZRating (FP E)) (games : List (Game ι Unit)) (v : ℝ) (B M : ℕ)
    (hp : ∀ i, Is (pool i).rating v) (hi : ∀ i, 1 ≤ (pool i).index ∧ (pool i).index ≤ M) (hv : |v| ≤ B)
    (hB : B + 134 < 2 ^ 53) (hM : M + games.length < 2 ^ 50) (hg : ∀ g ∈ games, g.outcome = .DRAW) (i : ι) :
    Is (tournament (fun a b o (_ : Unit) => Dwz.dwz a b o) pool games i).rating v := by
  refine (tournament_games (fun a b o (_ : Unit) => Dwz.dwz a b o)
    (fun n a => Is a.rating v ∧ 1 ≤ a.index ∧ a.index ≤ M + n) (fun o _ => o = .DRAW) games.length
    (fun n a h => ⟨h.1, h.2.1, by omega⟩) (fun n a b o c hn hQ ha hb => ?_) pool games 0 (by omega) hg
    (fun i => ⟨hp i, hi i⟩) i).1
  subst hQ
  have w : ∀ {x : FP E}, Is x v → Within (B : ℝ) x := fun h => ⟨h.1, by rw [h.2]; exact hv⟩
  have h := C164_dwz L a b v B (M + n) ha.1 hb.1 ⟨w ha.1, ha.2.1, ha.2.2⟩ ⟨w hb.1, hb.2.1, hb.2.2⟩ hB (by omega)
  have ia : (Dwz.dwz a b .DRAW).1.index = a.index + 1 := rfl
  have ib : (Dwz.dwz a b .DRAW).2.index = b.index + 1 := rfl
  exact ⟨⟨h.1, by omega, by omega⟩, ⟨h.2, by omega, by omega⟩⟩

/-- USCF: players past their provisional games and rated at least 100. -/
theorem C165_uscf (L : E.Lib) (pool : ι → Uscf.USCFRating (FP E)) (games : List (Game ι (Uscf.USCFConfig (FP E))))
    (v : ℝ) (B M : ℕ) (hp : ∀ i, Is (pool i).rating v) (hi : ∀ i, 9 ≤ (pool i).games ∧ (pool i).games ≤ M)
    (hv : 100 ≤ v) (hvB : v ≤ B) (hB : B < 2 ^ 53) (hM : M + games.length < 2 ^ 53)
    (hg : ∀ g ∈ games, g.outcome = .DRAW) (i : ι) :
    Is (tournament Uscf.uscf pool games i).rating v := by
  refine (tournament_games Uscf.uscf
    (fun n a => Is a.rating v ∧ 9 ≤ a.games ∧ a.games ≤ M + n) (fun o _ => o = .DRAW) games.length
    (fun n a h => ⟨h.1, h.2.1, by omega⟩) (fun n a b o c hn hQ ha hb => ?_) pool games 0 (by omega) hg
    (fun i => ⟨hp i, hi i⟩) i).1
  subst hQ
  have h := C164_uscf L a b c v B ha.1 hb.1 hv hvB hB ha.2.1 hb.2.1 (by omega) (by omega)
  have ia : (Uscf.uscf a b .DRAW c).1.games = a.games + 1 := rfl
  have ib : (Uscf.uscf a b .DRAW c).2.games = b.games + 1 := rfl
  exact ⟨⟨h.1, by omega, by omega⟩, ⟨h.2, by omega, by omega⟩⟩

/-- Glicko: the deviations fall and grow as they like, the ratings stay. -/
theorem C165_glicko (L : E.Lib) (pool : ι → Glicko.GlickoRating (FP E))
    (games : List (Game ι (Glicko.GlickoConfig (FP E)))) (v : ℝ) (B : ℕ) (hp : ∀ i, Is (pool i).rating v)
    (hd : ∀ i, ¬ (pool i).deviation.isNaN) (hv : |v| ≤ B) (hB : B + 958 < 2 ^ 53)
    (hg : ∀ g ∈ games, g.outcome = .DRAW ∧ g.config.c.isFinite ∧ 1 ≤ g.config.c.toR) (i : ι) :
    Is (tournament Glicko.glicko pool games i).rating v ∧
      ¬ (tournament Glicko.glicko pool games i).deviation.isNaN := by
  refine tournament_games Glicko.glicko
    (fun _ a => Is a.rating v ∧ ¬ a.deviation.isNaN) (fun o c => o = .DRAW ∧ c.c.isFinite ∧ 1 ≤ c.c.toR)
    games.length (fun n a h => h) (fun n a b o c hn hQ ha hb => ?_) pool games 0 (by omega) hg
    (fun i => ⟨hp i, hd i⟩) i
  obtain ⟨rfl, hc, hc1⟩ := hQ
  have w : ∀ {x : FP E}, Is x v → Within (B : ℝ) x := fun h => ⟨h.1, by rw [h.2]; exact hv⟩
  have h := C164_glicko L a b c v ha.1 hb.1 ha.2 hb.2 hc hc1
  have d1 := (glicko_side L a b c.c _ (w ha.1) (w hb.1) ha.2 hb.2 hc hc1 hB
    (points_in (E := E) .DRAW) (pointsR_nonneg .DRAW) (pointsR_le_one .DRAW)).2
  have d2 := (glicko_side L b a c.c _ (w hb.1) (w ha.1) hb.2 ha.2 hc hc1 hB
    (points_in (E := E) .DRAW) (pointsR_nonneg .DRAW) (pointsR_le_one .DRAW)).2
  exact ⟨⟨h.1, d1.1.1⟩, ⟨h.2, d2.1.1⟩⟩

/-- A Weng-Lin game, with the ratings kept bit for bit. -/
theorem wl_drawn (L : E.Lib) (A : E.Accurate) {r : FP E} (h0 : r.toR ≠ 0) {a b : WengLin.WengLinRating (FP E)}
    {c : WengLin.WengLinConfig (FP E)} {k : ℕ} (hk : 1 ≤ k) (hk' : k ≤ 1000) (hc : WlConfig k c)
    (ha : a.rating = r ∧ WlSane ((500 * k : ℕ) : ℝ) 1000 a) (hb : b.rating = r ∧ WlSane ((500 * k : ℕ) : ℝ) 1000 b) :
    ((WengLin.wengLin a b .DRAW c).1.rating = r ∧ WlSane ((500 * k : ℕ) : ℝ) 1000 (WengLin.wengLin a b .DRAW c).1) ∧
    ((WengLin.wengLin a b .DRAW c).2.rating = r ∧ WlSane ((500 * k : ℕ) : ℝ) 1000 (WengLin.wengLin a b .DRAW c).2) := by
  obtain ⟨x, u⟩ := a
  obtain ⟨y, w⟩ := b
  obtain ⟨rfl, ha⟩ := ha
  obtain ⟨e, hb⟩ := hb
  simp only at e h0
  subst e
  have h := C164_wengLin L A y u w c k hk hk' hc ha hb
  have s := (wl_game L A .DRAW hk hk' le_rfl le_rfl hc ha hb).1
  have e1 := eq_of_toR h.1.1 ha.1.1 h.1.2 h0
  have e2 := eq_of_toR h.2.1 ha.1.1 h.2.2 h0
  exact ⟨⟨e1, by rw [e1]; exact ha.1, s.1.2⟩, ⟨e2, by rw [e2]; exact ha.1, s.2.2⟩⟩

/-- Weng-Lin: any number of draws among players of the same rating, other than zero and within
500 times beta. -/
theorem C165_wengLin (L : E.Lib) (A : E.Accurate) (pool : ι → WengLin.WengLinRating (FP E))
    (games : List (Game ι (WengLin.WengLinConfig (FP E)))) (r : FP E) (h0 : r.toR ≠ 0) (k : ℕ) (hk : 1 ≤ k)
    (hk' : k ≤ 1000) (hp : ∀ i, (pool i).rating = r ∧ WlSane ((500 * k : ℕ) : ℝ) 1000 (pool i))
    (hg : ∀ g ∈ games, g.outcome = .DRAW ∧ WlConfig k g.config) (i : ι) :
    (tournament WengLin.wengLin pool games i).rating = r := by
  refine (tournament_games WengLin.wengLin
    (fun _ a => a.rating = r ∧ WlSane ((500 * k : ℕ) : ℝ) 1000 a) (fun o c => o = .DRAW ∧ WlConfig k c)
    games.length (fun n a h => h) (fun n a b o c hn hQ ha hb => ?_) pool games 0 (by omega) hg hp i).1
  obtain ⟨rfl, hc⟩ := hQ
  exact wl_drawn L A h0 hk hk' hc ha hb

/-- A Weng-Lin rating period of draws against equals, of any length. -/
theorem C165_wengLin_period (L : E.Lib) (A : E.Accurate) (p : WengLin.WengLinRating (FP E))
    (rs : List (WengLin.WengLinRating (FP E) × Outcomes)) (c : WengLin.WengLinConfig (FP E)) (h0 : p.rating.toR ≠ 0)
    (k : ℕ) (hk : 1 ≤ k) (hk' : k ≤ 1000) (hc : WlConfig k c) (hp : WlSane ((500 * k : ℕ) : ℝ) 1000 p)
    (hr : ∀ r ∈ rs, r.2 = .DRAW ∧ r.1.rating = p.rating ∧ WlSane ((500 * k : ℕ) : ℝ) 1000 r.1) :
    (WengLin.wengLinRatingPeriod p rs c).rating = p.rating := by
  rw [WengLin.wengLinRatingPeriod]
  have key : ∀ q : WengLin.WengLinRating (FP E), q.rating = p.rating ∧ WlSane ((500 * k : ℕ) : ℝ) 1000 q →
      (rs.foldl (WengLin.periodStep c) q).rating = p.rating := by
    induction rs with
    | nil => exact fun _ h => h.1
    | cons r rs ih =>
      intro q hq
      obtain ⟨b, o⟩ := r
      obtain ⟨rfl, h⟩ := hr _ List.mem_cons_self
      exact ih (fun r hm => hr r (List.mem_cons_of_mem _ hm)) _ (wl_drawn L A h0 hk hk' hc hq h).1
  exact key p ⟨rfl, hp⟩

/-! ### Examples -/

/-- A Glicko season of draws. -/
example (games : List (Game (Fin 4) (Glicko.GlickoConfig (FP ieee))))
    (hg : ∀ g ∈ games, g.outcome = .DRAW ∧ g.config.c = 50.0) (i : Fin 4) :
    Is (tournament Glicko.glicko (fun _ => (⟨1500.0, 350.0⟩ : Glicko.GlickoRating (FP ieee))) games i).rating 1500 :=
  (C165_glicko ieee_lib _ games 1500 1500 (fun _ => even_1500) (fun _ => isFinite.not_nan even_350.1)
    (by norm_num) (by norm_num) (fun g h => ⟨(hg g h).1, by rw [(hg g h).2]; exact even_50.1, by
      rw [(hg g h).2, even_50.2]; norm_num⟩) i).1

example (games : List (Game (Fin 4) (Elo.EloConfig (FP ieee))))
    (hg : ∀ g ∈ games, g.outcome = .DRAW ∧ g.config.k = 50.0) (i : Fin 4) :
    Is (tournament Elo.elo (fun _ => (⟨1500.0⟩ : Elo.EloRating (FP ieee))) games i).rating 1500 :=
  C165_elo ieee_lib _ games 1500 (fun _ => even_1500) (fun g h => ⟨(hg g h).1, by rw [(hg g h).2]; exact even_50.1⟩) i

example (games : List (Game (Fin 4) (Fifa.FifaConfig (FP ieee))))
    (hg : ∀ g ∈ games, g.outcome = .DRAW ∧ g.config.importance = 50.0) (i : Fin 4) :
    Is (tournament Fifa.fifa (fun _ => (⟨1500.0⟩ : Fifa.FifaRating (FP ieee))) games i).rating 1500 :=
  C165_fifa ieee_lib _ games 1500 (fun _ => even_1500) (fun g h => ⟨(hg g h).1, by rw [(hg g h).2]; exact even_50.1⟩) i

example (games : List (Game (Fin 4) Unit)) (hg : ∀ g ∈ games, g.outcome = .DRAW) (hl : games.length < 10 ^ 6)
    (i : Fin 4) : Is (tournament (fun a b o (_ : Unit) => Dwz.dwz a b o)
      (fun _ => (⟨1500.0, 10, 30⟩ : Dwz.DWZRating (FP ieee))) games i).rating 1500 :=
  C165_dwz ieee_lib _ games 1500 1500 10 (fun _ => even_1500) (by simp) (by norm_num) (by norm_num) (by omega) hg i

example (games : List (Game (Fin 4) (Uscf.USCFConfig (FP ieee)))) (hg : ∀ g ∈ games, g.outcome = .DRAW)
    (hl : games.length < 10 ^ 6) (i : Fin 4) :
    Is (tournament Uscf.uscf (fun _ => (⟨1500.0, 10⟩ : Uscf.USCFRating (FP ieee))) games i).rating 1500 :=
  C165_uscf ieee_lib _ games 1500 1500 10 (fun _ => even_1500) (by simp) (by norm_num) (by norm_num) (by norm_num)
    (by omega) hg i

theorem even_25 : Is (25.0 : FP ieee) 25 := by
  have := Is.lit (E := ieee) (m := 250) (s := true) (e := 1) 25 (by norm_num) (by norm_num)
  simpa using this

example (games : List (Game (Fin 4) (WengLin.WengLinConfig (FP ieee))))
    (hg : ∀ g ∈ games, g.outcome = .DRAW ∧ g.config = ⟨4.0, 0.0⟩) (i : Fin 4) :
    (tournament WengLin.wengLin (fun _ => (⟨25.0, 8.0⟩ : WengLin.WengLinRating (FP ieee))) games i).rating = 25.0 :=
  C165_wengLin ieee_lib ieee_accurate _ games _ (by rw [even_25.2]; norm_num) 4 (by norm_num) (by norm_num)
    (fun _ => ⟨rfl, sample_player (by norm_num) (by norm_num)⟩)
    (fun g h => ⟨(hg g h).1, by rw [(hg g h).2]; exact sample_config⟩) i

example : (WengLin.wengLinRatingPeriod (⟨25.0, 8.0⟩ : WengLin.WengLinRating (FP ieee))
    [(⟨25.0, 8.0⟩, .DRAW), (⟨25.0, 8.0⟩, .DRAW)] ⟨4.0, 0.0⟩).rating = 25.0 :=
  C165_wengLin_period ieee_lib ieee_accurate ⟨25.0, 8.0⟩ _ _ (by rw [even_25.2]; norm_num) 4 (by norm_num)
    (by norm_num) sample_config (sample_player (by norm_num) (by norm_num))
    (by simp [sample_player (B := 2000) (by norm_num) (U := 1000) (by norm_num)])

end Skillratings
