import Verif.Model.Dwz
import Verif.Model.Ingo
import Verif.Model.Uscf
import Verif.Model.Glicko2
/-
C96: bookkeeping of the opponents does not matter.  All theorems hold in any arithmetic.
-/
namespace Skillratings
variable {F : Type} [Flt F]

theorem map_factor {α β γ : Type} (π : α → β) (f : β → γ) {rs rs' : List α}
    (h : rs.map π = rs'.map π) : (rs.map fun r => f (π r)) = rs'.map fun r => f (π r) := by
  have := congrArg (List.map f) h
  simpa [List.map_map, Function.comp_def] using this

theorem isEmpty_of_length {α : Type} {rs rs' : List α} (h : rs.length = rs'.length) :
    rs.isEmpty = rs'.isEmpty := by
  cases rs <;> cases rs' <;> simp_all

/-! ### DWZ: index and age of the opponents -/

theorem C96_dwz_opponent (a b b' : Dwz.DWZRating F) (o : Outcomes) (h : b.rating = b'.rating) :
    (Dwz.dwz a b o).1 = (Dwz.dwz a b' o).1 ∧ (Dwz.dwz b a o).2 = (Dwz.dwz b' a o).2 ∧
      Dwz.expectedScore a b = Dwz.expectedScore a b' := by
  obtain ⟨r, i, g⟩ := b
  obtain ⟨r', i', g'⟩ := b'
  subst h
  exact ⟨rfl, rfl, rfl⟩

theorem C96_dwz_period (p : Dwz.DWZRating F) (rs rs' : List (Dwz.DWZRating F × Outcomes))
    (h : (rs.map fun r => (r.1.rating, r.2)) = rs'.map fun r => (r.1.rating, r.2)) :
    Dwz.dwzRatingPeriod p rs = Dwz.dwzRatingPeriod p rs' := by
  have h1 := map_factor _ (fun q : F × Outcomes => (q.2.toChessPoints : F)) h
  have h2 := map_factor _ (fun q : F × Outcomes => (Dwz.expectedScore p ⟨q.1, 0, 0⟩).1) h
  have h3 := congrArg List.length h
  simp only [List.length_map] at h3
  have e : ∀ rs : List (Dwz.DWZRating F × Outcomes), (rs.map fun r => (Dwz.expectedScore p r.1).1)
      = rs.map fun r => (Dwz.expectedScore p ⟨r.1.rating, 0, 0⟩).1 := fun _ => rfl
  simp only [Dwz.dwzRatingPeriod, e, h3, h2, h1]

theorem C96_dwz_first (age : Nat) (rs rs' : List (Dwz.DWZRating F × Outcomes))
    (h : (rs.map fun r => (r.1.rating, r.2)) = rs'.map fun r => (r.1.rating, r.2)) :
    Dwz.getFirstDwz age rs = Dwz.getFirstDwz age rs' := by
  have h1 := map_factor _ (fun q : F × Outcomes => (q.2.toChessPoints : F)) h
  have h2 := map_factor _ (fun q : F × Outcomes => q.1) h
  have h3 := congrArg List.length h
  simp only [List.length_map] at h3
  simp only [Dwz.getFirstDwz, h3, h2, h1]

/-- A junior with index 1 and a veteran with index 50, both with the same rating. -/
example (a : Dwz.DWZRating F) (x : F) (o : Outcomes) :
    (Dwz.dwz a ⟨x, 1, 12⟩ o).1 = (Dwz.dwz a ⟨x, 50, 70⟩ o).1 :=
  (C96_dwz_opponent a ⟨x, 1, 12⟩ ⟨x, 50, 70⟩ o rfl).1

/-! ### Ingo: age of the opponents -/

theorem C96_ingo_opponent (a b b' : Ingo.IngoRating F) (o : Outcomes) (h : b.rating = b'.rating) :
    (Ingo.ingo a b o).1 = (Ingo.ingo a b' o).1 ∧ (Ingo.ingo b a o).2 = (Ingo.ingo b' a o).2 ∧
      Ingo.expectedScore a b = Ingo.expectedScore a b' := by
  obtain ⟨r, g⟩ := b
  obtain ⟨r', g'⟩ := b'
  subst h
  exact ⟨rfl, rfl, rfl⟩

theorem C96_ingo_period (p : Ingo.IngoRating F) (rs rs' : List (Ingo.IngoRating F × Outcomes))
    (h : (rs.map fun r => (r.1.rating, r.2)) = rs'.map fun r => (r.1.rating, r.2)) :
    Ingo.ingoRatingPeriod p rs = Ingo.ingoRatingPeriod p rs' := by
  have h1 := map_factor _ (fun q : F × Outcomes => (q.2.toChessPoints : F)) h
  have h2 := map_factor _ (fun q : F × Outcomes => q.1) h
  have h3 := congrArg List.length h
  simp only [List.length_map] at h3
  simp only [Ingo.ingoRatingPeriod, h3, h2, h1]

/-! ### USCF: games of the opponents -/

theorem C96_uscf_opponent (a b b' : Uscf.USCFRating F) (o : Outcomes) (c : Uscf.USCFConfig F)
    (h : b.rating = b'.rating) :
    (Uscf.uscf a b o c).1 = (Uscf.uscf a b' o c).1 ∧
      (Uscf.uscf b a o c).2 = (Uscf.uscf b' a o c).2 ∧
      Uscf.expectedScore a b = Uscf.expectedScore a b' := by
  obtain ⟨r, g⟩ := b
  obtain ⟨r', g'⟩ := b'
  subst h
  exact ⟨rfl, rfl, rfl⟩

theorem C96_uscf_period (p : Uscf.USCFRating F) (rs rs' : List (Uscf.USCFRating F × Outcomes))
    (c : Uscf.USCFConfig F)
    (h : (rs.map fun r => (r.1.rating, r.2)) = rs'.map fun r => (r.1.rating, r.2)) :
    Uscf.uscfRatingPeriod p rs c = Uscf.uscfRatingPeriod p rs' c := by
  have h1 := map_factor _ (fun q : F × Outcomes => (q.2.toChessPoints : F)) h
  have h2 := map_factor _ (fun q : F × Outcomes => q.1) h
  have h3 := congrArg List.length h
  have h4 := map_factor _ (fun q : F × Outcomes => Uscf.fromBool (q.2 = .WIN)) h
  have h5 := map_factor _ (fun q : F × Outcomes => Uscf.fromBool (q.2 = .LOSS)) h
  have h6 := map_factor _ (fun q : F × Outcomes => Uscf.eValue p.rating q.1) h
  simp only [List.length_map] at h3
  have h7 := isEmpty_of_length h3
  simp only [Uscf.uscfRatingPeriod, h7, h3, h2, h1, h4, h5, h6]

/-! ### Glicko-2: volatility of the opponents -/

/-- In a single game the volatility of the opponent only decides whether *their* update returns. -/
theorem C96_glicko2_opponent (a b b' : Glicko2.Glicko2Rating F) (o : Outcomes)
    (c : Glicko2.Glicko2Config F) (r r' : Glicko2.Glicko2Rating F × Glicko2.Glicko2Rating F)
    (hr : b.rating = b'.rating) (hd : b.deviation = b'.deviation)
    (h : Glicko2.glicko2 a b o c = some r) (h' : Glicko2.glicko2 a b' o c = some r') :
    r.1 = r'.1 := by
  obtain ⟨x, d, v⟩ := b
  obtain ⟨x', d', v'⟩ := b'
  subst hr hd
  simp only [Glicko2.glicko2, Option.bind_eq_bind, Option.bind_eq_some_iff, Option.pure_def,
    Option.some.injEq] at h h'
  obtain ⟨s, hs, t, -, rfl⟩ := h
  obtain ⟨s', hs', t', -, rfl⟩ := h'
  rw [hs] at hs'
  cases hs'
  rfl

theorem C96_glicko2_period (p : Glicko2.Glicko2Rating F)
    (rs rs' : List (Glicko2.Glicko2Rating F × Outcomes)) (c : Glicko2.Glicko2Config F)
    (h : (rs.map fun r => (r.1.rating, r.1.deviation, r.2))
      = rs'.map fun r => (r.1.rating, r.1.deviation, r.2)) :
    Glicko2.glicko2RatingPeriod p rs c = Glicko2.glicko2RatingPeriod p rs' c := by
  have h1 := map_factor _ (fun q : F × F × Outcomes =>
    Flt.powi (Glicko2.gValue (q.2.1 / 173.7178)) 2
      * Glicko2.eValue ((p.rating - 1500.0) / 173.7178) ((q.1 - 1500.0) / 173.7178)
        (Glicko2.gValue (q.2.1 / 173.7178))
      * (1.0 - Glicko2.eValue ((p.rating - 1500.0) / 173.7178) ((q.1 - 1500.0) / 173.7178)
        (Glicko2.gValue (q.2.1 / 173.7178)))) h
  have h2 := map_factor _ (fun q : F × F × Outcomes => Glicko2.gValue (q.2.1 / 173.7178)
      * (q.2.2.toChessPoints - Glicko2.eValue ((p.rating - 1500.0) / 173.7178)
        ((q.1 - 1500.0) / 173.7178) (Glicko2.gValue (q.2.1 / 173.7178)))) h
  have h3 := congrArg List.length h
  simp only [List.length_map] at h3
  simp only [Glicko2.glicko2RatingPeriod, isEmpty_of_length h3, h1, h2]

/-- Two games, with any volatilities of the opponents. -/
example (p : Glicko2.Glicko2Rating F) (c : Glicko2.Glicko2Config F) (x y d e v w v' w' : F) :
    Glicko2.glicko2RatingPeriod p [(⟨x, d, v⟩, .WIN), (⟨y, e, w⟩, .LOSS)] c
      = Glicko2.glicko2RatingPeriod p [(⟨x, d, v'⟩, .WIN), (⟨y, e, w'⟩, .LOSS)] c :=
  C96_glicko2_period p _ _ c rfl

end Skillratings
