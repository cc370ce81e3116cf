import Verif.Model.WengLin
import Verif.Proofs.Logistic
import Verif.Spec.WengLin
import Verif.Proofs.Lists
/-
Helper lemmas for the Weng-Lin properties.
-/
namespace Skillratings.WengLin
open Real Spec

/-! ### The specification functions -/

theorem wlC_comm (β s t : ℝ) : wlC β s t = wlC β t s := by
  rw [wlC, wlC, add_comm s t]

theorem wlC_pos {β s t : ℝ} (hs : 0 ≤ s) (ht : 0 ≤ t) (h : 0 < s ∨ 0 < t ∨ β ≠ 0) :
    0 < wlC β s t := by
  apply Real.sqrt_pos.2
  have hb : 0 ≤ 2 * β ^ 2 := by positivity
  rcases h with h | h | h
  · linarith
  · linarith
  · have : 0 < 2 * β ^ 2 := by positivity
    linarith

theorem wlP_eq (c μ ν : ℝ) : wlP c μ ν = sigmoid ((μ - ν) / c) := by
  have h1 := Real.exp_pos (μ / c)
  have h2 := Real.exp_pos (ν / c)
  have e : -((μ - ν) / c) = ν / c - μ / c := by ring
  rw [wlP, sigmoid_def, e, Real.exp_sub]
  field_simp

theorem wlP_symm (c μ ν : ℝ) : wlP c ν μ = 1 - wlP c μ ν := by
  rw [wlP_eq, wlP_eq, ← sigmoid_neg]
  congr 1; ring

theorem wlP_pos (c μ ν : ℝ) : 0 < wlP c μ ν := by rw [wlP_eq]; exact sigmoid_pos _
theorem wlP_lt_one (c μ ν : ℝ) : wlP c μ ν < 1 := by rw [wlP_eq]; exact sigmoid_lt_one _

theorem wlEta_nonneg (β : ℝ) (i q : WlSide) : 0 ≤ wlEta β i q := by
  have h1 := wlP_pos (wlC β i.v q.v) i.μ q.μ
  have h2 := wlP_pos (wlC β i.v q.v) q.μ i.μ
  have h3 : 0 ≤ wlC β i.v q.v := Real.sqrt_nonneg _
  unfold wlEta
  positivity

theorem wlUncertainty_le {s v Δ κ : ℝ} (hs : 0 ≤ s) (hv : 0 ≤ v) (hΔ : 0 ≤ Δ) (hκ : κ ≤ 1) :
    wlUncertainty s v Δ κ ≤ √s := by
  unfold wlUncertainty
  apply Real.sqrt_le_sqrt
  have h1 : 0 ≤ s / v * Δ := by positivity
  have : max (1 - s / v * Δ) κ ≤ 1 := max_le (by linarith) hκ
  nlinarith

theorem wlUncertainty_ge {s : ℝ} (v Δ κ : ℝ) (hs : 0 ≤ s) :
    √κ * √s ≤ wlUncertainty s v Δ κ := by
  unfold wlUncertainty
  rw [mul_comm, ← Real.sqrt_mul hs]
  apply Real.sqrt_le_sqrt
  exact mul_le_mul_of_nonneg_left (le_max_right _ _) hs

/-- A team as a side. -/
noncomputable def side (team : List (WengLinRating ℝ)) : WlSide :=
  ⟨(team.map fun p => p.rating).sum, (team.map fun p => p.uncertainty ^ 2).sum⟩

theorem side_v_nonneg (team : List (WengLinRating ℝ)) : 0 ≤ (side team).v := by
  apply List.sum_nonneg
  intro x hx
  obtain ⟨p, -, rfl⟩ := List.mem_map.1 hx
  positivity

theorem side_v_pos {team : List (WengLinRating ℝ)} {p : WengLinRating ℝ} (hp : p ∈ team)
    (h : p.uncertainty ≠ 0) : 0 < (side team).v := by
  have h1 : p.uncertainty ^ 2 ≤ (side team).v := by
    apply List.single_le_sum
    · intro x hx
      obtain ⟨q, -, rfl⟩ := List.mem_map.1 hx
      positivity
    · exact List.mem_map.2 ⟨p, hp, rfl⟩
  have : 0 < p.uncertainty ^ 2 := by positivity
  linarith

/-- The published update of the players of a team. -/
noncomputable def update (team : List (WengLinRating ℝ)) (κ Ω Δ : ℝ) : List (WengLinRating ℝ) :=
  team.map fun p => ⟨wlRating p.rating (p.uncertainty ^ 2) (side team).v Ω,
    wlUncertainty (p.uncertainty ^ 2) (side team).v Δ κ⟩

/-! ### The model over the reals -/

theorem pValue_real (μ ν c : ℝ) : pValue μ ν c = (wlP c μ ν, 1 - wlP c μ ν) := by
  simp only [pValue, flt, wlP]

theorem c_real (β s t : ℝ) : Flt.sqrt (Flt.mulAdd 2.0 (Flt.powi β 2) (s + t)) = wlC β s t := by
  simp only [flt, wlC]; congr 1; ring

theorem c_real' (β s t : ℝ) :
    Flt.sqrt (Flt.mulAdd 2.0 (Flt.powi β 2) (Flt.mulAdd s s (Flt.powi t 2)))
      = wlC β (s ^ 2) (t ^ 2) := by
  simp only [flt, wlC]; congr 1; ring

theorem newRating_real (r s c p x : ℝ) : newRating r s c p x = r + s ^ 2 / c * (x - p) := by
  simp only [newRating, flt]; ring

theorem newUncertainty_real (s c p κ : ℝ) :
    newUncertainty s c p κ = √(s ^ 2 * max (1 - (s / c) ^ 3 * p * (1 - p)) κ) := by
  simp only [newUncertainty, flt]

theorem eta_real {v : ℝ} (c p : ℝ) (hv : 0 ≤ v) :
    eta v c p (gamma v c) = (√v / c) ^ 3 * p * (1 - p) := by
  simp only [eta, gamma, flt]
  conv_lhs => rw [show √v / c * v = √v / c * √v ^ 2 by rw [Real.sq_sqrt hv]]
  congr 2
  ring

theorem updateTeam_real (team : List (WengLinRating ℝ)) (κ Ω Δ : ℝ) :
    updateTeam team (side team).v κ Ω Δ = update team κ Ω Δ := by
  simp only [updateTeam, newRatingTeams, newUncertaintyTeams, flt, update, wlRating, wlUncertainty]
  refine List.map_congr_left fun p _ => ?_
  congr 1
  · ring
  · congr 3; ring

theorem teamRating_real (team : List (WengLinRating ℝ)) : teamRating team = (side team).μ := by
  simp only [teamRating, flt, side]

theorem teamUncertaintySq_real (team : List (WengLinRating ℝ)) :
    teamUncertaintySq team = (side team).v := by
  simp only [teamUncertaintySq, flt, side]

theorem smallDelta_real (β : ℝ) (i q : WlSide) (s : ℝ) :
    smallDelta i.v (wlC β i.v q.v) (wlP (wlC β i.v q.v) i.μ q.μ) s = wlDelta β i q s := rfl

theorem eta_real' (β : ℝ) (i q : WlSide) (h : 0 ≤ i.v) :
    eta i.v (wlC β i.v q.v) (wlP (wlC β i.v q.v) i.μ q.μ) (gamma i.v (wlC β i.v q.v))
      = wlEta β i q := by
  rw [eta_real _ _ h, wlEta, wlP_symm _ i.μ q.μ]

theorem wengLin_real (a b : WengLinRating ℝ) (o : Outcomes) (cfg : WengLinConfig ℝ) :
    let c := wlC cfg.beta (a.uncertainty ^ 2) (b.uncertainty ^ 2)
    let p := wlP c a.rating b.rating
    wengLin a b o cfg =
      (⟨a.rating + a.uncertainty ^ 2 / c * (points o - p),
        √(a.uncertainty ^ 2 * max (1 - (a.uncertainty / c) ^ 3 * p * (1 - p))
          cfg.uncertaintyTolerance)⟩,
       ⟨b.rating + b.uncertainty ^ 2 / c * ((1 - points o) - (1 - p)),
        √(b.uncertainty ^ 2 * max (1 - (b.uncertainty / c) ^ 3 * (1 - p) * (1 - (1 - p)))
          cfg.uncertaintyTolerance)⟩) := by
  simp only [wengLin, c_real', pValue_real, newRating_real, newUncertainty_real, toChessPoints_real,
    Flt.lit_1]

theorem twoTeams_real (s t : List (WengLinRating ℝ)) (o : Outcomes) (cfg : WengLinConfig ℝ)
    (hs : s ≠ []) (ht : t ≠ []) :
    wengLinTwoTeams s t o cfg =
      (update s cfg.uncertaintyTolerance (wlDelta cfg.beta (side s) (side t) (points o))
        (wlEta cfg.beta (side s) (side t)),
       update t cfg.uncertaintyTolerance (wlDelta cfg.beta (side t) (side s) (1 - points o))
        (wlEta cfg.beta (side t) (side s))) := by
  have hs' : s.isEmpty = false := by simpa [List.isEmpty_iff] using hs
  have ht' : t.isEmpty = false := by simpa [List.isEmpty_iff] using ht
  simp only [wengLinTwoTeams, hs', ht', Bool.or_self, Bool.false_eq_true, if_false,
    teamRating_real, teamUncertaintySq_real, c_real, pValue_real, toChessPoints_real, Flt.lit_1,
    updateTeam_real]
  have e : 1 - wlP (wlC cfg.beta (side s).v (side t).v) (side s).μ (side t).μ
      = wlP (wlC cfg.beta (side t).v (side s).v) (side t).μ (side s).μ := by
    rw [wlC_comm _ (side t).v, wlP_symm _ (side s).μ]
  rw [e, eta_real' _ _ _ (side_v_nonneg s), wlC_comm _ (side s).v (side t).v,
    eta_real' _ _ _ (side_v_nonneg t), smallDelta_real, wlC_comm _ (side t).v (side s).v,
    smallDelta_real]

theorem rankScore_real (a b : MultiTeamOutcome) : (rankScore a b : ℝ) = rankPoints a b := by
  unfold rankScore rankPoints MultiTeamOutcome.cmp
  rcases lt_trichotomy a.val b.val with h | h | h
  · rw [Nat.compare_eq_gt.2 h, if_pos h]; exact Flt.lit_1
  · rw [Nat.compare_eq_eq.2 h.symm, if_neg (by omega), if_pos h]; exact Flt.lit_half
  · rw [Nat.compare_eq_lt.2 h, if_neg (by omega), if_neg (by omega)]; exact Flt.lit_0

theorem rankPoints_swap (a b : MultiTeamOutcome) : rankPoints b a = 1 - rankPoints a b := by
  unfold rankPoints
  rcases lt_trichotomy a.val b.val with h | h | h
  · rw [if_neg (by omega), if_neg (by omega), if_pos h]; ring
  · rw [if_neg (by omega), if_pos h.symm, if_neg (by omega), if_pos h]; ring
  · rw [if_pos h, if_neg (by omega), if_neg (by omega)]; ring

theorem foldl_pair {α : Type} (l : List α) (p : α → Prop) [DecidablePred p] (f g : α → ℝ)
    (a b : ℝ) :
    l.foldl (fun acc x => if p x then acc else (acc.1 + f x, acc.2 + g x)) (a, b)
      = (a + (l.map fun x => if p x then 0 else f x).sum,
         b + (l.map fun x => if p x then 0 else g x).sum) := by
  induction l generalizing a b with
  | nil => simp
  | cons x l ih =>
    rw [List.foldl_cons]
    by_cases h : p x
    · rw [if_pos h, ih]; simp [h]
    · rw [if_neg h, ih]; simp [h, add_assoc]

/-- A match of `n` teams. -/
abbrev Match (n : ℕ) := Fin n → List (WengLinRating ℝ) × MultiTeamOutcome

/-- `Ωᵢ`. -/
noncomputable def Omega {n : ℕ} (β : ℝ) (t : Match n) (i : Fin n) : ℝ :=
  ∑ q ∈ Finset.univ.erase i, wlDelta β (side (t i).1) (side (t q).1) (rankPoints (t i).2 (t q).2)

/-- `Δᵢ`. -/
noncomputable def Delta {n : ℕ} (β : ℝ) (t : Match n) (i : Fin n) : ℝ :=
  ∑ q ∈ Finset.univ.erase i, wlEta β (side (t i).1) (side (t q).1)

theorem omegaDelta_real {n : ℕ} (t : Match n) (i : Fin n) (cfg : WengLinConfig ℝ) :
    omegaDelta (List.ofFn fun i => teamInfo (t i)) (teamInfo (t i)) i cfg
      = (Omega cfg.beta t i, Delta cfg.beta t i) := by
  rw [omegaDelta, zipIdx_ofFn]
  simp only [teamInfo, teamRating_real, teamUncertaintySq_real, c_real, pValue_real, rankScore_real,
    Flt.lit_0]
  rw [foldl_pair (p := fun tq : TeamInfo ℝ × ℕ => (i : ℕ) = tq.2), zero_add, zero_add,
    List.map_ofFn, List.map_ofFn, List.sum_ofFn, List.sum_ofFn, Omega, Delta, sum_erase_eq,
    sum_erase_eq]
  simp only [Function.comp_def, eta_real' _ _ _ (side_v_nonneg _), smallDelta_real, Fin.val_inj]

theorem multi_real {n : ℕ} (t : Match n) (cfg : WengLinConfig ℝ) (h : ∀ i, (t i).1 ≠ []) :
    wengLinMultiTeam (List.ofFn t) cfg = List.ofFn fun i =>
      update (t i).1 cfg.uncertaintyTolerance (Omega cfg.beta t i) (Delta cfg.beta t i) := by
  rw [wengLinMultiTeam]
  split_ifs with h1 h2
  · rw [List.isEmpty_iff, List.ofFn_eq_nil_iff] at h1
    subst h1
    simp
  · exfalso
    obtain ⟨x, hx, hx'⟩ := List.any_eq_true.1 h2
    obtain ⟨i, rfl⟩ := List.mem_ofFn.1 hx
    exact h i (List.isEmpty_iff.1 hx')
  · simp only [List.map_ofFn, zipIdx_ofFn, Function.comp_def, omegaDelta_real]
    congr 1
    funext i
    rw [← updateTeam_real]
    simp only [teamInfo, teamUncertaintySq_real]

end Skillratings.WengLin
