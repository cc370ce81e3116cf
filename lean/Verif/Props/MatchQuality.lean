import Verif.Props.TrueSkillMatrix
import Verif.Proofs.QualityClosed
/-
Property C105: `match_quality_multi_team` without matrices, and what follows for a matchmaker: the
order of the teams and of the players does not matter, neither does the unit of the scale, evenly
matched teams are the best match, and more uncertainty makes a match worse.

A match is given as a list of teams of (player, weight); `players L` and `weights L` are the two
arguments of the function.
-/
namespace Skillratings
namespace TrueSkill
open Spec

/-- The teams of a match, as passed to the function. -/
def players (L : List WTeam) : List (List (TrueSkillRating ℝ)) := L.map fun t => t.map (·.1)

/-- The weights of a match, as passed to the function. -/
def weights (L : List WTeam) : List (List ℝ) := L.map fun t => t.map (·.2)

namespace Q

theorem zip_self (t : WTeam) : (t.map (·.1)).zip (t.map (·.2)) = t := by
  induction t with
  | nil => rfl
  | cons p t ih => simp [ih]

theorem zips (L : List WTeam) :
    ((players L).zip (weights L)).map (fun x => x.1.zip x.2) = L := by
  induction L with
  | nil => rfl
  | cons t L ih =>
    simp only [players, weights, List.map_cons, List.zip_cons_cons] at ih ⊢
    rw [ih, zip_self]

theorem noise_pos {β : ℝ} (hβ : β ≠ 0) {t : WTeam} (h : ∃ p ∈ t, p.2 ≠ 0) : 0 < wtNoise β t := by
  obtain ⟨p, hp, h0⟩ := h
  have h1 : 0 < β ^ 2 * p.2 ^ 2 := by positivity
  refine lt_of_lt_of_le h1 (List.single_le_sum ?_ _ (List.mem_map.2 ⟨p, hp, rfl⟩))
  intro x hx
  obtain ⟨q, -, rfl⟩ := List.mem_map.1 hx
  positivity

theorem noise_le_total (β : ℝ) (t : WTeam) : wtNoise β t ≤ wtTotal β t := by
  refine List.sum_le_sum fun p _ => ?_
  nlinarith [mul_nonneg (sq_nonneg p.2) (sq_nonneg p.1.uncertainty)]

theorem valid {L : List WTeam} (h : Playable L) : ValidWeights (players L) (weights L) := by
  rw [ValidWeights, players, weights, List.forall₂_map_left_iff, List.forall₂_map_right_iff,
    List.forall₂_same]
  intro t ht
  refine ⟨by simp, fun x hx => ?_⟩
  obtain ⟨p, hp, rfl⟩ := List.mem_map.1 hx
  exact h.nonneg t ht p hp

theorem nonempty {L : List WTeam} (h : Playable L) : ∀ t ∈ players L, t ≠ [] := by
  intro t ht
  obtain ⟨u, hu, rfl⟩ := List.mem_map.1 ht
  obtain ⟨p, hp, -⟩ := h.counts u hu
  intro h0
  rw [List.map_eq_nil_iff] at h0
  rw [h0] at hp
  exact absurd hp List.not_mem_nil

theorem leaveOut_cons {a : ℝ} (ha : a ≠ 0) (c : List ℝ) :
    leaveOut (a :: c) = c.prod + a * leaveOut c := by
  simp only [leaveOut, List.prod_cons, List.map_cons, List.sum_cons]
  field_simp

theorem leaveOut_mono {c d : List ℝ} (h : List.Forall₂ (fun x y => 0 < x ∧ x ≤ y) c d) :
    0 < c.prod ∧ c.prod ≤ d.prod ∧ 0 ≤ leaveOut c ∧ leaveOut c ≤ leaveOut d := by
  induction h with
  | nil => simp [leaveOut]
  | cons hxy _ ih =>
    obtain ⟨h1, h2⟩ := hxy
    obtain ⟨i1, i2, i3, i4⟩ := ih
    have h3 := h1.trans_le h2
    rw [leaveOut_cons h1.ne', leaveOut_cons h3.ne', List.prod_cons, List.prod_cons]
    refine ⟨by positivity, by gcongr, by positivity, by gcongr⟩

theorem leaveOut_pos {c : List ℝ} (hc : c ≠ []) (h : ∀ x ∈ c, 0 < x) : 0 < leaveOut c := by
  cases c with
  | nil => exact absurd rfl hc
  | cons a c =>
    have ha := h a (by simp)
    have hF : List.Forall₂ (fun x y : ℝ => 0 < x ∧ x ≤ y) c c :=
      List.forall₂_same.2 fun x hx => ⟨h x (by simp [hx]), le_rfl⟩
    obtain ⟨i1, -, i3, -⟩ := leaveOut_mono hF
    rw [leaveOut_cons ha.ne']
    positivity

theorem closed_eq (β : ℝ) (L : List WTeam) : qualityClosed β L =
    Real.exp (-(1 / 2) * (L.map fun x => (wtMean x - wtAverage β L) ^ 2 / wtTotal β x).sum) *
      √(leaveOut (L.map (wtNoise β)) / leaveOut (L.map (wtTotal β))) := by
  simp only [qualityClosed, leaveOut, List.map_map, Function.comp_def]

end Q
open Q

/-- The closed form: `exp(-½ Σ (m - m̄)²/c) · √(∏b Σ1/b / (∏c Σ1/c))`, with the mean `m`, the
variance `c` and the variance `b` for known skills of the performance of every team, and `m̄` the
mean of the `m` weighted with `1/c`. -/
theorem C105_trueskill_quality_closed (L : List WTeam) (cfg : TrueSkillConfig ℝ)
    (hL : Playable L) (hb : cfg.beta ≠ 0) :
    matchQualityMultiTeam (players L) cfg (some (weights L))
      = .ok (.ok (qualityClosed cfg.beta L)) := by
  have h3 : 3 ≤ (players L).length := by rw [players, List.length_map]; exact hL.three
  obtain ⟨k, hk⟩ : ∃ k, (players L).length = k + 1 := ⟨(players L).length - 1, by omega⟩
  obtain ⟨hdet, hq⟩ := quality_closed (ws := weights L) cfg.beta hk
    (by simp [players, weights]) (by
      intro x hx
      have hx' : x.1.zip x.2 ∈ L := by
        rw [← zips L]; exact List.mem_map.2 ⟨x, hx, rfl⟩
      exact noise_pos hb (hL.counts _ hx'))
  have hk' : (players L).length - 1 = k := by omega
  have := (C74_formula (players L) cfg (weights L) h3 (nonempty hL) (valid hL)).1
  rw [hk'] at this
  rw [this hdet, hq, zips]

/-- Without weights every player counts once. -/
theorem C105_trueskill_quality_closed_no_weights (teams : List (List (TrueSkillRating ℝ)))
    (cfg : TrueSkillConfig ℝ) (h3 : 3 ≤ teams.length) (h0 : ∀ t ∈ teams, t ≠ [])
    (hb : cfg.beta ≠ 0) :
    matchQualityMultiTeam teams cfg none
      = .ok (.ok (qualityClosed cfg.beta (teams.map fun t => t.map fun p => (p, 1)))) := by
  have hL : Playable (teams.map fun t => t.map fun p => (p, (1 : ℝ))) := by
    refine ⟨by simpa using h3, ?_, ?_⟩
    · intro t ht p hp
      obtain ⟨u, -, rfl⟩ := List.mem_map.1 ht
      obtain ⟨q, -, rfl⟩ := List.mem_map.1 hp
      exact zero_le_one
    · intro t ht
      obtain ⟨u, hu, rfl⟩ := List.mem_map.1 ht
      obtain ⟨q, hq⟩ := List.exists_mem_of_ne_nil u (h0 u hu)
      exact ⟨(q, 1), List.mem_map.2 ⟨q, hq, rfl⟩, one_ne_zero⟩
  have e1 : players (teams.map fun t => t.map fun p => (p, (1 : ℝ))) = teams := by
    simp [players, List.map_map, Function.comp_def]
  have e2 : weights (teams.map fun t => t.map fun p => (p, (1 : ℝ)))
      = teams.map fun t => List.replicate t.length 1 := by
    simp [weights, List.map_map, Function.comp_def, List.map_const']
  have h1 := C105_trueskill_quality_closed _ cfg hL hb
  rw [e1, e2] at h1
  have hw := valid hL
  rw [e1, e2] at hw
  rw [← h1]
  have key : getWeights teams none =
      getWeights teams (some (teams.map fun t => List.replicate t.length (1 : ℝ))) := by
    rw [getWeights_valid hw, getWeights]
    simp only [flt]
  rw [matchQualityMultiTeam, matchQualityMultiTeam, Matrix.createRotatedAMatrix,
      Matrix.createRotatedAMatrix, key]

/-- The order of the teams does not matter. -/
theorem C105_trueskill_quality_team_order (L L' : List WTeam) (cfg : TrueSkillConfig ℝ)
    (hL : Playable L) (hb : cfg.beta ≠ 0) (hp : L.Perm L') :
    matchQualityMultiTeam (players L') cfg (some (weights L'))
      = matchQualityMultiTeam (players L) cfg (some (weights L)) := by
  have hL' : Playable L' := ⟨hp.length_eq ▸ hL.three, fun t ht => hL.nonneg t (hp.mem_iff.2 ht),
    fun t ht => hL.counts t (hp.mem_iff.2 ht)⟩
  rw [C105_trueskill_quality_closed L cfg hL hb, C105_trueskill_quality_closed L' cfg hL' hb]
  have hs : ∀ f : WTeam → ℝ, (L'.map f).sum = (L.map f).sum := fun f => (hp.map f).sum_eq.symm
  have hq : ∀ f : WTeam → ℝ, (L'.map f).prod = (L.map f).prod := fun f => (hp.map f).prod_eq.symm
  simp only [qualityClosed, wtAverage, hs, hq]

/-- The order of the players of a team does not matter, as long as everybody keeps the own
weight. -/
theorem C105_trueskill_quality_player_order (L L' : List WTeam) (cfg : TrueSkillConfig ℝ)
    (hL : Playable L) (hb : cfg.beta ≠ 0) (hp : List.Forall₂ List.Perm L L') :
    matchQualityMultiTeam (players L') cfg (some (weights L'))
      = matchQualityMultiTeam (players L) cfg (some (weights L)) := by
  have hback : ∀ t' ∈ L', ∃ t ∈ L, t.Perm t' := by
    clear hL
    induction hp with
    | nil => simp
    | cons h _ ih =>
      intro t' ht'
      rcases List.mem_cons.1 ht' with rfl | ht'
      · exact ⟨_, List.mem_cons_self, h⟩
      · obtain ⟨t, ht, h'⟩ := ih t' ht'
        exact ⟨t, List.mem_cons_of_mem _ ht, h'⟩
  have hL' : Playable L' := by
    refine ⟨hp.length_eq ▸ hL.three, fun t' ht' p hp' => ?_, fun t' ht' => ?_⟩
    · obtain ⟨t, ht, h⟩ := hback t' ht'
      exact hL.nonneg t ht p (h.mem_iff.2 hp')
    · obtain ⟨t, ht, h⟩ := hback t' ht'
      obtain ⟨p, hp1, hp2⟩ := hL.counts t ht
      exact ⟨p, h.mem_iff.1 hp1, hp2⟩
  rw [C105_trueskill_quality_closed L cfg hL hb, C105_trueskill_quality_closed L' cfg hL' hb]
  have hmap : ∀ f : WTeam → ℝ, (∀ t t', List.Perm t t' → f t = f t') → L'.map f = L.map f := by
    intro f hf
    clear hL hL' hback
    induction hp with
    | nil => rfl
    | cons h _ ih => rw [List.map_cons, List.map_cons, ih, hf _ _ h]
  have e1 : ∀ t t' : WTeam, t.Perm t' → wtNoise cfg.beta t = wtNoise cfg.beta t' :=
    fun t t' h => (h.map _).sum_eq
  have e2 : ∀ t t' : WTeam, t.Perm t' → wtTotal cfg.beta t = wtTotal cfg.beta t' :=
    fun t t' h => (h.map _).sum_eq
  have e3 : ∀ t t' : WTeam, t.Perm t' → wtMean t = wtMean t' := fun t t' h => (h.map _).sum_eq
  have ha : wtAverage cfg.beta L' = wtAverage cfg.beta L := by
    simp only [wtAverage]
    rw [hmap (fun x => wtMean x / wtTotal cfg.beta x) fun t t' h => by rw [e3 t t' h, e2 t t' h],
      hmap (fun x => 1 / wtTotal cfg.beta x) fun t t' h => by rw [e2 t t' h]]
  rw [qualityClosed, qualityClosed, ha, hmap (wtNoise cfg.beta) e1, hmap (wtTotal cfg.beta) e2,
    hmap (fun x => 1 / wtNoise cfg.beta x) fun t t' h => by rw [e1 t t' h],
    hmap (fun x => 1 / wtTotal cfg.beta x) fun t t' h => by rw [e2 t t' h],
    hmap (fun x => (wtMean x - wtAverage cfg.beta L) ^ 2 / wtTotal cfg.beta x)
      fun t t' h => by rw [e3 t t' h, e2 t t' h]]

/-- All ratings shifted by the same amount: nothing changes, if the weights of every team have the
same sum. -/
theorem C105_trueskill_quality_shift (L : List WTeam) (cfg : TrueSkillConfig ℝ)
    (hL : Playable L) (hb : cfg.beta ≠ 0) (d W : ℝ) (hW : ∀ t ∈ L, (t.map (·.2)).sum = W) :
    matchQualityMultiTeam
        (players (L.map fun t => t.map fun p => (⟨p.1.rating + d, p.1.uncertainty⟩, p.2))) cfg
        (some (weights L))
      = matchQualityMultiTeam (players L) cfg (some (weights L)) := by
  set M : List WTeam := L.map fun t => t.map fun p => (⟨p.1.rating + d, p.1.uncertainty⟩, p.2)
    with hM
  have hw : weights L = weights M := by
    simp [weights, hM, List.map_map, Function.comp_def]
  have hM' : Playable M := by
    refine ⟨by simpa [hM] using hL.three, ?_, ?_⟩
    · intro t ht p hp
      obtain ⟨u, hu, rfl⟩ := List.mem_map.1 ht
      obtain ⟨q, hq, rfl⟩ := List.mem_map.1 hp
      exact hL.nonneg u hu q hq
    · intro t ht
      obtain ⟨u, hu, rfl⟩ := List.mem_map.1 ht
      obtain ⟨q, hq, h0⟩ := hL.counts u hu
      exact ⟨_, List.mem_map.2 ⟨q, hq, rfl⟩, h0⟩
  rw [C105_trueskill_quality_closed L cfg hL hb, hw, C105_trueskill_quality_closed M cfg hM' hb]
  have e1 : ∀ t : WTeam, wtNoise cfg.beta
      (t.map fun p => (⟨p.1.rating + d, p.1.uncertainty⟩, p.2)) = wtNoise cfg.beta t := by
    intro t; simp only [wtNoise, List.map_map, Function.comp_def]
  have e2 : ∀ t : WTeam, wtTotal cfg.beta
      (t.map fun p => (⟨p.1.rating + d, p.1.uncertainty⟩, p.2)) = wtTotal cfg.beta t := by
    intro t; simp only [wtTotal, List.map_map, Function.comp_def]
  have e3 : ∀ t : WTeam, wtMean (t.map fun p => (⟨p.1.rating + d, p.1.uncertainty⟩, p.2))
      = wtMean t + (t.map (·.2)).sum * d := by
    intro t
    simp only [wtMean, List.map_map, Function.comp_def]
    induction t with
    | nil => simp
    | cons p t ih => simp only [List.map_cons, List.sum_cons, ih]; ring
  have hc : ∀ t ∈ L, 0 < wtTotal cfg.beta t := fun t ht =>
    (noise_pos hb (hL.counts t ht)).trans_le (noise_le_total _ _)
  have hS : 0 < (L.map fun t => 1 / wtTotal cfg.beta t).sum := by
    refine List.sum_pos _ ?_ ?_
    · intro x hx
      obtain ⟨t, ht, rfl⟩ := List.mem_map.1 hx
      exact one_div_pos.2 (hc t ht)
    · intro h
      have := hL.three
      rw [List.map_eq_nil_iff.1 h] at this
      simp at this
  have hsum : ∀ L' : List WTeam, (∀ t ∈ L', (t.map (·.2)).sum = W) →
      (L'.map fun t => (wtMean t + (t.map (·.2)).sum * d) / wtTotal cfg.beta t).sum
        = (L'.map fun t => wtMean t / wtTotal cfg.beta t).sum
          + W * d * (L'.map fun t => 1 / wtTotal cfg.beta t).sum := by
    intro L' h
    induction L' with
    | nil => simp
    | cons t L' ih =>
      simp only [List.map_cons, List.sum_cons]
      rw [ih fun u hu => h u (List.mem_cons_of_mem _ hu), h t (by simp)]
      ring
  have ha : wtAverage cfg.beta M = wtAverage cfg.beta L + W * d := by
    simp only [wtAverage, hM, List.map_map, Function.comp_def, e2, e3]
    rw [hsum L hW]
    field_simp
  rw [qualityClosed, qualityClosed, ha]
  simp only [hM, List.map_map, Function.comp_def, e1, e2, e3]
  have e4 : (L.map fun x => (wtMean x + (x.map (·.2)).sum * d - (wtAverage cfg.beta L + W * d)) ^ 2
      / wtTotal cfg.beta x) = L.map fun x => (wtMean x - wtAverage cfg.beta L) ^ 2
      / wtTotal cfg.beta x := by
    apply List.map_congr_left
    intro t ht
    rw [hW t ht]
    congr 1; ring
  rw [e4]

/-- The unit of the scale does not matter: ratings, uncertainties and beta multiplied by the same
factor. -/
theorem C105_trueskill_quality_unit (L : List WTeam) (cfg : TrueSkillConfig ℝ)
    (hL : Playable L) (hb : cfg.beta ≠ 0) (s : ℝ) (hs : s ≠ 0) :
    matchQualityMultiTeam
        (players (L.map fun t => t.map fun p => (⟨s * p.1.rating, s * p.1.uncertainty⟩, p.2)))
        { cfg with beta := s * cfg.beta } (some (weights L))
      = matchQualityMultiTeam (players L) cfg (some (weights L)) := by
  set M : List WTeam := L.map fun t => t.map fun p => (⟨s * p.1.rating, s * p.1.uncertainty⟩, p.2)
    with hM
  have hw : weights L = weights M := by
    simp [weights, hM, List.map_map, Function.comp_def]
  have hM' : Playable M := by
    refine ⟨by simpa [hM] using hL.three, ?_, ?_⟩
    · intro t ht p hp
      obtain ⟨u, hu, rfl⟩ := List.mem_map.1 ht
      obtain ⟨q, hq, rfl⟩ := List.mem_map.1 hp
      exact hL.nonneg u hu q hq
    · intro t ht
      obtain ⟨u, hu, rfl⟩ := List.mem_map.1 ht
      obtain ⟨q, hq, h0⟩ := hL.counts u hu
      exact ⟨_, List.mem_map.2 ⟨q, hq, rfl⟩, h0⟩
  rw [C105_trueskill_quality_closed L cfg hL hb, hw,
    C105_trueskill_quality_closed M _ hM' (mul_ne_zero hs hb)]
  simp only
  have e1 : ∀ t : WTeam, wtNoise (s * cfg.beta)
      (t.map fun p => (⟨s * p.1.rating, s * p.1.uncertainty⟩, p.2))
      = s ^ 2 * wtNoise cfg.beta t := by
    intro t
    simp only [wtNoise, List.map_map, Function.comp_def]
    rw [← List.sum_map_mul_left]
    congr 1; apply List.map_congr_left; intro p _; ring
  have e2 : ∀ t : WTeam, wtTotal (s * cfg.beta)
      (t.map fun p => (⟨s * p.1.rating, s * p.1.uncertainty⟩, p.2))
      = s ^ 2 * wtTotal cfg.beta t := by
    intro t
    simp only [wtTotal, List.map_map, Function.comp_def]
    rw [← List.sum_map_mul_left]
    congr 1; apply List.map_congr_left; intro p _; ring
  have e3 : ∀ t : WTeam, wtMean (t.map fun p => (⟨s * p.1.rating, s * p.1.uncertainty⟩, p.2))
      = s * wtMean t := by
    intro t
    simp only [wtMean, List.map_map, Function.comp_def]
    rw [← List.sum_map_mul_left]
    congr 1; apply List.map_congr_left; intro p _; ring
  have hprod : ∀ f : WTeam → ℝ, (L.map fun t => s ^ 2 * f t).prod
      = (s ^ 2) ^ L.length * (L.map f).prod := by
    intro f
    clear hM' hw hM M hL
    induction L with
    | nil => simp
    | cons t L ih => simp only [List.map_cons, List.prod_cons, List.length_cons, ih]; ring
  have hinv : ∀ f : WTeam → ℝ, (L.map fun t => 1 / (s ^ 2 * f t)).sum
      = (1 / s ^ 2) * (L.map fun t => 1 / f t).sum := by
    intro f
    rw [← List.sum_map_mul_left]
    congr 1; apply List.map_congr_left; intro t _
    rw [one_div_mul_one_div]
  have hsum : (L.map fun t => s * wtMean t / (s ^ 2 * wtTotal cfg.beta t)).sum
      = (1 / s) * (L.map fun t => wtMean t / wtTotal cfg.beta t).sum := by
    rw [← List.sum_map_mul_left]
    congr 1; apply List.map_congr_left; intro t _
    rw [mul_div_mul_comm]
    congr 1; field_simp
  have ha : wtAverage (s * cfg.beta) M = s * wtAverage cfg.beta L := by
    simp only [wtAverage, hM, List.map_map, Function.comp_def, e2, e3]
    rw [hinv, hsum, mul_div_mul_comm]
    congr 1; field_simp
  have hsq : (L.map fun t => (s * wtMean t - s * wtAverage cfg.beta L) ^ 2
      / (s ^ 2 * wtTotal cfg.beta t)) = L.map fun t => (wtMean t - wtAverage cfg.beta L) ^ 2
      / wtTotal cfg.beta t := by
    apply List.map_congr_left; intro t _
    rw [← mul_sub, mul_pow, mul_div_mul_left _ _ (pow_ne_zero 2 hs)]
  rw [qualityClosed, qualityClosed, ha]
  simp only [hM, List.map_map, Function.comp_def, e1, e2, e3]
  rw [hsq, hprod, hprod, hinv, hinv]
  congr 2
  have hn : (s ^ 2) ^ L.length * (1 / s ^ 2) ≠ 0 := by positivity
  rw [show ∀ a b : ℝ, (s ^ 2) ^ L.length * a * (1 / s ^ 2 * b)
      = (s ^ 2) ^ L.length * (1 / s ^ 2) * (a * b) from fun a b => by ring,
    show ∀ a b : ℝ, (s ^ 2) ^ L.length * a * (1 / s ^ 2 * b)
      = (s ^ 2) ^ L.length * (1 / s ^ 2) * (a * b) from fun a b => by ring,
    mul_div_mul_left _ _ hn]

/-- Evenly matched teams are the best match: whatever the (weighted) strengths, the quality is at
most that of teams with the same uncertainties and equal strengths, and reaches it only if all the
strengths are equal. -/
theorem C105_trueskill_quality_best (L : List WTeam) (cfg : TrueSkillConfig ℝ)
    (hL : Playable L) (hb : cfg.beta ≠ 0) :
    ∃ q, matchQualityMultiTeam (players L) cfg (some (weights L)) = .ok (.ok q) ∧
      q ≤ √(leaveOut (L.map (wtNoise cfg.beta)) / leaveOut (L.map (wtTotal cfg.beta))) ∧
      (q = √(leaveOut (L.map (wtNoise cfg.beta)) / leaveOut (L.map (wtTotal cfg.beta))) ↔
        ∀ t ∈ L, ∀ u ∈ L, wtMean t = wtMean u) := by
  refine ⟨_, C105_trueskill_quality_closed L cfg hL hb, ?_⟩
  rw [closed_eq]
  have hbn : ∀ t ∈ L, 0 < wtNoise cfg.beta t := fun t ht => noise_pos hb (hL.counts t ht)
  have hc : ∀ t ∈ L, 0 < wtTotal cfg.beta t := fun t ht =>
    (hbn t ht).trans_le (noise_le_total _ _)
  have hne : L ≠ [] := by rintro rfl; have := hL.three; simp at this
  have hB : 0 < leaveOut (L.map (wtNoise cfg.beta)) := leaveOut_pos (by simpa using hne) (by
    intro x hx; obtain ⟨t, ht, rfl⟩ := List.mem_map.1 hx; exact hbn t ht)
  have hC : 0 < leaveOut (L.map (wtTotal cfg.beta)) := leaveOut_pos (by simpa using hne) (by
    intro x hx; obtain ⟨t, ht, rfl⟩ := List.mem_map.1 hx; exact hc t ht)
  have hR : 0 < √(leaveOut (L.map (wtNoise cfg.beta)) / leaveOut (L.map (wtTotal cfg.beta))) :=
    Real.sqrt_pos.2 (by positivity)
  set S := (L.map fun x => (wtMean x - wtAverage cfg.beta L) ^ 2 / wtTotal cfg.beta x).sum with hS
  have hterm : ∀ x ∈ L.map (fun x => (wtMean x - wtAverage cfg.beta L) ^ 2 / wtTotal cfg.beta x),
      0 ≤ x := by
    intro x hx
    obtain ⟨t, ht, rfl⟩ := List.mem_map.1 hx
    have := hc t ht
    positivity
  have hS0 : 0 ≤ S := List.sum_nonneg hterm
  have hle : Real.exp (-(1 / 2) * S) ≤ 1 := Real.exp_le_one_iff.2 (by linarith)
  refine ⟨mul_le_of_le_one_left hR.le hle, ?_⟩
  rw [mul_eq_right₀ hR.ne', Real.exp_eq_one_iff]
  have hzero : -(1 / 2) * S = 0 ↔ S = 0 := by constructor <;> intro h <;> linarith
  rw [hzero]
  constructor
  · intro h t ht u hu
    have hz : ∀ t ∈ L, wtMean t = wtAverage cfg.beta L := by
      intro t ht
      have h1 : (wtMean t - wtAverage cfg.beta L) ^ 2 / wtTotal cfg.beta t ≤ S :=
        List.single_le_sum hterm _ (List.mem_map.2 ⟨t, ht, rfl⟩)
      rw [h, div_le_iff₀ (hc t ht), zero_mul] at h1
      have := pow_eq_zero_iff (two_ne_zero) |>.1 (le_antisymm h1 (sq_nonneg _))
      linarith
    rw [hz t ht, hz u hu]
  · intro h
    obtain ⟨t₀, ht₀⟩ := List.exists_mem_of_ne_nil L hne
    have hI : 0 < (L.map fun t => 1 / wtTotal cfg.beta t).sum := by
      refine List.sum_pos _ ?_ (by simpa using hne)
      intro x hx
      obtain ⟨t, ht, rfl⟩ := List.mem_map.1 hx
      exact one_div_pos.2 (hc t ht)
    have ha : wtAverage cfg.beta L = wtMean t₀ := by
      rw [wtAverage, div_eq_iff hI.ne', ← List.sum_map_mul_left]
      congr 1; apply List.map_congr_left; intro t ht
      rw [h t ht t₀ ht₀, mul_one_div]
    apply List.sum_eq_zero
    intro x hx
    obtain ⟨t, ht, rfl⟩ := List.mem_map.1 hx
    rw [ha, h t ht t₀ ht₀]; simp

/-- More uncertainty makes an even match worse: the same players with the same weights and larger
uncertainties, all teams equally strong. -/
theorem C105_trueskill_quality_uncertainty (L L' : List WTeam) (cfg : TrueSkillConfig ℝ)
    (hL : Playable L) (hb : cfg.beta ≠ 0)
    (hless : List.Forall₂ (List.Forall₂ fun p p' : TrueSkillRating ℝ × ℝ =>
      p'.2 = p.2 ∧ p'.1.rating = p.1.rating ∧ |p.1.uncertainty| ≤ |p'.1.uncertainty|) L L')
    (heven : ∀ t ∈ L, ∀ u ∈ L, wtMean t = wtMean u) :
    ∃ q q', matchQualityMultiTeam (players L) cfg (some (weights L)) = .ok (.ok q) ∧
      matchQualityMultiTeam (players L') cfg (some (weights L')) = .ok (.ok q') ∧ q' ≤ q := by
  have team : ∀ t t' : WTeam, (List.Forall₂ (fun p p' : TrueSkillRating ℝ × ℝ =>
      p'.2 = p.2 ∧ p'.1.rating = p.1.rating ∧ |p.1.uncertainty| ≤ |p'.1.uncertainty|) t t') →
      wtNoise cfg.beta t' = wtNoise cfg.beta t ∧ wtMean t' = wtMean t ∧
      wtTotal cfg.beta t ≤ wtTotal cfg.beta t' ∧ ((∀ p ∈ t, 0 ≤ p.2) → ∀ p ∈ t', 0 ≤ p.2) ∧
      ((∃ p ∈ t, p.2 ≠ 0) → ∃ p ∈ t', p.2 ≠ 0) := by
    intro t t' h
    induction h with
    | nil => simp
    | cons h _ ih =>
      obtain ⟨h1, h2, h3⟩ := h
      obtain ⟨i1, i2, i3, i4, i5⟩ := ih
      simp only [wtNoise, wtMean, wtTotal, List.map_cons, List.sum_cons] at i1 i2 i3 ⊢
      refine ⟨by rw [i1, h1], by rw [i2, h1, h2], ?_, ?_, ?_⟩
      · rw [h1]
        have := sq_le_sq.2 h3
        gcongr
      · intro h
        simp only [List.mem_cons, forall_eq_or_imp] at h ⊢
        exact ⟨h1 ▸ h.1, i4 h.2⟩
      · intro h
        simp only [List.mem_cons, exists_eq_or_imp] at h ⊢
        rcases h with h | h
        · left; rw [h1]; exact h
        · right; exact i5 h
  have hback : ∀ t' ∈ L', ∃ t ∈ L, wtMean t' = wtMean t ∧
      ((∀ p ∈ t, 0 ≤ p.2) → ∀ p ∈ t', 0 ≤ p.2) ∧
      ((∃ p ∈ t, p.2 ≠ 0) → ∃ p ∈ t', p.2 ≠ 0) := by
    clear hL heven
    induction hless with
    | nil => simp
    | cons h _ ih =>
      intro t' ht'
      rcases List.mem_cons.1 ht' with rfl | ht'
      · obtain ⟨-, h2, -, h4⟩ := team _ _ h
        exact ⟨_, List.mem_cons_self, h2, h4⟩
      · obtain ⟨t, ht, h'⟩ := ih t' ht'
        exact ⟨t, List.mem_cons_of_mem _ ht, h'⟩
  have hL' : Playable L' := by
    refine ⟨hless.length_eq ▸ hL.three, fun t' ht' => ?_, fun t' ht' => ?_⟩
    · obtain ⟨t, ht, -, h, -⟩ := hback t' ht'
      exact h (hL.nonneg t ht)
    · obtain ⟨t, ht, -, -, h⟩ := hback t' ht'
      exact h (hL.counts t ht)
  have heven' : ∀ t ∈ L', ∀ u ∈ L', wtMean t = wtMean u := by
    intro t ht u hu
    obtain ⟨t1, ht1, e1, -⟩ := hback t ht
    obtain ⟨u1, hu1, e2, -⟩ := hback u hu
    rw [e1, e2, heven t1 ht1 u1 hu1]
  obtain ⟨q, h1, -, h2⟩ := C105_trueskill_quality_best L cfg hL hb
  obtain ⟨q', h1', -, h2'⟩ := C105_trueskill_quality_best L' cfg hL' hb
  refine ⟨q, q', h1, h1', ?_⟩
  rw [h2.2 heven, h2'.2 heven']
  have hn : L'.map (wtNoise cfg.beta) = L.map (wtNoise cfg.beta) := by
    clear hL hL' heven heven' hback h1 h2 h1' h2'
    induction hless with
    | nil => rfl
    | cons h _ ih => rw [List.map_cons, List.map_cons, ih, (team _ _ h).1]
  have hm : List.Forall₂ (fun x y : ℝ => 0 < x ∧ x ≤ y) (L.map (wtTotal cfg.beta))
      (L'.map (wtTotal cfg.beta)) := by
    have hc : ∀ t ∈ L, 0 < wtTotal cfg.beta t := fun t ht =>
      (noise_pos hb (hL.counts t ht)).trans_le (noise_le_total _ _)
    clear hL hL' heven heven' hback h1 h2 h1' h2' hn
    induction hless with
    | nil => exact List.Forall₂.nil
    | cons h _ ih =>
      refine List.Forall₂.cons ⟨hc _ (by simp), (team _ _ h).2.2.1⟩ (ih fun t ht => hc t ?_)
      exact List.mem_cons_of_mem _ ht
  have hne : L ≠ [] := by rintro rfl; have := hL.three; simp at this
  have hB : 0 < leaveOut (L.map (wtNoise cfg.beta)) := leaveOut_pos (by simpa using hne) (by
    intro x hx; obtain ⟨t, ht, rfl⟩ := List.mem_map.1 hx; exact noise_pos hb (hL.counts t ht))
  have hC : 0 < leaveOut (L.map (wtTotal cfg.beta)) := leaveOut_pos (by simpa using hne) (by
    intro x hx; obtain ⟨t, ht, rfl⟩ := List.mem_map.1 hx
    exact (noise_pos hb (hL.counts t ht)).trans_le (noise_le_total _ _))
  obtain ⟨-, -, -, h4⟩ := leaveOut_mono hm
  rw [hn]
  gcongr

/-- A match of three teams, one of them of two players, with different weights. -/
example : Playable [[(⟨25, 8⟩, 1)], [(⟨30, 1⟩, 1 / 2), (⟨20, 2⟩, 0)], [(⟨27, 3⟩, 2)]] := by
  refine ⟨by simp, ?_, ?_⟩
  · simp only [List.mem_cons, List.not_mem_nil, or_false, forall_eq_or_imp, forall_eq]
    norm_num
  · simp only [List.mem_cons, List.not_mem_nil, or_false, forall_eq_or_imp, forall_eq,
      exists_eq_or_imp, exists_eq_left]
    norm_num

/-- Three teams whose weights have the same sum. -/
example : ∀ t ∈ ([[(⟨25, 8⟩, 1)], [(⟨30, 1⟩, 1 / 2), (⟨20, 2⟩, 1 / 2)], [(⟨27, 3⟩, 1)]] :
    List WTeam), (t.map (·.2)).sum = 1 := by
  norm_num

/-- Three teams of the same strength, and the same with more uncertainty. -/
example : ∀ t ∈ ([[(⟨25, 8⟩, 1)], [(⟨30, 1⟩, 1 / 2), (⟨20, 2⟩, 1 / 2)], [(⟨25, 3⟩, 1)]] :
    List WTeam), ∀ u ∈ ([[(⟨25, 8⟩, 1)], [(⟨30, 1⟩, 1 / 2), (⟨20, 2⟩, 1 / 2)], [(⟨25, 3⟩, 1)]] :
    List WTeam), wtMean t = wtMean u := by
  simp only [List.mem_cons, List.not_mem_nil, or_false, forall_eq_or_imp, forall_eq, wtMean,
    List.map_cons, List.map_nil, List.sum_cons, List.sum_nil]
  norm_num

/-- The quality of three single players with rating 25, uncertainty `σ` and `β`:
`β²/(β² + σ²)`. -/
example (σ β : ℝ) (hβ : β ≠ 0) (cfg : TrueSkillConfig ℝ) (h : cfg.beta = β) :
    matchQualityMultiTeam [[⟨25, σ⟩], [⟨25, σ⟩], [⟨25, σ⟩]] cfg none
      = .ok (.ok (β ^ 2 / (β ^ 2 + σ ^ 2))) := by
  rw [C105_trueskill_quality_closed_no_weights _ cfg (by simp) (by simp) (h ▸ hβ), h]
  have hc : 0 < β ^ 2 + σ ^ 2 := by positivity
  congr 2
  simp only [qualityClosed, wtAverage, wtMean, wtTotal, wtNoise, List.map_cons, List.map_nil,
    List.sum_cons, List.sum_nil, List.prod_cons, List.prod_nil]
  have e1 : (1 * 25 + 0 : ℝ) = 25 := by norm_num
  have e2 : β ^ 2 * 1 ^ 2 + 0 = β ^ 2 := by ring
  have e3 : 1 ^ 2 * (β ^ 2 + σ ^ 2) + 0 = β ^ 2 + σ ^ 2 := by ring
  simp only [e1, e2, e3]
  have e4 : (25 / (β ^ 2 + σ ^ 2) + (25 / (β ^ 2 + σ ^ 2) + (25 / (β ^ 2 + σ ^ 2) + 0))) /
      (1 / (β ^ 2 + σ ^ 2) + (1 / (β ^ 2 + σ ^ 2) + (1 / (β ^ 2 + σ ^ 2) + 0))) = 25 := by
    field_simp; norm_num
  rw [e4, show β ^ 2 * (β ^ 2 * (β ^ 2 * 1)) * (1 / β ^ 2 + (1 / β ^ 2 + (1 / β ^ 2 + 0))) /
    ((β ^ 2 + σ ^ 2) * ((β ^ 2 + σ ^ 2) * ((β ^ 2 + σ ^ 2) * 1)) *
      (1 / (β ^ 2 + σ ^ 2) + (1 / (β ^ 2 + σ ^ 2) + (1 / (β ^ 2 + σ ^ 2) + 0))))
    = (β ^ 2 / (β ^ 2 + σ ^ 2)) ^ 2 by field_simp; ring, Real.sqrt_sq (by positivity)]
  norm_num

end TrueSkill
end Skillratings
