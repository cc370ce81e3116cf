import Verif.Proofs.FactorGraph
/-
The way back up of the factor graph of two teams (C72).
-/
namespace Skillratings
namespace TrueSkill
open Finset
namespace Duel
variable {d : Duel}

/-- The correction terms of the truncation. -/
noncomputable def tv (d : Duel) (T : TruncateFactor ℝ) : ℝ :=
  T.vFunc (nrm d.δ d.C).tau (T.drawMargin * (nrm d.δ d.C).pi) (√(nrm d.δ d.C).pi)

@[inherit_doc tv] noncomputable def tw (d : Duel) (T : TruncateFactor ℝ) : ℝ :=
  T.wFunc (nrm d.δ d.C).tau (T.drawMargin * (nrm d.δ d.C).pi) (√(nrm d.δ d.C).pi)

theorem post_div (h : d.Ok) (T : TruncateFactor ℝ) (h0 : 0 < d.tw T) (h1 : d.tw T < 1) :
    d.post T / nrm d.δ d.C =
      nrm (d.δ + √d.C * d.tv T / d.tw T) (d.C / d.tw T - d.C) := by
  have e : d.C / d.tw T - d.C = d.C * (1 - d.tw T) / d.tw T := by field_simp
  rw [e]
  exact trunc_message d.δ d.C (d.tv T) (d.tw T) (C_pos h) h0 h1

theorem C_lt (h : d.Ok) {W : ℝ} (h0 : 0 < W) (h1 : W < 1) : d.C < d.C / W := by
  rw [lt_div_iff₀ h0]
  have := C_pos h
  nlinarith

theorem Q_lt (h : d.Ok) {t : ℕ} (ht : t < 2) : d.Q t < d.C := by
  have h0 := Q_pos h 0
  have h1 := Q_pos h 1
  have : t = 0 ∨ t = 1 := by omega
  unfold C
  rcases this with rfl | rfl <;> linarith

theorem sgn_sq (t : ℕ) : sgn t ^ 2 = 1 := by unfold sgn; split_ifs <;> norm_num
theorem sgn_ne (t : ℕ) : sgn t ≠ 0 := by unfold sgn; split_ifs <;> norm_num

theorem two_gaussian {a b : ℕ} (hab : a ≠ b) (A B : Gaussian ℝ) :
    ((Variable.new.updateMessage a A).1.updateMessage b B).1.gaussian = A * B := by
  rw [updateMessage_gaussian, new_update, new_messages, if_neg hab.symm, div_default]

theorem two_first {a b : ℕ} (hab : a ≠ b) (A B : Gaussian ℝ) :
    ((Variable.new.updateMessage a A).1.updateMessage b B).1.gaussian /
      ((Variable.new.updateMessage a A).1.updateMessage b B).1.messages a = B := by
  rw [two_gaussian hab, updateMessage_messages, if_neg hab, new_messages, if_pos rfl, mul_div_left]

theorem two_second {a b : ℕ} (hab : a ≠ b) (A B : Gaussian ℝ) :
    ((Variable.new.updateMessage a A).1.updateMessage b B).1.gaussian /
      ((Variable.new.updateMessage a A).1.updateMessage b B).1.messages b = A := by
  rw [two_gaussian hab, updateMessage_messages, if_pos rfl, mul_div_self]

/-- The variable of the performance of a team after the difference factor. -/
noncomputable def teamVar (d : Duel) (e W : ℝ) (t : ℕ) : Variable ℝ :=
  ((Variable.new.updateMessage (d.n + d.n + t) (nrm (d.M t) (d.Q t))).1.updateMessage
    (d.n + d.n + 2) (nrm (d.M t + sgn t * e) (d.C / W - d.Q t))).1

theorem diff_up (h : d.Ok) (T : TruncateFactor ℝ) (h0 : 0 < d.tw T) (h1 : d.tw T < 1)
    {s0 s : Store ℝ} (hs0 : Before d s0) (hs : After d T s0 s) :
    (∀ t < 2, (d.diffFactor.up 1 (d.diffFactor.up 0 s).1).1 (.teamPerf t) =
      d.teamVar (√d.C * d.tv T / d.tw T) (d.tw T) t) ∧
    ∀ r, (∀ t < 2, r ≠ .teamPerf t) →
      (d.diffFactor.up 1 (d.diffFactor.up 0 s).1).1 r = s r := by
  have key := foldl_write (fun t s => (d.diffFactor.up t s).1) .teamPerf
    (d.teamVar (√d.C * d.tv T / d.tw T) (d.tw T)) s (fun i j hij => by injection hij) 2 (by
      intro t ht s' h1' h2' k
      have hn : ∀ j < 2, j ≠ t → (s' (.teamPerf j)).gaussian /
          (s' (.teamPerf j)).messages d.diffFactor.id = nrm (d.M j) (d.Q j) := by
        intro j hj hjt
        change _ / (s' (.teamPerf j)).messages (d.n + d.n + 2) = _
        by_cases hlt : j < t
        · rw [h1' j hlt, teamVar, two_second (by omega)]
        · rw [h2' _ (fun i hi hij => by injection hij; omega), hs.other _ (by simp)]
          exact team_div hs0 hj
      have hS : (s' d.diffFactor.sum).gaussian / (s' d.diffFactor.sum).messages d.diffFactor.id =
          nrm (d.δ + √d.C * d.tv T / d.tw T) (d.C / d.tw T - d.C) := by
        change (s' (.teamDiff 0)).gaussian / (s' (.teamDiff 0)).messages (d.n + d.n + 2) = _
        rw [h2' _ (fun i _ hi => by simp at hi), hs.value, hs.diff, post_div h T h0 h1]
      have hlt := C_lt h h0 h1
      have := up_nrm d.diffFactor s' 2 .teamPerf (fun j => if j = 0 then 1 else -1) d.M d.Q rfl rfl
        t ht (sgn_ne t) (fun j _ _ => (Q_pos h j).ne') hn _ _ (by linarith : _ ≠ (0 : ℝ)) hS
      change (d.diffFactor.up t s').1 k = _
      rw [this, write_get, h2' _ (fun i hi hij => by injection hij; omega), hs.other _ (by simp),
        hs0.team t ht, teamVar]
      have e1 : (d.δ + √d.C * d.tv T / d.tw T - ∑ j ∈ range 2, (if j = 0 then 1 else -1) * d.M j
          + (if t = 0 then 1 else -1) * d.M t) / (if t = 0 then 1 else -1) =
          d.M t + sgn t * (√d.C * d.tv T / d.tw T) := by
        have ht' : t = 0 ∨ t = 1 := by omega
        rcases ht' with rfl | rfl <;>
        · simp only [sum_range_succ, sum_range_zero, δ, sgn]
          norm_num
          try ring
      have e2 : (d.C / d.tw T - d.C + ∑ j ∈ range 2, (if j = 0 then (1 : ℝ) else -1) ^ 2 * d.Q j
          - (if t = 0 then (1 : ℝ) else -1) ^ 2 * d.Q t) / (if t = 0 then (1 : ℝ) else -1) ^ 2 =
          d.C / d.tw T - d.Q t := by
        have ht' : t = 0 ∨ t = 1 := by omega
        rcases ht' with rfl | rfl <;>
        · simp only [sum_range_succ, sum_range_zero, C]
          norm_num
      rw [e1, e2]
      rfl)
  simpa [List.range_succ] using key

theorem teamVar_div (d : Duel) (e W : ℝ) {t : ℕ} (ht : t < 2) :
    (d.teamVar e W t).gaussian / (d.teamVar e W t).messages (d.n + d.n + t) =
      nrm (d.M t + sgn t * e) (d.C / W - d.Q t) := by
  rw [teamVar, two_first (by omega)]

/-- The variable of the performance of player `i` of team `t` after the team factor. -/
noncomputable def perfVar (d : Duel) (e W : ℝ) (t i : ℕ) : Variable ℝ :=
  ((Variable.new.updateMessage (d.n + i) (nrm (d.μ i) (d.V i))).1.updateMessage (d.n + d.n + t)
    (nrm (d.μ i + sgn t * e / d.w i) ((d.C / W - d.w i ^ 2 * d.V i) / d.w i ^ 2))).1

theorem team_up (h : d.Ok) (e W : ℝ) (h0 : 0 < W) (h1 : W < 1) {t : ℕ} (ht : t < 2) (s : Store ℝ)
    (hT : s (.teamPerf t) = d.teamVar e W t)
    (hp : ∀ x < d.sz t, s (.perf (d.off t + x)) =
      (Variable.new.updateMessage (d.n + (d.off t + x))
        (nrm (d.μ (d.off t + x)) (d.V (d.off t + x)))).1) :
    let s' := (List.range (d.teamFactor t).terms.length).foldl
      (fun s x => ((d.teamFactor t).up x s).1) s
    (∀ x < d.sz t, s' (.perf (d.off t + x)) = d.perfVar e W t (d.off t + x)) ∧
      ∀ r, (∀ x < d.sz t, r ≠ .perf (d.off t + x)) → s' r = s r := by
  have hlen : (d.teamFactor t).terms.length = d.sz t := by simp [teamFactor]
  rw [hlen]
  have hgap := Q_lt h ht
  have hC := C_lt h h0 h1
  exact foldl_write (fun x s => ((d.teamFactor t).up x s).1) (fun x => .perf (d.off t + x))
    (fun x => d.perfVar e W t (d.off t + x)) s (fun i j hij => by injection hij; omega)
    (d.sz t) (by
      intro x hx s' h1' h2' k
      have hn : ∀ j < d.sz t, j ≠ x → (s' (.perf (d.off t + j))).gaussian /
          (s' (.perf (d.off t + j))).messages (d.teamFactor t).id =
          nrm (d.μ (d.off t + j)) (d.V (d.off t + j)) := by
        intro j hj hjx
        have hlt := off_lt hj
        change _ / (s' (.perf (d.off t + j))).messages (d.n + d.n + t) = _
        by_cases hlt' : j < x
        · rw [h1' j hlt', perfVar, two_second (by omega)]
        · rw [h2' _ (fun i hi hij => by injection hij; omega), hp j hj, new_update, new_messages,
            if_neg (by omega), div_default]
      have hS : (s' (d.teamFactor t).sum).gaussian /
          (s' (d.teamFactor t).sum).messages (d.teamFactor t).id =
          nrm (d.M t + sgn t * e) (d.C / W - d.Q t) := by
        change (s' (.teamPerf t)).gaussian / (s' (.teamPerf t)).messages (d.n + d.n + t) = _
        rw [h2' _ (fun i _ hi => by simp at hi), hT, teamVar_div d e W ht]
      have hw := h.hw _ (off_lt hx)
      have := up_nrm (d.teamFactor t) s' (d.sz t) (fun x => .perf (d.off t + x))
        (fun x => d.w (d.off t + x)) (fun x => d.μ (d.off t + x)) (fun x => d.V (d.off t + x))
        rfl rfl x hx hw (fun j hj _ => (V_pos h (off_lt hj)).ne') hn _ _
        (by linarith : _ ≠ (0 : ℝ)) hS
      change ((d.teamFactor t).up x s').1 k = _
      rw [this, write_get, h2' _ (fun i hi hij => by injection hij; omega), hp x hx, perfVar]
      have e1 : (d.M t + sgn t * e - ∑ j ∈ range (d.sz t), d.w (d.off t + j) * d.μ (d.off t + j)
          + d.w (d.off t + x) * d.μ (d.off t + x)) / d.w (d.off t + x) =
          d.μ (d.off t + x) + sgn t * e / d.w (d.off t + x) := by
        change (d.M t + sgn t * e - d.M t + _) / _ = _
        field_simp
        ring
      have e2 : (d.C / W - d.Q t
          + ∑ j ∈ range (d.sz t), d.w (d.off t + j) ^ 2 * d.V (d.off t + j)
          - d.w (d.off t + x) ^ 2 * d.V (d.off t + x)) / d.w (d.off t + x) ^ 2 =
          (d.C / W - d.w (d.off t + x) ^ 2 * d.V (d.off t + x)) / d.w (d.off t + x) ^ 2 := by
        change (d.C / W - d.Q t + d.Q t - _) / _ = _
        congr 1; ring
      rw [e1, e2]
      rfl)

/-- The team of a player. -/
def team (d : Duel) (i : ℕ) : ℕ := if i < d.nA then 0 else 1

theorem team_lt (d : Duel) (i : ℕ) : d.team i < 2 := by unfold team; split_ifs <;> omega

theorem split_index {i : ℕ} (hi : i < d.n) :
    ∃ x < d.sz (d.team i), i = d.off (d.team i) + x := by
  by_cases hA : i < d.nA
  · exact ⟨i, by simp [team, sz, hA], by simp [team, off, hA]⟩
  · exact ⟨i - d.nA, by unfold n at hi; simp [team, sz, hA]; omega, by simp [team, off, hA]; omega⟩

theorem teams_up (h : d.Ok) (e W : ℝ) (h0 : 0 < W) (h1 : W < 1) (s : Store ℝ)
    (hT : ∀ t < 2, s (.teamPerf t) = d.teamVar e W t)
    (hp : ∀ i < d.n, s (.perf i) = (Variable.new.updateMessage (d.n + i) (nrm (d.μ i) (d.V i))).1) :
    let s' := ((List.range 2).map d.teamFactor).foldl
      (fun s f => (List.range f.terms.length).foldl (fun s x => (f.up x s).1) s) s
    (∀ i < d.n, s' (.perf i) = d.perfVar e W (d.team i) i) ∧
      ∀ r, (∀ i, r ≠ .perf i) → s' r = s r := by
  intro s'
  set s1 := (List.range (d.teamFactor 0).terms.length).foldl
      (fun s x => ((d.teamFactor 0).up x s).1) s with hs1
  have hs' : s' = (List.range (d.teamFactor 1).terms.length).foldl
      (fun s x => ((d.teamFactor 1).up x s).1) s1 := rfl
  obtain ⟨a1, a2⟩ := team_up h e W h0 h1 (t := 0) (by omega) s (hT 0 (by omega))
    fun x hx => hp _ (off_lt hx)
  rw [← hs1] at a1 a2
  obtain ⟨b1, b2⟩ := team_up h e W h0 h1 (t := 1) (by omega) s1
    (by rw [a2 _ (fun x _ hx => by simp at hx)]; exact hT 1 (by omega))
    (fun x hx => by
      rw [a2 _ (fun y hy hxy => by injection hxy; simp [off, sz] at *; omega)]
      exact hp _ (off_lt hx))
  rw [← hs'] at b1 b2
  constructor
  · intro i hi
    obtain ⟨x, hx, he⟩ := split_index hi
    by_cases hA : i < d.nA
    · have ht : d.team i = 0 := by simp [team, hA]
      rw [ht] at hx he ⊢
      rw [b2 _ (fun y hy hxy => by injection hxy; simp [off, sz] at *; omega), he]
      exact a1 x hx
    · have ht : d.team i = 1 := by simp [team, hA]
      rw [ht] at hx he ⊢
      rw [he]
      exact b1 x hx
  · intro r hr
    rw [b2 r (fun x _ => hr _), a2 r (fun x _ => hr _)]

/-- The posterior of a rating. -/
theorem combine (μ S a B : ℝ) (hS : 0 < S) (hB : S < B) :
    (nrm μ S * nrm (μ + a) (B - S)).mu = μ + a * S / B ∧
      (nrm μ S * nrm (μ + a) (B - S)).sigma = √(S * (1 - S / B)) := by
  have h1 : B - S ≠ 0 := by linarith
  have h2 : B ≠ 0 := by linarith
  have hpi : (nrm μ S * nrm (μ + a) (B - S)).pi = B / (S * (B - S)) := by
    rw [mul_pi]; simp only [nrm]; field_simp; ring
  have hne : (nrm μ S * nrm (μ + a) (B - S)).pi ≠ 0 := by
    rw [hpi]
    exact div_ne_zero h2 (mul_ne_zero hS.ne' h1)
  constructor
  · simp only [Gaussian.mu, flt]
    rw [if_neg hne, hpi, mul_tau]
    simp only [nrm]
    field_simp
    ring
  · simp only [Gaussian.sigma, flt]
    rw [if_neg hne, hpi]
    congr 1
    field_simp

theorem perfs_up (h : d.Ok) (e W : ℝ) (h0 : 0 < W) (h1 : W < 1) (s : Store ℝ)
    (hr : ∀ i < d.n, (s (.rating i)).gaussian = nrm (d.μ i) (d.S i) ∧
      (s (.rating i)).messages (d.n + i) = Gaussian.default)
    (hp : ∀ i < d.n, s (.perf i) = d.perfVar e W (d.team i) i) :
    ∀ i < d.n, readRating (((List.range d.n).map d.perfFactor).foldl (fun s f => (f.up s).1) s) i =
      { rating := d.μ i + sgn (d.team i) * (d.w i * d.S i / d.C) * (e * W)
        uncertainty := √(d.S i * (1 - W * (d.w i ^ 2 * d.S i / d.C))) } := by
  rw [List.foldl_map (f := d.perfFactor)]
  have hbig : ∀ i < d.n, d.w i ^ 2 * d.V i < d.C / W := by
    intro i hi
    obtain ⟨x, hx, he⟩ := split_index hi
    have := Q_ge h hx
    rw [← he] at this
    have := Q_lt h (d.team_lt i)
    have := C_lt h h0 h1
    linarith
  obtain ⟨k1, -⟩ := foldl_write (fun i s => ((d.perfFactor i).up s).1) .rating
    (fun i => ((s (.rating i)).updateMessage (d.n + i)
      (nrm (d.μ i + sgn (d.team i) * e / d.w i)
        ((d.C / W - d.w i ^ 2 * d.V i) / d.w i ^ 2 + d.β ^ 2))).1) s
    (fun i j hij => by injection hij) d.n (by
      intro i hi s' h1' h2' k
      have e1 : s' (.perf i) = _ := (h2' _ (fun j _ hj => by simp at hj)).trans (hp i hi)
      have e2 : s' (.rating i) = s (.rating i) :=
        h2' _ (fun j hj hij => by injection hij; omega)
      have hw := h.hw i hi
      have hpos : 0 < (d.C / W - d.w i ^ 2 * d.V i) / d.w i ^ 2 :=
        div_pos (by have := hbig i hi; linarith) (by positivity)
      have e3 : (s' (.perf i)).gaussian / (s' (.perf i)).messages (d.n + i) =
          nrm (d.μ i + sgn (d.team i) * e / d.w i)
            ((d.C / W - d.w i ^ 2 * d.V i) / d.w i ^ 2) := by
        rw [e1, perfVar, two_first (by omega)]
      have e4 := likelihood_message (d.perfFactor i) (d.μ i + sgn (d.team i) * e / d.w i) _ hpos
        (sq_nonneg d.β)
      change (s'.write (.rating i) ((s' (.rating i)).updateMessage (d.n + i)
        { pi := (d.perfFactor i).calcA ((s' (.perf i)).gaussian
            / (s' (.perf i)).messages (d.n + i)) * ((s' (.perf i)).gaussian
            / (s' (.perf i)).messages (d.n + i)).pi
          tau := (d.perfFactor i).calcA ((s' (.perf i)).gaussian
            / (s' (.perf i)).messages (d.n + i)) * ((s' (.perf i)).gaussian
            / (s' (.perf i)).messages (d.n + i)).tau })).1 k = _
      rw [e3, e4, e2, write_get]
      rfl)
  intro i hi
  have hw := h.hw i hi
  have hS := S_pos h hi
  have hC := C_pos h
  rw [readRating, k1 i hi, updateMessage_gaussian, (hr i hi).1, (hr i hi).2, div_default]
  have hV : (d.C / W - d.w i ^ 2 * d.V i) / d.w i ^ 2 + d.β ^ 2 = d.C / (W * d.w i ^ 2) - d.S i := by
    unfold V
    field_simp
    ring
  have hlt : d.S i < d.C / (W * d.w i ^ 2) := by
    have h2 := hbig i hi
    rw [lt_div_iff₀ (by positivity)]
    rw [lt_div_iff₀ h0] at h2
    have h3 : d.w i ^ 2 * d.S i ≤ d.w i ^ 2 * d.V i := by
      unfold V
      have : 0 ≤ d.w i ^ 2 * d.β ^ 2 := by positivity
      linarith
    nlinarith
  rw [hV]
  obtain ⟨c1, c2⟩ := combine (d.μ i) (d.S i) (sgn (d.team i) * e / d.w i) _ hS hlt
  rw [c1, c2]
  congr 1
  · field_simp
  · congr 1
    field_simp

/-- What the factor graph of two teams computes. -/
theorem result (h : d.Ok) (p : ℝ) (x y : List (TrueSkillRating ℝ) × MultiTeamOutcome)
    (h0 : 0 < d.tw (truncFactor p d.β (d.n + d.n + 3) 0 x y))
    (h1 : d.tw (truncFactor p d.β (d.n + d.n + 3) 0 x y) < 1) :
    ∃ s, runSchedule [d.nA, d.nA + d.nB] [x, y] ((List.range d.n).map d.R)
        ((List.range d.n).map d.w) d.τ d.β p 0.0001 = .ok s ∧
      ∀ i < d.n, readRating s i =
        { rating := d.μ i + sgn (d.team i) * (d.w i * d.S i / √d.C) *
            d.tv (truncFactor p d.β (d.n + d.n + 3) 0 x y)
          uncertainty := √(d.S i * (1 - d.tw (truncFactor p d.β (d.n + d.n + 3) 0 x y) *
            (d.w i ^ 2 * d.S i / d.C))) } := by
  have hm : (!((0.0 : ℝ) <? (0.0001 : ℝ))) = false := by
    have : ((0.0 : ℝ) <? (0.0001 : ℝ)) = true := by
      rw [Flt.lt_real]; norm_num
    rw [this]; rfl
  obtain ⟨fs, hfs, s, hs, hb, hnew⟩ := before h
  set s3 := ((List.range 2).map d.teamFactor).foldl (fun s f => (f.down s).1)
      (((List.range d.n).map d.perfFactor).foldl (fun s f => (f.down s).1) s) with hs3
  set T := truncFactor p d.β (d.n + d.n + 3) 0 x y with hT
  have ha := iterLoop_after h T rfl rfl hb 0.0001 9 s3 (fun _ _ => rfl) (by
    rw [hnew]
    exact gaussian_ext (by simp [Variable.new, mul_pi, default_pi])
      (by simp [Variable.new, mul_tau, default_tau]))
  set s4 := iterLoop 0.0001 [(d.diffFactor, T)] (9 + 1) s3 with hs4
  obtain ⟨u1, u2⟩ := diff_up h T h0 h1 hb ha
  set s5 := (d.diffFactor.up 1 (d.diffFactor.up 0 s4).1).1 with hs5
  obtain ⟨w1, w2⟩ := teams_up h _ _ h0 h1 s5 u1 (by
    intro i hi
    rw [u2 _ (fun t _ ht => by simp at ht), ha.other _ (by simp)]
    exact hb.perf i hi)
  set s6 := ((List.range 2).map d.teamFactor).foldl
      (fun s f => (List.range f.terms.length).foldl (fun s x => (f.up x s).1) s) s5 with hs6
  have hfin := perfs_up h _ _ h0 h1 s6 (by
    intro i hi
    rw [w2 _ (fun t ht => by simp at ht), u2 _ (fun t _ ht => by simp at ht),
      ha.other _ (by simp)]
    exact hb.rating i hi) w1
  refine ⟨((List.range d.n).map d.perfFactor).foldl (fun s f => (f.up s).1) s6, ?_, ?_⟩
  · rw [runSchedule, hm]
    simp only [Bool.false_eq_true, if_false, hfs, hs, List.length_map, List.length_range,
      perfLayer, teamLayer, List.length_cons, List.length_nil, Nat.zero_add, Nat.reduceAdd,
      Nat.reduceSub, diffLayer, buildTruncLayer, List.zip_cons_cons, List.zip_nil_right,
      List.head?_cons, List.getLast?_singleton, Nat.add_zero]
    rfl
  · intro i hi
    rw [hfin i hi]
    have hC := C_pos h
    have hsq : √d.C ^ 2 = d.C := Real.sq_sqrt hC.le
    have hs0 : √d.C ≠ 0 := (Real.sqrt_pos.2 hC).ne'
    congr 1
    have e1 : d.w i * d.S i / √d.C = d.w i * d.S i / d.C * √d.C := by
      rw [div_eq_iff hs0, mul_assoc, ← sq, hsq]
      field_simp
    have h0' := h0.ne'
    rw [e1]
    field_simp

end Duel
end TrueSkill
end Skillratings
