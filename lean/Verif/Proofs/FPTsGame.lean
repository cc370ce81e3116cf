import Verif.Proofs.FPTsAny
/-
A decided TrueSkill game in floating-point arithmetic: the updates stay in bounds, whatever the lead.
-/

namespace Skillratings
open FP FPVal Spec
variable {E : FloatEnv}

/-- What holds of all players after `m` games, through games that satisfy `Q`. -/
theorem tournament_games {ι γ R : Type} [DecidableEq ι]
    (rate : R → R → Outcomes → γ → R × R) (P : ℕ → R → Prop) (Q : Outcomes → γ → Prop) (N : ℕ)
    (hmono : ∀ n a, P n a → P (n + 1) a)
    (h : ∀ n a b o c, n + 1 ≤ N → Q o c → P n a → P n b →
      P (n + 1) (rate a b o c).1 ∧ P (n + 1) (rate a b o c).2)
    (pool : ι → R) (games : List (Spec.Game ι γ)) (m : ℕ) (hN : m + games.length ≤ N)
    (hQ : ∀ g ∈ games, Q g.outcome g.config) (hp : ∀ i, P m (pool i)) (i : ι) :
    P (m + games.length) (Spec.tournament rate pool games i) := by
  induction games generalizing pool m with
  | nil => exact hp i
  | cons g gs ih =>
    have e : Spec.tournament rate pool (g :: gs)
        = Spec.tournament rate (Spec.playGame rate pool g) gs := rfl
    rw [e]
    simp only [List.length_cons] at hN ⊢
    have := ih (Spec.playGame rate pool g) (m + 1) (by omega)
      (fun g' hg' => hQ g' (List.mem_cons_of_mem _ hg')) (by
        intro j
        have hg := h m (pool g.first) (pool g.second) g.outcome g.config (by omega)
          (hQ g List.mem_cons_self) (hp _) (hp _)
        simp only [Spec.playGame]
        by_cases h2 : j = g.second
        · subst h2; rw [Function.update_self]; exact hg.2
        · rw [Function.update_of_ne h2]
          by_cases h1 : j = g.first
          · subst h1; rw [Function.update_self]; exact hg.1
          · rw [Function.update_of_ne h1]; exact hmono _ _ (hp j))
    rwa [show m + 1 + gs.length = m + (gs.length + 1) by omega] at this

namespace TrueSkill

/-- A new rating in floating-point arithmetic, for corrections of any size. -/
theorem rating_any {r σ v c τ m : FP E} {S C κ : ℝ} (hS : Ap 2 42 (Flt.mulAdd σ σ (Flt.powi τ 2)) S)
    (hc : Ap 20 50 c C) (hm : Near 0 m κ) (hκ : |κ| = 1) (hv : Between 0 (2 ^ 60) v)
    (hr : r.isFinite) (hr1 : |r.toR| ≤ 2 ^ 80) :
    Near ((|r.toR| + 30 * (S / C * v.toR) + 1) / 2 ^ 50) (newRating r σ v c τ m) (r.toR + κ * (S / C) * v.toR) := by
  have k1 := hS.div hc (by norm_num) (by norm_num) (by norm_num)
  rw [newRating]
  generalize Flt.mulAdd σ σ (Flt.powi τ 2) / c = x at k1 ⊢
  set K := S / C
  have hK := k1.2.pos
  have b1 := k1.2.1
  have b2 := k1.2.2
  have p900 : (1 : ℝ) / 2 ^ 900 ≤ 1 / 2 ^ (42 + 50) :=
    one_div_le_one_div_of_le (by positivity) (pow_le_pow_right₀ (by norm_num) (by norm_num))
  have q900 : (2 : ℝ) ^ 200 ≤ 2 ^ 900 := pow_le_pow_right₀ (by norm_num) (by norm_num)
  have n1 := k1.1.near hK.le
  have hκK : |κ * K| = K := by rw [abs_mul, hκ, one_mul, abs_of_pos hK]
  have n2 := (small_mul hm n1 (M := 2 * K) (by rw [hκK, hκ]; norm_num; linarith)
    (p900.trans (by linarith)) (le_trans (by norm_num at b2 ⊢; linarith) q900)).mono
    (δ := 25 / 2 ^ 50 * K) (by rw [hκ]; norm_num; linarith)
  have v0 := hv.2.1
  have hKv : 0 ≤ K * v.toR := by positivity
  have hKv2 : K * v.toR ≤ 2 ^ (42 + 50) * 2 ^ 60 := mul_le_mul b2 hv.2.2 v0 (by positivity)
  have r0 := abs_nonneg r.toR
  have hb : |κ * K * v.toR + r.toR| ≤ K * v.toR + |r.toR| := by
    refine (abs_add_le _ _).trans ?_
    rw [abs_mul, hκK, abs_of_nonneg v0]
  have n3 := near_mulAdd n2 (near_self hv.1) (near_self hr) (M := |r.toR| + 2 * (K * v.toR) + 1) (by
      rw [hκK, abs_of_nonneg v0, show 25 / 2 ^ 50 * K * v.toR = 25 / 2 ^ 50 * (K * v.toR) by ring]
      norm_num; linarith) (by linarith) (le_huge 200 (by norm_num at hKv2 hr1 ⊢; linarith) (by norm_num))
  rw [hκK, abs_of_nonneg v0, show 25 / 2 ^ 50 * K * v.toR = 25 / 2 ^ 50 * (K * v.toR) by ring] at n3
  rw [show r.toR + κ * K * v.toR = κ * K * v.toR + r.toR by ring]
  refine n3.mono ?_
  norm_num; linarith

theorem variance_floor {s t b : ℝ} (hs : 0 < s) (ht : 0 ≤ t) (hb : 0 < b) (h1 : t ≤ b / 4) (h2 : s ≤ 256 * b) :
    t / 2 ≤ (s + t) * (1 - 513 / 512 * ((s + t) / (s + 2 * b)) - 1 / 2 ^ 32) := by
  have h0 : 0 < s + 2 * b := by positivity
  have e : (s + t) * (1 - 513 / 512 * ((s + t) / (s + 2 * b)) - 1 / 2 ^ 32)
      = (s + t) * ((s + 2 * b) * (1 - 1 / 2 ^ 32) - 513 / 512 * (s + t)) / (s + 2 * b) := by
    field_simp
    ring
  rw [e, le_div_iff₀ h0]
  have h5 : 1.2 * b ≤ (s + 2 * b) * (1 - 1 / 2 ^ 32) - 513 / 512 * (s + t) := by
    norm_num; linarith
  refine le_trans ?_ (mul_le_mul_of_nonneg_left h5 (by positivity))
  have h7 : t * s ≤ b / 4 * s := mul_le_mul_of_nonneg_right h1 hs.le
  have h8 : 0 ≤ t * b := by positivity
  have h9 : 0 ≤ s * b := by positivity
  rw [show t / 2 * (s + 2 * b) = t * s / 2 + t * b by ring,
    show (s + t) * (1.2 * b) = 1.2 * (s * b) + 1.2 * (t * b) by ring]
  rw [show b / 4 * s = s * b / 4 by ring] at h7
  norm_num; linarith

/-- One side of a decided game: `win` and `lose` are the ratings before the game. -/
theorem side_any (L : E.Lib) {r σ v w c τ m : FP E} {β C κ R U V q : ℝ}
    (hσ : Between (1 / 2 ^ 20) (2 ^ 20) σ) (hβ : 1 / 2 ^ 18 ≤ β) (hβ2 : β ≤ 2 ^ 16) (hV : σ.toR ^ 2 ≤ V * β ^ 2)
    (hV2 : V ≤ 256) (hτ : τ.isFinite) (hτ1 : 1 / 2 ^ 19 ≤ |τ.toR|) (hτβ : 2 * |τ.toR| ≤ β) (hc : Ap 20 50 c C)
    (hC : σ.toR ^ 2 + 2 * β ^ 2 ≤ C ^ 2) (hr : r.isFinite) (hr1 : |r.toR| ≤ R) (hR : R ≤ 2 ^ 40 * β)
    (hm : Near 0 m κ) (hκ : |κ| = 1) (hu : Usable U v w) (hU : |U| ≤ 2 ^ 50)
    (hUC : C * max 0 (-U) ≤ q) (hq : q ≤ 2 ^ 42 * β) :
    ((newRating r σ v c τ m).isFinite ∧ ∃ x, 0 ≤ x ∧ x ≤ q + 19 * β ∧
      |(newRating r σ v c τ m).toR - (r.toR + κ * x)| ≤ β) ∧
    (newUncertainty σ c w τ).isFinite ∧ 1 / 2 ^ 20 ≤ (newUncertainty σ c w τ).toR ∧
      (newUncertainty σ c w τ).toR ^ 2 ≤ (V + τ.toR ^ 2 / β ^ 2 + 1 / 2 ^ 23) * β ^ 2 := by
  have hβ0 : 0 < β := lt_of_lt_of_le (by positivity) hβ
  have hC0 := hc.2.pos
  have hs0 : 0 < σ.toR := lt_of_lt_of_le (by positivity) hσ.2.1
  have hτb : |τ.toR| ≤ 2 ^ 20 := by norm_num at hβ2 ⊢; linarith [abs_nonneg τ.toR]
  have hva := variance_ap L hσ hτ hτb
  have t1 : τ.toR ^ 2 ≤ β ^ 2 / 4 := by
    rw [← sq_abs]; nlinarith [abs_nonneg τ.toR]
  have t2 : 1 / 2 ^ 38 ≤ τ.toR ^ 2 := by
    have := pow_le_pow_left₀ (by positivity) hτ1 2
    rw [sq_abs, div_pow, one_pow, ← pow_mul] at this; exact this
  have b0 : 0 < β ^ 2 := by positivity
  have s1 : σ.toR ^ 2 ≤ 256 * β ^ 2 := hV.trans (mul_le_mul_of_nonneg_right hV2 b0.le)
  set S := σ.toR ^ 2 + τ.toR ^ 2 with hS
  have hS0 : 0 < S := by positivity
  have hC2 : 0 < C ^ 2 := by positivity
  have hSC : S / C ^ 2 ≤ 0.994 := by
    rw [div_le_iff₀ hC2]
    norm_num at s1 t1 hC ⊢; linarith
  have hSC' : S ≤ C ^ 2 := by linarith
  have hK0 : 0 < S / C := by positivity
  have hK : S / C ≤ 17 * β := by
    refine le_of_sq_le_sq ?_ (by positivity)
    rw [div_pow, div_le_iff₀ hC2]
    nlinarith
  obtain ⟨v1, v2, v3⟩ := hu.v
  obtain ⟨w1, w2, w3⟩ := hu.w
  have hm0 : 0 ≤ max 0 (-U) := le_max_left _ _
  have hmU : max 0 (-U) ≤ 2 ^ 50 := max_le (by positivity) (by have := neg_le_of_abs_le hU; linarith)
  generalize Max.max 0 (-U) = M at hm0 hmU hUC v3
  refine ⟨?_, ?_⟩
  · have hKv : S / C * v.toR ≤ q + 18.9 * β := by
      have h1 : S / C * v.toR ≤ S / C * (1.000001 * M + 1.1) := mul_le_mul_of_nonneg_left v3 hK0.le
      have h2 : S / C * M = S / C ^ 2 * (C * M) := by field_simp
      have h3 : S / C ^ 2 * (C * M) ≤ 0.994 * (C * M) :=
        mul_le_mul_of_nonneg_right hSC (by positivity)
      have h4 : 0 ≤ C * M := by positivity
      norm_num at h1 h3 ⊢
      nlinarith
    have hKv0 : 0 ≤ S / C * v.toR := by positivity
    have n := rating_any hva hc hm hκ ⟨v1, v2, v3.trans (by norm_num at hmU ⊢; linarith)⟩ hr
      (hr1.trans (hR.trans (by norm_num at hβ2 ⊢; linarith)))
    refine ⟨n.1, S / C * v.toR, hKv0, hKv.trans (by norm_num; linarith), ?_⟩
    rw [show r.toR + κ * (S / C * v.toR) = r.toR + κ * (S / C) * v.toR by ring]
    refine n.2.trans ?_
    norm_num at hβ hR hq hKv ⊢
    linarith
  · have hwn : Near 0 w w.toR := near_self w1
    have hR0 : 0 < S / C ^ 2 := by positivity
    have hwS : w.toR * (S / C ^ 2) ≤ 513 / 512 * 0.994 := mul_le_mul w3 hSC hR0.le (by norm_num)
    have hwS0 : 0 ≤ w.toR * (S / C ^ 2) := by positivity
    obtain ⟨u1, u2, u3⟩ := uncertainty_fp L hva hc hSC' hwn (by norm_num) (by
      rw [abs_of_nonneg w2]; norm_num at w3 ⊢; linarith) (by norm_num at hwS ⊢; linarith)
    have u4 := abs_le.1 u3
    have hSb : S ≤ 257 * β ^ 2 := by linarith
    refine ⟨u1, ?_, ?_⟩
    · refine le_of_sq_le_sq (le_trans ?_ (show τ.toR ^ 2 / 2 ≤ _ from ?_)) u2.le
      · rw [div_pow, one_pow, ← pow_mul]; norm_num at t2 ⊢; linarith
      · have h1 : S * (1 - w.toR * (S / C ^ 2)) ≥ S * (1 - 513 / 512 * (S / C ^ 2)) := by
          have := mul_le_mul_of_nonneg_right w3 hR0.le
          exact mul_le_mul_of_nonneg_left (by linarith) hS0.le
        have h2 : τ.toR ^ 2 / 2 ≤ S * (1 - 513 / 512 * (S / C ^ 2) - 1 / 2 ^ 32) := by
          have h3 : S / C ^ 2 ≤ S / (σ.toR ^ 2 + 2 * β ^ 2) :=
            div_le_div_of_nonneg_left hS0.le (by positivity) hC
          have h4 := variance_floor (s := σ.toR ^ 2) (t := τ.toR ^ 2) (b := β ^ 2) (by positivity) (by positivity) b0 t1 s1
          rw [← hS] at h4
          refine h4.trans (mul_le_mul_of_nonneg_left ?_ hS0.le)
          linarith
        have h3 := u4.1
        rw [zero_add] at h3
        rw [mul_sub] at h2
        linarith
    · have h1 : S * (1 - w.toR * (S / C ^ 2)) ≤ S := mul_le_of_le_one_right hS0.le (by linarith)
      have e : (V + τ.toR ^ 2 / β ^ 2 + 1 / 2 ^ 23) * β ^ 2 = V * β ^ 2 + τ.toR ^ 2 + β ^ 2 / 2 ^ 23 := by
        field_simp
      rw [e]
      have h3 := u4.2
      norm_num at h3 ⊢
      linarith

end TrueSkill
end Skillratings
