# Formal model of `skillratings` in Lean 4

The crate in `/repo` (Rust) is modelled function by function in Lean 4 (`lean/Verif/Model`).
The properties of `properties.jsonl` are proved as theorems about that model
(`lean/Verif/Props`).  `MANIFEST.json` maps every property to its theorems.

## 1. Trusted base

* Lean's kernel (Lean 4.33.0) and Mathlib's definitions of the real numbers and of the
  functions `exp`, `log`, `sqrt`, `rpow`.
* The axioms `propext`, `Classical.choice` and `Quot.sound`, and no others.  There is no
  `sorry`, no `admit`, no own axiom, no `native_decide` and no `bv_decide`.
  (`FloatCheck.lean` runs `#guard`s, which are tests, not proofs; nothing depends on them.)
* That the model says what the Rust code says.  Every definition cites the file and the
  lines it transcribes.  `Verif/FloatCheck.lean` evaluates the model on Lean's `Float` and
  compares it with the expected values of the crate's own unit tests and doc examples.
* The reading of arithmetic, section 2.

## 2. Arithmetic: one model, several readings

The model is written once, over an abstract arithmetic `class Flt F` (`Verif/Flt.lean`)
with one field per `f64` operation that the crate uses (`+ - * /`, `mul_add`, `recip`,
`powi`, `powf`, `exp`, `ln`, `sqrt`, `hypot`, `min`, `max`, comparisons, literals, ...).
The order of operations is the one of the source, including every `mul_add`.

1. **Any arithmetic** (`F` arbitrary).  Theorems without any assumption on `F` hold bit for
   bit for IEEE doubles, for every rounding mode and every libm: agreement of code paths,
   delegation, folds, shapes, orders, counters, error conditions.
2. **Exact reals** (`F = ℝ`, `Verif/FltReal.lean`).  `mul_add a b c` is `a*b+c`, `recip` is
   the inverse, and so on.  Theorems about formulas, ranges, monotonicity, conservation.
   Mathlib's functions are total (`x/0 = 0`, `√x = 0` and `log x` junk for `x ≤ 0`); where
   a division by zero or a negative argument would be reachable the theorem has hypotheses that
   exclude it, and these cases are treated in reading 3.
3. **Floating point with special values** (`Verif/FP.lean`).  The values of `FP E` are those of
   binary64: NaN, two infinities and the finite values `±n·2^k` (`n < 2^53`, `-1074 ≤ k ≤ 971`)
   with a signed zero.  `+ - * / mul_add sqrt` and literals compute the exact result and round it
   with an arbitrary monotone rounding that keeps representable numbers and may overflow to
   infinity (`FloatEnv.mag`).  The library functions, whose precision Rust leaves open, are
   arbitrary; a theorem that needs something about them has the hypothesis `L : E.Lib`, a list of
   sign, range and special-value facts (`FloatEnv.Lib`): `powi` with the exponents 2, 3, 4, -1, -2
   is the product or quotient it is compiled to; powers of positive numbers are non-negative; a
   non-integral power of a negative number is NaN; `exp` is non-negative, on the right side of 1
   and overflows from 710 on; `ln` has the right sign, and `2 ≤ ln 10 ≤ 3`; `hypot` is at
   least as large as both arguments and at most any representable bound of their sum.  `Verif/FPInstance.lean` constructs round-to-nearest-even with
   correctly rounded library functions and proves that it meets all of them (`ieee_lib`).
   Theorems about rounding errors (C112) have a second hypothesis `A : E.Accurate`
   (`Spec/Accuracy.lean`): powers of ten and `exp` have a relative error of at most `2^-50`
   for arguments of moderate size; `ieee_accurate` shows it for the instance.
   C123 uses in addition `P : E.Precise` (`Spec/Precise.lean`): `ln 10` and `hypot` have a relative
   error of at most `2^-50`; `ieee_precise` shows it for the instance.  C126 uses
   `G : E.LogAccurate` (`Spec/LogAccurate.lean`): `ln` has a relative error of at most `2^-50` below
   3/4; shown by `ieee_logAccurate`.  C129 and C131 use `P : E.Faithful`
   (`Spec/Functions.lean`): `powf`, `exp_m1` and `ln_1p` have a relative error of at most `2^-50` for
   positive arguments of moderate size; shown by `ieee_faithful`.  C127 and C128 use `S : E.Scales` (`Spec/Scales.lean`): rounding
   commutes with halving away from underflow and overflow, and `W : E.LogWide`
   (`Spec/LogWide.lean`): `ln` has an absolute error of at most `2^-40` between `2^-100` and `2^100`
   and is minus infinity at zero; shown by `ieee_scales` and `ieee_logWide`.
   The Weng-Lin theorems of C79, C80 and C100 use `Accurate` too.  The EGF theorems of C79, C80 and C100 have
   a third hypothesis `G : E.Moderate` (`Spec/Library.lean`): `powf`, `ln` and `ln_1p` exceed the
   exact value by at most a relative and absolute error of `2^-50`; shown by `ieee_moderate`.
   The TrueSkill theorems of C100 use `Accurate`, `LogAccurate` and `X : E.Fading` (`Spec/Fading.lean`): `exp` of
   anything below -390 is between zero and `2^-550`; shown by `ieee_fading`.
   Simplifications: one NaN (its sign bit reads as positive, payloads are not modelled).
   Used for NaN, floor, range and direction claims.
4. **Lean `Float`** — only in `FloatCheck.lean`, to test the transcription.

## 3. What is modelled

| Source | Model | Left out |
|---|---|---|
| `src/lib.rs` | `Model/Common.lean` | serde derives |
| `src/elo.rs` | `Model/Elo.lean`, `Model/Convert.lean` | |
| `src/dwz.rs` | `Model/Dwz.lean` | `std::error::Error` |
| `src/egf.rs` | `Model/Egf.lean` | |
| `src/fifa.rs` | `Model/Fifa.lean` | |
| `src/ingo.rs` | `Model/Ingo.lean` | |
| `src/glicko.rs` | `Model/Glicko.lean` | |
| `src/glicko2.rs` | `Model/Glicko2.lean` | |
| `src/glicko_boost.rs` | `Model/GlickoBoost.lean` | |
| `src/sticko.rs` | `Model/Sticko.lean` | |
| `src/uscf.rs` | `Model/Uscf.lean` | |
| `src/weng_lin.rs` | `Model/WengLin.lean` | |
| `src/trueskill/*.rs` | `Model/TrueSkill.lean`, `Model/TrueSkill/*` | `std::error::Error` |

Simplifications (also stated next to the definitions):

* `usize` is `Nat`, `i32`/`i64` are `Int`: no overflow of counters.
* Slices and vectors are lists; `HashMap` literals are association lists; the map of
  messages of a factor-graph variable is a total function (every key is inserted before use).
* `Rc<RefCell<Variable>>` is a reference into an explicit store (borrow errors are not modelled:
  no borrow outlives a statement).
* A loop without bound (`glicko2::new_volatility`) is a `partial_fixpoint` in `Option`;
  `none` means that the call never returns.
* A panic is an explicit value of `Except Panic`: a zero standard deviation (the
  `assert!`), an index out of range (every index of `matrix.rs` and of the schedule is checked).
* `f64::midpoint a b` is `(a+b)/2`.
* `Iterator::sum` starts from the constant `sumZero` (`-0.0` in recent toolchains, `0.0` in older).

Not modelled: serde, `Debug`/`Clone` derives, doc tests, compile-time aspects.

## 4. Layout

* `Verif/Flt.lean`, `Verif/FltReal.lean`, `Verif/FP.lean`, `Verif/FPInstance.lean` — arithmetic and
  its readings.
* `Verif/Model/*` — the model.
* `Verif/Spec/*` — small independent specifications (published formulas, tournaments, histories).
* `Verif/Proofs/*` — helper lemmas.
* `Verif/Props/*` — the property theorems, named `Cnn_...`, with an `example` next to each that
  shows a concrete case meeting the hypotheses.
* `Verif/FloatCheck.lean` — tests of the transcription.

## 5. Properties

For each property: the reading (1 any arithmetic, 2 reals, 3 floating point) and the proof idea.

| Id | Reading | Method |
|---|---|---|
| C01 | 2 | logistic function facts (`Proofs/Logistic`), list map for the period variant (1) |
| C02 | 2 | invariant of a tournament fold over a pool `ι → ℝ` |
| C03 | 2 | sign and size of `outcome - expected` |
| C04 | 2 | symmetry and translation of the logistic function |
| C05 | 1 | induction on the result list, definitional equality of the step |
| C06 | 2 | `σ(x) - 1/2 ≤ x/4`; explicit counterexample for large `k` |
| C07 | 2 | as C01 with scale 600 |
| C08 | 2 | as C02, C03 |
| C09 | 2, 3 | case split on the guard; NaN cases in `FP` |
| C10 | 1 | as C05 |
| C11 | 2 | formula for the first seat; refutation with explicit ratings for the second |
| C12 | 2 | as C01 |
| C13 | 2 | bounds of the development coefficient by cases |
| C14 | 1 | induction on histories |
| C15 | 2 | sums over lists are permutation invariant |
| C16 | 2 | sum of chess points equals 0 or n iff all results are losses or wins |
| C17 | 2 | table facts over its 51 entries, rounding stays in range |
| C18 | 2 | logistic form of `(3300-r)^7`; monotone in the handicap |
| C19 | 2, 3 | `max` with -900 |
| C20 | 2 | one-game case from C21; refutation: three losses from -800 |
| C21 | 2 | as C15 |
| C22 | 2 | positivity of con and bonus |
| C23 | 3 | spacing of the floats above 3300, NaN propagation, `max` drops NaN |
| C24 | 2 | convex combination |
| C25 | 1, 2 | as C15 |
| C26 | 2 | linear arithmetic; refutation outside 50 points |
| C27 | 3 | 0/0 |
| C28 | 2 | logistic facts; g in (0,1], decreasing |
| C29 | 2 | independent specification in `Spec/Glicko` |
| C30 | 2 | invariant over an inductive history type |
| C31 | 2 | from C29 |
| C32 | 2 | sums over singletons and permutations |
| C33 | 2 | induction on n |
| C34 | 2 | arithmetic |
| C35 | 2 | as C28 |
| C36 | 2 | loop invariant (`partial_fixpoint` induction) and the intermediate value theorem |
| C37 | 2 | termination argument for the bracketing loop and the Illinois iteration |
| C38 | 2 | independent specification |
| C39 | 2 | from C38 |
| C40 | 1, 2 | congruence, permutation invariance, induction |
| C41-C46 | 2 | as Glicko; refutations with explicit players |
| C47 | 2 | the two specifications coincide |
| C48-C50 | 2 | as Glicko |
| C51-C57 | 2, 3 | case analysis on the two regimes; sums over lists |
| C58 | 2 | softmax |
| C59 | 1 | lengths of maps |
| C60 | 1, 2 | unfolding; ranks to outcomes |
| C61 | 2 | factor in [tolerance, 1]; invariant over histories |
| C62 | 2 | antisymmetry of the pairwise terms, double sum |
| C63 | 1, 2 | `cmp` is invariant under strictly monotone maps; permutation of sums |
| C64 | 2 | bounds of the polynomial erfc approximation |
| C65 | 2 | exp and sqrt facts |
| C66 | 1, 2 | unfolding, induction |
| C67 | 2 | v > 0 |
| C68 | 1 | independent specification of the first error, induction |
| C69 | 1 | stable sort is a permutation, unsort inverts it |
| C70 | 2 | positivity of the precision of every prior |
| C71 | 1 | uniqueness of sorted permutations |
| C72 | 2 | symbolic run of the two-team factor graph |
| C73 | 2 | Laplace expansion against Mathlib's `Matrix.det`, `adjugate` |
| C74 | 2 | C73, positive definiteness |
| C75 | 2 | arithmetic |
| C76 | 1 | definitional |
| C77 | 1, 2 | arithmetic |
| C78 | 2 | cases |
| C79-C81 | 3 | sign and range analysis with monotone rounding |
| C82, C83, C85, C86, C87, C88, C89, C90 | 2 | refinement to the published formula |
| C84 | 2 | monotonicity of sqrt; refutation for m = 3 and m >= 5 |
| C91 | 1, 2 | evaluation of the constructors on symbolic arguments |
| C92 | 2 | new ratings are affine in the points; guards and floors are convex |
| C93 | 2 | strict monotonicity of logistic curves and of (x - t)/(A + B x (1 - x)) |
| C94 | 2 | induction over the period; slope of the logistic curve at most 1/4; sharpness by a derivative; Glicko-2 by monotonicity of the root of the volatility equation in the surprise |
| C95 | 2 | refutation with a family of witnesses; `_partial` below the threshold |
| C96 | 1 | the functions factor through the relevant fields |
| C97 | 2 | simulation: an invariant relates the store of the factor graph to the team-level messages of `Spec/Chain`; sign and size of two Halley steps; for ties a bound of the drawn message (Proofs/DrawMessage) and an invariant of the chain (Proofs/ChainTies) |
| C98 | 2 | positivity of all message precisions is kept by the schedule |
| C99 | 2 | half-line invariants for the means of all messages; `v (v + x)` and `v + x` bounds for the fit |
| C100 | 3 | interval arithmetic with representable bounds; invariant over the history with a bound that grows with the number of games; TrueSkill: a lower bound of the inverse Mills ratio keeps the computed correction of the variance between zero and 513/512 for leads of any size |
| C101 | 3 | `f64::min` with a number returns a number |
| C102 (partial) | 2 | lower and upper bounds of the error function fit near zero against `(2/sqrt pi) z exp(-z^2)`; the variance of a truncated normal variable is at least 0.23 p^2 (Chebyshev) and at most 0.51 on one side of zero (integration by parts), which beats the error of the fit; windows on one side of zero: the fit is accurate on *differences* (its derivative is the density up to a factor 1 ± 6.4e-6, in the tail 1 ± 1.2e-7), the variance is at least that of a uniform law with the same maximal density, and the mass of the window in units of that density is bounded below by a monotone comparison |
| C103 | 3 | the run for two players in closed form (Proofs/OneOnOne.lean), infinities and NaN along it, bounds 'unless NaN' |
| C104 | 2 | invariant for the two ends of the chain: the message to the neighbour is the inverse of a sum of variances; all means stay equal in a complete tie |
| C105 | 2 | determinant and inverse quadratic form of D diag(c) Dᵀ (D = differences of neighbours) by bordering D with a row that makes it triangular |
| C106 | 3 | trace of `run_schedule` for any arithmetic and any match (Proofs/Trace.lean, TraceMulti.lean); zero coefficients make a sum of zeros or NaN, whose reciprocal is not finite |
| C107 | 3 | the panics of `run_schedule` are the priors and the number of teams; bounds on the priors; a window of tiny uncertainties that does panic (section 6, item 25) |
| C108 | 2 | the refinement formulas of each system, with the two sides exchanged; a witness for shootouts |
| C109 | 2 | the refinement formulas depend on differences and ratios; witnesses where they do not; for several TrueSkill teams a simulation of the messages |
| C110 | 2 | the refinement formulas see a team only through sums over its players |
| C111 | 2 | monotone sequences: a bounded orbit would gain a fixed amount per game (with shrinking deviations a harmonic series); a contraction for rematches |
| C112 | 2, 3 | error analysis: every operation rounds with relative error 2^-52 (derived from monotone rounding and representability), an absolute-error calculus, and the exact update does not expand distances (slope of the logistic curve at most 1/4) |
| C113 | 2 | the information of a game is at most q²/4, the entry variance at least min(c², 350²), and the posterior is monotone in both; TrueSkill by the read-out of C97; the limits by 1/RDₙ² ≥ n·I and by a fixed-point argument |
| C114 | 2 | error analysis of the fit `erfc(z) ≈ t·exp(-z² + Q(t))`: the derivative of the fit is `-(2/√π)e^{-z²}·e^{G(t)}`; `G` is bounded by polynomial tables checked in the kernel (`decide +kernel` on rational arithmetic, with a soundness theorem: Proofs/PolyBound.lean), and integrated from infinity; the true law is Mathlib's `gaussianReal` |
| C115 | 2 | skills and lead are jointly normal, so skill minus its regression on the lead is independent of the lead (Mathlib); moments of a truncated normal variable by integration; then the error of the fit; two teams in the factor graph by C72 |
| C116 | 2 | the starting guess is within 0.01 of the exact quantile: monotone on 980 cells, each checked with rational bounds of `exp` by the kernel (soundness theorem `cells_sound`); the error of a step of Halley's method is cubic (mean value theorem), plus the error of the fit |
| C117 | 2 | derivative of the log-likelihood of the logistic model; the refinement lemmas of Elo, FIFA and Weng-Lin |
| C118 | 2 | first and second derivative of the log-posterior, by induction over the list of games; strict concavity and the limits at infinity give a unique maximum; the sign of the derivative gives the side |
| C119 | 2 | invariant `Compact`: the total of every group of players is bounded by a concave function of its size; at a group that attains the maximum after a game, players inside and outside are far apart, so the group gains almost nothing |
| C120 | 2 | the rule is online gradient descent: the squared distance to the fixed ratings as potential, convexity of the loss, `(1 - p)² ≤ -ln p / 2` |
| C121 | 2 | the iterates of regula falsi stay in the initial bracket (partial correctness of the loop); bounds of the zeros of Glickman's function |
| C122 | 2 | monotonicity of the closed forms; the negation for rating periods (games are processed one after another, so an early win changes the uncertainty, and with it the cost of later losses) |
| C123 | 3 | relative-error calculus (`Proofs/FPRel.lean`): every intermediate value carries a relative or absolute error bound against the real formula; differences are bounded absolutely, because they may cancel |
| C124 | 3 | error analysis of the fitted `erfc` in floating point (`Proofs/FPErfc.lean`), composed with the accuracy of the fit (C114) and the generative model; compared with the true normal distribution because the fit jumps at 0 |
| C125 | 3 | error analysis of the pdf/cdf quotients, of the draw terms and of the update (`Proofs/FPTsUpdate.lean`), composed with the conditional laws of C115; for teams (`Props/FloatBayesTeams.lean`) also of the sums over the members |
| C126 | 3 | perturbed Halley steps (`Proofs/QuantilePerturbed.lean`) fed by an error analysis of guess and steps (`Proofs/FPQuantile.lean`) |
| C127 | 3 | the Illinois iteration with rounding noise: exact function (`Proofs/VolFunction.lean`), noise of its values (`Proofs/FPVolNoise.lean`), secant steps and bisection (`Proofs/FPSecant.lean`, `FPIllinois.lean`, `FPVolZero.lean`), start of the iteration (`FPVolStart.lean`), then the perturbation of the root by the rounded inputs (`FPVolGame.lean`, `FPGlicko2Game.lean`, `FPGlicko2Player.lean`) |
| C128 | 3 | the search of C127 with the sums of a period as input: relative error of a sum of positive terms, absolute error of the sum of gains measured against the variance (`Proofs/FPGlicko2Period.lean`); the corollary bounds the improvement by Cauchy-Schwarz |
| C129 | 3 | error analysis of the average, bonus and provisional formulas (`Proofs/FPAverage.lean`, `Props/FloatAccuracyUscf.lean`) and of the development coefficient (`Proofs/FPDwz.lean`): if score and expectation are close, both changes are tiny, otherwise the comparisons agree and clipping does not increase errors |
| C130 | 3 | points and table entries are exact, the percentage has an error of at most 2⁻⁴⁰ while its distance from a half-way point is at least 2⁻¹¹ or zero (`Proofs/FPFirstDwz.lean`); the negation at a half-way point by computing two roundings to nearest |
| C131 | 3 | error propagation through `powf` with a rounded exponent, `ln_1p (exp x)`, `ln` and the logistic function (`Proofs/FPEgf.lean`), the floor is 1-Lipschitz, and a rounded sum for rating periods |
| C132 | 3 | as C123, with the variance widened by `h` (`Proofs/FPSticko.lean`), the pull towards the average opponent and the advantage of one side |
| C133 | 3 | as C132; expected scores and their complements with *relative* errors (ratings at most 800 points apart), so that the standardised performance is known well (`Proofs/FPBoost.lean`); the jump at the threshold of the boost is a backward error: the threshold may be moved by `2 ^ -30`, and only for a performance at the threshold (`Spec.ThresholdNear`) |
| C134 | 3 | as C123: FIFA periods by induction over the matches (a match is non-expansive in the rating), Ingo periods by the error of an average, Glicko-2 expected scores with the relative calculus of `Proofs/FPGlicko2Player.lean` |
| C135 | 3 | as C123; errors of the sums over a team and over the other teams (`Proofs/FPWlTeams.lean`); the new uncertainty is the root of a number that is kept away from zero by the tolerance or, for at most four teams, by itself |
| C136 | 3 | relative errors through quotient, root, square and exponential; the exponent has an absolute error because the leads are at most 19 standard deviations |
| C137 | 2, 3 | partial derivatives of new rating and new uncertainty bounded by 1, 1.34, 0.145 and 1.25 (`Proofs/WlStable.lean`), mean value theorem, induction over the period; the invariant `Ready` keeps the computed players within the range of C123 |
| C138 | 2 | squared distance between ratings and strengths as a Lyapunov function: its mean change per game is at most `-(8/a - 2k) k q + k²/2` with `q` the squared forecast error (the logistic function has slope at most 1/4); induction over the number of games (`Proofs/Learning.lean`) |
| C139 | 2 | stochastic approximation (Robbins and Monro): squared error minus the accumulated gains is a supermartingale bounded below, so it converges (Mathlib's martingale convergence theorem); the pull towards the strength is bounded away from 0 outside a neighbourhood of it and the step sizes sum to infinity, so the limit is 0 (`Proofs/RobbinsMonro.lean`, assumptions on the games in `Spec/Career.lean`; a career exists: `Proofs/CoinTosses.lean`). Never settling: two consecutive ratings differ by a constant amount |
| C140 | 2 | the squared distance between ratings and strengths falls on average, up to summable errors, so it converges and its falls have a finite sum (`Proofs/RobbinsSiegmund.lean`, `Proofs/SeasonWalk.lean`); errors that cancel and do not vanish differ between two neighbours of a connected graph, so the limit is 0 (`Proofs/SeasonPath.lean`); assumptions on the games in `Spec/Season.lean`, a season exists: `Proofs/CoinSeason.lean` |
| C141 | 2 | the published update is the weighted mean of the old rating and the mean of the opponents up to 706 (1 + abs(beta)) points per game; geometric recursion |
| C142 | 2 | the squared distance falls on average by a multiple of the squared forecast error, up to `k^2 / 2`; its noise, divided by the number of the game, is a martingale bounded in mean square, so its mean tends to 0 (`Proofs/LongRunMean.lean`, `Proofs/SeasonConstant.lean`) |
| C143 | 2 | each decided game moves the rating by at least a fixed amount as long as the rating stays bounded: development coefficients, effective games and the deviation of Glicko-Boost and TrueSkill have positive bounds on the side that matters (`Proofs/FadingWalk.lean`) |
| C144 | 2 | the gap falls by `k` times a difference of expected scores; were its limit positive, the slopes of the logistic function would be summable, so the rating would leave every bounded region, but it could climb only by a summable amount (`Proofs/Forget.lean`) |
| C145 | 2 | the error of the rating is a weighted mean of the old error and of noise with mean 0; the mean, the mean square and (by the martingale law of large numbers of C142) the average follow (`Proofs/IngoLearning.lean`, `Proofs/LongRunMean.lean`) |
| C146 | 2 | a game moves a quantity from one weighted rating to the other; the group of players that is furthest above a bound on groups is at least 50 points above the rest and so cannot gain (`Proofs/IngoPool.lean`) |
| C147 | 2 | slope of the new rating as a function of the old one: bounds from the logistic function, for Glicko a polynomial inequality that uses the limit of 350, for EGF and USCF bounds on the change of the factor (`Proofs/KeepOrder.lean`); counterexamples for DWZ, USCF at 2355 and Glicko rating periods |
| C148 | 2 | the two moves are fractions of the difference that add up to less than 1: from the slope of the logistic function, for Glicko from a polynomial inequality in the two deviations (`Proofs/DrawOrder.lean`); counterexamples for index 0 and large `c` |
| C149 | 2 | the move is a factor, monotone in deviation, age, index or games, times a term that depends only on the rating; for Weng-Lin concavity of the logistic function on the positive half-line (`Props/Experience.lean`, `Props/ExperienceSticko.lean`); counterexamples at the 8/9 game boundary of USCF and with the pull of Sticko |
| C150 | 2 | log-odds are differences of strengths, scaled by a factor of the pair of deviations; the fitted normal distribution function of TrueSkill is below 1/2 just right of 0, which gives the cycles (`Props/Triples.lean`) |
| C151 | 2 | the gain is monotone in the strength of the opponent (C93) and converges; for TrueSkill the linear branch below the threshold of the distribution function (`Props/OneGame.lean`) |
| C152 | 2 | an exchange argument: two neighbouring results in rising order are at least as good as in falling order, and the update is monotone (C94), so the worst result can be moved to the front (`Props/Momentum.lean`) |
| C153 | 2 | the closed forms of C33 and C40; for Glicko-Boost each period adds at least a fixed positive amount to the squared deviation (`Props/Idle.lean`) |
| C154 | 3 | every operation between the score and the new rating is monotone before and after rounding (`Props/FloatResults.lean`, `Props/FloatResultsMore.lean`, `Props/FloatResultsUscf.lean`, `Props/FloatResultsEgf.lean`, `Props/FloatResultsSticko.lean`) |
| C155 | 2 | the smaller of the two ratings grows by at least a fixed amount per pair of matches; the EGF bonus is bounded below up to the ceiling (`Props/Inflation.lean`) |
| C156 | 2 | a team enters only through the sum of its ratings and of its squared uncertainties; the logistic function is strictly increasing (`Props/Teammates.lean`) |
| C157 | 2 | EGF: what a win is worth decreases strictly with the rating; Ingo: Bernoulli's inequality (`Props/Batch.lean`) |
| C158 | 2 | p(1-p) falls with the rating difference; y^2 p(y)(1-p(y)) rises on [0, 2] by its derivative; counterexample 1600 points away (`Props/Informative.lean`) |
| C159 | 2 | the updates are functions of the opponents and of the sum of the points; wins minus losses are twice the points minus the games (`Props/WhomYouBeat.lean`, `WhomYouBeatMore.lean`) |
| C160 | 2 | the factor lemma of C149 and monotonicity of the posterior variance (`Props/Parameters.lean`) |
| C161 | 2 | the change is a positive factor times the score minus the forecast; a witness for Glicko periods, where the update leaves out the deviation of the player (`Props/Outperform.lean`) |
| C162 | 3 | the points of the opponent are exact, and the two sides are then the same expressions; a witness for Elo, where they are not (`Props/FloatSeats.lean`) |
| C163 | 3 | NaN goes through every operation except `max`; induction over the list for periods; the volatility search of Glicko-2 stops because comparisons with NaN are false (`Props/FloatNan.lean`, `Props/FloatNanPeriods.lean`, `Props/FloatNanTeams.lean`) |
| C164 | 3 | equal ratings give a difference of exactly 0, `10^0` is exactly 1 by the two requirements on powers, so the score is exactly 1/2 and the fused update rounds the old rating itself; induction over the list for periods (`Props/FloatEven.lean`); TrueSkill: the two densities of `v_draw` are the same bits, so the correction is exactly 0 (`Props/FloatEvenTrueSkill.lean`); Weng-Lin teams: `e/(e+e)` is exactly 1/2, so every comparison adds exactly 0 (`Props/FloatEvenWlTeams.lean`); Sticko and Glicko-Boost with advantage and bonus 0 (`Props/FloatEvenColour.lean`) |
| C165 | 3 | induction over the schedule with C164 for each game; the invariants are the game counts, the deviations (never NaN) and the uncertainties (never above their bound) (`Props/FloatDrawn.lean`, `Props/FloatEvenColour.lean`) |
| C166 | 3 | the exact update returns the common rating, so C112 bounds the movement; the witness by locating each rounded result on the grid of its binade, away from ties (`Props/FloatIngoDraws.lean`) |
| C167 | 3 | one minus a score is off by at most `2^-54`, and everything within `2^-54` of one rounds to one: `1 - 2^-53` has an odd significand, so the tie goes to one (`Props/FloatScoreSum.lean`) |
| C168 | 3 | the error of a game (`2^-29`, C112) is below the smallest exact gain `1 / (1 + 10^8)`; from 7000 points on `10^-17` is absorbed by the one it is added to (`Props/FloatStrict.lean`, Glicko in `Props/FloatOrder.lean`) |
| C169 | 3 | the errors of two games (C112, C123, C131) are below the exact worth of half a point (`Props/FloatOrder.lean`) |

## 6. Disagreements between code and documentation

Found while modelling; each is proved as a theorem (see the table of properties).

1. C11: `fifa` credits the second team of a shootout with the first team's result.
2. C42: `glicko_boost::expected_score_rating_period` ignores the colour flag.
3. C46: Glicko-Boost with `eta = 0` is not Glicko.
4. C20: `egf_rating_period` can end below -900.
5. C53: `uscf_rating_period` does not apply the floor of 100.
6. C23: an EGF rating above 3300 turns into -900.
7. C26, C27: Ingo expected scores leave [0,1]; an empty Ingo period gives NaN.
8. C70: `trueskill_multi_team` panics for a single team (`weng_lin_multi_team` does not) and for
   a player of uncertainty zero.
9. C73, C74: `match_quality_multi_team` panics for one team, for two teams (the 1x1 inverse is the
   zero matrix) and for two teams whose weights are all zero.
10. C37: `glicko2` never returns for a negative tolerance (documented as forbidden).
11. C64: `trueskill::expected_score` of equal players is not symmetric (off by about 1.5e-8), and the
    expected score drops by 3e-8 when a player overtakes the opponent.
12. C81: overflow to NaN in Weng-Lin; `weng_lin_two_teams` divides the variance of a team by itself
    and returns NaN for teams without uncertainty; the expected score of a single TrueSkill team
    is 0/0.
13. C18: an EGF handicap strictly between 0 and 0.5 stones favours the wrong side.
14. C84: the USCF bonus uses `min(m, 4)` where the published rule has `max(m, 4)`.
15. C72: `trueskill` and `trueskill_two_teams` leave the dynamics `tau` out of `c`;
    `trueskill_multi_team` does not, so the two disagree for every `tau != 0`.
16. C68: an empty team makes `trueskill_multi_team` return before the weights are validated.
17. C95: the boost of Glicko-Boost can punish: it replaces the old deviation by one computed from the
    deviation *after* the games, which is smaller for new players. Four wins out of four pay less
    than three wins and a draw.
18. C92: `glicko::expected_score` includes the player's own deviation, the update does not: a
    favourite who scores as predicted loses points on average (as in the published system).
19. C102: a drawn `trueskill` game can take the square root of a negative number (the error function
    fit exceeds 1 at zero, so the variance correction `w` of a draw between equals exceeds 1 for small
    margins): a very uncertain player who draws with a well-known equal gets NaN.
20. C103: a tie in `trueskill_multi_team` that counts as impossible gives `w = 1`, and the truncation
    divides by `1 - w`; with `beta = 0` every tie of two players ends with NaN ratings and no error.
21. C104: tied equal teams get different uncertainties from `trueskill_multi_team`, depending on their
    order in the input (each team is compared with its neighbours in the standing only).
22. C106: the documentation gives weight `0.0` the meaning "has not played at all", but such a
    player ends with NaN as rating and uncertainty (or, in a corner case, untouched); the code sets
    all coefficients of that player's message to zero and divides by their sum of squares.
23. C115: `trueskill` and `trueskill_two_teams` add the dynamics `tau^2` to the variance of the player
    being updated but not to the total variance `c^2`, so they condition a model whose form of the
    day has variance `beta^2 - tau^2` (and none at all if `tau > beta`); `trueskill_multi_team` uses
    `beta^2`.
24. C122: `weng_lin_rating_period` and `trueskill_rating_period` process the games of a period one after
    another, with the uncertainty left by the earlier games. For every player there is a period in
    which winning the first game instead of drawing it (Weng-Lin) or losing it (TrueSkill) ends in a
    lower rating, all other results being the same. Also `trueskill` itself can value a draw above a win
    (`C122_trueskill_draw_beats_win`): near zero the error of the `erfc` fit is as large as the weight of
    a draw whose margin is below about 1e-7 standard deviations, and the code divides by that weight.
    For margins of at least 1/500 standard deviation the order is proved.
25. C107: in exact arithmetic `trueskill_multi_team` panics on an uncertainty only when it is zero and the
    dynamics factor is zero (C70). In double precision a non-zero uncertainty of magnitude up to
    `2^-600` with a dynamics factor of zero panics too: its square underflows
    (`C107_tiny_uncertainty_panics`). Uncertainties of magnitude at least `2^-480` never panic.
26. C130: `get_first_dwz` computes the percentage as `points / games * 100` and rounds it. In double
    precision 23 points in 40 games give 57.49999999999999 instead of 57.5, which rounds to 57 instead of
    58, so that the first rating is 7 points too low (`C130_first_dwz_half_percent_fails`). Only
    percentages exactly half-way between two integers are affected.

## 7. Seeded bugs

`seeded/LOG.jsonl` has one row per attempt whose edited model compiles; edits of the model that are
rejected by the compiler (312 so far) say nothing about the theorems and are left out. The file is
regenerated from the records of the runs. In the first hours a repeated run of a whole batch replaced the
records of that batch, so the number of runs of an edit may be understated; no edit of any committed
version of the log is missing. Versions up to commit
b8943db merged the runs of the same edit and showed only the best outcome: 24 edits that survived a first
run appeared as `caught` only. They now have a row for each run.

* `status`: `survived` means that the run found no failing theorem, `caught by other claims` that the claim
  the edit was aimed at was not among those that failed, `equivalent` that the edit changes no result.
  A survivor that was dealt with names the theorems added or sharpened in `theorems_tightened`.
* That an edit is caught is observed: a module that the theorems need does not build any more.
* `theorems_failed` is partly inferred. It contains the theorems at which the build reports errors and all
  theorems that use a failing lemma, found by name in the source text. Lemmas of the same name in other
  namespaces make the list too long, so theorems of another rating system are filtered out; theorems of
  files that follow in the same namespace may remain. Runs by generated edits stop at the first module
  that fails, which makes the list too short. `failed_directly`, in newer rows, has only the declarations
  at which errors were reported.
* In rows of generated edits `claim_broken` is derived from `theorems_failed`; only in rows with kind
  `by hand` was the claim chosen before the run.
