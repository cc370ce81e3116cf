{"id": "C01", "title": "Elo expected scores are probabilities", "statement": "The two numbers returned by elo::expected_score lie strictly between 0 and 1 and sum to 1; swapping the players swaps them; they depend only on the rating difference; the first is strictly increasing in the first rating and strictly decreasing in the second, equals 1/2 exactly when the ratings are equal, and the odds of the first player are 10^((r1-r2)/400). The list variant returns, for every opponent, exactly the first component of the pairwise function.", "quantifier": "for all pairs of real ratings, and all lists of opponents", "why_tests_cant": "The ratings range over a continuum; a test samples a few points, and a wrong sign, scale or comparison can agree with the code on all of them.", "anchors": ["src/elo.rs: expected_score, expected_score_rating_period"]}
{"id": "C02", "title": "Elo conserves the total rating of any pool of players", "statement": "After any sequence of games between distinct members of a pool, rated one after the other with elo::elo and any k factors, the sum of all ratings in the pool is what it was at the start.", "quantifier": "for all pools of any size, all finite sequences of games, all outcomes and all real k", "why_tests_cant": "The claim ranges over histories of unbounded length; every test fixes one finite history.", "anchors": ["src/elo.rs: elo"]}
{"id": "C03", "title": "Elo rewards wins, punishes losses, and never moves a rating by k or more", "statement": "For k > 0 a win strictly raises and a loss strictly lowers the rating of the player concerned, each rating moves by strictly less than k, and in a draw the lower rated player gains and the higher rated player loses (nobody moves when the ratings are equal).", "quantifier": "for all real ratings, all outcomes and all k > 0", "why_tests_cant": "The ratings range over a continuum; a test samples a few points, and a wrong sign, scale or comparison can agree with the code on all of them.", "anchors": ["src/elo.rs: elo"]}
{"id": "C04", "title": "Elo treats both seats alike and ignores the zero point of the scale", "statement": "Rating the same game from the other player's point of view (players swapped, win and loss exchanged) gives the same two new ratings swapped; adding a constant to both ratings adds it to both results.", "quantifier": "for all real ratings, all outcomes, all k, all shifts", "why_tests_cant": "The ratings range over a continuum; a test samples a few points, and a wrong sign, scale or comparison can agree with the code on all of them.", "anchors": ["src/elo.rs: elo"]}
{"id": "C05", "title": "An Elo rating period is the sequence of its games", "statement": "elo_rating_period equals rating the player's games one after the other with elo against the listed opponents (bit for bit, for every number type); an empty period changes nothing, and a period can be split anywhere.", "quantifier": "for all players, all result lists of any length, all configurations, any floating-point arithmetic", "why_tests_cant": "The claim is about exact agreement of two code paths for all inputs; tests compare them on a handful of inputs.", "anchors": ["src/elo.rs: elo_rating_period, elo"]}
{"id": "C06", "title": "An Elo draw never overtakes", "statement": "If 0 <= k <= 800/ln 10 (about 347) then after a draw the player who was rated at least as high is still rated at least as high. The bound is sharp: for every larger k there are ratings for which a draw swaps the order.", "quantifier": "for all real ratings and all k in [0, 800/ln 10]; counterexamples for every larger k", "why_tests_cant": "The ratings range over a continuum; a test samples a few points, and a wrong sign, scale or comparison can agree with the code on all of them.", "anchors": ["src/elo.rs: elo"]}
{"id": "C07", "title": "FIFA expected scores are probabilities", "statement": "The two numbers returned by fifa::expected_score lie strictly between 0 and 1, sum to 1, swap with the teams, are strictly monotone in the ratings, and the odds are 10^((r1-r2)/600); the list variant agrees with the pairwise one.", "quantifier": "for all pairs of real ratings, all lists of opponents", "why_tests_cant": "The ratings range over a continuum; a test samples a few points, and a wrong sign, scale or comparison can agree with the code on all of them.", "anchors": ["src/fifa.rs: expected_score, expected_score_rating_period"]}
{"id": "C08", "title": "FIFA league matches conserve points", "statement": "A match that is neither a knockout match nor decided on penalties conserves the sum of the two ratings, moves each rating by less than the importance, raises the winner and lowers the loser (importance > 0); consequently any sequence of such matches conserves the total of the whole pool.", "quantifier": "for all real ratings, outcomes, positive importances, all pools and match sequences", "why_tests_cant": "The claim ranges over histories of unbounded length; every test fixes one finite history.", "anchors": ["src/fifa.rs: fifa"]}
{"id": "C09", "title": "FIFA knockout protection", "statement": "In a knockout match neither team ends with a lower rating than before, whatever the outcome, the penalties flag and the importance; a rating period that consists of knockout matches never lowers the player's rating; outside knockout matches the flag is the only difference: a rating that would not drop is the same with and without it.", "quantifier": "for all ratings, outcomes, configurations and result lists; also in floating point with rounding, infinities and NaN (the new rating is never less than the old one)", "why_tests_cant": "The ratings range over a continuum; a test samples a few points, and a wrong sign, scale or comparison can agree with the code on all of them.", "anchors": ["src/fifa.rs: fifa, fifa_rating_period, FifaConfig::knockout"]}
{"id": "C10", "title": "A FIFA rating period is the sequence of its matches", "statement": "fifa_rating_period equals rating the team's matches one after the other with fifa as first team, each with its own configuration (bit for bit); an empty period changes nothing; a period can be split anywhere.", "quantifier": "for all teams, result lists, per-match configurations, any arithmetic", "why_tests_cant": "The claim is about exact agreement of two code paths for all inputs; tests compare them on a handful of inputs.", "anchors": ["src/fifa.rs: fifa_rating_period, fifa"]}
{"id": "C11", "title": "FIFA penalty shootouts", "statement": "Documented: the team that wins a shootout is credited 0.75 and the team that loses it is treated as in a draw (0.5), whichever seat it has. The code does this for the first team when it wins or loses and for the rating period, but it credits the second team with the first team's result: the loser of the shootout receives 0.75 when it is the second team and a second team that wins receives only 0.5, so the result depends on the seat and differs from fifa_rating_period.", "quantifier": "for all ratings and importances (the parts that hold); concrete witnesses for the parts that fail", "why_tests_cant": "The ratings range over a continuum; a test samples a few points, and a wrong sign, scale or comparison can agree with the code on all of them.", "anchors": ["src/fifa.rs: fifa, FifaConfig::penalties"]}
{"id": "C12", "title": "DWZ expected scores are probabilities", "statement": "dwz::expected_score returns numbers strictly between 0 and 1 that sum to 1, swap with the players, depend only on the difference and are strictly monotone, with odds 10^((r1-r2)/400); the list variant agrees with the pairwise one.", "quantifier": "for all pairs of real ratings, all lists of opponents", "why_tests_cant": "The ratings range over a continuum; a test samples a few points, and a wrong sign, scale or comparison can agree with the code on all of them.", "anchors": ["src/dwz.rs: expected_score, expected_score_rating_period"]}
{"id": "C13", "title": "DWZ rating changes follow the result and are bounded", "statement": "In dwz a win strictly raises and a loss strictly lowers a player's rating, and for players with index at least 1 a game moves the rating by less than 800/6 points; a player whose index is 1 or more has a development coefficient in [5, 150] and one without the weak-player surcharge at most 30 and at most 5 times the index.", "quantifier": "for all real ratings, ages, indices, outcomes", "why_tests_cant": "The ratings range over a continuum; a test samples a few points, and a wrong sign, scale or comparison can agree with the code on all of them.", "anchors": ["src/dwz.rs: dwz, e_value, new_rating"]}
{"id": "C14", "title": "DWZ bookkeeping", "statement": "Every game increments the index of both players by one, every rating period increments it by one, ages never change, and get_first_dwz returns index 1 and the given age; after n games the index has grown by exactly n.", "quantifier": "for all players, outcomes, histories of any length", "why_tests_cant": "The claim ranges over histories of unbounded length; every test fixes one finite history.", "anchors": ["src/dwz.rs: dwz, dwz_rating_period, get_first_dwz"]}
{"id": "C15", "title": "A DWZ period of one game is that game; periods ignore order", "statement": "dwz_rating_period with a single result gives exactly the first component of dwz; permuting the results of a period does not change the new rating.", "quantifier": "for all players, opponents, outcomes, and all permutations of all result lists", "why_tests_cant": "The claim is about exact agreement of two code paths for all inputs; tests compare them on a handful of inputs.", "anchors": ["src/dwz.rs: dwz_rating_period, dwz"]}
{"id": "C16", "title": "get_first_dwz fails exactly as documented", "statement": "get_first_dwz returns NotEnoughGames iff fewer than five results are given, otherwise InvalidWinRate iff all results are wins or all are losses, and otherwise succeeds; the two errors are displayed differently.", "quantifier": "for all ages and all result lists", "why_tests_cant": "The ratings range over a continuum; a test samples a few points, and a wrong sign, scale or comparison can agree with the code on all of them.", "anchors": ["src/dwz.rs: get_first_dwz, GetFirstDWZError"]}
{"id": "C17", "title": "get_first_dwz rates by performance", "statement": "On success the new rating is the average opponent rating plus the tabulated difference for the rounded percentage of points, compressed to 700 + x/8 below 800; the table lookup never misses, the tabulated difference is antisymmetric around 50 percent and strictly increasing in the percentage, the result is at least 600 whenever the uncompressed value is at least -800, and raising the score with the same opponents never lowers the rating.", "quantifier": "for all result lists on which the function succeeds", "why_tests_cant": "The ratings range over a continuum; a test samples a few points, and a wrong sign, scale or comparison can agree with the code on all of them.", "anchors": ["src/dwz.rs: get_first_dwz"]}
{"id": "C18", "title": "EGF expected scores are probabilities, and handicap helps the weaker side", "statement": "For ratings below the ceiling (3300 minus the handicap shift) egf::expected_score returns numbers strictly between 0 and 1 that sum to 1 and swap when players and the sign of the handicap are exchanged; they are strictly monotone in the ratings; more stones for the opponent strictly lower the expectation once the handicap exceeds 0.5 (below that, a positive handicap has the opposite effect).", "quantifier": "for all real ratings below the ceiling and all handicaps", "why_tests_cant": "The ratings range over a continuum; a test samples a few points, and a wrong sign, scale or comparison can agree with the code on all of them.", "anchors": ["src/egf.rs: expected_score, beta"]}
{"id": "C19", "title": "An EGF game never ends below -900", "statement": "Both ratings returned by egf are at least -900, for all numbers including infinities and NaN: the result is never NaN and never below -900.", "quantifier": "for all ratings, handicaps, outcomes, with real or floating-point arithmetic", "why_tests_cant": "The ratings range over a continuum; a test samples a few points, and a wrong sign, scale or comparison can agree with the code on all of them.", "anchors": ["src/egf.rs: egf, new_rating"]}
{"id": "C20", "title": "The EGF floor in rating periods", "statement": "Documented floor: ratings do not drop below -900. egf_rating_period keeps it for one-game and empty periods, but applies the floor per game and then sums the changes, so a period with several losses can end below -900.", "quantifier": "for all players and periods of at most one game; concrete counterexample for longer periods", "why_tests_cant": "The ratings range over a continuum; a test samples a few points, and a wrong sign, scale or comparison can agree with the code on all of them.", "anchors": ["src/egf.rs: egf_rating_period"]}
{"id": "C21", "title": "An EGF period of one game is that game; periods ignore order", "statement": "egf_rating_period with a single result gives the first component of egf with that result's configuration; an empty period changes nothing; permuting the results does not change the new rating.", "quantifier": "for all players, opponents, outcomes, handicaps, permutations", "why_tests_cant": "The claim is about exact agreement of two code paths for all inputs; tests compare them on a handful of inputs.", "anchors": ["src/egf.rs: egf_rating_period, egf"]}
{"id": "C22", "title": "EGF wins never cost points", "statement": "For ratings from -900 up to the ceiling a win strictly raises the rating, a loss costs less than con(r) = ((3300-r)/200)^1.6 points, and every game additionally pays both players a strictly positive bonus, so an even game that is drawn raises both.", "quantifier": "for all real ratings in the range, all handicaps", "why_tests_cant": "The ratings range over a continuum; a test samples a few points, and a wrong sign, scale or comparison can agree with the code on all of them.", "anchors": ["src/egf.rs: egf, con, bonus"]}
{"id": "C23", "title": "EGF above the ceiling", "statement": "In floating point, a player rated above 3300 who plays any game is reset to exactly -900, whatever the result: the intermediate value is NaN and the floor discards it.", "quantifier": "for all finite ratings above 3300, all opponents, outcomes and handicaps, every IEEE-like rounding", "why_tests_cant": "The ratings range over a continuum; a test samples a few points, and a wrong sign, scale or comparison can agree with the code on all of them.", "anchors": ["src/egf.rs: egf, con, beta, new_rating"]}
{"id": "C24", "title": "Ingo moves a rating towards the performance", "statement": "In the Ingo system (lower is better) the new rating is the weighted mean of the old rating and the performance, so it lies between them; a win gives a strictly better (lower) rating than a draw and a draw than a loss; younger players move further.", "quantifier": "for all real ratings, ages, outcomes, non-empty periods", "why_tests_cant": "The ratings range over a continuum; a test samples a few points, and a wrong sign, scale or comparison can agree with the code on all of them.", "anchors": ["src/ingo.rs: ingo, ingo_rating_period"]}
{"id": "C25", "title": "An Ingo period of one game is that game; periods ignore order; ages never change", "statement": "ingo_rating_period with a single result gives the first component of ingo, permuting results does not change the outcome, and the age is never modified.", "quantifier": "for all players, results, permutations", "why_tests_cant": "The claim is about exact agreement of two code paths for all inputs; tests compare them on a handful of inputs.", "anchors": ["src/ingo.rs: ingo, ingo_rating_period"]}
{"id": "C26", "title": "Ingo expected scores", "statement": "ingo::expected_score returns two numbers that sum to 1 and swap with the players. They are documented to lie between 0 and 1: they do exactly when the ratings differ by at most 50 points, and outside that range they do not.", "quantifier": "for all real ratings", "why_tests_cant": "The ratings range over a continuum; a test samples a few points, and a wrong sign, scale or comparison can agree with the code on all of them.", "anchors": ["src/ingo.rs: expected_score"]}
{"id": "C27", "title": "Ingo empty periods", "statement": "A player without results should keep the rating. In floating point ingo_rating_period of an empty list returns NaN (0/0) for every player.", "quantifier": "for all players, every IEEE-like rounding", "why_tests_cant": "The ratings range over a continuum; a test samples a few points, and a wrong sign, scale or comparison can agree with the code on all of them.", "anchors": ["src/ingo.rs: ingo_rating_period"]}
{"id": "C28", "title": "Glicko expected scores are probabilities", "statement": "glicko::expected_score lies strictly between 0 and 1, sums to 1, swaps with the players, is strictly monotone in the ratings, and moves towards 1/2 as the combined deviation grows; the list variant agrees with the pairwise one.", "quantifier": "for all real ratings and deviations", "why_tests_cant": "The ratings range over a continuum; a test samples a few points, and a wrong sign, scale or comparison can agree with the code on all of them.", "anchors": ["src/glicko.rs: expected_score, expected_score_rating_period"]}
{"id": "C29", "title": "Glicko implements the published update", "statement": "glicko and glicko_rating_period compute r' = r + q/(1/RD^2+1/d^2) sum g(RDj)(sj-Ej) and RD' = sqrt(1/(1/RD^2+1/d^2)) with RD = min(sqrt(RDold^2+c^2),350), q = ln10/400 and 1/d^2 = q^2 sum g^2 E(1-E).", "quantifier": "for all real ratings, positive deviations, all c, all non-empty result lists", "why_tests_cant": "The ratings range over a continuum; a test samples a few points, and a wrong sign, scale or comparison can agree with the code on all of them.", "anchors": ["src/glicko.rs: glicko, glicko_rating_period"]}
{"id": "C30", "title": "Glicko deviations stay in range over any history", "statement": "Starting from a deviation in (0, 350], after any sequence of games, rating periods and decays the deviation is still in (0, 350]; a game or non-empty period leaves it strictly below the pre-period value min(sqrt(RD^2+c^2),350).", "quantifier": "for all histories of any length, all real opponents with positive deviation, all c", "why_tests_cant": "The claim ranges over histories of unbounded length; every test fixes one finite history.", "anchors": ["src/glicko.rs: glicko, glicko_rating_period, decay_deviation"]}
{"id": "C31", "title": "Glicko rewards wins and punishes losses", "statement": "A win strictly raises, a loss strictly lowers the rating; the change is at most q*350^2 < 706 points; both seats are treated alike; adding a constant to all ratings adds it to the results.", "quantifier": "for all real ratings, positive deviations, outcomes, c", "why_tests_cant": "The ratings range over a continuum; a test samples a few points, and a wrong sign, scale or comparison can agree with the code on all of them.", "anchors": ["src/glicko.rs: glicko"]}
{"id": "C32", "title": "A Glicko period of one game is that game; periods ignore order; empty periods decay", "statement": "glicko_rating_period with one result gives the first component of glicko; permuting results changes nothing; without results only the deviation decays.", "quantifier": "for all players, results, permutations, configurations", "why_tests_cant": "The claim is about exact agreement of two code paths for all inputs; tests compare them on a handful of inputs.", "anchors": ["src/glicko.rs: glicko_rating_period, glicko, decay_deviation"]}
{"id": "C33", "title": "Glicko decay of n periods in closed form", "statement": "n successive calls of decay_deviation give deviation min(sqrt(RD^2 + n c^2), 350) and leave the rating alone; decay never lowers a deviation that is at most 350. The same holds for sticko::decay_deviation.", "quantifier": "for all n, all real deviations, all c", "why_tests_cant": "The claim ranges over histories of unbounded length; every test fixes one finite history.", "anchors": ["src/glicko.rs: decay_deviation", "src/sticko.rs: decay_deviation"]}
{"id": "C34", "title": "Confidence intervals", "statement": "confidence_interval of Glicko, Glicko-2, Glicko-Boost and Sticko is centred at the rating, has width 3.92 times the deviation, contains the rating when the deviation is non-negative and widens with the deviation.", "quantifier": "for all real ratings and deviations", "why_tests_cant": "The ratings range over a continuum; a test samples a few points, and a wrong sign, scale or comparison can agree with the code on all of them.", "anchors": ["src/glicko.rs: confidence_interval", "src/glicko2.rs: confidence_interval", "src/glicko_boost.rs: confidence_interval", "src/sticko.rs: confidence_interval"]}
{"id": "C35", "title": "Glicko-2 expected scores are probabilities", "statement": "glicko2::expected_score lies strictly between 0 and 1, sums to 1, swaps with the players, is strictly monotone in the ratings; the list variant agrees with the pairwise one.", "quantifier": "for all real ratings, deviations, volatilities", "why_tests_cant": "The ratings range over a continuum; a test samples a few points, and a wrong sign, scale or comparison can agree with the code on all of them.", "anchors": ["src/glicko2.rs: expected_score, expected_score_rating_period"]}
{"id": "C36", "title": "Glicko-2 volatility is a solution of the published equation", "statement": "Whenever glicko2 returns, the new volatility s is positive and ln(s^2) is one end of an interval of length at most the convergence tolerance that contains a zero of Glickman's function f.", "quantifier": "for all real inputs with positive volatility, deviation and tau, all tolerances, whenever the call returns", "why_tests_cant": "The volatility is found by an iteration whose number of steps depends on the input; tests cover a few inputs.", "anchors": ["src/glicko2.rs: new_volatility, f_value"]}
{"id": "C37", "title": "Glicko-2 rating calls return", "statement": "For positive tau and tolerance, glicko2 and glicko2_rating_period terminate in exact arithmetic whenever Glickman's function f is not flat at a zero; in particular whenever Delta^2 <= (phi^2 + v)(1 + 13.5/tau^2), and for one game whenever the ratings are at most 173.7178 ln(1 + 13.5/tau^2) apart (690 points for the default tau), whatever the deviations and volatilities. With a negative tolerance they never return in exact arithmetic.", "quantifier": "for all real inputs in the stated range", "why_tests_cant": "Termination of an unbounded loop cannot be tested.", "anchors": ["src/glicko2.rs: new_volatility"]}
{"id": "C38", "title": "Glicko-2 implements the published update", "statement": "Given the new volatility s', glicko2 and glicko2_rating_period compute phi* = sqrt(phi^2+s'^2), phi' = 1/sqrt(1/phi*^2+1/v), mu' = mu + phi'^2 sum g(s-E) on the scale (r-1500)/173.7178, and convert back.", "quantifier": "for all real inputs with positive deviations, whenever the call returns", "why_tests_cant": "The ratings range over a continuum; a test samples a few points, and a wrong sign, scale or comparison can agree with the code on all of them.", "anchors": ["src/glicko2.rs: glicko2, glicko2_rating_period"]}
{"id": "C39", "title": "Glicko-2 direction and deviation", "statement": "Whenever it returns, a win strictly raises and a loss strictly lowers the rating, the new deviation is positive and smaller than sqrt(RD^2 + (173.7178 s')^2).", "quantifier": "for all real inputs with positive deviations, whenever the call returns", "why_tests_cant": "The ratings range over a continuum; a test samples a few points, and a wrong sign, scale or comparison can agree with the code on all of them.", "anchors": ["src/glicko2.rs: glicko2"]}
{"id": "C40", "title": "A Glicko-2 period of one game is that game; periods ignore order; empty periods decay", "statement": "glicko2_rating_period with one result gives the first component of glicko2 whenever glicko2 returns; permuting results changes nothing, not even whether it returns; without results it is decay_deviation, which keeps rating and volatility, and n idle periods give min(sqrt(RD^2 + n (173.7178 s)^2), 350).", "quantifier": "for all players, results, permutations, n", "why_tests_cant": "The claim is about exact agreement of two code paths for all inputs; tests compare them on a handful of inputs.", "anchors": ["src/glicko2.rs: glicko2_rating_period, glicko2, decay_deviation"]}
{"id": "C41", "title": "Glicko-Boost expected scores are probabilities with a first-player advantage", "statement": "glicko_boost::expected_score lies strictly between 0 and 1, sums to 1, is strictly increasing in the own rating and in eta, and swapping the players together with the sign of eta swaps the result.", "quantifier": "for all real ratings, deviations, configurations", "why_tests_cant": "The ratings range over a continuum; a test samples a few points, and a wrong sign, scale or comparison can agree with the code on all of them.", "anchors": ["src/glicko_boost.rs: expected_score"]}
{"id": "C42", "title": "Glicko-Boost expected scores of a period must honour the colour flag", "statement": "Documented: the boolean of each opponent says whether the player had the advantage. expected_score_rating_period equals the pairwise expected score for games with the advantage, but ignores the flag for the others, where it overestimates the player for every eta > 0.", "quantifier": "for all players and opponents (advantage case); for all eta > 0 a strict overestimate otherwise", "why_tests_cant": "The ratings range over a continuum; a test samples a few points, and a wrong sign, scale or comparison can agree with the code on all of them.", "anchors": ["src/glicko_boost.rs: expected_score_rating_period"]}
{"id": "C43", "title": "Glicko-Boost deviations stay in range over any history", "statement": "Every game, period and decay returns a deviation in (0, 350], so it is in range after any history; decay never lowers a deviation that is at most 350.", "quantifier": "for all histories, all real players, opponents and configurations", "why_tests_cant": "The claim ranges over histories of unbounded length; every test fixes one finite history.", "anchors": ["src/glicko_boost.rs: glicko_boost, glicko_boost_rating_period, decay_deviation"]}
{"id": "C44", "title": "Glicko-Boost rewards wins and punishes losses", "statement": "A win strictly raises and a loss strictly lowers the rating; the deviation before the final increase is the Glicko value sqrt(1/(1/RD^2+1/d^2)) unless the performance is exceptional (z > k, k != 0), in which case it is computed from the boosted deviation.", "quantifier": "for all real ratings, positive deviations, configurations", "why_tests_cant": "The ratings range over a continuum; a test samples a few points, and a wrong sign, scale or comparison can agree with the code on all of them.", "anchors": ["src/glicko_boost.rs: glicko_boost, new_deviation, boost_rd"]}
{"id": "C45", "title": "A Glicko-Boost period of one game is that game; periods ignore order", "statement": "glicko_boost_rating_period with one result gives the first component of glicko_boost when the player had the advantage and the second component of the mirrored game otherwise; permuting results changes nothing; an empty period is decay_deviation.", "quantifier": "for all players, results, permutations, configurations", "why_tests_cant": "The claim is about exact agreement of two code paths for all inputs; tests compare them on a handful of inputs.", "anchors": ["src/glicko_boost.rs: glicko_boost_rating_period, glicko_boost, decay_deviation"]}
{"id": "C46", "title": "Glicko-Boost with eta = 0 is not Glicko", "statement": "The documentation says that with eta = 0 the calculations behave exactly like Glicko. The expected scores do; the updates do not: there are players and a configuration with eta = 0 (and even with k = 0 and b = 0) for which no Glicko c gives the same deviations.", "quantifier": "expected scores: for all players; updates: for every Glicko c, concrete players", "why_tests_cant": "The ratings range over a continuum; a test samples a few points, and a wrong sign, scale or comparison can agree with the code on all of them.", "anchors": ["src/glicko_boost.rs: GlickoBoostConfig, glicko_boost, expected_score", "src/glicko.rs: glicko, expected_score"]}
{"id": "C47", "title": "Sticko with neutral parameters is Glicko", "statement": "With h = beta = lambda = gamma = 0 and the same c, sticko, sticko_rating_period, expected_score and decay_deviation return the same numbers as the Glicko functions, for deviations up to 350 and games of either colour.", "quantifier": "for all real ratings, positive deviations, outcomes, result lists, c", "why_tests_cant": "The claim is about exact agreement of two code paths for all inputs; tests compare them on a handful of inputs.", "anchors": ["src/sticko.rs: sticko, sticko_rating_period, expected_score", "src/glicko.rs: glicko, glicko_rating_period"]}
{"id": "C48", "title": "Sticko expected scores are probabilities with a first-player advantage", "statement": "sticko::expected_score lies strictly between 0 and 1, sums to 1, is increasing in the own rating and in gamma, swaps when players and the sign of gamma are exchanged; the list variant honours the colour flag: it is the pairwise score with gamma or with -gamma.", "quantifier": "for all real ratings, deviations, configurations", "why_tests_cant": "The ratings range over a continuum; a test samples a few points, and a wrong sign, scale or comparison can agree with the code on all of them.", "anchors": ["src/sticko.rs: expected_score, expected_score_rating_period"]}
{"id": "C49", "title": "Sticko deviations stay in range over any history", "statement": "With h >= 0, every game, period and decay returns a deviation in (0, 350] from positive deviations, so it is in range after any history.", "quantifier": "for all histories, all real players with positive deviation, h >= 0", "why_tests_cant": "The claim ranges over histories of unbounded length; every test fixes one finite history.", "anchors": ["src/sticko.rs: sticko, sticko_rating_period, decay_deviation"]}
{"id": "C50", "title": "A Sticko period of one game is that game; periods ignore order; empty periods decay", "statement": "sticko_rating_period with one result gives the first component of sticko when the player had the first move and the second component of the mirrored game otherwise; permuting results changes nothing; an empty period is decay_deviation.", "quantifier": "for all players, results, permutations, configurations", "why_tests_cant": "The claim is about exact agreement of two code paths for all inputs; tests compare them on a handful of inputs.", "anchors": ["src/sticko.rs: sticko_rating_period, sticko, decay_deviation"]}
{"id": "C51", "title": "USCF expected scores are probabilities", "statement": "uscf::expected_score lies strictly between 0 and 1, sums to 1, swaps with the players, is strictly monotone, with odds 10^((r1-r2)/400); the list variant agrees with the pairwise one.", "quantifier": "for all real ratings", "why_tests_cant": "The ratings range over a continuum; a test samples a few points, and a wrong sign, scale or comparison can agree with the code on all of them.", "anchors": ["src/uscf.rs: expected_score, expected_score_rating_period"]}
{"id": "C52", "title": "A USCF game never ends below 100", "statement": "Both ratings returned by uscf are at least 100 and not NaN, in real and in floating-point arithmetic including infinities and NaN.", "quantifier": "for all players, outcomes, configurations", "why_tests_cant": "The ratings range over a continuum; a test samples a few points, and a wrong sign, scale or comparison can agree with the code on all of them.", "anchors": ["src/uscf.rs: uscf"]}
{"id": "C53", "title": "The USCF floor in rating periods", "statement": "The rating floor of 100 is not applied by uscf_rating_period: for every provisional player, and for every established player rated between 100 and 500, there are results against opponents rated at least 100 that end below 100; one-game periods agree with uscf up to the floor.", "quantifier": "for all one-game periods; concrete counterexamples", "why_tests_cant": "The ratings range over a continuum; a test samples a few points, and a wrong sign, scale or comparison can agree with the code on all of them.", "anchors": ["src/uscf.rs: uscf_rating_period"]}
{"id": "C54", "title": "USCF game counters and regimes", "statement": "Each game adds one to both players' counters and a period adds the number of its results; a player with at most 8 games is rated by the provisional average, one with 9 or more by the K-factor formula with K = 800/(Ne+m) where 0 < Ne <= min(games, 50); hence an established player's single-game change is at most 800/(Ne+1).", "quantifier": "for all players, result lists, histories", "why_tests_cant": "The claim ranges over histories of unbounded length; every test fixes one finite history.", "anchors": ["src/uscf.rs: uscf, uscf_rating_period, effective_game_number"]}
{"id": "C55", "title": "USCF bonus", "statement": "The bonus of a period is never negative, is zero with fewer than three games, and equals the excess of K(S-E) over t*sqrt(min(m,4)) when positive.", "quantifier": "for all established players, result lists, t", "why_tests_cant": "The ratings range over a continuum; a test samples a few points, and a wrong sign, scale or comparison can agree with the code on all of them.", "anchors": ["src/uscf.rs: get_boost_value, uscf_rating_period"]}
{"id": "C56", "title": "USCF periods ignore order; empty periods change nothing", "statement": "Permuting the results of uscf_rating_period changes nothing, and an empty period returns the player unchanged.", "quantifier": "for all players, result lists, permutations", "why_tests_cant": "The claim is about exact agreement of two code paths for all inputs; tests compare them on a handful of inputs.", "anchors": ["src/uscf.rs: uscf_rating_period"]}
{"id": "C57", "title": "USCF direction", "statement": "For established players a win never lowers and a loss never raises the rating (up to the floor), and for provisional players a win yields at least as high a rating as a draw and a draw as a loss; a provisional player's rating drops after a win exactly if the opponent is more than 400 points weaker.", "quantifier": "for all real ratings >= 100, game counts, outcomes, configurations", "why_tests_cant": "The ratings range over a continuum; a test samples a few points, and a wrong sign, scale or comparison can agree with the code on all of them.", "anchors": ["src/uscf.rs: uscf"]}
{"id": "C58", "title": "Weng-Lin expected scores are probabilities", "statement": "expected_score and expected_score_two_teams return two numbers strictly between 0 and 1 that sum to 1 and swap with the sides; expected_score_multi_team returns one number per team, each in (0,1] and summing to 1, ordered like the team ratings; for two teams it agrees with expected_score_two_teams and for one-player teams with expected_score.", "quantifier": "for all real players, teams of any size, any number of teams, beta != 0", "why_tests_cant": "The ratings range over a continuum; a test samples a few points, and a wrong sign, scale or comparison can agree with the code on all of them.", "anchors": ["src/weng_lin.rs: expected_score, expected_score_two_teams, expected_score_multi_team"]}
{"id": "C59", "title": "Weng-Lin outputs keep the shape of the input", "statement": "weng_lin_two_teams and weng_lin_multi_team return the same number of teams and players in the same order; if a team is empty the ratings come back unchanged; an empty list gives an empty list.", "quantifier": "for all teams and ranks, any arithmetic", "why_tests_cant": "The claim covers teams and team counts of any size.", "anchors": ["src/weng_lin.rs: weng_lin_two_teams, weng_lin_multi_team"]}
{"id": "C60", "title": "The Weng-Lin functions agree with each other", "statement": "Two one-player teams are rated by weng_lin_two_teams exactly like the two players by weng_lin; two teams with ranks are rated by weng_lin_multi_team exactly like by weng_lin_two_teams with the outcome the ranks describe; a rating period is the fold of its games (bit for bit).", "quantifier": "for all players, teams, outcomes, ranks, configurations", "why_tests_cant": "The claim is about exact agreement of two code paths for all inputs; tests compare them on a handful of inputs.", "anchors": ["src/weng_lin.rs: weng_lin, weng_lin_two_teams, weng_lin_multi_team, weng_lin_rating_period"]}
{"id": "C61", "title": "Weng-Lin uncertainty shrinks but not below the tolerance", "statement": "For positive uncertainties and a tolerance in (0,1], no game, period, two-team or multi-team match increases a player's uncertainty, the new uncertainty is positive and at least sqrt(tolerance) times the old one (for a rating period: that factor once per game); so it is non-increasing and positive over any history.", "quantifier": "for all players, teams, histories, configurations with tolerance in (0,1]", "why_tests_cant": "The claim ranges over histories of unbounded length; every test fixes one finite history.", "anchors": ["src/weng_lin.rs: new_uncertainty, new_uncertainty_teams"]}
{"id": "C62", "title": "Weng-Lin pays winners and charges losers proportionally to variance", "statement": "A win strictly raises, a loss strictly lowers the rating; in a two-team match the rating changes divided by the squared uncertainties are equal within a team and opposite between teams; in a multi-team match the team with the strictly best rank gains and the one with the strictly worst rank loses, and the changes per variance of one representative per team sum to zero.", "quantifier": "for all real players with positive uncertainty, teams, ranks", "why_tests_cant": "The ratings range over a continuum; a test samples a few points, and a wrong sign, scale or comparison can agree with the code on all of them.", "anchors": ["src/weng_lin.rs: weng_lin, weng_lin_two_teams, weng_lin_multi_team"]}
{"id": "C63", "title": "Weng-Lin multi-team results depend only on the order of the ranks", "statement": "Replacing the ranks by others with the same order and the same ties changes nothing (bit for bit), and permuting the teams permutes the results.", "quantifier": "for all teams, all order-preserving relabellings, all permutations", "why_tests_cant": "The claim is about exact agreement of two code paths for all inputs; tests compare them on a handful of inputs.", "anchors": ["src/weng_lin.rs: weng_lin_multi_team"]}
{"id": "C64", "title": "TrueSkill expected scores", "statement": "expected_score and expected_score_two_teams return two numbers in (0,1) that sum to 1; swapping the sides swaps them whenever the total ratings differ, and for equal totals they are within 1e-7 of 1/2; they rise strictly with the own rating on either side of equality (not across it: the approximation jumps by 3e-8 the wrong way); expected_score_multi_team of two or more teams returns one number in (0,1) per team, their sum is 1, and each is the team's share of all pairwise win probabilities.", "quantifier": "for all real players, teams, team counts, beta != 0", "why_tests_cant": "The ratings range over a continuum; a test samples a few points, and a wrong sign, scale or comparison can agree with the code on all of them.", "anchors": ["src/trueskill/mod.rs: expected_score, expected_score_two_teams, expected_score_multi_team", "src/trueskill/erf.rs: cdf, erfc"]}
{"id": "C65", "title": "TrueSkill match quality is a probability", "statement": "match_quality and match_quality_two_teams lie in (0,1], are symmetric in the two sides, decrease strictly with the rating gap, and two one-player teams have the quality of the two players.", "quantifier": "for all real players, teams, beta != 0", "why_tests_cant": "The ratings range over a continuum; a test samples a few points, and a wrong sign, scale or comparison can agree with the code on all of them.", "anchors": ["src/trueskill/mod.rs: match_quality, match_quality_two_teams"]}
{"id": "C66", "title": "The TrueSkill two-player functions agree with each other", "statement": "Two one-player teams are rated by trueskill_two_teams exactly like by trueskill; a rating period is the fold of its games (bit for bit); empty teams leave everything unchanged; two-team results keep the shape of the input.", "quantifier": "for all players, teams, outcomes, configurations", "why_tests_cant": "The claim is about exact agreement of two code paths for all inputs; tests compare them on a handful of inputs.", "anchors": ["src/trueskill/mod.rs: trueskill, trueskill_two_teams, trueskill_rating_period"]}
{"id": "C67", "title": "TrueSkill rewards wins", "statement": "In a decided game the winner's rating strictly rises and the loser's strictly falls, by amounts proportional to sigma^2 + tau^2, for players and for all members of the two teams; swapping the seats together with the outcome swaps the results (for a draw between equals as long as the draw probability of that match is representable, i.e. at least 2.2e-162); a draw lowers a favourite whose lead exceeds the draw margin.", "quantifier": "for all real players and teams with positive uncertainties, all configurations", "why_tests_cant": "The ratings range over a continuum; a test samples a few points, and a wrong sign, scale or comparison can agree with the code on all of them.", "anchors": ["src/trueskill/mod.rs: trueskill, trueskill_two_teams", "src/trueskill/math.rs: v_non_draw"]}
{"id": "C68", "title": "TrueSkill weight errors are exactly the documented ones", "statement": "Given weights, trueskill_multi_team and match_quality_multi_team (no empty team) report the error TeamAmount iff the number of weight lists differs from the number of teams, otherwise the first team with a wrong number of weights or a negative weight, in order, with the right team and player index; without weights they never report an error. Different errors (kind, team or player) are displayed as different messages.", "quantifier": "for all teams and all weight lists", "why_tests_cant": "The ratings range over a continuum; a test samples a few points, and a wrong sign, scale or comparison can agree with the code on all of them.", "anchors": ["src/trueskill/weights.rs: get_weights, WeightError", "src/trueskill/mod.rs: trueskill_multi_team, match_quality_multi_team"]}
{"id": "C69", "title": "trueskill_multi_team keeps the shape and order of the input", "statement": "Whenever trueskill_multi_team returns ratings, there is one list per input team, in input order, with as many players as the team has.", "quantifier": "for all teams, ranks, weights, any arithmetic", "why_tests_cant": "The function sorts teams by rank, flattens, and unsorts; only specific orders are tested.", "anchors": ["src/trueskill/mod.rs: trueskill_multi_team"]}
{"id": "C70", "title": "trueskill_multi_team panics exactly on a lone team or a zero uncertainty", "statement": "For non-empty teams and valid weights the function panics iff there is exactly one team or some player has uncertainty zero (real arithmetic; the schedule is finite, at most ten sweeps).", "quantifier": "for all teams, ranks, weights", "why_tests_cant": "Absence of panics is a universal claim over inputs.", "anchors": ["src/trueskill/mod.rs: trueskill_multi_team", "src/trueskill/schedule.rs: run_schedule", "src/trueskill/gaussian.rs: with_mu_sigma"]}
{"id": "C71", "title": "TrueSkill multi-team results depend only on the order of the ranks", "statement": "Replacing the ranks by others with the same order and the same ties changes nothing, and permuting the teams (with pairwise distinct ranks) together with their weights permutes the results, bit for bit.", "quantifier": "for all teams, weights, relabellings, permutations, any arithmetic", "why_tests_cant": "The claim is about exact agreement of two code paths for all inputs; tests compare them on a handful of inputs.", "anchors": ["src/trueskill/mod.rs: trueskill_multi_team"]}
{"id": "C72", "title": "Two-team matches: the factor graph against the closed form", "statement": "trueskill_multi_team on two teams with positive weights changes every player by the closed form with c^2 = sum w^2 (sigma^2 + tau^2 + beta^2) whenever the closed form's w lies in (0,1), in particular for every decided match that was not numerically impossible. Without weights this is trueskill_two_teams run with tau = 0 on players whose uncertainty already contains tau; so the two functions agree for tau = 0, and for every configuration with tau different from 0 there are players they rate differently, because trueskill_two_teams leaves tau out of c.", "quantifier": "for all real teams with non-zero uncertainties, all ranks, weights and configurations", "why_tests_cant": "The claim is about exact agreement of two code paths for all inputs; tests compare them on a handful of inputs.", "anchors": ["src/trueskill/mod.rs: trueskill_multi_team, trueskill_two_teams", "src/trueskill/factor_graph.rs"]}
{"id": "C73", "title": "The matrix routines compute determinants and inverses", "statement": "On a non-empty square matrix determinant is the mathematical determinant, and for matrices of size at least 2 with non-zero determinant inverse is the inverse; transpose, product and sum are the mathematical ones and never index out of range.", "quantifier": "for all sizes and all real entries", "why_tests_cant": "The determinant recursion is tested on a few literals.", "anchors": ["src/trueskill/matrix.rs"]}
{"id": "C74", "title": "match_quality_multi_team", "statement": "For three or more non-empty teams with valid weights the quality equals exp(-1/2 m^T A (b^2 A^T A + A^T S A)^-1 A^T m) * sqrt(det(b^2 A^T A)/det(b^2 A^T A + A^T S A)) and lies in (0,1] when beta is not 0, except that the function panics when two of the teams have only zero weights; for exactly one or exactly two non-empty teams it always panics, although match_quality_two_teams handles two teams; no teams or an empty team give 0.", "quantifier": "for all real teams and weights", "why_tests_cant": "The ratings range over a continuum; a test samples a few points, and a wrong sign, scale or comparison can agree with the code on all of them.", "anchors": ["src/trueskill/mod.rs: match_quality_multi_team", "src/trueskill/matrix.rs"]}
{"id": "C75", "title": "TrueSkill rank", "statement": "get_rank is rating - 3*uncertainty: increasing in the rating, decreasing in the uncertainty, and never above the rating for non-negative uncertainty.", "quantifier": "for all real players", "why_tests_cant": "The ratings range over a continuum; a test samples a few points, and a wrong sign, scale or comparison can agree with the code on all of them.", "anchors": ["src/trueskill/mod.rs: get_rank"]}
{"id": "C76", "title": "Trait objects behave like the functions", "statement": "For every system, the RatingSystem, RatingPeriodSystem, TeamRatingSystem and MultiTeamRatingSystem methods of a system built from a configuration return exactly what the corresponding free function returns with that configuration (period variants use that configuration, and the first-mover flag, for every game).", "quantifier": "for all configurations, players, teams, outcomes, any arithmetic", "why_tests_cant": "The claim is about exact agreement of two code paths for all inputs; tests compare them on a handful of inputs.", "anchors": ["src/lib.rs: RatingSystem, RatingPeriodSystem, TeamRatingSystem, MultiTeamRatingSystem"]}
{"id": "C77", "title": "Rating conversions round-trip", "statement": "Converting Elo to Ingo and back, Elo to DWZ and back, Elo to FIFA and back, Elo to USCF and back, and between Glicko, Glicko-Boost and Sticko, and between TrueSkill and Weng-Lin and back returns the original numbers (exact arithmetic for Ingo and USCF, bit for bit otherwise); Glicko-2 conversions keep rating and deviation.", "quantifier": "for all real (or float) ratings", "why_tests_cant": "The ratings range over a continuum; a test samples a few points, and a wrong sign, scale or comparison can agree with the code on all of them.", "anchors": ["src/elo.rs: From impls", "src/ingo.rs", "src/uscf.rs", "src/dwz.rs", "src/fifa.rs", "src/glicko.rs", "src/glicko2.rs", "src/glicko_boost.rs", "src/sticko.rs", "src/weng_lin.rs", "src/trueskill/mod.rs"]}
{"id": "C78", "title": "Outcomes are zero-sum points and ranks are ordered like integers", "statement": "The chess points of an outcome and of the mirrored outcome add up to 1 and lie in {0, 1/2, 1}; MultiTeamOutcome is ordered by its number and converts to and from usize without loss.", "quantifier": "for all outcomes and ranks", "why_tests_cant": "Small but universally used; the order is derived, not written.", "anchors": ["src/lib.rs: Outcomes, MultiTeamOutcome"]}
{"id": "C79", "title": "Expected scores are probabilities in floating point", "statement": "With IEEE-like arithmetic (correct signs, monotone rounding, infinities, NaN) the expected scores of Elo, FIFA, DWZ, USCF, Glicko, Glicko-2, Glicko-Boost and Sticko of finite players are never NaN and lie in [0,1]; so do those of Weng-Lin for ratings up to 500 beta (beta between 1 and 1000, uncertainties up to 1000), and those of EGF for ratings of at least -900 that stay below 3300 with 100 points for every handicap stone.", "quantifier": "for all finite float inputs and every monotone rounding; all library implementations of pow, exp and hypot with the right sign and range", "why_tests_cant": "There are 2^128 pairs of ratings; overflow and NaN cases hide between the sampled points.", "anchors": ["src/elo.rs: expected_score", "src/fifa.rs: expected_score", "src/dwz.rs: expected_score", "src/uscf.rs: expected_score", "src/glicko.rs: expected_score", "src/glicko2.rs: expected_score", "src/glicko_boost.rs: expected_score", "src/sticko.rs: expected_score", "src/weng_lin.rs: expected_score", "src/egf.rs: expected_score"]}
{"id": "C80", "title": "The direction of a change survives rounding", "statement": "With IEEE-like arithmetic, for finite ratings and finite k >= 0, a win never lowers and a loss never raises an Elo or (non-penalty) FIFA rating, and no rating becomes NaN. The same for games and for periods of only wins or only losses of Glicko (decay constant at least 1), Glicko-Boost and DWZ, for games of Weng-Lin (ratings up to 500 beta) and of established USCF players (a loss only above the floor of 100), and for the winner of an EGF game; in none of these cases does a rating become NaN.", "quantifier": "for all finite floats, every monotone rounding that fixes representable numbers", "why_tests_cant": "Rounding is non-linear; tests sample.", "anchors": ["src/elo.rs: elo, elo_rating_period", "src/fifa.rs: fifa, fifa_rating_period", "src/glicko.rs: glicko, glicko_rating_period", "src/glicko_boost.rs: glicko_boost, glicko_boost_rating_period", "src/dwz.rs: dwz, dwz_rating_period", "src/uscf.rs: uscf", "src/weng_lin.rs: weng_lin", "src/egf.rs: egf"]}
{"id": "C81", "title": "Weng-Lin and TrueSkill degenerate inputs produce NaN", "statement": "In floating point: two Weng-Lin players rated 1454080 or more (beta in [1,1000], uncertainties in [0,1000]) have NaN expected scores, and a game makes both ratings NaN, because both exponentials overflow; weng_lin_two_teams rates every member of a team NaN when all its members have uncertainty 0 (0/0); TrueSkill's expected_score_multi_team of a single team is NaN (0/0).", "quantifier": "for every IEEE-like arithmetic", "why_tests_cant": "The ratings range over a continuum; a test samples a few points, and a wrong sign, scale or comparison can agree with the code on all of them.", "anchors": ["src/weng_lin.rs: p_value", "src/trueskill/mod.rs: expected_score_multi_team, trueskill_multi_team"]}
{"id": "C82", "title": "Elo implements the published update", "statement": "elo returns r' = r + k (S - E) for both players, with E = 1/(1 + 10^((opponent - own)/400)) and S the points of the respective player.", "quantifier": "for all real ratings, outcomes and k", "why_tests_cant": "The ratings range over a continuum; a test samples a few points, and a wrong sign, scale or comparison can agree with the code on all of them.", "anchors": ["src/elo.rs: elo, expected_score"]}
{"id": "C83", "title": "EGF implements the published update", "statement": "egf returns max(r + con(r) (S - E) + bonus(r), -900) for both players with con(r) = ((3300-r)/200)^1.6, bonus(r) = ln(1+exp((2300-r)/80))/5 and E = 1/(1+exp(beta(other)-beta(own))), beta(r) = -7 ln(3300-r) of the ratings shifted by 100(|handicap|-1/2) for the side that receives stones; egf_rating_period adds up the floored changes of its games.", "quantifier": "for all real ratings below the ceiling, outcomes and handicaps", "why_tests_cant": "The ratings range over a continuum; a test samples a few points, and a wrong sign, scale or comparison can agree with the code on all of them.", "anchors": ["src/egf.rs: egf, egf_rating_period, con, bonus, beta"]}
{"id": "C84", "title": "USCF bonus threshold against the published rule", "statement": "The published USCF rules pay the bonus max(0, K(S-E) - t*sqrt(max(m,4))) for at least three games. The crate uses min(m,4) in the place of max(m,4): it agrees for m <= 2 and m = 4, and for m = 3 and every m >= 5 it pays strictly more whenever it pays anything.", "quantifier": "for all established players, results and positive t", "why_tests_cant": "The ratings range over a continuum; a test samples a few points, and a wrong sign, scale or comparison can agree with the code on all of them.", "anchors": ["src/uscf.rs: get_boost_value, uscf_rating_period"]}
{"id": "C85", "title": "Sticko implements the published update", "statement": "With E = E(r + gamma*colour) (colour 1 for the player with the first move, -1 otherwise), sticko and sticko_rating_period compute r' = r + q/(1/RD^2+1/d^2) sum g(s-E+beta) + lambda/100 (mean opponent rating - r) and RD' = min(sqrt(1/(1/(RD^2+h m)+1/d^2)),350) with RD = min(sqrt(RDold^2+c^2),350) and m the number of games; a better result gives a strictly better rating and does not influence the deviation; without bonus, advantage and pull (beta = lambda = 0) a win raises and a loss lowers the rating.", "quantifier": "for all ratings, positive deviations, outcomes, colours, configurations and result lists", "why_tests_cant": "The ratings range over a continuum; a test samples a few points, and a wrong sign, scale or comparison can agree with the code on all of them.", "anchors": ["src/sticko.rs: sticko, sticko_rating_period, new_rating, new_deviation, e_value, d_value, g_value"]}
{"id": "C86", "title": "Glicko-Boost implements the published update", "statement": "glicko_boost and glicko_boost_rating_period compute, with E = E(r + eta*colour), 1/d^2 = q^2 sum g^2 E(1-E) and z = sum g(s-E)/sqrt(sum g^2 E(1-E)), the deviation RD1 = min(sqrt(1/(1/RD0^2+1/d^2)),350) where RD0 is the old deviation or, if z > k and k != 0, its Glicko update boosted by (1+(z-k) b0) RD + b1; the rating r + q RD1^2 sum g(s-E); and the final deviation min(sqrt(RD1^2+exp(a0+a1 RD1+a2 RD1 r'/1000+a3 r'/1000+a4 (r'/1000)^2)),350).", "quantifier": "for all ratings, positive deviations, outcomes, colours, configurations and result lists", "why_tests_cant": "The ratings range over a continuum; a test samples a few points, and a wrong sign, scale or comparison can agree with the code on all of them.", "anchors": ["src/glicko_boost.rs: glicko_boost, glicko_boost_rating_period, new_deviation, boost_rd, new_rating, z_value"]}
{"id": "C87", "title": "Glicko-2 treats both seats alike and depends on rating differences only", "statement": "glicko2(b, a, mirrored outcome) returns iff glicko2(a, b, outcome) does and gives the same players swapped; adding a constant to both ratings adds it to both results and changes neither deviations nor volatilities nor whether the call returns.", "quantifier": "for all real players, outcomes, configurations and shifts", "why_tests_cant": "The ratings range over a continuum; a test samples a few points, and a wrong sign, scale or comparison can agree with the code on all of them.", "anchors": ["src/glicko2.rs: glicko2"]}
{"id": "C88", "title": "Weng-Lin implements the published algorithm", "statement": "weng_lin, weng_lin_two_teams and weng_lin_multi_team compute Algorithm 1 (Bradley-Terry, full pair) of Weng and Lin 2011: omega and delta of a team are the sums over all other teams, ties count half, and every player is updated by their share of the team variance with the tolerance as lower bound.", "quantifier": "for all real players with positive uncertainty, non-empty teams, any number of teams, ranks and configurations", "why_tests_cant": "The ratings range over a continuum; a test samples a few points, and a wrong sign, scale or comparison can agree with the code on all of them.", "anchors": ["src/weng_lin.rs: weng_lin", "src/weng_lin.rs: weng_lin_two_teams", "src/weng_lin.rs: weng_lin_multi_team"]}
{"id": "C89", "title": "TrueSkill implements the published two-sided update", "statement": "trueskill and trueskill_two_teams compute mu' = mu +- (sigma^2+tau^2)/c * v and sigma' = sqrt((sigma^2+tau^2)(1 - w (sigma^2+tau^2)/c^2)) with c^2 = n beta^2 + the sum of all squared uncertainties, v and w the published win and draw corrections of the rating difference and the draw margin over c, the normal distribution from the published complementary error function fit (Numerical Recipes erfcc), and the draw margin from two Halley steps.", "quantifier": "for all real players, non-empty teams, outcomes and configurations", "why_tests_cant": "The ratings range over a continuum; a test samples a few points, and a wrong sign, scale or comparison can agree with the code on all of them.", "anchors": ["src/trueskill/mod.rs: trueskill, trueskill_two_teams, draw_margin", "src/trueskill/math.rs", "src/trueskill/erf.rs"]}
{"id": "C90", "title": "TrueSkill uncertainties after a decided game", "statement": "After a decided game between two players or two teams with positive uncertainties and tau^2 <= 2 beta^2 every uncertainty is positive (the square root is never taken of a negative number, although v and w are computed from an approximation of the normal distribution) and at most sqrt(sigma^2 + tau^2); without dynamics it never grows.", "quantifier": "for all real players, teams, rating gaps, draw probabilities and betas", "why_tests_cant": "The approximation error of the error function is amplified by v and w in the tails; tests only visit moderate gaps.", "anchors": ["src/trueskill/mod.rs: trueskill, trueskill_two_teams, trueskill_multi_team", "src/trueskill/math.rs: v_non_draw, w_non_draw, new_uncertainty", "src/trueskill/erf.rs: erfc"]}
{"id": "C91", "title": "Constructors, defaults and accessors agree with the documentation", "statement": "For every system Rating::new(Some(x), u) has rating x, its uncertainty is the one given (or None where the system has none), and Rating::new(None, None) is the default player; the default ratings and configurations are the documented numbers; tuples convert component by component; a new USCF player of age a starts at min(1300, max(100, 50 a)).", "quantifier": "for all numbers, optional arguments and ages", "why_tests_cant": "Swapped components and shadowed defaults show up only for the argument combinations a test happens to use.", "anchors": ["src/lib.rs: Rating", "src/*.rs: impl Rating for *Rating, impl Default, impl From<...>"]}
{"id": "C92", "title": "Ratings stand still on average when results follow the prediction", "statement": "If the outcome of a game is random with any probabilities of win, draw and loss whose mean score is the expected_score of the system, then the mean of the new rating is the old rating, for both players, in Elo, FIFA (league matches), Ingo, Weng-Lin (also for every member of two teams); Elo's mean change for any other mean score e is k(e - expected). FIFA knockout matches and the EGF bonus inflate (EGF by exactly the bonus above the floor); DWZ never deflates adults and youths between 0 and 2000 points and never inflates youths from 2000 points on; in Glicko the neutral score is the expected_score of a player without own deviation, so that a favourite with positive deviation who scores exactly as expected_score predicts loses rating on average.", "quantifier": "for all real ratings, configurations and outcome distributions", "why_tests_cant": "A statement about expectations over all outcome distributions; no finite set of games determines it.", "anchors": ["src/elo.rs: elo, expected_score", "src/fifa.rs: fifa", "src/ingo.rs: ingo", "src/egf.rs: egf", "src/dwz.rs: dwz, e_value", "src/weng_lin.rs: weng_lin, weng_lin_two_teams", "src/glicko.rs: glicko, expected_score"]}
{"id": "C93", "title": "The same result is worth more against a stronger opponent", "statement": "For the same player and the same outcome, a strictly stronger opponent (equal in everything else) gives a strictly better new rating in Elo, DWZ (although the development coefficient jumps), Ingo (lower is better), Glicko (although the step size depends on the opponent), Weng-Lin, FIFA league matches; never a worse one in FIFA knockout matches, EGF and USCF, and strictly better above their floors.", "quantifier": "for all real ratings, deviations, outcomes and positive k or importance", "why_tests_cant": "Monotonicity over a continuum; step functions and result-dependent coefficients create kinks that samples miss.", "anchors": ["src/elo.rs: elo", "src/fifa.rs: fifa", "src/dwz.rs: dwz, e_value", "src/egf.rs: egf", "src/ingo.rs: ingo", "src/glicko.rs: glicko", "src/weng_lin.rs: weng_lin", "src/uscf.rs: uscf"]}
{"id": "C94", "title": "Better results never make a rating worse", "statement": "Replacing outcomes of a rating period by better ones (same opponents) never gives a worse rating in Elo, FIFA, Glicko, Sticko, EGF, DWZ, USCF and Ingo; in Glicko and Sticko it leaves the deviation unchanged. In Glicko-2, where the size of a step depends on the volatility that is computed from the results, it still holds unless the results are a huge surprise: exactly with the default tolerance, opponents' deviations up to 350 and up to 100000 games, and up to a factor e^(2 tol) for every other tolerance. For Elo the result is also monotone in the opponents' ratings and in the player's own old rating, provided 0 <= k <= 1600/ln 10, and for FIFA with importances up to 2400/ln 10 (including shootouts and knockout matches); for every larger k an Elo player can be overtaken by a weaker one through the same result against the same opponent.", "quantifier": "for all players, result lists of any length and pointwise better result lists", "why_tests_cant": "Needs all pairs of result lists and an induction over a sequence of nonlinear updates; the bound on k is a derivative condition.", "anchors": ["src/elo.rs: elo_rating_period", "src/fifa.rs: fifa_rating_period", "src/glicko.rs: glicko_rating_period", "src/sticko.rs: sticko_rating_period", "src/egf.rs: egf_rating_period", "src/dwz.rs: dwz_rating_period", "src/uscf.rs: uscf_rating_period", "src/ingo.rs: ingo_rating_period", "src/glicko2.rs: glicko2_rating_period, glicko2"]}
{"id": "C95", "title": "Better results never make a Glicko-Boost rating worse", "statement": "The boost is documented to increase the deviation after exceptional performances, so better results in a Glicko-Boost rating period should never give a worse rating.", "quantifier": "for all players, configurations, result lists and pointwise better result lists", "why_tests_cant": "The threshold on the standardised performance z is crossed only by particular combinations of results.", "anchors": ["src/glicko_boost.rs: glicko_boost_rating_period, new_deviation, boost_rd"]}
{"id": "C96", "title": "Bookkeeping of the opponents does not matter", "statement": "The new rating of a player does not depend on the opponents' index and age (DWZ, also get_first_dwz), age (Ingo), number of games (USCF) or volatility (Glicko-2; in a single game whenever both calls return).", "quantifier": "for all players, opponents and result lists, in any arithmetic (bit-exact)", "why_tests_cant": "Independence of a field quantifies over all of its values.", "anchors": ["src/dwz.rs: dwz, dwz_rating_period, get_first_dwz", "src/ingo.rs: ingo, ingo_rating_period", "src/uscf.rs: uscf, uscf_rating_period", "src/glicko2.rs: glicko2, glicko2_rating_period"]}
{"id": "C97", "title": "Multi-team TrueSkill is expectation propagation along the chain of teams", "statement": "For any number of teams in any order, with or without positive weights, trueskill_multi_team returns the ratings of the published algorithm stated at the level of teams: order the teams by rank (ties in the order of the input), pass normal messages between neighbours (win or draw correction of the difference of their performances and the draw margin) forwards and backwards for at most ten rounds or until no message changes by more than 0.0001, then condition every player on what is heard of the team; the results come back in the order of the input. It never panics if no message is numerically impossible; for a decided match it suffices that spread + (n-1)(margin + 4 sqrt(Qmax)) <= 52 sqrt(Qmin/n); for a match with ties among d different ranks, with R = spread + 3.01 (n-1) margin + 4 (d-1) sqrt(Qmax), it suffices that R <= 50 sqrt(Qmin/n) and that the draw margin of tied teams is at least one percent of R + sqrt(2 Qmax). The draw margin is positive and explicitly bounded for draw probabilities in [0,1).", "quantifier": "for all numbers of teams >= 2, team sizes, real ratings, non-zero uncertainties, positive weights, ranks and configurations", "why_tests_cant": "The factor graph is a mutable graph whose shape depends on the input; agreement with the mathematics for every size needs induction over the schedule.", "anchors": ["src/trueskill/mod.rs: trueskill_multi_team, draw_margin", "src/trueskill/schedule.rs: build_rating_layer, build_perf_layer, build_team_perf_layer, build_team_diff_layer, build_trunc_layer, run_schedule", "src/trueskill/factor_graph.rs", "src/trueskill/erf.rs: inverse_erfc"]}
{"id": "C98", "title": "Uncertainties and team mates in a multi-team TrueSkill match", "statement": "After a match of any number of teams with any ranks, every new uncertainty is positive and strictly below sqrt(sigma^2 + tau^2), so a match always tells something; the members of a team move in the same direction, in proportion to weight times (sigma^2 + tau^2).", "quantifier": "for all numbers of teams >= 2, ratings, non-zero uncertainties, positive weights, ranks and configurations for which the messages are numerically possible", "why_tests_cant": "The ratings range over a continuum; a test samples a few points, and a wrong sign, scale or comparison can agree with the code on all of them.", "anchors": ["src/trueskill/mod.rs: trueskill_multi_team", "src/trueskill/schedule.rs: run_schedule", "src/trueskill/factor_graph.rs"]}
{"id": "C99", "title": "Underdogs who come first gain and favourites who come last lose", "statement": "In a decided multi-team TrueSkill match (no two teams share a rank), every player of the team that comes first gains rating if no other team has a smaller weighted sum of ratings, and every player of the team that comes last loses rating if no other team has a larger one.", "quantifier": "for all numbers of teams >= 2, ratings, non-zero uncertainties, positive weights, distinct ranks, non-negative draw probabilities and betas", "why_tests_cant": "Messages travel through the whole chain of teams and back; their signs must be tracked for every length.", "anchors": ["src/trueskill/mod.rs: trueskill_multi_team", "src/trueskill/schedule.rs: run_schedule", "src/trueskill/math.rs: v_non_draw, w_non_draw"]}
{"id": "C100", "title": "Floating-point histories stay finite", "statement": "In double precision (any monotone rounding) no sequence of games turns a rating into NaN or an infinity: in a pool of any size with ratings up to B in absolute value, after n games with |k| (or importance) up to K every Elo and FIFA rating (also with shootouts and knockout matches) is finite and at most B + nK, every Glicko rating (decay constant at least 1) and Glicko-Boost rating is at most B + 958 n and no deviation is NaN, as long as these bounds are below 2^53; Glicko deviations stay positive and at most 350 + 1/128. The same for rating periods of any length. Sticko ratings with a pull lambda between 0 and 100 and a bonus up to b stay within B + n (958 (1 + b) + 1), also in rating periods of any length, as long as this is at most 2^30; a single Sticko game gives numbers for a pull of either sign. DWZ ratings stay within B + 134 n (and B + 801 after a period of any length), Ingo within B + 5 n, USCF within B + 800 n for provisional and established players, EGF between -900 and B + 144 n whatever the handicaps, and Weng-Lin within B + n (U + 1) for uncertainties up to U, as long as this is at most 500 beta. Through histories and rating periods of decided TrueSkill games, however large the differences of the ratings are, ratings stay within (B + 40 n) beta and uncertainties stay at least 2^-20 and at most the square root of V + n (tau^2 / beta^2 + 2^-23) times beta, where they start at the square root of V times beta, as long as this is at most 16 beta and the draw probability is at most 1 - 2^-20.", "quantifier": "for all pools, game sequences of any length, results, configurations and rounding modes", "why_tests_cant": "NaN appears only for particular combinations of rounding, underflow and overflow (an expected score may round to 0 or 1 and a variance to infinity); the claim quantifies over all of them and over all sequences of games.", "anchors": ["src/elo.rs: elo, elo_rating_period", "src/fifa.rs: fifa, fifa_rating_period", "src/glicko.rs: glicko, glicko_rating_period", "src/glicko_boost.rs: glicko_boost, glicko_boost_rating_period", "src/sticko.rs: sticko, sticko_rating_period", "src/dwz.rs: dwz, dwz_rating_period", "src/ingo.rs: ingo", "src/uscf.rs: uscf", "src/egf.rs: egf", "src/weng_lin.rs: weng_lin"]}
{"id": "C101", "title": "Deviations never exceed 350 in floating point, whatever the input", "statement": "After a Glicko-Boost or Sticko game or period, and after decay_deviation of Glicko, Glicko-2, Sticko and Glicko-Boost, the deviation is a number (not NaN) and at most 350, even if ratings, deviations, opponents or configuration are NaN or infinite; after games of Glicko-Boost and Sticko it is also non-negative.", "quantifier": "for all double precision inputs including NaN and infinities", "why_tests_cant": "Quantifies over all bit patterns of all inputs.", "anchors": ["src/glicko_boost.rs: glicko_boost, glicko_boost_rating_period, decay_deviation", "src/sticko.rs: sticko, sticko_rating_period, decay_deviation", "src/glicko.rs: decay_deviation", "src/glicko2.rs: decay_deviation"]}
{"id": "C102", "title": "After a drawn TrueSkill game every player has a usable uncertainty", "statement": "After a drawn game of trueskill both uncertainties are positive and at most sqrt(sigma^2 + tau^2). This fails: for equally rated players, one of whom is at least about 80 times as uncertain as opponent and game together and with a draw margin between 1.4e-7 and 1.4e-4 of the total uncertainty, the number under the square root is negative (NaN in the program; for instance beta = 1/1000, draw probability 1/10, uncertainties 25 and 1/1000). It holds, for two players and for two teams, whenever the margin is at least one percent of the total uncertainty plus the difference of the ratings (with the default configuration: for all players of at most the default uncertainty whose ratings are at most 25 apart); for equally rated players if the margin is at least 0.6 percent of the total uncertainty; and whenever the draw counts as impossible.", "quantifier": "for all real ratings, uncertainties and configurations", "why_tests_cant": "The fit of the error function is one part in 3e-8 off at zero; whether this makes a variance negative depends on ratios of all five inputs and no sample shows where.", "anchors": ["src/trueskill/mod.rs: trueskill", "src/trueskill/math.rs: w_draw, new_uncertainty", "src/trueskill/erf.rs: erfc"]}
{"id": "C103", "title": "A tie without performance spread destroys both ratings", "statement": "In double precision, trueskill_multi_team for two single players with the same rank and beta = 0 returns NaN as the rating of both players, without an error, for every draw probability and all ratings: the tie counts as impossible, the truncation divides by zero, and the infinities end as NaN.", "quantifier": "for all ratings (also NaN and infinite), draw probabilities, uncertainties in [1/4, 1024], dynamics factors in [0, 1024], and rounding modes", "why_tests_cant": "Infinities and NaN travel through up to ten rounds of messages; at each of the two dozen operations an absorbed summand could turn a precision into zero, for which the code returns 0 as the mean instead.", "anchors": ["src/trueskill/mod.rs: trueskill_multi_team", "src/trueskill/schedule.rs: run_schedule", "src/trueskill/factor_graph.rs: TruncateFactor::up, SumFactor::update", "src/trueskill/gaussian.rs: mu", "src/trueskill/math.rs: w_draw"]}
{"id": "C104", "title": "Equal teams that tie in a multi-team TrueSkill match are not treated equally", "statement": "In a trueskill_multi_team match of three or more teams, whatever the ranks, a team that is placed first (ties placed in the order of the input) and has the same players and weights as the team in second place ends with strictly larger uncertainties than that team, and so does the team in last place compared with an equal team in the place before. In particular, when three or more equal teams all tie (draw margin at least 0.6 percent of the standard deviation of a difference of teams), the call succeeds, no rating moves, but the first and last team of the input end more uncertain than their neighbours: equal inputs with equal ranks get different results.", "quantifier": "for all numbers of teams >= 3, team sizes, ratings, non-zero uncertainties, positive weights, ranks and configurations for which the messages are numerically possible (shown for complete ties)", "why_tests_cant": "Compares two positions of a chain of arbitrary length after up to ten rounds of messages; the difference is small and a test with rounded numbers would call it noise.", "anchors": ["src/trueskill/mod.rs: trueskill_multi_team", "src/trueskill/schedule.rs: run_schedule", "src/trueskill/factor_graph.rs: SumFactor::update, TruncateFactor::up"]}
{"id": "C105", "title": "Match quality of several teams in closed form and what it does not depend on", "statement": "match_quality_multi_team of three or more teams (non-negative weights, not all zero in a team, beta not 0) is exp(-1/2 sum (m - M)^2/c) * sqrt(prod b * sum 1/b / (prod c * sum 1/c)), where m, c and b are the mean, the variance and the variance with known skills of a team's performance and M is the mean of the m weighted with 1/c. Hence it does not depend on the order of the teams or of the players of a team, nor on the unit of the scale (ratings, uncertainties and beta multiplied by one factor), nor on a common shift of all ratings if the weights of all teams have the same sum; for given uncertainties it is largest exactly when all teams are equally strong; and for equally strong teams larger uncertainties never increase it.", "quantifier": "for all numbers of teams >= 3, team sizes, real ratings, uncertainties, weights, beta and permutations", "why_tests_cant": "The code computes it with cofactor determinants and an adjugate of a matrix whose size grows with the match; the closed form and the symmetries need an argument for every size.", "anchors": ["src/trueskill/mod.rs: match_quality_multi_team", "src/trueskill/matrix.rs: Matrix"]}
{"id": "C106", "title": "A player of weight zero ends with NaN instead of an unchanged rating", "statement": "The documentation says that a weight of 0.0 means that the player has not played at all. In double precision, trueskill_multi_team gives every player of a team all of whose players have weight zero (a lone player for instance) a rating and an uncertainty of NaN, without an error. A player of weight zero in any team and place ends with NaN as rating and uncertainty, or with exactly the uncertainty carried into the match (sqrt(sigma^2 + tau^2) as computed); if that player is listed first in the team, the second case only occurs when no player of the team learns anything.", "quantifier": "for all matches of two or more teams, all ratings (also NaN and infinite), ranks and draw probabilities, uncertainties in [1/4, 1024], beta and dynamics factor in [0, 1024], admitted weights, and rounding modes", "why_tests_cant": "The player's message depends on all other teams through up to ten rounds of messages; that no intermediate value is exactly zero (which selects another branch) cannot be sampled.", "anchors": ["src/trueskill/mod.rs: trueskill_multi_team", "src/trueskill/factor_graph.rs: SumFactor::up, SumFactor::update, LikelihoodFactor::up", "src/trueskill/gaussian.rs: mu, sigma"]}
{"id": "C107", "title": "Multi-team TrueSkill does not panic in double precision", "statement": "trueskill_multi_team of two or more non-empty teams whose uncertainties lie in [1/4, 1024], with admitted weights (one per player, none negative) or none, returns Ok with the shape of the input: no panic and no error, whatever the ratings (also NaN and infinite), ranks and draw probability. The same holds for all uncertainties that are numbers of magnitude at least 2^-480 (negative and infinite ones too) and any dynamics factor that is a number. Below, the function does panic although no uncertainty is zero: at most 2^-600 with a dynamics factor of zero.", "quantifier": "for all matches of any number of teams and players, in double precision with any monotone rounding", "why_tests_cant": "Quantifies over all shapes of matches and all bit patterns of ratings.", "anchors": ["src/trueskill/mod.rs: trueskill_multi_team", "src/trueskill/schedule.rs: run_schedule", "src/trueskill/gaussian.rs: with_mu_sigma", "src/trueskill/weights.rs: get_weights"]}
{"id": "C108", "title": "The order in which two players or two teams are passed does not matter", "statement": "Calling a two-player function with the players exchanged and the outcome mirrored gives the same two results, exchanged: fifa without penalties, dwz, egf (with the handicap negated), ingo, uscf, sticko and glicko_boost (with the colour advantage negated), weng_lin, and weng_lin_two_teams. A FIFA penalty shootout is the documented exception: there the function is not symmetric (a witness is given).", "quantifier": "for all ratings, deviations, ages, game counts, outcomes and configurations; for all team sizes", "why_tests_cant": "Symmetry of two separately written code paths over all inputs; tests check single hand-computed games.", "anchors": ["src/fifa.rs: fifa", "src/dwz.rs: dwz", "src/egf.rs: egf", "src/ingo.rs: ingo", "src/uscf.rs: uscf", "src/sticko.rs: sticko", "src/glicko_boost.rs: glicko_boost", "src/weng_lin.rs: weng_lin, weng_lin_two_teams"]}
{"id": "C109", "title": "Zero point and unit of the rating scale are conventions", "statement": "Adding one number to all ratings adds it to the new ratings and leaves everything else: fifa, ingo and their rating periods, glicko_rating_period, sticko, glicko_boost (ratings) and their periods. For Weng-Lin and TrueSkill (two players, periods, two teams of equal size; Weng-Lin also several teams of equal size; expected scores) ratings may be shifted and multiplied: measuring ratings, uncertainties, beta and the dynamics factor in another unit gives the same results in that unit; for teams of different sizes this holds without the shift. A shift also passes through trueskill_multi_team if the weights of all teams have the same sum. The exceptions are shown by witnesses: egf, uscf and dwz depend on the zero point, and so does weng_lin_two_teams for teams of different sizes.", "quantifier": "for all ratings, uncertainties, outcomes, lists of games, team sizes, shifts and positive factors", "why_tests_cant": "Relates two different inputs of arbitrary size; tests use literal expected values on one scale.", "anchors": ["src/fifa.rs", "src/ingo.rs", "src/glicko.rs: glicko_rating_period", "src/sticko.rs", "src/glicko_boost.rs", "src/weng_lin.rs", "src/trueskill/mod.rs", "src/egf.rs: egf", "src/uscf.rs: uscf", "src/dwz.rs: dwz"]}
{"id": "C110", "title": "The order in which the players of a team are listed does not matter", "statement": "If the players of the teams (with their weights) are listed in another order, every player gets the same new rating: weng_lin_two_teams, weng_lin_multi_team, trueskill_two_teams and trueskill_multi_team. The expected scores of teams (Weng-Lin and TrueSkill, two or several teams) and the match quality of two teams do not change at all.", "quantifier": "for all team sizes, numbers of teams, permutations of each team, ratings, positive weights, ranks and configurations; trueskill_multi_team for matches that are numerically possible", "why_tests_cant": "Quantifies over all permutations of lists of any size; in trueskill_multi_team the position of a player decides which variables and message slots of the factor graph are used.", "anchors": ["src/weng_lin.rs: weng_lin_two_teams, weng_lin_multi_team, expected_score_two_teams, expected_score_multi_team", "src/trueskill/mod.rs: trueskill_two_teams, trueskill_multi_team, expected_score_two_teams, expected_score_multi_team, match_quality_two_teams"]}
{"id": "C111", "title": "Endless streaks and endless rematches: what ratings do in the long run", "statement": "A player who keeps winning against opponents rated at least B leaves every bound, however slowly: elo (k > 0), fifa (no penalties), dwz, uscf (9 or more games), glicko (any c, although the deviation may shrink to 0; opponents' deviations bounded) and weng_lin (although the uncertainty shrinks). In elo a player who keeps losing falls below every bound, in uscf such a player is at exactly 100 after finitely many games and stays there. Two elo players (fifa teams in league matches) who keep drawing against each other both converge to the mean of their ratings if k < 1600/ln 10 (importance < 2400/ln 10); for every larger k there are two different ratings that a draw exchanges again and again. In ingo the same result against equally rated opponents brings the rating to the performance of one game, by a fixed factor per game, so streaks do not go on for ever.", "quantifier": "for all starting ratings, all sequences of opponents satisfying the bound (opponents may differ from game to game), all configurations in the stated range", "why_tests_cant": "Statements about limits of infinitely many games.", "anchors": ["src/elo.rs: elo", "src/fifa.rs: fifa", "src/dwz.rs: dwz", "src/uscf.rs: uscf", "src/glicko.rs: glicko", "src/weng_lin.rs: weng_lin", "src/ingo.rs: ingo"]}
{"id": "C112", "title": "Double-precision results stay close to exact arithmetic", "statement": "Computing in double precision instead of exact real arithmetic changes an Elo or FIFA rating by at most 2^-29 per game and an Ingo rating by at most 2^-33 per game, and these errors do not amplify each other: after n games of a whole pool in any arrangement (for Elo also after a rating period of n games) every computed rating differs from the exact one by at most n*2^-29 (n*2^-33) plus the initial difference. Expected scores of Elo and FIFA are accurate to 2^-38. In consequence players whose exact ratings differ by more than twice that bound are ordered correctly by the computed ratings, and the total of an Elo pool drifts by at most 2^-28 per game however large the pool is. Conditions: ratings stay below 16384 in absolute value (guaranteed by initial bound plus n times k, 5 points per game for Ingo), 0 <= k <= 512, and a library power function with a relative error of at most 2^-50.", "quantifier": "for all pools, all sequences of games (any length within the bound on ratings), all outcomes and configurations; for every monotone rounding and every library of the stated accuracy (an instance is round-to-nearest with correctly rounded functions)", "why_tests_cant": "Bounds the accumulated rounding error of all sequences of games; tests compare single results with a tolerance.", "anchors": ["src/elo.rs: elo, elo_rating_period, expected_score", "src/fifa.rs: fifa, expected_score", "src/ingo.rs: ingo"]}
{"id": "C113", "title": "How certain ratings can become", "statement": "In systems that widen a deviation before every game the deviation cannot shrink below a bound that depends on the configuration only: Glicko with c != 0 (1/sqrt(1/min(c^2,350^2) + n q^2/4) after n games; never below 62 with the default configuration), Sticko (the same with h n added to the variance), Glicko-2 (173.7178/sqrt(1/sigma'^2 + n/4), sigma' being the new volatility), TrueSkill (|tau| sqrt(1 - tau^2/(2 beta^2)) after a decided game of two players or teams, and after a draw if the draw margin is at least one percent of the total uncertainty plus the difference of the ratings; tau beta/sqrt(tau^2 + beta^2) after any match of several teams with weights). Where nothing widens there is no bound: with c = 0 a Glicko player who goes on playing opponents within reach ends with a deviation converging to 0, whatever the results; in Weng-Lin one game leaves at least sqrt(3/4) of the uncertainty, but two equal players who keep drawing end with uncertainties converging to 0.", "quantifier": "for all players, opponents, outcomes, numbers of games and configurations in the stated range; infinite sequences of games for the limits", "why_tests_cant": "A lower bound over all inputs and all pasts, and limits of infinitely many games.", "anchors": ["src/glicko.rs: glicko, glicko_rating_period", "src/sticko.rs: sticko, sticko_rating_period", "src/glicko2.rs: glicko2, glicko2_rating_period", "src/trueskill/mod.rs: trueskill, trueskill_two_teams, trueskill_multi_team", "src/weng_lin.rs: weng_lin"]}
{"id": "C114", "title": "TrueSkill's win probabilities are those of the normal distribution", "statement": "Let every player have an unknown skill that is normally distributed with the rating as mean and the uncertainty as standard deviation, and in the game a performance that differs from the skill by an independent normal error of standard deviation beta. The expected score of a player or team against another then differs by at most 3e-7 from the probability that its (summed) performance is the better one; the expected score of the first side is even right to a relative error of 6e-7 however small it is. In the same sense the crate's normal distribution function is accurate for every argument, mean and positive standard deviation, its density is exact, and quantiles of any normal law are those of the standard one shifted and scaled.", "quantifier": "for all players, all teams of any sizes, all configurations with beta != 0, every probability space with such skills and performances; all real arguments", "why_tests_cant": "The accuracy of a nine-coefficient fit over the whole real line, and its meaning as a probability; tests compare a few values.", "anchors": ["src/trueskill/mod.rs: expected_score, expected_score_two_teams", "src/trueskill/erf.rs: erfc, cdf, pdf, inverse_cdf"]}
{"id": "C115", "title": "A TrueSkill update is the conditional distribution given the result", "statement": "Let skills be normal with the rating as mean and variance sigma^2 + tau^2, and performances differ from skills by independent normal errors of variance beta^2 - tau^2 (tau is the dynamics factor, at most beta; without dynamics these are sigma^2 and beta^2). A side wins if its (summed) performance leads by more than the draw margin, and the game is drawn if neither does. Then after a win or loss the new rating of every player differs from the conditional mean of the skill given this result by at most 7e-7 of the change of that mean, and the square of the new uncertainty differs from the conditional variance by at most 2e-6 (1 + m)^2 of the prior variance, m being the difference of the sides plus margin in standard deviations (for results with a probability of at least 3e-162). After a draw of probability d >= 1e-5 the new rating differs by at most 7e-7/d of the change, and the square of the new uncertainty by at most 7e-7/d (1 + 5 m^2) of the prior variance. If the ratings of the two sides differ by at least the draw margin, the factor 7e-7/d can be replaced by 6.5e-6 however improbable the draw was (d >= 3e-162). The multi-team function with two teams does the same with errors of variance beta^2 and performances multiplied by the weights of the players (a draw must satisfy 7e-7/d (1 + 5 m^2) < 0.23 d^2 there, or the sides differ by at least the draw margin and by at most 100 times the margin less one standard deviation of the difference, with the factor 6.5e-6).", "quantifier": "for all players, all teams of any sizes, all outcomes, all configurations with 0 <= tau^2 <= beta^2, beta != 0 (multi-team: all configurations, uncertainties not zero, all positive weights), every probability space with such skills and performances", "why_tests_cant": "States what the ratings mean: conditional expectations under a probability model. Tests compare with numbers of other implementations.", "anchors": ["src/trueskill/mod.rs: trueskill, trueskill_two_teams, trueskill_multi_team", "src/trueskill/math.rs: v_non_draw, w_non_draw, v_draw, w_draw"]}
{"id": "C116", "title": "Equal sides draw with the configured probability", "statement": "The draw margin that TrueSkill derives from draw_probability and beta is the right one: two sides whose skills are known and have equal sums, with performances that differ from the skills by independent normal errors of standard deviation beta, end up within the margin of each other with probability draw_probability, up to an error of at most 7e-7 (1 - draw_probability), for teams of any sizes. With draw_probability >= 1 the probability is at least 1 - 1e-50. More generally, the probability below the crate's p-quantile of any normal law differs from p by at most 7e-7 min(p, 1 - p).", "quantifier": "for all draw probabilities in [0, 1 - 1e-17] and >= 1, all beta > 0, all teams of any sizes, every probability space with such performances; all means, all positive standard deviations, all p between 5e-18 and 1 - 5e-18", "why_tests_cant": "The quantile is computed by two steps of Halley's method from a fitted starting guess; its error over the whole range needs a convergence argument.", "anchors": ["src/trueskill/mod.rs: draw_margin", "src/trueskill/erf.rs: inverse_erfc, inverse_cdf"]}
{"id": "C117", "title": "Elo, FIFA and Weng-Lin ratings move along the gradient of the likelihood", "statement": "Take the logistic model in which a win has the probability the expected score states, count a draw as half a win and half a loss, and let L be the logarithm of the likelihood of the results. Then the change of a player's rating is a constant times the slope of L in that rating: k 400/ln 10 for Elo, importance 600/ln 10 for FIFA (no penalties, no knockout), the square of the player's own uncertainty for Weng-Lin, where for teams L is a function of the rating of the team and for several teams the sum over all other teams. In a Weng-Lin game the new uncertainty of a player is sigma sqrt(max(1 - sigma^2 (sigma/c) I, kappa)), where -I is the second derivative of L.", "quantifier": "for all players, teams of any sizes, any number of teams, all outcomes and configurations; Weng-Lin: somebody in the team has a non-zero uncertainty", "why_tests_cant": "Identifies the update with a derivative, at every point; tests compare single numbers.", "anchors": ["src/elo.rs: elo", "src/fifa.rs: fifa", "src/weng_lin.rs: weng_lin, weng_lin_two_teams, weng_lin_multi_team"]}
{"id": "C118", "title": "A Glicko update is one Newton step towards the most probable rating", "statement": "Take the player's rating as normal with the old rating as mean and the deviation at the start of the period (widened as the system does: by c in Glicko and Sticko, by the new volatility in Glicko-2) as standard deviation, and results with the win probabilities of the system. The posterior density of the rating has exactly one maximum. The new rating is the result of one step of Newton's method for that maximum, started at the old rating, so the rating always moves towards the most probable rating, and the square of the new deviation is the inverse of the curvature there. This holds for games and rating periods of Glicko and Glicko-2, for Glicko-Boost periods (rating only) unless the deviation is boosted, and for Sticko periods with the bonus beta counted as points and followed by the pull towards the opponents (deviation for h = 0).", "quantifier": "for all players with non-zero deviation, all opponents, rating periods of any length, all outcomes and configurations (Glicko-2: all calls that return; Glicko-Boost: deviation in (0, 350])", "why_tests_cant": "States what the update computes: a derivative-based step for a maximum over all real numbers, and the existence and uniqueness of that maximum.", "anchors": ["src/glicko.rs: glicko, glicko_rating_period", "src/glicko2.rs: glicko2, glicko2_rating_period", "src/glicko_boost.rs: glicko_boost_rating_period", "src/sticko.rs: sticko_rating_period"]}
{"id": "C119", "title": "Elo and FIFA forecasts are calibrated in the long run, whatever the results", "statement": "In a pool of N players rated with a constant k, the change of a player's rating in any sequence of games is k times the difference between the points won and the sum of the expected scores published before the games. That difference is at most N/k (2 D + 2 k + 400 log10 n) + 1 after n games of the pool, D being the largest difference of the initial ratings (600 instead of 400 for FIFA). So in an endless sequence of games the average difference between points and expected score of every player tends to 0, whatever the pairings and results are, even chosen by an adversary.", "quantifier": "for all finite pools, all initial ratings, all sequences of games of any length and all infinite sequences, all results, all k > 0 (FIFA: importance k, no knockout, no penalties)", "why_tests_cant": "A statement about all infinite sequences of results. It needs a bound on how far ratings of a whole pool can spread.", "anchors": ["src/elo.rs: elo, expected_score", "src/fifa.rs: fifa, expected_score"]}
{"id": "C120", "title": "Elo and FIFA forecasts are almost as good as those of the best fixed ratings", "statement": "Measure a forecast by its logarithmic loss (the negative log-likelihood of the result, a draw counting as half a win and half a loss). For every pool, every sequence of games with constant k, all results and every choice of fixed ratings for the players, even one made after the games: (1 - k ln(10)/800) times the total loss of Elo's expected scores is at most the total loss of the expected scores computed from the fixed ratings, plus ln(10)/(800 k) times the sum of the squared differences between fixed and initial ratings (1200 instead of 800 for FIFA).", "quantifier": "for all finite pools, all initial ratings, all fixed ratings, all sequences of games of any length, all results, all k > 0 (FIFA: importance k, no knockout, no penalties)", "why_tests_cant": "A guarantee against every competitor and every sequence of results.", "anchors": ["src/elo.rs: elo, expected_score", "src/fifa.rs: fifa, expected_score"]}
{"id": "C121", "title": "The Glicko-2 volatility reacts to surprises in the right direction", "statement": "Whenever glicko2 or glicko2_rating_period returns, the new squared volatility lies between the old one and Delta^2 - phi^2 - v (published quantities; not above the old one if that is negative): it never falls after results more surprising than expected and never rises after others. It shrinks at most by the factor exp(-(tau^2/2 + tol)) and grows at most by exp(tau^2 max(Delta^2/(phi^2 + v) - 1, 0)/8 + tol), tol being the convergence tolerance, so that after n rating periods, empty ones included, a volatility has lost at most the factor exp(-n (tau^2/4 + tol/2)). When the better rated player wins, or players at most 304 points apart draw, neither volatility rises; a win against odds of at least 1 + (phi^2 + sigma^2)/4 never lowers the volatility of the winner.", "quantifier": "for all players with non-zero volatility, all opponents, rating periods and sequences of periods of any length, all tau > 0 and tolerances, all calls that return", "why_tests_cant": "The value is the result of an iteration; its direction and size are needed for all inputs and all numbers of iterations.", "anchors": ["src/glicko2.rs: glicko2, glicko2_rating_period, new_volatility"]}
{"id": "C122", "title": "A better result never makes a Weng-Lin or TrueSkill rating worse", "statement": "Replace results of a player by better ones and leave everything else as it is: the player's new rating does not become lower. Weng-Lin: the ratings of both players (teams, and a team of a match of several teams that gets a better rank against every other team) move in the direction of the better result and no uncertainty depends on the result. TrueSkill with two players or two teams: a loss never gives a higher rating than a draw, nor a draw than a win, if the draw margin is zero or at least 1/500 of the total standard deviation of the match; a win always beats a loss; but with the default draw probability there are players with huge uncertainties for whom a draw gives a higher rating than a win, because the crate's normal distribution is not exact. For rating periods the same holds for the last game, but not for the earlier ones: because games are processed one after another, for every player there is a period in which winning the first game ends in a lower rating than drawing it (Weng-Lin) or losing it (TrueSkill), all other results being equal.", "quantifier": "for all players, teams of any sizes, any number of teams, all opponents, outcomes and configurations (counterexamples: for every player with positive uncertainty; Weng-Lin: uncertainty tolerance at most 3/4)", "why_tests_cant": "Compares all pairs of result lists; the counterexamples exist for every player and are not found by testing typical ratings.", "anchors": ["src/weng_lin.rs: weng_lin, weng_lin_two_teams, weng_lin_multi_team, weng_lin_rating_period", "src/trueskill/mod.rs: trueskill_rating_period"]}
{"id": "C123", "title": "One update in double precision is close to exact arithmetic", "statement": "For players in a usual range, the result of one call in double precision is close to the same formula in exact arithmetic. Glicko (ratings within 16384, deviations between 2^-10 and 1024): one game changes ratings by at most 2^-22 and deviations by at most 2^-23 compared to the exact values; a rating period of n <= 256 games by n^2*2^-22 and n*2^-23; expected scores are accurate to 2^-34, decayed deviations to 2^-41, confidence intervals to 2^-35. Weng-Lin (beta and uncertainties between 2^-20 and 2^20, ratings at most 250 times beta): one game is accurate to (|rating| + uncertainty)*2^-37 for ratings and a relative 2^-36 for uncertainties, expected scores to 2^-37.", "quantifier": "for all players in the stated ranges, all outcomes and configurations, all rating periods of at most 256 games; for every monotone rounding and every library of the stated accuracy (an instance is round-to-nearest with correctly rounded functions)", "why_tests_cant": "Bounds the rounding error for all inputs of a range; tests compare single results with a tolerance.", "anchors": ["src/glicko.rs: glicko, glicko_rating_period, expected_score, expected_score_rating_period, decay_deviation, confidence_interval", "src/weng_lin.rs: weng_lin, expected_score"]}
{"id": "C124", "title": "TrueSkill expected scores in double precision are the win probabilities of its model", "statement": "For players with beta and uncertainties between 2^-20 and 2^20 and ratings at most 39 beta apart, the expected score that a double-precision program returns for the first player is the probability that this player performs better in TrueSkill's probabilistic model (normal skills, normal performances with standard deviation beta), up to a relative error of 6.1e-7 and an absolute error of 3.1e-7; the second score is accurate to 3.2e-7. The same holds for every opponent of a rating period and for two teams of at most 32 players in total whose difference in strength is at most 28 standard deviations.", "quantifier": "for all players, opponents, teams and configurations in the stated ranges; for every monotone rounding and every library of the stated accuracy (an instance is round-to-nearest with correctly rounded functions)", "why_tests_cant": "Compares a floating-point evaluation of a fitted polynomial with an integral, for all inputs of a range.", "anchors": ["src/trueskill/mod.rs: expected_score, expected_score_two_teams, expected_score_rating_period", "src/trueskill/erf.rs: erfc, cdf"]}
{"id": "C125", "title": "A TrueSkill game in double precision is the conditional distribution given the result", "statement": "Take TrueSkill's model of a game: skills normal with the rating as mean and variance sigma^2 + tau^2, performances differing from skills by independent normal errors of variance beta^2 - tau^2, a win being a lead of more than the draw margin that the double-precision program computes. The rating that the program returns after a win or loss differs from the conditional mean of the skill given this result by at most 7e-7 of the change of that mean plus (|rating| + sigma + beta) 2^-39; the new uncertainty is positive and its square differs from the conditional variance by at most 2.1e-6 (1 + t)^2 of the prior variance, t being the difference of the ratings plus margin in standard deviations of the lead, at most 27. After a draw of probability d >= (1 + 5 t^2)/4000 the rating differs by at most (7e-7 of the change + 1.2e-9 (sigma + beta))/d + |rating| 2^-39 and the square of the uncertainty by at most 8.1e-7/d (1 + 5 t^2) of the prior variance. The same holds for every member of two teams of together at most 16 players, whose performances are added up, the roundings of the sums over the teams included. In a rating period it holds for each game in turn, with the player as computed so far.", "quantifier": "for all players with uncertainties between 2^-20 and min(2^20, 16 beta) and ratings up to 2^40 (members of teams: 64 beta), all outcomes, all configurations with beta between 2^-20 and 2^20 and 0 <= tau^2 <= beta^2 and a finite draw margin (see the next property), every probability space with such skills and performances; for every monotone rounding and every library of the stated accuracy (an instance is round-to-nearest with correctly rounded functions)", "why_tests_cant": "The whole chain of rounded operations, fitted functions and probability theory at once, for all inputs of a range.", "anchors": ["src/trueskill/mod.rs: trueskill, trueskill_two_teams", "src/trueskill/math.rs: v_non_draw, w_non_draw, v_draw, w_draw, new_rating, new_uncertainty"]}
{"id": "C126", "title": "The draw margin in double precision gives equal sides the configured draw probability", "statement": "The draw margin that a double-precision program computes from a draw_probability p between 0 and 1 - 2^-20 is finite, at most 15 beta for two players, and two sides whose skills are known and have equal sums, with performances that differ from the skills by independent normal errors of standard deviation beta, end up within the margin of each other with probability p, up to an error of at most 7e-7 (1 - p).", "quantifier": "for all draw probabilities in [0, 1 - 2^-20], all beta between 2^-20 and 2^20, teams of any sizes with at most 1024 players in total, every probability space with such performances; for every monotone rounding and every library of the stated accuracy (an instance is round-to-nearest with correctly rounded functions)", "why_tests_cant": "The quantile is found by two Halley steps in floating-point arithmetic from a fitted guess; the error needs a convergence argument with perturbed steps.", "anchors": ["src/trueskill/mod.rs: draw_margin", "src/trueskill/erf.rs: inverse_erfc, inverse_cdf"]}
{"id": "C127", "title": "A Glicko-2 game in double precision returns and is close to the exact result", "statement": "In double precision a Glicko-2 game returns (the iteration for the volatility ends although every value of the function is rounded), and both players end close to the exact solution of the equations of the Glicko-2 description, in which the volatility is the root of the equation of step 5, which is unique: with eta = convergence_tolerance + 2^-17 the rating is off by at most 6 eta, the deviation by at most 55 eta and the volatility by at most the relative error eta; with eta = convergence_tolerance + 2^-28 if Delta^2 is not within a relative 2^-24 of phi^2 + v, where the code changes its way of starting the iteration. With the default configuration: ratings up to 0.0001, deviations up to 0.0005 and volatilities up to a relative 0.000009 for players up to 680 points apart.", "quantifier": "for all players with ratings within 8192, deviations between 1/1000 and 1000 and volatilities between 0.0001 and 0.099, all outcomes, all configurations with tau between 0.1 and 1.2 and tolerance between 2^-21 and 1 such that tau^2 exp(|r1 - r2|/173.7178) is at most 13; for every monotone rounding that treats all binades alike and every library of the stated accuracy (an instance is round-to-nearest with correctly rounded functions)", "why_tests_cant": "Termination of a root-finding loop with rounding noise in every step, for all inputs of a range; the tests only run a few games.", "anchors": ["src/glicko2.rs: glicko2, new_volatility, f_value, new_deviation, new_rating"]}
{"id": "C128", "title": "A Glicko-2 rating period in double precision returns and is close to the exact result", "statement": "In double precision a Glicko-2 rating period returns, and the player ends close to the exact solution of the equations of the Glicko-2 description for the games of the period, which is unique: with eta = convergence_tolerance + 2^-26 + 1.1 (sigma^2/(phi^2 + v))^2 the rating is off by at most 6 n eta for n games, the deviation by at most 55 eta and the volatility by at most the relative error eta; the last summand of eta falls away if Delta^2 is not within a relative 2^-24 of phi^2 + v. With the default configuration: up to ten games against opponents within 280 points, by a player with a deviation of at least 105 and a volatility of at most 0.0601: rating up to 0.0002 per game, deviation up to 0.002, volatility up to a relative 0.00003. A period without games leaves rating and volatility as they are and its new deviation is exact up to a relative 2^-46.", "quantifier": "for all players and opponents with ratings within 8192, deviations between 1/1000 and 1000 and volatilities between 0.0001 and 0.099, all lists of 1 to 128 games (and the empty list) against opponents within 1200 points, all configurations with tau between 0.1 and 1.2 and tolerance between 2^-21 and 1, provided that 51 sigma^2 <= phi^2 + v, tau^2 Delta^2 <= 13 (phi^2 + v) and 401 tau^2 Delta^2 sigma^2 <= 13 (phi^2 + v)^2; for every monotone rounding that treats all binades alike and every library of the stated accuracy (an instance is round-to-nearest with correctly rounded functions)", "why_tests_cant": "Sums of rounded terms feed a root-finding loop that must end and stay close to the exact root, for lists of every length up to 128.", "anchors": ["src/glicko2.rs: glicko2_rating_period, decay_deviation, new_volatility, f_value, new_deviation"]}
{"id": "C129", "title": "DWZ and USCF updates in double precision are close to exact arithmetic", "statement": "For players with ratings within 16384, DWZ and USCF in double precision give the same results as the same formulas in exact arithmetic, up to rounding that no user can see: expected scores are accurate to 2^-38, new DWZ ratings after a game or after a rating period of at most 1024 games to 2^-25, new USCF ratings to 2^-24, and index, age and number of games are exact. This holds across the thresholds of both systems: provisional and established USCF players and the bonus threshold, the caps of the DWZ development coefficient, the youth factor and the surcharge of weak players, and where score and expectation are so close that rounding decides which of the rules applies.", "quantifier": "for all players with ratings of magnitude at most 2^14 (DWZ index between 1 and 2^50, USCF games below 2^52), all ages, outcomes, all non-empty lists of at most 1024 games (USCF: also the empty list), USCF thresholds of magnitude at most 1024; for every monotone rounding and every library of the stated accuracy (an instance is round-to-nearest with correctly rounded functions)", "why_tests_cant": "The coefficient has jumps (the youth factor, the surcharge) that depend on comparisons of rounded numbers; that they do not show in the result needs an argument for all inputs.", "anchors": ["src/dwz.rs: dwz, dwz_rating_period, expected_score, expected_score_rating_period, e_value, new_rating", "src/uscf.rs: uscf, uscf_rating_period, expected_score, expected_score_rating_period"]}
{"id": "C130", "title": "The first DWZ rating in double precision is the exact one", "statement": "get_first_dwz in double precision fails with NotEnoughGames exactly for less than five games and with InvalidWinRate exactly when all games were won or all were lost, and otherwise returns the index 1, the given age and the rating that the rules give for the average of the opponents and the percentage of points rounded to the nearest integer (half-way cases up), up to an error of 2^-24.", "quantifier": "for all ages and all lists of at most 1024 games against opponents with ratings of magnitude at most 2^14; for every monotone rounding (an instance is round-to-nearest)", "why_tests_cant": "The percentage is computed as a rounded quotient times one hundred and then rounded to an integer; whether the two roundings can select another row of the table depends on the number of games and points, and most pairs never show it.", "anchors": ["src/dwz.rs: get_first_dwz"]}
{"id": "C131", "title": "EGF updates in double precision are close to exact arithmetic", "statement": "For players between -1000 and 3200, with any handicap of up to 64 stones that lifts nobody above 3200, EGF in double precision gives the same results as the same formulas in exact arithmetic, up to rounding: expected scores (of single games and of rating periods) are accurate to 2^-31, new ratings after a game to 2^-22, and the new rating after a rating period of n games to (n + 1) 2^-21; also where a rating meets the floor of -900.", "quantifier": "for all ratings between -1000 and 3200, all handicaps of magnitude at most 64 (negative for the first player, positive for the second, both zeros) such that no strength exceeds 3200, all outcomes, all lists of at most 1024 games; for every monotone rounding and every library of the stated accuracy (an instance is round-to-nearest with correctly rounded functions)", "why_tests_cant": "The formulas chain powf, exp, ln_1p and ln; how their errors are amplified, in particular by the seventh power hidden in beta, needs an analysis for all ratings.", "anchors": ["src/egf.rs: egf, egf_rating_period, expected_score, expected_score_rating_period, con, bonus, beta, new_rating"]}
{"id": "C132", "title": "Sticko updates in double precision are close to exact arithmetic", "statement": "For players with ratings within 8192 and deviations between 1/1024 and 1024, Sticko in double precision gives the same results as the same formulas in exact arithmetic, up to rounding: expected scores (of single games and of rating periods, for either side of the advantage) are accurate to 2^-34, new ratings after a game to 2^-20 and new deviations to 2^-22, after a rating period of n games the new rating to n^2 2^-20 and the new deviation to n 2^-22, the deviation after a period without games to 2^-41 and the ends of the confidence interval to 2^-35.", "quantifier": "for all such players and opponents, all outcomes, all lists of at most 256 games, all configurations with 0 <= h <= 100, |beta| <= 1, |lambda| <= 100, |gamma| <= 8192, |c| <= 2^20; for every monotone rounding and every library of the stated accuracy (an instance is round-to-nearest with correctly rounded functions)", "why_tests_cant": "The error of every intermediate value has to be bounded for all inputs, including where 1/d^2 nearly vanishes and where the cap of the deviation applies.", "anchors": ["src/sticko.rs: sticko, sticko_rating_period, expected_score, expected_score_rating_period, decay_deviation, confidence_interval, new_rating, new_deviation"]}
{"id": "C133", "title": "Glicko-Boost updates in double precision are close to exact arithmetic", "statement": "For players with ratings within 8192 and deviations between 1/1024 and 350 whose ratings, including the advantage, are at most 800 points apart, Glicko-Boost in double precision gives the same results as the same formulas in exact arithmetic, up to rounding: the new rating after a game is accurate to 2^-19, after a rating period of n games to n 2^-19, and the new deviations to 2^-14. The boost is switched on at a threshold, where the exact result jumps: if the standardised performance is within 2^-30 of the threshold, the result is that close to the exact result for a threshold moved by at most 2^-30, otherwise for the given threshold. The deviation after a period without games is accurate to 2^-30, expected scores to 2^-34 and the ends of the confidence interval to 2^-35.", "quantifier": "for all such players and opponents, all outcomes, all lists of at most 64 games (and the empty list), all configurations with |eta| <= 1024, |k| <= 4, 0 <= B1 <= 1, 0 <= B2 <= 100, |alpha0| <= 20, |alpha1| <= 1/1000, |alpha2| <= 1/2000, |alpha3| <= 1/100, |alpha4| <= 1/500 (the default configuration is among them); expected scores and intervals without the limit on the difference; for every monotone rounding and every library of the stated accuracy (an instance is round-to-nearest with correctly rounded functions)", "why_tests_cant": "A comparison of a rounded quotient with a threshold decides which formula applies, and the rounding errors pass through reciprocals, roots, an exponential of a polynomial and a cap; the bound is needed for all inputs.", "anchors": ["src/glicko_boost.rs: glicko_boost, glicko_boost_rating_period, expected_score, expected_score_rating_period, decay_deviation, confidence_interval, new_deviation, new_rating, z_value, boost_rd"]}
{"id": "C134", "title": "FIFA and Ingo rating periods and Glicko-2 expected scores in double precision are close to exact arithmetic", "statement": "In double precision the following give the same results as the same formulas in exact arithmetic, up to rounding: a FIFA rating period of n matches (error at most the initial error plus n 2^-29), an Ingo rating period (2^-23, the age is unchanged), Ingo expected scores of games and periods (2^-40), Glicko-2 expected scores of games and rating periods (2^-37 for the first player, 2^-36 for the second), and the ends of the Glicko-2 confidence interval (2^-36).", "quantifier": "for all players with usual values (FIFA: ratings that stay within 2^14 and importance at most 512 per match, configurations may differ between matches; Ingo: ratings within 16384 and 1 to 1024 games; Glicko-2: ratings within 8192 and deviations between 1/1000 and 1000), all outcomes and all lists of matches of these lengths; for every monotone rounding and every library of the stated accuracy (an instance is round-to-nearest with correctly rounded functions)", "why_tests_cant": "How rounding errors accumulate over a list of games has to be bounded for all lists and all inputs; tests compare a few literals.", "anchors": ["src/fifa.rs: fifa_rating_period", "src/ingo.rs: ingo_rating_period, expected_score, expected_score_rating_period", "src/glicko2.rs: expected_score, expected_score_rating_period, confidence_interval"]}
{"id": "C135", "title": "Weng-Lin games of teams in double precision are close to exact arithmetic", "statement": "In double precision, games of two teams, games of any number of teams and the expected scores of teams give the same results as the same formulas in exact arithmetic, up to rounding. In a game against n opposing teams each new rating is accurate to (|rating| + n uncertainty) 2^-32; each new uncertainty is accurate to n uncertainty 2^-30 if there are at most four teams, and to n uncertainty 2^-21 if there are more and the tolerance is at least 2^-20. Expected scores of two teams are accurate to 2^-33, of several teams to 2^-32.", "quantifier": "for all teams of 1 to 32 players with uncertainties and beta between 2^-20 and 2^20, ratings of at most 64 beta each and 250 beta in sum, all outcomes and ranks, tolerances between -1 and 1, up to 65 teams (64 for expected scores); for every monotone rounding and every library of the stated accuracy (an instance is round-to-nearest with correctly rounded functions)", "why_tests_cant": "Sums over teams and over all pairs of teams accumulate errors that pass through exponentials, quotients, a cut-off and a root; the bound is needed for all inputs.", "anchors": ["src/weng_lin.rs: weng_lin_two_teams, weng_lin_multi_team, expected_score_two_teams, expected_score_multi_team, p_value, small_delta, gamma, eta, new_rating_teams, new_uncertainty_teams"]}
{"id": "C136", "title": "TrueSkill match quality in double precision is close to exact arithmetic", "statement": "The match quality of two players, of a player and each of a list of opponents, and of two teams of together at most 16 players, computed in double precision, differs from sqrt(n beta^2 / c^2) exp(-D^2 / (2 c^2)) by at most a 2^-32nd part, where n is the number of players, D the difference of the summed ratings and c^2 = n beta^2 plus the sum of the squared uncertainties; so the result is never zero and never not-a-number.", "quantifier": "for all players with uncertainties and beta between 2^-20 and 2^20 whose ratings (for teams: summed ratings, each at most 64 beta) are at most 19 c apart; for every monotone rounding and every library of the stated accuracy (an instance is round-to-nearest with correctly rounded functions)", "why_tests_cant": "The relative error of an exponential is the absolute error of its argument, which grows with the square of the lead; the bound is needed for all inputs.", "anchors": ["src/trueskill/mod.rs: match_quality, match_quality_rating_period, match_quality_two_teams"]}
{"id": "C137", "title": "A Weng-Lin rating period does not amplify errors of the player's rating by more than 1.6 per game", "statement": "If two players meet the same opponents with the same results in a Weng-Lin rating period, then |difference of the ratings| + 4 |difference of the uncertainties| grows at most by a factor 1.6 with every game, so after n games it is at most 1.6^n times as large as before. Consequently a rating period of n games in double precision gives the same rating as in exact arithmetic up to 1.6^n (|rating| + (2n + 9) uncertainty) 2^-36, and the same uncertainty up to a quarter of that.", "quantifier": "for all real ratings, positive uncertainties, opponents, results, beta and tolerances of at most 1, and all lengths of the period; in double precision for periods of at most 40 games, uncertainties of the opponents and beta between 2^-20 and 2^20, ratings of at most 250 beta, a tolerance between -1 and 1, and a player with |rating| + (2n + 9) uncertainty <= 250 beta whose uncertainty is not too small; for every monotone rounding and every library of the stated accuracy", "why_tests_cant": "Stability is a statement about all pairs of nearby inputs; the derivative of rating and uncertainty with respect to both has to be bounded everywhere.", "anchors": ["src/weng_lin.rs: weng_lin, weng_lin_rating_period, new_rating, new_uncertainty, p_value"]}
{"id": "C138", "title": "Elo and FIFA ratings learn the true strengths of the players", "statement": "Let the players have fixed true strengths, in the sense that the mean score of every game is the expected score computed from the strengths. Then the expected scores computed from the current ratings approach the true ones: with constant k, (1 - k ln(10)/1600) times the mean of the sum over n games of the squared difference between published and true expected score is at most ln(10)/3200 (S/k + n k/2), where S is the sum of the squared differences between initial ratings and strengths (2400 and 4800 instead of 1600 and 3200 for FIFA). So the mean squared error per game is at most about 0.0125 after many games with k = 32, whatever the initial ratings are. The mean of S grows by at most k^2/2 per game. If k is lowered from game to game such that the sum of all k diverges and the sum of their squares converges, the average squared error, weighted with k, tends to 0.", "quantifier": "for all finite pools, all initial ratings and strengths, all numbers of games, all ways to choose pairings and chances of win, draw and loss depending on everything that has happened before, all k > 0 (for the growth of S and fading factors k of at most 694; FIFA: importance k up to 1042, no knockout, no penalties)", "why_tests_cant": "It is a statement about random results of any number of games; a simulation samples a few sequences and fixed pairings.", "anchors": ["src/elo.rs: elo, expected_score", "src/fifa.rs: fifa, expected_score"]}
{"id": "C139", "title": "The rating of a player with a true strength converges to it", "statement": "Let a player have a fixed true strength, in the sense that the mean score of every game, given everything that happened before, is the expected score that the library publishes for a player of that rating without uncertainty. In endless games the rating then tends to the true strength with probability 1: for Glicko with c = 0, game by game or in rating periods, where the deviation tends to 0; for Weng-Lin with tolerance at most 3/4, where the uncertainty tends to 0; for Elo and FIFA if the factor k (the importance) is lowered from game to game such that the sum of all factors diverges and the sum of their squares converges. In contrast, with a constant k, or with a Glicko c other than 0, the rating never converges to anything if no game is drawn.", "quantifier": "for all initial ratings and positive deviations (uncertainties), all true strengths, all sequences of opponents with bounded ratings and deviations, which may be chosen depending on everything that happened before, all distributions of results with the stated means, all rating periods of 1 to M games; the negative statement for all sequences of decided games against opponents with bounded ratings", "why_tests_cant": "It is a statement about infinitely many random games, of which a test can play only finitely many of a few sequences.", "anchors": ["src/glicko.rs: glicko, glicko_rating_period, expected_score", "src/weng_lin.rs: weng_lin, expected_score", "src/elo.rs: elo, expected_score", "src/fifa.rs: fifa, expected_score"]}
{"id": "C140", "title": "Elo and FIFA ratings of a whole pool converge to the true strengths", "statement": "Let all players of a pool have fixed true strengths, in the sense that the mean score of every game, given everything that happened before, is the expected score that the library publishes for players with these ratings, and let the factor k (the importance) be lowered such that the sum of the squared factors converges. Then, with probability 1, the squared differences between the expected scores published before each game and the true ones, weighted with k, have a finite sum, whoever plays whom. If the sum of the factors diverges and everybody is compared with everybody regularly, if only through other players, then all ratings tend to the true strengths plus a shift that is the same for all players, namely the difference between the mean initial rating and the mean strength.", "quantifier": "for all finite pools, all initial ratings and strengths, all ways to choose the pairings depending on everything that happened before, all distributions of results with the stated means; for the convergence of the ratings a connected graph of pairs that either meet regularly (non-increasing factors, any L consecutive games include a game of each pair; L may be random) or are drawn at random (each pair meets with at least a fixed probability, given everything that happened before)", "why_tests_cant": "It is a statement about infinitely many random games in which the ratings of all players change together.", "anchors": ["src/elo.rs: elo, expected_score", "src/fifa.rs: fifa, expected_score"]}
{"id": "C141", "title": "Sticko's pull towards the opponents bounds the ratings", "statement": "With a parameter lambda above 0 and up to 100 a Sticko rating cannot run away: after n games, from either seat and with any results, against opponents rated at most B in absolute value it is at most B + 70600 (1 + |beta|) / lambda + (1 - lambda/100)^n times the initial rating, in absolute value; the same, with N times the middle term, for n rating periods of 1 to N games each. Without the pull (h, beta, lambda and gamma 0) a winning streak has no bound, as in Glicko. The documentation only warns of negative values, but a lambda above 200 is no pull at all: against opponents of one rating a player who starts more than 70600 (1 + |beta|) / (lambda - 200) away from them moves away without bound, whatever the results are.", "quantifier": "for all infinite sequences of games or rating periods, opponents, results, seats and configurations with h >= 0 and a positive initial deviation", "why_tests_cant": "The bound is about all infinite sequences; a finite winning streak looks the same with and without a bound.", "anchors": ["src/sticko.rs: sticko, sticko_rating_period, StickoConfig"]}
{"id": "C142", "title": "With a constant factor the forecasts of Elo and FIFA are right in the long run up to a small error", "statement": "Let all players of a pool have fixed true strengths, in the sense that the mean score of every game, given everything that happened before, is the expected score that the library publishes for players with these ratings, and let the factor k (FIFA: the importance) be constant. Then, with probability 1, the mean over n games of the squared difference between the expected score published before each game and the true one is, from some n on, at most k ln(10) / (4 (1600 - k ln(10))) plus any given margin (2400 instead of 1600 for FIFA); for Elo with k = 32 this is 0.0122, an error of 0.11 per game. The sum of the squared differences between ratings and strengths is, from some n on, at most (k^2/2 plus any given margin) n.", "quantifier": "for all finite pools, all initial ratings and strengths, all k > 0 with k ln(10) < 1600 (FIFA: 2400, no knockout, no penalties), all ways to choose the pairings depending on everything that happened before, all distributions of results with the stated means, almost all infinite sequences of results", "why_tests_cant": "It is a statement about single infinite sequences of random games; a simulation sees finitely many games, and the ratings themselves never settle.", "anchors": ["src/elo.rs: elo, expected_score", "src/fifa.rs: fifa, expected_score"]}
{"id": "C143", "title": "Ratings of DWZ, USCF, Glicko-Boost and TrueSkill never settle", "statement": "Ratings of these systems keep moving for ever: in an endless sequence of games without draws the rating of a player does not converge to any value. The only exception is USCF, where it may converge to the lowest possible rating 100, and a player rated 100 with more than 8 games who goes on losing does stay at 100.", "quantifier": "for all initial ratings, all infinite sequences of wins and losses, either seat in each game, all sequences of opponents with bounded ratings (Glicko-Boost, TrueSkill: and deviations or uncertainties), all configurations (Glicko-Boost: b >= 0 in both places; TrueSkill: beta and dynamics factor not 0)", "why_tests_cant": "No finite sequence of games can show that a sequence does not converge.", "anchors": ["src/dwz.rs: dwz", "src/uscf.rs: uscf", "src/glicko_boost.rs: glicko_boost", "src/trueskill/mod.rs: trueskill"]}
{"id": "C144", "title": "The initial rating is forgotten", "statement": "Two players who start with different Elo, FIFA or Ingo ratings and then play the same opponents with the same results end up with the same rating: the difference of their ratings tends to 0. With Elo and FIFA the difference never grows and the order of the two ratings is never reversed; with Ingo, for players of the same age, every game leaves exactly d/(1+d) of it, where d = 10, 15 or 20 is the development coefficient of the age. So the choice of the initial rating does not matter in the long run. A limit for k is needed: with k = 4000 a single Elo game can reverse the order of two players with the same opponent and result and more than triple the difference.", "quantifier": "for all initial ratings, all infinite sequences of results including streaks, either seat in each game, all k > 0 with k ln(10) <= 1600 (FIFA: importance up to 2400/ln(10), no knockout, no penalties), all sequences of opponents (Elo and FIFA: with bounded ratings)", "why_tests_cant": "It is a statement about all infinite sequences of results; in a streak the difference falls ever more slowly, so that no number of games shows that it tends to 0.", "anchors": ["src/elo.rs: elo", "src/fifa.rs: fifa", "src/ingo.rs: ingo"]}
{"id": "C145", "title": "Ingo ratings find the true strength", "statement": "Let a player have a fixed true strength, in the sense that the mean score of every game, given everything that happened before, is the expected score that the library publishes for a player of this rating. Then the mean of the Ingo rating after n games is the true strength plus (d/(1+d))^n times the error of the initial rating, where d = 10, 15 or 20 is the development coefficient of the age; the mean square error is at most (d/(1+d))^(2n) times the square of the initial error plus 2500/(2d+1), so that in the long run the standard error is at most 11, 9 or 8 points; and with probability 1 the average of all ratings up to game n tends to the true strength.", "quantifier": "for all initial ratings, ages and strengths, all ways to choose opponents within 50 points of the true strength (beyond this the published expected score leaves the range from 0 to 1) depending on everything that happened before, all distributions of results with the stated means, either seat in each game, all n, and almost all infinite sequences of results", "why_tests_cant": "It is a statement about the distribution of ratings after any number of random games and about infinite sequences; a simulation sees finitely many.", "anchors": ["src/ingo.rs: ingo, expected_score"]}
{"id": "C146", "title": "A pool of Ingo players stays together and its forecasts are calibrated, whatever the results", "statement": "In a pool of Ingo players the sum of all ratings, each weighted with 1 + d where d = 10, 15 or 20 is the development coefficient of the age, is the same after any games. The change of a player's rating, times 1 + d, is 100 times the difference between the sum of the expected scores published before the games and the points won. Unlike Elo ratings, Ingo ratings cannot run away: in a pool of N players whose initial ratings differ by at most D no rating ever moves by more than N (4 D + 92), and the difference between points and expected scores of a player never exceeds N (D/2 + 11), however many games are played. So in an endless sequence of games the average difference tends to 0, even if an adversary chooses pairings and results.", "quantifier": "for all finite pools, all initial ratings and ages, all sequences of games of any length and all infinite sequences, all results", "why_tests_cant": "A statement about all infinite sequences of results; it needs a bound on how far a whole pool can spread.", "anchors": ["src/ingo.rs: ingo, expected_score"]}
{"id": "C147", "title": "Where the same results keep the order of two players, and where they do not", "statement": "Let two players differ only in their ratings and play the same game: same opponent, same seat, same result. After a single game the player who was rated higher is still rated strictly higher with Elo, FIFA, Ingo, Weng-Lin and Glicko, with USCF for players with at least one game whose ratings are on the same side of 2355, and with EGF below 3300 points (a player who receives handicap stones must not come above 3000 by them); with USCF and EGF both can also end up at the lowest possible rating, 100 or -900. It fails elsewhere: with DWZ two newcomers rated 1299 and 1300 lose to the same opponent, and the one who was rated higher ends up more than 40 points below the other; with USCF a win can reverse the order of two players on different sides of 2355; and in a Glicko rating period two newcomers win the same two games and the one who was rated lower ends up more than 40 points above the other.", "quantifier": "for all ratings, opponents, results and both seats; k >= 0 with k ln(10) < 1600, importance >= 0 with importance ln(10) < 2400, all knockout and penalty settings, all other configurations; Glicko and Weng-Lin: equal deviations (Glicko: positive); USCF: equal numbers of games, established ratings of at least 100; EGF: ratings of at least -900; the failures are given by concrete players", "why_tests_cant": "An inequality between two real functions of the old rating at all pairs of points. It depends on the slope of the update rule everywhere; the margin for Glicko is small, and the failures are at jumps of the rules or far from equal ratings.", "anchors": ["src/elo.rs: elo", "src/fifa.rs: fifa", "src/ingo.rs: ingo", "src/egf.rs: egf", "src/uscf.rs: uscf", "src/glicko.rs: glicko, glicko_rating_period", "src/weng_lin.rs: weng_lin", "src/dwz.rs: dwz"]}
{"id": "C148", "title": "A draw brings two players closer together and nobody overtakes", "statement": "After a draw between two players with different ratings the difference of the ratings is smaller than before and the player who was rated lower is still rated lower: with FIFA, Ingo, DWZ, EGF (even games), USCF, Glicko and Weng-Lin, whatever the ages, deviations and numbers of games, with these exceptions. A USCF player without any game gets exactly the opponent's old rating, while the opponent falls below it; two USCF players with one game each get the same rating. DWZ players with index 0 can swap places (the index of a first rating is 1). Two Glicko players can swap places if c is very large: with c = 350 and deviations of 30 this happens, with c up to 175 never.", "quantifier": "for all ratings and both seats; importance > 0 with importance ln(10) < 1200, all knockout and penalty settings; EGF ratings from -900 to below 3300; USCF ratings of at least 100; all positive Glicko deviations; Weng-Lin uncertainties that are not both 0", "why_tests_cant": "Inequalities between real functions of ratings, deviations and numbers of games; for Glicko with large deviations the two moves add up to more than half of the difference, and it depends on the limit of 350 that they do not exceed it.", "anchors": ["src/fifa.rs: fifa", "src/ingo.rs: ingo", "src/dwz.rs: dwz", "src/egf.rs: egf", "src/uscf.rs: uscf", "src/glicko.rs: glicko", "src/weng_lin.rs: weng_lin"]}
{"id": "C149", "title": "The less established player moves further, in the same direction", "statement": "Let two players have the same rating and play the same games: same opponents, same results. Then the new rating of the more established one lies between the old rating and the new rating of the less established one: both move in the same direction and the less established one at least as far. Less established means: a larger deviation (Glicko; the new deviation is then not smaller either), a larger uncertainty (Weng-Lin), a lower age class (Ingo), a lower index (DWZ), fewer games (USCF, if both are provisional or both established). With Sticko (larger deviation) the same holds measured from the rating that the pull towards the opponents alone would give, so without pull exactly as for Glicko; with the default pull a win against an opponent 400 points lower can cost an established player points and bring a newcomer points. It fails for USCF between the two regimes: a win against an opponent rated 400 points lower gives nothing to a player with 8 games, but points to one with 9.", "quantifier": "for all ratings, opponents, results, both seats, all configurations; rating periods of any length for Glicko, Sticko, Ingo, DWZ and USCF; positive Glicko and Sticko deviations, Sticko h >= 0, non-negative Weng-Lin uncertainties, USCF ratings of at least 100 and bonus thresholds t >= 0; the failure for all ratings from 100 on", "why_tests_cant": "An inequality between two real functions at all pairs of players; with Weng-Lin a larger uncertainty also flattens the expected score, which works in the other direction, and only the concavity of the logistic function decides.", "anchors": ["src/sticko.rs: sticko, sticko_rating_period", "src/glicko.rs: glicko, glicko_rating_period", "src/weng_lin.rs: weng_lin", "src/ingo.rs: ingo, ingo_rating_period", "src/dwz.rs: dwz, dwz_rating_period", "src/uscf.rs: uscf, uscf_rating_period"]}
{"id": "C150", "title": "The forecasts for three players fit together", "statement": "With Elo, FIFA, DWZ, USCF and EGF (even games) the odds of A against C are the odds of A against B times those of B against C; so if A is the favourite against B and B against C, then A is the favourite against C at least as clearly as in the other two games. With Ingo the advantages over 1/2 add up. With Glicko, Glicko-2 and Weng-Lin the same holds for players with equal deviations; with different deviations A is still the favourite against C (there are no cycles of favourites), but can be a smaller favourite than against B. With an advantage for the first player (Sticko with gamma > 0, Glicko-Boost with eta > 0) there are cycles: A starting is the favourite against B, B starting against C, and still C is the favourite against A who starts. With TrueSkill there are cycles of favourites too, but only with advantages below 1e-7; and in a match of three teams the team that is the favourite against each of the others alone need not have the highest expected score.", "quantifier": "for all ratings, deviations and uncertainties; all configurations with beta not 0 (Weng-Lin, TrueSkill); cycles with first-player advantage for all ratings, deviations and all gamma > 0 or eta > 0; TrueSkill cycles for all configurations and uncertainties; the other failures by concrete players", "why_tests_cant": "A relation between three values of a real function at all triples of players; the TrueSkill cycles are eight decimal places below what a test compares.", "anchors": ["src/elo.rs: expected_score", "src/fifa.rs: expected_score", "src/dwz.rs: expected_score", "src/uscf.rs: expected_score", "src/egf.rs: expected_score", "src/ingo.rs: expected_score", "src/glicko.rs: expected_score", "src/glicko2.rs: expected_score", "src/sticko.rs: expected_score", "src/glicko_boost.rs: expected_score", "src/weng_lin.rs: expected_score", "src/trueskill/mod.rs: expected_score, expected_score_two_teams, expected_score_multi_team"]}
{"id": "C151", "title": "How much a rating can change in a single game", "statement": "Against opponents of any strength the gain from a win is always below, and comes as close as one likes to: k (Elo), the importance (FIFA without penalties), 800/(E+1) with the development coefficient E of an unexpected win (DWZ), 800/(N+1) with the effective number N of games (established USCF players), con + bonus (EGF, even games, opponents below 3300), q g(RD of the opponent) min(350, sqrt(RD^2+c^2))^2 with q = ln(10)/400 (Glicko: about 705 points for a newcomer), and sigma^2/sqrt(sigma^2 + opponent's sigma^2 + 2 beta^2) (Weng-Lin); for a loss the same holds with the opposite sign with Elo, FIFA (no knockout), DWZ, Glicko and Weng-Lin. There is no bound with Ingo and for USCF players with at most 8 games, where against a strong enough opponent any result, even a loss, improves the rating by as much as one likes, and for a TrueSkill win.", "quantifier": "for all ratings, deviations, ages, indexes and numbers of games of both players, all configurations with positive k or importance; DWZ index at least 1, USCF and EGF ratings not below the floor, positive deviations", "why_tests_cant": "The bounds are suprema over all ratings of the opponent that are not reached by any of them.", "anchors": ["src/elo.rs: elo", "src/fifa.rs: fifa", "src/dwz.rs: dwz", "src/uscf.rs: uscf", "src/egf.rs: egf", "src/glicko.rs: glicko", "src/weng_lin.rs: weng_lin", "src/ingo.rs: ingo", "src/trueskill/mod.rs: trueskill"]}
{"id": "C152", "title": "Recent results count more", "statement": "Among all orders of the same results against opponents of the same rating, the order with the losses first, then the draws, then the wins gives the best final rating, and the opposite order gives the worst (Elo and FIFA rating periods, sequences of single Ingo games). With Elo the difference is real: a loss followed by a win always gives a higher rating than a win followed by a loss.", "quantifier": "for all lists of results of any length, all ratings, ages; Elo with 0 <= k <= 1600/ln 10 (about 695), FIFA with 0 <= importance <= 2400/ln 10 (about 1042) without knockout protection, with or without penalties", "why_tests_cant": "Compares all permutations of lists of any length.", "anchors": ["src/elo.rs: elo_rating_period", "src/fifa.rs: fifa_rating_period", "src/ingo.rs: ingo"]}
{"id": "C153", "title": "Idle players end as uncertain as newcomers, and when", "statement": "After n idle periods the deviation is that of a newcomer (350) if and only if dev^2 + n c^2 >= 350^2 (Glicko, Sticko), or dev^2 + n (173.7178 volatility)^2 >= 350^2 (Glicko-2). With the default c = 63.2 of Glicko a player of deviation 50 needs exactly 31 periods. With Glicko-Boost a finite number of idle periods is enough for every rating and every configuration; with the defaults and a rating between 0 and 3000 at most 430.", "quantifier": "for all ratings, all deviations between 0 and 350, all configurations and volatilities, all numbers of periods", "why_tests_cant": "A statement about any number of repeated calls, with the exact number at which the limit is reached.", "anchors": ["src/glicko.rs: decay_deviation", "src/sticko.rs: decay_deviation", "src/glicko2.rs: decay_deviation", "src/glicko_boost.rs: decay_deviation"]}
{"id": "C154", "title": "A better result never gives a worse rating, in floating point", "statement": "With IEEE-like arithmetic (any monotone rounding) a better result in a game never gives a worse rating, and never gives the opponent a better one: Elo, FIFA (no shootout, with or without knockout protection), Glicko, Weng-Lin, EGF (any handicap), Ingo, USCF (provisional and established players), DWZ, Sticko. In a Glicko, Sticko, DWZ, Ingo, USCF or EGF rating period improving any results never gives a worse rating.", "quantifier": "for all finite ratings, all configurations; Glicko: deviations that are numbers, decay constant at least 1, ratings up to 2^53; Weng-Lin: ratings up to 500 beta; EGF: ratings between -900 and 3299 minus 100 per handicap stone; Ingo: ratings up to 2^53/21 - 5; USCF: ratings up to 2^53/9 - 800, fewer than 2^53 games; DWZ: ratings up to 2^53 - 134, index between 1 and 2^50; Ingo periods of n >= 1 games: ratings up to B with (n + 20)(B + 50) < 2^53; USCF periods of n games: ratings up to B and t up to T with (n + 8)(B + 1600) + 2T < 2^53; EGF periods: up to 2^40 games; Sticko: decay constant at least 1, lambda up to 100, beta up to b, gamma up to C, ratings up to B with 2B + C and (n + 3)(B + 958(1 + b)) below 2^53 for n games (3B + 958(1 + b) for a single game); every monotone rounding, every library with correct signs and ranges", "why_tests_cant": "Rounding errors could reverse the order for single inputs out of 2^128 combinations.", "anchors": ["src/elo.rs: elo", "src/fifa.rs: fifa", "src/glicko.rs: glicko, glicko_rating_period", "src/weng_lin.rs: weng_lin", "src/egf.rs: egf, egf_rating_period", "src/sticko.rs: sticko, sticko_rating_period", "src/ingo.rs: ingo, ingo_rating_period", "src/uscf.rs: uscf, uscf_rating_period", "src/dwz.rs: dwz, dwz_rating_period"]}
{"id": "C155", "title": "Points from nothing", "statement": "Two FIFA teams that beat each other in turn in knockout matches (no shootouts) lift both ratings above every bound, by at least a fixed amount per pair of matches; in league matches the sum of their ratings never changes. Two equally rated EGF players who draw one even game after the other both reach the ceiling of 3300 after finitely many games.", "quantifier": "for all ratings, all positive importances, every bound, any number of games", "why_tests_cant": "A statement about sequences of games of unbounded length.", "anchors": ["src/fifa.rs: fifa", "src/egf.rs: egf"]}
{"id": "C156", "title": "Who you play with", "statement": "Weng-Lin teams: replacing any member by a stronger one of the same uncertainty strictly raises the team's chance, lowers the chance of every other team of a match of any number of teams, makes the same result of a match of two or more teams worth strictly less to every other member, and worth strictly more to every opponent. A less certain member of the same rating brings a favourable forecast closer to even without turning it. When n players of one rating meet n of a lower one, the favourites' chance rises strictly with n.", "quantifier": "for all teams of any size, every place in the team, any number of teams, all outcomes, all ratings and uncertainties (a player whose rating moves has nonzero uncertainty), all configurations with nonzero beta", "why_tests_cant": "Compares two calls for teams of any size and position; strict inequalities over the reals.", "anchors": ["src/weng_lin.rs: weng_lin_two_teams, weng_lin_multi_team, expected_score_two_teams, expected_score_multi_team"]}
{"id": "C157", "title": "One period or game by game", "statement": "EGF: two or more wins rated in one period give a strictly higher rating than the same wins rated game by game. Ingo: the same game repeated n times, one after the other, leaves (d/(1+d))^n of the distance to the performance, and rated in one period d/(n+d) of it (d the development coefficient of the age), so for n >= 2 the period always moves the rating less.", "quantifier": "for all lists of at least two wins, all opponents, all handicaps, all ratings for which the player stays below the EGF ceiling; Ingo: all ratings, ages, results, and all n", "why_tests_cant": "Compares a rating period of any length with the iterated single-game function.", "anchors": ["src/egf.rs: egf, egf_rating_period", "src/sticko.rs: sticko, sticko_rating_period", "src/ingo.rs: ingo, ingo_rating_period"]}
{"id": "C158", "title": "Which games teach most", "statement": "The deviation after a Glicko game is strictly smaller the closer the opponent's rating, whatever the results, in a single game and for each single opponent of a period. Among opponents at most 347 points away it is strictly smaller the better known the opponent. Far away this is reversed: a game against a newcomer (deviation 350) rated 1600 points lower leaves a strictly smaller deviation than a game against a perfectly known player of the same rating. The Weng-Lin uncertainty after a game is never larger for a closer opponent of the same uncertainty.", "quantifier": "for all ratings, all positive deviations, all results, periods of any length, all configurations", "why_tests_cant": "Inequalities between two calls over all real ratings; the threshold and the reversal beyond it are invisible in single examples.", "anchors": ["src/glicko.rs: glicko, glicko_rating_period", "src/weng_lin.rs: weng_lin"]}
{"id": "C159", "title": "It does not matter whom you beat", "statement": "In a rating period only the opponents and the total score count, not which result was achieved against which opponent: a win against the strongest and a loss against the weakest opponent give exactly the same rating as the reverse, or as two draws. DWZ (and the first DWZ), Ingo, USCF (provisional and established), EGF (same handicaps, away from the floor), and Glicko, Glicko-2, Sticko and Glicko-Boost (the latter two with the same order of moves) if all opponents have the same deviation. With different deviations Glicko rewards beating the better known opponent, whatever the ratings, while the new deviation stays the same.", "quantifier": "for all ratings, all lists of results of any length with the same opponents and the same total; EGF: ratings r below 3300 with r - con(r) >= -900 and games below the ceiling; Glicko: positive deviation", "why_tests_cant": "A statement about all redistributions of results over a list of any length.", "anchors": ["src/dwz.rs: dwz_rating_period, get_first_dwz", "src/ingo.rs: ingo_rating_period", "src/uscf.rs: uscf_rating_period", "src/egf.rs: egf_rating_period", "src/glicko.rs: glicko_rating_period", "src/glicko2.rs: glicko2_rating_period", "src/sticko.rs: sticko_rating_period", "src/glicko_boost.rs: glicko_boost_rating_period"]}
{"id": "C160", "title": "What the parameters do", "statement": "Elo: a larger factor moves both ratings at least as far in the same direction; likewise the importance of a FIFA match, with or without penalties and the knockout rule. Glicko: with a larger c a rating moves at least as far in the same direction and the deviation ends at least as large, in games and periods. Sticko: a larger h leaves ratings alone and never lowers a deviation; a larger bonus raises the rating strictly and leaves the deviation alone. USCF: a larger bonus parameter never raises a rating and has no effect on provisional players. Weng-Lin: a larger beta brings the forecast closer to even without turning it; a larger tolerance leaves all ratings alone and never lowers an uncertainty.", "quantifier": "for all players, results and opponents, periods of any length, matches of any number of teams of any sizes, all pairs of ordered nonnegative parameter values", "why_tests_cant": "Compares two configurations over all inputs.", "anchors": ["src/elo.rs: elo, EloConfig", "src/fifa.rs: fifa, FifaConfig", "src/glicko.rs: glicko, glicko_rating_period, GlickoConfig", "src/sticko.rs: sticko_rating_period, StickoConfig", "src/uscf.rs: uscf_rating_period, USCFConfig", "src/weng_lin.rs: weng_lin, weng_lin_multi_team, expected_score, WengLinConfig"]}
{"id": "C161", "title": "Beating the forecast", "statement": "A rating rises exactly if the player scores more than expected_score predicts, falls exactly if they score less, and stays otherwise: single games of Elo, FIFA (league matches without shootouts), Weng-Lin and Glicko, and rating periods of DWZ, Ingo (where rising means a lower number) and USCF (established players, with the bonus), where the total score is compared with the sum of expected_score_rating_period. For Glicko rating periods this fails: a newcomer rated 1900 who wins seven of eight games against a well-known player rated 1500 scores more than the sum of expected_score_rating_period and loses rating, whatever c is.", "quantifier": "for all ratings, results, configurations (positive factors and deviations), periods of any length", "why_tests_cant": "An equivalence over all inputs and lists; the failure needs a rating update and a forecast compared in exact arithmetic.", "anchors": ["src/elo.rs: elo, expected_score", "src/fifa.rs: fifa, expected_score", "src/weng_lin.rs: weng_lin, expected_score", "src/dwz.rs: dwz_rating_period, expected_score_rating_period", "src/ingo.rs: ingo_rating_period, expected_score_rating_period", "src/uscf.rs: uscf_rating_period, expected_score_rating_period", "src/glicko.rs: glicko, glicko_rating_period, expected_score, expected_score_rating_period"]}
{"id": "C162", "title": "Who is passed first, bit for bit", "statement": "Passing the two players of a game in the other order, with the mirrored outcome, returns the same two floating-point numbers, bit for bit, in the other order: Glicko, Glicko-2 (also when the volatility search does not end), USCF and Ingo, and Sticko and Glicko-Boost with the first-move advantage negated; also TrueSkill matches of two teams with a winner, and TrueSkill games of two equally uncertain players with a winner. It holds for every input, including infinities and NaN. In Elo it fails, because the second forecast is computed as one minus the first: the new rating of a player rated 0 who loses to one rated 10000 depends on who is passed first.", "quantifier": "for all floating-point players, outcomes and configurations, whatever the rounding and whatever the library functions return; the failure for Elo for every pow with relative error at most 2^-50", "why_tests_cant": "Equality of all bits over all floating-point inputs, NaN and infinities included.", "anchors": ["src/glicko.rs: glicko", "src/glicko2.rs: glicko2", "src/uscf.rs: uscf", "src/ingo.rs: ingo", "src/sticko.rs: sticko", "src/glicko_boost.rs: glicko_boost", "src/trueskill/mod.rs: trueskill, trueskill_two_teams", "src/elo.rs: elo", "src/lib.rs: Outcomes::to_chess_points"]}
{"id": "C163", "title": "What a rating that is not a number does", "statement": "A game in which one of the two ratings is NaN makes both ratings NaN in Elo, FIFA, DWZ, Ingo, Glicko, Glicko-2 (the call still returns), Glicko-Boost, Sticko, Weng-Lin and TrueSkill. In USCF and EGF both players silently end at the floor instead: exactly 100 and exactly -900, whatever the rating of the other player. One NaN opponent in a rating period makes the rating of the player NaN, in all of these and in USCF, and the Glicko-2 period still returns. In an EGF period a game against a NaN opponent counts as a fall to -900. One NaN player in a two-team match of Weng-Lin or TrueSkill, or in a Weng-Lin match of any number of teams, makes the ratings of all players of all teams NaN.", "quantifier": "for all floating-point players with a NaN rating on either side, all outcomes and configurations, all rating periods of any length, all numbers and sizes of nonempty teams; any rounding, library functions that return NaN for NaN", "why_tests_cant": "Follows NaN through every operation and comparison for all other inputs and for lists of any length.", "anchors": ["src/elo.rs: elo, elo_rating_period", "src/fifa.rs: fifa, fifa_rating_period", "src/dwz.rs: dwz, dwz_rating_period", "src/ingo.rs: ingo, ingo_rating_period", "src/egf.rs: egf, egf_rating_period", "src/uscf.rs: uscf, uscf_rating_period", "src/glicko.rs: glicko, glicko_rating_period", "src/glicko2.rs: glicko2, glicko2_rating_period", "src/glicko_boost.rs: glicko_boost, glicko_boost_rating_period", "src/sticko.rs: sticko, sticko_rating_period", "src/weng_lin.rs: weng_lin, weng_lin_rating_period, weng_lin_two_teams, weng_lin_multi_team", "src/trueskill/mod.rs: trueskill, trueskill_rating_period, trueskill_two_teams"]}
{"id": "C164", "title": "A draw between equals changes nothing in floating point", "statement": "In floating point two equally rated players are expected to score exactly 0.5 each in Elo, FIFA, DWZ, USCF and Glicko, and a draw between them leaves both ratings exactly where they were: no drift from rounding, whatever the rating. This also holds for FIFA knockout matches and shootouts entered as draws, for Glicko players of different deviations, for USCF players past their provisional games rated at least 100, and for rating periods of such draws in all five systems (in USCF with a bonus threshold t between 0 and 2^52). Weng-Lin games between players of the same rating and any uncertainties have the property too, while the ratings stay within 500 times beta, and so do drawn Weng-Lin games of two teams and ties of any number of Weng-Lin teams (teams of at most 32 players) that list the same ratings. Sticko without advantage of colour and without bonus (the default configuration is such) and Glicko-Boost without advantage of colour have the property too, for games and for rating periods (in Sticko periods with no pull towards the opponents). In TrueSkill the ratings stay exactly put after a drawn game between equals, in every game of a rating period of such draws, and after a drawn game of two teams (at most 16 players) that list the same ratings, whatever the uncertainties, as long as the draw margin lies between one hundredth and 28 times the standard deviation of the lead.", "quantifier": "for all finite ratings of equal value (also both signs of zero), all finite K factors and importances, all Glicko deviations that are not NaN with c at least 1, rating periods of any length below 2^50, DWZ and USCF ratings and game counts below 2^50, every monotone rounding that keeps representable numbers (round-to-nearest included) and every library satisfying the stated requirements (TrueSkill: with accurate exponentials, and beta and uncertainties between 2^-20 and 2^20)", "why_tests_cant": "A test compares a few pairs of equal ratings after one draw; that no rating at all drifts by an ulp under repeated draws is a statement about every float.", "anchors": ["src/elo.rs: elo, elo_rating_period, expected_score", "src/fifa.rs: fifa, fifa_rating_period, expected_score", "src/dwz.rs: dwz, dwz_rating_period, expected_score", "src/uscf.rs: uscf, uscf_rating_period, expected_score", "src/glicko.rs: glicko, glicko_rating_period, expected_score", "src/weng_lin.rs: weng_lin, weng_lin_two_teams, weng_lin_multi_team, expected_score", "src/sticko.rs: sticko, sticko_rating_period, expected_score", "src/glicko_boost.rs: glicko_boost, glicko_boost_rating_period, expected_score", "src/trueskill/mod.rs: trueskill, trueskill_rating_period, trueskill_two_teams", "src/trueskill/math.rs: v_draw, new_rating"]}
{"id": "C165", "title": "Tournaments of draws among equals never drift", "statement": "If all players of a pool start with the same rating and every game ends in a draw, then after any number of games, in any pairing order and with any mix of configurations, every rating is still exactly the starting value in floating-point arithmetic: Elo, FIFA (knockout and shootout settings included), DWZ, USCF (players past their provisional games rated at least 100), Glicko, neutral Sticko and Glicko-Boost without advantage of colour (whatever happens to the deviations), and Weng-Lin (whatever happens to the uncertainties; there the ratings are even bit for bit the same). The same holds for Weng-Lin rating periods of any length.", "quantifier": "for all pools, all schedules of any length (DWZ and USCF: while the game counts stay below 2^50 and 2^53), all finite K factors and importances, all Glicko c of at least 1, all Weng-Lin betas between 1 and 1000 and nonzero ratings within 500 times beta, every monotone rounding that keeps representable numbers and every library satisfying the stated requirements", "why_tests_cant": "Drift by one unit in the last place per game shows up only after very many games and only for particular floats; no test can play all schedules.", "anchors": ["src/elo.rs: elo", "src/fifa.rs: fifa", "src/dwz.rs: dwz", "src/uscf.rs: uscf", "src/glicko.rs: glicko", "src/sticko.rs: sticko", "src/glicko_boost.rs: glicko_boost", "src/weng_lin.rs: weng_lin, weng_lin_rating_period"]}
{"id": "C166", "title": "What draws between equals do to Ingo ratings in floating point", "statement": "In Ingo a draw between two players of the same rating should leave both ratings unchanged. In floating point each such draw moves a rating by at most 2^-33 (ratings up to 2^14), and a tournament of n draws among equals moves no rating by more than n times that, whatever the ages. The movement is not always zero, unlike in Elo or Glicko: with rounding to nearest two players aged at most 20 and rated 128 - 2^-45 both leave a draw with 128 - 2^-46.", "quantifier": "for all ratings of equal value up to 2^14, all ages, all schedules of draws with the bound on the ratings plus five per game at most 2^14, every monotone rounding that keeps representable numbers; the movement for IEEE rounding to nearest, all players of the stated rating and age", "why_tests_cant": "Whether the rounded weighted mean returns its own argument depends on the last bits of the rating; a test with round ratings sees no movement, and no test bounds the movement over all schedules.", "anchors": ["src/ingo.rs: ingo, performance, age_to_devcoefficent"]}
{"id": "C167", "title": "The two expected scores add up to exactly one in double precision", "statement": "The two expected scores returned for a game of Elo, FIFA, DWZ, USCF, EGF, Glicko, Glicko-2, Glicko-Boost, Sticko or Weng-Lin, added in floating point, give exactly 1.0, bit for bit, although neither of them is in general exact; so do the points that a game hands out. The code computes the second score as one minus the first; both the subtraction and the addition round, and with rounding to nearest, ties to even, the two errors always cancel, also in the case that the sum falls exactly between two floats.", "quantifier": "for all finite ratings (Glicko family: up to 2^969 with deviations that are not NaN; EGF: from -900 to 3299 minus the handicap; Weng-Lin: up to 500 times beta, with beta between 1 and 1000 and an accurate exponential), all configurations, IEEE rounding to nearest with ties to even, and every library of elementary functions satisfying the stated requirements, however inaccurate", "why_tests_cant": "The documentation and tests of Weng-Lin check the sum for a few pairs with a tolerance of one epsilon; that the rounding errors cancel exactly for every pair of floats, ties included, is a statement about all significands.", "anchors": ["src/elo.rs: expected_score", "src/fifa.rs: expected_score", "src/dwz.rs: expected_score", "src/uscf.rs: expected_score", "src/egf.rs: expected_score", "src/glicko.rs: expected_score", "src/glicko2.rs: expected_score", "src/glicko_boost.rs: expected_score", "src/sticko.rs: expected_score", "src/weng_lin.rs: expected_score, p_value", "src/lib.rs: Outcomes::to_chess_points"]}
{"id": "C168", "title": "In double precision a win really raises a rating, up to a known lead", "statement": "With accurate library functions, Elo ratings of at most 2^14 in size and 1 <= k <= 512, a player who wins although they lead by at most 3200 points (or trail by any amount) ends with a stored rating strictly above the old one, and the loser ends strictly below theirs; the same for FIFA matches without penalties and leads of at most 4800 points (the loser of a knockout match keeps its rating), and for Glicko games between players with deviations from 30 to 350 and leads of at most 2400 points. Conversely, with rounding to nearest, an Elo favourite who leads by at least 7000 points has an expected score of exactly 1, and winning changes neither stored rating, whether in a single game or in a rating period with any number of such wins.", "quantifier": "every floating-point arithmetic with correctly rounded operations and accurate powf (second part: rounding to nearest), every pair of ratings in range, every k in range, every list of such wins", "why_tests_cant": "The update is a sum of a large rating and a tiny gain: rounding can swallow the gain, and tests of a few ratings cannot show up to which lead it never does and from which lead it always does.", "anchors": ["src/elo.rs: elo, elo_rating_period, expected_score", "src/fifa.rs: fifa", "src/glicko.rs: glicko"]}
{"id": "C169", "title": "A better result gives a strictly better rating in double precision", "statement": "Of two results of the same game the one with more points gives the player a strictly better stored rating, and the opponent a strictly worse one: Elo, FIFA (no knockout match, no penalties), Ingo (where lower is better), EGF with any handicap, and Glicko.", "quantifier": "for all ratings up to 2^14, k and importance from 1 to 512, Ingo ages; EGF ratings from -600 to 3200 with handicaps of at most 64 stones that lift no player above 3200; Glicko deviations from 1 to 350 and c up to 2^20; every arithmetic with correctly rounded operations and accurate library functions", "why_tests_cant": "The weak inequality (C154) would also hold for an update that rounding swallows; that the difference of half a point survives for every pair of ratings needs a bound on all rounding errors of the update at once.", "anchors": ["src/elo.rs: elo", "src/fifa.rs: fifa", "src/ingo.rs: ingo", "src/egf.rs: egf", "src/glicko.rs: glicko"]}
