{
 "claims": [
  {
   "property": "C01",
   "status": "proved",
   "theorems": [
    "Skillratings.Elo.C01_elo_expected_probability",
    "Skillratings.Elo.C01_elo_expected_swap",
    "Skillratings.Elo.C01_elo_expected_odds",
    "Skillratings.Elo.C01_elo_expected_strictMono_own",
    "Skillratings.Elo.C01_elo_expected_strictAnti_opponent",
    "Skillratings.Elo.C01_elo_expected_half_iff",
    "Skillratings.Elo.C01_elo_expected_list"
   ],
   "note": "Exact real arithmetic; the list variant is bit-exact for any arithmetic."
  },
  {
   "property": "C02",
   "status": "proved",
   "theorems": [
    "Skillratings.Elo.C02_elo_tournament_total"
   ],
   "note": "Exact real arithmetic."
  },
  {
   "property": "C03",
   "status": "proved",
   "theorems": [
    "Skillratings.Elo.C03_elo_win",
    "Skillratings.Elo.C03_elo_loss",
    "Skillratings.Elo.C03_elo_draw",
    "Skillratings.Elo.C03_elo_draw_equal",
    "Skillratings.Elo.C03_elo_change_lt_k"
   ],
   "note": ""
  },
  {
   "property": "C04",
   "status": "proved",
   "theorems": [
    "Skillratings.Elo.C04_elo_swap",
    "Skillratings.Elo.C04_elo_shift"
   ],
   "note": ""
  },
  {
   "property": "C05",
   "status": "proved",
   "theorems": [
    "Skillratings.Elo.C05_elo_period_gauntlet",
    "Skillratings.Elo.C05_elo_period_nil",
    "Skillratings.Elo.C05_elo_period_append"
   ],
   "note": "For any arithmetic, hence bit-exact."
  },
  {
   "property": "C06",
   "status": "proved",
   "theorems": [
    "Skillratings.Elo.C06_elo_draw_keeps_order",
    "Skillratings.Elo.C06_elo_draw_overtakes_large_k"
   ],
   "note": "Holds for 0 <= k <= 800/ln 10; for every larger k a counterexample is proved."
  },
  {
   "property": "C07",
   "status": "proved",
   "theorems": [
    "Skillratings.Fifa.C07_fifa_expected_probability",
    "Skillratings.Fifa.C07_fifa_expected_swap",
    "Skillratings.Fifa.C07_fifa_expected_odds",
    "Skillratings.Fifa.C07_fifa_expected_strictMono_own",
    "Skillratings.Fifa.C07_fifa_expected_strictAnti_opponent",
    "Skillratings.Fifa.C07_fifa_expected_list"
   ],
   "note": ""
  },
  {
   "property": "C08",
   "status": "proved",
   "theorems": [
    "Skillratings.Fifa.C08_fifa_league_formula",
    "Skillratings.Fifa.C08_fifa_league_total",
    "Skillratings.Fifa.C08_fifa_league_bound",
    "Skillratings.Fifa.C08_fifa_league_win",
    "Skillratings.Fifa.C08_fifa_league_loss"
   ],
   "note": ""
  },
  {
   "property": "C09",
   "status": "proved",
   "theorems": [
    "Skillratings.Fifa.C09_fifa_knockout",
    "Skillratings.Fifa.C09_fifa_knockout_any",
    "Skillratings.Fifa.C09_fifa_knockout_period",
    "Skillratings.Fifa.C09_fifa_knockout_only_guards",
    "Skillratings.C09_fifa_knockout_period_float"
   ],
   "note": "Exact real arithmetic; a single match in any arithmetic whose comparison is irreflexive (NaN included); a period also in the floating-point reading, for all inputs."
  },
  {
   "property": "C10",
   "status": "proved",
   "theorems": [
    "Skillratings.Fifa.C10_fifa_period_gauntlet",
    "Skillratings.Fifa.C10_fifa_period_nil",
    "Skillratings.Fifa.C10_fifa_period_append"
   ],
   "note": "For any arithmetic, hence bit-exact."
  },
  {
   "property": "C11",
   "status": "partial",
   "theorems": [
    "Skillratings.Fifa.C11_fifa_shootout_first_partial",
    "Skillratings.Fifa.C11_fifa_shootout_draw",
    "Skillratings.Fifa.C11_fifa_shootout_period",
    "Skillratings.Fifa.C11_fifa_shootout_second_wrong",
    "Skillratings.Fifa.C11_fifa_shootout_second_error",
    "Skillratings.Fifa.C11_fifa_shootout_not_symmetric"
   ],
   "note": "The documented credit holds for the first team, for a rating period and for draws. It fails for the second team of every decided shootout (C11_fifa_shootout_second_wrong, _second_error, _not_symmetric): the crate computes the second credit from the first team's outcome."
  },
  {
   "property": "C12",
   "status": "proved",
   "theorems": [
    "Skillratings.Dwz.C12_dwz_expected_probability",
    "Skillratings.Dwz.C12_dwz_expected_swap",
    "Skillratings.Dwz.C12_dwz_expected_odds",
    "Skillratings.Dwz.C12_dwz_expected_strictMono_own",
    "Skillratings.Dwz.C12_dwz_expected_strictAnti_opponent",
    "Skillratings.Dwz.C12_dwz_expected_list"
   ],
   "note": ""
  },
  {
   "property": "C13",
   "status": "proved",
   "theorems": [
    "Skillratings.Dwz.C13_dwz_formula",
    "Skillratings.Dwz.C13_dwz_period_formula",
    "Skillratings.Dwz.C13_dwz_coefficient_range",
    "Skillratings.Dwz.C13_dwz_win",
    "Skillratings.Dwz.C13_dwz_loss",
    "Skillratings.Dwz.C13_dwz_bound"
   ],
   "note": "The published formula needs index >= 1, as every rating the crate creates has; direction of the change holds for every index."
  },
  {
   "property": "C14",
   "status": "proved",
   "theorems": [
    "Skillratings.Dwz.C14_dwz_game",
    "Skillratings.Dwz.C14_dwz_period",
    "Skillratings.Dwz.C14_dwz_first",
    "Skillratings.Dwz.C14_dwz_tournament"
   ],
   "note": "For any arithmetic."
  },
  {
   "property": "C15",
   "status": "proved",
   "theorems": [
    "Skillratings.Dwz.C15_dwz_period_single",
    "Skillratings.Dwz.C15_dwz_period_perm",
    "Skillratings.Dwz.C15_dwz_period_nil"
   ],
   "note": ""
  },
  {
   "property": "C16",
   "status": "proved",
   "theorems": [
    "Skillratings.Dwz.C16_first_not_enough",
    "Skillratings.Dwz.C16_first_invalid",
    "Skillratings.Dwz.C16_display_injective",
    "Skillratings.Dwz.C16_first_success"
   ],
   "note": "Exact real arithmetic (sums of half points are exact in f64 as well)."
  },
  {
   "property": "C17",
   "status": "proved",
   "theorems": [
    "Skillratings.Dwz.C17_first_formula",
    "Skillratings.Dwz.C17_first_percent_le",
    "Skillratings.Dwz.C17_first_table_antisymm",
    "Skillratings.Dwz.C17_first_table_strictMono",
    "Skillratings.Dwz.C17_first_at_least_600",
    "Skillratings.Dwz.C17_first_mono"
   ],
   "note": ""
  },
  {
   "property": "C18",
   "status": "proved",
   "theorems": [
    "Skillratings.Egf.C18_egf_expected_formula",
    "Skillratings.Egf.C18_egf_expected_probability",
    "Skillratings.Egf.C18_egf_expected_odds",
    "Skillratings.Egf.C18_egf_expected_swap",
    "Skillratings.Egf.C18_egf_expected_strictMono_own",
    "Skillratings.Egf.C18_egf_expected_strictAnti_opponent",
    "Skillratings.Egf.C18_egf_more_stones",
    "Skillratings.Egf.C18_egf_stones_vs_even",
    "Skillratings.Egf.C18_egf_small_handicap_backwards",
    "Skillratings.Egf.C18_egf_expected_list"
   ],
   "note": "Exact real arithmetic. The backwards effect of a handicap between 0 and 0.5 is proved as well."
  },
  {
   "property": "C19",
   "status": "proved",
   "theorems": [
    "Skillratings.Egf.C19_egf_floor",
    "Skillratings.C19_egf_floor_float"
   ],
   "note": "Real arithmetic, and floating point for all inputs including NaN and infinities (no library assumptions)."
  },
  {
   "property": "C20",
   "status": "partial",
   "theorems": [
    "Skillratings.Egf.C20_egf_period_floor_partial",
    "Skillratings.Egf.C20_egf_period_no_floor"
   ],
   "note": "The documented floor holds for one-game and empty periods (C20_..._partial) and fails for longer ones: C20_egf_period_no_floor gives a period of losses that ends below any bound."
  },
  {
   "property": "C21",
   "status": "proved",
   "theorems": [
    "Skillratings.Egf.C21_egf_period_nil",
    "Skillratings.Egf.C21_egf_period_single",
    "Skillratings.Egf.C21_egf_period_perm"
   ],
   "note": ""
  },
  {
   "property": "C22",
   "status": "proved",
   "theorems": [
    "Skillratings.Egf.C22_egf_win",
    "Skillratings.Egf.C22_egf_win_second",
    "Skillratings.Egf.C22_egf_max_loss",
    "Skillratings.Egf.C22_egf_even_draw",
    "Skillratings.Egf.C22_egf_win_minus_loss"
   ],
   "note": ""
  },
  {
   "property": "C23",
   "status": "proved",
   "theorems": [
    "Skillratings.C23_egf_above_ceiling"
   ],
   "note": "Floating-point reading; needs FloatEnv.Lib (a non-integral power of a negative number is NaN)."
  },
  {
   "property": "C24",
   "status": "proved",
   "theorems": [
    "Skillratings.Ingo.C24_ingo_formula",
    "Skillratings.Ingo.C24_ingo_period_formula",
    "Skillratings.Ingo.C24_ingo_between",
    "Skillratings.Ingo.C24_ingo_between_second",
    "Skillratings.Ingo.C24_ingo_period_between",
    "Skillratings.Ingo.C24_ingo_result_order",
    "Skillratings.Ingo.C24_ingo_change",
    "Skillratings.Ingo.C24_ingo_young_move_further",
    "Skillratings.Ingo.C24_ingo_young_move_strictly_further"
   ],
   "note": ""
  },
  {
   "property": "C25",
   "status": "proved",
   "theorems": [
    "Skillratings.Ingo.C25_ingo_period_single",
    "Skillratings.Ingo.C25_ingo_period_perm",
    "Skillratings.Ingo.C25_ingo_age",
    "Skillratings.Ingo.C25_ingo_period_age"
   ],
   "note": ""
  },
  {
   "property": "C26",
   "status": "proved",
   "theorems": [
    "Skillratings.Ingo.C26_ingo_expected_formula",
    "Skillratings.Ingo.C26_ingo_expected_swap",
    "Skillratings.Ingo.C26_ingo_expected_range",
    "Skillratings.Ingo.C26_ingo_expected_favourite",
    "Skillratings.Ingo.C26_ingo_expected_list"
   ],
   "note": "Sum and symmetry hold; the documented range [0,1] holds exactly when the ratings differ by at most 50."
  },
  {
   "property": "C27",
   "status": "proved",
   "theorems": [
    "Skillratings.C27_ingo_empty_period_nan"
   ],
   "note": "Floating-point reading, every rounding, no library assumptions."
  },
  {
   "property": "C28",
   "status": "proved",
   "theorems": [
    "Skillratings.Glicko.C28_glicko_expected_formula",
    "Skillratings.Glicko.C28_glicko_expected_probability",
    "Skillratings.Glicko.C28_glicko_expected_swap",
    "Skillratings.Glicko.C28_glicko_expected_strictMono_own",
    "Skillratings.Glicko.C28_glicko_expected_strictAnti_opponent",
    "Skillratings.Glicko.C28_glicko_expected_uncertainty",
    "Skillratings.Glicko.C28_glicko_expected_list"
   ],
   "note": ""
  },
  {
   "property": "C29",
   "status": "proved",
   "theorems": [
    "Skillratings.Glicko.C29_glicko_formula",
    "Skillratings.Glicko.C29_glicko_period_formula"
   ],
   "note": ""
  },
  {
   "property": "C30",
   "status": "proved",
   "theorems": [
    "Skillratings.Glicko.C30_glicko_game_deviation",
    "Skillratings.Glicko.C30_glicko_game_deviation_second",
    "Skillratings.Glicko.C30_glicko_period_deviation",
    "Skillratings.Glicko.C30_glicko_history"
   ],
   "note": ""
  },
  {
   "property": "C31",
   "status": "proved",
   "theorems": [
    "Skillratings.Glicko.C31_glicko_win",
    "Skillratings.Glicko.C31_glicko_loss",
    "Skillratings.Glicko.C31_glicko_bound",
    "Skillratings.Glicko.C31_glicko_swap",
    "Skillratings.Glicko.C31_glicko_shift"
   ],
   "note": ""
  },
  {
   "property": "C32",
   "status": "proved",
   "theorems": [
    "Skillratings.Glicko.C32_glicko_period_nil",
    "Skillratings.Glicko.C32_glicko_period_single",
    "Skillratings.Glicko.C32_glicko_period_perm"
   ],
   "note": ""
  },
  {
   "property": "C33",
   "status": "proved",
   "theorems": [
    "Skillratings.Glicko.C33_glicko_decay_n",
    "Skillratings.Glicko.C33_glicko_decay_mono",
    "Skillratings.Sticko.C33_sticko_decay_n",
    "Skillratings.Sticko.C33_sticko_decay_mono"
   ],
   "note": ""
  },
  {
   "property": "C34",
   "status": "proved",
   "theorems": [
    "Skillratings.Glicko.C34_glicko_confidence",
    "Skillratings.Glicko.C34_glicko_confidence_mono",
    "Skillratings.Glicko2.C34_glicko2_confidence",
    "Skillratings.Glicko2.C34_glicko2_confidence_mono",
    "Skillratings.GlickoBoost.C34_glickoBoost_confidence",
    "Skillratings.GlickoBoost.C34_glickoBoost_confidence_mono",
    "Skillratings.Sticko.C34_sticko_confidence",
    "Skillratings.Sticko.C34_sticko_confidence_mono"
   ],
   "note": ""
  },
  {
   "property": "C35",
   "status": "proved",
   "theorems": [
    "Skillratings.Glicko2.C35_glicko2_expected_formula",
    "Skillratings.Glicko2.C35_glicko2_expected_probability",
    "Skillratings.Glicko2.C35_glicko2_expected_swap",
    "Skillratings.Glicko2.C35_glicko2_expected_strictMono_own",
    "Skillratings.Glicko2.C35_glicko2_expected_strictAnti_opponent",
    "Skillratings.Glicko2.C35_glicko2_expected_list"
   ],
   "note": ""
  },
  {
   "property": "C36",
   "status": "proved",
   "theorems": [
    "Skillratings.Glicko2.C36_glicko2_volatility",
    "Skillratings.Glicko2.C36_glicko2_period_volatility",
    "Skillratings.Glicko2.C36_glicko2_solution_unique"
   ],
   "note": "Exact real arithmetic, whenever the call returns (none = the Rust loop runs forever)."
  },
  {
   "property": "C37",
   "status": "proved",
   "theorems": [
    "Skillratings.Glicko2.C37_glicko2_period_returns",
    "Skillratings.Glicko2.C37_glicko2_returns",
    "Skillratings.Glicko2.C37_glicko2_period_returns_no_surprise",
    "Skillratings.Glicko2.C37_glicko2_returns_close",
    "Skillratings.Glicko2.C37_glicko2_returns_default",
    "Skillratings.Glicko2.C37_glicko2_negative_tolerance",
    "Skillratings.Glicko2.C37_glicko2_period_negative_tolerance"
   ],
   "note": "Exact real arithmetic. The slope condition is what the Illinois iteration needs: at a flat zero it can stall."
  },
  {
   "property": "C38",
   "status": "proved",
   "theorems": [
    "Skillratings.Glicko2.C38_glicko2_formula",
    "Skillratings.Glicko2.C38_glicko2_period_formula"
   ],
   "note": ""
  },
  {
   "property": "C39",
   "status": "proved",
   "theorems": [
    "Skillratings.Glicko2.C39_glicko2_win",
    "Skillratings.Glicko2.C39_glicko2_loss",
    "Skillratings.Glicko2.C39_glicko2_draw",
    "Skillratings.Glicko2.C39_glicko2_deviation",
    "Skillratings.Glicko2.C39_glicko2_period_all_won",
    "Skillratings.Glicko2.C39_glicko2_period_all_lost",
    "Skillratings.Glicko2.C39_glicko2_period_deviation"
   ],
   "note": ""
  },
  {
   "property": "C40",
   "status": "proved",
   "theorems": [
    "Skillratings.Glicko2.C40_glicko2_period_single",
    "Skillratings.Glicko2.C40_glicko2_of_periods",
    "Skillratings.Glicko2.C40_glicko2_period_perm",
    "Skillratings.Glicko2.C40_glicko2_period_nil",
    "Skillratings.Glicko2.C40_glicko2_decay_n"
   ],
   "note": "Exact real arithmetic; the empty period is bit-exact."
  },
  {
   "property": "C41",
   "status": "proved",
   "theorems": [
    "Skillratings.GlickoBoost.C41_glickoBoost_expected_formula",
    "Skillratings.GlickoBoost.C41_glickoBoost_expected_probability",
    "Skillratings.GlickoBoost.C41_glickoBoost_expected_swap",
    "Skillratings.GlickoBoost.C41_glickoBoost_expected_mono"
   ],
   "note": ""
  },
  {
   "property": "C42",
   "status": "partial",
   "theorems": [
    "Skillratings.GlickoBoost.C42_glickoBoost_expected_list_partial",
    "Skillratings.GlickoBoost.C42_glickoBoost_expected_list_ignores",
    "Skillratings.GlickoBoost.C42_glickoBoost_expected_list_wrong"
   ],
   "note": "The documented value holds for games with the advantage only; the code ignores the flag and overestimates the player for every eta > 0 (C42_glickoBoost_expected_list_wrong)."
  },
  {
   "property": "C43",
   "status": "proved",
   "theorems": [
    "Skillratings.GlickoBoost.C43_glickoBoost_event",
    "Skillratings.GlickoBoost.C43_glickoBoost_history",
    "Skillratings.GlickoBoost.C43_glickoBoost_decay_mono"
   ],
   "note": "Holds without hypotheses on the configuration; real arithmetic."
  },
  {
   "property": "C44",
   "status": "proved",
   "theorems": [
    "Skillratings.GlickoBoost.C44_glickoBoost_win",
    "Skillratings.GlickoBoost.C44_glickoBoost_loss",
    "Skillratings.GlickoBoost.C44_glickoBoost_ordinary",
    "Skillratings.GlickoBoost.C44_glickoBoost_exceptional"
   ],
   "note": ""
  },
  {
   "property": "C45",
   "status": "proved",
   "theorems": [
    "Skillratings.GlickoBoost.C45_glickoBoost_period_nil",
    "Skillratings.GlickoBoost.C45_glickoBoost_period_single_first",
    "Skillratings.GlickoBoost.C45_glickoBoost_period_single_second",
    "Skillratings.GlickoBoost.C45_glickoBoost_period_perm"
   ],
   "note": ""
  },
  {
   "property": "C46",
   "status": "partial",
   "theorems": [
    "Skillratings.GlickoBoost.C46_glickoBoost_expected_partial",
    "Skillratings.GlickoBoost.C46_glickoBoost_not_glicko"
   ],
   "note": "The documented equality with Glicko holds for expected scores only; it fails for the updates with the default alpha, for every k >= 0 and b (C46_glickoBoost_not_glicko)."
  },
  {
   "property": "C47",
   "status": "proved",
   "theorems": [
    "Skillratings.Sticko.C47_sticko_neutral",
    "Skillratings.Sticko.C47_sticko_neutral_decay",
    "Skillratings.Sticko.C47_sticko_neutral_expected",
    "Skillratings.Sticko.C47_sticko_neutral_period",
    "Skillratings.Sticko.C47_sticko_neutral_expected_list"
   ],
   "note": "Positive deviations (the update divides by the deviation)."
  },
  {
   "property": "C48",
   "status": "proved",
   "theorems": [
    "Skillratings.Sticko.C48_sticko_expected_formula",
    "Skillratings.Sticko.C48_sticko_expected_probability",
    "Skillratings.Sticko.C48_sticko_expected_swap",
    "Skillratings.Sticko.C48_sticko_expected_mono",
    "Skillratings.Sticko.C48_sticko_expected_list",
    "Skillratings.Sticko.C48_sticko_expected_list_black"
   ],
   "note": ""
  },
  {
   "property": "C49",
   "status": "proved",
   "theorems": [
    "Skillratings.Sticko.C49_sticko_event",
    "Skillratings.Sticko.C49_sticko_history"
   ],
   "note": ""
  },
  {
   "property": "C50",
   "status": "proved",
   "theorems": [
    "Skillratings.Sticko.C50_sticko_period_nil",
    "Skillratings.Sticko.C50_sticko_period_single_first",
    "Skillratings.Sticko.C50_sticko_period_single_second",
    "Skillratings.Sticko.C50_sticko_period_perm"
   ],
   "note": ""
  },
  {
   "property": "C51",
   "status": "proved",
   "theorems": [
    "Skillratings.Uscf.C51_uscf_expected_probability",
    "Skillratings.Uscf.C51_uscf_expected_swap",
    "Skillratings.Uscf.C51_uscf_expected_odds",
    "Skillratings.Uscf.C51_uscf_expected_strictMono_own",
    "Skillratings.Uscf.C51_uscf_expected_strictAnti_opponent",
    "Skillratings.Uscf.C51_uscf_expected_list"
   ],
   "note": ""
  },
  {
   "property": "C52",
   "status": "proved",
   "theorems": [
    "Skillratings.C52_uscf_floor_float",
    "Skillratings.Uscf.C52_uscf_floor"
   ],
   "note": "Real arithmetic, and floating point for all inputs including NaN and infinities (no library assumptions)."
  },
  {
   "property": "C53",
   "status": "proved",
   "theorems": [
    "Skillratings.Uscf.C53_uscf_period_single",
    "Skillratings.Uscf.C53_uscf_period_below_floor_provisional",
    "Skillratings.Uscf.C53_uscf_period_below_floor_established"
   ],
   "note": "The floor is missing in uscf_rating_period; the negation is proved with witnesses, and agreement with uscf up to the floor for one game."
  },
  {
   "property": "C54",
   "status": "proved",
   "theorems": [
    "Skillratings.Uscf.C54_uscf_games",
    "Skillratings.Uscf.C54_uscf_period_games",
    "Skillratings.Uscf.C54_uscf_provisional",
    "Skillratings.Uscf.C54_uscf_provisional_second",
    "Skillratings.Uscf.C54_uscf_established",
    "Skillratings.Uscf.C54_uscf_established_second",
    "Skillratings.Uscf.C54_uscf_period_provisional",
    "Skillratings.Uscf.C54_uscf_period_established",
    "Skillratings.Uscf.C54_uscf_effective_range",
    "Skillratings.Uscf.C54_uscf_established_bound"
   ],
   "note": ""
  },
  {
   "property": "C55",
   "status": "proved",
   "theorems": [
    "Skillratings.Uscf.C55_uscf_bonus_nonneg",
    "Skillratings.Uscf.C55_uscf_bonus_few_games",
    "Skillratings.Uscf.C55_uscf_bonus_excess"
   ],
   "note": ""
  },
  {
   "property": "C56",
   "status": "proved",
   "theorems": [
    "Skillratings.Uscf.C56_uscf_period_nil",
    "Skillratings.Uscf.C56_uscf_period_perm"
   ],
   "note": ""
  },
  {
   "property": "C57",
   "status": "proved",
   "theorems": [
    "Skillratings.Uscf.C57_uscf_established_win",
    "Skillratings.Uscf.C57_uscf_established_win_second",
    "Skillratings.Uscf.C57_uscf_established_loss",
    "Skillratings.Uscf.C57_uscf_established_loss_second",
    "Skillratings.Uscf.C57_uscf_result_order",
    "Skillratings.Uscf.C57_uscf_provisional_win_lowers"
   ],
   "note": ""
  },
  {
   "property": "C58",
   "status": "proved",
   "theorems": [
    "Skillratings.WengLin.C58_wengLin_expected_formula",
    "Skillratings.WengLin.C58_wengLin_expected_probability",
    "Skillratings.WengLin.C58_wengLin_expected_swap",
    "Skillratings.WengLin.C58_wengLin_expected_strictMono",
    "Skillratings.WengLin.C58_wengLin_expected_two_teams_probability",
    "Skillratings.WengLin.C58_wengLin_expected_two_teams_swap",
    "Skillratings.WengLin.C58_wengLin_expected_two_teams_single",
    "Skillratings.WengLin.C58_wengLin_expected_list",
    "Skillratings.WengLin.C58_wengLin_expected_multi_length",
    "Skillratings.WengLin.C58_wengLin_expected_multi_probability",
    "Skillratings.WengLin.C58_wengLin_expected_multi_order",
    "Skillratings.WengLin.C58_wengLin_expected_multi_two"
   ],
   "note": ""
  },
  {
   "property": "C59",
   "status": "proved",
   "theorems": [
    "Skillratings.WengLin.C59_wengLin_two_teams_length",
    "Skillratings.WengLin.C59_wengLin_two_teams_empty",
    "Skillratings.WengLin.C59_wengLin_multi_lengths",
    "Skillratings.WengLin.C59_wengLin_multi_empty_team",
    "Skillratings.WengLin.C59_wengLin_multi_nil"
   ],
   "note": ""
  },
  {
   "property": "C60",
   "status": "proved",
   "theorems": [
    "Skillratings.WengLin.C60_wengLin_two_teams_single",
    "Skillratings.WengLin.C60_wengLin_multi_two",
    "Skillratings.WengLin.C60_wengLin_period_fold"
   ],
   "note": ""
  },
  {
   "property": "C61",
   "status": "proved",
   "theorems": [
    "Skillratings.WengLin.C61_wengLin_game",
    "Skillratings.WengLin.C61_wengLin_game_second",
    "Skillratings.WengLin.C61_wengLin_period",
    "Skillratings.WengLin.C61_wengLin_period_lower",
    "Skillratings.WengLin.C61_wengLin_two_teams",
    "Skillratings.WengLin.C61_wengLin_multi",
    "Skillratings.WengLin.C61_wengLin_history"
   ],
   "note": ""
  },
  {
   "property": "C62",
   "status": "proved",
   "theorems": [
    "Skillratings.WengLin.C62_wengLin_win",
    "Skillratings.WengLin.C62_wengLin_loss",
    "Skillratings.WengLin.C62_wengLin_swap",
    "Skillratings.WengLin.C62_wengLin_two_teams_proportional",
    "Skillratings.WengLin.C62_wengLin_multi_proportional"
   ],
   "note": ""
  },
  {
   "property": "C63",
   "status": "proved",
   "theorems": [
    "Skillratings.WengLin.C63_wengLin_multi_relabel",
    "Skillratings.WengLin.C63_wengLin_multi_perm"
   ],
   "note": ""
  },
  {
   "property": "C64",
   "status": "proved",
   "theorems": [
    "Skillratings.TrueSkill.C64_trueskill_expected_formula",
    "Skillratings.TrueSkill.C64_trueskill_expected_probability",
    "Skillratings.TrueSkill.C64_trueskill_expected_two_teams_probability",
    "Skillratings.TrueSkill.C64_trueskill_expected_swap",
    "Skillratings.TrueSkill.C64_trueskill_expected_two_teams_swap",
    "Skillratings.TrueSkill.C64_trueskill_expected_equal",
    "Skillratings.TrueSkill.C64_trueskill_expected_two_teams_equal",
    "Skillratings.TrueSkill.C64_trueskill_expected_strictMono",
    "Skillratings.TrueSkill.C64_trueskill_expected_not_monotone",
    "Skillratings.TrueSkill.C64_trueskill_expected_two_teams_single",
    "Skillratings.TrueSkill.C64_trueskill_expected_list",
    "Skillratings.TrueSkill.C64_trueskill_expected_multi_formula",
    "Skillratings.TrueSkill.C64_trueskill_expected_multi"
   ],
   "note": ""
  },
  {
   "property": "C65",
   "status": "proved",
   "theorems": [
    "Skillratings.TrueSkill.C65_trueskill_quality_formula",
    "Skillratings.TrueSkill.C65_trueskill_quality_range",
    "Skillratings.TrueSkill.C65_trueskill_quality_two_teams_range",
    "Skillratings.TrueSkill.C65_trueskill_quality_symm",
    "Skillratings.TrueSkill.C65_trueskill_quality_two_teams_symm",
    "Skillratings.TrueSkill.C65_trueskill_quality_gap",
    "Skillratings.TrueSkill.C65_trueskill_quality_two_teams_gap",
    "Skillratings.TrueSkill.C65_trueskill_quality_single",
    "Skillratings.TrueSkill.C65_trueskill_quality_list"
   ],
   "note": ""
  },
  {
   "property": "C66",
   "status": "proved",
   "theorems": [
    "Skillratings.TrueSkill.C66_trueskill_two_teams_single",
    "Skillratings.TrueSkill.C66_trueskill_period",
    "Skillratings.TrueSkill.C66_trueskill_period_empty",
    "Skillratings.TrueSkill.C66_trueskill_two_teams_empty",
    "Skillratings.TrueSkill.C66_trueskill_two_teams_shape"
   ],
   "note": ""
  },
  {
   "property": "C67",
   "status": "proved",
   "theorems": [
    "Skillratings.TrueSkill.C67_trueskill_win",
    "Skillratings.TrueSkill.C67_trueskill_loss",
    "Skillratings.TrueSkill.C67_trueskill_two_teams_win",
    "Skillratings.TrueSkill.C67_trueskill_two_teams_loss",
    "Skillratings.TrueSkill.C67_trueskill_proportional",
    "Skillratings.TrueSkill.C67_trueskill_two_teams_proportional",
    "Skillratings.TrueSkill.C67_trueskill_swap",
    "Skillratings.TrueSkill.C67_trueskill_two_teams_swap",
    "Skillratings.TrueSkill.C67_trueskill_draw_favourite"
   ],
   "note": ""
  },
  {
   "property": "C68",
   "status": "proved",
   "theorems": [
    "Skillratings.TrueSkill.C68_trueskill_weight_error",
    "Skillratings.TrueSkill.C68_quality_weight_error",
    "Skillratings.TrueSkill.C68_no_error_iff",
    "Skillratings.TrueSkill.C68_no_weights_no_error",
    "Skillratings.TrueSkill.C68_no_weights_are_ones",
    "Skillratings.TrueSkill.C68_error_unique",
    "Skillratings.TrueSkill.C68_display_injective"
   ],
   "note": ""
  },
  {
   "property": "C69",
   "status": "proved",
   "theorems": [
    "Skillratings.TrueSkill.C69_trueskill_multi_shape",
    "Skillratings.TrueSkill.C69_trueskill_multi_empty"
   ],
   "note": ""
  },
  {
   "property": "C70",
   "status": "proved",
   "theorems": [
    "Skillratings.TrueSkill.C70_trueskill_multi_panics",
    "Skillratings.TrueSkill.C70_trueskill_multi_returns"
   ],
   "note": ""
  },
  {
   "property": "C71",
   "status": "proved",
   "theorems": [
    "Skillratings.TrueSkill.C71_trueskill_multi_rank_order",
    "Skillratings.TrueSkill.C71_trueskill_multi_permutation"
   ],
   "note": ""
  },
  {
   "property": "C72",
   "status": "proved",
   "theorems": [
    "Skillratings.TrueSkill.C72_trueskill_multi_two_teams_weighted",
    "Skillratings.TrueSkill.C72_trueskill_multi_two_teams_decided",
    "Skillratings.TrueSkill.C72_trueskill_multi_two_teams",
    "Skillratings.TrueSkill.C72_trueskill_multi_agrees",
    "Skillratings.TrueSkill.C72_trueskill_multi_disagrees"
   ],
   "note": ""
  },
  {
   "property": "C73",
   "status": "proved",
   "theorems": [
    "Skillratings.TrueSkill.C73_representation",
    "Skillratings.TrueSkill.C73_representation_injective",
    "Skillratings.TrueSkill.C73_transpose",
    "Skillratings.TrueSkill.C73_mul",
    "Skillratings.TrueSkill.C73_mul_transposed",
    "Skillratings.TrueSkill.C73_mul_panic",
    "Skillratings.TrueSkill.C73_add",
    "Skillratings.TrueSkill.C73_add_panic",
    "Skillratings.TrueSkill.C73_scale",
    "Skillratings.TrueSkill.C73_determinant",
    "Skillratings.TrueSkill.C73_determinant_panic",
    "Skillratings.TrueSkill.C73_inverse",
    "Skillratings.TrueSkill.C73_inverse_panic",
    "Skillratings.TrueSkill.C73_inverse_one_is_zero",
    "Skillratings.TrueSkill.C73_determinant_empty"
   ],
   "note": ""
  },
  {
   "property": "C74",
   "status": "proved",
   "theorems": [
    "Skillratings.TrueSkill.C74_empty",
    "Skillratings.TrueSkill.C74_formula",
    "Skillratings.TrueSkill.C74_range",
    "Skillratings.TrueSkill.C74_two_zero_teams_panic",
    "Skillratings.TrueSkill.C74_one_team_panics",
    "Skillratings.TrueSkill.C74_two_teams_panic",
    "Skillratings.TrueSkill.C74_no_weights"
   ],
   "note": ""
  },
  {
   "property": "C75",
   "status": "proved",
   "theorems": [
    "Skillratings.TrueSkill.C75_trueskill_rank",
    "Skillratings.TrueSkill.C75_trueskill_rank_mono",
    "Skillratings.TrueSkill.C75_trueskill_rank_le",
    "Skillratings.TrueSkill.C75_trueskill_rank_new"
   ],
   "note": ""
  },
  {
   "property": "C76",
   "status": "proved",
   "theorems": [
    "Skillratings.C76_elo_trait",
    "Skillratings.C76_dwz_trait",
    "Skillratings.C76_egf_trait",
    "Skillratings.C76_fifa_trait",
    "Skillratings.C76_ingo_trait",
    "Skillratings.C76_uscf_trait",
    "Skillratings.C76_glicko_trait",
    "Skillratings.C76_glicko2_trait",
    "Skillratings.C76_glickoBoost_trait",
    "Skillratings.C76_sticko_trait",
    "Skillratings.C76_wengLin_trait",
    "Skillratings.C76_trueSkill_trait",
    "Skillratings.C76_wengLin_team_trait",
    "Skillratings.C76_trueSkill_team_trait",
    "Skillratings.C76_wengLin_multi_trait",
    "Skillratings.C76_trueSkill_multi_trait"
   ],
   "note": ""
  },
  {
   "property": "C77",
   "status": "proved",
   "theorems": [
    "Skillratings.C77_convert_copy",
    "Skillratings.C77_ingo_roundtrip",
    "Skillratings.C77_ingo_antitone",
    "Skillratings.C77_uscf_roundtrip",
    "Skillratings.C77_uscf_strictMono",
    "Skillratings.C77_uscf_games",
    "Skillratings.C77_convert_defaults"
   ],
   "note": ""
  },
  {
   "property": "C78",
   "status": "proved",
   "theorems": [
    "Skillratings.C78_outcome_points",
    "Skillratings.C78_outcome_order",
    "Skillratings.C78_rank_roundtrip",
    "Skillratings.C78_rank_order",
    "Skillratings.C78_rank_trans"
   ],
   "note": ""
  },
  {
   "property": "C79",
   "status": "proved",
   "theorems": [
    "Skillratings.C79_egf_expected",
    "Skillratings.C79_elo_expected",
    "Skillratings.C79_elo_expected_period",
    "Skillratings.C79_fifa_expected",
    "Skillratings.C79_fifa_expected_period",
    "Skillratings.C79_dwz_expected",
    "Skillratings.C79_dwz_expected_period",
    "Skillratings.C79_uscf_expected",
    "Skillratings.C79_uscf_expected_period",
    "Skillratings.C79_glicko_expected",
    "Skillratings.C79_glicko_expected_period",
    "Skillratings.C79_glickoBoost_expected",
    "Skillratings.C79_glickoBoost_expected_period",
    "Skillratings.C79_sticko_expected",
    "Skillratings.C79_sticko_expected_period",
    "Skillratings.C79_glicko2_expected",
    "Skillratings.C79_glicko2_expected_period",
    "Skillratings.C79_glicko_expected_bounded",
    "Skillratings.C79_glicko2_expected_bounded",
    "Skillratings.C79_glickoBoost_expected_bounded",
    "Skillratings.C79_sticko_expected_bounded",
    "Skillratings.C79_wengLin_expected"
   ],
   "note": "Floating-point reading (Verif/FP.lean); needs FloatEnv.Lib. For the Glicko family the difference of the ratings must be finite, which follows from sizes up to 2^970 (2^969 with an advantage). Weng-Lin also needs FloatEnv.Accurate (exp), EGF FloatEnv.Moderate (pow, ln, ln_1p)."
  },
  {
   "property": "C80",
   "status": "proved",
   "theorems": [
    "Skillratings.C80_glicko_direction",
    "Skillratings.C80_glicko_period_direction",
    "Skillratings.C80_boost_direction",
    "Skillratings.C80_boost_period_direction",
    "Skillratings.C80_dwz_period_direction",
    "Skillratings.C80_egf_direction",
    "Skillratings.C80_dwz_direction",
    "Skillratings.C80_uscf_direction",
    "Skillratings.C80_elo_direction",
    "Skillratings.C80_elo_period_direction",
    "Skillratings.C80_fifa_direction",
    "Skillratings.C80_fifa_period_direction",
    "Skillratings.C80_wengLin_direction"
   ],
   "note": "Floating-point reading; needs FloatEnv.Lib, for Weng-Lin FloatEnv.Accurate, for EGF FloatEnv.Accurate and FloatEnv.Moderate. For Elo the change is also bounded by k as computed. EGF losers are left out: the bonus may raise them. Every direction theorem also states that the new rating is not NaN."
  },
  {
   "property": "C81",
   "status": "proved",
   "theorems": [
    "Skillratings.C81_wengLin_overflow",
    "Skillratings.C81_wengLin_two_teams_zero_uncertainty",
    "Skillratings.C81_trueskill_expected_single_nan"
   ],
   "note": "Floating-point reading; the first two parts need FloatEnv.Lib."
  },
  {
   "property": "C82",
   "status": "proved",
   "theorems": [
    "Skillratings.Elo.C82_elo_formula"
   ],
   "note": ""
  },
  {
   "property": "C83",
   "status": "proved",
   "theorems": [
    "Skillratings.Egf.C83_egf_formula",
    "Skillratings.Egf.C83_egf_period_formula"
   ],
   "note": ""
  },
  {
   "property": "C84",
   "status": "partial",
   "theorems": [
    "Skillratings.Uscf.C84_uscf_bonus_published_partial",
    "Skillratings.Uscf.C84_uscf_bonus_too_large"
   ],
   "note": "The crate uses min(m,4) where the published rule has max(m,4); agreement for m <= 2 and m = 4 and the strict overpayment for the other m are proved."
  },
  {
   "property": "C85",
   "status": "proved",
   "theorems": [
    "Skillratings.Sticko.C85_sticko_period_formula",
    "Skillratings.Sticko.C85_sticko_formula",
    "Skillratings.Sticko.C85_sticko_order",
    "Skillratings.Sticko.C85_sticko_direction"
   ],
   "note": ""
  },
  {
   "property": "C86",
   "status": "proved",
   "theorems": [
    "Skillratings.GlickoBoost.C86_glickoBoost_period_formula",
    "Skillratings.GlickoBoost.C86_glickoBoost_formula",
    "Skillratings.GlickoBoost.C86_glickoBoost_decay_formula"
   ],
   "note": ""
  },
  {
   "property": "C87",
   "status": "proved",
   "theorems": [
    "Skillratings.Glicko2.C87_glicko2_swap",
    "Skillratings.Glicko2.C87_glicko2_shift"
   ],
   "note": ""
  },
  {
   "property": "C88",
   "status": "proved",
   "theorems": [
    "Skillratings.WengLin.C88_wengLin_formula",
    "Skillratings.WengLin.C88_wengLin_two_teams_formula",
    "Skillratings.WengLin.C88_wengLin_multi_formula"
   ],
   "note": ""
  },
  {
   "property": "C89",
   "status": "proved",
   "theorems": [
    "Skillratings.TrueSkill.C89_trueskill_published",
    "Skillratings.TrueSkill.C89_trueskill_two_teams_published"
   ],
   "note": ""
  },
  {
   "property": "C90",
   "status": "proved",
   "theorems": [
    "Skillratings.TrueSkill.C90_trueskill_uncertainty",
    "Skillratings.TrueSkill.C90_trueskill_uncertainty_no_dynamics",
    "Skillratings.TrueSkill.C90_trueskill_two_teams_uncertainty"
   ],
   "note": ""
  },
  {
   "property": "C91",
   "status": "proved",
   "theorems": [
    "Skillratings.C91_elo_rating_new",
    "Skillratings.C91_egf_rating_new",
    "Skillratings.C91_fifa_rating_new",
    "Skillratings.C91_dwz_rating_new",
    "Skillratings.C91_ingo_rating_new",
    "Skillratings.C91_uscf_rating_new",
    "Skillratings.C91_glicko_rating_new",
    "Skillratings.C91_glicko2_rating_new",
    "Skillratings.C91_glickoBoost_rating_new",
    "Skillratings.C91_sticko_rating_new",
    "Skillratings.C91_wengLin_rating_new",
    "Skillratings.C91_trueSkill_rating_new",
    "Skillratings.C91_config_defaults",
    "Skillratings.C91_tuples",
    "Skillratings.C91_uscf_new",
    "Skillratings.C91_age_new"
   ],
   "note": ""
  },
  {
   "property": "C92",
   "status": "proved",
   "theorems": [
    "Skillratings.C92_elo_unbiased",
    "Skillratings.C92_elo_drift",
    "Skillratings.C92_fifa_unbiased",
    "Skillratings.C92_fifa_knockout_inflates",
    "Skillratings.C92_ingo_unbiased",
    "Skillratings.C92_egf_inflates",
    "Skillratings.C92_wengLin_unbiased",
    "Skillratings.C92_wengLin_two_teams_unbiased",
    "Skillratings.C92_glicko_unbiased",
    "Skillratings.C92_glicko_favourite_drifts_down",
    "Skillratings.C92_dwz_no_deflation",
    "Skillratings.C92_dwz_strong_youth_deflates"
   ],
   "note": "Exact real arithmetic. DWZ needs index >= 1."
  },
  {
   "property": "C93",
   "status": "proved",
   "theorems": [
    "Skillratings.C93_elo_opponent",
    "Skillratings.C93_fifa_opponent",
    "Skillratings.C93_ingo_opponent",
    "Skillratings.C93_egf_opponent",
    "Skillratings.C93_egf_opponent_second",
    "Skillratings.C93_dwz_opponent",
    "Skillratings.C93_glicko_opponent",
    "Skillratings.C93_wengLin_opponent",
    "Skillratings.C93_uscf_opponent",
    "Skillratings.C93_uscf_opponent_second"
   ],
   "note": ""
  },
  {
   "property": "C94",
   "status": "proved",
   "theorems": [
    "Skillratings.Glicko2.C94_glicko2_period_mono_tolerance",
    "Skillratings.Glicko2.C94_glicko2_period_mono",
    "Skillratings.Glicko2.C94_glicko2_mono",
    "Skillratings.C94_elo_period_mono",
    "Skillratings.C94_elo_overshoot",
    "Skillratings.C94_fifa_period_mono",
    "Skillratings.C94_glicko_period_mono",
    "Skillratings.C94_sticko_period_mono",
    "Skillratings.C94_egf_period_mono",
    "Skillratings.C94_dwz_period_mono",
    "Skillratings.C94_uscf_period_mono",
    "Skillratings.C94_ingo_period_mono"
   ],
   "note": "Exact real arithmetic; EGF needs a rating up to 3300, DWZ an index >= 1, Glicko and Sticko a positive deviation; for Glicko-2 the hypothesis NoHugeSurprise makes the solution of the volatility equation unique, and both calls have to return."
  },
  {
   "property": "C95",
   "status": "partial",
   "theorems": [
    "Skillratings.GlickoBoost.C95_glickoBoost_period_mono_partial",
    "Skillratings.GlickoBoost.C95_glickoBoost_perfect_score_pays_less"
   ],
   "note": "Holds if the better performance is not exceptional, or without threshold (C95_..._partial). Fails otherwise: with the default configuration a new player with four wins against even opponents gets fewer points than one with three wins and a draw, whatever the deviations of the opponents up to 350 (C95_glickoBoost_perfect_score_pays_less)."
  },
  {
   "property": "C96",
   "status": "proved",
   "theorems": [
    "Skillratings.C96_dwz_opponent",
    "Skillratings.C96_dwz_period",
    "Skillratings.C96_dwz_first",
    "Skillratings.C96_ingo_opponent",
    "Skillratings.C96_ingo_period",
    "Skillratings.C96_uscf_opponent",
    "Skillratings.C96_uscf_period",
    "Skillratings.C96_glicko2_opponent",
    "Skillratings.C96_glicko2_period"
   ],
   "note": "For any arithmetic, hence bit-exact."
  },
  {
   "property": "C97",
   "status": "proved",
   "theorems": [
    "Skillratings.TrueSkill.C97_trueskill_multi_chain_weighted",
    "Skillratings.TrueSkill.C97_trueskill_multi_chain",
    "Skillratings.TrueSkill.C97_trueskill_multi_applies",
    "Skillratings.TrueSkill.C97_trueskill_multi_margin",
    "Skillratings.TrueSkill.C97_trueskill_multi_applies_ties",
    "Skillratings.TrueSkill.C97_trueskill_multi_ties_rated",
    "Skillratings.TrueSkill.C97_trueskill_multi_ties_rated_unweighted"
   ],
   "note": "Exact real arithmetic, refinement to Spec/Chain.lean. The hypothesis chainUpdates = some g says that no message has a factor 1 - w outside (0,1); C97_trueskill_multi_applies gives a condition on the input that implies it for decided matches, C97_trueskill_multi_applies_ties one for matches with ties."
  },
  {
   "property": "C98",
   "status": "proved",
   "theorems": [
    "Skillratings.TrueSkill.C98_trueskill_multi_uncertainty",
    "Skillratings.TrueSkill.C98_trueskill_multi_proportional"
   ],
   "note": "Exact real arithmetic; hypothesis chainUpdates = some g as in C97."
  },
  {
   "property": "C99",
   "status": "proved",
   "theorems": [
    "Skillratings.TrueSkill.C99_trueskill_multi_underdog_first",
    "Skillratings.TrueSkill.C99_trueskill_multi_favourite_last"
   ],
   "note": "Exact real arithmetic; hypothesis chainUpdates = some g as in C97."
  },
  {
   "property": "C100",
   "status": "proved",
   "theorems": [
    "Skillratings.C100_egf_history",
    "Skillratings.C100_elo_history",
    "Skillratings.C100_elo_period",
    "Skillratings.C100_fifa_history",
    "Skillratings.C100_fifa_period",
    "Skillratings.C100_glicko_history",
    "Skillratings.C100_glicko_period",
    "Skillratings.C100_boost_history",
    "Skillratings.C100_boost_period",
    "Skillratings.C100_sticko_game",
    "Skillratings.C100_sticko_history",
    "Skillratings.C100_sticko_period",
    "Skillratings.C100_dwz_history",
    "Skillratings.C100_ingo_history",
    "Skillratings.C100_uscf_history",
    "Skillratings.TrueSkill.C100_trueskill_history",
    "Skillratings.TrueSkill.C100_trueskill_period",
    "Skillratings.C100_wengLin_history"
   ],
   "note": "Floating-point reading: any monotone rounding that keeps representable numbers; library functions only through FloatEnv.Lib, for Weng-Lin FloatEnv.Accurate, for EGF FloatEnv.Accurate and FloatEnv.Moderate. C80_dwz_period_direction contains the bound for DWZ periods. Ingo histories need 21 (B + 5 n) < 2^53 and USCF histories 9 (B + 800 n) < 2^53. The TrueSkill theorems use FloatEnv.Accurate, FloatEnv.LogAccurate and FloatEnv.Fading; they leave out draws, for which C102 shows that the variance can become negative."
  },
  {
   "property": "C101",
   "status": "proved",
   "theorems": [
    "Skillratings.C101_boost_cap",
    "Skillratings.C101_boost_period_cap",
    "Skillratings.C101_sticko_cap",
    "Skillratings.C101_sticko_period_cap",
    "Skillratings.C101_decay_caps",
    "Skillratings.C101_glicko2_decay_cap"
   ],
   "note": "Floating-point reading, all inputs."
  },
  {
   "property": "C102",
   "status": "partial",
   "theorems": [
    "Skillratings.TrueSkill.C102_draw_no_uncertainty",
    "Skillratings.TrueSkill.C102_draw_uncertainty_fails",
    "Skillratings.TrueSkill.C102_draw_uncertainty_partial",
    "Skillratings.TrueSkill.C102_draw_wide_margin_partial",
    "Skillratings.TrueSkill.C102_two_teams_draw_partial"
   ],
   "note": "Full claim refuted (C102_draw_no_uncertainty, C102_draw_uncertainty_fails); proved for all draws, of two players and of two teams, whose margin is at least one percent of the total uncertainty plus the difference of the ratings (C102_draw_wide_margin_partial, C102_two_teams_draw_partial), for equal ratings and margins of at least 0.6 percent, for all draws that are not too improbable, and for degenerate draws (C102_draw_uncertainty_partial). Open: smaller margins."
  },
  {
   "property": "C103",
   "status": "proved",
   "theorems": [
    "Skillratings.TrueSkill.C103_tie_without_spread"
   ],
   "note": "Floating-point reading; library functions only through FloatEnv.Lib. The bounds on uncertainties and dynamics factor keep precisions from being absorbed."
  },
  {
   "property": "C104",
   "status": "proved",
   "theorems": [
    "Skillratings.TrueSkill.C104_trueskill_multi_first_two",
    "Skillratings.TrueSkill.C104_trueskill_multi_last_two",
    "Skillratings.TrueSkill.C104_trueskill_multi_all_tie",
    "Skillratings.TrueSkill.C104_trueskill_multi_equal_treatment_fails"
   ],
   "note": "Exact real arithmetic. The first two theorems have the hypothesis chainUpdates = some g as in C97; C104_trueskill_multi_all_tie shows that it holds for complete ties of equal teams."
  },
  {
   "property": "C105",
   "status": "proved",
   "theorems": [
    "Skillratings.TrueSkill.C105_trueskill_quality_closed",
    "Skillratings.TrueSkill.C105_trueskill_quality_closed_no_weights",
    "Skillratings.TrueSkill.C105_trueskill_quality_team_order",
    "Skillratings.TrueSkill.C105_trueskill_quality_player_order",
    "Skillratings.TrueSkill.C105_trueskill_quality_shift",
    "Skillratings.TrueSkill.C105_trueskill_quality_unit",
    "Skillratings.TrueSkill.C105_trueskill_quality_best",
    "Skillratings.TrueSkill.C105_trueskill_quality_uncertainty"
   ],
   "note": "Exact real arithmetic, on top of the matrix formula of C74; every team must have a player with non-zero weight."
  },
  {
   "property": "C106",
   "status": "proved",
   "theorems": [
    "Skillratings.TrueSkill.C106_team_of_weight_zero",
    "Skillratings.TrueSkill.C106_player_of_weight_zero",
    "Skillratings.TrueSkill.C106_first_player_of_weight_zero"
   ],
   "note": "Floating-point reading; library functions only through FloatEnv.Lib. The trace of run_schedule is for any arithmetic (Proofs/Trace.lean). Contradicts the documentation of weights."
  },
  {
   "property": "C107",
   "status": "proved",
   "theorems": [
    "Skillratings.TrueSkill.C107_floats_do_not_panic_wide",
    "Skillratings.TrueSkill.C107_tiny_uncertainty_panics",
    "Skillratings.TrueSkill.C107_change_of_a_variable",
    "Skillratings.TrueSkill.C107_floats_do_not_panic"
   ],
   "note": "Floating-point reading; library functions only through FloatEnv.Lib. The panics for tiny uncertainties need a rounding that takes 2^-1200 to zero (explicit hypothesis; true of round to nearest)."
  },
  {
   "property": "C108",
   "status": "proved",
   "theorems": [
    "Skillratings.C108_fifa_seats",
    "Skillratings.C108_fifa_penalties_not_symmetric",
    "Skillratings.C108_dwz_seats",
    "Skillratings.C108_egf_seats",
    "Skillratings.C108_ingo_seats",
    "Skillratings.C108_uscf_seats",
    "Skillratings.C108_sticko_seats",
    "Skillratings.C108_glickoBoost_seats",
    "Skillratings.C108_wengLin_seats",
    "Skillratings.C108_wengLin_team_seats"
   ],
   "note": "Exact real arithmetic. (Elo C02, Glicko C31, TrueSkill C67, Glicko-2 C87 have their own claims.)"
  },
  {
   "property": "C109",
   "status": "proved",
   "theorems": [
    "Skillratings.C109_fifa_zero_point",
    "Skillratings.C109_fifa_period_zero_point",
    "Skillratings.C109_ingo_zero_point",
    "Skillratings.C109_ingo_period_zero_point",
    "Skillratings.C109_glicko_period_zero_point",
    "Skillratings.C109_sticko_zero_point",
    "Skillratings.C109_sticko_period_zero_point",
    "Skillratings.C109_glickoBoost_zero_point",
    "Skillratings.C109_glickoBoost_period_zero_point",
    "Skillratings.C109_wengLin_scale",
    "Skillratings.C109_wengLin_period_scale",
    "Skillratings.C109_wengLin_teams_scale",
    "Skillratings.C109_wengLin_multi_scale",
    "Skillratings.C109_wengLin_expected_scale",
    "Skillratings.C109_wengLin_expected_teams_scale",
    "Skillratings.C109_wengLin_expected_multi_scale",
    "Skillratings.C109_trueskill_teams_scale",
    "Skillratings.C109_trueskill_scale",
    "Skillratings.C109_trueskill_period_scale",
    "Skillratings.C109_trueskill_expected_scale",
    "Skillratings.C109_trueskill_expected_teams_scale",
    "Skillratings.C109_trueskill_expected_multi_scale",
    "Skillratings.C109_egf_zero_point_matters",
    "Skillratings.C109_uscf_zero_point_matters",
    "Skillratings.C109_dwz_zero_point_matters",
    "Skillratings.C109_wengLin_teams_zero_point_matters",
    "Skillratings.TrueSkill.C109_trueskill_multi_zero_point"
   ],
   "note": "Exact real arithmetic. Ingo periods: the rating, for non-empty periods. Glicko-Boost: the ratings only."
  },
  {
   "property": "C110",
   "status": "proved",
   "theorems": [
    "Skillratings.WengLin.C110_wengLin_teams_lineup",
    "Skillratings.WengLin.C110_wengLin_expected_teams_lineup",
    "Skillratings.WengLin.C110_wengLin_multi_lineup",
    "Skillratings.WengLin.C110_wengLin_expected_multi_lineup",
    "Skillratings.TrueSkill.C110_trueskill_teams_lineup",
    "Skillratings.TrueSkill.C110_trueskill_expected_teams_lineup",
    "Skillratings.TrueSkill.C110_trueskill_quality_teams_lineup",
    "Skillratings.TrueSkill.C110_trueskill_expected_multi_lineup",
    "Skillratings.TrueSkill.C110_trueskill_multi_lineup"
   ],
   "note": "Exact real arithmetic. The multi-team TrueSkill theorem has the hypothesis chainUpdates = some g as in C97; pairs_heard is an instance."
  },
  {
   "property": "C111",
   "status": "proved",
   "theorems": [
    "Skillratings.C111_elo_winning_streak",
    "Skillratings.C111_elo_losing_streak",
    "Skillratings.C111_fifa_winning_streak",
    "Skillratings.C111_dwz_winning_streak",
    "Skillratings.C111_uscf_winning_streak",
    "Skillratings.C111_uscf_losing_streak",
    "Skillratings.C111_glicko_winning_streak",
    "Skillratings.C111_wengLin_winning_streak",
    "Skillratings.C111_elo_drawn_rematches",
    "Skillratings.C111_elo_drawn_rematches_large",
    "Skillratings.C111_fifa_drawn_rematches",
    "Skillratings.C111_ingo_streak"
   ],
   "note": "Exact real arithmetic (in floating point a streak stops when the change is rounded away). Infinite sequences of games are sequences a, b : ℕ → Rating related by the rating function."
  },
  {
   "property": "C112",
   "status": "proved",
   "theorems": [
    "Skillratings.C112_elo_game",
    "Skillratings.C112_elo_expected",
    "Skillratings.C112_fifa_expected",
    "Skillratings.C112_fifa_game",
    "Skillratings.C112_elo_history",
    "Skillratings.C112_fifa_history",
    "Skillratings.C112_elo_period",
    "Skillratings.C112_ingo_game",
    "Skillratings.C112_ingo_history",
    "Skillratings.C112_elo_leaderboard",
    "Skillratings.C112_elo_total"
   ],
   "note": "Relates the floating-point reading to the real reading. Library accuracy is the explicit hypothesis E.Accurate (relative error at most 2^-50); ieee_accurate shows an instance."
  },
  {
   "property": "C113",
   "status": "proved",
   "theorems": [
    "Skillratings.Glicko.C113_glicko_floor",
    "Skillratings.Glicko.C113_glicko_period_floor",
    "Skillratings.Glicko.C113_glicko_default_floor",
    "Skillratings.Glicko.C113_glicko_no_floor",
    "Skillratings.Sticko.C113_sticko_floor",
    "Skillratings.Sticko.C113_sticko_period_floor",
    "Skillratings.Glicko2.C113_glicko2_floor",
    "Skillratings.Glicko2.C113_glicko2_period_floor",
    "Skillratings.TrueSkill.C113_trueskill_floor",
    "Skillratings.TrueSkill.C113_trueskill_two_teams_floor",
    "Skillratings.TrueSkill.C113_trueskill_draw_floor",
    "Skillratings.TrueSkill.C113_trueskill_two_teams_draw_floor",
    "Skillratings.TrueSkill.C113_trueskill_multi_floor",
    "Skillratings.WengLin.C113_wengLin_one_game",
    "Skillratings.WengLin.C113_wengLin_no_floor"
   ],
   "note": "Exact real arithmetic. Glicko-2: about calls that return. TrueSkill multi-team: hypothesis chainUpdates = some g as in C97 (threesome_heard is an instance)."
  },
  {
   "property": "C114",
   "status": "proved",
   "theorems": [
    "Skillratings.TrueSkill.C114_normal_cdf",
    "Skillratings.TrueSkill.C114_normal_pdf",
    "Skillratings.TrueSkill.C114_normal_quantile",
    "Skillratings.TrueSkill.C114_trueskill_two_teams_expected",
    "Skillratings.TrueSkill.C114_trueskill_expected"
   ],
   "note": "Exact real arithmetic (all operations exact, the fit as in the code). The normal law is Mathlib's gaussianReal; exists_contest shows that the probability spaces exist."
  },
  {
   "property": "C115",
   "status": "proved",
   "theorems": [
    "Skillratings.TrueSkill.C115_trueskill_decided",
    "Skillratings.TrueSkill.C115_trueskill_drawn",
    "Skillratings.TrueSkill.C115_trueskill_drawn_apart",
    "Skillratings.TrueSkill.C115_trueskill_two_teams_decided",
    "Skillratings.TrueSkill.C115_trueskill_two_teams_drawn",
    "Skillratings.TrueSkill.C115_trueskill_two_teams_drawn_apart",
    "Skillratings.TrueSkill.C115_trueskill_multi_decided",
    "Skillratings.TrueSkill.C115_trueskill_multi_drawn",
    "Skillratings.TrueSkill.C115_trueskill_multi_drawn_apart",
    "Skillratings.TrueSkill.C115_trueskill_multi_unweighted"
   ],
   "note": "Exact real arithmetic. Conditional mean and variance are those of Mathlib's conditional measure P[|E]. The event uses the draw margin computed by the crate."
  },
  {
   "property": "C116",
   "status": "proved",
   "theorems": [
    "Skillratings.TrueSkill.C116_normal_quantile",
    "Skillratings.TrueSkill.C116_trueskill_draw_probability",
    "Skillratings.TrueSkill.C116_trueskill_draw_certain"
   ],
   "note": "Exact real arithmetic. The normal law is Mathlib's gaussianReal."
  },
  {
   "property": "C117",
   "status": "proved",
   "theorems": [
    "Skillratings.C117_elo_gradient",
    "Skillratings.C117_fifa_gradient",
    "Skillratings.C117_wengLin_multi_gradient",
    "Skillratings.C117_wengLin_gradient",
    "Skillratings.C117_wengLin_two_teams_gradient",
    "Skillratings.C117_wengLin_curvature"
   ],
   "note": "Exact real arithmetic. The likelihood is defined in Spec/Likelihood.lean, without reference to the model."
  },
  {
   "property": "C118",
   "status": "proved",
   "theorems": [
    "Skillratings.C118_glicko_period_newton",
    "Skillratings.C118_glicko_newton",
    "Skillratings.C118_glicko2_period_newton",
    "Skillratings.C118_glicko2_newton",
    "Skillratings.C118_glickoBoost_period_newton",
    "Skillratings.C118_sticko_period_newton"
   ],
   "note": "Exact real arithmetic. Posterior density, Newton step and mode are defined in Spec/Likelihood.lean. Glicko-2: about calls that return. Glicko-Boost: the deviation is widened after the games there, so only the rating."
  },
  {
   "property": "C119",
   "status": "proved",
   "theorems": [
    "Skillratings.C119_elo_account",
    "Skillratings.C119_elo_calibrated_bound",
    "Skillratings.C119_elo_calibrated",
    "Skillratings.C119_fifa_account",
    "Skillratings.C119_fifa_calibrated_bound",
    "Skillratings.C119_fifa_calibrated"
   ],
   "note": "Exact real arithmetic. The quantities are defined in Spec/Forecast.lean; the factor k is the same in all games."
  },
  {
   "property": "C120",
   "status": "proved",
   "theorems": [
    "Skillratings.C120_elo_regret",
    "Skillratings.C120_fifa_regret"
   ],
   "note": "Exact real arithmetic. The quantities are defined in Spec/Forecast.lean; the factor k is the same in all games."
  },
  {
   "property": "C121",
   "status": "proved",
   "theorems": [
    "Skillratings.Glicko2.C121_glicko2_period_volatility",
    "Skillratings.Glicko2.C121_glicko2_volatility",
    "Skillratings.Glicko2.C121_glicko2_favourite_wins",
    "Skillratings.Glicko2.C121_glicko2_draw",
    "Skillratings.Glicko2.C121_glicko2_upset",
    "Skillratings.Glicko2.C121_glicko2_history"
   ],
   "note": "Exact real arithmetic, about calls that return (C37 shows when they do). Delta, phi, v are the published quantities of Spec/Glicko2.lean."
  },
  {
   "property": "C122",
   "status": "partial",
   "theorems": [
    "Skillratings.WengLin.C122_wengLin_mono",
    "Skillratings.WengLin.C122_wengLin_two_teams_mono",
    "Skillratings.WengLin.C122_wengLin_multi_mono",
    "Skillratings.WengLin.C122_wengLin_period_last_partial",
    "Skillratings.WengLin.C122_wengLin_period_fails",
    "Skillratings.TrueSkill.C122_trueskill_period_fails",
    "Skillratings.TrueSkill.C122_trueskill_period_last_partial",
    "Skillratings.TrueSkill.C122_trueskill_mono_partial",
    "Skillratings.TrueSkill.C122_trueskillTwoTeams_mono_partial",
    "Skillratings.TrueSkill.C122_trueskill_period_mono_partial",
    "Skillratings.TrueSkill.C122_trueskill_draw_beats_win"
   ],
   "note": "The full claim is false for rating periods: C122_wengLin_period_fails and C122_trueskill_period_fails give, for every player, a period in which a better result lowers the final rating. Proved: all single Weng-Lin matches, TrueSkill matches of two players or teams whose draw margin is zero or at least 1/500 of the total standard deviation, and the last game of a period (suffix _partial). C122_trueskill_draw_beats_win shows that the restriction on the margin cannot be dropped altogether. Exact real arithmetic."
  },
  {
   "property": "C123",
   "status": "proved",
   "theorems": [
    "Skillratings.C123_glicko_game",
    "Skillratings.C123_glicko_period",
    "Skillratings.C123_glicko_expected",
    "Skillratings.C123_glicko_expected_period",
    "Skillratings.C123_glicko_decay",
    "Skillratings.C123_glicko_interval",
    "Skillratings.C123_wengLin_game",
    "Skillratings.C123_wengLin_expected"
   ],
   "note": "Floating-point reading, compared with the model evaluated in exact real arithmetic on the same inputs. Hypotheses: E.Lib, E.Accurate (powers of ten and exp), E.Precise (ln 10 and hypot), all shown for the IEEE instance."
  },
  {
   "property": "C124",
   "status": "proved",
   "theorems": [
    "Skillratings.TrueSkill.C124_trueskill_expected",
    "Skillratings.TrueSkill.C124_trueskill_expected_period",
    "Skillratings.TrueSkill.C124_trueskill_two_teams_expected"
   ],
   "note": "Floating-point reading compared with the exact probability under Mathlib's gaussianReal, not with the real reading of the code. Hypotheses: E.Lib, E.Accurate, both shown for the IEEE instance."
  },
  {
   "property": "C125",
   "status": "proved",
   "theorems": [
    "Skillratings.TrueSkill.C125_trueskill_decided",
    "Skillratings.TrueSkill.C125_trueskill_drawn",
    "Skillratings.TrueSkill.C125_trueskill_period_decided",
    "Skillratings.TrueSkill.C125_trueskill_period_drawn",
    "Skillratings.TrueSkill.C125_trueskill_two_teams_decided",
    "Skillratings.TrueSkill.C125_trueskill_two_teams_drawn"
   ],
   "note": "Floating-point reading compared with conditional expectations and variances under Mathlib's measure theory. The computed draw margin is a parameter (IsMargin); C126 shows that it exists and what it means. Hypotheses: E.Lib, E.Accurate, both shown for the IEEE instance."
  },
  {
   "property": "C126",
   "status": "proved",
   "theorems": [
    "Skillratings.TrueSkill.C126_trueskill_draw_probability",
    "Skillratings.TrueSkill.C126_trueskill_draw_probability_teams"
   ],
   "note": "Hypotheses: E.Lib, E.Accurate, E.LogAccurate (relative error 2^-50 of ln below 3/4), all shown for the IEEE instance."
  },
  {
   "property": "C127",
   "status": "proved",
   "theorems": [
    "Skillratings.Glicko2.C127_glicko2_returns",
    "Skillratings.Glicko2.C127_glicko2_precise",
    "Skillratings.Glicko2.C127_glicko2_exact_unique",
    "Skillratings.Glicko2.C127_glicko2_default"
   ],
   "note": ""
  },
  {
   "property": "C128",
   "status": "proved",
   "theorems": [
    "Skillratings.Glicko2.C128_glicko2_period_returns",
    "Skillratings.Glicko2.C128_glicko2_period_precise",
    "Skillratings.Glicko2.C128_glicko2_period_exact_unique",
    "Skillratings.Glicko2.C128_glicko2_period_default",
    "Skillratings.Glicko2.C128_glicko2_period_empty"
   ],
   "note": ""
  },
  {
   "property": "C129",
   "status": "proved",
   "theorems": [
    "Skillratings.C129_dwz_expected",
    "Skillratings.C129_dwz_expected_period",
    "Skillratings.C129_dwz_game",
    "Skillratings.C129_dwz_period",
    "Skillratings.C129_uscf_expected",
    "Skillratings.C129_uscf_expected_period",
    "Skillratings.C129_uscf_game",
    "Skillratings.C129_uscf_period"
   ],
   "note": "Floating-point reading, compared with the model evaluated in exact real arithmetic on the same inputs. Hypotheses: E.Lib, E.Accurate (powers of ten) and, for DWZ, E.Faithful (exp_m1), all shown for the IEEE instance."
  },
  {
   "property": "C130",
   "status": "partial",
   "theorems": [
    "Skillratings.C130_first_dwz_not_enough",
    "Skillratings.C130_first_dwz_invalid",
    "Skillratings.C130_first_dwz_near_partial",
    "Skillratings.C130_first_dwz_near",
    "Skillratings.C130_first_dwz_half_percent_fails"
   ],
   "note": "The full claim is false: C130_first_dwz_half_percent_fails gives 23 points in 40 games, where round-to-nearest arithmetic turns 57.5 % into 57 % and the rating is 7 points lower than by the rules. Proved: both errors without exception; the rating whenever the percentage is not half-way between two integers (C130_first_dwz_near); in half-way cases the rating of the rules for that percentage or a neighbouring one (C130_first_dwz_near_partial). Floating-point reading, every monotone rounding."
  },
  {
   "property": "C131",
   "status": "proved",
   "theorems": [
    "Skillratings.C131_egf_expected",
    "Skillratings.C131_egf_game",
    "Skillratings.C131_egf_expected_period",
    "Skillratings.C131_egf_period"
   ],
   "note": "Floating-point reading, compared with the model evaluated in exact real arithmetic on the same inputs. Hypotheses: E.Accurate (exp), E.Faithful (powf, ln_1p) and E.LogWide (ln), all shown for the IEEE instance."
  },
  {
   "property": "C132",
   "status": "proved",
   "theorems": [
    "Skillratings.C132_sticko_game",
    "Skillratings.C132_sticko_period",
    "Skillratings.C132_sticko_expected",
    "Skillratings.C132_sticko_expected_period",
    "Skillratings.C132_sticko_decay",
    "Skillratings.C132_sticko_interval"
   ],
   "note": "Floating-point reading, compared with the model evaluated in exact real arithmetic on the same inputs. Hypotheses: E.Accurate (powf 10) and E.Precise (ln 10, hypot), both shown for the IEEE instance."
  },
  {
   "property": "C133",
   "status": "proved",
   "theorems": [
    "Skillratings.C133_boost_game",
    "Skillratings.C133_boost_period",
    "Skillratings.C133_boost_decay",
    "Skillratings.C133_boost_expected",
    "Skillratings.C133_boost_expected_period",
    "Skillratings.C133_boost_interval"
   ],
   "note": "Floating-point reading, compared with the model evaluated in exact real arithmetic on the same inputs; at the threshold of the boost as a backward error (Spec.ThresholdNear). Hypotheses: E.Accurate (powf 10, exp) and E.Precise (ln 10, hypot), both shown for the IEEE instance."
  },
  {
   "property": "C134",
   "status": "proved",
   "theorems": [
    "Skillratings.C134_fifa_period",
    "Skillratings.C134_ingo_period",
    "Skillratings.C134_ingo_expected",
    "Skillratings.C134_ingo_expected_period",
    "Skillratings.C134_glicko2_expected",
    "Skillratings.C134_glicko2_expected_period",
    "Skillratings.C134_glicko2_interval"
   ],
   "note": "Floating-point reading, compared with the model evaluated in exact real arithmetic on the same inputs. Hypotheses: E.Lib, E.Accurate, E.Precise as needed, all shown for the IEEE instance."
  },
  {
   "property": "C135",
   "status": "proved",
   "theorems": [
    "Skillratings.WengLin.C135_wengLin_two_teams",
    "Skillratings.WengLin.C135_wengLin_multi_team",
    "Skillratings.WengLin.C135_wengLin_few_teams",
    "Skillratings.WengLin.C135_wengLin_expected_two_teams",
    "Skillratings.WengLin.C135_wengLin_expected_multi_team"
   ],
   "note": "Floating-point reading, compared with the model evaluated in exact real arithmetic on the same inputs. Hypotheses: E.Lib, E.Accurate (exp), both shown for the IEEE instance."
  },
  {
   "property": "C136",
   "status": "proved",
   "theorems": [
    "Skillratings.TrueSkill.C136_trueskill_quality",
    "Skillratings.TrueSkill.C136_trueskill_quality_period",
    "Skillratings.TrueSkill.C136_trueskill_quality_two_teams"
   ],
   "note": "Floating-point reading, compared with the explicit formula over the reals. Hypotheses: E.Lib, E.Accurate (exp), both shown for the IEEE instance."
  },
  {
   "property": "C137",
   "status": "proved",
   "theorems": [
    "Skillratings.WengLin.C137_wengLin_game_stable",
    "Skillratings.WengLin.C137_wengLin_period_stable",
    "Skillratings.WengLin.C137_wengLin_period_float"
   ],
   "note": "Stability over the reals (mean value theorem in each variable) and its consequence for the floating-point reading together with C123."
  },
  {
   "property": "C138",
   "status": "proved",
   "theorems": [
    "Skillratings.C138_elo_learns",
    "Skillratings.C138_elo_distance",
    "Skillratings.C138_elo_fading",
    "Skillratings.C138_fifa_learns",
    "Skillratings.C138_fifa_distance",
    "Skillratings.C138_fifa_fading"
   ],
   "note": "Exact real arithmetic. The mean over random games is defined by recursion in Spec/Learning.lean (finite horizon, three results per game), not by measure theory; plan, chances and configuration of a game are any function of the games before."
  },
  {
   "property": "C139",
   "status": "proved",
   "theorems": [
    "Skillratings.C139_elo_consistent",
    "Skillratings.C139_elo_restless",
    "Skillratings.C139_fifa_consistent",
    "Skillratings.C139_fifa_restless",
    "Skillratings.C139_glicko_restless",
    "Skillratings.Glicko.C139_glicko_period_consistent",
    "Skillratings.Glicko.C139_glicko_consistent",
    "Skillratings.WengLin.C139_wengLin_consistent"
   ],
   "note": "Exact real arithmetic; probability spaces, filtrations and conditional expectations are those of Mathlib. Only the rating of the player is followed; the opponents are arbitrary (adapted) and bounded."
  },
  {
   "property": "C140",
   "status": "proved",
   "theorems": [
    "Skillratings.C140_elo_forecasts",
    "Skillratings.C140_elo_consistent",
    "Skillratings.C140_elo_matchmaking",
    "Skillratings.C140_fifa_forecasts",
    "Skillratings.C140_fifa_consistent",
    "Skillratings.C140_fifa_matchmaking"
   ],
   "note": "Exact real arithmetic; FIFA without knockout and penalties. Assumptions on the games in Spec/Season.lean."
  },
  {
   "property": "C141",
   "status": "proved",
   "theorems": [
    "Skillratings.Sticko.C141_sticko_bounded",
    "Skillratings.Sticko.C141_sticko_periods_bounded",
    "Skillratings.Sticko.C141_sticko_no_pull",
    "Skillratings.Sticko.C141_sticko_overshoot"
   ],
   "note": "Exact real arithmetic. For 100 < lambda < 200 nothing is claimed."
  },
  {
   "property": "C142",
   "status": "proved",
   "theorems": [
    "Skillratings.C142_elo_long_run",
    "Skillratings.C142_elo_distance",
    "Skillratings.C142_fifa_long_run",
    "Skillratings.C142_fifa_distance"
   ],
   "note": "Exact real arithmetic; FIFA without knockout and penalties. Assumptions on the games in Spec/Season.lean."
  },
  {
   "property": "C143",
   "status": "proved",
   "theorems": [
    "Skillratings.C143_dwz",
    "Skillratings.C143_uscf",
    "Skillratings.C143_uscf_at_floor",
    "Skillratings.C143_glicko_boost",
    "Skillratings.C143_trueskill"
   ],
   "note": "Exact real arithmetic."
  },
  {
   "property": "C144",
   "status": "proved",
   "theorems": [
    "Skillratings.C144_elo_forgets",
    "Skillratings.C144_elo_large_factor",
    "Skillratings.C144_fifa_forgets",
    "Skillratings.C144_ingo_forgets"
   ],
   "note": "Exact real arithmetic; FIFA without knockout and penalties."
  },
  {
   "property": "C145",
   "status": "proved",
   "theorems": [
    "Skillratings.C145_ingo_mean",
    "Skillratings.C145_ingo_error",
    "Skillratings.C145_ingo_average"
   ],
   "note": "Exact real arithmetic. Assumptions on the games in Spec/Career.lean."
  },
  {
   "property": "C146",
   "status": "proved",
   "theorems": [
    "Skillratings.Ingo.C146_ingo_total",
    "Skillratings.Ingo.C146_ingo_account",
    "Skillratings.Ingo.C146_ingo_bounded",
    "Skillratings.Ingo.C146_ingo_calibrated_bound",
    "Skillratings.Ingo.C146_ingo_calibrated"
   ],
   "note": "Exact real arithmetic; ages do not change during the games."
  },
  {
   "property": "C147",
   "status": "proved",
   "theorems": [
    "Skillratings.C147_elo_keeps",
    "Skillratings.C147_fifa_keeps",
    "Skillratings.C147_ingo_keeps",
    "Skillratings.C147_egf_keeps",
    "Skillratings.C147_uscf_keeps",
    "Skillratings.C147_glicko_keeps",
    "Skillratings.C147_wengLin_keeps",
    "Skillratings.C147_dwz_fails",
    "Skillratings.C147_uscf_fails",
    "Skillratings.C147_glicko_period_fails"
   ],
   "note": "Exact real arithmetic. TrueSkill, Glicko-2, Sticko and Glicko-Boost are not covered."
  },
  {
   "property": "C148",
   "status": "proved",
   "theorems": [
    "Skillratings.C148_fifa_draw",
    "Skillratings.C148_ingo_draw",
    "Skillratings.C148_dwz_draw",
    "Skillratings.C148_dwz_index_zero",
    "Skillratings.C148_egf_draw",
    "Skillratings.C148_uscf_draw",
    "Skillratings.C148_uscf_one_game_each",
    "Skillratings.C148_uscf_newcomer",
    "Skillratings.C148_glicko_draw",
    "Skillratings.C148_glicko_large_c",
    "Skillratings.C148_wengLin_draw"
   ],
   "note": "Exact real arithmetic. Elo is in C06. TrueSkill, Glicko-2, Sticko and Glicko-Boost are not covered."
  },
  {
   "property": "C149",
   "status": "proved",
   "theorems": [
    "Skillratings.C149_glicko_game",
    "Skillratings.C149_glicko_period",
    "Skillratings.C149_wengLin_game",
    "Skillratings.C149_ingo_game",
    "Skillratings.C149_ingo_period",
    "Skillratings.C149_dwz_game",
    "Skillratings.C149_dwz_period",
    "Skillratings.C149_uscf_game",
    "Skillratings.C149_uscf_period",
    "Skillratings.C149_uscf_boundary",
    "Skillratings.C149_sticko_game",
    "Skillratings.C149_sticko_period",
    "Skillratings.C149_sticko_pull_opposite"
   ],
   "note": "Exact real arithmetic. TrueSkill, Glicko-2, Glicko-Boost, and Weng-Lin rating periods are not covered."
  },
  {
   "property": "C150",
   "status": "proved",
   "theorems": [
    "Skillratings.C150_elo",
    "Skillratings.C150_fifa",
    "Skillratings.C150_dwz",
    "Skillratings.C150_uscf",
    "Skillratings.C150_egf",
    "Skillratings.C150_ingo",
    "Skillratings.C150_glicko",
    "Skillratings.C150_glicko2",
    "Skillratings.C150_wengLin",
    "Skillratings.C150_glicko_weaker",
    "Skillratings.C150_wengLin_weaker",
    "Skillratings.C150_sticko_cycle",
    "Skillratings.C150_boost_cycle",
    "Skillratings.TrueSkill.C150_trueskill",
    "Skillratings.TrueSkill.C150_trueskill_cycle",
    "Skillratings.TrueSkill.C150_trueskill_multi"
   ],
   "note": "Exact real arithmetic."
  },
  {
   "property": "C151",
   "status": "proved",
   "theorems": [
    "Skillratings.C151_elo",
    "Skillratings.C151_fifa",
    "Skillratings.C151_dwz",
    "Skillratings.C151_uscf",
    "Skillratings.C151_glicko",
    "Skillratings.C151_wengLin",
    "Skillratings.C151_egf",
    "Skillratings.C151_ingo",
    "Skillratings.C151_uscf_provisional",
    "Skillratings.C151_trueskill"
   ],
   "note": "Exact real arithmetic. First seat; the second seat follows with C108."
  },
  {
   "property": "C152",
   "status": "proved",
   "theorems": [
    "Skillratings.C152_elo",
    "Skillratings.C152_elo_strict",
    "Skillratings.C152_fifa",
    "Skillratings.C152_ingo"
   ],
   "note": "Exact real arithmetic. Opponents of equal rating."
  },
  {
   "property": "C153",
   "status": "proved",
   "theorems": [
    "Skillratings.C153_glicko",
    "Skillratings.C153_glicko_default",
    "Skillratings.C153_sticko",
    "Skillratings.C153_glicko2",
    "Skillratings.C153_boost",
    "Skillratings.C153_boost_default"
   ],
   "note": "Exact real arithmetic."
  },
  {
   "property": "C154",
   "status": "proved",
   "theorems": [
    "Skillratings.C154_elo",
    "Skillratings.C154_fifa",
    "Skillratings.C154_egf",
    "Skillratings.C154_ingo",
    "Skillratings.C154_wengLin",
    "Skillratings.C154_glicko",
    "Skillratings.C154_glicko_period",
    "Skillratings.C154_egf_period",
    "Skillratings.C154_uscf",
    "Skillratings.C154_dwz",
    "Skillratings.C154_dwz_period",
    "Skillratings.C154_ingo_period",
    "Skillratings.C154_sticko",
    "Skillratings.C154_sticko_period",
    "Skillratings.C154_uscf_period"
   ],
   "note": "Floating point. In Elo and FIFA rating periods a better early result changes the later expected scores, which the library may compute without monotonicity, so their periods are not covered. DWZ: the coefficient depends on the result, and the proof treats results above, below and around the expected score."
  },
  {
   "property": "C155",
   "status": "proved",
   "theorems": [
    "Skillratings.C155_fifa_knockout",
    "Skillratings.C155_fifa_league",
    "Skillratings.C155_egf_draws"
   ],
   "note": "Exact real arithmetic. What happens above the EGF ceiling is in C23."
  },
  {
   "property": "C156",
   "status": "proved",
   "theorems": [
    "Skillratings.WengLin.C156_wengLin_stronger_member",
    "Skillratings.WengLin.C156_wengLin_uncertain_member",
    "Skillratings.WengLin.C156_wengLin_carried",
    "Skillratings.WengLin.C156_wengLin_stronger_opponents",
    "Skillratings.WengLin.C156_wengLin_larger_teams",
    "Skillratings.WengLin.C156_wengLin_multi_stronger_member",
    "Skillratings.WengLin.C156_wengLin_multi_carried"
   ],
   "note": "Exact real arithmetic. TrueSkill teams are not covered."
  },
  {
   "property": "C157",
   "status": "proved",
   "theorems": [
    "Skillratings.Egf.C157_egf_wins_in_a_period",
    "Skillratings.Ingo.C157_ingo_repeated",
    "Skillratings.Ingo.C157_ingo_repeated_period",
    "Skillratings.Ingo.C157_ingo_period_slower"
   ],
   "note": "Exact real arithmetic. EGF: streaks of wins only."
  },
  {
   "property": "C158",
   "status": "proved",
   "theorems": [
    "Skillratings.Glicko.C158_glicko_closer",
    "Skillratings.Glicko.C158_glicko_known",
    "Skillratings.Glicko.C158_glicko_period_closer",
    "Skillratings.Glicko.C158_glicko_known_fails",
    "Skillratings.C158_wengLin_closer"
   ],
   "note": "Exact real arithmetic. 347 is 2/q = 800/ln 10 rounded down."
  },
  {
   "property": "C159",
   "status": "proved",
   "theorems": [
    "Skillratings.C159_dwz_total",
    "Skillratings.C159_first_dwz_total",
    "Skillratings.C159_ingo_total",
    "Skillratings.C159_uscf_total",
    "Skillratings.C159_egf_total",
    "Skillratings.Glicko.C159_glicko_total",
    "Skillratings.Glicko.C159_glicko_beat_the_known",
    "Skillratings.C159_glicko2_total",
    "Skillratings.C159_sticko_total",
    "Skillratings.C159_glickoBoost_total"
   ],
   "note": "Exact real arithmetic."
  },
  {
   "property": "C160",
   "status": "proved",
   "theorems": [
    "Skillratings.C160_elo_k",
    "Skillratings.C160_fifa_importance",
    "Skillratings.C160_glicko_game",
    "Skillratings.C160_glicko_period",
    "Skillratings.C160_sticko_h",
    "Skillratings.C160_sticko_bonus",
    "Skillratings.C160_uscf_bonus",
    "Skillratings.C160_wengLin_beta",
    "Skillratings.C160_wengLin_tolerance",
    "Skillratings.C160_wengLin_tolerance_game"
   ],
   "note": "Exact real arithmetic. TrueSkill, Glicko-2, Glicko-Boost and EGF parameters are not covered."
  },
  {
   "property": "C161",
   "status": "proved",
   "theorems": [
    "Skillratings.C161_elo_game",
    "Skillratings.C161_fifa_game",
    "Skillratings.C161_wengLin_game",
    "Skillratings.C161_glicko_game",
    "Skillratings.C161_dwz_period",
    "Skillratings.C161_ingo_period",
    "Skillratings.C161_uscf_period",
    "Skillratings.C161_glicko_period_fails"
   ],
   "note": "Exact real arithmetic. The failure for Glicko periods is proved with a concrete witness."
  },
  {
   "property": "C162",
   "status": "proved",
   "theorems": [
    "Skillratings.C162_glicko",
    "Skillratings.C162_ingo",
    "Skillratings.C162_uscf",
    "Skillratings.C162_glicko2",
    "Skillratings.C162_sticko",
    "Skillratings.C162_glickoBoost",
    "Skillratings.C162_trueskill_two_teams",
    "Skillratings.C162_trueskill",
    "Skillratings.C162_elo_not"
   ],
   "note": "Floating-point model; the sign bit of zeros counts, NaN payloads are not modelled. The failure for Elo is proved with a concrete witness. DWZ, EGF, FIFA, Weng-Lin, drawn TrueSkill games and TrueSkill games between players of different uncertainty are not covered (they share an intermediate result between the sides or use a fused sum)."
  },
  {
   "property": "C163",
   "status": "proved",
   "theorems": [
    "Skillratings.C163_elo",
    "Skillratings.C163_elo_period",
    "Skillratings.C163_fifa",
    "Skillratings.C163_fifa_period",
    "Skillratings.C163_dwz",
    "Skillratings.C163_dwz_period",
    "Skillratings.C163_ingo",
    "Skillratings.C163_ingo_period",
    "Skillratings.C163_glicko",
    "Skillratings.C163_sticko",
    "Skillratings.C163_glickoBoost",
    "Skillratings.C163_glicko2",
    "Skillratings.C163_trueskill",
    "Skillratings.C163_wengLin",
    "Skillratings.C163_uscf",
    "Skillratings.C163_uscf_period",
    "Skillratings.C163_egf",
    "Skillratings.C163_wengLin_period",
    "Skillratings.C163_trueskill_period",
    "Skillratings.C163_glicko_period",
    "Skillratings.C163_sticko_period",
    "Skillratings.C163_glickoBoost_period",
    "Skillratings.C163_glicko2_period",
    "Skillratings.C163_egf_period",
    "Skillratings.C163_wengLin_two_teams",
    "Skillratings.C163_trueskill_two_teams",
    "Skillratings.C163_wengLin_multi"
   ],
   "note": "Floating-point model with the library requirements `Lib`. Ratings only: deviations and uncertainties are not part of the claim, nor is trueskill_multi_team."
  },
  {
   "property": "C164",
   "status": "proved",
   "theorems": [
    "Skillratings.C164_elo_expected",
    "Skillratings.C164_elo",
    "Skillratings.C164_elo_period",
    "Skillratings.C164_fifa_expected",
    "Skillratings.C164_fifa",
    "Skillratings.C164_fifa_period",
    "Skillratings.C164_dwz_expected",
    "Skillratings.C164_dwz",
    "Skillratings.C164_dwz_period",
    "Skillratings.C164_uscf_expected",
    "Skillratings.C164_uscf",
    "Skillratings.C164_uscf_period",
    "Skillratings.C164_glicko_expected",
    "Skillratings.C164_glicko",
    "Skillratings.C164_glicko_period",
    "Skillratings.C164_wengLin_expected",
    "Skillratings.C164_wengLin",
    "Skillratings.C164_sticko_expected",
    "Skillratings.C164_sticko",
    "Skillratings.C164_sticko_period",
    "Skillratings.C164_glickoBoost_expected",
    "Skillratings.C164_glickoBoost",
    "Skillratings.C164_glickoBoost_period",
    "Skillratings.TrueSkill.C164_trueskill",
    "Skillratings.TrueSkill.C164_trueskill_period",
    "Skillratings.TrueSkill.C164_trueskill_two_teams",
    "Skillratings.WengLin.C164_wengLin_two_teams",
    "Skillratings.WengLin.C164_wengLin_multi_team"
   ],
   "note": "Floating-point model with the library requirements `Lib` (Weng-Lin and TrueSkill: also `Accurate`); values, so the two zeros count as equal. Ingo (see C166), EGF (which adds a bonus), trueskill_multi_team and Glicko-2 are not covered; Sticko needs beta = gamma = 0 and a pull of 0 to 100 percent (periods: pull 0, since the mean of the opponents is rounded), Glicko-Boost needs eta = 0; Weng-Lin periods are in C165."
  },
  {
   "property": "C165",
   "status": "proved",
   "theorems": [
    "Skillratings.C165_elo",
    "Skillratings.C165_fifa",
    "Skillratings.C165_dwz",
    "Skillratings.C165_uscf",
    "Skillratings.C165_glicko",
    "Skillratings.C165_wengLin",
    "Skillratings.C165_wengLin_period",
    "Skillratings.C165_sticko",
    "Skillratings.C165_glickoBoost"
   ],
   "note": "Floating-point model with the library requirements `Lib` (Weng-Lin: also `Accurate`); values, so the two zeros count as equal, except for Weng-Lin where the statement is bit for bit. Ingo, EGF, TrueSkill and Glicko-2 are not covered."
  },
  {
   "property": "C166",
   "status": "proved",
   "theorems": [
    "Skillratings.C166_ingo_game",
    "Skillratings.C166_ingo_tournament",
    "Skillratings.C166_ingo_moves",
    "Skillratings.C166_ingo_not"
   ],
   "note": "Floating-point model; the bounds need no requirement on library functions (Ingo uses none). The claim that ratings are kept exactly is false and refuted (C166_ingo_not) with rounding to nearest, ties to even."
  },
  {
   "property": "C167",
   "status": "proved",
   "theorems": [
    "Skillratings.C167_elo",
    "Skillratings.C167_fifa",
    "Skillratings.C167_dwz",
    "Skillratings.C167_uscf",
    "Skillratings.C167_egf",
    "Skillratings.C167_glicko",
    "Skillratings.C167_glicko2",
    "Skillratings.C167_glickoBoost",
    "Skillratings.C167_sticko",
    "Skillratings.C167_wengLin",
    "Skillratings.C167_points"
   ],
   "note": "Floating-point model with rounding to nearest, ties to even (`FloatEnv.ToNearest`) and the library requirements `Lib` (EGF: also `Moderate`, Weng-Lin: also `Accurate`). Ingo (scores outside [0, 1]), team matches and TrueSkill (an approximate distribution function that can leave [0, 1]) are not covered."
  },
  {
   "property": "C168",
   "status": "proved",
   "theorems": [
    "Skillratings.C168_glicko_win",
    "Skillratings.C168_glicko_loss",
    "Skillratings.C168_elo_win",
    "Skillratings.C168_elo_loss",
    "Skillratings.C168_fifa_win",
    "Skillratings.C168_fifa_loss",
    "Skillratings.C168_elo_expected",
    "Skillratings.C168_elo_stale",
    "Skillratings.C168_elo_period"
   ],
   "note": "Floating-point model. The first part assumes `Accurate` library functions, the second also rounding to nearest (`FloatEnv.ToNearest`). Between the leads of 3200 and 7000 points nothing is claimed. FIFA and Glicko have only the first part."
  },
  {
   "property": "C169",
   "status": "proved",
   "theorems": [
    "Skillratings.C169_elo",
    "Skillratings.C169_fifa",
    "Skillratings.C169_ingo",
    "Skillratings.C169_egf",
    "Skillratings.C169_glicko"
   ],
   "note": "Floating-point model. Assumes `Accurate` library functions (Ingo: none; EGF: also `Faithful` and `LogWide`; Glicko: `Lib` and `Precise`). DWZ, USCF, Sticko, Glicko-2, Glicko-Boost, Weng-Lin and TrueSkill have only the weak inequality, where C154 has one."
  }
 ]
}
