{
 "claims": [
  {
   "property": "C01",
   "status": "proved",
   "theorems": [
    "TTI.Props.C01_exposure_is_sum_of_open",
    "TTI.Props.C01_returned"
   ],
   "note": "exact arithmetic, factor >= 1; C01_returned for the data of getTiSimulation"
  },
  {
   "property": "C02",
   "status": "proved",
   "theorems": [
    "TTI.Props.C02_exposure_within_limit",
    "TTI.Props.C02_negative_prices_break_limit",
    "TTI.Props.C02_returned",
    "TTI.Props.C02_exposure_within_limit_float",
    "TTI.Props.C02_nan_price_removes_limit"
   ],
   "note": "needs non-negative prices; the witness with negative prices shows why; float version for finite prices"
  },
  {
   "property": "C03",
   "status": "proved",
   "theorems": [
    "TTI.Props.C03_earnings_monotone",
    "TTI.Props.C03_earnings_nonneg",
    "TTI.Props.C03_earnings_strict",
    "TTI.Props.C03_returned"
   ],
   "note": "monotone, non-negative, strictly increasing on a closing day"
  },
  {
   "property": "C04",
   "status": "proved",
   "theorems": [
    "TTI.Props.C04_earnings_are_realised_profits",
    "TTI.Props.C04_returned"
   ],
   "note": "against the ledger specification Spec.realised"
  },
  {
   "property": "C05",
   "status": "proved",
   "theorems": [
    "TTI.Props.C05_open_until_first_profit",
    "TTI.Props.C05_no_profitable_position_left_open"
   ],
   "note": "law-free version for any arithmetic plus exact version"
  },
  {
   "property": "C06",
   "status": "proved",
   "theorems": [
    "TTI.Props.C06_row_identities",
    "TTI.Props.C06_portfolio_value_of_ledger",
    "TTI.Props.C06_returned"
   ],
   "note": "law-free row identities plus ledger version"
  },
  {
   "property": "C07",
   "status": "proved",
   "theorems": [
    "TTI.Props.C07_open_decision",
    "TTI.Props.C07_open_decision_float",
    "TTI.Props.C07_nan_or_inf_limit_is_no_limit",
    "TTI.Props.C07_returned"
   ],
   "note": "exact and law-free version; NaN/inf limit equals no limit"
  },
  {
   "property": "C08",
   "status": "proved",
   "theorems": [
    "TTI.Props.C08_first_day",
    "TTI.Props.C08_ignored_without_limit",
    "TTI.Props.C08_ignored_signal_without_limit",
    "TTI.Props.C08_returned"
   ],
   "note": "first day, ignored counters without limit, refutation of the documented reading"
  },
  {
   "property": "C09",
   "status": "proved",
   "theorems": [
    "TTI.Props.C09_signal_counts",
    "TTI.Props.C09_ignored_counts",
    "TTI.Props.C09_open_counts",
    "TTI.Props.C09_last_values",
    "TTI.Props.C09_returned"
   ],
   "note": "all fields of the statistics dictionary"
  },
  {
   "property": "C10",
   "status": "proved",
   "theorems": [
    "TTI.Props.C10_no_look_ahead",
    "TTI.Props.C10_no_look_ahead_rows",
    "TTI.Props.C10_returned"
   ],
   "note": "law-free"
  },
  {
   "property": "C11",
   "status": "proved",
   "theorems": [
    "TTI.Props.C11_scaling",
    "TTI.Props.C11_scaling_counters"
   ],
   "note": "exact arithmetic"
  },
  {
   "property": "C12",
   "status": "proved",
   "theorems": [
    "TTI.Props.C12_unreached_limit",
    "TTI.Props.C12_returned"
   ],
   "note": "law-free"
  },
  {
   "property": "C13",
   "status": "proved",
   "theorems": [
    "TTI.Props.C13_open_positions_bounded",
    "TTI.Props.C13_returned"
   ],
   "note": "exact arithmetic, factor >= 1"
  },
  {
   "property": "C14",
   "status": "proved",
   "theorems": [
    "TTI.Props.C14_balance_meaning",
    "TTI.Props.C14_balance_overstates",
    "TTI.Props.C14_returned"
   ],
   "note": "exact arithmetic, factor >= 1"
  },
  {
   "property": "C15",
   "status": "proved",
   "theorems": [
    "TTI.Props.C15_max_exposure",
    "TTI.Props.C15_factor",
    "TTI.Props.C15_precedence"
   ],
   "note": "decision table of both arguments and order of the checks"
  },
  {
   "property": "C16",
   "status": "proved",
   "theorems": [
    "TTI.Props.C16_rows_complete",
    "TTI.Props.C16_returned",
    "TTI.Props.C16_float_run_is_exact"
   ],
   "note": "the model functions are total; acceptance of the arguments is C15"
  },
  {
   "property": "C17",
   "status": "proved",
   "theorems": [
    "TTI.Props.C17_observers",
    "TTI.Props.C17_every_call_sequence"
   ],
   "note": "any object; for all constructed indicators except MedianPrice(1) and RangeIndicator also with failing arguments"
  },
  {
   "property": "C18",
   "status": "proved",
   "theorems": [
    "TTI.Props.C18_rejected_arguments",
    "TTI.Props.C18_accepted_arguments"
   ],
   "note": "rejected iff not AcceptsSim, with any calls before and after"
  },
  {
   "property": "C19",
   "status": "proved",
   "theorems": [
    "TTI.Props.C19_signal_failure_truncates",
    "TTI.Props.C19_simulation_succeeds_iff",
    "TTI.Props.C19_median_price_one",
    "TTI.Props.C19_range_indicator_witness"
   ],
   "note": "general truncation, exact success condition, MedianPrice(1) for all inputs, RangeIndicator witness"
  },
  {
   "property": "C20",
   "status": "proved",
   "theorems": [
    "TTI.Props.C20_cut_is_live",
    "TTI.Props.C20_no_look_ahead",
    "TTI.Props.C20_no_look_ahead_complete"
   ],
   "note": "53 of the 57 classes; also for filled data whose earliest values are known, and for repeated dates"
  },
  {
   "property": "C21",
   "status": "proved",
   "theorems": [
    "TTI.Props.C21_detrended",
    "TTI.Props.C21_fibonacci",
    "TTI.Props.C21_accumulation",
    "TTI.Props.C21_chaikin_oscillator"
   ],
   "note": "witnesses for all four classes; simulated against live signal for three of them"
  },
  {
   "property": "C22",
   "status": "proved",
   "theorems": [
    "TTI.Props.C22_last_value",
    "TTI.Props.C22_value_of_date",
    "TTI.Props.C22_distinct_dates"
   ],
   "note": "last value, value of a date, unparsable dates"
  },
  {
   "property": "C23",
   "status": "proved",
   "theorems": [
    "TTI.Props.C23_rounds"
   ],
   "note": "links the API result to Sim.run"
  },
  {
   "property": "C24",
   "status": "proved",
   "theorems": [
    "TTI.Props.C24_rows_sorted"
   ],
   "note": "columns of equal length"
  },
  {
   "property": "C25",
   "status": "proved",
   "theorems": [
    "TTI.Props.C25_row_order_irrelevant",
    "TTI.Props.C25_construct"
   ],
   "note": "distinct dates"
  },
  {
   "property": "C26",
   "status": "proved",
   "theorems": [
    "TTI.Props.C26_label_case_irrelevant",
    "TTI.Props.C26_extra_columns_irrelevant",
    "TTI.Props.C26_repeated_extra_fails",
    "TTI.Props.C26_label_case_construct",
    "TTI.Props.C26_extra_columns_construct"
   ],
   "note": "letter case, extra columns; a repeated extra label makes validation fail"
  },
  {
   "property": "C27",
   "status": "proved",
   "theorems": [
    "TTI.Props.C27_validated",
    "TTI.Props.C27_construct",
    "TTI.Props.C27_fill",
    "TTI.Props.C27_fill_unique"
   ],
   "note": "IsFilled characterises the filled column, and uniquely; C27_validated ties it to validation for both flag values; C27_construct: filling = not filling on filled data for every indicator"
  },
  {
   "property": "C28",
   "status": "proved",
   "theorems": [
    "TTI.Props.C28_inner",
    "TTI.Props.C28_idempotent"
   ],
   "note": "same or fewer columns, lower-case required names (all documented ones are); C28_inner ties the model of inner indicators to validation"
  },
  {
   "property": "C29",
   "status": "proved",
   "theorems": [
    "TTI.Props.C29_fill_causal",
    "TTI.Props.C29_leading_gap_looks_ahead"
   ],
   "note": "first values known; witness for the leading gap"
  },
  {
   "property": "C30",
   "status": "proved",
   "theorems": [
    "TTI.Props.C30_accepts_iff",
    "TTI.Props.C30_precedence"
   ],
   "note": "acceptance iff and error precedence"
  },
  {
   "property": "C31",
   "status": "proved",
   "theorems": [
    "TTI.Props.C31_lower_case",
    "TTI.Props.C31_only_labels_change"
   ],
   "note": "C31_lower_case says which characters change"
  },
  {
   "property": "C32",
   "status": "proved",
   "theorems": [
    "TTI.Props.C32_not_enough_iff"
   ],
   "note": "for all 57 classes"
  },
  {
   "property": "C33",
   "status": "proved",
   "theorems": [
    "TTI.Props.C33_shape"
   ],
   "note": "for all 57 classes"
  },
  {
   "property": "C34",
   "status": "proved",
   "theorems": [
    "TTI.Props.C34_signal_total",
    "TTI.Props.C34_other_indicators"
   ],
   "note": "for all 57 classes and every cut; the exceptional set is exact"
  },
  {
   "property": "C35",
   "status": "proved",
   "theorems": [
    "TTI.Props.C35_parameters",
    "TTI.Props.C35_accepted_iff",
    "TTI.Props.C35_before_data",
    "TTI.Props.C35_fill"
   ],
   "note": "decision table of every constructor; checked before the data"
  },
  {
   "property": "C36",
   "status": "proved",
   "theorems": [
    "TTI.Props.C36_never_sells",
    "TTI.Props.C36_no_short"
   ],
   "note": "signal of every object and every cut, and the simulation result"
  },
  {
   "property": "C37",
   "status": "proved",
   "theorems": [
    "TTI.Props.C37_characterisation",
    "TTI.Props.C37_witness"
   ],
   "note": "exact characterisation and witness"
  },
  {
   "property": "C38",
   "status": "proved",
   "theorems": [
    "TTI.Props.C38_without_cloud",
    "TTI.Props.C38_witness"
   ],
   "note": "every object or cut with at most 26 rows; witness"
  },
  {
   "property": "C39",
   "status": "proved",
   "theorems": [
    "TTI.Props.C39_range"
   ],
   "note": "all 15 classes, all parameters and rows; assumes the square root and the %D weights are not negative"
  },
  {
   "property": "C40",
   "status": "proved",
   "theorems": [
    "TTI.Props.C40_average_inside",
    "TTI.Props.C40_average_inside_exact"
   ],
   "note": "For every class that computes an average of closes (simple, exponential, triangular, variable moving average and Wilder smoothing): every value is NaN or lies within half a unit of the fourth decimal of the closes seen so far, and exactly inside when the closes are multiples of 0.0001."
  },
  {
   "property": "C41",
   "status": "proved",
   "theorems": [
    "TTI.Props.C41_bollinger",
    "TTI.Props.C41_envelopes",
    "TTI.Props.C41_price_channel",
    "TTI.Props.C41_projection_bands",
    "TTI.Props.C41_fibonacci"
   ],
   "note": "One theorem per indicator, on the numbers the user reads from getTiData. Bollinger: for every accepted std_number. Envelopes needs closes not negative (the order flips otherwise)."
  },
  {
   "property": "C42",
   "status": "proved",
   "theorems": [
    "TTI.Props.C42_one_line",
    "TTI.Props.C42_slope",
    "TTI.Props.C42_end_value",
    "TTI.Props.C42_forecast",
    "TTI.Props.C42_not_enough",
    "TTI.Props.C42_on_a_line",
    "TTI.Props.C42_period_one"
   ],
   "note": "Stated against every competing line, with existence and uniqueness of the minimiser; indicator values are the coefficients rounded to 4 decimals. TimeSeriesForecast adds two rounded numbers and is therefore within 0.0001 of the next point of the line, exact for lines with 4 decimals. LinearRegressionSlope with period 1 is accepted and NaN everywhere (C42_period_one)."
  },
  {
   "property": "C43",
   "status": "proved",
   "theorems": [
    "TTI.Props.C43_negative_volume_index",
    "TTI.Props.C43_positive_volume_index",
    "TTI.Props.C43_on_balance_volume",
    "TTI.Props.C43_price_and_volume_trend",
    "TTI.Props.C43_unchanged",
    "TTI.Props.C43_positive"
   ],
   "note": "Closed forms as finite products and sums over the days; closes only need to be nonzero. Positivity is that of the unrounded product."
  },
  {
   "property": "C44",
   "status": "proved",
   "theorems": [
    "TTI.Props.C44_nonneg"
   ],
   "note": "assumes the square root is not negative; zero volume makes the Market Facilitation Index infinite"
  },
  {
   "property": "C45",
   "status": "proved",
   "theorems": [
    "TTI.Props.C45_values",
    "TTI.Props.C45_calls",
    "TTI.Props.C45_signal",
    "TTI.Props.C45_volume",
    "TTI.Props.C45_vertical_horizontal_filter_witness",
    "TTI.Props.C45_relative_strength_index_witness"
   ],
   "note": "Values and all API calls for 27 classes under a change of the price unit (the Vertical Horizontal Filter signal excepted, with a witness) and for the volume-free classes plus CMF, NVI, PVI and Volume ROC under a change of the volume unit. The Relative Volatility Index needs that the square root is homogeneous for the factor. RSI is shown not to be invariant."
  },
  {
   "property": "C46",
   "status": "proved",
   "theorems": [
    "TTI.Props.C46_run",
    "TTI.Props.C46_one_run",
    "TTI.Props.C46_acceleration",
    "TTI.Props.C46_stop_side",
    "TTI.Props.C46_reversal"
   ],
   "note": "The rules are a separate specification (Spec/Sar.lean) with closed forms for extreme price and acceleration factor; C46_run shows the indicator shows a run of them, C46_one_run that there is only one."
  },
  {
   "property": "C47",
   "status": "proved",
   "theorems": [
    "TTI.Props.C47_signal_table",
    "TTI.Props.C47_exclusive",
    "TTI.Props.C47_missing_value_holds",
    "TTI.Props.C47_rsi"
   ],
   "note": "all 57 classes follow the table Spec.rule; missing values for the threshold and crossover classes"
  },
  {
   "property": "C48",
   "status": "proved",
   "theorems": [
    "TTI.Props.C48_values",
    "TTI.Props.C48_calls",
    "TTI.Props.C48_signal",
    "TTI.Props.C48_average_true_range_witness",
    "TTI.Props.C48_typical_price_witness"
   ],
   "note": "Full statement. C48_values: same exception or same data and values under every reordering of columns; C48_calls: same results for every sequence of API calls including simulations (for ATR and TypicalPrice when the same required column comes first); witnesses for ATR and TypicalPrice. Sums are exact, so float summation order is idealised."
  },
  {
   "property": "C49",
   "status": "proved",
   "theorems": [
    "TTI.Props.C49_rmi_undefined",
    "TTI.Props.C49_rsi_hundred"
   ],
   "note": "Both halves for all inputs; an example shows why tiny rises with period 2 are excluded for RSI (rounding at every step)."
  },
  {
   "property": "C50",
   "status": "proved",
   "theorems": [
    "TTI.Props.C50_values",
    "TTI.Props.C50_detrended",
    "TTI.Props.C50_variable_average",
    "TTI.Props.C50_chande_undefined",
    "TTI.Props.C50_signal",
    "TTI.Props.C50_level_signal",
    "TTI.Props.C50_never_trades",
    "TTI.Props.C50_level_signal_witness"
   ],
   "note": "Values table, detrended oscillator, variable average and Chande exceptions, signals on the object and on all cuts, no position in any simulation. Uses sqrt 0 = 0 as assumption on the environment. Witness that level signals need K with at most 4 decimals."
  },
  {
   "property": "C51",
   "status": "proved",
   "theorems": [
    "TTI.Props.C51_sar_inside"
   ],
   "note": "For finite bars with low not above high."
  },
  {
   "property": "C52",
   "status": "proved",
   "theorems": [
    "TTI.Props.C52_rounding",
    "TTI.Props.C52_simple",
    "TTI.Props.C52_exponential",
    "TTI.Props.C52_triangular",
    "TTI.Props.C52_variable",
    "TTI.Props.C52_variable_lost",
    "TTI.Props.C52_double_exponential",
    "TTI.Props.C52_triple_exponential",
    "TTI.Props.C52_wilders_smoothing"
   ],
   "note": "Exact value of every average on every day, with exact arithmetic and one final rounding (C52_rounding says what rounding is). The time series average is the forecast of C42. C52_variable assumes that no nine days without a change occurred after day 22; C52_variable_lost covers the other case."
  },
  {
   "property": "C53",
   "status": "proved",
   "theorems": [
    "TTI.Props.C53_momentum",
    "TTI.Props.C53_price_rate_of_change",
    "TTI.Props.C53_volume_rate_of_change",
    "TTI.Props.C53_price_oscillator",
    "TTI.Props.C53_volume_oscillator",
    "TTI.Props.C53_macd",
    "TTI.Props.C53_performance"
   ],
   "note": "Exact value on every day. MACD: the two averages are rounded to four decimals before they are subtracted, as the code does."
  },
  {
   "property": "C54",
   "status": "proved",
   "theorems": [
    "TTI.Props.C54_standard_deviation",
    "TTI.Props.C54_bollinger",
    "TTI.Props.C54_envelopes",
    "TTI.Props.C54_price_channel",
    "TTI.Props.C54_fibonacci",
    "TTI.Props.C54_bollinger_infinite"
   ],
   "note": "Exact value on every day for every accepted std_number (a positive number or infinity); the square root is the function of the environment (an exact root is not rational), in C54_bollinger_infinite taken to be not negative."
  },
  {
   "property": "C55",
   "status": "proved",
   "theorems": [
    "TTI.Props.C55_williams_r",
    "TTI.Props.C55_stochastic_k",
    "TTI.Props.C55_stochastic_d",
    "TTI.Props.C55_stochastic_d_weighted",
    "TTI.Props.C55_stochastic_momentum",
    "TTI.Props.C55_chande",
    "TTI.Props.C55_intraday_momentum",
    "TTI.Props.C55_qstick",
    "TTI.Props.C55_vertical_horizontal",
    "TTI.Props.C55_stochastic_d_flat"
   ],
   "note": "Exact value on every day; %D has no value when a range in its window has height zero (C55_stochastic_d_flat). The weights of the exponential method are those of the environment (scipy), assumed to be d numbers with non-zero sum."
  },
  {
   "property": "C56",
   "status": "proved",
   "theorems": [
    "TTI.Props.C56_median_price",
    "TTI.Props.C56_weighted_close",
    "TTI.Props.C56_typical_price",
    "TTI.Props.C56_detrended",
    "TTI.Props.C56_ichimoku"
   ],
   "note": "The exact value of every column on every day, as a formula over the prices."
  },
  {
   "property": "C57",
   "status": "proved",
   "theorems": [
    "TTI.Props.C57_directional_any",
    "TTI.Props.C57_average_true_range",
    "TTI.Props.C57_directional_lines",
    "TTI.Props.C57_contrast",
    "TTI.Props.C57_directional"
   ],
   "note": "The exact value of every column on every day; DX, ADX and ADXR under the hypothesis that the sums they divide by are not zero, and in C57_directional_any without it when the closes lie inside the range of the day."
  },
  {
   "property": "C58",
   "status": "proved",
   "theorems": [
    "TTI.Props.C58_ultimate",
    "TTI.Props.C58_commodity_channel",
    "TTI.Props.C58_mass_index",
    "TTI.Props.C58_chaikin_volatility",
    "TTI.Props.C58_range_indicator",
    "TTI.Props.C58_swing_index",
    "TTI.Props.C58_mass_index_flat",
    "TTI.Props.C58_ultimate_any",
    "TTI.Props.C58_ultimate_still"
   ],
   "note": "Exact value on every day including zero divisors: C58_ultimate_any gives the float expression in all cases, C58_mass_index_flat the missing values."
  },
  {
   "property": "C59",
   "status": "proved",
   "theorems": [
    "TTI.Props.C59_klinger_any",
    "TTI.Props.C59_chaikin_oscillator_flat",
    "TTI.Props.C59_ease_of_movement_mean_idle",
    "TTI.Props.C59_market_facilitation",
    "TTI.Props.C59_ease_of_movement",
    "TTI.Props.C59_ease_of_movement_mean",
    "TTI.Props.C59_ease_of_movement_idle",
    "TTI.Props.C59_williams",
    "TTI.Props.C59_chaikin_money_flow",
    "TTI.Props.C59_chaikin_money_flow_flat",
    "TTI.Props.C59_accumulation_distribution",
    "TTI.Props.C59_accumulation_distribution_flat",
    "TTI.Props.C59_chaikin_oscillator",
    "TTI.Props.C59_klinger"
   ],
   "note": "The exact value of every column on every day, with separate theorems for flat days, days without volume, and averages of numbers with gaps (C59_klinger_any needs no hypothesis on the prices)."
  },
  {
   "property": "C60",
   "status": "proved",
   "theorems": [
    "TTI.Props.C60_relative_strength",
    "TTI.Props.C60_relative_momentum",
    "TTI.Props.C60_relative_volatility"
   ],
   "note": "The exact value on every day including zero divisors; RVI assumes that the square root is not negative."
  },
  {
   "property": "C61",
   "status": "proved",
   "theorems": [
    "TTI.Props.C61_projection_trigger_any",
    "TTI.Props.C61_one_line",
    "TTI.Props.C61_projection_bands",
    "TTI.Props.C61_projection_oscillator",
    "TTI.Props.C61_projection_trigger",
    "TTI.Props.C61_forecast_oscillator"
   ],
   "note": "The exact value on every day; the slopes are characterised by minimality of the squared error, and C61_one_line shows there is exactly one such line. C61_projection_trigger_any includes days on which the bands meet."
  },
  {
   "property": "C62",
   "status": "proved",
   "theorems": [
    "TTI.Props.C62_same_dates",
    "TTI.Props.C62_lines",
    "TTI.Props.C62_colours",
    "TTI.Props.C62_opacity",
    "TTI.Props.C62_area",
    "TTI.Props.C62_prices",
    "TTI.Props.C62_after_good_calls",
    "TTI.Props.C62_after_calls",
    "TTI.Props.C62_simulation"
   ],
   "note": "Graphs are modelled as the record of what is drawn, not positions or fonts. C62_after_calls excludes MedianPrice(period=1) and RangeIndicator, whose simulation can raise half way and cut the object (C19); C62_after_good_calls covers them when no simulation raised, and the other theorems cover the cut object (Used). That drawing itself has no effect on the object holds by construction of the model and is not claimed."
  },
  {
   "property": "C63",
   "status": "proved",
   "theorems": [
    "TTI.Props.C63_accepts",
    "TTI.Props.C63_lines",
    "TTI.Props.C63_areas"
   ],
   "note": "Areas with constant values, negative panel numbers or data of different lengths are outside the model."
  },
  {
   "property": "C64",
   "status": "proved",
   "theorems": [
    "TTI.Props.C64_values",
    "TTI.Props.C64_day",
    "TTI.Props.C64_on_balance_volume",
    "TTI.Props.C64_without_dimension_witness"
   ],
   "note": "C64_values: for every class in the table dimension (52 of 57), the outcomes on f and on scaled p v f are the same exception or frames with the same dates and columns and values that follow by the factor p^a v^b within the table error. C64_day: the same for two given objects. C64_on_balance_volume: exact. C64_without_dimension_witness: values of the other five classes. Bollinger, Standard Deviation and RVI assume root (p^2 x) = p root x."
  },
  {
   "property": "C65",
   "status": "proved",
   "theorems": [
    "TTI.Props.C65_bollinger_middle",
    "TTI.Props.C65_time_series",
    "TTI.Props.C65_macd",
    "TTI.Props.C65_momentum",
    "TTI.Props.C65_williams",
    "TTI.Props.C65_envelopes",
    "TTI.Props.C65_bollinger_width",
    "TTI.Props.C65_forecast",
    "TTI.Props.C65_forecast_oscillator",
    "TTI.Props.C65_projection",
    "TTI.Props.C65_ichimoku_channel",
    "TTI.Props.C65_prices",
    "TTI.Props.C65_performance"
   ],
   "note": "Each theorem takes two or three objects constructed from the same frame and says how the values getTiData returns on a day are related. C65_prices and C65_performance are for frames of numbers. The three statements about filled data (C65_forecast, C65_forecast_oscillator, C65_projection) do not speak about objects built with fill_missing_values=False, where the inner indicators fill on their own."
  },
  {
   "property": "C66",
   "status": "proved",
   "theorems": [
    "TTI.Props.C66_parameter",
    "TTI.Props.C66_raised",
    "TTI.Props.C66_text",
    "TTI.Props.C66_plain",
    "TTI.Props.C66_placeholder_false",
    "TTI.Props.C66_envelopes_false",
    "TTI.Props.C66_validation",
    "TTI.Props.C66_construct",
    "TTI.Props.C66_order",
    "TTI.Props.C66_long_period",
    "TTI.Props.C66_columns",
    "TTI.Props.C66_shortage",
    "TTI.Props.C66_true_range_false",
    "TTI.Props.C66_setup",
    "TTI.Props.C66_exposure",
    "TTI.Props.C66_close_values"
   ],
   "note": "All parameter checks of the 57 constructors, the validation of the data, the shortage of rows and the simulation arguments; the texts Python writes for floats and foreign objects are parameters. Oddities are theorems with suffix _false."
  },
  {
   "property": "C67",
   "status": "proved",
   "theorems": [
    "TTI.Props.C67_bind",
    "TTI.Props.C67_keyword_order",
    "TTI.Props.C67_by_position",
    "TTI.Props.C67_default_value",
    "TTI.Props.C67_documented",
    "TTI.Props.C67_call",
    "TTI.Props.C67_defaults",
    "TTI.Props.C67_rows_needed",
    "TTI.Props.C67_data_required",
    "TTI.Props.C67_fill_default",
    "TTI.Props.C67_mixed_up"
   ],
   "note": "Python binding of arguments over the 57 signatures; the table of docstring defaults is a separate specification."
  },
  {
   "property": "C68",
   "status": "proved",
   "theorems": [
    "TTI.Props.C68_enough",
    "TTI.Props.C68_least",
    "TTI.Props.C68_buildable",
    "TTI.Props.C68_memory",
    "TTI.Props.C68_old_data_irrelevant",
    "TTI.Props.C68_signal",
    "TTI.Props.C68_unbounded_obv",
    "TTI.Props.C68_unbounded_performance",
    "TTI.Props.C68_unlimited",
    "TTI.Props.C68_limited",
    "TTI.Props.C68_exact"
   ],
   "note": "The table of memories is Spec.memory (values) and Spec.signalMemory (signals). C68_least: a number of days determines the value of a column (Spec.Enough) if and only if it is at least the number of the table (Spec.leastDays: the memory, smaller for a few least parameters); of the square root it uses that it keeps 0, signs and being at least 1, of the weights of the weighted mean that there is one per day and that their sum is not 0 (Spec.FairEnv). C68_exact: a column has no limit in the table if and only if it can depend on data of any age (NeverForgets), for parameters with which an average is one (Spec.Averages: periods of 2 or more; range indicator with windows of 3 or more and less than a million periods) and except the column that repeats the performance target; the relative volatility index needs a square root that is positive for positive numbers. Numbers are exact in the model; pandas computes rolling sums by adding and subtracting, so that in floating point the last digits may depend on older data."
  },
  {
   "property": "C69",
   "status": "proved",
   "theorems": [
    "TTI.Props.C69_level_values",
    "TTI.Props.C69_level_calls",
    "TTI.Props.C69_unchanged_values",
    "TTI.Props.C69_unchanged_calls",
    "TTI.Props.C69_momentum_witness",
    "TTI.Props.C69_tie_witness",
    "TTI.Props.C69_missing_witness",
    "TTI.Props.C69_average_true_range_witness",
    "TTI.Props.C69_vertical_horizontal_filter_witness"
   ],
   "note": "Proved for all tables, amounts and call sequences: 15 classes move with the prices, 33 do not react to them. Witnesses show that the conditions are needed: Momentum (ratio), a tie in the rounding, a missing price taken for zero, and the signals of the Average True Range and the Vertical Horizontal Filter. The other eight ratio classes are outside the statement."
  },
  {
   "property": "C70",
   "status": "proved",
   "theorems": [
    "TTI.Props.C70_rising",
    "TTI.Props.C70_double_exponential_witness",
    "TTI.Props.C70_regression_witness"
   ],
   "note": "Prices are numbers or missing (no infinities); the tables have the same gaps."
  },
  {
   "property": "C71",
   "status": "proved",
   "theorems": [
    "TTI.Props.C71_amplification",
    "TTI.Props.C71_momentum_witness",
    "TTI.Props.C71_on_balance_volume_witness"
   ],
   "note": "Prices are numbers or missing (no infinities); the tables have the same gaps. The bounds hold for exact arithmetic."
  },
  {
   "property": "C72",
   "status": "proved",
   "theorems": [
    "TTI.Props.C72_values",
    "TTI.Props.C72_parabolic_sar",
    "TTI.Props.C72_momentum_witness",
    "TTI.Props.C72_relative_momentum_witness",
    "TTI.Props.C72_parabolic_sar_witness"
   ],
   "note": "For 43 classes, and the Parabolic SAR if the first two days show one direction. Whether construction succeeds is preserved; which exception is raised may change, because high and low are checked in another order of the user columns."
  },
  {
   "property": "C73",
   "status": "proved",
   "theorems": [
    "TTI.Props.C73_turns",
    "TTI.Props.C73_stays",
    "TTI.Props.C73_bands_in_order",
    "TTI.Props.C73_parabolic_sar",
    "TTI.Props.C73_moving_average_witness"
   ],
   "note": "For 30 classes the signal of a new object turns, for 4 it stays; the Parabolic SAR with the same condition as in C72. Not claimed: signals after a simulation call."
  },
  {
   "property": "C74",
   "status": "proved",
   "theorems": [
    "TTI.Props.C74_construct",
    "TTI.Props.C74_calls",
    "TTI.Props.C74_simulation",
    "TTI.Props.C74_order_witness"
   ],
   "note": "construction, call sequences and simulations on other dates; the map of the dates need be strictly increasing on the dates in use only; witness that the order matters"
  },
  {
   "property": "C75",
   "status": "proved",
   "theorems": [
    "TTI.Props.C75_simulation",
    "TTI.Props.C75_statistics",
    "TTI.Props.C75_currency"
   ],
   "note": "any object and any close prices; C75_currency also rebuilds the object on converted prices, for the classes of C45 whose values are free of the price unit"
  },
  {
   "property": "C76",
   "status": "proved",
   "theorems": [
    "TTI.Props.C76_missing",
    "TTI.Props.C76_all_missing",
    "TTI.Props.C76_signal",
    "TTI.Props.C76_ichimoku_witness",
    "TTI.Props.C76_simulation",
    "TTI.Props.C76_numbers",
    "TTI.Props.C76_numbers_ordinary"
   ],
   "note": "C76_missing: any data, any class and column. C76_numbers / C76_numbers_ordinary: the number of days is exact for the listed columns; for the columns that divide by moves of the price (Chande, intraday momentum, RSI, RMI, RVI, VHF, CCI, DX/ADX/ADXR, variable average, projection oscillator, weighted %D) the day of the first number depends on the data, see C52-C61. C76_signal and C76_simulation: no buy or sell before firstSignal rows. C76_ichimoku_witness: a buy without a cloud."
  },
  {
   "property": "C77",
   "status": "proved",
   "theorems": [
    "TTI.Props.C77_channel_bound",
    "TTI.Props.C77_channel_jump",
    "TTI.Props.C77_channel_hold",
    "TTI.Props.C77_channel_never_trades",
    "TTI.Props.C77_channel_witness",
    "TTI.Props.C77_one_day",
    "TTI.Props.C77_one_day_hold",
    "TTI.Props.C77_one_day_never_trades",
    "TTI.Props.C77_one_day_witness",
    "TTI.Props.C77_one_day_deviation",
    "TTI.Props.C77_one_day_channel",
    "TTI.Props.C77_one_day_filter",
    "TTI.Props.C77_one_day_momentum",
    "TTI.Props.C77_one_day_intraday"
   ],
   "note": "Bound and jump value of the commodity channel index, hold with periods up to 3 on the object and on every day of a simulation, no trades; averages and Bollinger bands (finite factor) of one day equal the rounded close, hold and no trades for closes with at most four decimals (square root of 0 assumed to be 0), witness with five decimals; values of five other classes with period 1."
  },
  {
   "property": "C78",
   "status": "proved",
   "theorems": [
    "TTI.Props.C78_crossing",
    "TTI.Props.C78_alternate",
    "TTI.Props.C78_balance",
    "TTI.Props.C78_meeting",
    "TTI.Props.C78_thresholds_repeat"
   ],
   "note": "Crossing days characterised exactly for 15 classes (distinct dates); alternation and balance of the counts follow while the lines are apart; ties and thresholds refuted by witnesses."
  },
  {
   "property": "C79",
   "status": "proved",
   "theorems": [
    "TTI.Props.C79_bollinger_bands",
    "TTI.Props.C79_bollinger",
    "TTI.Props.C79_envelopes_bands",
    "TTI.Props.C79_envelopes",
    "TTI.Props.C79_price_channel_bands",
    "TTI.Props.C79_price_channel",
    "TTI.Props.C79_performance",
    "TTI.Props.C79_longer_envelopes_differ"
   ],
   "note": "Containment of the bands and of the signals for Bollinger bands, envelopes, price channel and performance; signals also counted; refuted by a witness for the period of the envelopes."
  },
  {
   "property": "C80",
   "status": "proved",
   "theorems": [
    "TTI.Props.C80_superposition",
    "TTI.Props.C80_longs_and_shorts",
    "TTI.Props.C80_fewer_signals",
    "TTI.Props.C80_no_limit_earns_most",
    "TTI.Props.C80_limit_interferes",
    "TTI.Props.C80_simulation_fewer",
    "TTI.Props.C80_simulation_no_limit"
   ],
   "note": "Additivity over any division of the signals; fewer signals and any limit never earn more than all signals without a limit, for the simulator and for getTiSimulation; refuted with a limit."
  },
  {
   "property": "C81",
   "status": "proved",
   "theorems": [
    "TTI.Props.C81_all_simulations",
    "TTI.Props.C81_stops_at_range_indicator",
    "TTI.Props.C81_runs",
    "TTI.Props.C81_whole_number",
    "TTI.Props.C81_one_decimal",
    "TTI.Props.C81_more_decimals",
    "TTI.Props.C81_text",
    "TTI.Props.C81_single_simulation",
    "TTI.Props.C81_decimals_refused",
    "TTI.Props.C81_close_label",
    "TTI.Props.C81_last_value_counts",
    "TTI.Props.C81_bad_argument",
    "TTI.Props.C81_invalid_name"
   ],
   "note": "Every run of run_all_simulation.py equals the run alone on the table as read; the script stops only at RangeIndicator (witness with 55 rows); the runs made; how run_single_simulation.py reads values; decimals refused; KeyError without the label close. Not modelled: reading the file, printing, timing, saving graphs."
  },
  {
   "property": "C82",
   "status": "proved",
   "theorems": [
    "TTI.Props.C82_within_limit",
    "TTI.Props.C82_earnings",
    "TTI.Props.C82_exposure",
    "TTI.Props.C82_portfolio",
    "TTI.Props.C82_balance",
    "TTI.Props.C82_without_limit",
    "TTI.Props.C82_double_earnings",
    "TTI.Props.C82_apart",
    "TTI.Props.C82_negative_earnings",
    "TTI.Props.C82_limit_exceeded",
    "TTI.Props.C82_limit_short",
    "TTI.Props.C82_short_kept_open"
   ],
   "note": "Limit in rounded arithmetic; error bounds for earnings, exposure, portfolio value, balance; comparison with the exact simulation without a limit; float64 (53 digits, half to even, unbounded exponent) is an instance; witnesses in float64. np.sum adds in the order of numpy (one by one below 8 values, eight running sums up to 128, halves above); overflow and underflow excluded; numbers of positions are exact."
  },
  {
   "property": "C83",
   "status": "proved",
   "theorems": [
    "TTI.Props.C83_same",
    "TTI.Props.C83_repeated",
    "TTI.Props.C83_own_date",
    "TTI.Props.C83_look_ahead"
   ],
   "note": "Equality of the constructions for distinct dates (all classes); value at the last row of the date for the five classes that write every value by date; witness of look-ahead. Aligned writes with repeated dates (OBV, WAD, RMI, RVI, RI, DMI) raise in pandas unless the labels agree, and RSI/DMI mix both kinds of write: these are covered for distinct dates only."
  },
  {
   "property": "C84",
   "status": "proved",
   "theorems": [
    "TTI.Props.C84_class",
    "TTI.Props.C84_simulation",
    "TTI.Props.C84_own_row",
    "TTI.Props.C84_round_left_out",
    "TTI.Props.C84_repeated_round",
    "TTI.Props.C84_repeated_witness",
    "TTI.Props.C84_left_out_witness"
   ],
   "note": "Refinement of the list model by the array model, for every arithmetic; equality of getTiSimulation; frame property of a round; repeated and missing rounds with witnesses. Row numbers are natural numbers; codes of the array are natural numbers."
  },
  {
   "property": "C85",
   "status": "proved",
   "theorems": [
    "TTI.Props.C85_double",
    "TTI.Props.C85_exponential",
    "TTI.Props.C85_double_exponential",
    "TTI.Props.C85_triple_exponential",
    "TTI.Props.C85_wilders_smoothing",
    "TTI.Props.C85_macd",
    "TTI.Props.C85_median_price",
    "TTI.Props.C85_typical_price",
    "TTI.Props.C85_weighted_close",
    "TTI.Props.C85_price_channel",
    "TTI.Props.C85_ichimoku",
    "TTI.Props.C85_fibonacci",
    "TTI.Props.C85_momentum",
    "TTI.Props.C85_price_rate_of_change",
    "TTI.Props.C85_volume_rate_of_change",
    "TTI.Props.C85_williams_r",
    "TTI.Props.C85_performance",
    "TTI.Props.C85_market_facilitation"
   ],
   "note": "Absolute bounds for averages, prices, ranges and levels, relative bounds for rates (denominators positive). Every operation rounded separately; overflow and underflow excluded."
  },
  {
   "property": "C86",
   "status": "proved",
   "theorems": [
    "TTI.Props.C86_simple",
    "TTI.Props.C86_triangular",
    "TTI.Props.C86_envelopes",
    "TTI.Props.C86_volume_oscillator",
    "TTI.Props.C86_qstick",
    "TTI.Props.C86_detrended"
   ],
   "note": "The loops of pandas 2.3 operation by operation; invariant over all rows. The bound grows with the number of rows of the table."
  },
  {
   "property": "C87",
   "status": "proved",
   "theorems": [
    "TTI.Props.C87_simple",
    "TTI.Props.C87_exponential",
    "TTI.Props.C87_triangular",
    "TTI.Props.C87_double_exponential",
    "TTI.Props.C87_triple_exponential",
    "TTI.Props.C87_wilders_smoothing",
    "TTI.Props.C87_envelopes",
    "TTI.Props.C87_price_channel",
    "TTI.Props.C87_double"
   ],
   "note": "Buy, sell and hold cases of each class with a margin on each comparison; numeric corollary for float64."
  },
  {
   "property": "C88",
   "status": "proved",
   "theorems": [
    "TTI.Props.C88_exact",
    "TTI.Props.C88_window_mean",
    "TTI.Props.C88_window_sum",
    "TTI.Props.C88_window_std"
   ],
   "note": "Equality of constructors; the square root is assumed to satisfy sqrt 0 = 0 (without it pandas reports 0 for equal values where the formula reports sqrt 0). Classes that the float model does not cover (regression lines and projections, time series average, weighted stochastic) are the exact model in both."
  },
  {
   "property": "C89",
   "status": "proved",
   "theorems": [
    "TTI.Props.C89_not_enough_iff",
    "TTI.Props.C89_same_exceptions",
    "TTI.Props.C89_shape",
    "TTI.Props.C89_row_order",
    "TTI.Props.C89_signal_total",
    "TTI.Props.C89_signal_table",
    "TTI.Props.C89_every_call_sequence",
    "TTI.Props.C89_cut_is_live",
    "TTI.Props.C89_no_look_ahead"
   ],
   "note": "Law-free: holds for float64, other precisions and wrong roundings. Calculations made in signal methods are exact in the model."
  },
  {
   "property": "C90",
   "status": "proved",
   "theorems": [
    "TTI.Props.C90_window_mean",
    "TTI.Props.C90_window_sum",
    "TTI.Props.C90_mean_sign",
    "TTI.Props.C90_simple",
    "TTI.Props.C90_triangular",
    "TTI.Props.C90_envelopes",
    "TTI.Props.C90_volume_oscillator",
    "TTI.Props.C90_price_oscillator",
    "TTI.Props.C90_detrended",
    "TTI.Props.C90_macd",
    "TTI.Props.C90_qstick",
    "TTI.Props.C90_cmo",
    "TTI.Props.C90_imi",
    "TTI.Props.C90_vhf",
    "TTI.Props.C90_williams",
    "TTI.Props.C90_stochastic",
    "TTI.Props.C90_cci"
   ],
   "note": "Only law used: fl 0 = 0 (not even that for the averages). Depends on the equal-values shortcut of pandas >= 1.5, which the model follows."
  },
  {
   "property": "C91",
   "status": "proved",
   "theorems": [
    "TTI.Props.C91_four_decimals",
    "TTI.Props.C91_report",
    "TTI.Props.C91_correct",
    "TTI.Props.C91_median_price",
    "TTI.Props.C91_weighted_close",
    "TTI.Props.C91_simple",
    "TTI.Props.C91_typical_price",
    "TTI.Props.C91_price_channel",
    "TTI.Props.C91_on_balance_volume",
    "TTI.Props.C91_on_balance_volume_double"
   ],
   "note": "numpy's round is modelled as in C85 (scale, rint, divide). The classes outside the float64 model are excluded by ReportsFour."
  },
  {
   "property": "C92",
   "status": "proved",
   "theorems": [
    "TTI.Props.C92_williams",
    "TTI.Props.C92_stochastic",
    "TTI.Props.C92_strength",
    "TTI.Props.C92_momentum",
    "TTI.Props.C92_swing",
    "TTI.Props.C92_directional",
    "TTI.Props.C92_range",
    "TTI.Props.C92_williams_extreme",
    "TTI.Props.C92_stochastic_extreme",
    "TTI.Props.C92_intraday_witness"
   ],
   "note": "Overflow and underflow are outside the model (exponents of any size). +DI and -DI, the stochastic lines with slowing, CMO, IMI and the money flow index use pandas' running sums and are not covered; for IMI a counterexample is proved."
  },
  {
   "property": "C93",
   "status": "proved",
   "theorems": [
    "TTI.Props.C93_between",
    "TTI.Props.C93_simple",
    "TTI.Props.C93_exponential",
    "TTI.Props.C93_wilders_smoothing",
    "TTI.Props.C93_bar",
    "TTI.Props.C93_five_decimals_witness"
   ],
   "note": "Prices enter as the float next to a number with four decimals."
  },
  {
   "property": "C94",
   "status": "proved",
   "theorems": [
    "TTI.Props.C94_own_frame_each",
    "TTI.Props.C94_built",
    "TTI.Props.C94_refines",
    "TTI.Props.C94_stable",
    "TTI.Props.C94_write",
    "TTI.Props.C94_write_cell",
    "TTI.Props.C94_detached",
    "TTI.Props.C94_rejected",
    "TTI.Props.C94_witness",
    "TTI.Props.C94_write_signal_witness",
    "TTI.Props.C94_own_frames"
   ],
   "note": "C94_detached is now stated for accepted arguments (the AcceptsSim of C18), C94_rejected for all others."
  },
  {
   "property": "C95",
   "status": "proved",
   "theorems": [
    "TTI.Props.C95_fed_back",
    "TTI.Props.C95_not_close_values",
    "TTI.Props.C95_labels_changed",
    "TTI.Props.C95_harmless",
    "TTI.Props.C95_performance",
    "TTI.Props.C95_stochastic_signal_lost",
    "TTI.Props.C95_stochastic_witness"
   ],
   "note": "The exception of the Stochastic Oscillator is KeyError in the library; the model only says that it raises."
  },
  {
   "property": "C96",
   "status": "proved",
   "theorems": [
    "TTI.Props.C96_deviation",
    "TTI.Props.C96_bands",
    "TTI.Props.C96_flat_deviation",
    "TTI.Props.C96_flat_bands",
    "TTI.Props.C96_volatility",
    "TTI.Props.C96_zero_witness",
    "TTI.Props.C96_large_witness",
    "TTI.Props.C96_signal_witness"
   ],
   "note": "The square root is a parameter; float64's is correctly rounded, so it is fl(sqrt x). In the witnesses it is cut off after 20 decimals, which does not change the reported four."
  },
  {
   "property": "C97",
   "status": "proved",
   "theorems": [
    "TTI.Props.C97_exact",
    "TTI.Props.C97_signal_total",
    "TTI.Props.C97_signal_exact",
    "TTI.Props.C97_every_call_sequence",
    "TTI.Props.C97_no_look_ahead",
    "TTI.Props.C97_backtest",
    "TTI.Props.C97_within_limit",
    "TTI.Props.C97_earnings",
    "TTI.Props.C97_rounding_decides"
   ],
   "note": "np.sum of the simulation adds in the order of numpy, as in C82; overflow and underflow are excluded. Projection bands, forecast classes and scipy weights keep the exact definitions of their values."
  },
  {
   "property": "C98",
   "status": "proved",
   "theorems": [
    "TTI.Props.C98_exponential",
    "TTI.Props.C98_exponential_fifths",
    "TTI.Props.C98_double_exponential",
    "TTI.Props.C98_triple_exponential",
    "TTI.Props.C98_wilders_smoothing",
    "TTI.Props.C98_average_true_range",
    "TTI.Props.C98_macd",
    "TTI.Props.C98_cut",
    "TTI.Props.C98_exponential_cut",
    "TTI.Props.C98_exponential_signal",
    "TTI.Props.C98_never_forgotten"
   ],
   "note": "Exact arithmetic. RSI, RMI, RVI, the directional lines, Mass Index, Chaikin and Klinger are not covered: they divide by averages or round inside the recursion."
  },
  {
   "property": "C99",
   "status": "proved",
   "theorems": [
    "TTI.Props.C99_on_balance_volume_loses_any_amount",
    "TTI.Props.C99_on_balance_volume_loses_the_limit",
    "TTI.Props.C99_open_positions_stand_at_no_profit",
    "TTI.Props.C99_profit_at_most_one_move",
    "TTI.Props.C99_gain_of_a_day",
    "TTI.Props.C99_earnings_bounded_by_the_path",
    "TTI.Props.C99_loss_at_most_exposure",
    "TTI.Props.C99_longs_lose_at_most_exposure",
    "TTI.Props.C99_never_sells",
    "TTI.Props.C99_short_loss_unbounded"
   ],
   "note": "Exact arithmetic, finite closes and factor."
  },
  {
   "property": "C100",
   "status": "proved",
   "theorems": [
    "TTI.Props.C100_raises_iff",
    "TTI.Props.C100_filled",
    "TTI.Props.C100_known_values_stay",
    "TTI.Props.C100_idempotent",
    "TTI.Props.C100_row_order_irrelevant",
    "TTI.Props.C100_before_construction",
    "TTI.Props.C100_before_simulation",
    "TTI.Props.C100_nothing_to_fill"
   ],
   "note": "Same simplifications as C27 (dates that can be ordered, stable order for equal dates). Non-numeric cells only count as missing or not."
  },
  {
   "property": "C101",
   "status": "proved",
   "theorems": [
    "TTI.Props.C101_averages",
    "TTI.Props.C101_price_oscillator",
    "TTI.Props.C101_macd",
    "TTI.Props.C101_momentum",
    "TTI.Props.C101_rate_of_change",
    "TTI.Props.C101_performance",
    "TTI.Props.C101_chande",
    "TTI.Props.C101_relative_strength",
    "TTI.Props.C101_relative_momentum",
    "TTI.Props.C101_slope",
    "TTI.Props.C101_on_balance_volume",
    "TTI.Props.C101_price_and_volume_trend",
    "TTI.Props.C101_volume_indices",
    "TTI.Props.C101_williams",
    "TTI.Props.C101_directional",
    "TTI.Props.C101_ichimoku",
    "TTI.Props.C101_parabolic_sar"
   ],
   "note": "Exact arithmetic, like the closed forms it uses. The parabolic SAR is about runs whose first two highs decide the first position."
  },
  {
   "property": "C102",
   "status": "proved",
   "theorems": [
    "TTI.Props.C102_momentum_classes_hold",
    "TTI.Props.C102_price_oscillator_holds",
    "TTI.Props.C102_ichimoku_holds",
    "TTI.Props.C102_directional_holds",
    "TTI.Props.C102_averages_hold",
    "TTI.Props.C102_parabolic_sar_holds",
    "TTI.Props.C102_volume_indices_hold",
    "TTI.Props.C102_volume_trends",
    "TTI.Props.C102_on_balance_volume_against_the_market",
    "TTI.Props.C102_retracement_and_money_flow",
    "TTI.Props.C102_standard_deviation",
    "TTI.Props.C102_bands",
    "TTI.Props.C102_commodity_channel",
    "TTI.Props.C102_chaikin_oscillator",
    "TTI.Props.C102_nothing_earned_against_the_market",
    "TTI.Props.C102_contrarians_earn_nothing",
    "TTI.Props.C102_momentum_classes_never_trade"
   ],
   "note": "Exact arithmetic. Momentum, rate of change, MACD, regression indicator and the other classes not named can trade in such markets; nothing is claimed about them."
  },
  {
   "property": "C103",
   "status": "proved",
   "theorems": [
    "TTI.Props.C103_on_balance_volume",
    "TTI.Props.C103_price_and_volume_trend",
    "TTI.Props.C103_negative_volume_index",
    "TTI.Props.C103_positive_volume_index",
    "TTI.Props.C103_performance",
    "TTI.Props.C103_accumulation_distribution",
    "TTI.Props.C103_obv_signal",
    "TTI.Props.C103_pvt_signal",
    "TTI.Props.C103_adl_signal_depends",
    "TTI.Props.C103_pvt_signal_depends"
   ],
   "note": "Exact arithmetic. The constant is not given in the statement except for performance; it is the difference of the totals, or the ratio of the products, up to the first common day."
  },
  {
   "property": "C104",
   "status": "proved",
   "theorems": [
    "TTI.Props.C104_missing",
    "TTI.Props.C104_elsewhere",
    "TTI.Props.C104_counts_as_zero",
    "TTI.Props.C104_filled_anyway",
    "TTI.Props.C104_exponential",
    "TTI.Props.C104_exponential_stays",
    "TTI.Props.C104_macd",
    "TTI.Props.C104_false_signal"
   ],
   "note": "Where Spec.blanks lists no day nothing is claimed by (1). Infinite entries are treated by ewm as missing, as pandas does."
  },
  {
   "property": "C105",
   "status": "proved",
   "theorems": [
    "TTI.Props.C105_adds",
    "TTI.Props.C105_at_most",
    "TTI.Props.C105_at_least",
    "TTI.Props.C105_split_on_balance_volume",
    "TTI.Props.C105_split_price_and_volume_trend",
    "TTI.Props.C105_split_volume_oscillator",
    "TTI.Props.C105_split_accumulation_distribution",
    "TTI.Props.C105_split_chaikin_oscillator",
    "TTI.Props.C105_split_klinger"
   ],
   "note": "C105_adds is (1), C105_at_most and C105_at_least are (2), C105_split_* are (3). The error e of the square root is a hypothesis (RootWithin), an example is wholeRootEnv. For the Klinger oscillator the range totals must not be 0, for the price and volume trend no close may be 0."
  },
  {
   "property": "C106",
   "status": "proved",
   "theorems": [
    "TTI.Props.C106_unmoved",
    "TTI.Props.C106_detrended",
    "TTI.Props.C106_chaikin_goes_both_ways",
    "TTI.Props.C106_typical_price",
    "TTI.Props.C106_follows",
    "TTI.Props.C106_opposes",
    "TTI.Props.C106_forecast_goes_both_ways",
    "TTI.Props.C106_standard_deviation",
    "TTI.Props.C106_fibonacci",
    "TTI.Props.C106_klinger",
    "TTI.Props.C106_goes_both_ways",
    "TTI.Props.C106_median_price",
    "TTI.Props.C106_mass_index"
   ],
   "note": "C106_follows and C106_opposes are the two directions for the classes of the table; C106_standard_deviation (for every monotone square root), C106_fibonacci, C106_klinger, C106_mass_index and C106_detrended add five classes towards sell, C106_median_price and (close not the first required column) C106_typical_price two towards buy; C106_forecast_goes_both_ways, C106_goes_both_ways and C106_chaikin_goes_both_ways are the classes without a direction, with two concrete pairs of tables each; C106_unmoved are the classes the last close has no influence on; last_* are the single classes. No claim is made for the other classes: projection oscillator, MACD, Bollinger bands, time series and variable moving average, and typical price on tables with the close first."
  },
  {
   "property": "C107",
   "status": "proved",
   "theorems": [
    "TTI.Props.C107_errors",
    "TTI.Props.C107_williams_r_jumps",
    "TTI.Props.C107_chande_jumps",
    "TTI.Props.C107_on_balance_volume_jumps",
    "TTI.Props.C107_stochastic_jumps",
    "TTI.Props.C107_chaikin_money_flow_jumps",
    "TTI.Props.C107_accumulation_distribution_jumps",
    "TTI.Props.C107_forecast_attained",
    "TTI.Props.C107_williams_accumulation_jumps"
   ],
   "note": "C107_errors is the table of factors; C107_forecast_attained shows that the factor of the forecast is least; the theorems ending in _jumps are the columns without a factor. No claim is made for the columns outside the table and these (other quotients, deviations, other running totals)."
  },
  {
   "property": "C108",
   "status": "proved",
   "theorems": [
    "TTI.Props.C108_ties",
    "TTI.Props.C108_same_simulation"
   ],
   "note": "C108_ties is the signal of one day, C108_same_simulation the whole simulation. The classes without an entry in `compares` are those that need quotients, deviations or volumes, which have no factor in C107."
  },
  {
   "property": "C109",
   "status": "proved",
   "theorems": [
    "TTI.Props.C109_simulation",
    "TTI.Props.C109_statistics",
    "TTI.Props.C109_on_balance_volume",
    "TTI.Props.C109_price_and_volume_trend",
    "TTI.Props.C109_accumulation_distribution",
    "TTI.Props.C109_accumulation_distribution_flat",
    "TTI.Props.C109_williams",
    "TTI.Props.C109_performance",
    "TTI.Props.C109_volume_indices_change"
   ],
   "note": "C109_simulation covers the simulation for all objects and signals; the value claims are one theorem per indicator. Averages and oscillators over a number of days count idle days as days; nothing is claimed for them."
  },
  {
   "property": "C110",
   "status": "proved",
   "theorems": [
    "TTI.Props.C110_no_limit",
    "TTI.Props.C110_no_sells",
    "TTI.Props.C110_no_buys",
    "TTI.Props.C110_limit_interferes"
   ],
   "note": "C110_no_limit, C110_no_buys and C110_no_sells are about the data and statistics that getTiSimulation returns, for exact arithmetic (C82 bounds the float64 ledger). C110_limit_interferes is a run of the simulator with given signals."
  }
 ]
}