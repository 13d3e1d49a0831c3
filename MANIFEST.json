{
 "claims": [
  {
   "property": "C01",
   "status": "proved",
   "theorems": [
    "Anticipy.C01_composition",
    "Anticipy.C01_slices"
   ],
   "note": "induction over expression trees; leaves must return one value per sample (or a constant) or raise"
  },
  {
   "property": "C02",
   "status": "proved",
   "theorems": [
    "Anticipy.C02_null_neutral",
    "Anticipy.C02_null_value"
   ],
   "note": "structural equality of the resulting model"
  },
  {
   "property": "C03",
   "status": "proved",
   "theorems": [
    "Anticipy.C03_compose",
    "Anticipy.C03_guess_in_bounds"
   ],
   "note": "for all expression trees and random streams"
  },
  {
   "property": "C04",
   "status": "proved",
   "theorems": [
    "Anticipy.C04_assoc",
    "Anticipy.C04_comm"
   ],
   "note": ""
  },
  {
   "property": "C05",
   "status": "partial",
   "theorems": [
    "Anticipy.C05_cache_transparent_partial",
    "Anticipy.C05_builtin_partial",
    "Anticipy.C05_counterexample"
   ],
   "note": "holds when one cache name means one feature; the unrestricted claim is refuted: two dummies with one name share a mask"
  },
  {
   "property": "C06",
   "status": "partial",
   "theorems": [
    "Anticipy.C06_validate_composite",
    "Anticipy.C06_reject_partial",
    "Anticipy.C06_counterexample_return_false"
   ],
   "note": "composition law proved for every set order; the documented \"returns False\" way of rejecting is refuted"
  },
  {
   "property": "C07",
   "status": "partial",
   "theorems": [
    "Anticipy.C07_dummy_dates_partial",
    "Anticipy.C07_dummy_numeric_partial",
    "Anticipy.C07_dummy_function_partial",
    "Anticipy.C07_any_partial",
    "Anticipy.C07_refused_partial",
    "Anticipy.C07_counterexample_mult"
   ],
   "note": "additive contribution and neutral factor proved; the documented multiplicative factor A on flagged dates is refuted (code gives A+1)"
  },
  {
   "property": "C08",
   "status": "proved",
   "theorems": [
    "Anticipy.C08_weekday",
    "Anticipy.C08_weekday_calendar",
    "Anticipy.C08_month",
    "Anticipy.C08_free_levels"
   ],
   "note": "against an independent day-by-day calendar"
  },
  {
   "property": "C09",
   "status": "proved",
   "theorems": [
    "Anticipy.C09_step",
    "Anticipy.C09_ramp",
    "Anticipy.C09_linear_ramp",
    "Anticipy.C09_two_steps"
   ],
   "note": ""
  },
  {
   "property": "C10",
   "status": "proved",
   "theorems": [
    "Anticipy.C10_nondecreasing"
   ],
   "note": ""
  },
  {
   "property": "C100",
   "status": "partial",
   "theorems": [
    "Anticipy.C100_step_partial",
    "Anticipy.C100_step_date",
    "Anticipy.C100_sigmoid_step_partial",
    "Anticipy.C100_spike_partial",
    "Anticipy.C100_spike_date",
    "Anticipy.C100_two_steps_partial",
    "Anticipy.C100_ramp_partial",
    "Anticipy.C100_short",
    "Anticipy.C100_month_partial",
    "Anticipy.C100_counterexample_month",
    "Anticipy.C100_counterexample",
    "Anticipy.C100_counterexample_down",
    "Anticipy.C100_counterexample_spike",
    "Anticipy.C100_counterexample_ramp"
   ],
   "note": "the exact starting values of each model in terms of the first of the largest changes; position and direction are wrong in the cases of the counterexamples"
  },
  {
   "property": "C101",
   "status": "partial",
   "theorems": [
    "Anticipy.C101_dates_partial",
    "Anticipy.C101_counterexample_close",
    "Anticipy.C101_counterexample_working_days",
    "Anticipy.C101_counterexample_second_days",
    "Anticipy.C101_counterexample_mid_month",
    "Anticipy.C101_counterexample_two_hours"
   ],
   "note": "for every series of every table whose dates are on an hourly, daily, weekly, month-start or yearly grid; month ends: see C21; refuted for working days, every second day, mid-month dates, two-hourly data and, for all runs, for samples less than an hour apart"
  },
  {
   "property": "C102",
   "status": "partial",
   "theorems": [
    "Anticipy.C102_fit_partial",
    "Anticipy.C102_run_partial",
    "Anticipy.C102_table_partial",
    "Anticipy.C102_component_partial",
    "Anticipy.C102_trends_partial",
    "Anticipy.neutral_trend",
    "Anticipy.neutral_dated",
    "Anticipy.neutral_compose",
    "Anticipy.neutral_fourier",
    "Anticipy.C102_counterexample"
   ],
   "note": "for all fits, runs and tables with an optimiser that finds the minimum; containment proved for trends and for sums and products with components that can be neutral; refuted for the product with a yearly Fourier season"
  },
  {
   "property": "C103",
   "status": "partial",
   "theorems": [
    "Anticipy.C103_trends",
    "Anticipy.C103_powers_partial",
    "Anticipy.C103_growth",
    "Anticipy.C103_decay_partial",
    "Anticipy.C103_counterexample",
    "Anticipy.C103_counterexample_dummy"
   ],
   "note": "for all parameters and all x; refuted for the decay model (three parameters instead of four), the working-day model (one instead of two), powers of negative numbers and dummies as factors"
  },
  {
   "property": "C104",
   "status": "partial",
   "theorems": [
    "Anticipy.C104_fitted_partial",
    "Anticipy.C104_line_partial",
    "Anticipy.C104_level_partial",
    "Anticipy.C104_weekly_partial",
    "Anticipy.C104_counterexample"
   ],
   "note": "tables with all rows repeated equally often, any order, outlier detection off (it raises for repeated dates); refuted for a single sample given twice: 0, 0, 3 has level 1, with the 3 given twice level 3/5, with every exact solver"
  },
  {
   "property": "C105",
   "status": "partial",
   "theorems": [
    "Anticipy.C105_widening_partial",
    "Anticipy.C105_future_partial",
    "Anticipy.C105_past",
    "Anticipy.C105_period_partial",
    "Anticipy.C105_counterexample"
   ],
   "note": "tables of one source on a daily, weekly, monthly or yearly grid; C105_future_partial for any table with a known number of samples per period; refuted for an hourly series with daily and a quarterly series with yearly widening"
  },
  {
   "property": "C106",
   "status": "proved",
   "theorems": [
    "Anticipy.C106_follows",
    "Anticipy.C106_total"
   ],
   "note": "for an optimiser that finds the minimum; search for outliers off"
  },
  {
   "property": "C107",
   "status": "partial",
   "theorems": [
    "Anticipy.C107_weights_partial",
    "Anticipy.C107_spikes_partial",
    "Anticipy.C107_table_partial",
    "Anticipy.C107_counterexample",
    "Anticipy.C107_counterexample_null"
   ],
   "note": "one sample per date (and per x), all weights known and not negative, composition given (automatic choice: C65); refuted for several samples on one date (naive forecast repeats the value of a sample with weight 0) and for null weights (prediction intervals)"
  },
  {
   "property": "C108",
   "status": "partial",
   "theorems": [
    "Anticipy.C108_data",
    "Anticipy.C108_forecast",
    "Anticipy.C108_observations_partial",
    "Anticipy.C108_observations_numbered",
    "Anticipy.C108_sources",
    "Anticipy.C108_intervals",
    "Anticipy.C108_counterexample",
    "Anticipy.C108_counterexample_origin"
   ],
   "note": "observations in order of time for tables with one row per date and source; predictions in order of time if no two models in the result share a name; refuted for observations at several times of one day"
  },
  {
   "property": "C109",
   "status": "proved",
   "theorems": [
    "Anticipy.C109_seasons",
    "Anticipy.C109_weekdays",
    "Anticipy.C109_months",
    "Anticipy.C109_level",
    "Anticipy.C109_naive"
   ],
   "note": "optimisers that find minima; one row per date and source; that every weekday is observed follows from the check of the model; months: forecasts for months that are observed"
  },
  {
   "property": "C11",
   "status": "proved",
   "theorems": [
    "Anticipy.C11_decay"
   ],
   "note": "over the reals"
  },
  {
   "property": "C110",
   "status": "proved",
   "theorems": [
    "Anticipy.C110_event",
    "Anticipy.C110_spike",
    "Anticipy.C110_dates"
   ],
   "note": "optimisers that find minima; one row per date and source; no removal of outliers; the series without the event determines the parameters"
  },
  {
   "property": "C111",
   "status": "proved",
   "theorems": [
    "Anticipy.C111_repeats",
    "Anticipy.C111_grows",
    "Anticipy.C111_line",
    "Anticipy.C111_proportion",
    "Anticipy.C111_weekdays",
    "Anticipy.C111_months"
   ],
   "note": "any optimiser that returns the right number of parameters; candidates with different names; one row per date and source"
  },
  {
   "property": "C112",
   "status": "partial",
   "theorems": [
    "Anticipy.C112_areas_partial",
    "Anticipy.C112_none",
    "Anticipy.C112_counterexample",
    "Anticipy.C112_counterexample_size"
   ],
   "note": "png plots always use the percentiles 5 and 20, so a forecast with other percentiles is plotted without areas (counterexample); with the default size a png plot raises TypeError (counterexample); everything else proved"
  },
  {
   "property": "C113",
   "status": "proved",
   "theorems": [
    "Anticipy.C113_run",
    "Anticipy.C113_table",
    "Anticipy.C113_rows",
    "Anticipy.C113_score"
   ],
   "note": "one row per date and source (rows that share a date share their weight, C33); models with free bounds; the score for positive cost (zero cost: C31)"
  },
  {
   "property": "C114",
   "status": "proved",
   "theorems": [
    "Anticipy.C114_gaps",
    "Anticipy.C114_fitted"
   ],
   "note": "Exact least squares, no search for outliers for the part on gaps."
  },
  {
   "property": "C115",
   "status": "proved",
   "theorems": [
    "Anticipy.C115_samples",
    "Anticipy.C115_without",
    "Anticipy.C115_unweighted"
   ],
   "note": "Exact least squares, no search for outliers; the samples tell all parameters of the model apart."
  },
  {
   "property": "C116",
   "status": "proved",
   "theorems": [
    "Anticipy.C116_sample",
    "Anticipy.C116_cost"
   ],
   "note": "Solver finds a minimum, no search for outliers."
  },
  {
   "property": "C117",
   "status": "proved",
   "theorems": [
    "Anticipy.C117_reproduced",
    "Anticipy.C117_line",
    "Anticipy.C117_level",
    "Anticipy.C117_weekly",
    "Anticipy.C117_monthly"
   ],
   "note": "Solver finds a minimum, no search for outliers."
  },
  {
   "property": "C118",
   "status": "proved",
   "theorems": [
    "Anticipy.C118_line",
    "Anticipy.C118_season",
    "Anticipy.C118_factors",
    "Anticipy.C118_decay",
    "Anticipy.C118_falling"
   ],
   "note": "Solver keeps to the bounds; for the falling samples it finds the minimum, and there is no search for outliers."
  },
  {
   "property": "C119",
   "status": "proved",
   "theorems": [
    "Anticipy.C119_weights",
    "Anticipy.C119_table"
   ],
   "note": ""
  },
  {
   "property": "C12",
   "status": "proved",
   "theorems": [
    "Anticipy.C12_sigmoid"
   ],
   "note": "over the reals"
  },
  {
   "property": "C120",
   "status": "proved",
   "theorems": [
    "Anticipy.C120_observed",
    "Anticipy.C120_table",
    "Anticipy.C120_found",
    "Anticipy.C120_line",
    "Anticipy.C120_level"
   ],
   "note": "The table has no weights and there is no starting date; a deviation smaller than the slope is not found (example), nor is one at the ends (C93)."
  },
  {
   "property": "C121",
   "status": "proved",
   "theorems": [
    "Anticipy.C121_alone",
    "Anticipy.C121_same",
    "Anticipy.C121_table"
   ],
   "note": "Distinct names are needed: a naive model that is offered twice is marked and forecast twice (example). Without naive models names are always distinct (`candidates_nodup`)."
  },
  {
   "property": "C122",
   "status": "proved",
   "theorems": [
    "Anticipy.C122_observed",
    "Anticipy.C122_table",
    "Anticipy.C122_growth"
   ],
   "note": "The optimiser is exact (finds a least squares minimum)."
  },
  {
   "property": "C123",
   "status": "proved",
   "theorems": [
    "Anticipy.C123_run",
    "Anticipy.C123_table"
   ],
   "note": "Candidates have distinct names and no parameter fixed by its bounds. Costs are positive: a perfect fit with one parameter is scored minus infinity whatever else was offered (C31_perfect_fit_exception). With include_all_fits=False only the chosen model is returned, so there is nothing to compare."
  },
  {
   "property": "C124",
   "status": "proved",
   "theorems": [
    "Anticipy.C124_run",
    "Anticipy.C124_table",
    "Anticipy.C124_line"
   ],
   "note": "The optimiser is exact (finds a least squares minimum). The samples tell the parameters apart (for the line this is proved). Candidates have distinct names and no parameter fixed by bounds."
  },
  {
   "property": "C125",
   "status": "proved",
   "theorems": [
    "Anticipy.C125_naive",
    "Anticipy.C125_snaive",
    "Anticipy.C125_table"
   ],
   "note": "Candidates have distinct names. Without search for outliers, since outliers depend on the values themselves."
  },
  {
   "property": "C126",
   "status": "proved",
   "theorems": [
    "Anticipy.C126_level",
    "Anticipy.C126_changes",
    "Anticipy.C126_special",
    "Anticipy.C126_weekdays",
    "Anticipy.C126_months",
    "Anticipy.C126_naive"
   ],
   "note": "Level and seasonal models need a solver that finds the minimum; months, changes of level and special days: forecasts for months, levels and kinds of days that are observed. The example at the end of Props/Higher shows that the line does not have the property."
  },
  {
   "property": "C127",
   "status": "proved",
   "theorems": [
    "Anticipy.C127_score",
    "Anticipy.C127_choice",
    "Anticipy.C127_order"
   ],
   "note": "The choice assumes that the compared models are fitted in both runs, that no fit is perfect and that the chosen model is strictly better. Naive candidates may be offered but are not compared."
  },
  {
   "property": "C128",
   "status": "partial",
   "theorems": [
    "Anticipy.C128_line_partial",
    "Anticipy.C128_table_partial",
    "Anticipy.C128_sources_partial",
    "Anticipy.C128_shifted",
    "Anticipy.C128_off",
    "Anticipy.C128_counterexample"
   ],
   "note": "holds for series whose first position that counts is 0; the exact error for all other series is proved (shift by the first position)"
  },
  {
   "property": "C129",
   "status": "partial",
   "theorems": [
    "Anticipy.C129_all_partial",
    "Anticipy.C129_future_partial",
    "Anticipy.C129_table_partial",
    "Anticipy.C129_sources_partial",
    "Anticipy.C129_shifted",
    "Anticipy.C129_ahead",
    "Anticipy.C129_counterexample",
    "Anticipy.C129_negative"
   ],
   "note": "all rows for series whose first counted position is 0, the future for non-negative first positions; what the code does for all others is proved exactly, with runs that show the disagreement"
  },
  {
   "property": "C13",
   "status": "proved",
   "theorems": [
    "Anticipy.C13_fourier"
   ],
   "note": "over the reals"
  },
  {
   "property": "C130",
   "status": "proved",
   "theorems": [
    "Anticipy.C130_component",
    "Anticipy.C130_table",
    "Anticipy.C130_intervals"
   ],
   "note": "the samples that count tell the components apart (otherwise minima are not unique), and the solver finds a minimum"
  },
  {
   "property": "C131",
   "status": "proved",
   "theorems": [
    "Anticipy.C131_changes",
    "Anticipy.C131_latest",
    "Anticipy.C131_range",
    "Anticipy.C131_special",
    "Anticipy.C131_dates"
   ],
   "note": "forecasts for dates whose level or kind is observed; the solver finds a minimum"
  },
  {
   "property": "C132",
   "status": "partial",
   "theorems": [
    "Anticipy.C132_inside_partial",
    "Anticipy.C132_run_partial",
    "Anticipy.C132_counterexample"
   ],
   "note": "holds exactly where enough simulated deviations lie on either side; refuted for skewed residuals with even draws"
  },
  {
   "property": "C133",
   "status": "partial",
   "theorems": [
    "Anticipy.C133_share_partial",
    "Anticipy.C133_table_partial",
    "Anticipy.C133_outside",
    "Anticipy.C133_counterexample",
    "Anticipy.C133_run_counterexample"
   ],
   "note": "Refuted: the mean error is subtracted from the residuals before the simulation but not added to the forecast, so for the last value as forecast of a rising line of twenty samples nineteen of twenty observations lie outside every interval, whatever is drawn. Proved for forecasts without mean error on the past and draws that reproduce the distribution of the residuals: all past dates have the same interval around the forecast and the observations inside are more than the nominal share minus the weight of two simulations. C133_table_partial: the mean error of every model with a level is zero if the optimiser finds the minimum, so the share holds for the runs of all tables without weights. C133_outside: an observation that misses by more than any centred residual is outside for all draws."
  },
  {
   "property": "C134",
   "status": "partial",
   "theorems": [
    "Anticipy.C134_past_partial",
    "Anticipy.C134_even_partial",
    "Anticipy.C134_counterexample"
   ],
   "note": "The deviations are drawn anew for each past date, so the widths differ from date to date (counterexample: width 10 at one date and 0 at the next with the same forecast). Proved: all past dates have the same columns relative to the forecast if the same residuals are drawn for each date, in any order; in particular if each residual is drawn equally often."
  },
  {
   "property": "C14",
   "status": "proved",
   "theorems": [
    "Anticipy.C14_spike_date",
    "Anticipy.C14_step_date"
   ],
   "note": ""
  },
  {
   "property": "C15",
   "status": "partial",
   "theorems": [
    "Anticipy.C15_length_partial",
    "Anticipy.C15_whole_partial",
    "Anticipy.C15_counterexample"
   ],
   "note": "holds for whole-number parameters; refuted for fractional ones"
  },
  {
   "property": "C16",
   "status": "proved",
   "theorems": [
    "Anticipy.C16_history_independent",
    "Anticipy.C16_fix_params"
   ],
   "note": "state machine over arbitrary call histories on the shared array"
  },
  {
   "property": "C17",
   "status": "partial",
   "theorems": [
    "Anticipy.C17_unchanged",
    "Anticipy.C17_simplify_partial",
    "Anticipy.C17_counterexample"
   ],
   "note": "proved for array bounds (all composites); refuted for models with plain-list bounds, which raise TypeError"
  },
  {
   "property": "C18",
   "status": "proved",
   "theorems": [
    "Anticipy.C18_get_fixed_model",
    "Anticipy.C18_fixed_step",
    "Anticipy.C18_fixed_spike"
   ],
   "note": ""
  },
  {
   "property": "C19",
   "status": "proved",
   "theorems": [
    "Anticipy.C19_detect_freq"
   ],
   "note": ""
  },
  {
   "property": "C20",
   "status": "proved",
   "theorems": [
    "Anticipy.C20_normalized_x"
   ],
   "note": ""
  },
  {
   "property": "C21",
   "status": "partial",
   "theorems": [
    "Anticipy.C21_extrapolate_partial",
    "Anticipy.C21_month_end_partial",
    "Anticipy.C21_counterexample_month_end",
    "Anticipy.C21_counterexample_quarter",
    "Anticipy.C21_counterexample_fractional_years"
   ],
   "note": "exact sample counts for hourly, daily, weekly, month-start, year-start and year-end grids; month-end off by one characterised; quarterly and fractional years/months refuted"
  },
  {
   "property": "C22",
   "status": "partial",
   "theorems": [
    "Anticipy.C22_same_x_partial",
    "Anticipy.C22_counterexample"
   ],
   "note": "holds if the first fitted date is whole days after the first row; refuted for hourly data with filtered leading samples"
  },
  {
   "property": "C23",
   "status": "partial",
   "theorems": [
    "Anticipy.C23_numeric_partial",
    "Anticipy.C23_counterexample"
   ],
   "note": "holds for first x = 0 and positive horizon; refuted otherwise"
  },
  {
   "property": "C24",
   "status": "proved",
   "theorems": [
    "Anticipy.C24_weekday_check"
   ],
   "note": ""
  },
  {
   "property": "C25",
   "status": "partial",
   "theorems": [
    "Anticipy.C25_fill",
    "Anticipy.C25_x_consistent_partial",
    "Anticipy.C25_no_gaps",
    "Anticipy.C25_duplicates",
    "Anticipy.C25_numeric",
    "Anticipy.C25_counterexample_monthly"
   ],
   "note": "everything proved except x of new rows, which is proved for daily and weekly data and refuted for monthly data"
  },
  {
   "property": "C26",
   "status": "proved",
   "theorems": [
    "Anticipy.C26_samples",
    "Anticipy.C26_returns",
    "Anticipy.C26_unlabelled_error"
   ],
   "note": "finding: dated tables without x that contain an unlabelled row raise IndexError instead of dropping the row"
  },
  {
   "property": "C27",
   "status": "proved",
   "theorems": [
    "Anticipy.C27_sorted",
    "Anticipy.C27_idempotent_sources",
    "Anticipy.C27_idempotent"
   ],
   "note": "without sources idempotence is up to the order of equal x, because the single-key sort is not stable"
  },
  {
   "property": "C28",
   "status": "proved",
   "theorems": [
    "Anticipy.C28_permutation"
   ],
   "note": ""
  },
  {
   "property": "C29",
   "status": "proved",
   "theorems": [
    "Anticipy.C29_ignored_samples",
    "Anticipy.C29_insert"
   ],
   "note": "the text columns weights/source_long do change; everything numeric is unchanged"
  },
  {
   "property": "C30",
   "status": "proved",
   "theorems": [
    "Anticipy.C30_no_samples",
    "Anticipy.C30_too_short",
    "Anticipy.C30_input_err",
    "Anticipy.C30_attempted",
    "Anticipy.C30_status",
    "Anticipy.C30_optimiser_unused"
   ],
   "note": "finding: the EMPTY_TS branch is unreachable, no usable samples raise ValueError"
  },
  {
   "property": "C31",
   "status": "proved",
   "theorems": [
    "Anticipy.C31_formula",
    "Anticipy.C31_lower_error",
    "Anticipy.C31_fewer_params",
    "Anticipy.C31_defined",
    "Anticipy.C31_too_short",
    "Anticipy.C31_perfect_fit_best",
    "Anticipy.C31_perfect_fit_exception"
   ],
   "note": "finding: a perfect fit with one parameter scores below a perfect fit without parameters"
  },
  {
   "property": "C32",
   "status": "partial",
   "theorems": [
    "Anticipy.C32_best_key_partial",
    "Anticipy.C32_counterexample"
   ],
   "note": "several minus infinities raise ValueError"
  },
  {
   "property": "C33",
   "status": "proved",
   "theorems": [
    "Anticipy.C33_residuals",
    "Anticipy.C33_total_weight",
    "Anticipy.C33_copies"
   ],
   "note": ""
  },
  {
   "property": "C34",
   "status": "proved",
   "theorems": [
    "Anticipy.C34_cost",
    "Anticipy.C34_nonneg",
    "Anticipy.C34_zero_iff",
    "Anticipy.C34_weights_positive",
    "Anticipy.C34_perfect",
    "Anticipy.C34_scale",
    "Anticipy.C34_scaled_table",
    "Anticipy.C34_same_optimum"
   ],
   "note": ""
  },
  {
   "property": "C35",
   "status": "proved",
   "theorems": [
    "Anticipy.C35_one_model",
    "Anticipy.C35_lowest",
    "Anticipy.C35_unique",
    "Anticipy.C35_series"
   ],
   "note": "for any optimizer results, sorting algorithm and candidate set"
  },
  {
   "property": "C36",
   "status": "partial",
   "theorems": [
    "Anticipy.C36_assertion",
    "Anticipy.C36_constant",
    "Anticipy.C36_linear_partial",
    "Anticipy.C36_nondec_partial",
    "Anticipy.C36_decay",
    "Anticipy.C36_ramp_partial",
    "Anticipy.C36_compose",
    "Anticipy.C36_default",
    "Anticipy.C36_linear_ramp",
    "Anticipy.C36_counterexample_linear",
    "Anticipy.C36_counterexample_ramp",
    "Anticipy.C36_counterexample_sigmoid_step"
   ],
   "note": "needs two distinct x for linear and one sample per x for ramp; counterexamples without these and for sigmoid_step"
  },
  {
   "property": "C37",
   "status": "proved",
   "theorems": [
    "Anticipy.C37_naive",
    "Anticipy.C37_future",
    "Anticipy.C37_no_lookahead",
    "Anticipy.C37_no_cache",
    "Anticipy.C37_mismatch",
    "Anticipy.C37_counterexample_repeated_x"
   ],
   "note": "for distinct x, as stated; the last theorem shows what happens with repeated x"
  },
  {
   "property": "C38",
   "status": "proved",
   "theorems": [
    "Anticipy.C38_seasonal_naive",
    "Anticipy.C38_counterexample_gap"
   ],
   "note": "requested points must be actual samples or future points; the second theorem shows that values are misplaced when dates inside the range are missing"
  },
  {
   "property": "C39",
   "status": "proved",
   "theorems": [
    "Anticipy.C39_affine",
    "Anticipy.C39_step_trend",
    "Anticipy.C39_length",
    "Anticipy.C39_straight_line",
    "Anticipy.C39_spike_between",
    "Anticipy.C39_step_between",
    "Anticipy.C39_monotone",
    "Anticipy.C39_defined",
    "Anticipy.C39_counterexample_spike_trend"
   ],
   "note": "the last theorem shows that spikes (unlike steps) are not invariant under trends"
  },
  {
   "property": "C40",
   "status": "proved",
   "theorems": [
    "Anticipy.C40_weights",
    "Anticipy.C48_table"
   ],
   "note": "the spike positions are those of the modelled outlier search (C39)"
  },
  {
   "property": "C41",
   "status": "partial",
   "theorems": [
    "Anticipy.C41_combinations",
    "Anticipy.C41_exact_partial",
    "Anticipy.C41_degenerate",
    "Anticipy.C41_reproducible",
    "Anticipy.C41_sorted",
    "Anticipy.C41_candidates",
    "Anticipy.C41_counterexample"
   ],
   "note": "exactness holds when different combinations have different names; models that differ but share a name are dropped (counterexample)"
  },
  {
   "property": "C42",
   "status": "proved",
   "theorems": [
    "Anticipy.C42_null_always",
    "Anticipy.C42_enough_data",
    "Anticipy.C42_all_tried",
    "Anticipy.C42_no_dates",
    "Anticipy.C42_ramp",
    "Anticipy.C42_calendar"
   ],
   "note": "completeness by model name; also the thresholds for piecewise linear trends and calendar models"
  },
  {
   "property": "C43",
   "status": "proved",
   "theorems": [
    "Anticipy.C43_ordered",
    "Anticipy.C43_complete",
    "Anticipy.C43_nested",
    "Anticipy.C43_run",
    "Anticipy.C43_series"
   ],
   "note": "for all draws, residuals, horizons and percentile settings; np.percentile modelled as sorted linear interpolation"
  },
  {
   "property": "C44",
   "status": "proved",
   "theorems": [
    "Anticipy.C44_residuals",
    "Anticipy.C44_past",
    "Anticipy.C44_future",
    "Anticipy.C44_collapse"
   ],
   "note": "for regular tables (one source, one actual per date, weights >= 0) whose forecast overlaps the data"
  },
  {
   "property": "C45",
   "status": "partial",
   "theorems": [
    "Anticipy.C45_rows_partial",
    "Anticipy.C45_sources_partial",
    "Anticipy.C45_counterexample"
   ],
   "note": "holds when forecast and used data have a common date; otherwise the code drops every forecast row (counterexample)"
  },
  {
   "property": "C46",
   "status": "proved",
   "theorems": [
    "Anticipy.C46_period",
    "Anticipy.C46_shapes",
    "Anticipy.C46_total",
    "Anticipy.C46_no_frequency",
    "Anticipy.C46_zero_weight"
   ],
   "note": "the last two theorems give the inputs for which the computation raises before the arrays are built"
  },
  {
   "property": "C47",
   "status": "proved",
   "theorems": [
    "Anticipy.C47_concatenation",
    "Anticipy.C47_succeeds",
    "Anticipy.C47_independent",
    "Anticipy.C47_no_influence"
   ],
   "note": "random draws are a function of the source label: the shared state of the global random generator is not modelled, so for interval columns the statement is for given draws"
  },
  {
   "property": "C48",
   "status": "proved",
   "theorems": [
    "Anticipy.C48_actuals",
    "Anticipy.C48_best_only",
    "Anticipy.C48_all_fits_adds",
    "Anticipy.C48_forecast_rows",
    "Anticipy.C48_forecast_complete",
    "Anticipy.C48_table",
    "Anticipy.C48_table_forecast"
   ],
   "note": "the last theorem needs a sample that can be compared with the forecast (see C45)"
  },
  {
   "property": "C49",
   "status": "partial",
   "theorems": [
    "Anticipy.C49_values_partial",
    "Anticipy.C49_rows_line_partial",
    "Anticipy.C49_rows_weekly_partial",
    "Anticipy.C49_rows_constant_partial",
    "Anticipy.C49_rows_additive_partial",
    "Anticipy.C49_no_dates",
    "Anticipy.C49_counterexample"
   ],
   "note": "early values and weights have no influence; early rows may also be removed or added without changing the predicted values (any additive model with a level that does not depend on where x starts); but early dates decide which dates are predicted: the frequency is detected from them (counterexample)"
  },
  {
   "property": "C50",
   "status": "proved",
   "theorems": [
    "Anticipy.C50_grid",
    "Anticipy.C50_panels",
    "Anticipy.C50_panel_rows",
    "Anticipy.C50_sources"
   ],
   "note": ""
  },
  {
   "property": "C51",
   "status": "proved",
   "theorems": [
    "Anticipy.C51_no_overwrite",
    "Anticipy.C51_collision",
    "Anticipy.C51_example",
    "Anticipy.C51_counterexample_same_stem"
   ],
   "note": "inputs whose names agree up to the first dot do share output files (last theorem)"
  },
  {
   "property": "C52",
   "status": "partial",
   "theorems": [
    "Anticipy.C52_bank_uk",
    "Anticipy.C52_august_partial",
    "Anticipy.C52_christmas_uk",
    "Anticipy.C52_uk_eight",
    "Anticipy.C52_counterexample"
   ],
   "note": "the August holiday is wrong when August 31 is a Monday (counterexample); everything else holds for all years"
  },
  {
   "property": "C53",
   "status": "proved",
   "theorems": [
    "Anticipy.C53_required",
    "Anticipy.C53_additive",
    "Anticipy.C53_mode"
   ],
   "note": "the correlation statistic is an oracle: the theorems hold for any value or exception it produces"
  },
  {
   "property": "C54",
   "status": "partial",
   "theorems": [
    "Anticipy.C54_flags",
    "Anticipy.C54_stateless",
    "Anticipy.C54_single_holiday",
    "Anticipy.C54_params_partial",
    "Anticipy.C54_values",
    "Anticipy.C54_cached",
    "Anticipy.C54_counterexample_rules"
   ],
   "note": "the docstring promise of one parameter per holiday rule is refuted; the rest is proved for all calendars, windows and cache states"
  },
  {
   "property": "C55",
   "status": "partial",
   "theorems": [
    "Anticipy.C55_covers_partial",
    "Anticipy.C34_cost",
    "Anticipy.C34_zero_iff",
    "Anticipy.C55_short_series",
    "Anticipy.C55_counterexample"
   ],
   "note": "holds for all models that have a value on every sample, whatever honest solver is used; refuted for the seasonal naive model on short daily series"
  },
  {
   "property": "C56",
   "status": "partial",
   "theorems": [
    "Anticipy.C56_values_partial",
    "Anticipy.C56_table_partial",
    "Anticipy.C56_counterexample"
   ],
   "note": "holds if no parameter is pinned by equal bounds"
  },
  {
   "property": "C57",
   "status": "proved",
   "theorems": [
    "Anticipy.C57_values",
    "Anticipy.C57_rejects"
   ],
   "note": ""
  },
  {
   "property": "C58",
   "status": "partial",
   "theorems": [
    "Anticipy.C58_midnight_partial",
    "Anticipy.C58_counterexample"
   ],
   "note": "holds for samples at midnight only"
  },
  {
   "property": "C59",
   "status": "partial",
   "theorems": [
    "Anticipy.C59_trailing_slash_partial",
    "Anticipy.C59_default",
    "Anticipy.C59_top",
    "Anticipy.C59_rejects",
    "Anticipy.C59_counterexample_general",
    "Anticipy.C59_counterexample"
   ],
   "note": "holds for folders written with a trailing slash; otherwise files go to the parent folder"
  },
  {
   "property": "C60",
   "status": "partial",
   "theorems": [
    "Anticipy.C60_code_partial",
    "Anticipy.C60_file",
    "Anticipy.C60_no_path",
    "Anticipy.C60_counterexample",
    "Anticipy.C60_counterexample_no_actuals"
   ],
   "note": "return code is also 0 if the plotting library is missing"
  },
  {
   "property": "C61",
   "status": "partial",
   "theorems": [
    "Anticipy.C61_factor_partial",
    "Anticipy.C61_counterexample"
   ],
   "note": "holds as a factor; on its own the model is 0 everywhere (counterexample)"
  },
  {
   "property": "C62",
   "status": "proved",
   "theorems": [
    "Anticipy.C62_linear",
    "Anticipy.C62_table",
    "Anticipy.C62_errors",
    "Anticipy.C62_between"
   ],
   "note": ""
  },
  {
   "property": "C63",
   "status": "partial",
   "theorems": [
    "Anticipy.C63_mask_partial",
    "Anticipy.C63_numeric",
    "Anticipy.C63_on_request",
    "Anticipy.C63_counterexample_regular",
    "Anticipy.C63_counterexample_hourly"
   ],
   "note": "holds for tables with gaps whose dates are on a grid of daily or longer steps, and for tables without dates"
  },
  {
   "property": "C64",
   "status": "proved",
   "theorems": [
    "Anticipy.C64_statistic",
    "Anticipy.C64_decision",
    "Anticipy.C64_detects",
    "Anticipy.C64_additive",
    "Anticipy.C64_unit"
   ],
   "note": ""
  },
  {
   "property": "C65",
   "status": "partial",
   "theorems": [
    "Anticipy.C65_null_partial",
    "Anticipy.C65_observed_partial",
    "Anticipy.C65_counterexample"
   ],
   "note": "holds for samples without value; a sample of weight 0 can decide the choice (counterexample)"
  },
  {
   "property": "C66",
   "status": "partial",
   "theorems": [
    "Anticipy.C66_default_names",
    "Anticipy.C66_names_partial",
    "Anticipy.C66_roles_partial",
    "Anticipy.C66_other_columns",
    "Anticipy.C66_missing",
    "Anticipy.C66_counterexample"
   ],
   "note": "holds if no column has the standard name of another role; counterexample otherwise"
  },
  {
   "property": "C67",
   "status": "partial",
   "theorems": [
    "Anticipy.C67_batch_partial",
    "Anticipy.C67_arguments",
    "Anticipy.C67_weights",
    "Anticipy.C67_empty_input",
    "Anticipy.C67_counterexample"
   ],
   "note": "holds for inputs with samples; an input without samples makes the batch fail (counterexample)"
  },
  {
   "property": "C68",
   "status": "proved",
   "theorems": [
    "Anticipy.C68_cost",
    "Anticipy.C68_score",
    "Anticipy.aicC_unitFree",
    "Anticipy.C68_choice",
    "Anticipy.C68_table",
    "Anticipy.C68_candidates",
    "Anticipy.unitFree_add",
    "Anticipy.unitFree_mul",
    "Anticipy.linear_unitFree",
    "Anticipy.ramp_unitFree",
    "Anticipy.seasonWday_unitFree",
    "Anticipy.naive_unitFree",
    "Anticipy.snaive_unitFree",
    "Anticipy.fourier_unitFree"
   ],
   "note": "for an optimiser that finds the minimum"
  },
  {
   "property": "C69",
   "status": "proved",
   "theorems": [
    "Anticipy.C69_reproduced",
    "Anticipy.C69_line",
    "Anticipy.C69_table"
   ],
   "note": "for an optimiser that finds the minimum"
  },
  {
   "property": "C70",
   "status": "proved",
   "theorems": [
    "Anticipy.C70_weekly",
    "Anticipy.C70_table"
   ],
   "note": "for an optimiser that finds the minimum"
  },
  {
   "property": "C71",
   "status": "proved",
   "theorems": [
    "Anticipy.C71_weekdays",
    "Anticipy.C71_tried",
    "Anticipy.C71_run",
    "Anticipy.C71_decay",
    "Anticipy.C71_unconditional",
    "Anticipy.C71_unconditional_real",
    "Anticipy.C71_table"
   ],
   "note": ""
  },
  {
   "property": "C72",
   "status": "proved",
   "theorems": [
    "Anticipy.C72_working_days",
    "Anticipy.C72_christmas",
    "Anticipy.C72_month_start",
    "Anticipy.C72_undated"
   ],
   "note": ""
  },
  {
   "property": "C73",
   "status": "proved",
   "theorems": [
    "Anticipy.C73_cost",
    "Anticipy.C73_choice",
    "Anticipy.C73_fitted",
    "Anticipy.C73_line",
    "Anticipy.C73_weekly",
    "Anticipy.C73_additive",
    "Anticipy.C73_table"
   ],
   "note": "for an optimiser that finds the minimum"
  },
  {
   "property": "C74",
   "status": "proved",
   "theorems": [
    "Anticipy.C74_fitted",
    "Anticipy.C74_line",
    "Anticipy.C74_weekly",
    "Anticipy.C74_constant",
    "Anticipy.C74_additive",
    "Anticipy.C74_table"
   ],
   "note": "for an optimiser that finds the minimum"
  },
  {
   "property": "C75",
   "status": "proved",
   "theorems": [
    "Anticipy.C75_fitted",
    "Anticipy.C75_line",
    "Anticipy.C75_weekly",
    "Anticipy.C75_constant",
    "Anticipy.C75_additive",
    "Anticipy.C75_table"
   ],
   "note": "for an optimiser that finds the minimum"
  },
  {
   "property": "C76",
   "status": "proved",
   "theorems": [
    "Anticipy.C76_line",
    "Anticipy.C76_weekly",
    "Anticipy.C76_constant",
    "Anticipy.C76_cost",
    "Anticipy.C76_choice",
    "Anticipy.C76_additive",
    "Anticipy.C76_table",
    "Anticipy.C76_intervals",
    "Anticipy.C76_intervals_table"
   ],
   "note": "for an optimiser that finds the minimum"
  },
  {
   "property": "C77",
   "status": "proved",
   "theorems": [
    "Anticipy.C77_outliers",
    "Anticipy.C77_line",
    "Anticipy.C77_weekly",
    "Anticipy.C77_constant",
    "Anticipy.C77_additive",
    "Anticipy.C77_table",
    "Anticipy.C77_intervals",
    "Anticipy.C77_intervals_table"
   ],
   "note": "for an optimiser that finds the minimum"
  },
  {
   "property": "C78",
   "status": "proved",
   "theorems": [
    "Anticipy.C78_options",
    "Anticipy.C78_samples",
    "Anticipy.C78_result",
    "Anticipy.C78_succeeds",
    "Anticipy.C78_observations",
    "Anticipy.C78_plot",
    "Anticipy.C78_unreadable",
    "Anticipy.C78_plot_failure"
   ],
   "note": "observations: for files with a date or an x column; result: for files with sources or different x"
  },
  {
   "property": "C79",
   "status": "partial",
   "theorems": [
    "Anticipy.C79_one_line_partial",
    "Anticipy.C79_counterexample"
   ],
   "note": "holds unless all fits are requested; with --include_all_fits the forecasts of all models are drawn as one line"
  },
  {
   "property": "C80",
   "status": "proved",
   "theorems": [
    "Anticipy.C80_line",
    "Anticipy.C80_weekly",
    "Anticipy.C80_constant",
    "Anticipy.C80_additive"
   ],
   "note": "for an optimiser that finds the minimum"
  },
  {
   "property": "C81",
   "status": "proved",
   "theorems": [
    "Anticipy.C81_naive",
    "Anticipy.C81_seasonal",
    "Anticipy.C81_table",
    "Anticipy.C81_series",
    "Anticipy.C81_periodic"
   ],
   "note": "observations are read off the returned table, so they carry the weights after outlier removal"
  },
  {
   "property": "C82",
   "status": "partial",
   "theorems": [
    "Anticipy.C82_total_partial",
    "Anticipy.C82_table_partial",
    "Anticipy.C82_sources_partial",
    "Anticipy.C82_default_partial",
    "Anticipy.C82_weekly_partial",
    "Anticipy.C82_weekly_table_partial",
    "Anticipy.C82_mixed_partial",
    "Anticipy.C82_mixed_default_partial",
    "Anticipy.C82_numeric_partial",
    "Anticipy.C82_numeric_table_partial",
    "Anticipy.C82_numeric_default_partial",
    "Anticipy.C82_numeric_sources_partial",
    "Anticipy.C82_numeric_sources_default_partial",
    "Anticipy.C82_complete_partial",
    "Anticipy.C82_complete_table_partial",
    "Anticipy.C82_all_default_partial",
    "Anticipy.C82_counterexample_single",
    "Anticipy.C82_counterexample_uncounted",
    "Anticipy.C82_counterexample_sources",
    "Anticipy.C82_counterexample_long",
    "Anticipy.C82_counterexample_months"
   ],
   "note": "holds for daily and weekly series, monthly and yearly series without gaps and a whole number of months or years ahead, and series without dates, of up to 4047 samples; a series left with a single sample, or without a sample that counts, raises an exception (for all sources), and so does every constant daily series of 4048 samples or more with default arguments"
  },
  {
   "property": "C83",
   "status": "partial",
   "theorems": [
    "Anticipy.C83_horizon_partial",
    "Anticipy.C83_daily_partial",
    "Anticipy.C83_table_partial",
    "Anticipy.C83_sources_partial",
    "Anticipy.C83_default_partial",
    "Anticipy.C83_counterexample"
   ],
   "note": "holds for undated, hourly and daily series and for dates at midnight; a weekly series with a time of day can lose its last predicted week when the horizon grows; the spike model is excluded, it is not evaluated sample by sample"
  },
  {
   "property": "C84",
   "status": "partial",
   "theorems": [
    "Anticipy.C84_null_rows_partial",
    "Anticipy.C84_table_partial",
    "Anticipy.C84_series_partial",
    "Anticipy.C84_default_partial",
    "Anticipy.C84_counterexample"
   ],
   "note": "holds for daily series without weights that have two consecutive days without the empty rows, any number of sources, with the automatic choice of composition as well; a single empty row can turn a weekly series into a daily one"
  },
  {
   "property": "C85",
   "status": "proved",
   "theorems": [
    "Anticipy.C85_independent",
    "Anticipy.C85_score",
    "Anticipy.C85_trend",
    "Anticipy.C85_naive",
    "Anticipy.C85_table_trend",
    "Anticipy.C85_table_naive"
   ],
   "note": "assumes that the result of a fit depends only on the model and the data, not on how many fits were done before (random starting values); for season_add_mult='both' new sums must not have the name of a model already offered, as the entry for the kind of composition is found by name"
  },
  {
   "property": "C86",
   "status": "partial",
   "theorems": [
    "Anticipy.C86_comparisons",
    "Anticipy.C86_congruence",
    "Anticipy.C86_identity_partial",
    "Anticipy.C86_candidates_partial",
    "Anticipy.C86_counterexample",
    "Anticipy.C86_counterexample_name"
   ],
   "note": "equal models are the same for parts with distinct plain names; get_fixed_model gives models with different fixed values the same name, and then one of them is dropped from the candidates"
  },
  {
   "property": "C87",
   "status": "proved",
   "theorems": [
    "Anticipy.C87_single",
    "Anticipy.C87_column",
    "Anticipy.C87_renamed_source",
    "Anticipy.C87_renamed",
    "Anticipy.C87_ties"
   ],
   "note": ""
  },
  {
   "property": "C88",
   "status": "proved",
   "theorems": [
    "Anticipy.C88_line",
    "Anticipy.C88_weekly",
    "Anticipy.C88_total",
    "Anticipy.C88_constant",
    "Anticipy.C88_additive",
    "Anticipy.C88_table",
    "Anticipy.C88_row"
   ],
   "note": "for an optimiser that finds the minimum"
  },
  {
   "property": "C89",
   "status": "proved",
   "theorems": [
    "Anticipy.C89_line",
    "Anticipy.C89_weekly",
    "Anticipy.C89_constant",
    "Anticipy.C89_additive",
    "Anticipy.C89_table"
   ],
   "note": "for an optimiser that finds the minimum"
  },
  {
   "property": "C90",
   "status": "proved",
   "theorems": [
    "Anticipy.C90_ones",
    "Anticipy.C90_ones_search",
    "Anticipy.C90_search",
    "Anticipy.C90_search_weighted",
    "Anticipy.C90_rising",
    "Anticipy.C90_table",
    "Anticipy.C90_table_search"
   ],
   "note": ""
  },
  {
   "property": "C91",
   "status": "proved",
   "theorems": [
    "Anticipy.C91_unit",
    "Anticipy.C91_mirror",
    "Anticipy.C91_line",
    "Anticipy.C91_weekly",
    "Anticipy.C91_constant",
    "Anticipy.C91_additive",
    "Anticipy.C91_table",
    "Anticipy.C91_naive",
    "Anticipy.C91_snaive",
    "Anticipy.C91_naive_table"
   ],
   "note": "for whole runs: for an optimiser that finds the minimum, candidates with different names"
  },
  {
   "property": "C92",
   "status": "partial",
   "theorems": [
    "Anticipy.C92_uk_partial",
    "Anticipy.C92_ita_partial",
    "Anticipy.C92_us",
    "Anticipy.C92_law_partial",
    "Anticipy.C92_counterexample"
   ],
   "note": "United States: in full. United Kingdom: in full except the August holiday when August 31 is a Monday (C52). Italy: the holidays around Christmas are moved from weekends as in the United Kingdom, which Italian law does not do (counterexample; the years in which it makes no difference are characterised)"
  },
  {
   "property": "C93",
   "status": "partial",
   "theorems": [
    "Anticipy.C93_step",
    "Anticipy.C93_spike",
    "Anticipy.C93_level_spike_partial",
    "Anticipy.C93_level_step_partial",
    "Anticipy.C93_run_partial",
    "Anticipy.C93_counterexample_end",
    "Anticipy.C93_table_partial"
   ],
   "note": "for outliers away from the ends of the series; a spike in the last sample is not found and one in the sample before it is taken for a step (counterexample)"
  },
  {
   "property": "C94",
   "status": "proved",
   "theorems": [
    "Anticipy.C94_all_fits",
    "Anticipy.C94_simplify",
    "Anticipy.C94_report"
   ],
   "note": "equalities of the results including errors"
  },
  {
   "property": "C95",
   "status": "partial",
   "theorems": [
    "Anticipy.C95_metadata",
    "Anticipy.C95_observations",
    "Anticipy.C95_forecasts_partial",
    "Anticipy.C95_undated_partial",
    "Anticipy.C95_label_partial",
    "Anticipy.C95_counterexample_unweighted",
    "Anticipy.C95_counterexample",
    "Anticipy.C95_counterexample_scaled",
    "Anticipy.C95_table"
   ],
   "note": "the columns are correct; the long label is common to all forecasts and the metadata of a series (without dates: unless a candidate is called logistic or sigmoid, whose range is divided by 100) but differs from that of the observations: for input without weights always (proved for all runs), otherwise if the first or last sample or the extreme weights were not used"
  },
  {
   "property": "C96",
   "status": "proved",
   "theorems": [
    "Anticipy.C96_continued",
    "Anticipy.C96_table"
   ],
   "note": "for an optimiser that finds the minimum"
  },
  {
   "property": "C97",
   "status": "partial",
   "theorems": [
    "Anticipy.C97_rejected_partial",
    "Anticipy.C97_real_partial",
    "Anticipy.C97_season_partial",
    "Anticipy.C97_two_steps_partial",
    "Anticipy.C97_fixed_partial",
    "Anticipy.C97_counterexample",
    "Anticipy.C97_counterexample_fixed"
   ],
   "note": "for trends, steps, spikes, dummies, calendars, date lists, the yearly Fourier season and everything composed of them; the weekly and monthly season and two_steps ignore surplus values (counterexample), too few values are rejected if a sample needs them; models with fixed parameters reject every wrong number except one value, which they use for all free parameters (counterexample)"
  },
  {
   "property": "C98",
   "status": "partial",
   "theorems": [
    "Anticipy.C98_start_partial",
    "Anticipy.C98_numpy_partial",
    "Anticipy.C98_counterexample"
   ],
   "note": "with the null model as start and with np.sum; the built-in sum without start fails for every list of models that are not all null"
  },
  {
   "property": "C99",
   "status": "partial",
   "theorems": [
    "Anticipy.C99_counts_partial",
    "Anticipy.C99_real_partial",
    "Anticipy.C99_fixed",
    "Anticipy.C99_spike_partial",
    "Anticipy.C99_counterexample"
   ],
   "note": "for all models of the library, their sums and products and models with fixed parameters, except the spike model without data (counterexample)"
  }
 ]
}