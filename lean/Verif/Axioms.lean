import Verif.Props.Additive
import Verif.Props.AdditiveTable
import Verif.Props.Aic
import Verif.Props.App
import Verif.Props.AppRun
import Verif.Props.Arity
import Verif.Props.AutoNulls
import Verif.Props.Balance
import Verif.Props.BalanceRow
import Verif.Props.BankHolidays
import Verif.Props.CacheValidate
import Verif.Props.CalendarModels
import Verif.Props.Candidates
import Verif.Props.Chosen
import Verif.Props.Columns
import Verif.Props.ComesTrue
import Verif.Props.Composition
import Verif.Props.Conditions
import Verif.Props.ConstantWidth
import Verif.Props.CopiedRuns
import Verif.Props.CopiedTables
import Verif.Props.Copies
import Verif.Props.CountryCalendars
import Verif.Props.Coverage
import Verif.Props.CoverageRuns
import Verif.Props.CoverageTables
import Verif.Props.DailyRun
import Verif.Props.Descriptions
import Verif.Props.DetectFreq
import Verif.Props.Detrended
import Verif.Props.Dummy
import Verif.Props.EachSeries
import Verif.Props.Explained
import Verif.Props.Extrapolate
import Verif.Props.Factors
import Verif.Props.Fit
import Verif.Props.FixedModels
import Verif.Props.Fixing
import Verif.Props.Formulas
import Verif.Props.GroupMeans
import Verif.Props.Higher
import Verif.Props.HigherChanges
import Verif.Props.HolidayMasks
import Verif.Props.Holidays
import Verif.Props.Horizon
import Verif.Props.Identity
import Verif.Props.Ignored
import Verif.Props.InitialGuess
import Verif.Props.Inside
import Verif.Props.InsideRuns
import Verif.Props.Interpolate
import Verif.Props.InterpolateY
import Verif.Props.Interval
import Verif.Props.IntervalRuns
import Verif.Props.IntervalUnits
import Verif.Props.KnownChanges
import Verif.Props.Labels
import Verif.Props.Level
import Verif.Props.Leverage
import Verif.Props.LoneOutlierRuns
import Verif.Props.LoneOutliers
import Verif.Props.MoreModels
import Verif.Props.MoreWeight
import Verif.Props.MovedIntervals
import Verif.Props.MultStats
import Verif.Props.Naive
import Verif.Props.Nested
import Verif.Props.NestedFourier
import Verif.Props.Normalize
import Verif.Props.NullRows
import Verif.Props.NullRowsSeries
import Verif.Props.NumericLine
import Verif.Props.NumericNaive
import Verif.Props.OneOff
import Verif.Props.OnlyCounted
import Verif.Props.Order
import Verif.Props.Outliers
import Verif.Props.Output
import Verif.Props.Parsimony
import Verif.Props.Pattern
import Verif.Props.Plot
import Verif.Props.PlotBands
import Verif.Props.PointByPoint
import Verif.Props.ReadyDummies
import Verif.Props.RealModels
import Verif.Props.Recomputed
import Verif.Props.Recovery
import Verif.Props.Refit
import Verif.Props.Reflected
import Verif.Props.Regression
import Verif.Props.Repeated
import Verif.Props.Reported
import Verif.Props.ReportedValues
import Verif.Props.Rising
import Verif.Props.RowOrder
import Verif.Props.Run
import Verif.Props.RunExamples
import Verif.Props.RunTables
import Verif.Props.RunValues
import Verif.Props.SameScore
import Verif.Props.Score
import Verif.Props.ScoreCovers
import Verif.Props.SeriesTable
import Verif.Props.Shape
import Verif.Props.Similar
import Verif.Props.SolverChoice
import Verif.Props.Sources
import Verif.Props.Start
import Verif.Props.StartAdditive
import Verif.Props.StartRows
import Verif.Props.Starting
import Verif.Props.Superposition
import Verif.Props.TableSeries
import Verif.Props.Total
import Verif.Props.TotalComplete
import Verif.Props.TotalLong
import Verif.Props.TotalNumeric
import Verif.Props.TotalNumericSources
import Verif.Props.TotalTable
import Verif.Props.TotalWeekly
import Verif.Props.Trends
import Verif.Props.Unique
import Verif.Props.UnitChoice
import Verif.Props.UnitModels
import Verif.Props.UnitTables
import Verif.Props.UnitWeights
import Verif.Props.Units
import Verif.Props.Weekly
import Verif.Props.WeightChoice
import Verif.Props.WeightIntervals
import Verif.Props.Widening
import Verif.Props.WildValue

/-!
# Axioms of all claimed theorems

Generated from MANIFEST.json.
-/

-- C01
#print axioms Anticipy.C01_composition
#print axioms Anticipy.C01_slices
-- C02
#print axioms Anticipy.C02_null_neutral
#print axioms Anticipy.C02_null_value
-- C03
#print axioms Anticipy.C03_compose
#print axioms Anticipy.C03_guess_in_bounds
-- C04
#print axioms Anticipy.C04_assoc
#print axioms Anticipy.C04_comm
-- C05
#print axioms Anticipy.C05_cache_transparent_partial
#print axioms Anticipy.C05_builtin_partial
#print axioms Anticipy.C05_counterexample
-- C06
#print axioms Anticipy.C06_validate_composite
#print axioms Anticipy.C06_reject_partial
#print axioms Anticipy.C06_counterexample_return_false
-- C07
#print axioms Anticipy.C07_dummy_dates_partial
#print axioms Anticipy.C07_dummy_numeric_partial
#print axioms Anticipy.C07_dummy_function_partial
#print axioms Anticipy.C07_any_partial
#print axioms Anticipy.C07_refused_partial
#print axioms Anticipy.C07_counterexample_mult
-- C08
#print axioms Anticipy.C08_weekday
#print axioms Anticipy.C08_weekday_calendar
#print axioms Anticipy.C08_month
#print axioms Anticipy.C08_free_levels
-- C09
#print axioms Anticipy.C09_step
#print axioms Anticipy.C09_ramp
#print axioms Anticipy.C09_linear_ramp
#print axioms Anticipy.C09_two_steps
-- C10
#print axioms Anticipy.C10_nondecreasing
-- C100
#print axioms Anticipy.C100_step_partial
#print axioms Anticipy.C100_step_date
#print axioms Anticipy.C100_sigmoid_step_partial
#print axioms Anticipy.C100_spike_partial
#print axioms Anticipy.C100_spike_date
#print axioms Anticipy.C100_two_steps_partial
#print axioms Anticipy.C100_ramp_partial
#print axioms Anticipy.C100_short
#print axioms Anticipy.C100_month_partial
#print axioms Anticipy.C100_counterexample_month
#print axioms Anticipy.C100_counterexample
#print axioms Anticipy.C100_counterexample_down
#print axioms Anticipy.C100_counterexample_spike
#print axioms Anticipy.C100_counterexample_ramp
-- C101
#print axioms Anticipy.C101_dates_partial
#print axioms Anticipy.C101_counterexample_close
#print axioms Anticipy.C101_counterexample_working_days
#print axioms Anticipy.C101_counterexample_second_days
#print axioms Anticipy.C101_counterexample_mid_month
#print axioms Anticipy.C101_counterexample_two_hours
-- C102
#print axioms Anticipy.C102_fit_partial
#print axioms Anticipy.C102_run_partial
#print axioms Anticipy.C102_table_partial
#print axioms Anticipy.C102_component_partial
#print axioms Anticipy.C102_trends_partial
#print axioms Anticipy.neutral_trend
#print axioms Anticipy.neutral_dated
#print axioms Anticipy.neutral_compose
#print axioms Anticipy.neutral_fourier
#print axioms Anticipy.C102_counterexample
-- C103
#print axioms Anticipy.C103_trends
#print axioms Anticipy.C103_powers_partial
#print axioms Anticipy.C103_growth
#print axioms Anticipy.C103_decay_partial
#print axioms Anticipy.C103_counterexample
#print axioms Anticipy.C103_counterexample_dummy
-- C104
#print axioms Anticipy.C104_fitted_partial
#print axioms Anticipy.C104_line_partial
#print axioms Anticipy.C104_level_partial
#print axioms Anticipy.C104_weekly_partial
#print axioms Anticipy.C104_counterexample
-- C105
#print axioms Anticipy.C105_widening_partial
#print axioms Anticipy.C105_future_partial
#print axioms Anticipy.C105_past
#print axioms Anticipy.C105_period_partial
#print axioms Anticipy.C105_counterexample
-- C106
#print axioms Anticipy.C106_follows
#print axioms Anticipy.C106_total
-- C107
#print axioms Anticipy.C107_weights_partial
#print axioms Anticipy.C107_spikes_partial
#print axioms Anticipy.C107_table_partial
#print axioms Anticipy.C107_counterexample
#print axioms Anticipy.C107_counterexample_null
-- C108
#print axioms Anticipy.C108_data
#print axioms Anticipy.C108_forecast
#print axioms Anticipy.C108_observations_partial
#print axioms Anticipy.C108_observations_numbered
#print axioms Anticipy.C108_sources
#print axioms Anticipy.C108_intervals
#print axioms Anticipy.C108_counterexample
#print axioms Anticipy.C108_counterexample_origin
-- C109
#print axioms Anticipy.C109_seasons
#print axioms Anticipy.C109_weekdays
#print axioms Anticipy.C109_months
#print axioms Anticipy.C109_level
#print axioms Anticipy.C109_naive
-- C11
#print axioms Anticipy.C11_decay
-- C110
#print axioms Anticipy.C110_event
#print axioms Anticipy.C110_spike
#print axioms Anticipy.C110_dates
-- C111
#print axioms Anticipy.C111_repeats
#print axioms Anticipy.C111_grows
#print axioms Anticipy.C111_line
#print axioms Anticipy.C111_proportion
#print axioms Anticipy.C111_weekdays
#print axioms Anticipy.C111_months
-- C112
#print axioms Anticipy.C112_areas_partial
#print axioms Anticipy.C112_none
#print axioms Anticipy.C112_counterexample
#print axioms Anticipy.C112_counterexample_size
-- C113
#print axioms Anticipy.C113_run
#print axioms Anticipy.C113_table
#print axioms Anticipy.C113_rows
#print axioms Anticipy.C113_score
-- C114
#print axioms Anticipy.C114_gaps
#print axioms Anticipy.C114_fitted
-- C115
#print axioms Anticipy.C115_samples
#print axioms Anticipy.C115_without
#print axioms Anticipy.C115_unweighted
-- C116
#print axioms Anticipy.C116_sample
#print axioms Anticipy.C116_cost
-- C117
#print axioms Anticipy.C117_reproduced
#print axioms Anticipy.C117_line
#print axioms Anticipy.C117_level
#print axioms Anticipy.C117_weekly
#print axioms Anticipy.C117_monthly
-- C118
#print axioms Anticipy.C118_line
#print axioms Anticipy.C118_season
#print axioms Anticipy.C118_factors
#print axioms Anticipy.C118_decay
#print axioms Anticipy.C118_falling
-- C119
#print axioms Anticipy.C119_weights
#print axioms Anticipy.C119_table
-- C12
#print axioms Anticipy.C12_sigmoid
-- C120
#print axioms Anticipy.C120_observed
#print axioms Anticipy.C120_table
#print axioms Anticipy.C120_found
#print axioms Anticipy.C120_line
#print axioms Anticipy.C120_level
-- C121
#print axioms Anticipy.C121_alone
#print axioms Anticipy.C121_same
#print axioms Anticipy.C121_table
-- C122
#print axioms Anticipy.C122_observed
#print axioms Anticipy.C122_table
#print axioms Anticipy.C122_growth
-- C123
#print axioms Anticipy.C123_run
#print axioms Anticipy.C123_table
-- C124
#print axioms Anticipy.C124_run
#print axioms Anticipy.C124_table
#print axioms Anticipy.C124_line
-- C125
#print axioms Anticipy.C125_naive
#print axioms Anticipy.C125_snaive
#print axioms Anticipy.C125_table
-- C126
#print axioms Anticipy.C126_level
#print axioms Anticipy.C126_changes
#print axioms Anticipy.C126_special
#print axioms Anticipy.C126_weekdays
#print axioms Anticipy.C126_months
#print axioms Anticipy.C126_naive
-- C127
#print axioms Anticipy.C127_score
#print axioms Anticipy.C127_choice
#print axioms Anticipy.C127_order
-- C128
#print axioms Anticipy.C128_line_partial
#print axioms Anticipy.C128_table_partial
#print axioms Anticipy.C128_sources_partial
#print axioms Anticipy.C128_shifted
#print axioms Anticipy.C128_off
#print axioms Anticipy.C128_counterexample
-- C129
#print axioms Anticipy.C129_all_partial
#print axioms Anticipy.C129_future_partial
#print axioms Anticipy.C129_table_partial
#print axioms Anticipy.C129_sources_partial
#print axioms Anticipy.C129_shifted
#print axioms Anticipy.C129_ahead
#print axioms Anticipy.C129_counterexample
#print axioms Anticipy.C129_negative
-- C13
#print axioms Anticipy.C13_fourier
-- C130
#print axioms Anticipy.C130_component
#print axioms Anticipy.C130_table
#print axioms Anticipy.C130_intervals
-- C131
#print axioms Anticipy.C131_changes
#print axioms Anticipy.C131_latest
#print axioms Anticipy.C131_range
#print axioms Anticipy.C131_special
#print axioms Anticipy.C131_dates
-- C132
#print axioms Anticipy.C132_inside_partial
#print axioms Anticipy.C132_run_partial
#print axioms Anticipy.C132_counterexample
-- C133
#print axioms Anticipy.C133_share_partial
#print axioms Anticipy.C133_table_partial
#print axioms Anticipy.C133_outside
#print axioms Anticipy.C133_counterexample
#print axioms Anticipy.C133_run_counterexample
-- C134
#print axioms Anticipy.C134_past_partial
#print axioms Anticipy.C134_even_partial
#print axioms Anticipy.C134_counterexample
-- C14
#print axioms Anticipy.C14_spike_date
#print axioms Anticipy.C14_step_date
-- C15
#print axioms Anticipy.C15_length_partial
#print axioms Anticipy.C15_whole_partial
#print axioms Anticipy.C15_counterexample
-- C16
#print axioms Anticipy.C16_history_independent
#print axioms Anticipy.C16_fix_params
-- C17
#print axioms Anticipy.C17_unchanged
#print axioms Anticipy.C17_simplify_partial
#print axioms Anticipy.C17_counterexample
-- C18
#print axioms Anticipy.C18_get_fixed_model
#print axioms Anticipy.C18_fixed_step
#print axioms Anticipy.C18_fixed_spike
-- C19
#print axioms Anticipy.C19_detect_freq
-- C20
#print axioms Anticipy.C20_normalized_x
-- C21
#print axioms Anticipy.C21_extrapolate_partial
#print axioms Anticipy.C21_month_end_partial
#print axioms Anticipy.C21_counterexample_month_end
#print axioms Anticipy.C21_counterexample_quarter
#print axioms Anticipy.C21_counterexample_fractional_years
-- C22
#print axioms Anticipy.C22_same_x_partial
#print axioms Anticipy.C22_counterexample
-- C23
#print axioms Anticipy.C23_numeric_partial
#print axioms Anticipy.C23_counterexample
-- C24
#print axioms Anticipy.C24_weekday_check
-- C25
#print axioms Anticipy.C25_fill
#print axioms Anticipy.C25_x_consistent_partial
#print axioms Anticipy.C25_no_gaps
#print axioms Anticipy.C25_duplicates
#print axioms Anticipy.C25_numeric
#print axioms Anticipy.C25_counterexample_monthly
-- C26
#print axioms Anticipy.C26_samples
#print axioms Anticipy.C26_returns
#print axioms Anticipy.C26_unlabelled_error
-- C27
#print axioms Anticipy.C27_sorted
#print axioms Anticipy.C27_idempotent_sources
#print axioms Anticipy.C27_idempotent
-- C28
#print axioms Anticipy.C28_permutation
-- C29
#print axioms Anticipy.C29_ignored_samples
#print axioms Anticipy.C29_insert
-- C30
#print axioms Anticipy.C30_no_samples
#print axioms Anticipy.C30_too_short
#print axioms Anticipy.C30_input_err
#print axioms Anticipy.C30_attempted
#print axioms Anticipy.C30_status
#print axioms Anticipy.C30_optimiser_unused
-- C31
#print axioms Anticipy.C31_formula
#print axioms Anticipy.C31_lower_error
#print axioms Anticipy.C31_fewer_params
#print axioms Anticipy.C31_defined
#print axioms Anticipy.C31_too_short
#print axioms Anticipy.C31_perfect_fit_best
#print axioms Anticipy.C31_perfect_fit_exception
-- C32
#print axioms Anticipy.C32_best_key_partial
#print axioms Anticipy.C32_counterexample
-- C33
#print axioms Anticipy.C33_residuals
#print axioms Anticipy.C33_total_weight
#print axioms Anticipy.C33_copies
-- C34
#print axioms Anticipy.C34_cost
#print axioms Anticipy.C34_nonneg
#print axioms Anticipy.C34_zero_iff
#print axioms Anticipy.C34_weights_positive
#print axioms Anticipy.C34_perfect
#print axioms Anticipy.C34_scale
#print axioms Anticipy.C34_scaled_table
#print axioms Anticipy.C34_same_optimum
-- C35
#print axioms Anticipy.C35_one_model
#print axioms Anticipy.C35_lowest
#print axioms Anticipy.C35_unique
#print axioms Anticipy.C35_series
-- C36
#print axioms Anticipy.C36_assertion
#print axioms Anticipy.C36_constant
#print axioms Anticipy.C36_linear_partial
#print axioms Anticipy.C36_nondec_partial
#print axioms Anticipy.C36_decay
#print axioms Anticipy.C36_ramp_partial
#print axioms Anticipy.C36_compose
#print axioms Anticipy.C36_default
#print axioms Anticipy.C36_linear_ramp
#print axioms Anticipy.C36_counterexample_linear
#print axioms Anticipy.C36_counterexample_ramp
#print axioms Anticipy.C36_counterexample_sigmoid_step
-- C37
#print axioms Anticipy.C37_naive
#print axioms Anticipy.C37_future
#print axioms Anticipy.C37_no_lookahead
#print axioms Anticipy.C37_no_cache
#print axioms Anticipy.C37_mismatch
#print axioms Anticipy.C37_counterexample_repeated_x
-- C38
#print axioms Anticipy.C38_seasonal_naive
#print axioms Anticipy.C38_counterexample_gap
-- C39
#print axioms Anticipy.C39_affine
#print axioms Anticipy.C39_step_trend
#print axioms Anticipy.C39_length
#print axioms Anticipy.C39_straight_line
#print axioms Anticipy.C39_spike_between
#print axioms Anticipy.C39_step_between
#print axioms Anticipy.C39_monotone
#print axioms Anticipy.C39_defined
#print axioms Anticipy.C39_counterexample_spike_trend
-- C40
#print axioms Anticipy.C40_weights
#print axioms Anticipy.C48_table
-- C41
#print axioms Anticipy.C41_combinations
#print axioms Anticipy.C41_exact_partial
#print axioms Anticipy.C41_degenerate
#print axioms Anticipy.C41_reproducible
#print axioms Anticipy.C41_sorted
#print axioms Anticipy.C41_candidates
#print axioms Anticipy.C41_counterexample
-- C42
#print axioms Anticipy.C42_null_always
#print axioms Anticipy.C42_enough_data
#print axioms Anticipy.C42_all_tried
#print axioms Anticipy.C42_no_dates
#print axioms Anticipy.C42_ramp
#print axioms Anticipy.C42_calendar
-- C43
#print axioms Anticipy.C43_ordered
#print axioms Anticipy.C43_complete
#print axioms Anticipy.C43_nested
#print axioms Anticipy.C43_run
#print axioms Anticipy.C43_series
-- C44
#print axioms Anticipy.C44_residuals
#print axioms Anticipy.C44_past
#print axioms Anticipy.C44_future
#print axioms Anticipy.C44_collapse
-- C45
#print axioms Anticipy.C45_rows_partial
#print axioms Anticipy.C45_sources_partial
#print axioms Anticipy.C45_counterexample
-- C46
#print axioms Anticipy.C46_period
#print axioms Anticipy.C46_shapes
#print axioms Anticipy.C46_total
#print axioms Anticipy.C46_no_frequency
#print axioms Anticipy.C46_zero_weight
-- C47
#print axioms Anticipy.C47_concatenation
#print axioms Anticipy.C47_succeeds
#print axioms Anticipy.C47_independent
#print axioms Anticipy.C47_no_influence
-- C48
#print axioms Anticipy.C48_actuals
#print axioms Anticipy.C48_best_only
#print axioms Anticipy.C48_all_fits_adds
#print axioms Anticipy.C48_forecast_rows
#print axioms Anticipy.C48_forecast_complete
#print axioms Anticipy.C48_table
#print axioms Anticipy.C48_table_forecast
-- C49
#print axioms Anticipy.C49_values_partial
#print axioms Anticipy.C49_rows_line_partial
#print axioms Anticipy.C49_rows_weekly_partial
#print axioms Anticipy.C49_rows_constant_partial
#print axioms Anticipy.C49_rows_additive_partial
#print axioms Anticipy.C49_no_dates
#print axioms Anticipy.C49_counterexample
-- C50
#print axioms Anticipy.C50_grid
#print axioms Anticipy.C50_panels
#print axioms Anticipy.C50_panel_rows
#print axioms Anticipy.C50_sources
-- C51
#print axioms Anticipy.C51_no_overwrite
#print axioms Anticipy.C51_collision
#print axioms Anticipy.C51_example
#print axioms Anticipy.C51_counterexample_same_stem
-- C52
#print axioms Anticipy.C52_bank_uk
#print axioms Anticipy.C52_august_partial
#print axioms Anticipy.C52_christmas_uk
#print axioms Anticipy.C52_uk_eight
#print axioms Anticipy.C52_counterexample
-- C53
#print axioms Anticipy.C53_required
#print axioms Anticipy.C53_additive
#print axioms Anticipy.C53_mode
-- C54
#print axioms Anticipy.C54_flags
#print axioms Anticipy.C54_stateless
#print axioms Anticipy.C54_single_holiday
#print axioms Anticipy.C54_params_partial
#print axioms Anticipy.C54_values
#print axioms Anticipy.C54_cached
#print axioms Anticipy.C54_counterexample_rules
-- C55
#print axioms Anticipy.C55_covers_partial
#print axioms Anticipy.C34_cost
#print axioms Anticipy.C34_zero_iff
#print axioms Anticipy.C55_short_series
#print axioms Anticipy.C55_counterexample
-- C56
#print axioms Anticipy.C56_values_partial
#print axioms Anticipy.C56_table_partial
#print axioms Anticipy.C56_counterexample
-- C57
#print axioms Anticipy.C57_values
#print axioms Anticipy.C57_rejects
-- C58
#print axioms Anticipy.C58_midnight_partial
#print axioms Anticipy.C58_counterexample
-- C59
#print axioms Anticipy.C59_trailing_slash_partial
#print axioms Anticipy.C59_default
#print axioms Anticipy.C59_top
#print axioms Anticipy.C59_rejects
#print axioms Anticipy.C59_counterexample_general
#print axioms Anticipy.C59_counterexample
-- C60
#print axioms Anticipy.C60_code_partial
#print axioms Anticipy.C60_file
#print axioms Anticipy.C60_no_path
#print axioms Anticipy.C60_counterexample
#print axioms Anticipy.C60_counterexample_no_actuals
-- C61
#print axioms Anticipy.C61_factor_partial
#print axioms Anticipy.C61_counterexample
-- C62
#print axioms Anticipy.C62_linear
#print axioms Anticipy.C62_table
#print axioms Anticipy.C62_errors
#print axioms Anticipy.C62_between
-- C63
#print axioms Anticipy.C63_mask_partial
#print axioms Anticipy.C63_numeric
#print axioms Anticipy.C63_on_request
#print axioms Anticipy.C63_counterexample_regular
#print axioms Anticipy.C63_counterexample_hourly
-- C64
#print axioms Anticipy.C64_statistic
#print axioms Anticipy.C64_decision
#print axioms Anticipy.C64_detects
#print axioms Anticipy.C64_additive
#print axioms Anticipy.C64_unit
-- C65
#print axioms Anticipy.C65_null_partial
#print axioms Anticipy.C65_observed_partial
#print axioms Anticipy.C65_counterexample
-- C66
#print axioms Anticipy.C66_default_names
#print axioms Anticipy.C66_names_partial
#print axioms Anticipy.C66_roles_partial
#print axioms Anticipy.C66_other_columns
#print axioms Anticipy.C66_missing
#print axioms Anticipy.C66_counterexample
-- C67
#print axioms Anticipy.C67_batch_partial
#print axioms Anticipy.C67_arguments
#print axioms Anticipy.C67_weights
#print axioms Anticipy.C67_empty_input
#print axioms Anticipy.C67_counterexample
-- C68
#print axioms Anticipy.C68_cost
#print axioms Anticipy.C68_score
#print axioms Anticipy.aicC_unitFree
#print axioms Anticipy.C68_choice
#print axioms Anticipy.C68_table
#print axioms Anticipy.C68_candidates
#print axioms Anticipy.unitFree_add
#print axioms Anticipy.unitFree_mul
#print axioms Anticipy.linear_unitFree
#print axioms Anticipy.ramp_unitFree
#print axioms Anticipy.seasonWday_unitFree
#print axioms Anticipy.naive_unitFree
#print axioms Anticipy.snaive_unitFree
#print axioms Anticipy.fourier_unitFree
-- C69
#print axioms Anticipy.C69_reproduced
#print axioms Anticipy.C69_line
#print axioms Anticipy.C69_table
-- C70
#print axioms Anticipy.C70_weekly
#print axioms Anticipy.C70_table
-- C71
#print axioms Anticipy.C71_weekdays
#print axioms Anticipy.C71_tried
#print axioms Anticipy.C71_run
#print axioms Anticipy.C71_decay
#print axioms Anticipy.C71_unconditional
#print axioms Anticipy.C71_unconditional_real
#print axioms Anticipy.C71_table
-- C72
#print axioms Anticipy.C72_working_days
#print axioms Anticipy.C72_christmas
#print axioms Anticipy.C72_month_start
#print axioms Anticipy.C72_undated
-- C73
#print axioms Anticipy.C73_cost
#print axioms Anticipy.C73_choice
#print axioms Anticipy.C73_fitted
#print axioms Anticipy.C73_line
#print axioms Anticipy.C73_weekly
#print axioms Anticipy.C73_additive
#print axioms Anticipy.C73_table
-- C74
#print axioms Anticipy.C74_fitted
#print axioms Anticipy.C74_line
#print axioms Anticipy.C74_weekly
#print axioms Anticipy.C74_constant
#print axioms Anticipy.C74_additive
#print axioms Anticipy.C74_table
-- C75
#print axioms Anticipy.C75_fitted
#print axioms Anticipy.C75_line
#print axioms Anticipy.C75_weekly
#print axioms Anticipy.C75_constant
#print axioms Anticipy.C75_additive
#print axioms Anticipy.C75_table
-- C76
#print axioms Anticipy.C76_line
#print axioms Anticipy.C76_weekly
#print axioms Anticipy.C76_constant
#print axioms Anticipy.C76_cost
#print axioms Anticipy.C76_choice
#print axioms Anticipy.C76_additive
#print axioms Anticipy.C76_table
#print axioms Anticipy.C76_intervals
#print axioms Anticipy.C76_intervals_table
-- C77
#print axioms Anticipy.C77_outliers
#print axioms Anticipy.C77_line
#print axioms Anticipy.C77_weekly
#print axioms Anticipy.C77_constant
#print axioms Anticipy.C77_additive
#print axioms Anticipy.C77_table
#print axioms Anticipy.C77_intervals
#print axioms Anticipy.C77_intervals_table
-- C78
#print axioms Anticipy.C78_options
#print axioms Anticipy.C78_samples
#print axioms Anticipy.C78_result
#print axioms Anticipy.C78_succeeds
#print axioms Anticipy.C78_observations
#print axioms Anticipy.C78_plot
#print axioms Anticipy.C78_unreadable
#print axioms Anticipy.C78_plot_failure
-- C79
#print axioms Anticipy.C79_one_line_partial
#print axioms Anticipy.C79_counterexample
-- C80
#print axioms Anticipy.C80_line
#print axioms Anticipy.C80_weekly
#print axioms Anticipy.C80_constant
#print axioms Anticipy.C80_additive
-- C81
#print axioms Anticipy.C81_naive
#print axioms Anticipy.C81_seasonal
#print axioms Anticipy.C81_table
#print axioms Anticipy.C81_series
#print axioms Anticipy.C81_periodic
-- C82
#print axioms Anticipy.C82_total_partial
#print axioms Anticipy.C82_table_partial
#print axioms Anticipy.C82_sources_partial
#print axioms Anticipy.C82_default_partial
#print axioms Anticipy.C82_weekly_partial
#print axioms Anticipy.C82_weekly_table_partial
#print axioms Anticipy.C82_mixed_partial
#print axioms Anticipy.C82_mixed_default_partial
#print axioms Anticipy.C82_numeric_partial
#print axioms Anticipy.C82_numeric_table_partial
#print axioms Anticipy.C82_numeric_default_partial
#print axioms Anticipy.C82_numeric_sources_partial
#print axioms Anticipy.C82_numeric_sources_default_partial
#print axioms Anticipy.C82_complete_partial
#print axioms Anticipy.C82_complete_table_partial
#print axioms Anticipy.C82_all_default_partial
#print axioms Anticipy.C82_counterexample_single
#print axioms Anticipy.C82_counterexample_uncounted
#print axioms Anticipy.C82_counterexample_sources
#print axioms Anticipy.C82_counterexample_long
#print axioms Anticipy.C82_counterexample_months
-- C83
#print axioms Anticipy.C83_horizon_partial
#print axioms Anticipy.C83_daily_partial
#print axioms Anticipy.C83_table_partial
#print axioms Anticipy.C83_sources_partial
#print axioms Anticipy.C83_default_partial
#print axioms Anticipy.C83_counterexample
-- C84
#print axioms Anticipy.C84_null_rows_partial
#print axioms Anticipy.C84_table_partial
#print axioms Anticipy.C84_series_partial
#print axioms Anticipy.C84_default_partial
#print axioms Anticipy.C84_counterexample
-- C85
#print axioms Anticipy.C85_independent
#print axioms Anticipy.C85_score
#print axioms Anticipy.C85_trend
#print axioms Anticipy.C85_naive
#print axioms Anticipy.C85_table_trend
#print axioms Anticipy.C85_table_naive
-- C86
#print axioms Anticipy.C86_comparisons
#print axioms Anticipy.C86_congruence
#print axioms Anticipy.C86_identity_partial
#print axioms Anticipy.C86_candidates_partial
#print axioms Anticipy.C86_counterexample
#print axioms Anticipy.C86_counterexample_name
-- C87
#print axioms Anticipy.C87_single
#print axioms Anticipy.C87_column
#print axioms Anticipy.C87_renamed_source
#print axioms Anticipy.C87_renamed
#print axioms Anticipy.C87_ties
-- C88
#print axioms Anticipy.C88_line
#print axioms Anticipy.C88_weekly
#print axioms Anticipy.C88_total
#print axioms Anticipy.C88_constant
#print axioms Anticipy.C88_additive
#print axioms Anticipy.C88_table
#print axioms Anticipy.C88_row
-- C89
#print axioms Anticipy.C89_line
#print axioms Anticipy.C89_weekly
#print axioms Anticipy.C89_constant
#print axioms Anticipy.C89_additive
#print axioms Anticipy.C89_table
-- C90
#print axioms Anticipy.C90_ones
#print axioms Anticipy.C90_ones_search
#print axioms Anticipy.C90_search
#print axioms Anticipy.C90_search_weighted
#print axioms Anticipy.C90_rising
#print axioms Anticipy.C90_table
#print axioms Anticipy.C90_table_search
-- C91
#print axioms Anticipy.C91_unit
#print axioms Anticipy.C91_mirror
#print axioms Anticipy.C91_line
#print axioms Anticipy.C91_weekly
#print axioms Anticipy.C91_constant
#print axioms Anticipy.C91_additive
#print axioms Anticipy.C91_table
#print axioms Anticipy.C91_naive
#print axioms Anticipy.C91_snaive
#print axioms Anticipy.C91_naive_table
-- C92
#print axioms Anticipy.C92_uk_partial
#print axioms Anticipy.C92_ita_partial
#print axioms Anticipy.C92_us
#print axioms Anticipy.C92_law_partial
#print axioms Anticipy.C92_counterexample
-- C93
#print axioms Anticipy.C93_step
#print axioms Anticipy.C93_spike
#print axioms Anticipy.C93_level_spike_partial
#print axioms Anticipy.C93_level_step_partial
#print axioms Anticipy.C93_run_partial
#print axioms Anticipy.C93_counterexample_end
#print axioms Anticipy.C93_table_partial
-- C94
#print axioms Anticipy.C94_all_fits
#print axioms Anticipy.C94_simplify
#print axioms Anticipy.C94_report
-- C95
#print axioms Anticipy.C95_metadata
#print axioms Anticipy.C95_observations
#print axioms Anticipy.C95_forecasts_partial
#print axioms Anticipy.C95_undated_partial
#print axioms Anticipy.C95_label_partial
#print axioms Anticipy.C95_counterexample_unweighted
#print axioms Anticipy.C95_counterexample
#print axioms Anticipy.C95_counterexample_scaled
#print axioms Anticipy.C95_table
-- C96
#print axioms Anticipy.C96_continued
#print axioms Anticipy.C96_table
-- C97
#print axioms Anticipy.C97_rejected_partial
#print axioms Anticipy.C97_real_partial
#print axioms Anticipy.C97_season_partial
#print axioms Anticipy.C97_two_steps_partial
#print axioms Anticipy.C97_fixed_partial
#print axioms Anticipy.C97_counterexample
#print axioms Anticipy.C97_counterexample_fixed
-- C98
#print axioms Anticipy.C98_start_partial
#print axioms Anticipy.C98_numpy_partial
#print axioms Anticipy.C98_counterexample
-- C99
#print axioms Anticipy.C99_counts_partial
#print axioms Anticipy.C99_real_partial
#print axioms Anticipy.C99_fixed
#print axioms Anticipy.C99_spike_partial
#print axioms Anticipy.C99_counterexample
