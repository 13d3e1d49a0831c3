{"id": "C01", "title": "Composed models evaluate as the arithmetic of their parts", "statement": "Evaluating any expression built from forecast models with + and * gives, at every sample, the arithmetic combination of the component values, where each component receives its own consecutive slice of the parameter vector (left to right), components of a sum are evaluated in additive mode and components of a product in multiplicative mode.", "quantifier": "for every expression tree of models, every parameter vector with as many entries as the composite declares, every input array and date array", "why_tests_cant": "Expression trees are unbounded in depth and parameters are real-valued; tests only compose two or three models on fixed arrays.", "anchors": [{"file": "anticipy/forecast_models.py", "symbols": ["ForecastModel.__add__", "ForecastModel.__mul__", "_get_f_add_2_f_models", "_get_f_mult_2_f_models"]}]}
{"id": "C02", "title": "The null model is a neutral element", "statement": "Adding or multiplying any model by the null model, on either side, gives back a model that behaves identically: same name, parameter count, values, initial guess, bounds, validators and cache.", "quantifier": "for every model and both operators and both sides", "why_tests_cant": "Ranges over all user-defined models, including arbitrary Python callables.", "anchors": [{"file": "anticipy/forecast_models.py", "symbols": ["ForecastModel.__add__", "ForecastModel.__mul__", "model_null"]}]}
{"id": "C03", "title": "Parameter counts, initial guesses and bounds stay consistent under composition", "statement": "The composite declares the sum of the parts' parameter counts; its bounds and its initial guess are the concatenation of the parts' bounds and guesses, so if every part's initial guess has the declared length and lies inside its bounds the same is true of the composite.", "quantifier": "for every expression tree, every data set and every random draw used by default guesses", "why_tests_cant": "Default guesses are random; nesting depth is unbounded.", "anchors": [{"file": "anticipy/forecast_models.py", "symbols": ["_get_f_init_params_default", "_get_f_bounds_default", "_get_f_init_params_validated", "_get_f_concat_2_bounds", "ForecastModel.__add__", "ForecastModel.__mul__"]}]}
{"id": "C04", "title": "Grouping of a chain of additions (or multiplications) does not matter", "statement": "(a+b)+c and a+(b+c) have the same parameter count and the same value for every parameter vector, and likewise for products; the order of parts only permutes the parameter vector.", "quantifier": "for all models a, b, c, parameter vectors and inputs", "why_tests_cant": "Universal over functions; tests only exercise a couple of compositions.", "anchors": [{"file": "anticipy/forecast_models.py", "symbols": ["ForecastModel.__add__", "ForecastModel.__mul__"]}]}
{"id": "C05", "title": "Precomputed caches never change a forecast", "statement": "Evaluating a model with the cached date features computed for the same inputs gives exactly the result of evaluating it without them, provided components that share a cache-variable name compute the same feature. Without that proviso (two different dummy models with one name) the property fails: the second model silently reuses the first one's dates.", "quantifier": "for every composition of season, fourier and dummy models, every input and parameter vector", "why_tests_cant": "The cache is only consulted inside the optimiser; tests never compare cached and uncached values for all compositions.", "anchors": [{"file": "anticipy/forecast_models.py", "symbols": ["ForecastModel.init_cache", "ForecastModel.__call__", "ForecastModel.__add__", "_f_model_season_wday", "_f_model_season_month", "_f_model_yearly_season_fourier", "_get_f_model_dummy"]}]}
{"id": "C06", "title": "Input validation of a composite accepts exactly what all parts accept", "statement": "validate_input is true for a composite exactly when it is true for every part, and it is false whenever some validator raises an assertion error. The documented alternative - a validator that returns False makes validation fail - does not hold in the code: the return value is ignored.", "quantifier": "for every expression tree, validators and data", "why_tests_cant": "Requires quantification over arbitrary validators and data.", "anchors": [{"file": "anticipy/forecast_models.py", "symbols": ["ForecastModel.validate_input", "_f_validate_input_default"]}]}
{"id": "C07", "title": "Dummy models add their amplitude on flagged dates and are neutral elsewhere", "statement": "In additive mode a dummy model contributes its parameter on flagged dates and 0 on all other dates; in multiplicative mode it contributes factor 1 on unflagged dates. For a list of dates, a sample is flagged exactly when its timestamp is in the list; for a calendar, when its timestamp is a holiday of the calendar. (The docstring's factor A on flagged dates in multiplicative mode is violated: the code gives A+1.)", "quantifier": "for all date lists, holiday sets, date arrays and parameter values", "why_tests_cant": "All subsets of dates cannot be enumerated.", "anchors": [{"file": "anticipy/forecast_models.py", "symbols": ["_get_f_model_dummy", "get_model_dummy", "_get_f_dummy_from_list", "_get_f_dummy_from_calendar", "_get_f_dummy_from_holiday"]}]}
{"id": "C08", "title": "Weekday and month seasonality depend only on weekday or month", "statement": "The weekday model's value at a date is a function of the weekday alone, with Monday fixed at the neutral level (0 additive, 1 multiplicative) and the six other levels freely assignable; the month model likewise depends on the month alone with January at the neutral level, so every forecast repeats with the weekly or yearly pattern.", "quantifier": "for all dates, parameters and both modes", "why_tests_cant": "Infinite set of dates and real parameters; off-by-one month or weekday mappings can agree on sampled dates.", "anchors": [{"file": "anticipy/forecast_models.py", "symbols": ["_f_model_season_wday", "_f_model_season_month", "model_season_wday", "model_season_month"]}]}
{"id": "C09", "title": "Step, ramp and two-step trends have the documented shape", "statement": "The step model is neutral before its location and shifted (scaled) from it on; the ramp is neutral up to its location and grows linearly with its slope after it; linear+ramp is the continuous piecewise-linear curve whose slope changes from A to A+C at the location; the two-step model is the sum (product) of two independent steps.", "quantifier": "for all real parameters, sample positions and both modes", "why_tests_cant": "Real-valued locations between and outside of samples; tests check single vectors.", "anchors": [{"file": "anticipy/forecast_models.py", "symbols": ["_f_step", "model_step", "_f_ramp", "model_ramp", "_f_n_steps", "model_two_steps"]}]}
{"id": "C10", "title": "The non-decreasing linear trend never decreases", "statement": "Whenever parameters respect the declared bounds of the non-decreasing linear model, its forecast never decreases with x; the bounds exclude exactly the decreasing lines.", "quantifier": "for all parameters within bounds and all pairs of positions", "why_tests_cant": "Real-valued; depends on bounds handling in the optimiser.", "anchors": [{"file": "anticipy/forecast_models.py", "symbols": ["f_bounds_linear_nondec", "f_init_params_linear_nondec", "model_linear_nondec", "_f_model_linear"]}]}
{"id": "C11", "title": "Exponential decay trends approach their asymptote monotonically", "statement": "With parameters inside the declared bounds of the decay model the forecast A*exp(B*x)+D never moves away from its asymptote D as x grows, never crosses it, and for B<0 comes arbitrarily close to it.", "quantifier": "for all parameters within the bounds and all positions", "why_tests_cant": "Transcendental function on reals; sampling cannot prove monotonicity.", "anchors": [{"file": "anticipy/forecast_models.py", "symbols": ["_f_model_decay", "f_bounds_decay", "model_decay"]}]}
{"id": "C12", "title": "Logistic trends stay strictly between their two levels", "statement": "The sigmoid models' forecast lies strictly between the neutral level (0, or 1 in multiplicative mode) and the step level B whenever they differ, moves monotonically towards B as x grows when the steepness is inside its declared bounds, and is exactly half-way at the step position.", "quantifier": "for all real parameters satisfying the sign conditions and all positions", "why_tests_cant": "Transcendental function on reals.", "anchors": [{"file": "anticipy/forecast_models.py", "symbols": ["_f_sigmoid", "model_sigmoid", "model_sigmoid_step", "_f_init_bounds_sigmoid_step"]}]}
{"id": "C13", "title": "Fourier seasonality is bounded and repeats every four years", "statement": "The yearly Fourier component has twenty coefficients, its absolute value never exceeds the sum of the absolute coefficients, and it repeats exactly after 1461 days.", "quantifier": "for all coefficients and dates", "why_tests_cant": "Real trigonometric identities cannot be established by sampling.", "anchors": [{"file": "anticipy/forecast_models.py", "symbols": ["_f_init_cache_a_t_fourier", "_f_model_yearly_season_fourier", "model_season_fourier_yearly"]}]}
{"id": "C14", "title": "Date-based spikes cover exactly the half-open period", "statement": "A spike model built from two dates changes exactly the samples with start <= date < end, by its parameter (as offset or factor) and leaves every other sample at the neutral level; a step built from a date changes exactly the samples at or after the date.", "quantifier": "for all date arrays, periods and parameters", "why_tests_cant": "Boundary instants between samples.", "anchors": [{"file": "anticipy/forecast_models.py", "symbols": ["_f_model_spike_date", "get_model_spike_date", "_f_model_step_date", "get_model_step_date"]}]}
{"id": "C15", "title": "Spike model produces one value per sample", "statement": "The output of the spike model has exactly one value per input sample. This holds when the start and end parameters are whole numbers within range, and fails for fractional parameters, which is what the least-squares optimiser proposes.", "quantifier": "for all input lengths and parameter values", "why_tests_cant": "Only some real-valued parameters break it.", "anchors": [{"file": "anticipy/forecast_models.py", "symbols": ["_f_model_spike", "model_spike"]}]}
{"id": "C16", "title": "Fixing parameters freezes exactly those parameters", "statement": "A model built by fixing some parameters evaluates as the original model with the fixed values in their positions and the free parameters in the remaining positions in order; it declares as many parameters as there are free positions; the result of a call never depends on earlier calls although the implementation overwrites a shared array.", "quantifier": "for all models, fixed vectors, sequences of earlier calls and free parameters", "why_tests_cant": "Aliasing bugs only appear in particular call sequences.", "anchors": [{"file": "anticipy/forecast_models.py", "symbols": ["fix_params_fmodel"]}]}
{"id": "C17", "title": "Simplification for degenerate bounds preserves the model", "statement": "Simplifying a model returns it unchanged when no parameter has equal lower and upper bound, and otherwise returns a model that agrees with the original at every parameter vector within the bounds.", "quantifier": "for all models, bounds and parameter vectors", "why_tests_cant": "Quantifies over all bounds patterns.", "anchors": [{"file": "anticipy/forecast_models.py", "symbols": ["simplify_model", "fix_params_fmodel"]}]}
{"id": "C18", "title": "A model with all parameters fixed is parameterless and evaluates to the original at these values", "statement": "get_fixed_model returns a model with zero parameters whose value on any input, whatever parameters are passed, equals the original model's value at the given parameters.", "quantifier": "for all models, parameter vectors, inputs", "why_tests_cant": "Universal over functions.", "anchors": [{"file": "anticipy/forecast_models.py", "symbols": ["get_fixed_model", "create_fixed_step", "create_fixed_spike"]}]}
{"id": "C19", "title": "Frequency detection recognises every regular calendar grid", "statement": "For dates forming a regular hourly, daily, weekly (any weekday), month-start, month-end, quarter-end, year-start or year-end grid of at least two dates, in any order and with any repetitions, frequency detection returns exactly that frequency.", "quantifier": "for all starting points, lengths, orders and multiplicities", "why_tests_cant": "Calendar irregularities (leap years, month lengths) make special dates fail; unbounded.", "anchors": [{"file": "anticipy/model_utils.py", "symbols": ["detect_freq"]}]}
{"id": "C20", "title": "x coordinates count days and encode the weekday", "statement": "Coordinates derived from dates are days since the Monday on or before the first date: equal time-of-day dates get x congruent to the weekday modulo 7, differences of x are differences of days, and the first sample gets x between 0 and 6.", "quantifier": "for all date lists", "why_tests_cant": "Unbounded date ranges incl. negative epoch days.", "anchors": [{"file": "anticipy/model_utils.py", "symbols": ["get_normalized_x_from_date"]}]}
{"id": "C21", "title": "Extrapolation covers the actuals and then the requested horizon", "statement": "For a dated series starting on its frequency grid, the extrapolated dates are exactly the grid dates from the first date to the last date plus the horizon: strictly increasing, containing every actual grid date, with floor(365y), floor(52y), floor(8760y), 12y and y extra samples for daily, weekly, hourly, month-start and year-start data. For month-end data the last month can be missing, and quarterly data raise a TypeError.", "quantifier": "for all frequencies, starting dates, lengths and horizons", "why_tests_cant": "End-of-month arithmetic errors only show for particular months.", "anchors": [{"file": "anticipy/model_utils.py", "symbols": ["get_s_x_extrapolate", "dict_freq_units_per_year", "dict_dateoffset_input"]}]}
{"id": "C22", "title": "The forecast uses the same x as the fit at every actual date", "statement": "At every actual date on the grid, the x coordinate used for extrapolating equals the x coordinate used for fitting.", "quantifier": "for all series sorted by date and all horizons", "why_tests_cant": "A constant offset would silently shift all forecasts; depends on first-date alignment.", "anchors": [{"file": "anticipy/model_utils.py", "symbols": ["get_s_x_extrapolate", "get_normalized_x_from_date"]}, {"file": "anticipy/forecast.py", "symbols": ["normalize_df", "extrapolate_model"]}]}
{"id": "C23", "title": "Numeric series extrapolate on consecutive integer x", "statement": "For a series without dates the extrapolated x are the consecutive integers from the first actual x, covering all actual x plus 100 samples per year. The code satisfies this only when the first x is 0 (otherwise x values are shifted by the first x) and the horizon is positive.", "quantifier": "for all integer start and end x and horizons", "why_tests_cant": "Tests only use series that start at 0.", "anchors": [{"file": "anticipy/model_utils.py", "symbols": ["get_s_x_extrapolate"]}]}
{"id": "C24", "title": "Weekly extrapolation refuses a mismatching weekday", "statement": "Extrapolating with a weekly frequency anchored on a given weekday raises an assertion error unless the first date falls on this weekday, and never raises it when it does.", "quantifier": "for all dates and weekdays", "why_tests_cant": "All dates.", "anchors": [{"file": "anticipy/model_utils.py", "symbols": ["get_s_x_extrapolate"]}]}
{"id": "C25", "title": "Gap filling yields a regular grid and keeps the observed samples", "statement": "Filling gaps returns one row per grid date between the first and last date; every observed sample whose date is on the grid is kept unchanged; new rows have null y (when y is not interpolated); x stays consistent with dates; series without gaps are returned unchanged.", "quantifier": "for all series and frequencies", "why_tests_cant": "Gap patterns are unbounded.", "anchors": [{"file": "anticipy/model_utils.py", "symbols": ["interpolate_df", "detect_freq"]}]}
{"id": "C26", "title": "Normalisation neither loses nor invents samples", "statement": "The normalised table contains exactly the input samples (date, source, y, weight), each exactly as often as in the input, except rows without source label.", "quantifier": "for all input tables", "why_tests_cant": "Arbitrary tables with duplicates and nulls.", "anchors": [{"file": "anticipy/forecast.py", "symbols": ["normalize_df"]}]}
{"id": "C27", "title": "Normalised tables are sorted and normalisation is idempotent", "statement": "The normalised table is sorted by source and then by x, and normalising it again gives the same table.", "quantifier": "for all input tables", "why_tests_cant": "Arbitrary input orders.", "anchors": [{"file": "anticipy/forecast.py", "symbols": ["normalize_df"]}]}
{"id": "C28", "title": "Row order of the input only shifts the x origin by whole weeks", "statement": "Permuting the rows of a dated table whose dates share the time of day changes the x coordinates of each source by a constant multiple of 7 days and leaves dates, y and weights of the output the same multiset.", "quantifier": "for all tables and permutations", "why_tests_cant": "All permutations.", "anchors": [{"file": "anticipy/forecast.py", "symbols": ["normalize_df"]}, {"file": "anticipy/model_utils.py", "symbols": ["get_normalized_x_from_date"]}]}
{"id": "C29", "title": "Null and zero-weight samples do not influence the fit", "statement": "Adding to or removing from the data any samples with null y, null weight or weight <= 0 leaves status, fitted parameters, cost and AICc of every model fit unchanged.", "quantifier": "for all series, models and inserted samples", "why_tests_cant": "Quantifies over all insertions and all optimisers.", "anchors": [{"file": "anticipy/forecast.py", "symbols": ["fit_model"]}]}
{"id": "C30", "title": "Model fits have exactly one of the documented outcomes", "statement": "A fit of a model with k parameters on n usable samples returns status TS_TOO_SHORT exactly when 0 < n < k+2, INPUT_ERR exactly when long enough and validation fails, and otherwise FIT or NO-FIT; the optimiser runs only in the last case. The documented EMPTY result for n = 0 is never produced: the code raises instead.", "quantifier": "for all series, models and optimiser behaviours", "why_tests_cant": "The optimiser is a black box; boundary counts for all models.", "anchors": [{"file": "anticipy/forecast.py", "symbols": ["fit_model", "_get_empty_df_result_optimize"]}]}
{"id": "C31", "title": "AICc rewards a lower error and fewer parameters", "statement": "For a given number of samples and parameters AICc is strictly increasing in the positive fit error; for a given error it is strictly increasing in the number of parameters; it is never undefined for fits admitted by the fitting routine, except that a perfect fit with several parameters on 4048 or more samples raises a math error.", "quantifier": "for all errors, sample counts and parameter counts", "why_tests_cant": "Real-valued.", "anchors": [{"file": "anticipy/model_utils.py", "symbols": ["get_aic_c"]}, {"file": "anticipy/forecast.py", "symbols": ["fit_model"]}]}
{"id": "C32", "title": "Best-result selection returns the key with the minimum AICc", "statement": "Selecting the best key from a list of scores returns the position of a minimal score; a single score of minus infinity wins. With two or more minus infinities the code raises a ValueError instead.", "quantifier": "for all score lists", "why_tests_cant": "All lists.", "anchors": [{"file": "anticipy/model_utils.py", "symbols": ["get_s_aic_c_best_result_key"]}]}
{"id": "C33", "title": "Repeated samples at one x share one unit of weight", "statement": "In the residuals, k samples with the same x have their weights divided by k, so weights per x add up as for one averaged sample. (k identical copies of a sample contribute 1/k of the cost of a single one, so duplicating rows is not neutral.)", "quantifier": "for all samples, weights, multiplicities and models", "why_tests_cant": "All multiplicities.", "anchors": [{"file": "anticipy/forecast.py", "symbols": ["fit_model", "get_residuals"]}]}
{"id": "C34", "title": "The residual cost is zero exactly for perfect predictions and scales with the square of the weights", "statement": "Residuals are prediction minus observation times weight: cost is non-negative, zero iff every positively weighted sample is reproduced, and multiplying all weights by c multiplies cost by c squared, so the optimum is not affected.", "quantifier": "for all models, parameters and data", "why_tests_cant": "Real-valued.", "anchors": [{"file": "anticipy/forecast.py", "symbols": ["get_residuals", "optimize_least_squares"]}]}
{"id": "C35", "title": "The reported best fit has the lowest AICc among the successfully fitted models", "statement": "For every source at most one model is flagged as best fit, some model is flagged whenever one could be fitted, and no fitted model has a lower AICc.", "quantifier": "for all data, candidate lists and optimiser results", "why_tests_cant": "Optimiser results are arbitrary.", "anchors": [{"file": "anticipy/forecast.py", "symbols": ["run_forecast_single"]}]}
{"id": "C36", "title": "Initial guesses of the built-in trend models respect their bounds", "statement": "For every data set accepted by the model's validation, the initial guess of the constant, linear, non-decreasing linear, decay and ramp models lies inside the declared bounds (so the optimiser's feasibility assertion passes). For the sigmoid step model there are data for which it does not.", "quantifier": "for all data sets", "why_tests_cant": "Data sets are infinite.", "anchors": [{"file": "anticipy/forecast_models.py", "symbols": ["f_init_params_linear_nondec", "f_init_params_decay", "_f_init_params_ramp", "_f_init_bounds_ramp", "_f_init_params_sigmoid_step", "_f_init_bounds_sigmoid_step", "validate_initial_guess"]}]}
{"id": "C37", "title": "Naive forecast repeats the last observation and never looks ahead", "statement": "The naive model predicts for every date after the actuals the last non-null actual value; for dates within the actuals it predicts the last non-null value strictly before, except at the leading samples that have no predecessor.", "quantifier": "for all series with distinct x, with gaps, and all horizons", "why_tests_cant": "All gap patterns.", "anchors": [{"file": "anticipy/forecast_models.py", "symbols": ["_f_model_naive", "model_naive"]}]}
{"id": "C38", "title": "Seasonal naive forecast repeats the last observation of the same weekday", "statement": "The seasonal naive model predicts for each future date the last non-null actual on the same weekday.", "quantifier": "for all daily series and horizons", "why_tests_cant": "All gap patterns and start weekdays.", "anchors": [{"file": "anticipy/forecast_models.py", "symbols": ["_fillna_wday", "_f_model_snaive_wday", "model_snaive_wday"]}]}
{"id": "C39", "title": "Outlier detection is invariant under level shifts, rescaling and reflection", "statement": "Adding a constant to y or multiplying y by a non-zero factor leaves the detected steps and spikes unchanged; in dated series adding a straight line leaves the steps unchanged; masks have one entry per sample; a straight-line series has no outliers; a spike lies between an abrupt jump and another one, some of them up and some down, so a series that never falls has no spikes.", "quantifier": "for all series", "why_tests_cant": "Real-valued series.", "anchors": [{"file": "anticipy/forecast_models.py", "symbols": ["get_model_outliers", "get_iqr_thresholds"]}]}
{"id": "C40", "title": "Outlier handling only ever sets weights to zero at spikes", "statement": "With spike search on, a forecast run keeps every sample's y and sets the weight to 0 exactly at detected spike samples, leaving other weights as supplied; with the search off weights are untouched.", "quantifier": "for all series", "why_tests_cant": "All series.", "anchors": [{"file": "anticipy/forecast.py", "symbols": ["run_forecast_single"]}, {"file": "anticipy/forecast_models.py", "symbols": ["get_model_outliers"]}]}
{"id": "C41", "title": "Candidate models are exactly the trend/season combinations", "statement": "The candidate list contains exactly one model for every distinct combination of trend and seasonality (addition or multiplication as requested); its order depends on names only, so results are reproducible although Python sets are unordered.", "quantifier": "for all trend and season lists", "why_tests_cant": "Set iteration order is non-deterministic.", "anchors": [{"file": "anticipy/forecast.py", "symbols": ["get_list_model"]}, {"file": "anticipy/forecast_models.py", "symbols": ["ForecastModel.__eq__", "ForecastModel.__lt__"]}]}
{"id": "C42", "title": "Automatic seasonality is only tried with enough data", "statement": "A weekly (yearly) component is a candidate only if the series spans more than the minimum number of weeks (years) and has samples close enough in time; the no-seasonality candidate is always present; without dates only that.", "quantifier": "for all series and settings", "why_tests_cant": "Thresholds over all date lists.", "anchors": [{"file": "anticipy/forecast_models.py", "symbols": ["get_l_model_auto_season"]}, {"file": "anticipy/forecast.py", "symbols": ["_get_use_ramp", "_get_use_calendar"]}]}
{"id": "C43", "title": "Prediction intervals are ordered and nested", "statement": "In every forecast row the lower quantile column is not above the upper one, and the narrower interval lies inside the wider one, whatever the random draws.", "quantifier": "for all residuals, random draws, horizons and quantile settings", "why_tests_cant": "Bootstrap sampling is random.", "anchors": [{"file": "anticipy/forecast.py", "symbols": ["get_pi", "_df_add_pi_percentiles", "_get_pi_single_source"]}]}
{"id": "C44", "title": "Prediction intervals are bounded by the observed residuals and collapse for perfect fits", "statement": "In-sample interval bounds lie within forecast plus the extreme centred residuals; future bounds within forecast plus the extremes times the number of accumulated steps; if all residuals are equal, the interval is the single point forecast.", "quantifier": "for all residuals, draws and horizons", "why_tests_cant": "Random draws.", "anchors": [{"file": "anticipy/forecast.py", "symbols": ["_get_pi_single_source", "_df_add_pi_percentiles"]}]}
{"id": "C45", "title": "Adding prediction intervals keeps every forecast row", "statement": "The table with prediction intervals contains exactly the non-null actual rows and the best-fit forecast rows, with unchanged values, each once, and actual rows get no interval.", "quantifier": "for all forecast tables with at least one actual sample", "why_tests_cant": "All tables.", "anchors": [{"file": "anticipy/forecast.py", "symbols": ["get_pi", "_get_pi_single_source"]}]}
{"id": "C46", "title": "Interval simulation arrays always have matching shapes", "statement": "For every number of future samples and every accumulation period the simulated cumulative residuals have at least as many rows as future samples, so the addition never fails, and the accumulation period is at least 1.", "quantifier": "for all sample counts, frequencies", "why_tests_cant": "Ceil/division corner cases for all integers.", "anchors": [{"file": "anticipy/forecast.py", "symbols": ["_get_pi_single_source", "_get_days_from_freq"]}]}
{"id": "C47", "title": "Sources are forecast independently", "statement": "The result for a table with several sources is the concatenation of the results of each source alone; changing one source's data never changes another's forecast.", "quantifier": "for all tables, settings, optimisers", "why_tests_cant": "Universal over data.", "anchors": [{"file": "anticipy/forecast.py", "symbols": ["run_forecast", "aggregate_forecast_dict_results", "normalize_df"]}]}
{"id": "C48", "title": "Forecast tables contain all actuals and only the best-fit forecast", "statement": "The result contains every input sample on or after the starting date as an actual row with its y, and unless all fits are requested every other row belongs to the best-fit model; asking for all fits only adds rows.", "quantifier": "for all data and settings", "why_tests_cant": "Universal over data.", "anchors": [{"file": "anticipy/forecast.py", "symbols": ["run_forecast_single", "get_df_actuals_clean", "_get_df_fcast_clean"]}]}
{"id": "C49", "title": "Samples before the starting date do not influence a dated forecast", "statement": "With a starting date for actuals, changing or removing dated samples before it does not change the forecast; for series without dates the setting is silently ignored.", "quantifier": "for all series and starting dates", "why_tests_cant": "Universal over data.", "anchors": [{"file": "anticipy/forecast.py", "symbols": ["run_forecast_single"]}]}
{"id": "C50", "title": "Plot grids have a distinct cell for every source", "statement": "Faceted plots of n sources use a grid with at least n cells, each source gets its own cell inside the grid, and no whole row is wasted. Rows of different sources are never drawn in the same panel, and all actuals are shown.", "quantifier": "for all n >= 1", "why_tests_cant": "All n.", "anchors": [{"file": "anticipy/forecast_plot.py", "symbols": ["plot_forecast", "_matplotlib_forecast_create", "_plotly_forecast_create"]}]}
{"id": "C51", "title": "The command line app never overwrites its input", "statement": "The files written by the app differ from each other and from the input file; different input names may collide only if they share the part before the first dot.", "quantifier": "for all file names", "why_tests_cant": "All strings.", "anchors": [{"file": "anticipy/app.py", "symbols": ["run_forecast_app"]}]}
{"id": "C52", "title": "UK bank holidays fall on the statutory weekdays", "statement": "The UK calendar's early May holiday is the first Monday of May, the spring holiday the last Monday of May, Good Friday and Easter Monday are Friday and Monday around Easter; observed Christmas and Boxing day and New Year are always weekdays and Christmas and Boxing day never coincide. The August holiday is the last Monday of August only when August 31 is not a Monday.", "quantifier": "for all years", "why_tests_cant": "All years.", "anchors": [{"file": "anticipy/forecast_models.py", "symbols": ["CalendarBankHolUK", "CalendarChristmasUK", "CalendarBankHolIta", "CalendarChristmasIta"]}]}
{"id": "C53", "title": "Multiplicative detection never triggers on unsuitable data", "statement": "Automatic choice of multiplicative composition requires strictly positive values, dates, at least 60 days between first and last date and at least four usable samples; otherwise additive composition is used, whatever the fitted statistics are.", "quantifier": "for all series", "why_tests_cant": "Real-valued.", "anchors": [{"file": "anticipy/model_utils.py", "symbols": ["is_multiplicative", "_get_mult_sum_stats", "_fit_linear"]}, {"file": "anticipy/forecast.py", "symbols": ["_get_model_is_add_mult"]}]}
{"id": "C54", "title": "Calendar models have one parameter per calendar and flag the same days for any window", "statement": "A model built from a list of calendars has one parameter per calendar; whether a date is flagged depends only on the date and not on the other dates of the series. (The docstring's one parameter per holiday rule is violated.)", "quantifier": "for all calendars and date windows", "why_tests_cant": "All windows.", "anchors": [{"file": "anticipy/forecast_models.py", "symbols": ["get_model_from_calendars", "_get_f_dummy_from_calendar"]}]}
{"id": "C55", "title": "The score of a model covers every sample used for fitting", "statement": "The cost behind a model's score accounts for every sample used for the fit, so a model that predicts none of the samples is never reported as a perfect fit.", "quantifier": "for all series, models and weights", "why_tests_cant": "Requires reasoning about every series for which some prediction is undefined.", "anchors": [{"file": "anticipy/forecast.py", "symbols": ["fit_model", "get_residuals"]}, {"file": "anticipy/forecast_models.py", "symbols": ["_f_model_snaive_wday"]}]}
{"id": "C56", "title": "Forecast values are the reported model evaluated at the reported parameters", "statement": "For every fitted model in the metadata the data table contains, under the same model name, the values of that model at the reported parameters; fixing a parameter by giving it equal lower and upper bounds does not prevent the forecast.", "quantifier": "for all data, candidate models and optimiser results", "why_tests_cant": "Universal over models and bounds.", "anchors": [{"file": "anticipy/forecast.py", "symbols": ["run_forecast_single", "extrapolate_model", "fit_model"]}, {"file": "anticipy/forecast_models.py", "symbols": ["simplify_model"]}]}
{"id": "C57", "title": "Date-list models have one parameter per list acting exactly on the dates in it", "statement": "A model built from named lists of dates has one parameter per list (named after it); at each sample its additive value is the sum of the parameters of the lists that contain the sample's timestamp. An empty input is rejected.", "quantifier": "for all dictionaries of date lists, all date arrays and parameter vectors", "why_tests_cant": "Unbounded number of lists and dates.", "anchors": [{"file": "anticipy/forecast_models.py", "symbols": ["get_model_from_datelist", "get_model_dummy", "_get_f_dummy_from_list_date"]}]}
{"id": "C58", "title": "A holiday effect applies to every sample on that day", "statement": "If a calendar day is a holiday then every sample dated on that day receives the effect of the calendar model, whatever its time of day. (Violated: only samples at midnight do.)", "quantifier": "for all calendars and all timestamps", "why_tests_cant": "Ranges over all timestamps; tests only use daily data at midnight.", "anchors": [{"file": "anticipy/forecast_models.py", "symbols": ["get_model_from_calendars", "_get_f_dummy_from_calendar", "_get_f_dummy_from_holiday"]}]}
{"id": "C59", "title": "The app writes its results into the given output folder", "statement": "All output files of the command line app are written into the folder given as path_out, or next to the input file if none is given; a missing input file or output folder is rejected. (Violated for a folder given without trailing slash: files are written into its parent.)", "quantifier": "for all paths and file systems", "why_tests_cant": "All paths.", "anchors": [{"file": "anticipy/app.py", "symbols": ["run_forecast_app", "main"]}]}
{"id": "C60", "title": "The plot return code tells whether a plot was produced", "statement": "plot_forecast returns 0 exactly when a plot was produced in the requested format; a file is written only if a path is given, and under that path with the extension of the format. (Violated: the code is 0 also when the required library is missing, and a forecast-only table of two sources raises instead.)", "quantifier": "for all tables, formats and installed libraries", "why_tests_cant": "Combinations of installed libraries, formats and table shapes.", "anchors": [{"file": "anticipy/forecast_plot.py", "symbols": ["plot_forecast", "plot_forecast_save", "_matplotlib_forecast_create", "_plotly_forecast_create"]}]}
{"id": "C61", "title": "An ignored spike removes exactly the ignored period", "statement": "Multiplying a model by the ignored-spike model for a period gives 0 on the samples of the period and leaves all other samples unchanged; evaluated on its own the ignored-spike model is 0 in the period and 1 elsewhere. (Violated on its own: it is 0 everywhere, because the multiplicative default is never used.)", "quantifier": "for all models, parameters, sample positions and durations", "why_tests_cant": "Universal over models, positions and durations.", "anchors": [{"file": "anticipy/forecast_models.py", "symbols": ["create_fixed_spike_ignored", "get_fixed_model", "ForecastModel.__call__"]}]}
{"id": "C62", "title": "Interpolated values lie on the straight line between neighbouring observations", "statement": "interpolate_df with interpolate_y=True keeps observed values; a missing value between two observations lies on the straight line through them (by position), hence between them; missing values after the last observation repeat it and missing values before the first one stay null. It has the same rows, dates and x as the form without interpolated values, and fails in the same cases.", "quantifier": "for all tables with or without dates, gaps of any length and pattern", "why_tests_cant": "Unbounded number, length and position of gaps.", "anchors": [{"file": "anticipy/model_utils.py", "symbols": ["interpolate_df"]}]}
{"id": "C63", "title": "Gap-filled rows are marked", "statement": "interpolate_df with include_mask=True adds a column that is true exactly on the rows that are not in the input. (Violated: tables without gaps get no such column, and rows filled into hourly data are not marked because they share x with a sample of the same day.)", "quantifier": "for all tables and frequencies", "why_tests_cant": "All tables, frequencies and gap patterns.", "anchors": [{"file": "anticipy/model_utils.py", "symbols": ["interpolate_df"]}]}
{"id": "C64", "title": "The automatic choice of composition follows the relation of level and spread, whatever the unit", "statement": "For series with positive values, dates over at least 60 days and four usable samples, is_multiplicative answers true exactly if the correlation, over the calendar months with at least two values, between the average of the month and the variance of the distances to the fitted line is at least 0.8; it is true if the variance grows linearly with the level and false if it is the same every month; multiplying all values by a positive constant does not change it.", "quantifier": "for all eligible series, all lines returned by the fit, all positive factors", "why_tests_cant": "Statements about all series, months, levels and factors; the statistic is real valued.", "anchors": [{"file": "anticipy/model_utils.py", "symbols": ["is_multiplicative", "_get_mult_sum_stats", "_fit_linear"]}]}
{"id": "C65", "title": "Samples that are to be ignored have no influence on the automatic choice of composition", "statement": "Samples without a value or with weight 0 do not change the result of is_multiplicative. (Violated: a sample of weight 0 with a value of 0 or below forces additive composition. Holds for samples without value that do not stretch the dates to 60 days.)", "quantifier": "for all series and all inserted samples", "why_tests_cant": "Unbounded number and position of ignored samples.", "anchors": [{"file": "anticipy/model_utils.py", "symbols": ["is_multiplicative", "_get_mult_sum_stats", "_fit_linear"]}]}
{"id": "C66", "title": "Any column can be used for values, weights, x, dates and sources", "statement": "The col_name arguments say which columns hold values, weights, x, dates and sources: each role is filled row by row from its column (dates from a date index if there is no date column), other columns have no influence, and renaming columns and arguments alike does not change the result; a table without the value column is rejected with AssertionError. (Violated: a column with the standard name of another role, e.g. a value column called 'weight', raises KeyError. Holds if no column has the standard name of another role.)", "quantifier": "for all tables, column names and cell contents", "why_tests_cant": "All choices of names and extra columns.", "anchors": [{"file": "anticipy/forecast.py", "symbols": ["normalize_df", "run_forecast"]}]}
{"id": "C67", "title": "A batch of inputs gives the results of the single inputs", "statement": "run_l_forecast returns the results of run_forecast for each input, in the order of the inputs, with the models and starting date of this input; it succeeds exactly if each input does. (Violated: an input without samples, for which run_forecast returns None, makes the whole batch raise TypeError; weights_y_values has no effect.)", "quantifier": "for all lists of inputs, data, models and optimisers", "why_tests_cant": "All batches of any length, all data and optimiser behaviours.", "anchors": [{"file": "anticipy/forecast.py", "symbols": ["run_l_forecast", "ForecastInput", "aggregate_forecast_dict_results"]}]}
{"id": "C68", "title": "The unit of the values does not influence which model is chosen", "statement": "Forecasting a series in pounds or the same series in pence selects the same model: when every value is multiplied by a positive factor and the optimiser finds the best fit of each candidate in both runs, the error of every fitted model is multiplied by the square of the factor, the scores of all models move by the same amount, and the model flagged as best (if strictly better than the others and no fit is perfect) is the same. Outlier detection, the list of candidates and the automatic choice between additive and multiplicative seasonality are unaffected too.", "quantifier": "for all series, positive factors, lists of candidate models that can describe data in any unit (the built-in trend, season, calendar and naive models and their sums, and products of a trend with season or calendar factors), argument values and exact optimisers", "why_tests_cant": "A test picks one series, one factor and one numerical optimiser whose tolerance may hide or cause a difference; only an argument about minima covers all of them.", "anchors": [{"file": "anticipy/forecast.py", "symbols": ["run_forecast", "run_forecast_single", "fit_model"]}, {"file": "anticipy/forecast_models.py", "symbols": ["ForecastModel", "get_model_outliers"]}, {"file": "anticipy/model_utils.py", "symbols": ["get_aic_c", "is_multiplicative"]}]}
{"id": "C69", "title": "A straight line is continued as a straight line", "statement": "If all samples that have a value and positive weight lie on a straight line over the days, and the optimiser finds the minimum, then each forecast row of the linear model (in-sample and future) has exactly the value of this line at its date; in general, data that some admissible parameters of a model describe exactly are reproduced exactly by the fitted model.", "quantifier": "for all dated series of day-counted samples on a line, with missing values and ignored samples anywhere, all frequencies and horizons", "why_tests_cant": "All lines, all sets of days and all horizons; exactness cannot be shown by samples.", "anchors": [{"file": "anticipy/forecast.py", "symbols": ["run_forecast", "fit_model", "extrapolate_model"]}, {"file": "anticipy/forecast_models.py", "symbols": ["model_linear"]}]}
{"id": "C70", "title": "A line with a weekly pattern is continued with the same pattern", "statement": "If all used samples follow a straight line plus a fixed contribution of each day of the week, and the optimiser finds the minimum, then each forecast row of model_linear + model_season_wday follows the same line and weekly pattern, with cached features or without, whatever weekdays the samples cover.", "quantifier": "for all dated series of day-counted samples on a line plus weekly pattern, all frequencies and horizons", "why_tests_cant": "All lines, patterns, sets of days and horizons.", "anchors": [{"file": "anticipy/forecast.py", "symbols": ["run_forecast", "fit_model", "extrapolate_model"]}, {"file": "anticipy/forecast_models.py", "symbols": ["model_linear", "model_season_wday"]}]}
{"id": "C71", "title": "Models with conditions on the data are fitted only if the data meet them", "statement": "A model that contains the weekday component, alone or in any sum or product, is fitted only if every day of the week has at least one dated sample with a value and positive weight; otherwise it is reported as unsuitable for the input and the optimiser is not called. So a weekday effect that is forecast has always been observed. Likewise a model with a decay component is fitted only if all used values are positive. All other trend, season and naive models and their composites accept any data: they are tried whenever there are two more samples than parameters.", "quantifier": "for all series, composites of any depth, optimisers and runs", "why_tests_cant": "All composites and all patterns of missing days and excluded samples.", "anchors": [{"file": "anticipy/forecast.py", "symbols": ["fit_model", "run_forecast"]}, {"file": "anticipy/forecast_models.py", "symbols": ["model_season_wday", "model_decay", "ForecastModel"]}]}
{"id": "C72", "title": "The ready-made dummy models act on the days they are named after", "statement": "model_season_wday_2 adds its one parameter on Mondays to Fridays and nothing at the weekend, model_dummy_christmas on December 25 of every year, and model_dummy_month_start on the first day of each month, in each case for samples at any time of the day; as a factor it is 1 plus the parameter on those days and 1 otherwise. Without dates they raise AttributeError.", "quantifier": "for all dates, parameters and both modes", "why_tests_cant": "All dates of the calendar and all times of the day.", "anchors": [{"file": "anticipy/forecast_models.py", "symbols": ["model_season_wday_2", "model_dummy_christmas", "model_dummy_month_start", "get_model_dummy"]}]}
{"id": "C73", "title": "Random numbers and the choice of optimiser do not influence the result", "statement": "For an optimiser that finds the minimum, a repeated run gives the same answer: every fitted model has the same error and score, the same model is flagged as best if it is strictly better than the others, models that are linear in their parameters have the same fitted values, and the linear trend, alone or with weekly seasonality, has the same forecast for every date. That forecast does not depend on the random starting point, on caching, on which other models are candidates, on the mode, on the horizon, on the output options or on the name of the series.", "quantifier": "for all series, pairs of exact optimisers and random streams, candidate lists, horizons and options", "why_tests_cant": "The starting point is drawn at random and differs in each run; a test sees a few draws and one optimiser.", "anchors": [{"file": "anticipy/forecast.py", "symbols": ["run_forecast", "fit_model", "optimize_least_squares", "extrapolate_model"]}, {"file": "anticipy/forecast_models.py", "symbols": ["model_linear", "model_season_wday"]}]}
{"id": "C74", "title": "Forecasts follow a change of unit or zero point", "statement": "When every value y of a series is replaced by c*y + d (c not zero: other currency, Celsius to Fahrenheit, sign flipped), the forecast of the linear trend, alone or with weekly seasonality, for each date changes from v to c*v + d, provided the optimiser finds the minimum in both runs. Outlier detection is unaffected.", "quantifier": "for all dated series, factors and offsets, exact optimisers, candidate lists, horizons and options", "why_tests_cant": "All series, factors and offsets; numerical tests cannot separate rounding from real dependence on the unit.", "anchors": [{"file": "anticipy/forecast.py", "symbols": ["run_forecast", "fit_model", "extrapolate_model"]}, {"file": "anticipy/forecast_models.py", "symbols": ["model_linear", "model_season_wday", "get_model_outliers"]}]}
{"id": "C75", "title": "The forecast of a total is the total of the forecasts", "statement": "Forecasting two series with samples on the same days and adding the forecasts gives the same result as forecasting their sum; in general, if a third series is a*u + b*v of two others at every sample, then the forecast of the linear trend, alone or with weekly seasonality, for each date is a*r + b*s of the forecasts r and s of the two, provided the optimiser finds the minimum in each run and outliers are not searched for. In-sample, this holds for every model whose prediction is a linear function of unrestricted parameters.", "quantifier": "for all pairs of series over the same samples (same weights and gaps), all coefficients, exact optimisers, candidate lists, horizons and options", "why_tests_cant": "All pairs of noisy series and all combinations; a test sees a few totals and a solver tolerance.", "anchors": [{"file": "anticipy/forecast.py", "symbols": ["run_forecast", "fit_model", "extrapolate_model"]}, {"file": "anticipy/forecast_models.py", "symbols": ["model_linear", "model_season_wday"]}]}
{"id": "C76", "title": "Only the ratio of the weights matters", "statement": "Multiplying the weights of all samples by the same positive number does not change which model is chosen (if one is strictly better than the others and no fit is perfect), and does not change the forecasts of the linear trend, alone or with weekly seasonality, provided the optimiser finds the minimum in both runs. With the same random draws and the same chosen model the prediction intervals do not change either.", "quantifier": "for all dated and weighted series, positive factors, exact optimisers, candidate lists, horizons and options", "why_tests_cant": "All weightings and all factors.", "anchors": [{"file": "anticipy/forecast.py", "symbols": ["run_forecast", "fit_model", "get_residuals", "extrapolate_model"]}, {"file": "anticipy/forecast_models.py", "symbols": ["model_linear", "model_season_wday"]}]}
{"id": "C77", "title": "A series moved in time has the same forecast, moved by as much", "statement": "If all dates of a series are moved by the same duration, with the sample numbers unchanged, then detected outliers stay at the same samples, and the forecast of the linear trend for each moved date is the forecast of the original series for the original date. With weekly seasonality this holds for any whole number of weeks. Provided the optimiser finds the minimum in both runs. With the same random draws and the same chosen model the prediction intervals of an hourly, daily or weekly series moved by whole weeks move along with it.", "quantifier": "for all dated series, durations (weeks), exact optimisers, candidate lists, horizons and options", "why_tests_cant": "All series and all shifts, across month ends, leap days and years.", "anchors": [{"file": "anticipy/forecast.py", "symbols": ["run_forecast", "fit_model", "extrapolate_model"]}, {"file": "anticipy/forecast_models.py", "symbols": ["model_linear", "model_season_wday", "get_model_outliers"]}]}
{"id": "C78", "title": "The command line app gives the result of the library, complete and in the right files", "statement": "Every option of the command line reaches its role (last value given, or the documented default). A successful run writes to the data and metadata files exactly the tables that run_forecast returns for the table in the input file with the given column names, years and choice of fits; it succeeds whenever the paths are valid, the dates can be read and run_forecast gives a result. Every observation of the input appears exactly once among the actuals of the data file, with its label, date and value. If the library for the chosen file format is installed, the run also writes a plot that shows every row of actuals and mixes no sources in a panel.", "quantifier": "for all command lines, input tables, column names, file systems, optimisers and random numbers", "why_tests_cant": "All combinations of columns, labels and options; tests run one example file and look at one output.", "anchors": [{"file": "anticipy/app.py", "symbols": ["run_forecast_app", "main"]}, {"file": "anticipy/forecast.py", "symbols": ["normalize_df", "run_forecast"]}, {"file": "anticipy/forecast_plot.py", "symbols": ["plot_forecast"]}]}
{"id": "C79", "title": "A plot of the app shows one forecast line per source", "statement": "In the plot written by the app, all forecast rows in the panel of a source come from the same model, the best one.", "quantifier": "for all input tables and options", "why_tests_cant": "All tables and numbers of sources; tests check that a plot file exists but not what is drawn.", "anchors": [{"file": "anticipy/app.py", "symbols": ["run_forecast_app"]}, {"file": "anticipy/forecast_plot.py", "symbols": ["plot_forecast", "_matplotlib_forecast_create", "_plotly_forecast_create"]}, {"file": "anticipy/forecast.py", "symbols": ["run_forecast"]}]}
{"id": "C80", "title": "The order of the rows of the input does not change the forecast", "statement": "Two dated tables with the same rows in different order give the same forecast of the linear trend, alone or with weekly seasonality, for every source and date, provided there is at most one row per date and source, all dates share the time of day, and the optimiser finds the minimum in both runs. The sample numbers are counted from the week of whichever row comes first, so the fitted parameters may differ, but not the forecast.", "quantifier": "for all tables (with or without sources and weights), permutations of the rows, exact optimisers, candidate lists, horizons and options", "why_tests_cant": "All permutations of all tables; a test shuffles one table and cannot separate solver noise from dependence on the order.", "anchors": [{"file": "anticipy/forecast.py", "symbols": ["normalize_df", "get_normalized_x_from_date", "run_forecast", "fit_model", "extrapolate_model"]}, {"file": "anticipy/forecast_models.py", "symbols": ["model_linear", "model_season_wday"]}]}
{"id": "C81", "title": "Naive forecasts repeat the last observations that count", "statement": "In the result of run_forecast for a daily series, every prediction of the naive model is the value of the last non-null observation with positive weight strictly before its date (on the first dates, which have none, the first observation), and every prediction of the seasonal naive model is the value of the last such observation a whole number of weeks before its date. Missing days, null values, rows in any order, samples before start_date, samples excluded as outliers or by weight zero make no difference.", "quantifier": "for every table of one daily series with one row per date in any order, every weights, missing days and null values, every start date, horizon and outlier option, every sorting algorithm, every forecast row of the naive models", "why_tests_cant": "The claim spans gap filling, weight merging, two joins and a sort over series of any length with any pattern of gaps, nulls and zero weights; tests look at a single complete series.", "anchors": [{"file": "anticipy/forecast.py", "symbols": ["run_forecast", "run_forecast_single", "extrapolate_model"]}, {"file": "anticipy/forecast_models.py", "symbols": ["model_naive", "model_snaive_wday", "_f_model_naive", "_f_model_snaive_wday", "_fillna_wday"]}, {"file": "anticipy/model_utils.py", "symbols": ["interpolate_df", "get_s_x_extrapolate"]}]}
{"id": "C82", "title": "A series with two samples, or a series without dates, always gets a forecast", "statement": "run_forecast returns a result (and raises no exception) for every table of daily or weekly series (or monthly or yearly series without gaps, a whole number of months or years ahead) in which, for every source and from the start date on, there are two samples and one of them has a value and a positive weight, whatever the values, gaps, nulls and weights, and for every table of series without dates that have one sample each with a value and a positive weight; with the default candidate models and arguments as well as with any list of well-behaved models.", "quantifier": "for all tables of daily, weekly, monthly and yearly series with one row per date and source (one or more sources), all tables of one or more series without dates, all values, gaps and weights, all start dates, horizons, composition modes and candidate lists, and all optimisers and random numbers that keep their contracts", "why_tests_cant": "Absence of exceptions over all inputs runs through every stage of the library: validation, initial guesses and bounds of every composed model, the cache, the score, the extrapolation and the prediction intervals. Tests exercise a few series.", "anchors": [{"file": "anticipy/forecast.py", "symbols": ["run_forecast", "run_forecast_single", "fit_model", "extrapolate_model", "get_pi", "_get_days_from_freq"]}, {"file": "anticipy/forecast_models.py", "symbols": ["ForecastModel", "get_list_model", "model_linear", "model_ramp", "model_season_fourier_yearly", "model_season_wday", "model_naive", "model_snaive_wday"]}, {"file": "anticipy/model_utils.py", "symbols": ["get_aic_c", "interpolate_df", "detect_freq"]}]}
{"id": "C83", "title": "A longer horizon only adds predictions", "statement": "If a series is forecast twice with the same data and arguments and only the number of years to predict is larger the second time, then the second run fits and selects the same models with the same parameters and scores, and its table of values contains all rows of the first run unchanged (observations, fitted values and predictions); every additional row is a prediction at a later date than all of them.", "quantifier": "for all series (with several sources: for each), all pairs of positive horizons, all optimisers and random numbers, and all candidate lists of models whose value at a sample depends on that sample (default models, naive models on daily series, compositions)", "why_tests_cant": "It is a relation between two runs for any two horizons; it depends on the frequency, calendar arithmetic of the end date, gap filling and on each model being evaluated sample by sample.", "anchors": [{"file": "anticipy/forecast.py", "symbols": ["run_forecast", "run_forecast_single", "extrapolate_model"]}, {"file": "anticipy/forecast_models.py", "symbols": ["ForecastModel", "model_naive", "model_snaive_wday", "model_linear", "model_season_fourier_yearly"]}, {"file": "anticipy/model_utils.py", "symbols": ["get_s_x_extrapolate"]}]}
{"id": "C84", "title": "Days without a value may be left out or given as empty rows", "statement": "Two tables of the same daily series, one with rows without a value for the days on which nothing was observed and one without these rows, give the same fits (models, parameters, scores, best model), the same predictions and the same observations with values, as long as the first and last row are the same and two rows on consecutive days remain.", "quantifier": "for all daily tables without weights, all sets of empty rows, all start dates, horizons, optimisers, sorting algorithms and candidate lists of models that do not look at weights (default models, naive models, compositions)", "why_tests_cant": "It is a relation between two runs over all patterns of missing days; it runs through frequency detection, gap filling, the choice of models and the joins of the naive models.", "anchors": [{"file": "anticipy/forecast.py", "symbols": ["run_forecast", "run_forecast_single", "fit_model", "extrapolate_model"]}, {"file": "anticipy/forecast_models.py", "symbols": ["get_l_model_auto_season", "model_naive", "model_snaive_wday"]}, {"file": "anticipy/model_utils.py", "symbols": ["interpolate_df", "detect_freq"]}]}
{"id": "C85", "title": "More candidate models leave the other fits alone", "statement": "Adding trend or naive models to the candidate lists of a forecast leaves all fits, scores, parameters and predictions of the models that were already offered as they are (include_all_fits=True, apart from the mark of the best model), and the model that is then marked as best has a score that is not worse than that of any model of the smaller run.", "quantifier": "for all tables with one or several sources, all horizons, start dates, added models, sorting algorithms and all optimisers whose result depends only on the model and the data, for season_add_mult 'add', 'mult' and 'auto'", "why_tests_cant": "It relates two runs with different candidate lists over all data and all models; tests compare the number of rows of single runs.", "anchors": [{"file": "anticipy/forecast.py", "symbols": ["run_forecast", "run_forecast_single", "get_list_model", "fit_model"]}, {"file": "anticipy/forecast_models.py", "symbols": ["ForecastModel"]}]}
{"id": "C86", "title": "Models are identified by their names", "statement": "Comparing models behaves like comparing values: == is an equivalence relation, != its negation, equal models have equal hashes, exactly one of <, == and > holds, and compositions of equal models are equal. Two models that compare as equal are the same model, so that no candidate is lost when duplicates are removed.", "quantifier": "for all models; the last part for all models built with + and * at any depth from parts with distinct names that contain no parentheses or operators", "why_tests_cant": "The names of nested compositions have to be readable in one way only; tests compare a few names.", "anchors": [{"file": "anticipy/forecast_models.py", "symbols": ["ForecastModel", "get_fixed_model"]}, {"file": "anticipy/forecast.py", "symbols": ["get_list_model"]}]}
{"id": "C87", "title": "Labels of series are only labels", "statement": "Renaming the sources of a table, with different names for different sources, renames the rows of the result and changes nothing else; a source column that holds the same label in every row gives the same result as no source column with that label as source_id (if no two samples share a coordinate).", "quantifier": "for all tables, all renamings that keep different sources different, all settings, sorting algorithms, and optimisers and random draws that do not depend on the label", "why_tests_cant": "It relates two runs over all tables and names, including names that change the order of the sources; tests use one set of labels.", "anchors": [{"file": "anticipy/forecast.py", "symbols": ["run_forecast", "run_forecast_single", "normalize_df", "aggregate_forecast_dict_results", "get_pi"]}]}
{"id": "C88", "title": "Fitted values balance the observations", "statement": "If the optimiser finds the minimum, the errors of the fitted linear trend over the observations of the returned table, each taken with the square of its weight, sum to zero, also when multiplied by the number of the day, so that without weights the fitted values add up to the observations; with weekly seasonality they sum to zero for each day of the week; and the constant model predicts the mean of the observations, weighted with the squares of the weights.", "quantifier": "for all dated series with one sample per day number, any missing days, weights, outliers and horizons, all lists of candidates and all optimisers that find the minimum", "why_tests_cant": "It is an identity between sums over the whole returned table, for all data and real weights; tests compare parameters of generated lines up to a tolerance.", "anchors": [{"file": "anticipy/forecast.py", "symbols": ["run_forecast_single", "fit_model", "get_residuals", "extrapolate_model"]}, {"file": "anticipy/forecast_models.py", "symbols": ["model_linear", "model_constant", "model_season_wday"]}]}
{"id": "C89", "title": "A forecast that comes true is not revised", "statement": "If samples are added to a series, each of them missing or equal to the value that was forecast for its date, the next run forecasts the same values for all dates (constant, linear trend, linear trend with weekly seasonality; optimiser that finds the minimum; no search for outliers).", "quantifier": "for all dated series with one sample per day number, all added samples with any weights, horizons, candidates, and optimisers that find the minimum", "why_tests_cant": "It relates the forecasts of two runs on different data over all series; tests have a single run.", "anchors": [{"file": "anticipy/forecast.py", "symbols": ["run_forecast_single", "fit_model", "get_residuals", "extrapolate_model"]}, {"file": "anticipy/forecast_models.py", "symbols": ["model_linear", "model_constant", "model_season_wday"]}]}
{"id": "C90", "title": "Weights of one are no weights, and an idle search for outliers changes nothing", "statement": "A weight column that is one everywhere gives the same forecast table, data table and metadata as no weight column, except for the text that describes the weights ('1' becomes a range such as '1-1'); with the search for outliers there is no difference at all. A search for outliers that finds no spike, for example in a series that never falls, gives the same result as no search, again except for that text if there was no weight column.", "quantifier": "for all series and tables with any number of sources, candidates, options, optimisers and random numbers, provided no model is called 'actuals'", "why_tests_cant": "It relates complete results of two runs for all inputs and all behaviour of the optimiser; tests check single numbers of single runs.", "anchors": [{"file": "anticipy/forecast.py", "symbols": ["run_forecast", "run_forecast_single", "normalize_df", "get_df_actuals_clean", "fit_model"]}, {"file": "anticipy/forecast_models.py", "symbols": ["get_model_outliers"]}]}
{"id": "C91", "title": "Prediction intervals follow a change of unit or zero point", "statement": "When all values of a forecast table, actuals and forecasts alike, are multiplied by a positive factor and moved by an amount that can be different for each date, every quantile column changes in the same way; for a negative factor the columns of percentiles p and 100-p change places. For a whole run on c*y + d whose chosen model is the constant, the linear trend, or the linear trend with weekly seasonality, in both runs, the returned forecast table follows in all its columns, if the optimiser finds the minimum.", "quantifier": "for all tables with any number of sources and weights, all factors and offsets, percentiles, numbers of simulations and random draws (the same in both runs)", "why_tests_cant": "It relates all columns of two results for all data and random draws; numerical tests cannot separate rounding from dependence on the unit.", "anchors": [{"file": "anticipy/forecast.py", "symbols": ["get_pi", "_get_pi_single_source", "_df_add_pi_percentiles", "run_forecast_single"]}]}
{"id": "C92", "title": "The ready-made calendar models act on the public holidays of their country", "statement": "model_calendar_uk, model_calendar_ita and model_calendar_us change the forecast on exactly the public holidays of the United Kingdom, Italy and the United States: one amplitude for the holidays around Christmas and New Year and one for the others (United Kingdom, Italy), or one for all (United States). An amplitude is added on its days, or multiplies as 1 + amplitude; every other date is left alone.", "quantifier": "for all years and all lists of dates, all amplitudes, additive and multiplicative use; the United States with and without Juneteenth (it depends on the pandas version)", "why_tests_cant": "Holidays move with the weekday and with Easter; the pattern repeats only after 5.7 million years, and tests look at a few dates.", "anchors": [{"file": "anticipy/forecast_models.py", "symbols": ["model_calendar_uk", "model_calendar_ita", "model_calendar_us", "CalendarBankHolIta", "CalendarChristmasIta", "CalendarBankHolUK", "CalendarChristmasUK"]}]}
{"id": "C93", "title": "The search for outliers finds a lone step and a lone spike, and reports nothing else", "statement": "In a dated series, a single abrupt jump is reported as a step at exactly that sample, and a single sample that leaves the usual range and returns is reported as a spike at exactly that sample; no other sample is reported. In particular, in a level series of at least 7 samples one different sample is found whatever its height, and a run that searches for outliers gives it weight 0 and all others weight 1.", "quantifier": "for all series with a lone outlier, all positions, heights and directions", "why_tests_cant": "Tests show a few series; the thresholds depend on quartiles of all jumps, and windows and groups behave differently at the ends of the series.", "anchors": [{"file": "anticipy/forecast_models.py", "symbols": ["get_model_outliers", "get_iqr_thresholds"]}, {"file": "anticipy/forecast.py", "symbols": ["run_forecast_single"]}]}
{"id": "C94", "title": "Asking for more or less output does not change the output", "statement": "include_all_fits and simplify_output only choose what is returned: without include_all_fits the tables data and metadata are those with it, reduced to the observations and the chosen model, and the table forecast is the same; with simplify_output the result is exactly the table forecast of the dictionary that is returned otherwise. The table optimize_info always has one row for every model that was tried, with the same outcome, cost and parameters as the metadata. One call raises an error exactly if the other does.", "quantifier": "for all tables with and without sources, all arguments, optimisers and random draws", "why_tests_cant": "It relates several calls for all data; tests call the function once per data set, and with one setting of the flags.", "anchors": [{"file": "anticipy/forecast.py", "symbols": ["run_forecast", "run_forecast_single", "aggregate_forecast_dict_results", "fit_model", "get_pi"]}]}
{"id": "C95", "title": "The columns that describe a series say what was used", "statement": "In the tables that a forecast returns, freq is the frequency detected for the series, weights tells the smallest and largest weight of the observations (1 if there are no weights), actuals_x_range tells the first and last day of the samples that were used, and source_long, which puts them together, is one label for the observations, the forecasts and the metadata of a series. (Violated: source_long is different for observations and forecasts, for example always for input without weights; without dates, labels of models called logistic or sigmoid have their range divided by 100.)", "quantifier": "for all series, with and without dates, weights, starting date and search for outliers, all candidate models", "why_tests_cant": "The columns are text that tests compare for single cases; which samples count depends on missing values, weights, starting date and outliers together.", "anchors": [{"file": "anticipy/forecast.py", "symbols": ["run_forecast_single", "fit_model", "_get_df_fit_model", "get_df_actuals_clean"]}]}
{"id": "C96", "title": "A series made of the components of a model is continued exactly", "statement": "Models can be added: a trend, weekday and month effects, steps and spikes at given dates, dummy variables, holiday calendars, lists of dates, a yearly Fourier series. If the samples that count are exactly a combination of the components of such a sum, and the samples tell the components apart, the forecast of the model is that combination at every date.", "quantifier": "for all sums of any number of these components, all coefficients, all series whose dates are whole days apart, with any weights, missing values and starting date, alone or as part of a table with rows in any order, all solvers that find the minimum", "why_tests_cant": "There are unboundedly many sums; a test fits one of them to one series and compares with a tolerance.", "anchors": [{"file": "anticipy/forecast_models.py", "symbols": ["ForecastModel.__add__", "get_model_dummy", "get_model_from_calendars", "get_model_from_datelist", "get_model_step_date"]}, {"file": "anticipy/forecast.py", "symbols": ["run_forecast_single", "fit_model"]}]}
{"id": "C97", "title": "A parameter list of the wrong length is rejected", "statement": "Evaluating a forecast model with more or fewer parameter values than the number of parameters it reports raises an exception; values are not silently dropped, also not inside composed models. (Violated: the weekly and monthly season and the model with two steps ignore surplus values; the seasons also accept too few values when no sample needs the missing ones; a model with fixed parameters accepts a single value for all free parameters.)", "quantifier": "for all models with parameters, all sums and products of any number of them, all parameter lists of any wrong length, all samples, both composition modes", "why_tests_cant": "Tests evaluate models with the right number of parameters; composites split the list at positions that depend on the parts, for unboundedly many composites.", "anchors": [{"file": "anticipy/forecast_models.py", "symbols": ["ForecastModel.__call__", "_get_f_add_2_f_models", "_get_f_mult_2_f_models", "_f_model_season_wday", "_f_n_steps", "get_model_dummy", "get_model_from_calendars", "fix_params_fmodel"]}]}
{"id": "C98", "title": "Adding up a list of models", "statement": "Models support + and * from both sides, so the sum (product) of a list of models, however it is accumulated, is the model with all their parameters whose value is the sum (product) of their values. (Violated: the built-in sum and math.prod start from a number, and a number on either side of a model raises an AttributeError, or replaces the null model by the number; np.sum, np.prod and an explicit start with the null model work.)", "quantifier": "for all lists of models of any length, sums and products, all parameters and samples", "why_tests_cant": "Lists have any length and the models any shape; the operators for the right-hand side are never called by the tests.", "anchors": [{"file": "anticipy/forecast_models.py", "symbols": ["ForecastModel.__add__", "ForecastModel.__radd__", "ForecastModel.__mul__", "ForecastModel.__rmul__", "model_null"]}]}
{"id": "C99", "title": "One starting value and one pair of bounds for each parameter", "statement": "The starting values and bounds that a forecast model offers for a fit have as many entries as the model has parameters, with and without data, also for sums and products of models and for models with some parameters fixed. (Violated: without data, the spike model offers one starting value for its three parameters, because adding lists to an array adds the numbers.)", "quantifier": "for all models of the library, all sums and products of any number of them, all choices of fixed parameters, all data and random draws", "why_tests_cant": "There are unboundedly many composites, each of which cuts the lists of its parts; the tests check lengths for single models and series.", "anchors": [{"file": "anticipy/forecast_models.py", "symbols": ["ForecastModel.f_init_params", "ForecastModel.f_bounds", "_f_init_params_spike", "_f_init_params_season_month", "_f_init_params_n_steps", "fix_params_fmodel"]}]}
{"id": "C100", "title": "Starting values describe the largest change of the data", "statement": "Given data, the starting values of the models for steps, spikes, sigmoid steps and ramps name the sample where the series changes most, and how much it changes there: the model with its starting values changes at that sample, in that direction. Given dates, the starting values of the month season are the month averages. (Violated: the position of a step is the number of the row even if x does not start at 0; steps always start as rising ones; a spike starts one sample early and a ramp one sample late; each month average is given to the next month.)", "quantifier": "for all series with at least two values (three for two steps), all positions, including ties", "why_tests_cant": "Which change is the largest, and which of several equal ones is taken, depends on the whole series; tests compare a few guesses with recorded values.", "anchors": [{"file": "anticipy/forecast_models.py", "symbols": ["_f_init_params_step", "_f_init_params_step_date", "_f_init_params_n_steps", "_f_init_params_spike", "_f_init_params_sigmoid_step", "_f_init_params_ramp", "_f_init_params_season_month"]}]}
{"id": "C101", "title": "Predictions are made for the dates on which the series continues", "statement": "If the dates of a series follow a regular pattern, its predictions are for the dates of that pattern, without gaps, from the first sample used to the horizon asked for, and for no other dates; every fitted model has a prediction for each of these dates. (Holds for hours, days, a weekday, first days of months, first and last days of years. Violated: series of working days, or of every second day, have predictions for the days between; a series of dates in the middle of months, a series of samples every two hours, and every series with samples less than an hour apart raise an exception.)", "quantifier": "for all tables and series whose dates are on a grid and include two neighbours, all horizons, models, optimisers and arguments", "why_tests_cant": "The axis depends on the detected frequency, the first and last date, weights and start date, calendar arithmetic and the horizon together; tests look at a few series.", "anchors": [{"file": "anticipy/forecast.py", "symbols": ["run_forecast", "run_forecast_single", "extrapolate_model", "_get_df_fcast_clean", "get_pi"]}, {"file": "anticipy/model_utils.py", "symbols": ["detect_freq", "get_s_x_extrapolate", "interpolate_df"]}]}
{"id": "C102", "title": "A richer model never fits worse", "statement": "If every curve of one model is also a curve of another one (a constant is a line, a trend is the trend plus a season that is zero), then, fitted to the same data by an optimiser that finds the minimum, the richer model never has the higher cost. (Holds for the built-in trends and for every sum or product whose added component can be neutral: trends, steps, ramps, weekday and month seasons, steps and spikes at dates, dummies; for the yearly Fourier season in sums only. Violated in products: the Fourier season cannot be constantly one, so that `constant * season_fourier_yearly` fits a constant series with a cost of half the number of samples whereas `constant` fits it perfectly.)", "quantifier": "for all pairs of models one of which contains the other, all series, weights, optimisers that find the minimum; for fits, for runs and for tables", "why_tests_cant": "The relation between the costs of two fits on all data depends on each curve of one model being representable by the other; tests compare costs on a few series only.", "anchors": [{"file": "anticipy/forecast.py", "symbols": ["fit_model", "run_forecast"]}, {"file": "anticipy/forecast_models.py", "symbols": ["ForecastModel", "_f_model_yearly_season_fourier", "model_season_wday", "model_linear", "model_constant"]}]}
{"id": "C103", "title": "The ready-made models compute the documented formulas", "statement": "Each model of the tables in the documentation has the number of parameters stated there, and its value at x is given by the formula stated there, for all parameters and all x. (Holds for the null, constant, linear, non-decreasing, ramp, step, two-step and sigmoid models, and for the power and exponential models wherever the power is a real number. Violated: the decay model has three parameters instead of four, with the same curves; the working-day model has one instead of two; a dummy as a factor is A + 1 on the flagged dates instead of A; fractional powers of negative numbers are missing values.)", "quantifier": "for all parameters, all x, all contexts", "why_tests_cant": "Tests evaluate a few of the models at a few points; agreement with a formula for all parameters and all x is a universal statement.", "anchors": [{"file": "anticipy/forecast_models.py", "symbols": ["ForecastModel", "model_null", "model_constant", "model_linear", "model_linear_nondec", "model_quasilinear", "model_exp", "model_decay", "model_step", "model_two_steps", "model_sigmoid", "model_sigmoid_step", "model_ramp", "model_season_wday_2", "get_model_dummy"]}, {"file": "docs/source/tutorial.rst", "symbols": ["Default forecast models", "Other forecast models"]}]}
{"id": "C104", "title": "A sample that is given more often counts for more", "statement": "Samples can be given several times for one date. If every row of a table is given the same number of times, in any order, the forecasts of the constant model, the linear trend and the linear trend with weekly seasonality are the same as for the table without repetitions; a single sample that is given more often than the others draws the forecast towards itself. (The first half holds. The second is violated: the weights of samples of one date are divided by their number before the errors are squared, so two copies of a sample count half as much as one, and giving a sample twice moves the forecast away from it.)", "quantifier": "for all dated series with one sample per date, all repetitions, all orders of rows, all weights, starting dates and exact solvers", "why_tests_cant": "The number of repetitions and the samples are unbounded; tests with repeated samples only check that a fit returns.", "anchors": [{"file": "anticipy/forecast.py", "symbols": ["fit_model", "get_residuals", "run_forecast", "run_forecast_single"]}, {"file": "anticipy/forecast_models.py", "symbols": ["model_constant", "model_linear", "model_season_wday"]}]}
{"id": "C105", "title": "Prediction intervals widen once per requested period", "statement": "The quantiles of a forecast row are those of simulated deviations from the forecast. On average over the random draws the deviations are zero, so the simulation is centred on the forecast. In rows up to the last used sample their mean square is the variance of the residuals; after it, it starts at twice the variance and grows by one variance at the start of every period of the requested length (year, month, week or day), and not in between. (Violated for hourly and quarterly series: their samples are counted as if they were a day apart, so an hourly forecast that should widen by the day widens with every hour, and a quarterly one that should widen by the year does so after 365 quarters.)", "quantifier": "for all forecast tables of one source on a daily, weekly, monthly or yearly grid (for the growth also numeric dates), all numbers of simulations, quantiles, requested lengths and residuals, averaged over all random draws", "why_tests_cant": "A statement on the mean and spread over all random draws, which a test with one seed cannot see; the number of rows, residuals and simulations is unbounded.", "anchors": [{"file": "anticipy/forecast.py", "symbols": ["get_pi", "_get_pi_single_source", "_get_days_from_freq"]}]}
{"id": "C106", "title": "Fitted values follow a revision of the data, but not beyond it", "statement": "If one observation of a series is revised and the forecast is run again, the value that a model made of added components (level, trend, seasonality, holiday effects) gives for the date of that observation moves in the same direction as the observation and by no more than the observation moved. If any number of observations are revised, the fitted values as a whole move no further than the observations (sum of squared changes over the observations that count, with squared weights). A forecast therefore never over-reacts to a correction of the data.", "quantifier": "for all dated tables with one row per date and source, all models that add up components, weights, starting dates, missing days and revisions, and all optimisers that find the minimum", "why_tests_cant": "Compares two runs for every possible revision of every observation; a test can only try single revisions of single series.", "anchors": [{"file": "anticipy/forecast.py", "symbols": ["run_forecast", "run_forecast_single", "fit_model", "get_residuals", "optimize_least_squares"]}, {"file": "anticipy/forecast_models.py", "symbols": ["model_constant", "model_linear", "model_season_wday"]}]}
{"id": "C107", "title": "The value of a sample that is ignored has no influence on the forecast", "statement": "A sample is ignored if its weight is 0, if it lies before the starting date, or if the search for outliers marks it as a spike. Whatever value such a sample has, also none at all, the fits, the chosen model, the predictions and the prediction intervals are the same. (Violated if several samples share a date: the naive forecast then repeats the value of a sample with weight 0; and for samples without weight in a table with weights: they take no part in the fit, but their values widen the prediction intervals.)", "quantifier": "for all series and tables, models, weights, starting dates and values, with and without the search for outliers, for a given composition (for the automatic choice see C65)", "why_tests_cant": "The values that must not matter are unbounded, and every later stage (gap filling, merging of weights, naive models, residuals for the intervals) has its own way of leaving samples out; tests use one example of one stage.", "anchors": [{"file": "anticipy/forecast.py", "symbols": ["run_forecast_single", "fit_model", "_get_pi_single_source", "get_pi"]}, {"file": "anticipy/model_utils.py", "symbols": ["interpolate_df"]}, {"file": "anticipy/forecast_models.py", "symbols": ["_f_model_naive"]}]}
{"id": "C108", "title": "Result tables come in order", "statement": "The three tables of a result list the sources in alphabetical order. For each source the tables `data` and `forecast` list the observations first, in order of time; then `data` lists the predictions model by model and `forecast` those of the chosen model, in order of time with no date listed twice. The table of prediction intervals that is computed for several sources at once is ordered by source, then predictions before observations, then by date. (Violated for observations at several times of one day: rows are ordered by whole days only.)", "quantifier": "for all tables with any number of sources in any order of the rows, all models and arguments of a run, and all tables of forecasts with several sources", "why_tests_cant": "Code that plots, joins or takes the last row of a result depends on the order for every input order and every number of sources and models; tests use tables that are in order already.", "anchors": [{"file": "anticipy/forecast.py", "symbols": ["run_forecast", "run_forecast_single", "aggregate_forecast_dict_results", "get_pi", "_get_df_fcast_clean"]}, {"file": "anticipy/model_utils.py", "symbols": ["get_s_x_extrapolate"]}]}
{"id": "C109", "title": "A level with a seasonal pattern predicts the means of the seasons", "statement": "If the optimiser finds the minimum, the model constant + season_wday predicts for each date the mean of the observations used on the same weekday, weighted with the squares of their weights, and there are such observations for every weekday; constant + season_month predicts the mean of the same month of the year if this month is observed; constant predicts the mean of all observations. So forecasts of these models never leave the range of the observations of the season, for any horizon. The naive and the seasonal naive model predict a value that was observed (on the same weekday), with the same consequence.", "quantifier": "all tables with a date column and one row per date and source, any order, values, missing values and weights, starting date and removal of outliers, any number of other models, all horizons; for the models with parameters every optimiser that finds minima", "why_tests_cant": "That forecasts stay within the data is a statement about every series and every horizon; a test compares a few fitted values with means up to a tolerance.", "anchors": [{"file": "anticipy/forecast.py", "symbols": ["run_forecast", "fit_model", "extrapolate_model"]}, {"file": "anticipy/forecast_models.py", "symbols": ["model_constant", "model_season_wday", "model_season_month", "model_naive", "model_snaive_wday", "_f_validate_input_season_wday"]}]}
{"id": "C110", "title": "A one-off event with a dummy of its own has no influence on the rest of the forecast", "statement": "Let a model with a level be extended by a dummy for an event (a spike between two dates, or a list of dates) of which exactly one observation is used. If the optimiser finds minima, the fitted value on that date is exactly the observation, and on all dates outside the event the fitted values and the forecasts are those which the model without the dummy gives for the series without that observation. So it makes no difference whether an exceptional day is given a dummy or is deleted.", "quantifier": "all tables with a date column and one row per date and source, any values, missing values and weights, starting dates, no removal of outliers; all models that add up features and contain a level, all events with exactly one used observation; all horizons; every pair of optimisers that find minima; series without the event that determine the parameters of the model", "why_tests_cant": "The equality of two fits on different data and with different numbers of parameters holds for every observed value of the event; a test compares one pair of fits up to a tolerance.", "anchors": [{"file": "anticipy/forecast.py", "symbols": ["run_forecast", "fit_model", "extrapolate_model"]}, {"file": "anticipy/forecast_models.py", "symbols": ["ForecastModel.__add__", "get_model_spike_date", "get_model_dummy", "get_model_from_datelist"]}]}
{"id": "C111", "title": "Trend and season stay separate in a forecast, whatever the optimiser returns", "statement": "In every result, whether or not the fit is good, the forecast of a level with a weekly or monthly pattern (added or multiplied) is the same on all dates of the same weekday or month; the forecast of a line with a pattern added grows by one fixed amount per day between any two dates of the same season, the same amount in all seasons; that of the linear model alone grows by a fixed amount per day; that of a line with a pattern multiplied is one straight line times a factor that depends on the season only. This holds for the fitted dates and for the future alike.", "quantifier": "all tables with a date column and one row per date and source, any values, missing values, weights, starting dates, removal of outliers, horizons and further candidate models with different names; every optimiser that returns as many parameters as there are bounds, with whatever values", "why_tests_cant": "The shape must hold for every value the optimiser may return, at every date of every horizon; a test sees the parameters of a few fits.", "anchors": [{"file": "anticipy/forecast.py", "symbols": ["run_forecast", "fit_model", "extrapolate_model"]}, {"file": "anticipy/forecast_models.py", "symbols": ["ForecastModel.__add__", "ForecastModel.__mul__", "model_linear", "model_constant", "model_season_wday", "model_season_month", "_f_model_season_wday", "_f_model_season_month"]}]}
{"id": "C112", "title": "A plot with prediction intervals shows the intervals that were computed", "statement": "If a forecast is computed with whole-number percentiles and its table is plotted with include_interval and the same percentiles, every panel with a forecast has exactly two filled areas, one per percentile. Each area has a point for every point of the line of forecasts, at its date, and its lower and upper value are the two quantiles in the same row of the table. If the first percentile is at most the second and this at most 50, the second area lies within the first at every point. Without include_interval no area is drawn.", "quantifier": "all tables, models, optimisers and random draws for which run_forecast returns a table; all whole-number percentiles, formats, paths, sizes, installed libraries and numbers of sources", "why_tests_cant": "The areas have to match the table for every number of sources, every percentile and every draw of the simulated deviations; a test looks at whether a file was written.", "anchors": [{"file": "anticipy/forecast_plot.py", "symbols": ["plot_forecast", "_plotly_forecast_create", "_matplotlib_forecast_create"]}, {"file": "anticipy/forecast.py", "symbols": ["run_forecast", "get_pi"]}]}
{"id": "C113", "title": "The reported cost and score of a model can be computed again from the result", "statement": "In every result, good fit or bad: the forecasts of a fitted model are its formula at the parameters reported for it, the reported cost is half of the weighted squared differences between observations and fitted values on the same dates, taken over exactly the observations in the result that have a value and a positive weight, and the reported score is the AICc of this cost, the number of these observations and the number of parameters of the model.", "quantifier": "all tables with a date column and one row per date and source, any missing values, weights, starting dates, removal of outliers and horizons; constant, line, weekly and monthly seasons, dummies and all sums and products of these, fitted next to other candidates with different names; every optimiser that returns as many parameters as there are bounds and reports the cost at what it returns", "why_tests_cant": "Cost and score come from the optimiser, which sees cleaned and weighted copies of the data; whether they describe the rows of the result cannot be seen from a few fits in which nothing is left out.", "anchors": [{"file": "anticipy/forecast.py", "symbols": ["run_forecast", "fit_model", "get_residuals", "extrapolate_model", "_get_df_fit_model"]}, {"file": "anticipy/model_utils.py", "symbols": ["get_aic_c"]}]}
{"id": "C114", "title": "Fitted values used as observations change nothing", "statement": "Take the result of `run_forecast` for a table of dated rows, and a model that adds up effects and has a level (constant, trend, seasonality and calendar in additive composition). If the gaps of a series - rows without value - are filled with the values that the result has for this model and these dates, then a run on the filled table gives the same forecasts of this model for every date. The same holds if all values of the series are replaced by the fitted values, some of them possibly by gaps, as long as enough values remain to tell all parameters apart.", "quantifier": "all tables with one row per date and source at one time of day, sources, weights, starting dates, sets of filled gaps, additive models with a level, exact solvers, and further candidates", "why_tests_cant": "Tests compare a handful of fits up to a tolerance; that filling any subset of gaps with fitted values is without effect is a statement about the normal equations of every additive model and every table.", "anchors": [{"file": "anticipy/forecast.py", "symbols": ["run_forecast"]}, {"file": "anticipy/forecast.py", "symbols": ["fit_model"]}, {"file": "anticipy/forecast.py", "symbols": ["run_forecast_single"]}]}
{"id": "C115", "title": "The forecasts depend only on the samples that count", "statement": "Take two calls of `run_forecast` on tables of dated rows, possibly with different sources, starting dates and columns. Suppose the samples of the two series that count - rows from the starting date on, with a value and a weight above zero - are the same, in any order, up to a common factor of the weights. Then a model that adds up effects, has a level and does not depend on where x starts has the same forecasts in both results, for every date for which both have one. So rows without value, rows of weight zero, rows before the starting date and a column of equal weights can be left out.", "quantifier": "all pairs of tables with one row per date and source at one time of day, source names, starting dates, weights, common factors of the weights, orders of rows, additive models with a level, exact solvers, and further candidates", "why_tests_cant": "Tests compare a few pairs of tables; that nothing but the samples that count enters the forecasts is a statement about all pairs of tables that share them.", "anchors": [{"file": "anticipy/forecast.py", "symbols": ["run_forecast"]}, {"file": "anticipy/forecast.py", "symbols": ["run_forecast_single"]}, {"file": "anticipy/forecast.py", "symbols": ["fit_model"]}, {"file": "anticipy/forecast.py", "symbols": ["normalize_df"]}]}
{"id": "C116", "title": "A sample that is given more weight is not fitted worse", "statement": "Give one sample of a series a greater weight, or let a sample that was ignored count, and call `run_forecast` again. For every model whose value is a formula of free parameters (trends, seasonality, calendars, in sums and products) the fitted value on the date of this sample is then at least as close to the sample as before. If the weights of any number of samples are raised, the reported cost of the model does not become smaller.", "quantifier": "all tables with one row per date and source at one time of day, rows, weights, starting dates, models with a formula - linear in the parameters or not -, solvers that find a minimum (which need not be unique), and further candidates", "why_tests_cant": "Tests look at a few weights for a few series; the claim compares the minima of two different sums of squares for every model and every series.", "anchors": [{"file": "anticipy/forecast.py", "symbols": ["run_forecast"]}, {"file": "anticipy/forecast.py", "symbols": ["fit_model"]}, {"file": "anticipy/forecast.py", "symbols": ["get_residuals"]}, {"file": "anticipy/forecast.py", "symbols": ["optimize_least_squares"]}]}
{"id": "C117", "title": "A growing series with seasonal factors is continued with the same factors", "statement": "If the samples that count are a straight line times a factor for each weekday (or month), `run_forecast` with the product of linear trend and this seasonality forecasts the same line times the same factors, on every date whose weekday (or month) has two samples; a level times factors needs one. The factor of the season that the model takes as reference must not be zero. In general: whenever a model whose value is a formula of free parameters is able to reproduce the samples, its fitted values are the samples.", "quantifier": "all tables with one row per date and source at one time of day, slopes, levels, factors, weights, starting dates, further candidates, and solvers that find a minimum (which need not be unique)", "why_tests_cant": "Tests fit one synthetic series with one set of factors and compare up to a tolerance; the claim is for every series, and includes models that are not linear in the parameters, where several parameters give the same minimum.", "anchors": [{"file": "anticipy/forecast.py", "symbols": ["run_forecast"]}, {"file": "anticipy/forecast.py", "symbols": ["fit_model"]}, {"file": "anticipy/forecast_models.py", "symbols": ["model_season_wday"]}, {"file": "anticipy/forecast_models.py", "symbols": ["model_season_month"]}, {"file": "anticipy/forecast_models.py", "symbols": ["ForecastModel.__mul__"]}]}
{"id": "C118", "title": "A trend that must not fall does not fall, and a decay comes to rest", "statement": "In every result of `run_forecast` the forecast of `model_linear_nondec` never falls, whatever the series and whatever the optimiser returns within the bounds of the model. With an additive seasonal pattern it never falls from a date to a later date of the same season; with seasonal factors each season keeps one direction. The forecast of `model_decay` stays on one side of a level and comes closer to it with time. If the samples themselves never rise, an optimiser that finds the best parameters makes the non-decreasing line predict the mean of the samples for every date.", "quantifier": "all tables with one row per date and source at one time of day, weights, starting dates, seasonal models whose value depends on the season only, further candidates, and solvers that keep to the bounds (find the minimum within the bounds for the last statement)", "why_tests_cant": "Tests see a few series; that no series and no optimiser can make the forecast fall needs the bounds, the fit, the extrapolation and the composition of models together.", "anchors": [{"file": "anticipy/forecast.py", "symbols": ["run_forecast"]}, {"file": "anticipy/forecast.py", "symbols": ["fit_model"]}, {"file": "anticipy/forecast_models.py", "symbols": ["model_linear_nondec"]}, {"file": "anticipy/forecast_models.py", "symbols": ["f_bounds_linear_nondec"]}, {"file": "anticipy/forecast_models.py", "symbols": ["model_decay"]}, {"file": "anticipy/forecast_models.py", "symbols": ["f_bounds_decay"]}]}
{"id": "C119", "title": "A search for outliers is the same as giving its weights by hand", "statement": "Take the weights that a run with `find_outliers=True` reports for the observations and give them as the weight column of the input to a run with `find_outliers=False`: the result is exactly the same, in all tables, with the same fits, scores, forecasts and prediction intervals.", "quantifier": "all series with or without dates and weights, starting dates, candidate models, optimisers and random draws; weights of samples before the starting date may be anything; for tables every series of tables with one row per date and source at one time of day", "why_tests_cant": "The search touches the weights early in a long pipeline with a second, unfiltered copy of the series; tests with a few series cannot show that nothing else depends on the search.", "anchors": [{"file": "anticipy/forecast.py", "symbols": ["run_forecast"]}, {"file": "anticipy/forecast.py", "symbols": ["run_forecast_single"]}, {"file": "anticipy/forecast_models.py", "symbols": ["get_model_outliers"]}]}
{"id": "C120", "title": "A single wild value does not spoil the forecast if outliers are searched for", "statement": "A daily series on a straight line with one value that is off by more than the slope (neither the first nor one of the last two of at least seven values): with `find_outliers=True` the linear trend forecasts exactly the line, also on the day of the wild value, however wild it is. A level series with a single different value, on any dates, is forecast as the level by every additive model that can represent a level. In general, if the observations that keep their weight fit an additive model exactly, the model continues them exactly.", "quantifier": "all slopes, levels and deviations, positions of the wild value, lengths from seven on, several sources, further candidates, and solvers that find the minimum", "why_tests_cant": "Quartiles, change groups, weights and the fit have to work together for values of any size; a test shows one series with one spike.", "anchors": [{"file": "anticipy/forecast.py", "symbols": ["run_forecast"]}, {"file": "anticipy/forecast.py", "symbols": ["run_forecast_single"]}, {"file": "anticipy/forecast_models.py", "symbols": ["get_model_outliers"]}, {"file": "anticipy/forecast_models.py", "symbols": ["get_iqr_thresholds"]}, {"file": "anticipy/forecast_models.py", "symbols": ["model_linear"]}]}
{"id": "C121", "title": "The chosen model gives the same result when it is offered alone", "statement": "If a run reports a model for a series, `run_forecast` on that series with nothing but this model (`l_model_trend=[m]`, no seasonality, naive or calendar models, the reported composition) gives exactly the same tables: forecast with prediction intervals, data and metadata. Two runs with different lists of candidates that choose the same model therefore have the same result in every table.", "quantifier": "all worlds in which the optimiser does not depend on the position of a fit, all arguments, tables, sources, lists of candidates with distinct names and without pinned parameters", "why_tests_cant": "It depends on every candidate that was not chosen leaving no trace in any of the tables; a test compares a few lists on one series.", "anchors": [{"file": "anticipy/forecast.py", "symbols": ["run_forecast"]}, {"file": "anticipy/forecast.py", "symbols": ["run_forecast_single"]}, {"file": "anticipy/forecast.py", "symbols": ["fit_model"]}, {"file": "anticipy/forecast.py", "symbols": ["_get_model_is_add_mult"]}, {"file": "anticipy/forecast.py", "symbols": ["get_list_model"]}]}
{"id": "C122", "title": "The linear forecast is the regression line", "statement": "Every forecast of the model `linear` lies on the textbook regression line of the samples of its series: the line through the mean day and the mean value whose slope is the covariance of days and values divided by the variance of the days, all weighted with the squares of the weights. Null values, samples of weight zero and samples before the starting date have no part in it. If the values grow by at least lo and at most hi per day between any two samples, so do the forecasts; in particular the forecast of a series that does not fall does not fall.", "quantifier": "all tables of dated series with one row per date, all weights, arguments, sources and exact optimisers; for the growth all bounds lo, hi", "why_tests_cant": "The optimiser, the scaling of x, the weights in the residuals and the extrapolation all have to agree for a closed formula to hold at every date; a test compares a few dates of one series within a tolerance.", "anchors": [{"file": "anticipy/forecast.py", "symbols": ["run_forecast"]}, {"file": "anticipy/forecast.py", "symbols": ["fit_model"]}, {"file": "anticipy/forecast.py", "symbols": ["get_residuals"]}, {"file": "anticipy/forecast_models.py", "symbols": ["_f_model_linear"]}]}
{"id": "C123", "title": "A more complex model is chosen only if it fits better", "statement": "Let all fits be returned (`include_all_fits`). The chosen model balances error and number of parameters at least as well as every other model that was fitted: n times the logarithm of the ratio of its cost to the other cost is at most the difference of the penalties for the parameters, where n is the number of samples used and the penalty for k parameters is 2k + 2k(k+1)/(n-k-1). In particular a model that fits as well as the chosen one does not have fewer parameters, and a model that fits better has more.", "quantifier": "all runs of run_forecast on tables of dated series, all arguments, sources, optimisers (exact or not) and pairs of candidates with positive costs, one of them chosen", "why_tests_cant": "The choice is a sort by a score in which error, sample size and parameters are mixed; that the published costs of any two candidates are in the right relation to their parameters has to hold for all costs and sample sizes. A test sees one table of fits.", "anchors": [{"file": "anticipy/forecast.py", "symbols": ["run_forecast"]}, {"file": "anticipy/forecast.py", "symbols": ["run_forecast_single"]}, {"file": "anticipy/forecast.py", "symbols": ["fit_model"]}, {"file": "anticipy/model_utils.py", "symbols": ["get_aic_c"]}]}
{"id": "C124", "title": "The variation of a series splits into a fitted part and the reported cost", "statement": "For every fitted model that adds up effects and has a level (constant, linear trend, seasonality, calendar in additive composition) the sum of squares of the observations about their mean equals the sum of squares of the fitted values about the same mean plus twice the cost reported in the metadata (all with the weights of the observations). So twice the cost is never more than the variation of the series, the share of explained variation lies between 0 and 1, and the mean of the fitted values is the mean of the observations. For the linear trend this needs no condition on the dates.", "quantifier": "all tables of dated series with one row per date, all values, weights, arguments, additive models with a level and exact optimisers for which the table has a fitted value at every observation", "why_tests_cant": "It relates the cost in one table to all values in another table of the same result through the least squares geometry; a test can only check the numbers of one fit within a tolerance.", "anchors": [{"file": "anticipy/forecast.py", "symbols": ["run_forecast"]}, {"file": "anticipy/forecast.py", "symbols": ["fit_model"]}, {"file": "anticipy/forecast.py", "symbols": ["get_residuals"]}, {"file": "anticipy/forecast_models.py", "symbols": ["ForecastModel"]}]}
{"id": "C125", "title": "Naive forecasts only copy observations", "statement": "The forecasts of the naive and the seasonal naive model are values of the series, never a mixture of them: if any function at all (a logarithm, a rounding, a relabelling, not only a change of unit) is applied to all values of the input, the naive forecasts of every day become that function of the former naive forecasts, on the same days and with the same gaps, whatever the other candidates do.", "quantifier": "all tables of dated series with one row per date, all single series, all functions on values, all values, gaps, weights, arguments without search for outliers, for which both results contain naive forecasts", "why_tests_cant": "It quantifies over all functions on the values, of which tests can only try a few, and compares two whole runs.", "anchors": [{"file": "anticipy/forecast.py", "symbols": ["run_forecast"]}, {"file": "anticipy/forecast.py", "symbols": ["extrapolate_model"]}, {"file": "anticipy/forecast_models.py", "symbols": ["_f_model_naive"]}, {"file": "anticipy/forecast_models.py", "symbols": ["_f_model_snaive_wday"]}, {"file": "anticipy/forecast.py", "symbols": ["run_forecast_single"]}]}
{"id": "C126", "title": "Higher observations never lower a forecast without trend", "statement": "If some observations of a series are revised upwards and none downwards (gaps stay gaps, dates and weights stay), then no forecast for any day gets lower when it comes from a model without trend: a level, a level with weekdays, a level with months, a level with steps at known dates, a level with effects of special days, the naive model and the seasonal naive model. With a trend this fails: raising early values can lower the forecast.", "quantifier": "all tables of dated series with one row per date (naive models: daily series), all revisions that lower no value, all gaps and weights, all solvers that find the minimum, all arguments without search for outliers", "why_tests_cant": "It compares two runs for infinitely many pairs of inputs that are ordered value by value; a test compares a few pairs.", "anchors": [{"file": "anticipy/forecast.py", "symbols": ["run_forecast"]}, {"file": "anticipy/forecast.py", "symbols": ["fit_model"]}, {"file": "anticipy/forecast_models.py", "symbols": ["_f_model_constant"]}, {"file": "anticipy/forecast_models.py", "symbols": ["_f_model_season_wday"]}, {"file": "anticipy/forecast_models.py", "symbols": ["_f_model_season_month"]}, {"file": "anticipy/forecast_models.py", "symbols": ["_f_model_naive"]}, {"file": "anticipy/forecast_models.py", "symbols": ["_f_model_snaive_wday"]}]}
{"id": "C127", "title": "Scores and the choice of the model depend only on the samples that count", "statement": "Two series with the same dates, values and weights among the samples that count (from the starting date on, with a value and a weight above zero) get the same cost and the same score for every fitted model, and so the same model is chosen: in another order of rows, under another name, in a table with other series, with or without rows that do not count. If all weights are multiplied by a common factor, all costs are multiplied by its square and the choice stays the same.", "quantifier": "all pairs of tables of dated series with one row per date, all values, gaps, weights, starting dates, all models with a formula that does not depend on where x starts, all solvers that find the minimum, all arguments without search for outliers", "why_tests_cant": "It compares two runs over all pairs of tables that share their usable samples; a test compares a few pairs.", "anchors": [{"file": "anticipy/forecast.py", "symbols": ["run_forecast"]}, {"file": "anticipy/forecast.py", "symbols": ["fit_model"]}, {"file": "anticipy/forecast.py", "symbols": ["_get_df_fit_model"]}, {"file": "anticipy/model_utils.py", "symbols": ["get_s_aic_c_best_result_key"]}, {"file": "anticipy/model_utils.py", "symbols": ["get_aic_c"]}]}
{"id": "C128", "title": "A straight line over a numeric coordinate is continued as the same line", "statement": "For a series without dates whose samples (with a value and a positive weight) lie on a straight line over x, every row of the linear forecast, fitted or future, has the value of this line at its position. The code keeps this only if the first position that counts is 0: otherwise each row has the value of the line at its position plus the first position, so no row of a rising or falling line is right.", "quantifier": "all series and tables without dates, with or without a column x, all lines, gaps, missing values, weights and horizons, all solvers that find the minimum", "why_tests_cant": "Tests use series that start at 0, where the error does not show; the claim is about every starting position and every line.", "anchors": [{"file": "anticipy/forecast.py", "symbols": ["run_forecast"]}, {"file": "anticipy/forecast.py", "symbols": ["extrapolate_model"]}, {"file": "anticipy/model_utils.py", "symbols": ["get_s_x_extrapolate"]}]}
{"id": "C129", "title": "Naive forecasts of a series without dates repeat the last observation before their position", "statement": "For a series without dates, every row of the naive forecast has the value of the last observation (non-null, positive weight) before its position, or of the first observation where there is none; in particular every row after the last observation has its value. The code takes the last observation before the position plus the first position that counts. So the promise holds for all rows if that first position is 0, and for the future if it is not negative; if it is positive, fitted values look ahead, and if it is negative, even the future repeats an observation that is too old.", "quantifier": "all series and tables without dates, with or without a column x, in any row order, all gaps, missing values, weights, outlier settings, horizons and other candidate models", "why_tests_cant": "Tests use series that start at 0 or check only that some forecast exists; the claim is about every starting position and every pattern of missing and ignored samples.", "anchors": [{"file": "anticipy/forecast.py", "symbols": ["run_forecast"]}, {"file": "anticipy/forecast.py", "symbols": ["extrapolate_model"]}, {"file": "anticipy/model_utils.py", "symbols": ["get_s_x_extrapolate"]}, {"file": "anticipy/forecast_models.py", "symbols": ["_f_model_naive"]}]}
{"id": "C130", "title": "Taking a known component out before forecasting and adding it again afterwards makes no difference", "statement": "Let a model be a sum of components that are linear in their parameters (trend, steps, one-off effects, seasonal patterns, holidays), with a level among them. If the values of a series are multiplied by a factor and a known combination of these components is added (or taken out), then every forecast of the model is multiplied by the factor and changes by the same combination, for past and future dates alike. If the model is chosen in both runs and the random draws are the same, all columns of the forecast table with prediction intervals change in the same way; for a negative factor the columns of percentiles p and 100 - p change places.", "quantifier": "all tables with or without sources, all sources, all additive models, all factors, all combinations of their components, all gaps, weights, start dates and horizons, without outlier search; every solver that finds a minimum", "why_tests_cant": "Tests fit a few generated series; that a fit is neutral towards every component of every model, for every series and combination, is an algebraic fact on all least-squares minima.", "anchors": [{"file": "anticipy/forecast.py", "symbols": ["run_forecast"]}, {"file": "anticipy/forecast.py", "symbols": ["fit_model"]}, {"file": "anticipy/forecast.py", "symbols": ["extrapolate_model"]}, {"file": "anticipy/forecast.py", "symbols": ["get_pi"]}, {"file": "anticipy/forecast_models.py", "symbols": ["ForecastModel"]}]}
{"id": "C131", "title": "After a known change of level only the observations since the change matter; special days are forecast from special days", "statement": "If the optimiser finds the minimum, a level with a step at each of several known dates predicts for every date the mean (weighted with the squares of the weights) of the observations from which no change separates it; from the last change on, this is the mean of the observations since then, whatever was observed before. A level with effects for several kinds of special days (lists of dates, holidays, dummies; no day of two kinds) predicts for a special day the mean of the observations on days of this kind and for an ordinary day the mean of the ordinary days. So forecasts never leave the range of these observations.", "quantifier": "all tables with dates, any row order, number of sources, gaps, weights, starting dates, outlier settings and horizons; any number of changes, lists of dates and kinds of special days, in any order; all other candidates; every solver that finds a minimum", "why_tests_cant": "Tests fit one generated series with one step and compare roughly; the claim is about the exact mean for every series, every set of changes and special days, and about all older observations having no influence.", "anchors": [{"file": "anticipy/forecast.py", "symbols": ["run_forecast"]}, {"file": "anticipy/forecast.py", "symbols": ["fit_model"]}, {"file": "anticipy/forecast_models.py", "symbols": ["get_model_step_date"]}, {"file": "anticipy/forecast_models.py", "symbols": ["get_model_from_datelist"]}, {"file": "anticipy/forecast_models.py", "symbols": ["get_model_dummy"]}]}
{"id": "C132", "title": "A forecast lies inside its prediction intervals", "statement": "In the table returned by get_pi the forecast of every row lies between the lower and the upper column of each interval. This fails for skewed data: with nine observations 0 and one observation 10, forecast by their mean 1, both limits of the 20-80 interval are 0 for every date even if every residual is drawn equally often, so the forecast lies above its interval. What holds: the columns of a row are the forecast plus percentiles of as many simulated deviations as there are simulations, and the forecast lies inside an interval if, and up to one deviation only if, the share of deviations on either side of zero exceeds the percentile of the limit.", "quantifier": "all forecast tables, numbers of sources and simulations, accumulation periods, percentiles and random draws", "why_tests_cant": "Tests draw at random and check that columns exist; whether the forecast is inside depends on every draw and on the shape of the residuals.", "anchors": [{"file": "anticipy/forecast.py", "symbols": ["get_pi"]}, {"file": "anticipy/forecast.py", "symbols": ["_get_pi_single_source"]}, {"file": "anticipy/forecast.py", "symbols": ["_df_add_pi_percentiles"]}]}
{"id": "C133", "title": "Most observations lie inside the prediction intervals of their dates", "statement": "For the dates that have both an observation and a forecast, the share of observations that lie between two interval columns of the result is at least the nominal share of the interval (90 % between the 5 % and 95 % columns, 60 % between the 20 % and 80 % columns), up to the resolution of the simulation.", "quantifier": "for all tables of observations and forecasts, all accepted percentiles, all numbers of simulations and all sequences of random draws", "why_tests_cant": "Coverage is a statement about all data sets and all random draws; a test checks that columns exist or compares one seeded sample, and says nothing about how many observations they enclose.", "anchors": [{"file": "anticipy/forecast.py", "symbols": ["get_pi"]}, {"file": "anticipy/forecast.py", "symbols": ["_get_pi_single_source"]}, {"file": "anticipy/forecast.py", "symbols": ["_df_add_pi_percentiles"]}]}
{"id": "C134", "title": "The intervals of past dates have the same width everywhere", "statement": "For the dates up to the last observation that counts, the interval columns lie at the same distances from the forecast at every date: past forecasts get a prediction interval of constant width, as the source says.", "quantifier": "for all tables of observations and forecasts, all accepted percentiles, all numbers of simulations and all sequences of random draws", "why_tests_cant": "Whether two intervals are equally wide depends on the random draws for each of the dates; a test sees one seeded sample of one table.", "anchors": [{"file": "anticipy/forecast.py", "symbols": ["get_pi"]}, {"file": "anticipy/forecast.py", "symbols": ["_get_pi_single_source"]}, {"file": "anticipy/forecast.py", "symbols": ["_df_add_pi_percentiles"]}]}
