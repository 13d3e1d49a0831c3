# Verification of anticipy (sky-uk/anticipy) in Lean 4

Source: `/repo/anticipy/*.py`, read as text. Model and proofs: `/verif/lean`.
Properties: `/verif/properties.jsonl`. Status per property: `/verif/MANIFEST.json`.

## 1. Shape of the development

| directory | content |
|---|---|
| `lean/Verif/Model/` | the model, function by function; every definition cites file and lines |
| `lean/Verif/Spec/` | small independent specifications (calendar, grids, quantiles, expression semantics ...) that do not use the model's helpers |
| `lean/Verif/Lemmas/` | helper lemmas |
| `lean/Verif/Props/` | one file per group of properties: the theorems named in the manifest, each with a concrete example next to it and `#print axioms` |

### Modelling conventions

* **Numbers.** Python floats are modelled by exact elements of an arbitrary linearly
  ordered field `K` (`ℚ` in executable examples, `ℝ` where exp/log/sin/cos occur).
  Floating-point rounding is *not* modelled, with one exception: the constant `10 ** -320` in
  `get_aic_c`, whose division by `n` is modelled with its exact subnormal rounding.
* **NaN / null** cells are `Option.none`. Bounds, initial guesses and AICc scores that may be
  infinite use `Ext K` (`nan | ninf | fin a | pinf`) with IEEE comparison semantics.
* **Exceptions** are values: `Res α := Except Err α`, `Err` lists the Python exception classes.
* **Timestamps** are integers (nanoseconds since 1970-01-01), unbounded (the pandas range
  1677-2262 is not enforced). The civil calendar is computed by arithmetic and proved correct
  against a day-by-day successor specification (`Spec/Calendar`).
* **pandas / numpy / scipy** are outside the repository. The operations used by the code are
  modelled as list functions with their documented meaning (merge, groupby, drop_duplicates,
  shift, ffill, diff, quantile, date_range, DateOffset, broadcasting ...). Single-key
  `sort_values` is not stable in pandas, hence it is a *parameter* `SortAlg` (any function that
  returns an ordered permutation) and theorems hold for all of them. `list(set(..))` is an arbitrary
  permutation. `scipy.optimize.least_squares` and `numpy.random` are oracle parameters: theorems hold for
  every behaviour of these, or under contracts stated explicitly as hypotheses.
* **Metadata strings** (`weights`, `actuals_x_range`, `source_long`, `params_str`) are
  structured tuples instead of formatted strings.
* `x` is an integer in data tables (float `x` columns are outside the model).

## 2. Properties

The plan per property: see the table; "refuted" means that the code violates the statement, the
negation is proved with a concrete witness and a `_partial` theorem covers the part that holds.

| id | modelled by | proof technique |
|---|---|---|
| C01 | `ForecastModel.add/mul`, `Expr` trees | refinement: induction over expression trees against an arithmetic denotation |
| C02 | same | case analysis on the name test; needs the only model called "null" to be the null model |
| C03 | `fInit`, `fBounds` composition | induction over trees, for every random stream |
| C04 | same | take/drop algebra and associativity of the field |
| C05 | `initCache`, cache arguments of season/fourier/dummy functions | induction over trees; refuted for clashing names |
| C06 | `validateInput` | list algebra; "returns False" promise refuted |
| C07 | `fModelDummy`, `fDummyFromList` ... | pointwise equation; documented multiplicative factor refuted |
| C08 | `fModelSeasonWday/Month` | pointwise equation, calendar spec |
| C09 | `fStep`, `fRamp`, `fNSteps` | pointwise equation |
| C10 | `fModelLinear`, `fBoundsLinearNondec` | order algebra |
| C11, C12, C13 | real-valued models | real analysis from Mathlib |
| C14 | `fModelSpikeDate`, `fModelStepDate` | pointwise equation |
| C15 | `fModelSpike` | length computation; refuted for fractional parameters |
| C16, C17, C18 | `fixParams` (as a state machine over the shared array), `simplifyModel`, `getFixedModel` | invariant over call sequences |
| C19 | `detectFreq` | calendar arithmetic for all grids |
| C20, C22 | `normalizedX`, `sxExtrapolate` | integer arithmetic |
| C21, C24 | `dateRange`, `dateOffset`, `sxExtrapolate` | membership characterisation; refuted for month-end and quarter |
| C23 | numeric branch | refuted for start ≠ 0 |
| C25 | `interpolateDf` | membership characterisation |
| C26, C27, C28 | `normalizeDf` | permutation and sortedness |
| C29, C30, C33, C34 | `fitModel`, `getResiduals` | equational; oracle optimiser |
| C31, C32 | `getAicC`, `bestResultKey` | real analysis; refuted cases |
| C35, C47, C48, C49 | `runForecastSingle`, `runForecast` | decomposition of the pipeline, oracle optimiser; for C49 with removed rows (Props/StartRows, Props/StartAdditive for any additive model): the rows that are fitted are the same up to the origin of x, and the minimiser is unique |
| C36 | `fInit*`, `fBounds*` | order algebra; refuted for sigmoid_step |
| C37, C38 | `fModelNaive`, `fModelSnaiveWday` | invariant of shift/ffill scans |
| C39, C40 | `getModelOutliers` | equivariance of every stage |
| C41, C42, C53 | `getListModel`, `autoSeason`, gates | list algebra |
| C43 - C46 | `getPi` | monotonicity of percentiles, bounds over all draws |
| C50, C60 | `plotGrid`, `plotForecast` (panels, files, return code as values) | arithmetic, case analysis; return code refuted |
| C51, C59 | `App` (paths as lists of characters, file system as a predicate) | list algebra; folder without trailing slash refuted |
| C52 | `Holidays` rules of the UK calendar | calendar arithmetic for all years, independent weekday spec; August refuted |
| C54, C57, C58 | `HolidayMasks`, `CalendarModels` | pointwise equations for all windows and cache states; refuted per-rule parameters and time of day |
| C55 | `fitModel` with any model and solver | models with a value on each sample: the cost is the weighted sum over all samples and 0 only for a perfect fit; refuted for the seasonal naive model on short series |
| C56 | `runForecastSingle`, `simplifyModel`, extrapolation | decomposition of the pipeline; refuted for pinned parameters |
| C61 | `createFixedSpikeIgnored` | pointwise equation; refuted on its own |
| C62, C63 | `interpolateFull` | induction over the column against a positional spec (`Spec/LinearFill`); mask by strict bounds of interpolated x; refuted for regular and hourly tables |
| C64, C65 | `multCorr` (`fitLinear`, `monthStats`, `pearson`) | refinement to a correlation over civil months (`Spec/MultStats`), uniqueness of least squares lines, scaling; refuted for samples of weight 0 |
| C66, C67 | `normalizeRaw` (tables with named columns of abstract cells), `runLForecast` | list algebra; refuted for standard names in other roles and for empty inputs |
| C69, C70 | `runSingle`, `fitModel`, `extrapolate` with an exact solver (`Spec.FindsMinimum`) | zero residuals are the minimum, so the fitted function equals the true one at the samples; uniqueness of the function (two points; induction over weekdays seen) carries it to all dates |
| C68 | `runSingle`, `fitModel`, `getAicC`, `candidates` with an exact solver; `Spec.UnitFree` says that a model has a translation of its parameters to the new unit | the translated minimiser is admissible in the other run and vice versa, so the minima differ by the factor squared; every stage of a run commutes with the change of unit; the score is shifted by n log c²; `UnitFree` is proved for every built-in component and closed under sums and products. Assumes that both runs fit the same candidates successfully, no perfect fit, a strict winner. The logarithm makes `getAicC` real-valued; the run theorem is for any score with the proved order property |
| C71 | `fitModel`, `compose`, validators of the weekday and decay models; `Spec.Contains` (composition of any depth) | composites keep the validators of their parts (induction over `Contains`); the weekday validator accepts iff all seven weekdays occur (finite sets); carried to runs by the stages of a run |
| C72 | `modelSeasonWday2`, `modelDummyChristmas`, `modelDummyMonthStart` | one lemma on dummy functions that look at each date; the weekday and civil calendar are those of the independent specification |
| C73 | `fitModel`, `runSingle`; `Spec.misfit`, `Spec.Straight` (linear in the parameters), box bounds | two minima of the same function have the same value; for predictions linear in the parameters the point half way is strictly better unless both agree at all samples (parallelogram identity), so fitted values agree; samples determine line and weekly pattern, which carries this to all dates |
| C74 | `runSingle` on `Spec.rescaled c d df` | as C73, after translating parameters (`Spec.Follows`): the misfit is multiplied by `c^2`; outlier detection by C39 |
| C75 | `runSingle` on `Spec.valued u df`, `Spec.valued v df` and the combination; `Spec.LinearPrediction` | normal equations: the derivative of the misfit at a minimum vanishes in every direction; the combination of two solutions solves them for the combined series; uniqueness (C73) identifies it with the third fit |
| C76 | `runSingle` on `Spec.reweighted k df` | the misfit is multiplied by `k^2` (`Spec.Similar`), all other stages do not look at the size of positive weights; then as C73. For the choice of the model (any candidates whose predictions do not look at weights: all built-in ones and their compositions) costs are multiplied by `k^2`; then as C68. `C76_intervals`: the intervals look only at whether a weight is zero or positive (`piSingle_reweightF`), so the whole forecast table is the same |
| C77 | `runSingle` on `Spec.moved s df`, `getModelOutliers` | each stage commutes with the shift; misfits agree for shifted predictions (`Spec.Similar`); weekdays repeat after whole weeks. `C77_intervals` (whole weeks, not monthly or yearly): frequency, grid and intervals commute with the shift (`extrapolate_moved`, `piSingle_moveF`), so the whole forecast table moves along |
| C78 | `mainArgs`, `appRun` (Model/AppRun) on top of `appPaths`, `normalizeRaw`, `runForecast`, `plotForecast` | positional binding checked against the meaning of each option; second normalization is the identity (C27); observations are a permutation (C26, C48) source by source; plot through C50, C60 |
| C79 | as C78 | panels do not mix sources (C50), forecast rows of a source are those of the best model (C35, C48); refuted for `--include_all_fits` |
| C80 | `normalizeDf`, `runForecast` on two orders of the same rows (`Spec.Reordered`) | the series of both normalised tables are equal up to the origin of x (sorted lists with the same elements); a change of origin is a change of the parameters (`Spec.NoOrigin`), so both fits predict the same by uniqueness of the minimum |
| C81 | `normalizeDf`, `interpolateDf`, `actualsInterpolated` (`mergeWeight`), `sxExtrapolateDate`, naive models inside `runForecast` | gap filling of a daily series gives every day between the first and the last with x still counting days (`daily_interpolated`); the merged table has y exactly at the samples used (`daily_actuals`); then C37/C38 at the grid points. Statement in terms of the returned rows only (`Spec.UsableActual`, `Spec.WeeksBefore`) |
| C82 (partial) | all stages of `runForecast`: outliers, candidates, gap filling, `fitModel` of every candidate, extrapolation, `getPi` | `Spec.Dependable` says what a model must guarantee (evaluates on input of the right shape, starts within strict bounds, validators raise only AssertionError, its features can be computed); closed under + and × (`dependable_compose`), shown for linear, constant, ramp, fourier, weekday models; solver and score by contract (`Spec.SolverReturns`, `Spec.ScoreReturns`, the latter proved for `getAicC` up to 4047 samples). `C82_default_partial` instantiates everything for the default arguments. `C82_weekly_partial` is the same for weekly series (gap filling, naive models and extrapolation in steps of a week), `C82_mixed_partial` for tables that mix daily and weekly sources, `C82_mixed_default_partial` with default arguments. `C82_numeric_partial` (and `_table`, `_default`) is the same for series without dates, where a single sample is enough (`Spec.DependableUndated`). `C82_complete_partial` (and `_table`) is the same for first or last days of months or years without gaps, `C82_all_default_partial` covers tables that mix daily, weekly, monthly and yearly sources with default arguments. Monthly series with gaps are not covered (whether the gap-filled table suits the naive models is open there). Counterexamples: see section 4 `C82_numeric_sources_partial` does the same for each source of a table without dates. |
| C83 (partial) | `runForecast` twice with different `years`: `extrapolateModel`, `sxExtrapolateDate`, `sxExtrapolateNum`, `dateRange`, all models | `Spec.OnlyAdds` relates the two results; `Spec.PointByPoint` says that a model is evaluated sample by sample; shown for all models except spike, two_steps and the calendar models, closed under + and × (`candidates_closed`); naive models on daily series through C37/C38. The grid of the shorter horizon is a prefix of the other (`dateRange_extends`). `C83_default_partial`: default arguments. Counterexample: see section 4 |
| C84 (partial) | `runForecast` twice, with and without rows whose y is null: `runFits` as a whole | `Spec.TableLeavesOutNulls` relates the tables, `Spec.SameUpToNulls` the results; `Spec.IgnoresWeights` says that a model does not look at the weights of the gap-filled table (the only thing that differs), shown for the default and naive models, closed under + and ×. Candidate lists agree because span and smallest distance of dates agree (`SameSpan`), and the automatic composition is decided by the samples with values (`C65_observed_partial`). Each series of a table with sources: `C84_series_partial`. Counterexample: see section 4 |
| C85 | `runForecast` twice, with candidate lists of which one extends the other | `Spec.FoundIn`: every fit and every row of values is found again, apart from the mark. Every candidate is fitted on its own (`fitLoop_spec`), so a model gives the same rows at another position (`superset_stages`); more trends give a longer list of compositions with the old one as its beginning (`composedModels_prefix`); for 'both', where a Python set keeps the first model of every name, see `dedupBy_both` and the condition `NewNames`. The score follows from `bestKey_spec`. Assumes that the environment of a fit does not depend on its position in the list |
| C86 (partial) | `__eq__`, `__ne__`, `__hash__`, `__lt__`, names of compositions | `Spec.BuiltFrom`: models built with + and * from parts and the null model. A composition without null models is a tree (`built_tree`), and its name can be read in one way only (`chars_unique`, induction over the tree with the rest of the string) |
| C87 | `run_forecast`, `normalize_df`, `run_forecast_single`, `get_pi` | `Spec.labelledAs`, `Spec.renamed`, `Spec.withLabel`; every stage of a run commutes with a change of the label (`fitLoop_relabel`, `piSingle_relabel`), then C47 for tables. `C87_ties` shows why coordinates have to be distinct for the source column |
| C88 | `run_forecast_single`, `fit_model`, `get_residuals` | `Spec.observed`, `Spec.errorSum`; normal equations of the least squares problem (`normal_equations`), carried to the rows of the returned table (`observed_rows`, `balanced_run`) for every model linear in its parameters; instances constant, linear, linear + season_wday. Examples with a fit that is not perfect |
| C89 | the same, two runs | `Spec.extended`, `Spec.ComesTrue`; the old parameters minimise the misfit of the longer series (`misfit_extended`), and the minimum is unique (`confirmed_run`) |
| C90 | runs without and with a weight column of ones, and without and with the search for outliers | `Spec.withOnes`, `Spec.weightsText`; the gap-filled table does not look at the weights (`actuals_bare`), the text of the weights only passes through the loop over candidates (`runSingle_text`) |
| C91 | two calls of `get_pi` with the same draws, and two runs | `Spec.valuesMoved`, `Spec.intervalMoved`, `Spec.intervalMirrored`; simulated deviations are linear in the residuals, percentiles are monotone (`percentile_mul_pos`, `percentile_mul_neg`); for runs the rows used for the intervals are listed by `selected_rows`; for naive forecasts `copied_table` |
| C92 | `modelCalendarUK`, `modelCalendarIta`, `modelCalendarUS` | `Spec/CountryCalendars` states the holidays of the three countries from the calendar and the week alone; each rule is shown to give the specified day in every year, and the masks are composed with `C54_values`; Italian substitute days refuted |
| C93 | `getModelOutliers`, `runSingle` | change groups of a lone jump or a lone pair of jumps are listed (`filter_one`, `filter_two`); for level series the quartiles are computed (`thresholds_zero`); refuted at the end of the series |
| C94 | `runForecastOut` (`Model/Output`), `runSingle`, `getPi` | equality of results: the rows of the chosen model are selected a second time by `get_pi`, which is idempotent; the report of the optimiser follows the loop over models |
| C95 | `runSingle`, `fitModel`, `weightsMeta`, `rangeMeta`, `runRange` | the description of a series is computed twice, before the fits (observations) and inside each fit; both are related to the rows of the returned table. For series without dates the range in the label of a model called logistic or sigmoid is divided by 100 (`RangeMeta.hundredths`), so the label common to all fits needs dates or other candidates |
| C96 | `runSingle`, `ForecastModel.add`, all models that add up features | `Spec.AddsUp`: the value of a model is a combination of fixed features of coordinate and date; closed under addition (`AddsUp.add`), instances constant, linear, season_wday, season_month, steps and spikes at dates, dummies, calendars, date lists, Fourier (`Lemmas/Additive`). Samples identify the combination (`Spec.Identifies`), so the minimum is unique as a function. The same class gives the theorems `C73_additive` to `C77_additive`, `C80_additive`, `C88_additive`, `C89_additive`, `C91_additive`. Each of these theorems, and C69, C70 and C81, also holds for every series of a table as a user supplies it (`C69_table` to `C96_table`, `C81_series`): `Spec.seriesFrame` writes down the series (rows of the source in order of dates, days counted from the Monday of the week of the date listed first), `series_run` shows that the run works on exactly this series, and `seriesFrame_*` that changes of unit, weights, dates and values commute with it |
| C97 | `fModel` of all models, `compose`, `unpack1`, `unpack2`, `unpack3` | induction over `Spec.BuiltFrom`: a composite splits the list after the parameters of the first part, so one of the parts gets a list of the wrong length. The null model takes no parameters and ignores any |
| C98 | `ForecastModel.operate`, `operate`, `accumulate` (`Model/Reflected`), `combineModels` | `__radd__` and `__rmul__` with Python's dispatch for numbers and models, `sum` and `math.prod` as left folds; reduced to C01 for the left-leaning expression |
| C99 | `fInit`, `fBounds` of every model, `compose`, `fixParams` | each model by cases, composites by induction over the expression, fixed parameters by counting the free ones |
| C100 | `fInitStep`, `fInitStepDate`, `fInitNSteps`, `fInitSpike`, `fInitSpikeDate`, `fInitSigmoidStep`, `fInitRamp`, `fInitSeasonMonth` | the first maximum of the differences is characterised by two inequalities, which also determine it; for two steps after removal of the first, for the ramp after cutting the margins |
| C101 | `runForecast`, `forecastRows`, `extrapolate`, `sxExtrapolateDate`, `detectFreq`, `cumPeriod` | `pattern_run`: all predictions of a run come from one axis, which is the same for all models; C19 gives its frequency and C21 its dates; `Spec.NeverNull` (kept by sums and products) gives a prediction for each date. Refuted in general for samples less than an hour apart: the frequency of any table that contains them is `None`, so `get_pi` raises |
| C102 | `fitModel`, `getResiduals`, `compose`, `modelFourier`, `exactEnv` (a solver that exists classically and finds each minimum) | `Spec.Covers`: each admissible parameter vector of the smaller model has one of the richer model with the same values; the minimum over the larger set is not higher. `CanBeNeutral` gives the containment in sums and products and is kept by them. Refuted: over four years of days the sums of the twenty harmonics and the orthogonality give cost 1461/2 for the product at its best |
| C103 | all ready-made trend models, `npPower`, `modelSeasonWday2`, `modelDummyChristmas` | `Spec.Formulas` transcribes the tables of the documentation; each model by unfolding, for all parameters and x |
| C104 | `runSingle`, `fitModel`, `getResiduals`; spec `Repeats` | the weighted squared errors of the repeated table are the k-th part (`misfit_repeats`), so both fits minimise the same function; strict convexity at the samples and identifiability give equal forecasts; counterexample for every exact solver, with a concrete run |
| C105 | `getPi`, `piSingle`, `cumPeriod`, bootstrap draws; spec `Simulated`, `onAverage` (average over all tables of draws), `samplesIn` | the simulated deviations are sums of independently drawn centred residuals at distinct positions of the draw table (`column_entries`); mean and mean square of such sums by `draws_sum`, `draws_square`; period from `C19_detect_freq`; with one simulation the deviations can be read off the result (`simulated_unique`), which gives the counterexample |
| C106 | `runForecast`, `fitModel`; spec `revised`, `counted`, `squares` | both fits are orthogonal to all features (`C88_table`), so the change of the fit, summed against itself, equals its sum against the revision (`fit_change`); one date: only the revised row contributes (`sum_le_one`) |
| C107 | `runSingle`, `runForecast` with all stages; spec `withValues`, `TakesPart`, `SamePredictions`, `Confirms`, `tableValues` | a change of values at the places of ignored samples commutes with gap filling (`interpolateDf_revalue`), is undone by the merge of weights (`actuals_revalue`), and leaves the residuals of the intervals as they are (`filtered_revalue`, `pi_revalue`); hence all fits are equal (`runFits_revalue`) |
| C108 | `runSingle`, `runForecast`, `getPi`; spec `Listing`, `ModelBlock`, `InTime`, `Before` | the grid of an extrapolation is strictly increasing (`grid_sorted`, `extrapolate_sorted`), so every fit adds one ordered block (`fitLoop_blocks`), which selection keeps or drops as a whole (`blocks_select`, `best_in_time`); sources by `C47_concatenation`; the order of `get_pi` is transitive and total, so insertion sort gives it |
| C109 | `runForecast`, `fitModel`, `modelConstant`, `modelSeasonWday`, `modelSeasonMonth`, `modelNaive`, `modelSnaiveWday`; spec `inSeason`, `meanOf`, `weekdayIn`, `monthIn` | a level and one flag per season but the first: the value depends on the season only (`season_same`); the normal equations (`C88_row`, which needs no identification of the parameters) hold for every combination of features, in particular for the flag of each season (`season_flag`), which says that the value is the weighted mean of the season (`group_mean`); weekdays are all observed because of the check before the fit (`weekdays_observed`, C71); naive models from C81 |
| C110 | `runForecast`, `fitModel`, `ForecastModel.add`, `getModelSpikeDate`, `getModelDummy`; spec `blanked`, `eventFlag` | the normal equation (C88) of the flag says that the residual of the only observation of the event is 0; the other normal equations are then those of the series without it (`observed_perm`, `counted_blanked`), and they have one solution (`normal_unique`); so the parameters of the smaller model agree with the first parameters of the larger one on all dates |
| C111 | `runForecast`, `fitModel`, `extrapolate`, `compose`, `fModelIndexed`; spec `KeepsCount`, `FitsOnce`, `HasFormula`, `RepeatsSeasons`, `GrowsEvenly`, `GrowsInProportion` | all rows of a model come from one list of parameters (`rows_value`: different names, so one fit); the formula of a composition is the sum or product of the formulas of the parts (`formula_compose`); along a line whole days add the slope (`line_grows`); nothing is assumed about the values of the parameters |
| C112 | `plotWithBands`, `pngBands`, `plotlyBands`, `checkSize` (Model/PlotBands) on top of `plotForecast`, `runForecast`; spec `ShowsLine`, `ShowsQuantiles`, `Within` | rows of a result have one complete and ordered entry per percentile (`forecast_quantiles`, `pi_entries`), so the columns exist and a cell is the entry; line and areas of a panel come from the same rows (`panel_forecast`); png refuted for other percentiles and for the default size |
| C113 | `runForecast`, `fitModel`, `getResiduals`, `prepare`, `extrapolate`, `getAicC`; spec `ReportsCost`, `squaredErrors`, `forecastAt`, `HasFittedValues` | the metadata row and the forecasts of a model come from the same fit (`metadata_stage`, `row_value_stage`: different names); the cost is the misfit at the reported parameters whether or not caches are used (`fit_cost`); the samples of the fit are the observations in the result (`observed_rows`) and none shares its weight |
| C114 | `runForecast`; spec `FillsGaps`, `TakesFitted`, `otherValues` | The errors of the fit balance out for every feature (C88). A filled row contributes no error, so the old coefficients balance the errors over the filled table as well; coefficients that balance are unique if the rows tell combinations apart. For fitted values only: they follow the rule of the model, so C96 applies. |
| C115 | `runForecast`; spec `samplesOf`, `SameSamples` | The errors of the first fit balance out for every feature (C88); the sum is one over the samples, so it is zero for the second table too. The origins of x are whole days apart and the features do not depend on the origin, so the moved coefficients balance the errors of the second table; coefficients that balance are unique. |
| C116 | `runForecast` twice; spec `otherWeights`, `RaisesWeight` | Both sums of squares are smallest at their own parameters (`best_row`, from the residuals of C33 and the solver). The difference of the two inequalities leaves the term of the raised sample only. For the cost: every term with greater weights is at least the old one. |
| C117 | `runForecast`; spec `SamplesAre`, `SeenTwice`, `SeenOnce` | The parameters that give the samples have sum of squares 0, so those that are found reproduce the samples too. Two samples of a season determine the products of slope and factor and of level and factor, although slope and factor themselves need not be unique. |
| C118 | `runForecast`; spec `StaysInside`, `DoesNotFall`, `KeepsDirection`, `Approaches`, `countedMean` | Bounds of a composition are those of the parts, so all forecasts of a model come from one list of parameters within the bounds (`bounded_rows`). Falling samples: the sum of squares of a line splits into variance, covariance and distance of the mean; the covariance is not positive because one value separates the samples before and after the mean date. |
| C119 | `runSingle`, `runForecast`; spec `givenFrame`, `givenTable`, `ReportsWeights` | The table after the search is the table with the reported weights (`search_given`); the gap-filled copy does not depend on weights (`actuals_bare`). |
| C120 | `getModelOutliers`, `runForecast`; spec `lineSpike`, `ValuesAre`, `EveryDay` | All differences but two are the slope, so both thresholds are the slope and `C93_spike` applies (`C120_found`); with C119 the run is one with given weights, to which C96 applies. |
| C121 | `runForecast`; spec `offering` | The rows with the key of the best fit are those of one run of the loop over models (`fitLoop_named`); the loop over the single model gives the same metadata row, rows and key, hence the same selection and the same intervals. Sources via the normalised table that both runs share (`series_pair`). |
| C122 | `runForecast`, `fitModel`, `modelLinear`; spec `regressionLine`, `GrowsBetween` | The normal equations (C88) of a line determine it as soon as there are samples on two days (`normal_line`); a fit has at least four samples on distinct days (`observed_twoDays`). Growth: the sum over all pairs of samples of the product of the differences of values and days (`pairSum`) has the sign of the growth and equals the slope times a positive number (`slope_bounds`). |
| C123 | `runForecast`, `fitModel`, `getAicC`; spec `NamedOnce`, `penalty` | The score in the table is `get_aic_c` of the cost, the number of samples and the parameters of the candidate (`fit_score`); the marked row has the lowest score (C35); formula and monotonicity of the score (C31) give the inequality (`score_split`, `penalty_lt`). |
| C124 | `runForecast`, `fitModel`, `getResiduals`; spec `variation`, `explained`, `meanPrediction` | The errors are orthogonal to all effects (C88), hence to the fitted values and to the constant (`split_variation`, `mean_prediction`); the cost is half of the squared errors (C113). |
| C125 | `runForecast`, `fModelNaive`, `fModelSnaiveWday`, `actualsInterpolated`, `extrapolate`; spec `Spec.transformed`, `Spec.transformedTable` | Shifting, forward and backward filling, joins and sorting by x commute with every function on values (`naive_transformed`, `snaive_transformed`, `actuals_transformed`); the rows of one model in the result are those of its extrapolation (`model_rows`). |
| C126 | `runForecast`, `fitModel`, `fModelNaive`, `fModelSnaiveWday`; spec `revised` | Predictions are weighted means of the observations of a season (C109), of a level or of a kind of day (C131), which are monotone in each observation (`mean_higher`); a naive forecast copies the observation of one date (C81), which is the same date in both runs (`usable_counted`, `same_date`). |
| C127 | `runForecast`, `fitModel`, `getResiduals`, `bestKey`; spec `SameSamples`, `ScoredAlike` | The reported cost is half of the least sum of squares over the rows that count (`best_meta`), which is a function of the samples (`squares_same`); parameters are carried from one origin of x to the other. |
| C128 (partial) | `runSingle` and `runForecast` on tables without dates, `sxExtrapolateNum`; spec `FirstCounted`, `positioned`, `TableOnLine` | The exact solver recovers the line (`fit_line`); the coordinate of each forecast row is its position plus the first coordinate (`numeric_shifted`). The first position is read off the result, so removed outliers are taken into account. |
| C129 (partial) | `runSingle` and `runForecast` on tables without dates, `actualsInterpolated`, `fModelNaive`, `sxExtrapolateNum`; spec `FirstCounted`, `UsableActual` | Every forecast row is a value of the model at its position plus the first position (`undated_row`); the gap-filled samples have exactly the values of the samples used (`undated_values`); then C37 for naive models. |
| C130 | `runForecast`, `fitModel`, `extrapolateModel`, `piSingle`; spec `plusTable`, `combination`, `AddsUp` | Both fits satisfy the normal equations over the samples that count (`fit_normal`); moved parameters satisfy those of the changed series, and the components are told apart, so the fitted parameters are the moved ones; the rows used for the intervals are the moved rows (`selected_rows`), then `single_moved`. |
| C131 | `runForecast`, `fitModel`, `getModelStepDate`, `getModelFromDatelist`; spec `sameLevel`, `sameKind`, `meanOf` | The errors balance along every component (C88); the part of time between two neighbouring changes is the difference of two steps (`between_changes`), the days of one kind are a component or the level minus all others (`kind_balance`); so the errors of each part sum to 0 and the constant fitted there is its mean (`part_mean`). |
| C132 (partial) | `getPi`, `piSingle`, `percentile`; spec `InsideInterval`, `countBelow`, `countAbove`, `shareOf` | In a sorted list the values at most 0 come first (`sorted_below`), so the sign of a percentile is decided by their number (`percentile_below`, `percentile_above`); every forecast row has the percentiles of one column of the simulated deviations (`piSingle_devs`); counterexample by evaluation with draws that take each residual once for each row |
| C133 (partial) | `piSingle`, `percentile`; spec `Encloses`, `countWithin`, `Reproduces`, `residualsOf` | Fewer values than the share plus one lie below or above an interpolated percentile (`count_below_percentile`, `count_above_percentile`); balanced draws from a list have the counts of the list (`balanced_count`) and their percentiles do not depend on order (`percentile_perm`). For tables: normal equations of a model with a level (C88) make the mean error zero, and the residuals are the errors of the observations (`residuals_plain`). Missing: forecasts with a mean error; refuted for all draws by `C133_counterexample` through `C133_outside`. |
| C134 (partial) | `piSingle`, `pastSample`, `percentile`; spec `SameShape`, `SameDraws`, `Reproduces` | Percentiles do not depend on the order of the simulated deviations (`percentile_perm`); the columns of the past rows are read off the draws entry by entry; even draws are equal up to order (`sameDraws_of_reproduces`); counterexample evaluated |
| C35, C40, C43, C48, C71, C93, C95 for tables | `runForecast`, `normalizeDf` | `Props/EachSeries`: the part of the result for each series of a table, whatever its columns, is the result of a run on a series with the rows of that source sorted by x; the statements are then read off the rows of the table |

Every theorem name behind a property is listed in `MANIFEST.json`, and `Verif/Axioms.lean` prints the axioms of each of them.

## 3. Trusted base

* The Lean 4.33.0 kernel; axioms used by the theorems (`#print axioms` in every `Props` file, and for all manifest theorems in
  `Verif/Axioms.lean`): at most `propext`, `Classical.choice`, `Quot.sound`. No `sorry`, no own axioms, no `native_decide`.
* The correspondence between the Python source and the definitions in `Verif/Model`, checked by reading only.
* The meaning of pandas/numpy/scipy operations as described above.

## 4. Where the code disagrees with a property

Each line is a theorem about the model (`*_counterexample*`), found by reading and confirmed by proof, not by running the code.

| id | finding |
|---|---|
| C05 | two dummy models with one name share a cached mask, so evaluation with a cache differs from evaluation without it |
| C06 | a validator that returns False does not reject the input; only an AssertionError does |
| C07 | docstring: factor A on flagged dates in multiplicative mode; code: A + 1 |
| C15 | `spike` with fractional parameters returns an array of the wrong length |
| C17 | `simplify_model` raises TypeError for models whose bounds are plain lists and have equal entries |
| C21 | month-end grids get one sample too few when the last month is shorter than the target month; quarterly grids raise TypeError (no entry in `dict_dateoffset_input`); fractional years of monthly data raise ValueError |
| C22 | hourly data with filtered leading samples: x of the forecast differs from x of the fit |
| C23 | numeric series starting at x0 ≠ 0: the extrapolated x is shifted by x0 a second time |
| C128 | the same error at the level of `run_forecast`: with samples (3, 7), (4, 9), … on 2x + 1 the linear forecast for 3 and 4 is 13 and 15 |
| C129 | the same error for the naive model: with samples 7, 9, 11, … from position 3 on, the naive prediction for position 3 is 11, the observation at position 5; from position -3 on, the prediction after the last observation is not the last observation |
| C25 | gap filling of monthly data gives new rows an x that is not the day count |
| C26 | a dated table with a row without source label raises IndexError instead of dropping the row |
| C30 | the EMPTY_TS result can not occur: an empty series raises ValueError before |
| C31 | a perfect fit with one parameter scores below a perfect fit without parameters (subnormal rounding of `10 ** -320 / n`) |
| C32 | several scores of minus infinity raise ValueError |
| C36 | sigmoid_step, linear with one x, ramp with several samples per x: initial guess outside the bounds |
| C37, C38 | repeated x and missing dates misplace the naive and seasonal naive predictions |
| C39 | spikes (unlike steps) are not invariant under linear trends |
| C41 | different candidate models with one name: only one is tried (e.g. two fixed steps) |
| C45 | a forecast without date in common with the data loses all its rows when intervals are added |
| C49 | dates before the starting date influence the forecast through the detected frequency |
| C52 | the August bank holiday is computed from August 30, hence wrong when August 31 is a Monday |
| C54 | one parameter per calendar although the docstring promises one per holiday |
| C55 | with at most 7 daily samples the seasonal naive model predicts nothing and is scored as a perfect fit |
| C56 | a parameter pinned by equal bounds makes the forecast raise ValueError |
| C58 | holiday effects apply only to samples at midnight |
| C59 | an output folder given without trailing slash: files go to its parent |
| C60 | return code 0 although the plotting library is missing; forecast-only table of two sources raises ZeroDivisionError |
| C61 | the ignored-spike model alone is 0 everywhere |
| C63 | `is_gap_filled` is missing for tables without gaps and false for rows filled into hourly data |
| C65 | a sample of weight 0 with a value of 0 or below forces additive composition |
| C66 | a value column called `weight`, `x`, `date` or `source` raises KeyError: in the renaming dictionary the default name of the other role overrides it |
| C67 | one input without samples makes a whole batch raise TypeError; `weights_y_values` of an input has no effect |
| C79 | with `--include_all_fits` the data table holds the forecasts of all models, and the plot draws all forecast rows of a source as one line, which jumps between the models |
| C82 | a start date (or source) that leaves a single sample raises AttributeError in `get_pi` (`_get_days_from_freq(None)`), which also discards the forecasts of all other sources; a series in which no sample has a positive weight raises ValueError; every constant daily series of 4048 samples or more raises ValueError with the default arguments, whatever the optimiser does, because the seasonal naive model fits it perfectly and `get_aic_c` takes the logarithm of 1e-320/n, which underflows to 0; a horizon that is not a whole number of months raises ValueError for a monthly series (`pd.DateOffset(months=2.4)`) |
| C83 | weekly series with a time of day: the end of the horizon is taken back to the anchor weekday with the time of day of the end, so the last week is lost or not depending on the fraction of a day in `forecast_years`; with 0.100 years one prediction less than with 0.099 |
| C84 | four Sundays and one Monday without a value: the empty row makes the series daily, with a prediction for every day instead of every Sunday |
| C86 | `get_fixed_model` calls every fixed version of a model `…_fixed`: constants fixed to 1 and to 2 are equal, and only one of them remains in a candidate list. A model of one's own called `(linear+ramp)` equals the sum |
| C92 | the Italian calendar moves New Year, Epiphany, Christmas and St Stephen from weekends to working days, as in the United Kingdom; in Italy they are not moved |
| C93 | a spike in the last sample is not found; a spike in the last but one sample is taken for a step and keeps its weight |
| C95 | `source_long` of observations and forecasts of one series differ: for input without weights the observations say 1, the forecasts 1-1; samples without value or weight count for the observations only; without dates the label of a model called logistic or sigmoid has its x divided by 100, unlike those of the other candidates |
| C97 | `model_season_wday`, `model_season_month` and `model_two_steps` ignore surplus parameter values, also at the end of a composite; the seasons accept too few values if no sample needs the missing ones; after `fix_params_fmodel` a single value is used for all free parameters |
| C98 | `sum([model1, model2])` raises an AttributeError: `0 + model1` calls `model1.__radd__(0)`, which reads `(0).name`. With only null models the result is the number 0, not a model |
| C99 | `model_spike.f_init_params()` without data returns one number: `[1] + np.random.uniform(0, 1, 1) + [2]` adds the lists to the array element by element. The model has three parameters |
| C100 | Starting values of `step`, `two_steps`, `sigmoid_step` and `spike` are row numbers, not x values: for samples at x = 3, 4, 5, 6 the position lies before the data. A falling step starts as a rising one. `spike` starts one sample before the spike, `ramp` one sample after the bend. `_f_init_params_season_month` returns the averages of January to November relative to December, whereas `_f_model_season_month` uses the parameters for February to December relative to January (no effect on fits, which call it without dates) |
| C101 | Dates from Monday to Friday, or every second day, have the frequency `D`, so values are predicted for weekends and for the days between. Dates in the middle of months have the frequency `M` (month end), `asfreq` finds none of the samples, and the conversion of x to integers raises ValueError. Without a frequency (two-hourly samples, or any two samples less than an hour apart) `get_pi` raises AttributeError in `_get_days_from_freq(None)` |
| C102 | `_f_model_yearly_season_fourier` ignores `is_mult`: a Fourier season has mean zero also as a factor, so `constant * season_fourier_yearly` cannot represent a constant series (the weekday and month seasons, the steps and the dummies become one when their parameters are zero or one). The sum of the same components can |
| C103 | `model_decay` has three parameters (`A*e^(B*x)+D`), documented are four; `model_season_wday_2` has one, documented are two; a dummy as a factor is `A+1` on flagged dates, documented is `A`; `model_quasilinear` with negative x and `model_exp` with negative base give NaN. The class comment also lists 7, 12 and 10 parameters for the weekday, month and Fourier seasons; they have 6, 11 and 20 as in the tutorial |
| C104 | `fit_model` divides the weights of samples of one date by their number and the errors are squared afterwards, so a sample given k times counts 1/k of a sample given once: 0, 0, 3 has level 1; with the 3 given twice it is 3/5 |
| C105 | `_get_days_from_freq` gives 1 day for hourly and quarterly series: intervals of hourly forecasts widen with every sample instead of every day, those of quarterly forecasts with yearly widening after 365 quarters |
| C107 | samples of weight 0 that share their date (or x) with a sample that counts get its weight in the left join of forecast.py 1337-1345, so naive forecasts can repeat their values; `_get_pi_single_source` leaves samples out only if some weight is exactly 0, so samples with null weight enter the residuals |
| C108 | `normalize_df` sorts by `x`, the number of whole days since the Monday (at the time of day of the first row); times within a day keep the order of the input or of the unstable sort, so hourly observations are not listed in order |
| C112 | `_matplotlib_forecast_create` ignores the percentiles asked for and looks for the columns q5, q95, q20 and q80; `plot_forecast` passes its default size `None` to a division, so `output='png'` without width and height raises TypeError |
| C132 | intervals hold percentiles of simulated residuals around the forecast, not intervals around it: for nine observations 0 and one 10 the forecast 1 lies above its 20-80 interval [0, 0] in every row, with even draws |
| C133 | the mean error is subtracted from the residuals before the simulation but the forecast is not shifted by it: with the last value as forecast of a rising line of twenty samples, nineteen of the twenty observations lie outside every interval, whatever is drawn (`C133_counterexample`, and for a whole run `C133_run_counterexample`) |
| C134 | forecast.py 1781 calls the interval of past forecasts one of constant width, but the deviations are drawn anew for each date: with the same forecast the 20-80 interval can be 10 wide at one past date and 0 wide at the next |

Other observations: `_fit_linear` evaluates the line at 0, 1, 2, ... instead of x, which shifts all residuals by a constant (harmless
because only their variance is used, see `fitLinear_line`); inputs of the app with the same stem share
output files (C51); random draws of the interval simulation depend on a global generator shared between sources (C47).

## 5. Code not modelled

* logging, `print`, plotting side effects (matplotlib / plotly drawing calls); only grid layout, panels, filled areas, files and return codes
  of the plotting module are modelled. Limits of plotly for the spacing of very many panels are not.
* CSV reading/writing of the app (`pd.read_csv`, `to_csv`) and argparse itself; tables and parsed options are modelled.
* the holiday machinery of pandas is modelled for the rules used by the calendars in the repository and for the US federal calendar.
* `array_transpose`, `to_str_function_list`, `__str__` and `__repr__` methods.
* duplicate column names (two columns renamed alike).
* `fit_time` and the scipy diagnostics (iterations, message...).
* float rounding, overflow, pandas timestamp range, time zones.

## 6. Tests against wrong programs

`seeded/LOG.jsonl` records edits of the model (in a scratch copy), the claim each edit breaks, the theorems that failed and
the theorems that were tightened as a result.
