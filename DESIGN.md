# A Lean 4 model of MELODIST

Source: /repo (kristianfoerster/melodist, python).  Nothing is run; the model is written by reading the
source, and every definition cites the file and lines it models.

## 1. Layout

| module (lean/Verif/...)  | content |
|---|---|
| `Base/Num.lean`     | `XF K`: a float64 cell with exact finite part (`nan`, `ninf`, `fin x`, `pinf`), IEEE special-value rules |
| `Base/Err.lean`     | Python exceptions as values, `PandasApi` (which removed pandas attributes exist) |
| `Base/Time.lean`    | timestamps (integer microseconds), day/hour/minute, Gregorian calendar, `date_range` |
| `Base/Pandas.lean`  | the pandas operations used by the code (reindex, ffill, shift, groupby-transform, resample, reductions) |
| `Model/*.lean`      | the code, one or more files per python module |
| `Spec/*.lean`       | the small independent vocabulary in which properties are stated |
| `Lemmas/*.lean`     | helper lemmas |
| `Props/*.lean`      | the theorems of the properties (`Cnn_...`), with non-vacuity examples beside them |

## 2. Modelling decisions

* **Numbers.** Finite floats are exact elements of an ordered field `K` (theorems are proved for every such field,
  or for ℝ where the code uses sin/cos/exp/log).  Rounding is not modelled here (separate rounded models: C102, C111, C117, C128, C129, C131, C133-C135, C139, C146, C147, C149, C151, C152, C153, C155, C157); NaN and ±inf are (type `XF K`), because
  MELODIST uses NaN for missing data and divides by possibly-zero quantities.  Signed zero is not modelled
  (`x/0` has the sign of `x`).
* **Randomness.** `np.random.random()`/`rand` is an arbitrary function from draw number to value; theorems quantify
  over all of them.
* **Optimisers.** `scipy.optimize.curve_fit` and `minimize` are arbitrary functions of the model function, the data and the start
  values.  Theorems about fitted values assume that the result is optimal, and say so (`LeastSquares`, `Minimizes`, exact fit of the
  wind course).  The linear regression of `calculate_dewpoint_regression` is modelled by its formulas, not assumed.
* **Exceptions.** Every function that can raise returns `Except PyErr α`; error branches are part of the model.  Inputs whose
  treatment is outside the model give the value `unmodelled`; theorems never conclude something good from it.
* **pandas versions.** `setup.cfg` sets no bound on pandas.  Several functions use attributes that pandas removed
  (`Index.to_datetime`, `pd.datetime`, `Series.iteritems`, `Series.append`, `Timedelta.delta`, deletable `Index.name`).
  The model takes a record `PandasApi` of booleans; each use of a removed attribute raises `AttributeError`
  when its flag is false.  `PandasApi.modern` has all flags false (pandas >= 2, which the test-suite needs).
* **Mutation.** A method that mutates becomes a function returning the new state, also when it raises; where aliasing matters
  (copies of cascade statistics, stations sharing statistics or frames, `Bunch`) an explicit heap of objects is modelled.
* **Loops** become folds or structural recursion; Python locals that survive an iteration (`vbtype`, `w1`) are
  part of the loop state, with "unbound" as a value.
* **Files** are texts (lists of characters) for SMET, KNMI and DWD; a JSON file is the tree it denotes.

## 3. Trusted base

Trusted are: Lean's kernel; the axioms `propext`, `Classical.choice`, `Quot.sound` (section 6); the reading of the Python source that
the definitions in `Model/` record; and the behaviour of pandas, numpy, scipy.stats.linregress and the json module written down in
`Base/` and in the comments of `Model/`.

### Modelled code

| file | functions | model |
|---|---|---|
| util/util.py | `hourly_index`, `distribute_equally`, `detect_gaps`, `drop_incomplete_days`, `prepare_interpolation_data`, `daily_from_hourly`, `calculate_mean_daily_course_by_month` | `Model/Util.lean` |
| util/util.py | `vapor_pressure`, `dewpoint_temperature`, `linregress`, `get_sun_times` | `Model/UtilPhys.lean`, `Model/Humidity.lean` |
| util/util.py, humidity.py | `linregress` and `calculate_dewpoint_regression` with `return_stats=True` (the p-value is arbitrary) | `Model/RegressionStats.lean` |
| util/bunch.py | `Bunch` (all methods) | `Model/Bunch.lean` |
| cascade.py | `BoxTypes`, `CascadeStatistics` (all methods), as values and on a heap of arrays | `Model/Cascade.lean`, `Model/CascadeHeap.lean` |
| precipitation.py | `disagg_prec`, `precip_master_station`, `sub_level_index`, `fmin_index` | `Model/Precip.lean`, `Model/SubIndex.lean` |
| precipitation.py, util.py | hourly `disagg_prec_cascade`, `precip_master_station`, `distribute_equally`, in rounded arithmetic | `Model/CascadeRound.lean` |
| precipitation.py | `disagg_prec_cascade(hourly=False)` in rounded arithmetic; the sum of a bin is arbitrary within a relative error, shown for plain and for compensated (Kahan) summation | `Model/CascadeRound5.lean` |
| precipitation.py, cascade.py | `build_casc`, `aggregate_precipitation`, `CascadeStatistics` `+` and `*`, in rounded arithmetic | `Model/AggregateRound.lean` |
| temperature.py, wind.py, radiation.py | `disaggregate_temperature`, `disaggregate_wind` ('equal', 'cosine'), `disaggregate_radiation` (lines 94-99), in rounded arithmetic with an approximate cosine, π and mean | `Model/HourlyRound.lean` |
| humidity.py, util.py | `disaggregate_humidity`, `vapor_pressure`, in rounded arithmetic with approximate exp, sin, π and mean | `Model/HumidityRound.lean` |
| radiation.py | `disaggregate_radiation` (all methods), `angstroem`, `bristow_campbell`, in rounded arithmetic | `Model/RadiationRound.lean` |
| data_io.py | `read_smet`, `read_single_knmi_file`, `read_dwd` of one file, with rounded numbers and operations | `Model/FilesRound.lean` |
| util.py | `daily_from_hourly` in rounded arithmetic (left-to-right and compensated sums) | `Model/DailyRound.lean` |
| humidity.py | `calculate_month_hour_precip_mean` in rounded arithmetic | `Model/StatsRound.lean` |
| util.py, humidity.py | `linregress`, `calculate_dewpoint_regression` in rounded arithmetic | `Model/RegressionRound.lean` |
| temperature.py | `get_shift_by_data`, hours of the extremes in `disaggregate_temperature`, in rounded arithmetic | `Model/ShiftRound.lean` |
| wind.py | `disaggregate_wind` with method 'random' in rounded arithmetic | `Model/WindRound.lean` |
| station.py | `Station.interpolate` with method 'linear' in rounded arithmetic | `Model/InterpolateRound.lean` |
| precipitation.py | `aggregate_precipitation`, `seasonal_subset`, `build_casc` | `Model/Aggregate.lean` |
| wind.py | `_cosine_function`, `disaggregate_wind`, `fit_cosine_function` | `Model/Wind.lean` |
| humidity.py | `disaggregate_humidity`, `calculate_dewpoint_regression`, `calculate_month_hour_precip_mean` | `Model/Humidity.lean` |
| temperature.py | `disaggregate_temperature`, `get_shift_by_data` | `Model/Temperature.lean` |
| radiation.py | `disaggregate_radiation`, `potential_radiation`, `bristow_campbell`, `angstroem`, the two fits | `Model/Radiation.lean`, `Model/RadiationFit.lean` |
| station.py | `Station` (all attributes and methods); `Station.interpolate` with `method`, `limit`, `limit_direction`, `limit_area` | `Model/Station.lean`, `Model/Interpolate.lean`, `Model/InterpolateMore.lean` |
| stationstatistics.py | `StationStatistics`: data, all `calc_*` methods; `to_json`, `from_json` | `Model/StationStatistics.lean`, `Model/Json.lean` |
| \_\_init\_\_.py | `columns_daily`, `columns_hourly`, `Options` | `Model/Names.lean` |
| data_io.py | `read_smet`, `write_smet`; `read_dwd`, `read_single_knmi_file`, `read_knmi_dataset` | `Model/Smet.lean`, `Model/DataIO.lean`, `Model/DwdMeta.lean` |

### Not modelled

* float rounding, except in `daily_from_hourly` (`Model/DailyRound.lean`, C149), in the humidity table (`Model/StatsRound.lean`, C151), in the dew point regression (`Model/RegressionRound.lean`, C152), in the hours of the temperature extremes (`Model/ShiftRound.lean`, C153), in random wind speeds (`Model/WindRound.lean`, C155), in linear interpolation (`Model/InterpolateRound.lean`, C157), in hourly precipitation disaggregation (`Model/CascadeRound.lean`, C102; with underflow and overflow C129; 5-minute values C131), in the mean course (`Model/CourseRound.lean`, C133), in potential radiation (`Model/PotRadRound.lean`, C134), in sun times (`Model/SunRound.lean`, C135), in the fit of cascade statistics (`Model/AggregateRound.lean`, C128; `np.percentile` arbitrary) and in hourly temperature, cosine wind and the core of radiation (`Model/HourlyRound.lean`, C111), in all methods of radiation (`Model/RadiationRound.lean`, C146), in reading files (`Model/FilesRound.lean`, C147), and in humidity (`Model/HumidityRound.lean`, C117; the linear dew point C139), apart from C129 without overflow and underflow; performance; warnings; printing (except the messages of `detect_gaps`)
* the file system (missing files, encodings, permissions); the order in which `os.listdir` lists a directory is arbitrary
* fields between quotation marks, rows that are too long, columns with text, and repeated column names in the DWD and KNMI files; in the DWD
  metadata file also the texts that pandas takes for missing or truth values (value `unmodelled`)
* JSON: text of numbers outside 1e-15 … 1e16, names of series, dtypes; the rounding of pandas' `to_json` to 10 decimals is modelled with ties upward
* infinite cells as input of the cascade model (value `unmodelled`)
* time zones of timestamps (all times are naive), timestamps outside the range of pandas, sub-microsecond times
* attributes with two leading underscores and subclasses of `Bunch`; tampering with private fields of a `Station`
* the methods 'spline', 'krogh', 'pchip', 'akima', … of `Station.interpolate` (other functions of scipy) and its keywords `axis`, `inplace`, `downcast`; the curves of 'quadratic', 'cubic' and 'polynomial' are arbitrary functions (C144); pandas >= 2 for it (the call raises there, C13)
* the imports in `__init__.py`, the notebooks and tests

## 4. How each property is modelled and proved

| id | what is modelled, how it is proved |
|---|---|
| C01,C02 | `hourlyIndex` over `date_range`; induction over days; case split on API flags |
| C03,C04,C05 | `distributeEqually` with reindex + groupby(day of month) + ffill(limit=23); block induction; `dailyFromHourly` |
| C06,C07 | `vaporPressure`, `dewpoint` over ℝ (Real.exp/log); monotonicity by algebra on each branch |
| C08,C09 | `sunTimes` over ℝ with arccos; NaN outside [-1,1] then overwritten; case analysis |
| C10 | `detectGaps` fold with message state; induction |
| C11,C12 | `dropIncompleteDays` loops; list induction, arithmetic of hours; counterexample by evaluation |
| C13 | `prepareInterpolationData`, linear `interpolate` with limit; induction |
| C14 | group means, min/max normalisation; order lemmas |
| C15-C22,C31 | `disaggPrecCascade` literal: level loop, box loop, random draws, stale locals, cumsum aggregation, NaN restore, shift; invariants by induction over boxes and levels |
| C23 | `precipMasterStation` day loop: selection by date, division, zerodiv; induction over days |
| C24 | `seasonalSubset`; permutation/sortedness |
| C25-C28 | `aggregatePrecipitation`, `buildCasc`: counters by fold, invariant "p01+p10+pxx = nb" |
| C29 | heap model of `CascadeStatistics` arrays; frame conditions for writes |
| C30 | value-level equality / `from_dict` |
| C32-C35 | `disaggregateWind` over ℝ; sum of 24 equally spaced cosines is 0 |
| C36-C42 | `disaggregateHumidity`, all branches |
| C43-C53 | `disaggregateTemperature`, all branches up to the polar branch, which is shown to raise; `getShiftByData` |
| C54-C62 | `disaggregateRadiation`, `potentialRadiation`, `angstroem`, `bristowCampbell` over ℝ; bounds by trigonometric identities |
| C63-C67 | `Station` as a state machine on a heap; invariants by induction over operation histories |
| C68 | `calcRadiation` with an explicit iterator state (`zip` is exhausted after the first loop); fit functions are parameters |
| C69 | JSON trees, encoder/decoder, `read_json` of tables; round trip by equational reasoning, failures by construction |
| C70 | `Bunch` on a heap; invariants over histories of operations; deep copy by induction on fuel |
| C71-C75, C89-C91 | line/token level model of the readers and writers; text of numbers by exact decimals; parse-after-print lemmas |
| C76 | percentile by sorting and linear interpolation; order statistics |
| C77 | decision table of one box of the cascade |
| C78, C79 | normal equations of least squares; exact fit of the cosine; the regression line by its formulas |
| C80 | maximum of the sine course; strict monotonicity of cos on [0, π] |
| C81, C82 | index and error branches of `disaggregateRadiation` |
| C83-C85 | station operations against the module-level functions; invariants over all programs |
| C86, C87 | `StationStatistics` methods as state transformers: frame conditions, commutation, idempotence |
| C88 | composition: statistics fitted on observations, then used by a station |
| C92 | `dailyFromHourly` for any rows: resample by day as filter, reductions skipping missing values |
| C93, C94 | the two radiation fits with arbitrary optimal optimisers: normal equations, uniqueness; linearity in A and sign of the transmissivity |
| C95 | `subLevelIndex`, `fminIndex`: counting steps per day, truncation to seconds |
| C96 | law of `disaggPrecCascade` under independent uniform draws: every outcome is a rectangle of conditions on consecutive draws, whose measure factorises |
| C97 | two runs related by `x ↦ s*x + c`: every operation on cells, series, frames commutes with the change of units |
| C98 | two runs related by `x ↦ s*x`: `disaggregateWind`, `fitRows` (least-squares solutions), `disaggregateRadiation` split into the uncut course and the cut `< 0.01` |
| C99 | two runs related by `x ↦ s*x`: `disaggPrecCascade`, `precipMasterStation`, `distributeEqually`, `aggregatePrecipitation`, `buildCasc` |
| C100 | two runs on records agreeing on a day: closed formula of each method for an hour of a day, in which only cells of that day and its named neighbours occur; loop of `precipMasterStation` by induction; counterexample for the cascade |
| C101 | two runs on ordered records: the closed formulas of C100, each monotone in the daily cells (convex weights of the sine and mean courses, monotone vapour pressure, positive shares); counterexample for the cascade |
| C102 | second model with a rounding after every operation (equal to the first if the rounding is the identity); `NearSplit`: a level multiplies the total of a box by a factor in [(1−u)²,(1+u)²]; running-sum error bound for the cumulative sum; `AddsTo` = any order of additions; rounding to p binary digits is shown to be an instance; absorption evaluated with 53 digits |
| C103 | `daily_from_hourly` of the result by C92; the method's mean/extreme theorems (C47–C49, C33, C39, C55, C03, C23) show that the daily columns the method reads are the original ones (or, for 'sine_mean' and 'mean_course_mean', have the same mean and range); the formulas of the methods then agree. Counterexamples for 'sine_min_max' (C44/C45) and 'pot_rad' (0.01 threshold) |
| C104 | noninterference over programs (C64's heap model): two heaps *agree on i* if they have the same counters, the same fitted parameters everywhere and the same view of station i; statements on other stations preserve agreement with the state before (C66, invariants: own statistics object, own frame), statements on i or on no station map agreeing heaps to agreeing heaps and raise the same; induction over the program. Counterexamples with sharing |
| C105 | writes to different columns commute; the value of a call depends only on the station, its statistics object, the index of its table and (humidity) the temperature column; the humidity call moves to the end, the others form a commuting set (induction on the permutation). Counterexamples: 'minimal' humidity with and without hourly temperatures, sun times left by a failing radiation call (C08 at the equator) |
| C106 | parsing of the rendered table (rows may be short); position of the last row that is not empty by splitting the range; a parsed number contains no letter outside the alphabet of numbers; fold over the data files carries the header |
| C107 | invariant over any history of calls: labels of the parameter tables stay unique and equal (induction over the loops), courses have all months, shifts are at most 60 h by C09; then C69. Simulation between the station with the old and with the loaded object (same frames, station equal but for the reference, same scalars), step by step. Rounding error of a mean is at most that of its values; clipping does not enlarge a difference |
| C108 | rows by induction over the record; the functions `a·cos(π(h-t)/12)+b` form a linear space (amplitude/phase via the argument of a complex number), so the mid-point of two solutions is a parameter set and the parallelogram identity makes residuals equal; a first harmonic with constant that vanishes at three hours vanishes (sum-to-product formulas); infinite means by the sign rule of IEEE products |
| C109 | the draws are independent uniform random variables on any probability space (as in C96); change of variable `u = exp(-x)` turns the expectation into Euler's integral for Γ(1.3); bounds from the convexity of Γ between 1, 3/2 and 2; strong law of large numbers from Mathlib |
| C110 | composition of C74/C75 (readers, on files as text) with C92 (`daily_from_hourly`): the numbers of a date are the converted fields of the records with hour 24 of the day before or hours 1–23 of the day; counting lemma for complete files |
| C111 | second model with a rounding after every operation, shown equal to the first for exact arithmetic; `Acc` counts roundings relative to a bound and is closed under the operations; 24 exact cosines add up to 0, computed ones to at most 24 times their error; monotone and idempotent rounding keeps minimum and sign exact; cos is 1-Lipschitz, angles are at most 4π; any order of additions (`AddsTo`) for the means |
| C112 | closed forms of successful runs (`wind_run`, `raw_formula`, `hum_run`, `potRad_eq`, …) hour by hour; each step of the formula gives nan iff an operand is nan, with the exceptions 0/0 (tmin = tmax, no potential radiation) spelled out |
| C113 | two-run comparison as in C101 with `Near ε` instead of `AtMost`; hourly temperature and 'min_max' humidity are weighted means; cos and the shares of a day are bounded by 1; the Magnus exponent is 0.12-Lipschitz above 230 K and min(exp, 1) is 1-Lipschitz; counterexample for the cascade at a threshold |
| C114 | pandas' `_interpolate_1d`/`_interp_limit` set by set (`preserve_nans`), `np.interp`; the sets are characterised by the distance to the nearest observation, `np.interp` by the two neighbouring valid cells; the result is determined by the description `Filled`, which gives 'time' = 'linear' and agreement with the model of C13 |
| C115 | tan and arccos are monotone; cos decreases on [0, π]; the radiation of a horizontal surface increases with the height of the sun; both declinations written as sin(B) and sin(B - e), bounds for cos e and sin e; cos(π/5) for day 74 |
| C116 | arithmetic between series is described by labels (sorted union) and values per label, for the chain of six operations; the dew point methods as a zip with the hours of the daily data |
| C117 | third model in rounded arithmetic (`Model/HumidityRound.lean`), equal to the first for exact arithmetic; first-order error calculus `Lin` through the Magnus formula including the jump between its branches at 273.15 K; monotonicity of every operation for 'min_max'; `Acc` for the daily mean |
| C118 | `Spec/Mix.lean`: relation on three series; each run reduced to its closed form (the run inversions of C88, C101), then cell by cell: sums, differences and multiples of mixed cells are mixed; the cascade by evaluating three runs |
| C119 | from the closed forms of C80, C46 and C47: the cosine is 1-Lipschitz, at the top of the wave the minimum and at the bottom the maximum does not matter; one theorem for every kind of transition, and one over the whole series for fixed times |
| C120 | the disaggregated record in closed form (every day of a month is an affine image of one course); means over the days of one month, minimum and maximum of the means and division; a positive factor cancels in the daily normalisation; the first maximum of the sine curves is the hour used, so the distance to noon is a mean of values within half an hour |
| C121 | inversion of the readers (filter and rename tables); the attribute access in locTable and courseMean fails for every argument; the setter keeps the names of columns; an error of the computation leaves the heap as it is |
| C122 | case distinction over the attributes, the option checks of C35, C42, C52 and C82, and the fact that a failed computation leaves the heap as it is |
| C123 | the fill within the groups of equal day of month as a recursion over the days (state: hours still to fill), the scattered result by induction over the days, the index as the unique increasing list with its members; 28 days from the succession of dates in the calendar |
| C124 | every operation on labelled data (reindexing, forward filling, alignment, resampling, date ranges, selection by date) commutes with moving the labels; the calls are sequences of such steps (`bind_moved`), the loop over days by induction; 400 years from the definition of the calendar |
| C125 | the hour angle changes by a multiple of 2π (`hourAngle_turn`) and only its sine and cosine are used; sums over a day do not depend on the order of the hours (`meanSkip_perm`), so daily means of potential radiation and the scaling stay the same |
| C126 | rows with values are the same up to order (`sameObs_iloc`, by comparing positions); sum, mean, minimum and maximum skip missing cells and do not depend on the order (`SkipAgg`, infinite values included); days found in one record only have no value (`daySpan_filter`) |
| C127 | daily grouping, filtering by month and hour, pairing of hours and sorting by time commute with moving the labels (`moved_*`); statistics depend on labels only through month, hour and day of the year |
| C128 | the counts belong together also when weights and class bounds are rounded (monotone rounding, 1 representable); percentages are the exact ones rounded; invariant of the level loop with one factor 1 ± u per operation; cumulated weights reach (1-u)⁶ of their sum, hence a class is found; counterexample by evaluation of the rounded model |
| C129 | the rounded model of C102 with a rounding that has an additional absolute error, except in sums and differences of floating-point numbers; `SlackSplit`: factor and absolute slack per level; `roundGradual` shown to be an instance and to be rounding to nearest (`binary64_nearest`); no overflow: congruence of the model in the rounding function up to a bound; witness evaluated with binary64 |
| C130 | induction over the text: universal newlines undo the replacement of the line ends; the readers see the same text |
| C131 | `Model/CascadeRound5.lean`; slack of the levels as in C129; at most eight values per bin; error analysis of plain and compensated summation |
| C132 | `Spec/SunVector.lean` (unit vector of the sun and the normal of the slope); the cosine of the arcsine is the absolute value of the southern component |
| C133 | `Model/CourseRound.lean`; a difference of floating-point numbers is rounded to 0 only if it is 0; monotone rounding; composed with C111 |
| C134 | `Model/PotRadRound.lean`; absolute errors with explicit constants (`Lemmas/NearAbs.lean`) through every step; the square root near 0 bounded by the root of the error; domain of arcsin from the unit vector to the sun |
| C135 | `Model/SunRound.lean`; absolute errors with explicit constants through every step (`Lemmas/SunNear*.lean`); Hölder and Lipschitz bounds of the arccosine; order of rise, noon, set from monotone rounding |
| C136 | the law of C96 has finitely many outcomes (`Lemmas/CascadeMean.lean`); their probabilities add up to 1 and expectations are finite sums, computed box by box and level by level |
| C137 | product formula of C96 splits at the dry boxes, which only have the factor 1 and hide the neighbours from each other (`Lemmas/CascadeIndep.lean`); from outcomes to events by finite sums |
| C138 | `sinHeight` is Lipschitz in latitude and hour angle, the transmission polynomial has slope at most 1; the arccosine has slope at most 1/m where its argument stays below sqrt(1-m²) |
| C139 | `dewpointCellR` (`Model/DewpointRound.lean`): relative error of the vapour pressure (`ratio_err`), absolute error of its logarithm, quotient of two computed numbers (`Nr.quot`); the branch for the double 273.15 is treated separately |
| C140 | dry boxes leave the loop state (with the counter of random numbers) as it is and hide their neighbours from each other, on every level (`Lemmas/DrySpells.lean`); missing and dry neighbours give the same box type at the ends |
| C141 | an increasing index with the times of the listed dates is the concatenation of one block per date, so that the array of values is cut block by block (`Lemmas/CascadeGaps.lean`); index facts from C02 and C95; `resample5min` sums an empty bin to 0 |
| C142 | expectations over the finitely many outcomes of the levels (C136): `levels_fun` bounds any quantity of a level from bounds for one split, `levels_past_fun` conditions on the levels before; three hours overlap four boxes (`marks_three`), `Lemmas/WetCount.lean` |
| C143 | the entries of the fit are relative frequencies over the wet parent boxes of a class and type (C26); boxes branch independently given the levels before, so means and variances follow from one box (`level_count`, `level_variance`), Chebyshev for the error, `Lemmas/SelfFit.lean`, `Lemmas/SelfFitMean.lean` |
| C144 | `scipyNearest`, `scipyZero`, `scipySlinear` on the two neighbouring valid cells, `interp1d` without extrapolation, `pad_inplace` by induction over the cells, 'backfill' by reversal, `Lemmas/InterpolateMore.lean`; a cubic through four observations as counterexample for the range |
| C145 | `np.isclose` in rounded arithmetic and the accuracy asked of sums and means in `Spec/PackageTests.lean`; the cells of C105–C111, C129, C131 with their error bounds; `leftSum`, `leftMean` as instances; the failing cases computed over ℚ and cast to ℝ |
| C146 | `Model/RadiationRound.lean`: `angstroem`, `bristow_campbell` and `disaggregate_radiation` with every operation rounded, exp and pow with error bounds, means arbitrary; range and mean error (doubling is exact, (1+u)^N ≤ exp(Nu)), propagation through exp(-B r^C) by Bernoulli's inequality and s·exp(-s) ≤ 1/2; the upper bound by monotonicity of rounding |
| C147 | `Model/FilesRound.lean`: `read_smet`, `read_single_knmi_file` and `read_single_dwd` with a rounded value for every number read and every operation rounded (the zero of a value printed as `-0.00` has no sign in the model, hence the exclusion); a hundredth other than -999 is far from it, a double near a hundredth is printed as that hundredth; the header that was read is completed to the header of the file |
| C148 | induction over the days with the factorisation of C137 (cut at the first dry day), then independence in the sense of Mathlib's `iIndepFun`, Hoeffding's inequality (Mathlib), and the expectations of C136 and C142 (`Lemmas/Averages.lean`) |
| C149 | `Model/DailyRound.lean`: `daily_from_hourly` with rounded divisions and the summation as a parameter, instantiated with left-to-right and with compensated (Kahan) sums; error of left-to-right sums by the accumulation calculus of C102, of compensated sums by an induction with the invariant |s - c - S| small and |c| small (`Lemmas/DailyRound.lean`); bounds on means by monotone rounding and exact whole numbers |
| C150 | case analysis of the methods of `Model/StationStatistics.lean` for an object without data or without the column; the converse (no exception, so the columns exist) by contraposition |
| C151 | `Model/StatsRound.lean`: the table with rounded means and sums; a rounded sum of non-negative amounts is positive exactly if the sum is (C149), so the groups coincide; clipping does not enlarge differences |
| C152 | `Model/RegressionRound.lean`: means, deviations, products and sums rounded; error calculus `Acc` for means and covariances; the slope by a bound for a rounded quotient; perturbation of y by Cauchy-Schwarz; dew points by C139, daily means by C149 |
| C153 | `Model/ShiftRound.lean`: differences to solar noon, monthly means and the sum of noon and shift rounded; sun times by C135, means by C149; near numbers away from half-integers have the same nearest integer |
| C154 | two runs on the same random numbers: equal decisions at every box by induction on boxes and levels, with a count of the numbers drawn; union bound on the intervals between limits; the expected values differ only on that event |
| C155 | `Model/WindRound.lean`: logarithm, power, product and the literal 0.3 rounded; relative errors through a power with exponent below 1; counting the multiples of 2^-53 below a bound |
| C156 | lookup in a permuted table with unique keys; rounding to hours is constant away from half hours (C153); quotient of a value and a mean with errors in both; exp(-exp u) is 1-Lipschitz (derivative at most 1) |
| C157 | `Model/InterpolateRound.lean`: `np.interp` with every operation rounded; induction over the cells, error calculus for one cell, differences of positions are exact integers |
| C158 | each function is a function of the index and the columns it asks for (case by case on the method); for programs a simulation relation between heaps, preserved by every statement, then induction on the program |
| C159 | as C158 for the methods of `StationStatistics`: relation between objects (same parameters, data equal in the columns read), preserved by every call including the replacement of the precip column, induction on the history |
| C160 | moments: the expectation over the outcomes of a box for arbitrary functions (lemmas of C136, C142) with x^r; recursion over the levels with the sum of the r-th powers of the boxes of a day; hours from boxes by the convexity of x^r; Markov's inequality on the finite law; squares of the seven class centres for (e) |
| C161 | moments of the factor by the Gamma integral of C109; variance from the first two; Chebyshev's inequality for the sum of independent values; probability of an intersection of independent events |
| C162 | arithmetic on the 80 sample numbers; a law with corrected middle weights that is proper; C154 for the distance of the two, C136/C142 for the corrected one |
| C163 | the outputs as functions of the parameters: |cos x - cos y| ≤ |x - y|, the mean value theorem for exp(-exp u) (slope at most 0.37), the lemmas of C113 for vapour pressure, clipping and scaling |
| C164 | the outputs as shares of a daily total; distance of two shares by algebra and the triangle inequality over the day; lemmas of C113 for clipping and the vapour pressure |
| C165 | errors of sums, means, minima and maxima of paired lists; distance of two normalised values by algebra; composed with C163 |
| C166 | the dew point as b L / (a - L) of the logarithm L of the vapour pressure; least-squares slope as a linear form of the y values; the first row of the maximum lies in the clear hour of both records; two rows for the jump |
| C167 | simulation: box types depend on signs only, so both runs draw the same numbers and split in the same way; induction over boxes and levels with the factor of the day of each box |
| C168 | normal equations of both fits (C93, C108): the difference of two fits lies in the space of the model, so it is orthogonal to both residuals; Pythagoras for the differences |
| C169 | as C167 at any level; every box and every 5-minute bin lies within one day, so resampling commutes with factors that depend on the day |
| C170 | estimates of the two fits differ by at most E on each day of the fit (C168); the difference of two formulas divided by the potential is affine in the relative sunshine duration, so it is bounded between two days; then the hourly formula of C58 |
| C171 | C166 bounds the difference of the two daily dew points; the lemma behind C163 carries it through the vapour pressures to the hours |
| C172 | simulation of C107 extended by the table of shifts; no statement of the program changes a statistics object; C156 for each call with 'sun_loc_shift' |
| C173 | normal equations of the fit over complete days (as C168); the difference of two courses is again a cosine plus a constant, whose square sums to 12 a^2 + 24 c^2 over a day, which bounds every hour |
| C174 | the fit has no bias (C94) on the days of the record, all of which have an estimate; the estimate of the disaggregation is the same function of the same data; A is not negative as the observations are not; each day keeps its estimate within 0.01 (C59) |
| C175 | normal equations of the fit (C93) as equalities of weighted sums; each day keeps its estimate within 0.01 (C58); weights are not negative |
| C176 | the humidity formula is not cut (dew point at most the temperature) and is inverted by the dew point formula on one side of the freezing point; all hourly dew points of a day equal a0 + a1 tmin, so the points lie on a line, which is the unique least-squares line (C79) |
| C177 | the hours of a day average to the Angstroem estimate if nothing is cut (C55), so the daily means follow the model exactly and C93 gives its parameters; if everything is cut, the daily means are 0 and follow the model with (0, 0) |
| C178 | the residuals of the least-squares line (C79) are orthogonal to 1 and to the minima; the dew points of the hours of the result are a0 + a1 tmin (as in C176) |
| C179 | a sum of two cosines of the daily period is a cosine with amplitude and phase, so the least-squares residuals are orthogonal to M cos(pi (h - c) / 12) for every c and to M |
| C180 | the estimates are A times positive numbers that depend on C only; C94 gives the total of the fitted estimates; if nothing is cut the daily means are the estimates, so for the same exponent the factors agree |
| C181 | `linregressStats` follows scipy.stats.linregress with the p-value as an arbitrary function; the error of the line is Syy - Sxy^2 / Sxx, hence Sxy^2 <= Sxx Syy; case split on equal y values and on the number of points |

All properties are proved for all inputs of the stated kind; none is partial.  Mutation tests are recorded in `seeded/LOG.jsonl`.  Its field
`failed` lists the first theorems that fail when the edited model is built; later modules are not reached, so further theorems may fail as well.
An edit with result `survived` and nothing tightened changes only what lies outside the model (which inputs give `unmodelled`), or the behaviour
in a case no property speaks about, or led to a property added later (then the edit occurs a second time, killed).

## 5. Theorems per property

| id | property | file (lean/Verif/Props) | theorems |
|---|---|---|---|
| C01 | Hourly index of a gap-free daily index | Index.lean | `C01_hourly_index_gapfree` |
| C02 | Hourly index of a daily index with gaps | Index.lean | `C02_hourly_index_fill`, `C02_hourly_index_gaps`, `C02_hourly_index_gaps_raises`, `C02_hourly_index_gaps_legacy` |
| C03 | Equal distribution copies each day's value to its own 24 hours | Index.lean | `C03_distribute_equally` |
| C04 | Equal distribution with divide=True preserves daily totals | Index.lean | `C04_distribute_divide` |
| C05 | Aggregating an equal distribution recovers the daily values | Daily.lean | `C05_aggregate_recovers` |
| C06 | Vapour pressure over water and ice | Humidity.lean, Vapor.lean | `C06_sonntag_formula`, `C06_vapor_pressure`, `C06_vapor_pressure_array` |
| C07 | Dew point inverts vapour pressure | Vapor.lean | `C07_dewpoint_saturated`, `C07_dewpoint_monotone`, `C07_dewpoint_inverts`, `C07_dewpoint_not_inverse` |
| C08 | Day length is between 0 and 24 hours, with correct polar limits | Sun.lean | `C08_daylength` |
| C09 | Sunrise, noon and sunset are consistent | Sun.lean | `C09_sun_times_consistent`, `C09_sun_times_rowwise` |
| C10 | detect_gaps counts exactly the irregular steps | Gaps.lean | `C10_detect_gaps`, `C10_detect_gaps_raises`, `C10_detect_gaps_total`, `C10_detect_gaps_output`, `C10_no_index` |
| C11 | drop_incomplete_days leaves whole days only | Drop.lean | `C11_whole_days`, `C11_exception` |
| C12 | drop_incomplete_days only trims the ends | Drop.lean | `C12_contiguous`, `C12_idempotent`, `C12_largest`, `C12_shift_out_of_range` |
| C13 | Interpolation keeps the observations | Interp.lean, NoData.lean | `C13_interpolation`, `C13_anchors`, `C13_interpolate_keeps_observations`, `C13_raises`, `C13_station` |
| C14 | Normalised mean daily course spans [0,1] | MeanCourse.lean | `C14_mean_course`, `C14_mean_course_normalized`, `C14_scaling` |
| C15 | Equal precipitation disaggregation preserves daily totals | Cascade.lean | `C15_equal` |
| C16 | Cascade disaggregation preserves every daily total | Cascade.lean | `C16_cascade_preserves_totals` |
| C17 | Cascade values are non-negative and never exceed the daily total | Cascade.lean | `C17_cascade_bounds` |
| C18 | Dry days stay dry, missing days stay missing | Cascade.lean | `C18_cascade_dry_missing` |
| C19 | Cascade disaggregation with valid statistics never fails | CascadeRun.lean | `C19_cascade_total`, `C19_cascade_total_5min`, `C19_cascade_errors`, `C19_sample_data_can_fail` |
| C20 | 5-minute cascade preserves daily totals | CascadeRun.lean | `C20_cascade_5min` |
| C21 | Every cascade level refines the previous one | Cascade.lean | `C21_cascade_levels` |
| C22 | shift moves the disaggregated series | Cascade.lean | `C22_cascade_shift` |
| C23 | Master-station disaggregation preserves daily totals | Master.lean | `C23_proportional`, `C23_daily_totals`, `C23_modern_raises`, `C23_outside_master`, `C23_empty_master`, `C23_gap_day` |
| C24 | seasonal_subset selects exactly the requested months | Aggregate.lean | `C24_seasonal_subset`, `C24_seasonal_subset_sorted`, `C24_all_months` |
| C25 | Aggregation keeps the precipitation mass | Aggregate.lean | `C25_aggregation_mass` |
| C26 | Cascade statistics are probability distributions | Aggregate.lean | `C26_statistics_distributions`, `C26_frequencies` |
| C27 | build_casc averages remain probability distributions | BuildCasc.lean | `C27_level_statistics`, `C27_average`, `C27_distributions`, `C27_usable_by_cascade` |
| C28 | build_casc modifies the caller's data and treats the first season differently | BuildCasc.lean | `C28_fills_caller_data`, `C28_first_season`, `C28_position_matters` |
| C29 | Cascade statistics arithmetic and copies | CascadeHeap.lean | `C29_add`, `C29_mul`, `C29_shallow_copy`, `C29_build_casc_objects` |
| C30 | Cascade statistics equality and dictionary round trip | CascadeHeap.lean | `C30_eq_iff`, `C30_eq_relation`, `C30_from_dict_round_trip`, `C30_from_dict_shapes` |
| C31 | Each cascade level uses the statistics of its own scale | CascadeRun.lean | `C31_level_uses_own_entry`, `C31_level_uses_own_threshold`, `C31_levels_local` |
| C32 | Equal wind disaggregation | Wind.lean | `C32_wind_equal` |
| C33 | Cosine wind disaggregation scales the daily mean by b | Wind.lean | `C33_wind_cosine_mean`, `C33_wind_cosine_range`, `C33_wind_cosine_peak`, `C33_course` |
| C34 | Random wind disaggregation | Wind.lean | `C34_wind_random`, `C34_wind_random_zero_draw` |
| C35 | Invalid wind options are rejected | Wind.lean | `C35_wind_options` |
| C36 | Disaggregated humidity is always between 0 and 100 % | Humidity.lean | `C36_humidity_range` |
| C37 | preserve_daily_mean | Humidity.lean | `C37_daily_mean_preserved`, `C37_equal_unchanged`, `C37_mean_not_preserved_in_general` |
| C38 | Minimal/dew-point humidity | Humidity.lean | `C38_minimal`, `C38_regression_minimal`, `C38_values` |
| C39 | min_max humidity | Humidity.lean | `C39_min_max` |
| C40 | Linear dew point variation | Humidity.lean | `C40_linear_dewpoint`, `C40_invalid_kr` |
| C41 | Categorical humidity | Humidity.lean, HumidityStats.lean | `C41_categorical`, `C41_table` |
| C42 | Invalid humidity options are rejected | HumidityStats.lean | `C42_invalid_options` |
| C43 | Sine temperature stays inside the envelope | Temperature.lean | `C43_envelope` |
| C44 | Sine temperature attains tmin and tmax | Temperature.lean | `C44_fixed_times` |
| C45 | Sine temperature does not preserve daily extremes in general | Temperature.lean, TemperatureB.lean | `C45_extremes_preserved_if`, `C45_seven_oclock`, `C45_extremes_not_preserved` |
| C46 | mod_nighttime | Temperature.lean, TemperatureD.lean | `C46_mod_nighttime`, `C46_course`, `C46_shape` |
| C47 | sine_mean preserves daily mean and range | Temperature.lean, TemperatureD.lean | `C47_sine_mean`, `C47_course` |
| C48 | mean_course_min_max preserves daily extremes | TemperatureC.lean | `C48_mean_course_min_max`, `C48_fitted` |
| C49 | mean_course_mean preserves daily mean and range | TemperatureC.lean | `C49_mean_course_mean` |
| C50 | Missing temperatures | Temperature.lean, TemperatureC.lean | `C50_missing_sine`, `C50_missing_course` |
| C51 | Polar night makes the sine methods fail | TemperatureC.lean | `C51_polar_night` |
| C52 | Invalid temperature options and missing sun times | TemperatureC.lean | `C52_options` |
| C53 | Observed temperature shift | TemperatureShift.lean | `C53_shift` |
| C54 | Disaggregated radiation is zero or at least 0.01 | Radiation.lean | `C54_zero_or_at_least`, `C54_finite` |
| C55 | Radiation preserves the daily mean | Radiation.lean | `C55_daily_mean`, `C55_mean_course` |
| C56 | No radiation at night | PotRadiation.lean, Radiation.lean | `C56_with_sun`, `C56_follows_potential` |
| C57 | Polar night radiation | Radiation.lean | `C57_polar_night`, `C57_mean_course` |
| C58 | Angstroem model | RadiationModels.lean | `C58_formula`, `C58_behaviour`, `C58_missing_month`, `C58_disaggregate`, `C58_uncovered` |
| C59 | Bristow-Campbell model | RadiationModels.lean | `C59_bounds`, `C59_formula`, `C59_monotone`, `C59_different_index`, `C59_disaggregate` |
| C60 | Potential radiation bounds | PotRadiation.lean | `C60_horizontal`, `C60_terrain`, `C60_clouds` |
| C61 | Potential radiation on slopes at night | PotRadiation.lean | `C61_slope_at_night` |
| C62 | Potential radiation symmetry | PotRadiation.lean | `C62_symmetric`, `C62_seconds_ignored`, `C62_zone_shift` |
| C63 | Assigning daily data regularises it | StationData.lean | `C63_regularised`, `C63_with_frequency`, `C63_refused`, `C63_celsius_refused` |
| C64 | Station and statistics coordinates stay in sync | StationCoords.lean | `C64_in_sync`, `C64_last_assignment_wins`, `C64_assign_statistics`, `C64_sharing_breaks_it` |
| C65 | Sun times can be stale | StationState.lean | `C65_computed`, `C65_otherwise_kept`, `C65_history`, `C65_stale` |
| C66 | Disaggregation writes only its own column | StationState.lean | `C66_only_own_column`, `C66_raising`, `C66_radiation_leaves_sun_times` |
| C67 | Seasonal cascade disaggregation covers each season | StationSeasons.lean, StationSeasonsGaps.lean | `C67_days`, `C67_gaps`, `C67_missing`, `C67_days_any`, `C67_old_pandas` |
| C68 | Radiation statistics by month | StationStatistics.lean | `C68_sample`, `C68_returns`, `C68_failing_fit`, `C68_arguments`, `C68_no_exception` |
| C69 | Statistics JSON round trip | Json.lean | `C69_round_trip`, `C69_twice`, `C69_precision`, `C69_missing_month`, `C69_single_category`, `C69_repeated_label`, `C69_missing_group` |
| C70 | Bunch is one mapping seen two ways | Bunch.lean | `C70_attributes_are_items`, `C70_writes`, `C70_copy`, `C70_deepcopy`, `C70_deepcopy_succeeds`, `C70_deepcopy_cycle` |
| C71 | SMET hourly round trip | Smet.lean | `C71_hourly_round_trip` |
| C72 | SMET daily files swap tmin and tmax | Smet.lean | `C72_daily_exchange` |
| C73 | SMET check_nan drops no column of missing values | Smet.lean | `C73_check_nan`, `C73_dropped` |
| C74 | KNMI unit conversion | Knmi.lean | `C74_read`, `C74_errors` |
| C75 | DWD reading | Dwd.lean | `C75_read`, `C75_skip_last`, `C75_flag` |
| C76 | The threshold is the requested percentile of the wet boxes | Aggregate.lean | `C76_threshold_percentile` |
| C77 | Cascade branching rule | Branching.lean | `C77_branching_rule` |
| C78 | Cosine wind fit preserves daily means | Wind.lean | `C78_fit_preserves_mean` |
| C79 | Dew point regression is the least-squares line | HumidityStats.lean | `C79_dewpoint_regression` |
| C80 | Sine temperature peaks at the prescribed hour | Temperature.lean, TemperatureD.lean | `C80_peak_hour`, `C80_course` |
| C81 | Radiation output covers the hours of the potential radiation | Radiation.lean | `C81_output_index`, `C81_outside_days` |
| C82 | Radiation option checks | Radiation.lean | `C82_options` |
| C83 | A failing assignment of daily data can leave the station half updated | StationData.lean | `C83_sun_times_after_assignment`, `C83_other_frequency` |
| C84 | A station method stores what the module function returns for the station's own data | StationWiring.lean | `C84_ready_after_assignment`, `C84_ready_kept`, `C84_wind`, `C84_humidity`, `C84_temperature`, `C84_precipitation`, `C84_radiation` |
| C85 | Station results, end to end | StationEndToEnd.lean | `C85_humidity_always_in_range`, `C85_radiation_never_negative`, `C85_wind_cosine`, `C85_precipitation_equal`, `C85_temperature_course`, `C85_radiation_pot_rad` |
| C86 | A statistics object: data check and what each method changes | StatisticsState.lean | `C86_setter`, `C86_own_part`, `C86_hourly` |
| C87 | The statistics methods are independent and repeatable | StatisticsRepeat.lean, StatisticsState.lean | `C87_repeat`, `C87_repeat_precipitation`, `C87_exchange`, `C87_any_order` |
| C88 | Fitted statistics used by a station | FitAndUse.lean | `C88_wind`, `C88_temperature`, `C88_humidity`, `C88_precipitation`, `C88_shift`, `C88_radiation` |
| C89 | What write_smet leaves behind | Smet.lean | `C89_effects` |
| C90 | KNMI data sets are concatenated | Knmi.lean | `C90_dataset` |
| C91 | Several DWD files are joined by time | Dwd.lean | `C91_join`, `C91_overlap` |
| C92 | Daily values of any hourly record | DailyB.lean | `C92_daily_values`, `C92_columns` |
| C93 | Fitted Angstroem parameters are the least-squares solution on the days with complete data, and recover the true ones | RadiationFit.lean | `C93_least_squares`, `C93_unique`, `C93_recovers`, `C93_polar_night`, `C93_statistics` |
| C94 | Fitted Bristow-Campbell parameters have no bias, but the exponent is not determined by the data | RadiationFit.lean | `C94_no_bias`, `C94_statistics`, `C94_every_exponent` |
| C95 | Sub-daily indices of any set of days | SubIndex.lean | `C95_fill`, `C95_no_gaps`, `C95_gaps`, `C95_no_alias` |
| C96 | With independent uniform random numbers the cascade is the random process described by its statistics | CascadeLaw.lean | `C96_law`, `C96_proper` |
| C97 | Temperature results do not depend on the temperature unit | Units.lean | `C97_temperature`, `C97_statistics`, `C97_daily`, `C97_whole` |
| C98 | Wind and radiation results do not depend on the unit, except for the cut of radiation below 0.01 | UnitsWind.lean | `C98_wind`, `C98_fit`, `C98_radiation`, `C98_potential` |
| C99 | Precipitation results do not depend on the unit if the thresholds of the statistics are in the same unit | UnitsPrecip.lean | `C99_cascade`, `C99_master`, `C99_equal`, `C99_statistics`, `C99_whole` |
| C100 | The hourly values of a day depend only on that day's data and the neighbouring days its method names | Locality.lean, LocalityB.lean | `C100_temperature`, `C100_sine_parts`, `C100_wind`, `C100_humidity`, `C100_radiation`, `C100_radiation_course`, `C100_radiation_ssd`, `C100_radiation_bc`, `C100_equal`, `C100_master`, `C100_cascade_depends_on_neighbours` |
| C101 | Larger daily values give larger hourly values, hour by hour (except in the cascade) | Mono.lean, MonoB.lean | `C101_temperature_extremes`, `C101_temperature_mean`, `C101_wind`, `C101_radiation`, `C101_radiation_ssd`, `C101_humidity_dewpoint`, `C101_humidity_equal`, `C101_humidity_linear`, `C101_humidity_minmax`, `C101_equal`, `C101_master`, `C101_cascade_not_monotone` |
| C102 | In floating-point arithmetic the daily precipitation totals are preserved up to a bounded error; dry days stay exactly dry | Rounding.lean, RoundingB.lean | `C102_exact`, `C102_exact_equal`, `C102_exact_master`, `C102_cascade_total`, `C102_cascade_cells`, `C102_equal`, `C102_master`, `C102_cascade_double`, `C102_absorption` |
| C103 | Aggregating hourly results to daily values and disaggregating again gives the same hourly values (where the method keeps its daily values) | Again.lean, AgainB.lean | `C103_sine_mean`, `C103_mean_course_min_max`, `C103_mean_course_mean`, `C103_sine`, `C103_sine_not`, `C103_precip_equal`, `C103_precip_master`, `C103_wind_equal`, `C103_wind_cosine`, `C103_humidity_equal`, `C103_humidity_dewpoint`, `C103_humidity_min_max`, `C103_pot_rad`, `C103_mean_course`, `C103_pot_rad_not` |
| C104 | Stations do not influence each other | Isolation.lean | `C104_isolated`, `C104_same`, `C104_sharing` |
| C105 | The order of a station's disaggregation calls does not matter, except that temperature comes before humidity; repeating a call changes nothing | Order.lean, OrderB.lean | `C105_exchange`, `C105_repeat`, `C105_any_order`, `C105_temperature_before_humidity`, `C105_radiation_provides_sun_times` |
| C106 | DWD header | DwdMeta.lean | `C106_header`, `C106_closing_line`, `C106_errors`, `C106_header_and_data` |
| C107 | Fitted statistics can be saved, loaded and used | SavedStats.lean | `C107_save_and_load`, `C107_same_results`, `C107_mean_course_close`, `C107_categorical_close` |
| C108 | Fitted wind parameters are determined by the data and recover the true course | WindFit.lean | `C108_fit_rows`, `C108_fitted_values_unique`, `C108_fit_determined`, `C108_recovers`, `C108_refit` |
| C109 | Random wind values follow a Weibull distribution and are on average too low | WindLaw.lean | `C109_weibull`, `C109_expectation`, `C109_daily_mean`, `C109_independent`, `C109_long_run` |
| C110 | From station files to daily values | Files.lean | `C110_knmi`, `C110_knmi_complete`, `C110_dwd` |
| C111 | In floating-point arithmetic hourly temperature, wind and radiation stay within 1e-14 of the exact laws | RoundingC.lean, RoundingD.lean | `C111_exact`, `C111_sine_envelope`, `C111_sine_error`, `C111_sine_mean`, `C111_course_min_max`, `C111_course_mean`, `C111_wind`, `C111_radiation`, `C111_same_outcome`, `C111_double_sine`, `C111_double_mean`, `C111_double_wind`, `C111_double_radiation` |
| C112 | An hour is missing exactly when the data it depends on are missing | Missing.lean | `C112_wind`, `C112_humidity_equal`, `C112_humidity_dewpoint`, `C112_humidity_linear`, `C112_humidity_min_max`, `C112_humidity_categorical`, `C112_radiation`, `C112_radiation_course`, `C112_radiation_ssd`, `C112_radiation_bc` |
| C113 | Errors of the daily values are not amplified | Near.lean | `C113_temperature_extremes`, `C113_temperature_mean`, `C113_wind`, `C113_radiation`, `C113_humidity_equal`, `C113_humidity_minmax`, `C113_humidity_dewpoint`, `C113_equal`, `C113_master`, `C113_cascade_not_stable` |
| C114 | Station.interpolate with limits, directions and areas | Interpolate.lean | `C114_cells`, `C114_station`, `C114_default`, `C114_weaker`, `C114_invalid`, `C114_complete` |
| C115 | The sun: latitude, noon, and two formulas | SunGeometry.lean | `C115_latitude`, `C115_noon`, `C115_radiation`, `C115_declinations`, `C115_two_noons` |
| C116 | Humidity with a temperature that covers other hours | HumidityAlign.lean | `C116_by_label`, `C116_by_position`, `C116_linear_by_position`, `C116_wrong_length` |
| C117 | Humidity in floating-point arithmetic | RoundingE.lean | `C117_exact`, `C117_range`, `C117_dewpoint`, `C117_minimal`, `C117_saturated`, `C117_min_max`, `C117_daily_mean`, `C117_double` |
| C118 | Superposition of daily records | Mix.lean | `C118_temperature`, `C118_wind`, `C118_radiation`, `C118_humidity_equal`, `C118_humidity_minmax`, `C118_equal`, `C118_master`, `C118_cascade_not_additive` |
| C119 | Changes of the temperature from hour to hour | Jumps.lean | `C119_within_day`, `C119_midnight`, `C119_night`, `C119_night_midnight`, `C119_mean_midnight`, `C119_fixed` |
| C120 | Statistics fitted to the package's own results give the statistics back | Refit.lean | `C120_mean_course_min_max`, `C120_mean_course_mean`, `C120_radiation`, `C120_radiation_use`, `C120_radiation_cut`, `C120_humidity`, `C120_shift_mean`, `C120_shift_sine` |
| C121 | Daily data read from files lack columns that methods of the package need | FileColumns.lean | `C121_dwd`, `C121_smet`, `C121_temperature`, `C121_station` |
| C122 | The names in melodist.Options and the column lists of the package | Options.lean | `C122_options`, `C122_sine_curve`, `C122_columns` |
| C123 | Equal distribution of daily values with gaps, or not labelled at midnight | DistributeGaps.lean, DistributeMinutes.lean | `C123_values`, `C123_returns`, `C123_gaps`, `C123_amount`, `C123_month`, `C123_minutes`, `C123_minutes_gap` |
| C124 | The same values on other dates give the same results | OtherDates.lean, OtherDatesB.lean, OtherDatesC.lean, OtherDatesD.lean | `C124_temperature`, `C124_radiation`, `C124_sun_times`, `C124_potential_radiation`, `C124_wind`, `C124_humidity`, `C124_cascade`, `C124_master_station`, `C124_equal`, `C124_calendar` |
| C125 | Time zone and longitude | Clocks.lean | `C125_potential_radiation`, `C125_radiation`, `C125_sun_times`, `C125_same_clock`, `C125_longitude_360` |
| C126 | Rows without observations, and the order of the rows | RowsOut.lean, RowsOutB.lean, RowsOutC.lean | `C126_mean_course`, `C126_course_lookup`, `C126_wind`, `C126_wind_same`, `C126_month_hour_precip`, `C126_dewpoint`, `C126_shift`, `C126_radiation_rows`, `C126_wind_table`, `C126_shift_table`, `C126_cascade_differs` |
| C127 | Statistics of the same observations on other dates | OtherDatesStats.lean, OtherDatesStatsB.lean | `C127_mean_course`, `C127_wind`, `C127_month_hour_precip`, `C127_dewpoint`, `C127_shift`, `C127_cascade`, `C127_calc_wind`, `C127_calc_humidity`, `C127_calc_temperature`, `C127_calc_precipitation`, `C127_calc_radiation` |
| C128 | Cascade statistics fitted in floating-point arithmetic | StatsRounding.lean, StatsRoundingB.lean | `C128_exact`, `C128_statistics`, `C128_cascade_returns`, `C128_fit_and_run`, `C128_double`, `C128_can_fail` |
| C129 | Precipitation disaggregation in IEEE double precision, underflow and overflow included | Gradual.lean, GradualB.lean | `C129_cascade_total`, `C129_cascade_cells`, `C129_cascade_binary64`, `C129_underflow`, `C129_equal_binary64`, `C129_master_binary64` |
| C130 | Line ends of files | LineEnds.lean | `C130_smet`, `C130_knmi`, `C130_knmi_dataset`, `C130_dwd` |
| C131 | 5-minute precipitation in floating-point arithmetic | FiveMinutes.lean | `C131_exact`, `C131_cascade_5min`, `C131_sums`, `C131_binary64` |
| C132 | The side of the sun on slopes | SlopeSun.lean | `C132_slope`, `C132_true_in_the_south`, `C132_when_south`, `C132_mirrored_in_the_north`, `C132_southern_noon`, `C132_summer_morning` |
| C133 | The normalised mean course in floating-point arithmetic | CourseRound.lean | `C133_exact`, `C133_normalised`, `C133_error`, `C133_temperature` |
| C134 | Potential radiation in floating-point arithmetic | PotRadRound.lean | `C134_exact`, `C134_slope`, `C134_against_exact`, `C134_horizontal` |
| C135 | Sun times in floating-point arithmetic | SunRound.lean | `C135_exact`, `C135_never_missing`, `C135_accuracy` |
| C136 | Expected precipitation of the cascade | CascadeMean.lean | `C136_halves`, `C136_boxes`, `C136_hours`, `C136_balanced` |
| C137 | Wet periods separated by a dry day are disaggregated independently | CascadeIndep.lean | `C137_levels`, `C137_hours` |
| C138 | Errors of coordinates, time zone and clock have bounded effects on sun times and potential radiation | Coordinates.lean | `C138_radiation`, `C138_coordinates`, `C138_sun_times` |
| C139 | The dew point in floating-point arithmetic, and its jump at the freezing point | DewRound.lean | `C139_exact`, `C139_accuracy`, `C139_saturated`, `C139_array`, `C139_jump` |
| C140 | The length of dry spells does not change the disaggregation of wet days | DrySpells.lean | `C140_random_numbers`, `C140_dry_spell`, `C140_dry_spell_hours`, `C140_dry_ends`, `C140_dry_ends_hours` |
| C141 | The cascade on records with missing dates or rows out of order | CascadeGaps.lean | `C141_hours`, `C141_hours_in_order`, `C141_neighbours`, `C141_hours_returns`, `C141_five`, `C141_five_in_order`, `C141_five_returns` |
| C142 | How often boxes and hours are wet in the cascade | WetCount.lean | `C142_halves`, `C142_boxes`, `C142_count`, `C142_hours`, `C142_hour` |
| C143 | Cascade statistics fitted to the cascade's own output are unbiased | SelfFit.lean | `C143_unbiased`, `C143_error`, `C143_half_days` |
| C144 | Station.interpolate with the other methods of pandas | InterpolateMore.lean | `C144_nearest`, `C144_zero`, `C144_slinear`, `C144_spline`, `C144_pad`, `C144_backfill`, `C144_index`, `C144_errors`, `C144_range`, `C144_overshoot` |
| C145 | What the tests of the package check, for all records | PackageTests.lean, PackageTestsB.lean, PackageTestsC.lean | `C145_wind`, `C145_humidity`, `C145_precipitation`, `C145_cascade`, `C145_five_minutes`, `C145_sine_mean`, `C145_course_mean`, `C145_course_min_max`, `C145_radiation`, `C145_radiation_lost`, `C145_left_sum`, `C145_left_mean`, `C145_mean_below_min` |
| C146 | Radiation from sunshine duration and from temperatures in floating-point arithmetic | RadiationRound.lean | `C146_exact`, `C146_angstroem`, `C146_via_ssd`, `C146_via_bc`, `C146_via_bc_le` |
| C147 | Station files in floating-point arithmetic | FilesRound.lean | `C147_exact`, `C147_smet`, `C147_smet_again`, `C147_knmi`, `C147_dwd` |
| C148 | Averages over many days of cascade output come close to their expectations | Averages.lean | `C148_independent`, `C148_deviation`, `C148_hours`, `C148_balanced`, `C148_wet`, `C148_limit` |
| C149 | Daily values of an hourly record are accurate in floating-point arithmetic | DailyRound.lean | `C149_plain`, `C149_compensated`, `C149_daily`, `C149_exact`, `C149_dry`, `C149_order`, `C149_range`, `C149_tests` |
| C150 | Statistics methods called without the data they need | NoData.lean | `C150_no_data`, `C150_missing_column`, `C150_no_seasons`, `C150_success` |
| C151 | Tables of means in floating-point arithmetic | StatsRound.lean | `C151_table`, `C151_humidity`, `C151_course`, `C151_exact` |
| C152 | The dew point regression in floating-point arithmetic | DewRegressionRound.lean, RegressionRound.lean | `C152_exact`, `C152_dewpoint`, `C152_regression`, `C152_perturbed` |
| C153 | Hours of the temperature extremes in floating-point arithmetic | ShiftRound.lean | `C153_shift`, `C153_hours`, `C153_long_days`, `C153_temperature`, `C153_exact` |
| C154 | Slightly different cascade statistics | OtherStats.lean | `C154_same`, `C154_probability`, `C154_expectation` |
| C155 | Random wind speeds in floating-point arithmetic | WindRound.lean | `C155_hours`, `C155_distribution` |
| C156 | Loaded tables with the remaining methods | LoadedTables.lean | `C156_shift`, `C156_course`, `C156_sunshine`, `C156_bristow_campbell` |
| C157 | Linear interpolation in floating-point arithmetic | InterpolateRound.lean | `C157_accuracy`, `C157_constant`, `C157_keeps`, `C157_exact` |
| C158 | Columns a method does not read have no effect | OtherColumns.lean | `C158_temperature`, `C158_humidity`, `C158_radiation`, `C158_precipitation`, `C158_interpolate`, `C158_programs`, `C158_extra_column` |
| C159 | Columns the statistics do not read have no effect | OtherColumnsStats.lean | `C159_daily_from_hourly`, `C159_methods`, `C159_histories` |
| C160 | How concentrated the precipitation of a day is in the cascade | Peaks.lean | `C160_halves`, `C160_boxes`, `C160_day`, `C160_hours`, `C160_heavy` |
| C161 | Spread, averages and daily maxima of random wind speeds | WindSpread.lean | `C161_moments`, `C161_variance`, `C161_averages`, `C161_maximum` |
| C162 | The sample statistics of the package | SampleStats.lean | `C162_columns`, `C162_shares`, `C162_rounding`, `C162_failures`, `C162_hour` |
| C163 | Errors of the fitted parameters have bounded effects | ParamErrors.lean | `C163_wind`, `C163_temperature`, `C163_humidity_dewpoint`, `C163_humidity_categories`, `C163_angstroem`, `C163_bristow_campbell` |
| C164 | Errors of the accompanying hourly records | RecordErrors.lean | `C164_master`, `C164_master_dry`, `C164_radiation`, `C164_humidity_minmax`, `C164_humidity_linear` |
| C165 | Errors of hourly observations: effects on daily values, fitted tables and results | ObsErrors.lean | `C165_course`, `C165_normalised`, `C165_daily`, `C165_table`, `C165_temperature`, `C165_humidity` |
| C166 | Errors of hourly observations: dew points, the dew point regression, and the hour of the temperature maximum | FitErrors.lean | `C166_dewpoint`, `C166_shift`, `C166_shift_jump`, `C166_regression` |
| C167 | The hourly values of the cascade follow the daily amounts, as long as no threshold is crossed | CascadeAmounts.lean | `C167_cascade`, `C167_errors` |
| C168 | The least-squares fits do not amplify errors of the observations | FitErrorsB.lean | `C168_angstroem`, `C168_angstroem_slope`, `C168_angstroem_truth`, `C168_wind` |
| C169 | The 5-minute values of the cascade follow the daily amounts, as long as no threshold is crossed | CascadeAmountsB.lean | `C169_five`, `C169_errors` |
| C170 | Errors of observed radiation, carried through the Angstroem fit to the hourly values | FitErrorsC.lean | `C170_angstroem`, `C170_truth` |
| C171 | Errors of observed humidity, carried through the dew point regression to the hourly values | FitErrorsD.lean | `C171_dewpoint` |
| C172 | Programs on a station with loaded statistics, shifted temperature maxima included | SavedShift.lean | `C172_same_results` |
| C173 | Errors of observed wind speeds, carried through the cosine fit to the hourly values | FitErrorsE.lean | `C173_wind`, `C173_per_hour`, `C173_truth` |
| C174 | Radiation from temperatures with calibrated Bristow-Campbell parameters keeps the observed total | BcTotal.lean | `C174_total` |
| C175 | Radiation from sunshine durations with calibrated Angstroem parameters keeps weighted totals | AngSquares.lean, AngTotal.lean | `C175_squares`, `C175_weighted_totals`, `C175_total`, `C175_plain_total_not_kept` |
| C176 | The dew point regression fitted to the package's own humidity gives its parameters back | RefitDew.lean | `C176_recovers` |
| C177 | The Angstroem fit to the package's own radiation gives its parameters back, if no hour was cut | RefitAng.lean | `C177_recovers`, `C177_cut` |
| C178 | Humidity from a calibrated dew point regression keeps the mean of the observed dew points | DewTotal.lean | `C178_dew_totals` |
| C179 | Wind from a calibrated cosine keeps amplitude and phase of the daily course | WindTotal.lean | `C179_course_kept`, `C179_variability` |
| C180 | The Bristow-Campbell fit to the package's own radiation | RefitBc.lean | `C180_recovers` |
| C181 | The statistics returned with the linear regression | RegressionStats.lean | `C181_statistics`, `C181_dewpoint` |

## 6. Axioms

`#print axioms` on every theorem of the table (686 theorems).  No theorem depends on anything but `propext`, `Classical.choice`, `Quot.sound`.
All three are used by 670 theorems.  The others:

* `C10_detect_gaps_raises`: `propext`
* `C10_detect_gaps_total`: `Quot.sound`, `propext`
* `C10_detect_gaps_output`: `Quot.sound`, `propext`
* `C10_no_index`: `propext`
* `C12_shift_out_of_range`: `Quot.sound`, `propext`
* `C13_raises`: `Quot.sound`, `propext`
* `C23_modern_raises`: `Quot.sound`, `propext`
* `C30_from_dict_shapes`: `Quot.sound`, `propext`
* `C95_no_alias`: `propext`
* `C102_exact_equal`: `Quot.sound`, `propext`
* `C102_exact_master`: `Quot.sound`, `propext`
* `C126_mean_course`: `Quot.sound`, `propext`
* `C127_mean_course`: `Quot.sound`, `propext`
* `C130_knmi`: `Quot.sound`, `propext`
* `C130_knmi_dataset`: `Quot.sound`, `propext`
* `C133_exact`: `Quot.sound`, `propext`
