{"id": "C01", "title": "Hourly index of a gap-free daily index", "statement": "For a daily index of n consecutive days, hourly_index returns exactly 24*n timestamps: the 24 full hours 00:00..23:00 of each day, each once, in chronological order.", "quantifier": "every start day and every number n>=1 of consecutive days, both values of fill_gaps, every pandas API level", "why_tests_cant": "a test uses one calendar year; the claim is about every start date, leap year and length", "anchors": ["melodist/util/util.py:hourly_index"]}
{"id": "C02", "title": "Hourly index of a daily index with gaps", "statement": "If the daily index has missing days: with fill_gaps=True every hour of the whole span is returned; with fill_gaps=False, whenever the call returns, the result contains exactly the 24 hours of the listed days and no hour of any other day. On a pandas without Index.to_datetime (every release the package's own test-suite can run on) the fill_gaps=False call raises AttributeError for every index that has a gap.", "quantifier": "every strictly increasing list of days, every pandas API level", "why_tests_cant": "the failing path is only reached for gapped indexes, the gap pattern is arbitrary", "anchors": ["melodist/util/util.py:hourly_index"]}
{"id": "C03", "title": "Equal distribution copies each day's value to its own 24 hours", "statement": "distribute_equally(daily) gives, for each of the 24 hours of each day, exactly that day's daily value; a missing day gives 24 missing hours; no value ever leaks into another day (although the implementation forward-fills inside groups that collect the same day-of-month of all months).", "quantifier": "every gap-free daily series of any length with any pattern of missing values", "why_tests_cant": "leakage would need two months whose same day-of-month has a particular missing pattern; infinitely many patterns", "anchors": ["melodist/util/util.py:distribute_equally"]}
{"id": "C04", "title": "Equal distribution with divide=True preserves daily totals", "statement": "distribute_equally(daily, divide=True) gives 24 hourly values per day that are all equal to daily/24 and whose sum is the daily value; missing days stay missing.", "quantifier": "every gap-free daily series", "why_tests_cant": "every value and length", "anchors": ["melodist/util/util.py:distribute_equally"]}
{"id": "C05", "title": "Aggregating an equal distribution recovers the daily values", "statement": "daily_from_hourly applied to an hourly frame obtained by equal distribution returns the original daily mean, minimum and maximum (temp, hum), mean (glob, wind) and, with divide=True, the original daily sum (precip).", "quantifier": "every gap-free daily series of finite values", "why_tests_cant": "round trip for every length and every value", "anchors": ["melodist/util/util.py:daily_from_hourly", "melodist/util/util.py:distribute_equally"]}
{"id": "C06", "title": "Vapour pressure over water and ice", "statement": "vapor_pressure is proportional to humidity, positive for positive humidity, strictly increasing in temperature on the physical range (T > 0.53 K), and the ice and water branches agree (6.112 hPa*hum/100) at the 273.15 K switch.", "quantifier": "all real temperatures above 0.53 K and all humidities", "why_tests_cant": "statement over a continuum; the branch switch is a single point", "anchors": ["melodist/util/util.py:vapor_pressure"]}
{"id": "C07", "title": "Dew point inverts vapour pressure", "statement": "dewpoint_temperature(T,100) = T; for 0<hum<=100 the dew point never exceeds T; it is strictly increasing in humidity; saturation vapour pressure at the dew point equals the actual vapour pressure whenever T and the dew point are on the same side of 273.15 K. (It is not equal in general when T is above and the dew point below freezing.)", "quantifier": "all temperatures above 0.53 K, all humidities in (0,100]", "why_tests_cant": "continuum, and the exceptional region is two-dimensional", "anchors": ["melodist/util/util.py:dewpoint_temperature", "melodist/util/util.py:vapor_pressure"]}
{"id": "C08", "title": "Day length is between 0 and 24 hours, with correct polar limits", "statement": "get_sun_times returns 0<=daylength<=24 for every date and latitude strictly between the poles, exactly 24 under midnight sun and exactly 0 in polar night; at the equator it is 12; day lengths at opposite latitudes on the same date add up to 24.", "quantifier": "all days of year, all latitudes in (-90,90), all longitudes and time zones", "why_tests_cant": "continuum of latitudes", "anchors": ["melodist/util/util.py:get_sun_times"]}
{"id": "C09", "title": "Sunrise, noon and sunset are consistent", "statement": "Modulo the 24 h wrap-around, sunnoon is the midpoint of sunrise and sunset and sunset - sunrise = daylength; sunrise is non-negative and sunset is at most 24 whenever the reported solar noon is between 0 and 24. sunnoon depends only on date, longitude and time zone.", "quantifier": "all dates, longitudes, latitudes, time zones", "why_tests_cant": "continuum; the wrap-around cases depend on the site", "anchors": ["melodist/util/util.py:get_sun_times"]}
{"id": "C10", "title": "detect_gaps counts exactly the irregular steps", "statement": "Whenever detect_gaps returns a non-negative number it is the number of consecutive index pairs whose distance differs from the time step (0 iff the index is equally spaced by it); the count does not depend on verbose, print_all, print_max; at most print_max gap messages are printed unless print_all. On pandas without Timedelta.delta it raises AttributeError for every frame with two or more rows.", "quantifier": "every datetime index of any length, every time step and every flag combination", "why_tests_cant": "all gap patterns", "anchors": ["melodist/util/util.py:detect_gaps"]}
{"id": "C11", "title": "drop_incomplete_days leaves whole days only", "statement": "For an hourly gap-free frame the result consists of complete days (24 rows each, first row at hour shift, last row at the hour before). This is false for frames of fewer than 24 rows that start exactly at the first hour: one row survives.", "quantifier": "every hourly gap-free index, every length and start hour, every shift", "why_tests_cant": "depends on the phase and length of the series", "anchors": ["melodist/util/util.py:drop_incomplete_days"]}
{"id": "C12", "title": "drop_incomplete_days only trims the ends", "statement": "The result is a contiguous block of the input (no interior row is dropped, order kept), it is the largest block of complete days, applying the function twice changes nothing more, and an out-of-range shift behaves like shift=0.", "quantifier": "every datetime index of unique timestamps, every shift", "why_tests_cant": "all inputs", "anchors": ["melodist/util/util.py:drop_incomplete_days"]}
{"id": "C13", "title": "Interpolation keeps the observations", "statement": "Station.interpolate / prepare_interpolation_data: whenever it returns, the value at every (day, hour) anchor equals the daily column entry assigned to that hour, linear interpolation only changes missing cells, and each filled cell lies between the neighbouring observations; no run of more than `limit` consecutive cells is filled in one direction. On pandas without Series.append it raises AttributeError.", "quantifier": "every gap-free daily frame, every assignment of distinct hours to columns", "why_tests_cant": "all missing patterns", "anchors": ["melodist/util/util.py:prepare_interpolation_data", "melodist/station.py:Station.interpolate"]}
{"id": "C14", "title": "Normalised mean daily course spans [0,1]", "statement": "calculate_mean_daily_course_by_month(normalize=True): for every month whose hourly means are not all equal, all entries are in [0,1] and 0 and 1 are both attained; if they are all equal every entry of that month is NaN; a mean x becomes (x - min)/(max - min) of its month and the rows and columns are those of the table without normalisation; without normalisation each entry is the mean of the observations of that month and hour and lies between their minimum and maximum.", "quantifier": "every hourly series", "why_tests_cant": "all data sets", "anchors": ["melodist/util/util.py:calculate_mean_daily_course_by_month"]}
{"id": "C15", "title": "Equal precipitation disaggregation preserves daily totals", "statement": "disagg_prec(method='equal') returns for each day 24 equal non-negative values that add up to the daily total; missing days stay missing. The shift argument has no effect for this method.", "quantifier": "every gap-free daily frame", "why_tests_cant": "all inputs", "anchors": ["melodist/precipitation.py:disagg_prec", "melodist/util/util.py:distribute_equally"]}
{"id": "C16", "title": "Cascade disaggregation preserves every daily total", "statement": "disagg_prec_cascade (hourly): whenever it returns, the 24 hourly values of each non-missing day add up exactly to that day's precipitation, for every sequence of random numbers and every cascade statistics (even invalid ones).", "quantifier": "every gap-free daily series with non-negative values, every cascade statistics object or list, every random sequence", "why_tests_cant": "the random draws and branch histories cannot be enumerated", "anchors": ["melodist/precipitation.py:disagg_prec_cascade"]}
{"id": "C17", "title": "Cascade values are non-negative and never exceed the daily total", "statement": "Every hourly (or 5-minute) value produced by the cascade is >= 0 and <= the daily total of its day.", "quantifier": "every non-negative daily series, every statistics, every random sequence", "why_tests_cant": "see C16", "anchors": ["melodist/precipitation.py:disagg_prec_cascade"]}
{"id": "C18", "title": "Dry days stay dry, missing days stay missing", "statement": "In the cascade result all hours of a day with total 0 are 0, all hours of a missing day are NaN, and every hour of a non-missing day is a number.", "quantifier": "as C16", "why_tests_cant": "all branch histories and missing patterns", "anchors": ["melodist/precipitation.py:disagg_prec_cascade"]}
{"id": "C19", "title": "Cascade disaggregation with valid statistics never fails", "statement": "With a statistics object whose weight histograms sum to at least 1 (as build_casc produces) and enough thresholds, disagg_prec_cascade returns a value for every non-negative gap-free series of at least two days and every random sequence in [0,1). It raises ValueError for fewer than two days, ValueError for a statistics list of the wrong length, TypeError for other option types, and IndexError when the thresholds array is too short for the requested level.", "quantifier": "all inputs", "why_tests_cant": "absence of an exception for all inputs", "anchors": ["melodist/precipitation.py:disagg_prec_cascade"]}
{"id": "C20", "title": "5-minute cascade preserves daily totals", "statement": "disagg_prec_cascade(hourly=False, level=9/10/11): whenever it returns, the 5-minute values of each non-missing day add up to the daily total, are non-negative, and every day has 288 values.", "quantifier": "every non-negative gap-free daily series, every statistics, every random sequence", "why_tests_cant": "see C16", "anchors": ["melodist/precipitation.py:disagg_prec_cascade", "melodist/precipitation.py:sub_level_index"]}
{"id": "C21", "title": "Every cascade level refines the previous one", "statement": "In test mode the returned level arrays have 2^l values per day and every pair of consecutive boxes at level l+1 adds up to its parent box at level l; a dry parent has two dry children and a wet parent at least one wet child.", "quantifier": "as C16, every level", "why_tests_cant": "see C16", "anchors": ["melodist/precipitation.py:disagg_prec_cascade"]}
{"id": "C22", "title": "shift moves the disaggregated series", "statement": "With shift=k the cascade result at row i is the unshifted result at row i-k, rows shifted in are NaN and the index is unchanged.", "quantifier": "every k (positive, negative, larger than the series)", "why_tests_cant": "all shifts and lengths", "anchors": ["melodist/precipitation.py:disagg_prec_cascade"]}
{"id": "C23", "title": "Master-station disaggregation preserves daily totals", "statement": "precip_master_station: whenever it returns, for each day with a non-zero master total the hourly values are proportional to the master station's hours and add up to the daily total; for a zero master total the day is spread uniformly (zerodiv='uniform') or set to 0. A day without master rows inside the master's record is treated like a dry one (its precipitation is lost silently unless zerodiv='uniform'); a day before the first or after the last day of a chronological master, or an empty master, raises KeyError. On pandas without Series.iteritems the call always raises AttributeError.", "quantifier": "every daily series, every master series with 24 rows or none on each day", "why_tests_cant": "all inputs", "anchors": ["melodist/precipitation.py:precip_master_station"]}
{"id": "C24", "title": "seasonal_subset selects exactly the requested months", "statement": "The result contains exactly the rows whose month is requested, each exactly once when the months are distinct, in chronological order; 'all' returns the whole frame sorted; an empty month list raises UnboundLocalError.", "quantifier": "every frame and every list of months", "why_tests_cant": "all inputs", "anchors": ["melodist/precipitation.py:seasonal_subset"]}
{"id": "C25", "title": "Aggregation keeps the precipitation mass", "statement": "aggregate_precipitation returns a series with floor(n/2) rows, each the sum of two consecutive input rows, time-stamped with the second; the total is the input total without a possible odd last row.", "quantifier": "every series", "why_tests_cant": "all lengths", "anchors": ["melodist/precipitation.py:aggregate_precipitation"]}
{"id": "C26", "title": "Cascade statistics are probability distributions", "statement": "aggregate_precipitation returns, for every intensity class and box type, branching probabilities in [0,1] with P(0/1)+P(1/0)+P(x/x)=1 and a weight histogram in [0,1] summing to 1 (up to the rounding of the built-in sample data when the series is too short).", "quantifier": "every non-negative series (any length, any values) for which the call returns", "why_tests_cant": "all data sets, including those with empty classes", "anchors": ["melodist/precipitation.py:aggregate_precipitation", "melodist/cascade.py:CascadeStatistics.fill_with_sample_data"]}
{"id": "C27", "title": "build_casc averages remain probability distributions", "statement": "For every season, build_casc(avg_stats=True) returns branching probabilities and histograms that again sum to 1, thresholds has one entry per level; build_casc(avg_stats=False) returns the unscaled statistics of each level in order from fine to coarse.", "quantifier": "every observation series, season list, percentile", "why_tests_cant": "all data sets", "anchors": ["melodist/precipitation.py:build_casc", "melodist/cascade.py:CascadeStatistics.__add__", "melodist/cascade.py:CascadeStatistics.__mul__"]}
{"id": "C28", "title": "build_casc modifies the caller's data and treats the first season differently", "statement": "build_casc replaces missing values in the caller's precip column by 0 (nothing else is changed), but the subset of the first season is taken before that replacement, so the same observations give season statistics that depend on the season's position in the list.", "quantifier": "every observation frame", "why_tests_cant": "a history effect: depends on the order of seasons", "anchors": ["melodist/precipitation.py:build_casc", "melodist/stationstatistics.py:StationStatistics.calc_precipitation_stats"]}
{"id": "C29", "title": "Cascade statistics arithmetic and copies", "statement": "a + b and a * f return None and replace a's matrices by the elementwise sum/product, leaving b, threshold and percentile unchanged; a shallow copy taken before is unaffected by *, but its weight histogram (only) is changed by + .", "quantifier": "all statistics objects, all factors, every aliasing of shallow copies", "why_tests_cant": "aliasing is a history property", "anchors": ["melodist/cascade.py:CascadeStatistics.__add__", "melodist/cascade.py:CascadeStatistics.__mul__", "melodist/precipitation.py:build_casc"]}
{"id": "C30", "title": "Cascade statistics equality and dictionary round trip", "statement": "== is symmetric, transitive and holds exactly when all matrices, thresholds and the percentile agree and contain no NaN; != is its negation; from_dict applied to an object's attribute dictionary gives an equal object and rejects matrices of wrong shape.", "quantifier": "all statistics objects", "why_tests_cant": "all values including NaN", "anchors": ["melodist/cascade.py:CascadeStatistics.__eq__", "melodist/cascade.py:CascadeStatistics.from_dict"]}
{"id": "C31", "title": "Each cascade level uses the statistics of its own scale", "statement": "When a list of level statistics is given, the disaggregation of level l (1 = first halving of the day) uses list entry len-l, and with one statistics object the threshold of entry len-l; so the coarsest aggregated statistics drive the first halving.", "quantifier": "every level and list", "why_tests_cant": "index arithmetic for all levels", "anchors": ["melodist/precipitation.py:disagg_prec_cascade", "melodist/precipitation.py:build_casc"]}
{"id": "C32", "title": "Equal wind disaggregation", "statement": "disaggregate_wind(method='equal') repeats the daily mean in all 24 hours of its day.", "quantifier": "every gap-free daily series", "why_tests_cant": "all inputs", "anchors": ["melodist/wind.py:disaggregate_wind"]}
{"id": "C33", "title": "Cosine wind disaggregation scales the daily mean by b", "statement": "disaggregate_wind(method='cosine'): the mean of the 24 values of a day is b times the daily mean for every a and t_shift; every value lies between (b-|a|) and (b+|a|) times the daily mean (for non-negative wind), hence is non-negative when b>=|a|; the value at hour h is mean*(b + a*cos(2*pi*(h-t_shift)/24)).", "quantifier": "all parameters a,b,t_shift and all daily values", "why_tests_cant": "continuum of parameters", "anchors": ["melodist/wind.py:disaggregate_wind", "melodist/wind.py:_cosine_function"]}
{"id": "C34", "title": "Random wind disaggregation", "statement": "disaggregate_wind(method='random') gives non-negative values for non-negative daily wind and draws in (0,1), calm days stay calm, larger draws give smaller wind (mean*(-ln draw)**0.3); a draw of exactly 0 gives an infinite value (NaN on a calm day).", "quantifier": "every daily series and every random sequence in [0,1)", "why_tests_cant": "random sequences; the bad draw has probability 2^-53", "anchors": ["melodist/wind.py:disaggregate_wind"]}
{"id": "C35", "title": "Invalid wind options are rejected", "statement": "An unknown method raises AssertionError; method 'cosine' with any of a,b,t_shift missing raises AssertionError; otherwise the call returns one value per hour.", "quantifier": "all option combinations", "why_tests_cant": "all inputs", "anchors": ["melodist/wind.py:disaggregate_wind"]}
{"id": "C36", "title": "Disaggregated humidity is always between 0 and 100 %", "statement": "For every method and every option, each returned humidity is either missing or within [0,100].", "quantifier": "all inputs, parameters and methods", "why_tests_cant": "all inputs", "anchors": ["melodist/humidity.py:disaggregate_humidity"]}
{"id": "C37", "title": "preserve_daily_mean", "statement": "With preserve_daily_mean=True the daily mean of the result equals the observed daily mean on every day on which no corrected hour leaves [0,100]; without such a condition this is false. With method 'equal' and humidity in [0,100] the option changes nothing.", "quantifier": "every hourly pattern and daily mean", "why_tests_cant": "depends on whether clipping occurs", "anchors": ["melodist/humidity.py:disaggregate_humidity"]}
{"id": "C38", "title": "Minimal/dew-point humidity", "statement": "With method 'minimal' the humidity is 100 % at hours where the temperature equals tmin and strictly between 0 and 100 % where it is above tmin; higher temperature gives lower humidity within a day. dewpoint_regression with a0=0,a1=1 is the same method; with other parameters every value is the relative humidity for the temperature of the hour and the dew point a0+a1*tmin, cut to 0..100 %.", "quantifier": "all temperatures above 0.53 K", "why_tests_cant": "continuum", "anchors": ["melodist/humidity.py:disaggregate_humidity"]}
{"id": "C39", "title": "min_max humidity", "statement": "With method 'min_max' (tmin<tmax, 0<=hum_min<=hum_max<=100) humidity equals hum_max where temp=tmin, hum_min where temp=tmax, lies in [hum_min,hum_max] for temp in [tmin,tmax] and decreases linearly with temperature; on a day with tmin=tmax=temp the result is missing.", "quantifier": "all values", "why_tests_cant": "continuum", "anchors": ["melodist/humidity.py:disaggregate_humidity"]}
{"id": "C40", "title": "Linear dew point variation", "statement": "With method 'linear_dewpoint_variation' the dew point at hour h of a day is the daily dew point plus h/24 of the change to the next day (no change on the last day) plus a diurnal term within +-0.5 K whose 24-hour sum is 0; kr other than 6 or 12, or missing, raises AssertionError.", "quantifier": "all series, both kr, all lengths", "why_tests_cant": "all inputs", "anchors": ["melodist/humidity.py:disaggregate_humidity"]}
{"id": "C41", "title": "Categorical humidity", "statement": "With method 'month_hour_precip_mean' each hour gets the table entry of (its month, its hour, whether its day has precipitation>0; missing counts as dry); a missing category raises KeyError. The table computed by calculate_month_hour_precip_mean contains, for each occurring category, the mean of the observations in it.", "quantifier": "all series and tables", "why_tests_cant": "all inputs", "anchors": ["melodist/humidity.py:disaggregate_humidity", "melodist/humidity.py:calculate_month_hour_precip_mean"]}
{"id": "C42", "title": "Invalid humidity options are rejected", "statement": "An unknown method, dewpoint methods without a0/a1, min_max without hum_min/hum_max columns, month_hour_precip_mean without a table raise AssertionError.", "quantifier": "all option combinations", "why_tests_cant": "all inputs", "anchors": ["melodist/humidity.py:disaggregate_humidity"]}
{"id": "C43", "title": "Sine temperature stays inside the envelope", "statement": "disaggregate_temperature(method='sine_min_max'): every hourly value lies between the smaller of the day's and next day's tmin and the larger of the day's and previous day's tmax (when tmin<=tmax holds across these neighbours), for every min/max time option and with or without mod_nighttime.", "quantifier": "all non-polar gap-free daily series", "why_tests_cant": "all inputs", "anchors": ["melodist/temperature.py:disaggregate_temperature"]}
{"id": "C44", "title": "Sine temperature attains tmin and tmax", "statement": "sine_min_max (fix): the value at 14:00 is exactly tmax and the value at 02:00 exactly tmin of the day.", "quantifier": "all non-polar series", "why_tests_cant": "all inputs", "anchors": ["melodist/temperature.py:disaggregate_temperature"]}
{"id": "C45", "title": "Sine temperature does not preserve daily extremes in general", "statement": "The documented claim that sine_min_max preserves daily minimum and maximum is false in general (the evening can fall below tmin, the early morning can exceed tmax); it is true for days whose neighbours' values satisfy tmin(next)>=tmin and tmax(previous)<=tmax. The documented minimum time 07:00 is also wrong without mod_nighttime: the value at 07:00 is tmin only if tmin equals the previous/current tmax.", "quantifier": "all non-polar series", "why_tests_cant": "the exact condition under which it holds", "anchors": ["melodist/temperature.py:disaggregate_temperature", "README.md"]}
{"id": "C46", "title": "mod_nighttime", "statement": "With mod_nighttime=True the minimum is reached exactly at min_loc and the maximum exactly at max_loc; the temperature falls strictly until min_loc (if tmax of the previous day exceeds tmin), rises strictly from there to max_loc (if tmin<tmax) and falls strictly afterwards (if tmin of the next day is below tmax). The hourly values are the documented cosine with its three phases.", "quantifier": "all non-polar series, all 0<=min_loc<max_loc<=23", "why_tests_cant": "all inputs", "anchors": ["melodist/temperature.py:disaggregate_temperature"]}
{"id": "C47", "title": "sine_mean preserves daily mean and range", "statement": "disaggregate_temperature(method='sine_mean'): the mean of the 24 hourly values is exactly the daily mean; the difference of their maximum and minimum is exactly tmax-tmin, for every min/max time option; the value at hour h is mean + (tmax-tmin)/2*cos(2*pi*(h-max_loc)/24).", "quantifier": "all non-polar series with tmin<=tmax", "why_tests_cant": "all inputs", "anchors": ["melodist/temperature.py:disaggregate_temperature"]}
{"id": "C48", "title": "mean_course_min_max preserves daily extremes", "statement": "With a mean course normalised to [0,1] per month, the minimum/maximum of the 24 values is exactly tmin/tmax.", "quantifier": "all series, all courses", "why_tests_cant": "all inputs", "anchors": ["melodist/temperature.py:disaggregate_temperature", "melodist/util/util.py:calculate_mean_daily_course_by_month"]}
{"id": "C49", "title": "mean_course_mean preserves daily mean and range", "statement": "With a complete mean course, the mean of the 24 values is the daily mean and, if the course is normalised, their range is tmax-tmin.", "quantifier": "all series, all courses", "why_tests_cant": "all inputs", "anchors": ["melodist/temperature.py:disaggregate_temperature"]}
{"id": "C50", "title": "Missing temperatures", "statement": "sine_min_max: an hour is missing exactly when one of the two extremes it is built from is missing; a missing day never makes hours missing beyond the previous day's hours from max_loc on and the next day's hours before min_loc. mean_course methods: hours are missing exactly for the days with missing values.", "quantifier": "all missing patterns", "why_tests_cant": "all patterns", "anchors": ["melodist/temperature.py:disaggregate_temperature"]}
{"id": "C51", "title": "Polar night makes the sine methods fail", "statement": "If any day has a day length below 3 h, the sine methods of disaggregate_temperature raise an exception (the transition-day mask contains NaN), although the code intends a polar-night fallback; without such a day they never reach this branch.", "quantifier": "all series with at least one short day", "why_tests_cant": "all inputs", "anchors": ["melodist/temperature.py:disaggregate_temperature"]}
{"id": "C52", "title": "Invalid temperature options and missing sun times", "statement": "Unknown method raises ValueError before anything else; sine methods without sun times raise AttributeError even for fixed times; an unknown min_max_time raises ValueError; mean course methods without a course raise AttributeError, and KeyError if the course lacks the month or hour of an output row.", "quantifier": "all options", "why_tests_cant": "all inputs", "anchors": ["melodist/temperature.py:disaggregate_temperature"]}
{"id": "C53", "title": "Observed temperature shift", "statement": "get_shift_by_data returns for every month with observations the mean over its days of (hour of the first daily maximum minus solar noon).", "quantifier": "every hourly series", "why_tests_cant": "all inputs", "anchors": ["melodist/temperature.py:get_shift_by_data"]}
{"id": "C54", "title": "Disaggregated radiation is zero or at least 0.01", "statement": "Every value returned by disaggregate_radiation is NaN, 0, or >= 0.01 (never negative).", "quantifier": "all methods and inputs", "why_tests_cant": "all inputs", "anchors": ["melodist/radiation.py:disaggregate_radiation"]}
{"id": "C55", "title": "Radiation preserves the daily mean", "statement": "For methods pot_rad and mean_course the mean of the 24 hourly values m satisfies glob-0.01 < m <= glob on every day with glob>=0 and non-negative potential radiation with a positive daily mean.", "quantifier": "all inputs", "why_tests_cant": "all inputs", "anchors": ["melodist/radiation.py:disaggregate_radiation"]}
{"id": "C56", "title": "No radiation at night", "statement": "Hours with zero potential radiation get zero radiation on every day with positive mean potential radiation and non-missing daily value; hours with equal potential get equal radiation: the value is the daily value times potential over mean potential of the day, values below 0.01 becoming 0.", "quantifier": "all inputs", "why_tests_cant": "all inputs", "anchors": ["melodist/radiation.py:disaggregate_radiation"]}
{"id": "C57", "title": "Polar night radiation", "statement": "On a day whose potential radiation is zero in every hour, every method returns NaN for all 24 hours (not 0), even though the sunshine method explicitly sets the daily value to 0 there.", "quantifier": "all inputs", "why_tests_cant": "needs a polar site", "anchors": ["melodist/radiation.py:disaggregate_radiation"]}
{"id": "C58", "title": "Angstroem model", "statement": "angstroem returns (a+b*ssd/daylength)*potential with the parameters of the date's month; it equals a*pot at 0 sunshine, (a+b)*pot at full sunshine, increases with sunshine for b>=0.", "quantifier": "all inputs", "why_tests_cant": "continuum", "anchors": ["melodist/radiation.py:angstroem", "melodist/radiation.py:disaggregate_radiation"]}
{"id": "C59", "title": "Bristow-Campbell model", "statement": "bristow_campbell: for a positive temperature range, C>0 and A>=0 the result lies in [0, A*potential), increases with the day's own range within the formula, the last day uses its own tmin as next-day tmin.", "quantifier": "all inputs", "why_tests_cant": "continuum", "anchors": ["melodist/radiation.py:bristow_campbell"]}
{"id": "C60", "title": "Potential radiation bounds", "statement": "For a horizontal surface and cloud fraction in [0,1] potential_radiation is non-negative, is 0 whenever the sun is below the horizon, and never exceeds 1367*1.0365*0.8 W/m2; it is finite unless the sun is exactly in the zenith (the internal arcsine argument is always within [-1,1]).", "quantifier": "all dates, sites, cloud fractions", "why_tests_cant": "continuum", "anchors": ["melodist/radiation.py:potential_radiation"]}
{"id": "C61", "title": "Potential radiation on slopes at night", "statement": "For inclined terrain potential_radiation is not zero at night: with slope in (0,pi) and azimuth 0 the direct radiation at solar midnight below the horizon is strictly positive.", "quantifier": "all sites, slopes in (0,pi), clear sky", "why_tests_cant": "a whole class of inputs", "anchors": ["melodist/radiation.py:potential_radiation"]}
{"id": "C62", "title": "Potential radiation symmetry", "statement": "potential_radiation is symmetric about solar noon: timestamps of the same day of the year with solar times 12-x and 12+x get the same value on a horizontal surface, and on a slope when the azimuth is mirrored; it depends on a timestamp only through day of the year, hour and minute (seconds are ignored), and on longitude and time zone only through lon - 15*timezone.", "quantifier": "all dates, sites, slopes, cloud fractions", "why_tests_cant": "continuum", "anchors": ["melodist/radiation.py:potential_radiation"]}
{"id": "C63", "title": "Assigning daily data regularises it", "statement": "Station.data_daily = df: whenever accepted, the stored frame has one row for every day from first to last, rows of the given days are unchanged, other rows are missing, data_disagg has exactly the 24 hours of every stored day with all five columns missing; arguments that are no frame with a DatetimeIndex, rows that are not at 00:00, unsorted indexes and values below 200 K in tmin, tmax or tmean raise AssertionError, an empty frame without frequency IndexError and duplicate dates ValueError; these refusals leave the station unchanged.", "quantifier": "all frames, all previous states", "why_tests_cant": "all inputs and histories", "anchors": ["melodist/station.py:Station.data_daily"]}
{"id": "C64", "title": "Station and statistics coordinates stay in sync", "statement": "After any sequence of attribute assignments, the current statistics object of a station carries the station's lon, lat and timezone, provided the statistics object is not assigned to another station or shared through a shallow copy; if two stations share one statistics object the last assignment wins.", "quantifier": "all histories of assignments", "why_tests_cant": "histories", "anchors": ["melodist/station.py:Station.lon", "melodist/station.py:Station.lat", "melodist/station.py:Station.timezone", "melodist/station.py:Station.statistics"]}
{"id": "C65", "title": "Sun times can be stale", "statement": "sun_times is recomputed exactly when daily data are assigned while a time zone is set, by calc_sun_times, or by disaggregate_radiation if it is None; changing lon, lat or timezone afterwards does not update it, so it reflects the coordinates at the last computation.", "quantifier": "all histories", "why_tests_cant": "histories", "anchors": ["melodist/station.py:Station.data_daily", "melodist/station.py:Station.calc_sun_times", "melodist/station.py:Station.disaggregate_radiation"]}
{"id": "C66", "title": "Disaggregation writes only its own column", "statement": "Each disaggregate_* call of Station changes only its column of data_disagg; data_daily, the index and all other columns are unchanged; a call that raises changes nothing, except that disaggregate_radiation may already have set sun_times.", "quantifier": "all histories of calls", "why_tests_cant": "histories", "anchors": ["melodist/station.py:Station.disaggregate_wind", "melodist/station.py:Station.disaggregate_humidity", "melodist/station.py:Station.disaggregate_temperature", "melodist/station.py:Station.disaggregate_precipitation", "melodist/station.py:Station.disaggregate_radiation"]}
{"id": "C67", "title": "Seasonal cascade disaggregation covers each season", "statement": "Station.disaggregate_precipitation('cascade') with seasons preserves the daily total of every day whose season has at least two days in the data, leaves days of single-day or undeclared seasons missing, and on current pandas raises AttributeError as soon as some season's days are not contiguous; on old pandas such seasons are disaggregated like the others.", "quantifier": "all season partitions and periods", "why_tests_cant": "all inputs", "anchors": ["melodist/station.py:Station.disaggregate_precipitation", "melodist/precipitation.py:seasonal_subset", "melodist/precipitation.py:disagg_prec_cascade"]}
{"id": "C68", "title": "Radiation statistics by month", "statement": "calc_radiation_stats assigns fitted Angstroem and Bristow-Campbell parameters to all twelve months for how='all' and 'seasonal'; for how='monthly' with sunshine data and day lengths given, the Bristow-Campbell parameters of no month are updated, because the month iterator is exhausted by the Angstroem loop.", "quantifier": "all data", "why_tests_cant": "interaction of two loops over one iterator", "anchors": ["melodist/stationstatistics.py:StationStatistics.calc_radiation_stats"]}
{"id": "C69", "title": "Statistics JSON round trip", "statement": "from_json(to_json(s)) restores every scalar, month list and cascade statistics object exactly and every table to 10 decimals (error at most half a unit of the tenth decimal), sorted by label, with infinite values and NaN becoming missing; absent (None) statistics stay None; position, time zone and data are not part of the file. A second round trip changes nothing. A mean course that lacks one of the months 1..12 is exported but its import raises KeyError, a humidity table with one single category is exported but its import raises AttributeError, a repeated label raises ValueError on export, a file without one of the five groups raises KeyError on import.", "quantifier": "all statistics objects (tables of any size, any labels, any values)", "why_tests_cant": "all contents", "anchors": ["melodist/stationstatistics.py:StationStatistics.to_json", "melodist/stationstatistics.py:StationStatistics.from_json"]}
{"id": "C70", "title": "Bunch is one mapping seen two ways", "statement": "For every sequence of attribute and item operations, copies and deep copies: an item of a Bunch is also the attribute of that name (and hides a method of that name), a missing item is a missing attribute, and writing or deleting one writes or deletes the other. A copy is a new Bunch with the same items whose items change only by writing to the copy itself; it raises TypeError exactly if a key is no string or is 'self'. A deep copy reads the same along every access path, shares no mutable object with the original and stays unaffected by later writes to it; it succeeds if there are no reference cycles and never succeeds for a Bunch that contains itself through Bunches.", "quantifier": "all operation sequences", "why_tests_cant": "histories", "anchors": ["melodist/util/bunch.py:Bunch"]}
{"id": "C71", "title": "SMET hourly round trip", "statement": "Writing an hourly frame with write_smet (columns with distinct one-word names that are not SMET codes, at least one row) and reading it back with read_smet gives the same header entries (keys and values without '=', line breaks, quotation marks and outer blanks), the same columns, the times to the full minute and the values rounded to 2 decimals; missing values come back as the nodata value rounded in the same way; a value that rounds to -999.00 becomes missing.  read_smet raises AttributeError for every such file on pandas versions whose index does not allow deleting its name.", "quantifier": "all frames, headers and nodata values", "why_tests_cant": "all contents", "anchors": ["melodist/data_io.py:write_smet", "melodist/data_io.py:read_smet"]}
{"id": "C72", "title": "SMET daily files swap tmin and tmax", "statement": "write_smet(mode='d') labels tmin as TMAX and tmax as TMIN, so a daily write/read round trip exchanges the two columns, whatever the data.", "quantifier": "all daily frames with both columns", "why_tests_cant": "holds for all data", "anchors": ["melodist/data_io.py:write_smet", "melodist/data_io.py:read_smet"]}
{"id": "C73", "title": "SMET check_nan drops no column of missing values", "statement": "write_smet(check_nan=True) never drops a column that consists only of missing values, because a sum that skips missing values is 0; the only columns it can drop are those containing infinities of both signs, and these it does drop.", "quantifier": "all frames", "why_tests_cant": "all contents", "anchors": ["melodist/data_io.py:write_smet"]}
{"id": "C74", "title": "KNMI unit conversion", "statement": "read_single_knmi_file gives one row per record, in file order, at the end of the record's hour (hour 24 is 00:00 of the next day): T/10+273.15 K, RH/10 mm with negative codes set to 0, Q*10000/3600 W/m2, U, FH/10 m/s, SQ*6 minutes; empty fields are missing, other columns and blanks do not matter.  An hour outside 1..24 raises ValueError, a missing column KeyError.  Without pd.datetime every file with records fails with TypeError.", "quantifier": "all KNMI files", "why_tests_cant": "all values and layouts", "anchors": ["melodist/data_io.py:read_single_knmi_file"]}
{"id": "C75", "title": "DWD reading", "statement": "read_dwd keeps exactly the known columns under their melodist names (also in hourly files the temperature is called tmean), converts exactly the temperatures to K, takes -999 as missing, drops every other column whatever it contains, and does not read the last line of the data file for skip_last=True and also for skip_last=False (only None disables it), so that skip_last=False loses the last record of a file without a closing line; a mode other than 'd' and 'h' raises UnboundLocalError.", "quantifier": "all files", "why_tests_cant": "all values of the flag", "anchors": ["melodist/data_io.py:read_dwd"]}
{"id": "C76", "title": "The threshold is the requested percentile of the wet boxes", "statement": "aggregate_precipitation stores one threshold, a number with at least floor((m-1)p/100)+1 of the m wet aggregated values not above it and at least m-1-floor((m-1)p/100) (and at least one) not below it; a percentile outside 0..100 never succeeds.", "quantifier": "every series and percentile", "why_tests_cant": "all data sets", "anchors": ["melodist/precipitation.py:aggregate_precipitation"]}
{"id": "C77", "title": "Cascade branching rule", "statement": "In a successful cascade run on missing or non-negative daily values every positive box is split by the rule of Olsson (1998): with the random number u of the box, all water goes to the second half if u <= P(0/1), to the first half if P(0/1) < u <= P(0/1)+P(1/0), and otherwise to both with the weight of the first histogram class whose cumulative probability reaches a second random number (the last weight again if no class does); the probabilities are those of the level's statistics for the box's intensity class (value above the level's threshold) and position type (neighbours wet or dry), and random numbers are consumed consecutively.", "quantifier": "all inputs, statistics, random numbers, levels", "why_tests_cant": "all random sequences and tables", "anchors": ["melodist/precipitation.py:disagg_prec_cascade"]}
{"id": "C78", "title": "Cosine wind fit preserves daily means", "statement": "The least-squares cosine fit of wind.fit_cosine_function on complete days has slope 1 for the daily mean (if it is determined), hence the cosine disaggregation with fitted parameters preserves the daily mean.", "quantifier": "all complete hourly records", "why_tests_cant": "all data", "anchors": ["melodist/wind.py:fit_cosine_function", "melodist/wind.py:disaggregate_wind"]}
{"id": "C79", "title": "Dew point regression is the least-squares line", "statement": "calculate_dewpoint_regression returns (slope a1, intercept a0) of the unique least-squares line through the points (daily minimum temperature, daily mean dew point), one point per day with at least one row that has both temperature and humidity, whenever two of these days differ in their minimum temperature.", "quantifier": "every hourly series with any missing values", "why_tests_cant": "The optimality holds against all lines, and the set of days depends on the pattern of missing values.", "anchors": ["melodist/humidity.py:123-130", "melodist/util/util.py:137-157"]}
{"id": "C80", "title": "Sine temperature peaks at the prescribed hour", "statement": "For 'sine_min_max' without mod_nighttime the value at the prescribed hour of the maximum (14 for 'fix'; full hour nearest to solar noon plus 2 for 'sun_loc'; full hour nearest to solar noon plus the shift of the month for 'sun_loc_shift', the 'sun_loc' hour if that is before the hour nearest to sunrise) is exactly tmax of the day, and the value 12 hours earlier exactly tmin. The value at hour h is (M+m)/2+(M-m)/2*cos(2*pi*(h-max_loc)/24), m being tmin of the day before max_loc and of the next day from there on, M tmax of the previous day before min_loc and of the day from there on.", "quantifier": "all series, all three rules, all sun times", "why_tests_cant": "all sun times and rounding cases", "anchors": ["melodist/temperature.py:disaggregate_temperature"]}
{"id": "C81", "title": "Radiation output covers the hours of the potential radiation", "statement": "For the methods using potential radiation the output has exactly the timestamps of pot_rad, not those of the daily data; with 'pot_rad', days before the first daily value are missing and days after the last are filled with the last daily value.", "quantifier": "all inputs", "why_tests_cant": "all combinations of periods", "anchors": ["melodist/radiation.py:disaggregate_radiation"]}
{"id": "C82", "title": "Radiation option checks", "statement": "disaggregate_radiation raises ValueError for every unknown method name, AssertionError for 'mean_course' without a mean course or any other method without potential radiation, and AttributeError for 'pot_rad_via_ssd' without sun times.", "quantifier": "all arguments", "why_tests_cant": "all strings and data", "anchors": ["melodist/radiation.py:disaggregate_radiation"]}
{"id": "C83", "title": "A failing assignment of daily data can leave the station half updated", "statement": "Assigning acceptable daily data recomputes sun_times if time zone and coordinates are set and keeps the old ones if there is no time zone; with a time zone but without lon or lat it raises TypeError after the daily data and data_disagg have been replaced; with an index frequency that leaves out days it raises AttributeError on current pandas after data_daily has been replaced, keeping the old data_disagg.", "quantifier": "all stations and frames", "why_tests_cant": "all states", "anchors": ["melodist/station.py:Station.data_daily", "melodist/station.py:Station.calc_sun_times"]}
{"id": "C84", "title": "A station method stores what the module function returns for the station's own data", "statement": "After daily data were accepted, and through any later disaggregation calls, each Station.disaggregate_* call (wind, humidity, temperature, precipitation 'equal'/'masterstation', radiation) passes on the exception of the module-level function, called with the station's daily data, fitted statistics (each parameter in its place), sun times, hourly temperature and own potential radiation, leaving the station as it was, or stores exactly the returned values hour by hour; `shift` has no effect for 'equal' and 'masterstation'.", "quantifier": "all stations, data, statistics, options", "why_tests_cant": "which parameter goes where matters for all data", "anchors": ["melodist/station.py:Station.disaggregate_wind", "melodist/station.py:Station.disaggregate_humidity", "melodist/station.py:Station.disaggregate_temperature", "melodist/station.py:Station.disaggregate_precipitation", "melodist/station.py:Station.disaggregate_radiation"]}
{"id": "C85", "title": "Station results, end to end", "statement": "In every execution of any sequence of station operations every hourly humidity in any station's results is missing or in [0, 100] and every hourly radiation missing or not negative.  On a station with accepted daily data: cosine wind has daily mean b times the daily value, equal precipitation has the daily totals, 'mean_course_min_max' temperature with a normalised course has the daily extremes, and 'pot_rad' radiation is 0 in hours without sun and has the daily mean up to 0.01.", "quantifier": "all programs; all stations and data", "why_tests_cant": "histories of operations", "anchors": ["melodist/station.py:Station"]}
{"id": "C86", "title": "A statistics object: data check and what each method changes", "statement": "StationStatistics.data accepts exactly a DataFrame with a DatetimeIndex of full hours that are not all midnights and raises AssertionError (changing nothing) otherwise; through any history of calls the stored data are None or have such an index.  Each calc_*_stats call, also one that raises, changes only its own group of parameters, never the coordinates; the only side effect is that calc_precipitation_stats replaces missing values of the hourly precipitation by 0.", "quantifier": "all objects, arguments, histories of calls", "why_tests_cant": "histories of calls, including failing ones", "anchors": ["melodist/stationstatistics.py:StationStatistics.data", "melodist/stationstatistics.py:StationStatistics"]}
{"id": "C87", "title": "The statistics methods are independent and repeatable", "statement": "Two different calc_*_stats calls can be exchanged (same object, same exceptions), so several kinds of statistics fitted once each give the same object in every order.  Repeating a wind, humidity, temperature or radiation call changes nothing; repeating calc_precipitation_stats changes nothing if no hourly precipitation is missing, and from the second call on in any case (the first call sees missing values where later ones see zeros).", "quantifier": "all objects, arguments, optimisers, orders", "why_tests_cant": "all orders and data", "anchors": ["melodist/stationstatistics.py:StationStatistics"]}
{"id": "C88", "title": "Fitted statistics used by a station", "statement": "Wind: calc_wind_stats on complete days (not all calm, exact least squares), then disaggregate_wind('cosine') preserves every daily mean.  Radiation: calc_radiation_stats, then 'mean_course' keeps every daily mean up to 0.01 W/m2.  Temperature: calc_temperature_stats stores the monthly mean offset of the daily maximum from solar noon, and on observations with all hours in the months needed, then 'mean_course_min_max' reproduces tmin and tmax on every day in whose month the 24 observed means differ.  Humidity: calc_humidity_stats, then 'linear_dewpoint_variation' uses dew points on the unique regression line (diurnal term within 0.5 K, mean 0).  Precipitation: calc_precipitation_stats for any seasons without fall-back on sample data, then 'cascade' succeeds when no season of at least two days has a gap and preserves every daily total with non-negative hours.", "quantifier": "all observations, stations, seasons, random numbers", "why_tests_cant": "the whole pipeline for all data", "anchors": ["melodist/stationstatistics.py:StationStatistics", "melodist/station.py:Station"]}
{"id": "C89", "title": "What write_smet leaves behind", "statement": "write_smet changes the dictionary passed by the caller: 'fields' and 'units_multiplier' are set, all other entries stay.  With a mode other than 'd' and 'h' it raises UnboundLocalError, leaves the dictionary as it was, but has already emptied the target file.", "quantifier": "all frames, headers, modes", "why_tests_cant": "all modes and contents", "anchors": ["melodist/data_io.py:write_smet"]}
{"id": "C90", "title": "KNMI data sets are concatenated", "statement": "read_knmi_dataset returns the records of all files exactly once, file after file in the order of the directory listing, each as read_single_knmi_file reads it; nothing is sorted by time and repeated times are kept; no file gives an empty table.", "quantifier": "all lists of files", "why_tests_cant": "all files and orders", "anchors": ["melodist/data_io.py:read_knmi_dataset"]}
{"id": "C91", "title": "Several DWD files are joined by time", "statement": "read_dwd of a list of files without common columns (distinct times in each) has the columns of all files in list order at every time that occurs in any file, once, values missing where the file of the column has no such time; the times keep their order if all files have the same and are ascending otherwise.  Two files with a common column raise ValueError, an empty list UnboundLocalError.", "quantifier": "all lists of files", "why_tests_cant": "all time patterns", "anchors": ["melodist/data_io.py:read_dwd"]}
{"id": "C92", "title": "Daily values of any hourly record", "statement": "daily_from_hourly, for rows in any order, with gaps or repeated timestamps: every column has exactly the days from the first to the last row as index. temp, glob, hum and wind are the mean of the day's non-missing values; tmin, tmax, hum_min and hum_max their smallest and largest (missing if there are none); precip is the sum of the non-missing values and ssd that sum divided by 60, so a day without data has precipitation 0, not missing. The columns are exactly those whose source column exists.", "quantifier": "all frames with finite or missing cells and a non-empty index", "why_tests_cant": "all gap patterns, orders and column sets", "anchors": ["melodist/util/util.py:daily_from_hourly"]}
{"id": "C93", "title": "Fitted Angstroem parameters are the least-squares solution on the days with complete data, and recover the true ones", "statement": "fit_angstroem_params uses exactly the days on which sunshine duration, day length, potential and observed radiation are all given. If scipy's curve_fit returns a least-squares solution, the fitted (a, b) have the smallest sum of squared errors among all parameters, the errors sum to zero when weighted with the potential radiation, and also when weighted with potential radiation times relative sunshine duration. If two days with potential radiation have different relative sunshine duration the solution is unique; observations that follow (a + b*s/l)*q on all days give back a and b. Through calc_radiation_stats (how = 'all', 'seasonal', 'monthly') the true parameters of each month are stored if they do not vary within a group of months. Days without daylight (polar night: day length 0, potential radiation 0) stay in the sample, and make the model value NaN for every choice of a and b.", "quantifier": "all daily series with gaps, all days and values, all optimisers returning a least-squares solution, all groupings of months", "why_tests_cant": "A test fits a handful of series with one optimiser; optimality against all other parameters, uniqueness, and recovery for all data sets are statements over infinitely many inputs.", "anchors": ["melodist/radiation.py:fit_angstroem_params", "melodist/stationstatistics.py:StationStatistics.calc_radiation_stats"]}
{"id": "C94", "title": "Fitted Bristow-Campbell parameters have no bias, but the exponent is not determined by the data", "statement": "fit_bristow_campbell_params minimises the absolute value of the mean error. If the optimiser returns a minimum, potential radiation is not negative and at least one day has potential radiation and a temperature range different from zero, then the estimates with the fitted (A, C) have the same total as the observations on the days that have an estimate (days whose following day is missing have none), and there is such a day. The same holds for each group of months in calc_radiation_stats. However, if the temperature ranges are positive, every exponent C > 0 allows exactly one A with zero bias, so the minimum does not determine C: it depends on the start value and the optimiser.", "quantifier": "all daily series with gaps, all values, all optimisers returning a minimum, all exponents", "why_tests_cant": "That the minimum is always zero and that every exponent attains it is a statement over all data sets and all parameters; a test sees one fit.", "anchors": ["melodist/radiation.py:fit_bristow_campbell_params", "melodist/radiation.py:bristow_campbell", "melodist/stationstatistics.py:StationStatistics.calc_radiation_stats"]}
{"id": "C95", "title": "Sub-daily indices of any set of days", "statement": "sub_level_index (level up to 11) and fmin_index: for days without gaps, and with fill_gaps=True for any days, the index has exactly the 2^level (respectively 288) equally spaced steps of every day, in order. With gaps and fill_gaps=False both raise AttributeError on pandas without pd.datetime; on older pandas they return the steps of the listed days only, but the times of sub_level_index are cut down to full seconds (0:02:48 instead of 0:02:48.75), so that they are not the steps of the level. fmin_index raises ValueError where pandas has no frequency alias 'L'.", "quantifier": "all non-empty sets of distinct days, all levels up to 11", "why_tests_cant": "all gap patterns; the loss of fractions of a second only shows with gaps on old pandas", "anchors": ["melodist/precipitation.py:sub_level_index", "melodist/precipitation.py:fmin_index"]}
{"id": "C96", "title": "With independent uniform random numbers the cascade is the random process described by its statistics", "statement": "If np.random.random() delivers independent numbers, uniformly distributed on [0, 1], then the probability that a cascade run on missing or non-negative daily values computes given amounts in all boxes of all levels is the product, over all levels and boxes, of the branching probabilities of the boxes: for a box of amount y, with the entries of the level's statistics for its intensity class and position type, P(0/1) for the halves (0, y), P(1/0) for (y, 0), and (1 - P(0/1) - P(1/0)) times the weight of class c for (w_c*y, (1-w_c)*y) with the class centre w_c; the splits of different boxes are independent given the level above. P(x/x) itself is not used. If the probabilities of a table do not add up to 1 exactly, cumulative probabilities above 1 count as 1, and a missing rest of the weights goes to the weight used last.", "quantifier": "all daily values, tables with non-negative entries, levels 1 to 11, all outcomes, all probability spaces with such random numbers", "why_tests_cant": "A statement about probabilities over a continuum of random inputs and all outcomes; a test can only compare sampled frequencies with a tolerance.", "anchors": ["melodist/precipitation.py:disagg_prec_cascade"]}
{"id": "C97", "title": "Temperature results do not depend on the temperature unit", "statement": "Two daily tables with the same days, one with tmin, tmax and temp in other units (x -> s*x + c with s > 0, e.g. kelvin or degrees Fahrenheit instead of degrees Celsius; missing values stay missing): with the same options disaggregate_temperature either raises the same exception for both or returns for the second the course of the first in the new units, for all five methods. The statistics behave accordingly: mean courses of an hourly record change units with it, normalised mean courses and the shift of the maximum against solar noon do not change. daily_from_hourly of a table in other units is the daily table in those units, and so is the whole chain from hourly record and hourly table to the generated course.", "quantifier": "all daily and hourly tables with any cells (missing and infinite included), all factors s > 0 and offsets c, all methods and options", "why_tests_cant": "A relation between two runs for all inputs and all units; a test compares single runs.", "anchors": ["melodist/temperature.py:disaggregate_temperature", "melodist/temperature.py:get_shift_by_data", "melodist/util/util.py:calculate_mean_daily_course_by_month", "melodist/util/util.py:daily_from_hourly"]}
{"id": "C98", "title": "Wind and radiation results do not depend on the unit, except for the cut of radiation below 0.01", "statement": "Daily wind speed in other units (x -> s*x, s > 0, e.g. km/h or knots), same options and random numbers: disaggregate_wind raises the same exception or returns the first result in the new units, for all methods; the cosine fit of an hourly record in other units has exactly the same least-squares parameters. disaggregate_radiation on daily radiation in other units raises the same exception, or has the same timestamps and the values of the first result in the new units, except that values below 0.01 are set to 0 in whichever units the data are: a cell that differs is 0 in one run and at least 0.01, but below 0.01 in the units of the other run. The unit of the potential radiation or of the mean course is irrelevant for 'pot_rad' and 'mean_course': the result is the same cell by cell. The cut matters: an hour with 5 W/m2 becomes 0 if the data are in kW/m2.", "quantifier": "all daily series and tables with any cells, all factors s > 0, all methods and options, all random numbers", "why_tests_cant": "A relation between two runs for all inputs and all units; a test compares single runs.", "anchors": ["melodist/wind.py:disaggregate_wind", "melodist/wind.py:fit_cosine_function", "melodist/radiation.py:disaggregate_radiation"]}
{"id": "C99", "title": "Precipitation results do not depend on the unit if the thresholds of the statistics are in the same unit", "statement": "Precipitation in other units (x -> s*x, s > 0, e.g. inches), same random numbers: with the same branching tables and thresholds in the new units disagg_prec_cascade raises the same exception or returns the first result in the new units (all levels, all boxes); precip_master_station returns the first result in the units of the daily values whatever the unit of the master station; distribute_equally likewise. build_casc on a record in other units gives the same probabilities and weights, and thresholds in the new units, so that the whole chain of statistics and cascade only changes units. The default thresholds of CascadeStatistics are amounts in mm: with them, daily values in cm give another course.", "quantifier": "all series with any cells, all factors s > 0, all statistics, levels, seasons and random numbers", "why_tests_cant": "A relation between two runs for all inputs, random numbers and units; a test compares single runs.", "anchors": ["melodist/precipitation.py:disagg_prec_cascade", "melodist/precipitation.py:precip_master_station", "melodist/precipitation.py:build_casc", "melodist/precipitation.py:aggregate_precipitation", "melodist/util/util.py:distribute_equally"]}
{"id": "C100", "title": "The hourly values of a day depend only on that day's data and the neighbouring days its method names", "statement": "Two records, possibly of different periods, that agree on a common day D (same options, both runs successful) get the same hourly values on D: wind (all methods; for 'random' with the same random numbers for that day), humidity (all methods, with or without preserve_daily_mean; the hourly temperature of D must agree, and 'linear_dewpoint_variation' needs agreement on D+1 too), temperature ('sine_mean' and the mean-course methods; 'sine' and 'sine_min_max' need agreement on D-1 and D+1 too, and then only for the hours before the minimum and from the maximum on), radiation ('pot_rad', 'mean_course', 'pot_rad_via_ssd' with potential radiation or course and day length of D; 'pot_rad_via_bc' needs also tmin of D+1 and the mean temperature range of the month), precipitation by equal parts and by a master station (rows of D). So appending, cutting off or correcting other days of the record changes nothing on D. The cascade is different: with the same random numbers the hourly values of a day depend on whether its neighbours are wet.", "quantifier": "all pairs of gap-free daily records and all days, any cells elsewhere", "why_tests_cant": "A relation between two runs on all pairs of records that agree on one day; a test compares single pairs.", "anchors": ["melodist/wind.py:disaggregate_wind", "melodist/humidity.py:disaggregate_humidity", "melodist/temperature.py:disaggregate_temperature", "melodist/radiation.py:disaggregate_radiation", "melodist/radiation.py:bristow_campbell", "melodist/precipitation.py:precip_master_station", "melodist/precipitation.py:disagg_prec_cascade", "melodist/util/util.py:distribute_equally"]}
{"id": "C101", "title": "Larger daily values give larger hourly values, hour by hour (except in the cascade)", "statement": "Two gap-free daily records of the same days, the same options, both runs successful; \"at most\" means at every timestamp both values are missing or the first is at most the second. If tmin and tmax of the first are at most those of the second, so are the hourly temperatures ('sine', 'sine_min_max', and 'mean_course_min_max' with a course in [0,1]); with the same tmin and tmax and a mean at most as large likewise for 'sine_mean' and 'mean_course_mean'. Wind: 'equal', 'cosine' with |a| <= b, 'random' with the same draws in (0,1). Radiation: 'pot_rad' and 'pot_rad_via_ssd' (b >= 0) with the same non-negative potential radiation, in spite of the cut at 0.01. Relative humidity: 'equal'; 'min_max' with the same temperatures, hourly ones between tmin and tmax > tmin; 'minimal', 'dewpoint_regression' and 'linear_dewpoint_variation' (slope a1 >= 0, temperatures in K): higher tmin and lower hourly temperatures give higher relative humidity. Precipitation: distribute_equally, and precip_master_station with non-negative or missing master values. Not so for the cascade: with the same random numbers, 10 mm instead of 1 mm on a day can give 0 instead of 1 mm in its first hour.", "quantifier": "all pairs of gap-free daily records (missing values at the same places), all options as stated, all random numbers", "why_tests_cant": "A relation between two runs for all pairs of ordered records; a test compares single pairs.", "anchors": ["melodist/temperature.py:disaggregate_temperature", "melodist/wind.py:disaggregate_wind", "melodist/radiation.py:disaggregate_radiation", "melodist/humidity.py:disaggregate_humidity", "melodist/precipitation.py:precip_master_station", "melodist/precipitation.py:disagg_prec_cascade", "melodist/util/util.py:distribute_equally"]}
{"id": "C102", "title": "In floating-point arithmetic the daily precipitation totals are preserved up to a bounded error; dry days stay exactly dry", "statement": "Every arithmetic operation is followed by a rounding: any monotone one with relative error at most u (IEEE double precision without overflow and underflow is one, with u = 2^-53). disagg_prec_cascade (hourly output, non-negative daily values): the hourly values of a day with precipitation P add up to P up to ((1+u)^12 - 1)*P + 96*u*(1+u)^(96*n+12)*S, where S is the precipitation of the whole record of n days - the hourly values are differences of a cumulative sum over the whole record; in double precision and for at most a million days that is 1.4e-15*P + 1.1e-14*S. All values are numbers and not negative, a dry day has 24 exact zeros, a missing day 24 missing values. The term with S is needed: 2^-44 mm on the day after 1024 mm are lost altogether. Equal parts: the total is P up to u*|P|. precip_master_station: with the master station's total added up in any order the total is P up to the factors (1-u)^2/(1+u)^23 and (1+u)^2/(1-u)^23, on a dry day of the master station ('uniform') up to (1-u)^2 and (1+u)^2. Without rounding these are the results of the exact model.", "quantifier": "all roundings with relative error u < 1, all gap-free daily records with non-negative values, statistics, random numbers, master stations", "why_tests_cant": "A bound on accumulated rounding errors over all records and random numbers; a test sees single runs and has to guess its tolerance.", "anchors": ["melodist/precipitation.py:disagg_prec_cascade", "melodist/precipitation.py:precip_master_station", "melodist/util/util.py:distribute_equally"]}
{"id": "C103", "title": "Aggregating hourly results to daily values and disaggregating again gives the same hourly values (where the method keeps its daily values)", "statement": "A disaggregated column is put into an hourly table, daily_from_hourly aggregates the table, and the same method with the same options is run on the daily table. The second result equals the first: temperature 'sine_mean', 'mean_course_min_max', 'mean_course_mean' (course scaled to [0,1]; days whose minimum is not above the maximum or that miss a value); 'sine_min_max' and 'sine' if the hourly values attain the daily extremes (there is a record for which they do not and the second result differs); precipitation 'equal' and precip_master_station (missing days become 0, since a missing day's total is 0); wind 'equal'; wind 'cosine' gives b times the first result, thus the same if b = 1; humidity 'equal' (also clipped values), 'minimal', 'dewpoint_regression', 'linear_dewpoint_variation' if the hourly temperatures have the daily minima, 'min_max' if they have both extremes; radiation 'pot_rad' and 'mean_course' if no hour's share lies between 0 and 0.01 W/m2 (there is a record where one does and the second result differs).", "quantifier": "all gap-free daily records, all options as stated, all hourly tables containing the column", "why_tests_cant": "A round trip through two functions of the library for all records; a test sees single records.", "anchors": ["melodist/util/util.py:daily_from_hourly", "melodist/temperature.py:disaggregate_temperature", "melodist/humidity.py:disaggregate_humidity", "melodist/wind.py:disaggregate_wind", "melodist/radiation.py:disaggregate_radiation", "melodist/precipitation.py:precip_master_station", "melodist/util/util.py:distribute_equally"]}
{"id": "C104", "title": "Stations do not influence each other", "statement": "Any program that creates stations and statistics objects and works with them in any order (assignments of coordinates, statistics objects and daily data, sun times, fitted parameters, all disaggregation methods, every exception caught), and in which no two stations have the same statistics object at a time and no station is copied shallowly. Pick a station and delete every statement that works on another station. What there is to see of the picked station at the end - coordinates, daily data, sun times, content of the statistics object, content of data_disagg - is the same, and every remaining statement raises the same exception, or none, as before. Without the restriction this fails (shown for a shared statistics object and for a shallow copy).", "quantifier": "all programs (sequences of statements of any length), all stations", "why_tests_cant": "A statement about all interleavings of operations on several objects; a test runs single programs.", "anchors": ["melodist/station.py:Station.__init__", "melodist/station.py:Station.statistics", "melodist/station.py:Station.data_daily", "melodist/station.py:Station.disaggregate_wind", "melodist/station.py:Station.disaggregate_radiation"]}
{"id": "C105", "title": "The order of a station's disaggregation calls does not matter, except that temperature comes before humidity; repeating a call changes nothing", "statement": "A station gets disaggregation calls for different variables (any methods and options, each with its own random numbers), in two orders in both of which the temperature call does not come after the humidity call; if one call is for radiation the station has its sun times already. All objects (hourly tables, sun times, statistics, coordinates) are the same at the end, and every call raises the same exception, or none, in both orders. Two neighbouring calls may be exchanged under the same conditions. Repeating a call with the same arguments and random numbers changes nothing and raises the same. Both conditions are needed: there is a station for which humidity before temperature gives another table (no exception either way), and one without sun times where 'sine_mean' raises AttributeError before a radiation call and succeeds after it, even though the radiation call fails.", "quantifier": "all states of the station and all other objects, all methods, options and random numbers, all orders", "why_tests_cant": "A statement about all orders of calls in all states; a test runs single sequences.", "anchors": ["melodist/station.py:Station.disaggregate_wind", "melodist/station.py:Station.disaggregate_humidity", "melodist/station.py:Station.disaggregate_temperature", "melodist/station.py:Station.disaggregate_precipitation", "melodist/station.py:Station.disaggregate_radiation"]}
{"id": "C106", "title": "DWD header", "statement": "The header returned by read_dwd comes from the last row of the metadata file that has a non-empty field: Stations_id and Stationsname from the columns of these names wherever they are (blanks around names do not count), Breite and Laenge from the third and fourth column whatever they are called; an empty field is missing, a column of numbers gives a number, a column with text the text of the field.  A closing line with text in its first field only therefore becomes the station id and makes name and coordinates missing.  No non-empty row: KeyError; no column Stations_id or Stationsname: AttributeError; fewer than four columns: IndexError.  Header and data do not influence each other, an exception of the metadata file comes first, and an empty list of data files raises UnboundLocalError.", "quantifier": "all metadata files, data files, modes", "why_tests_cant": "all layouts of the file and numbers of rows", "anchors": ["melodist/data_io.py:read_dwd"]}
{"id": "C107", "title": "Fitted statistics can be saved, loaded and used", "statement": "Whatever calc_... methods are called on a new StationStatistics object, in whatever order and with whatever arguments and optimisers, whether they raise or not: if every hourly data set it was given has full columns with rows in all calendar months, |lon| <= 360 and |timezone| <= 16, the object can be exported to JSON, the file can be imported, and the imported object has all parameters (wind, precipitation, dew point exactly, tables to 10 decimals).  A station that is given the imported object, which has no position of its own, behaves like before: any sequence of assignments of daily data, sun times and disaggregations that do not read the rounded tables (wind and precipitation with any method, humidity except 'month_hour_precip_mean', temperature with the sine methods except with 'sun_loc_shift', radiation 'pot_rad') raises the same exceptions and leaves exactly the same hourly data.  With the rounded tables, temperatures by 'mean_course_min_max' and 'mean_course_mean' are missing in the same hours and differ by at most 5e-11 and 1e-10 of the daily range; humidity by 'month_hour_precip_mean' raises KeyError for the same data, is missing in the same hours and differs by at most 5e-11.", "quantifier": "all histories of calls on a statistics object (with exceptions), all optimisers, all programs on the station", "why_tests_cant": "A statement about all histories of an object followed by all programs using it; a test saves and loads single objects.", "anchors": ["melodist/stationstatistics.py:StationStatistics.to_json", "melodist/stationstatistics.py:StationStatistics.from_json", "melodist/stationstatistics.py:StationStatistics.calc_radiation_stats", "melodist/station.py:Station.statistics", "melodist/temperature.py:get_shift_by_data"]}
{"id": "C108", "title": "Fitted wind parameters are determined by the data and recover the true course", "statement": "wind.fit_cosine_function uses all recorded wind speeds and nothing else (missing values are left out), each with its hour of the day and the mean of the speeds recorded on the same day, whatever the times of the record. Two least-squares solutions give the same value for every recorded hour; if there are records at three different hours of the day on days with a mean other than zero, the disaggregation of any daily data is the same with both (although the parameters may differ: a, t_shift and -a, t_shift + 12 are the same function). A record that follows a cosine of its daily means exactly, with gaps or not, gives parameters that disaggregate any daily data as the true ones do; in particular fitting to the output of disaggregate_wind 'cosine' with b = 1 (daily data with missing days allowed) reproduces the disaggregation.", "quantifier": "all records of numbers and missing values at any times, all least-squares optimisers, all daily data", "why_tests_cant": "uniqueness of the result over all optimisers and data", "anchors": ["melodist/wind.py:fit_cosine_function", "melodist/wind.py:disaggregate_wind"]}
{"id": "C109", "title": "Random wind values follow a Weibull distribution and are on average too low", "statement": "disaggregate_wind 'random' with independent uniform random numbers, on days whose daily mean is a number m: the 24 n values are independent of each other; for m > 0 each is a positive number with probability one and exceeds x*m with probability exp(-x^(1/0.3)). Its expectation is Gamma(1.3)*m with 0.84 < Gamma(1.3) < 0.94, and so is the expected mean of the 24 values of a day: the method lowers the daily mean by 6 to 16 % on average. In the long run (many days with the same mean) the mean of all hourly values tends to Gamma(1.3)*m with probability one.", "quantifier": "all probability spaces with independent uniform draws, all daily data", "why_tests_cant": "distributions, expectations and limits cannot be tested by finitely many draws", "anchors": ["melodist/wind.py:disaggregate_wind"]}
{"id": "C110", "title": "From station files to daily values", "statement": "A KNMI file read with read_single_knmi_file and aggregated with daily_from_hourly: the daily values of a date are mean, minimum, maximum (temperature, humidity), mean (radiation, wind) or sum (precipitation, sunshine hours) of the converted numbers of hour 24 of the day before and hours 1 to 23 of the day, whatever the gaps and the order of the records. A file with n complete days therefore gives n+1 dates: the first has 23 values, the last only one. An hourly DWD file aggregated in this way has no temperature (temp, tmin, tmax) and no sunshine duration at all, because read_dwd calls them tmean and sun_h; precipitation, radiation, humidity and wind come through.", "quantifier": "all files in the format, with any gaps and order", "why_tests_cant": "all files, two modules together", "anchors": ["melodist/data_io.py:read_single_knmi_file", "melodist/data_io.py:read_dwd", "melodist/util/util.py:daily_from_hourly"]}
{"id": "C111", "title": "In floating-point arithmetic hourly temperature, wind and radiation stay within 1e-14 of the exact laws", "statement": "disaggregate_temperature, disaggregate_wind ('equal', 'cosine') and the core of disaggregate_radiation with every operation rounded (relative error u, any monotone rounding; stated also for binary64 with the nearest number to pi, an np.cos with values in [-1,1] and error at most 1e-15, and means computed by additions in any order). Rounding never changes which exception is raised or the time stamps. 'sine_min_max' values stay in the envelope of tmin and tmax up to four roundings, and in binary64 differ from the exact value by at most 1e-14 times the largest temperature involved, with or without mod_nighttime (hours of minimum and maximum between 0 and 24). With 'mean_course_min_max' the smallest value of a day is exactly tmin and the largest tmax up to two roundings. The mean of a day is the daily mean t up to 1e-14*(|t| + |tmax - tmin|) for 'sine_mean' and 'mean_course_mean'. For wind, 'equal' is exact, 'cosine' (|t_shift| <= 24 for the constants of binary64) has daily mean b*m up to 1e-14*(|a*m| + |b*m|) and is never negative if |a| <= b and m >= 0. For radiation every value is 0 or at least 0.01 (rounded), and the daily mean is at most (1 + 1e-14)*g and more than (1 - 1e-14)*g - 0.0100000000000001.", "quantifier": "all roundings / all binary64 arithmetics with an accurate cosine, all daily data", "why_tests_cant": "a bound on the error for all inputs; tests compare single values with a guessed tolerance", "anchors": ["melodist/temperature.py:disaggregate_temperature", "melodist/wind.py:disaggregate_wind", "melodist/radiation.py:disaggregate_radiation"]}
{"id": "C112", "title": "An hour is missing exactly when the data it depends on are missing", "statement": "Which hours of the disaggregated wind, humidity and radiation are missing is decided by the missing daily (and hourly) data alone, whatever the values. Wind: the hours of the days without daily value. Humidity: 'equal' where the daily value is missing; 'minimal' and 'dewpoint_regression' where tmin of the day or the hourly temperature is missing; 'linear_dewpoint_variation' also in all 24 hours of a day whose next day has no tmin; 'min_max' where one of the five quantities is missing, or tmin = tmax and (hourly temperature = tmin or hum_min = hum_max); 'month_hour_precip_mean' where the table entry is missing. Radiation: where the daily value is missing, the potential radiation (mean course) of the hour is missing, or there is no positive one that day; from sunshine duration: where the sunshine is missing on a day with positive day length; from temperature: where tmin, tmax or tmin of the next day is missing or the temperature range is negative. All this is the same with preserve_daily_mean (proved for 'min_max' on days with tmin other than tmax), also on days whose daily humidity is missing. Conditions: dew points and temperatures above 0.53 K (1.03 K with linear variation), no infinite values, exponent C of the temperature method not an integer.", "quantifier": "all daily data with missing values in any pattern, all methods and options", "why_tests_cant": "all patterns of gaps; tests use complete data", "anchors": ["melodist/wind.py:disaggregate_wind", "melodist/humidity.py:disaggregate_humidity", "melodist/radiation.py:disaggregate_radiation"]}
{"id": "C113", "title": "Errors of the daily values are not amplified", "statement": "Two runs with the same method, parameters (and random numbers) and the same missing values, whose daily data differ by at most eps: the hourly values are missing in the same hours and differ by at most: temperature eps ('sine', 'sine_min_max' with or without mod_nighttime, 'mean_course_min_max'), delta + eps ('sine_mean') or delta + 2 eps ('mean_course_mean') where delta is the difference of the daily means; wind eps ('equal'), (|a|+|b|) eps ('cosine'), (-ln u)^0.3 eps ('random', draw u of the hour); radiation eps*p/mean(p) + 0.01 with the potential p of the hour (the 0.01 because smaller values are cut to 0); humidity eps ('equal', 'min_max' with the same temperatures), 12 percent per K of error in dew point or temperature ('minimal', 'dewpoint_regression', above 230 K); precipitation eps/24 in equal parts and eps with a master station. The cascade has no such bound: a difference of 1e-12 mm in a daily value can change an hour by more than 1 mm.", "quantifier": "all pairs of daily data, all sizes of the error", "why_tests_cant": "two arbitrary runs compared; continuity cannot be tested by examples", "anchors": ["melodist/temperature.py:disaggregate_temperature", "melodist/wind.py:disaggregate_wind", "melodist/radiation.py:disaggregate_radiation", "melodist/humidity.py:disaggregate_humidity", "melodist/precipitation.py:disagg_prec_cascade", "melodist/precipitation.py:precip_master_station", "melodist/util/util.py:distribute_equally"]}
{"id": "C114", "title": "Station.interpolate with limits, directions and areas", "statement": "Daily table of consecutive days with numbers or missing values; method 'linear' or 'time', any limit, limit_direction and limit_area. Station.interpolate keeps every observation. A missing hour between two observations gets the value of the straight line through them, before the first or after the last one the value of the nearest observation, if it may be filled; otherwise it stays missing. It may be filled if an observation is at most `limit` hours before it (not with 'backward') or after it (not with 'forward'); with limit_area 'inside' only between observations, with 'outside' only there not. 'time' gives the same as 'linear'; a larger limit (or None), 'both' and no area keep all numbers and only fill more. If one of the columns is complete, 'both' with a limit of at least 23 (default 24) leaves no hour missing. A limit below 1 and unknown directions or areas raise ValueError.", "quantifier": "all daily tables, columns, hours, limits, directions and areas", "why_tests_cant": "unbounded gap lengths and all combinations of options; the limit is counted from both sides", "anchors": ["melodist/station.py:Station.interpolate", "melodist/util/util.py:prepare_interpolation_data"]}
{"id": "C115", "title": "The sun: latitude, noon, and two formulas", "statement": "get_sun_times: with the sun north of the equator days get longer towards the north, otherwise shorter. potential_radiation on a horizontal surface: of two times of the same day the one closer to solar noon has at least as much radiation, and the same holds for the hours of radiation disaggregated with it (daily value >= 0, sun up at some full hour). get_sun_times and potential_radiation use different formulas: their declinations differ by at most 1.5 degrees on every day; potential_radiation ignores the equation of time, so its noon differs from the reported solar noon, by at most 21 minutes and by more than 9 minutes on day 74 of the year.", "quantifier": "all days, sites between the poles, cloud fractions and hours", "why_tests_cant": "real-valued arguments; inequalities for all latitudes and hours", "anchors": ["melodist/util/util.py:get_sun_times", "melodist/radiation.py:potential_radiation", "melodist/radiation.py:disaggregate_radiation"]}
{"id": "C116", "title": "Humidity with a temperature that covers other hours", "statement": "disaggregate_humidity when the hourly temperature does not cover exactly the hours of the daily data: 'min_max' matches by label - the result has the labels of both, in order of time, NaN where only one has the label, and otherwise the value for the day and the temperature of the label. 'minimal' and 'dewpoint_regression' match by position: with another number of values they raise ValueError, otherwise the k-th value of the result, labelled as the temperature, is computed from the k-th temperature and the k-th hour of the daily data. 'linear_dewpoint_variation' too, with the hour of the day taken from the label of the temperature.", "quantifier": "all daily data, all temperature series with any labels (distinct ones for 'min_max')", "why_tests_cant": "the series are of any length with any labels; silent misalignment gives plausible values", "anchors": ["melodist/humidity.py:disaggregate_humidity"]}
{"id": "C117", "title": "Humidity in floating-point arithmetic", "statement": "disaggregate_humidity computed with rounded operations and the platform's exp: all values are missing or in [0, 100] whatever the arithmetic. In IEEE double precision, with exp accurate to 1e-15 and temperatures between -40 and 50 C, 'minimal' has a relative error of at most 4e-14 (290 u + 3 eps in general; for 'dewpoint_regression' relative to the humidity for the dew point as computed, which has two rounding errors), and an hour at the minimum temperature has at least (1-u)^2 100 %. 'min_max' differs by at most 7 u hum_max, gives exactly hum_max at tmin, and exactly: warmer hours are not more humid and no hour exceeds hum_max. preserve_daily_mean: if no value is cut off at 0 or 100 the mean of the 24 values differs from the observed one by at most the error of the mean computed by pandas and two roundings.", "quantifier": "all daily data, hourly temperatures, roundings with unit roundoff up to 1e-6, exp functions within a relative error", "why_tests_cant": "rounding errors depend on all operands; tests check a few values with a tolerance", "anchors": ["melodist/humidity.py:disaggregate_humidity", "melodist/util/util.py:vapor_pressure"]}
{"id": "C118", "title": "Superposition of daily records", "statement": "Three runs with the same method, parameters, sun times, courses and random numbers, the daily values of the third record being a times those of the first plus b times those of the second (the mean of two records, a record plus a correction, a change of units by a factor). Then the hourly values of the third are a times those of the first plus b times those of the second, missing exactly where one of these is missing: temperature with all five methods, wind with all methods, precipitation in equal parts and by a master station. Humidity 'equal' and 'min_max' (same temperatures, between tmin and tmax > tmin): for percentages and a weighted mean (a, b >= 0, a + b = 1). Radiation 'pot_rad' (non-negative values, potential radiation positive in some hour of the day): up to 0.01 (1 + |a| + |b|), because values below 0.01 are set to zero. The cascade is not additive: with the same random numbers the first hour gets 1 mm of a 1 mm day, but nothing of a 9 mm day or a 10 mm day.", "quantifier": "all records, coefficients, parameters and random numbers", "why_tests_cant": "a relation between three runs for all data; tests look at one run", "anchors": ["melodist/temperature.py:disaggregate_temperature", "melodist/wind.py:disaggregate_wind", "melodist/humidity.py:disaggregate_humidity", "melodist/radiation.py:disaggregate_radiation", "melodist/util/util.py:distribute_equally", "melodist/precipitation.py:precip_master_station"]}
{"id": "C119", "title": "Changes of the temperature from hour to hour", "statement": "'sine_min_max'/'sine': from one hour to the next, and from 23:00 to midnight, the temperature changes by at most pi/24 (0.131) of the difference between the maxima and minima in force (pi/24 more at midnight for every hour by which the maximum moves), except at the prescribed hour of the minimum, where the previous day's maximum is replaced and up to (1 + cos(2 pi (lo - peak)/24))/2 of the difference of the two maxima is added (0.375 of it with fixed times, from 06:00 to 07:00). With mod_nighttime there is no such jump: the changes are at most pi/2 over the number of night hours (also at midnight, if the hours of the extremes stay the same), 3 pi/8 over the number of day hours on the way up, plus 0.147 of the daily range in its first hour. 'sine_mean' jumps at midnight by the difference of the two daily means, up to the usual change and half the difference of the daily ranges.", "quantifier": "all daily data, hours of minimum and maximum, all hours", "why_tests_cant": "a bound for every pair of consecutive hours of every record; tests look at single values", "anchors": ["melodist/temperature.py:disaggregate_temperature"]}
{"id": "C120", "title": "Statistics fitted to the package's own results give the statistics back", "statement": "Hourly data made by disaggregation are statistically consistent with the tables used. If the hourly temperatures of 'mean_course_min_max' or 'mean_course_mean' with a table of normalized courses are given back to the function that computes such tables, every month with a day on which tmin < tmax gets exactly the course that was used. For radiation by 'mean_course', every month with a positive daily value gets the used course times a positive factor, provided no hourly value falls under the cut of 0.01 W/m2, and disaggregating any daily data of those months with the new table gives the same results as with the old one; an hour whose share was under the cut on every day gets 0. For humidity by month, hour and wet/dry day, the new table has exactly the categories of the record, each with the old value limited to [0, 100], if the hourly precipitation record has the same wet days. For the sine methods with 'sun_loc' and 'sun_loc_shift', the fitted distance between solar noon and the maximum of a month differs from the one used by at most half an hour (the rounding to full hours), if the maximum stays within the day.", "quantifier": "every daily record, table, station position and time zone, all methods named, any order of months and missing days", "why_tests_cant": "fitting and disaggregation are separate modules tested separately; that they invert each other is a statement about all tables and records, with conditions (months, missing days, cut-off, rounding) a test on one record does not separate", "anchors": ["melodist/temperature.py:disaggregate_temperature", "melodist/temperature.py:get_shift_by_data", "melodist/util/util.py:calculate_mean_daily_course_by_month", "melodist/radiation.py:disaggregate_radiation", "melodist/humidity.py:disaggregate_humidity", "melodist/humidity.py:calculate_month_hour_precip_mean"]}
{"id": "C121", "title": "Daily data read from files lack columns that methods of the package need", "statement": "read_dwd returns, whatever the files contain, no other columns than tmean, tmin, tmax, precip, glob, hum, wind and sun_h; read_smet in daily mode returns tmean, tmax, tmin, precip, glob, hum, wind and columns with names written in the header. Nothing is called 'temp', 'ssd' or 'hum_min'. For daily data without a column 'temp' none of the sine methods (the default included, although only 'sine_mean' uses the mean) and not 'mean_course_mean' ever return a result; with everything else in order the exception is AttributeError, and only 'mean_course_min_max' works. After such a frame has been accepted by Station.data_daily, disaggregate_temperature with every other method, disaggregate_radiation with 'pot_rad_via_ssd' (the files call it 'sun_h') and disaggregate_humidity with 'min_max' raise and store nothing.", "quantifier": "all file contents, lists of files and modes; all frames, stations, statistics, sun times and options", "why_tests_cant": "reading and disaggregation are tested separately with frames made for the test; that no file whatever leads to a usable frame is a statement about all files and all options", "anchors": ["melodist/data_io.py:read_dwd", "melodist/data_io.py:read_smet", "melodist/temperature.py:disaggregate_temperature", "melodist/station.py:data_daily", "melodist/station.py:disaggregate_temperature", "melodist/station.py:disaggregate_radiation", "melodist/station.py:disaggregate_humidity"]}
{"id": "C122", "title": "The names in melodist.Options and the column lists of the package", "statement": "Used as method of the five disaggregation methods of Station, every attribute of melodist.Options not made for the variable raises an exception and changes no stored data, in every state of the station; Options.TEMP_LINEAR is accepted nowhere, and Options.TEMP_SINE_CURVE always does the same as the default 'sine_min_max'. After every successful assignment of daily data the columns of data_disagg are exactly melodist.columns_hourly; a daily frame with exactly the columns melodist.columns_daily can be disaggregated by no temperature method except 'mean_course_min_max'.", "quantifier": "all attributes of Options, all stations, states, data and further arguments", "why_tests_cant": "the constants are used nowhere in the package and no test refers to them; that a name fails in every state is a statement about all states", "anchors": ["melodist/__init__.py:Options", "melodist/__init__.py:columns_hourly", "melodist/__init__.py:columns_daily", "melodist/station.py:disaggregate_temperature", "melodist/station.py:disaggregate_wind", "melodist/station.py:disaggregate_humidity", "melodist/station.py:disaggregate_precipitation", "melodist/station.py:disaggregate_radiation"]}
{"id": "C123", "title": "Equal distribution of daily values with gaps, or not labelled at midnight", "statement": "distribute_equally of daily values of any increasing list of days, each labelled at the same full hour H: whenever it returns, the rows are the hours of the listed days in order, those of the first day from its label on. With H = 0 every listed day has its own value in all 24 hours (its 24 hours add up to it with divide=True), also when days between are not in the record. With H > 0 an hour from H on has the value of its own day, but an hour before H has the value of the latest earlier day of the record with the same day of the month - at least 28 days before - and is missing when there is none; with divide=True the hours of such a day add up to ((24 - H)*x + H*y)/24 with x its own value and y that of the earlier day. The call returns for every record without gaps; with a gap it needs Index.to_datetime and pd.datetime, and raises AttributeError where Index.to_datetime is gone. Labels m minutes after the hour: without a gap the same result with every row m minutes later; with a gap (where the call returns) the rows are the full hours and every value is missing.", "quantifier": "all increasing lists of days, all values (missing and infinite ones too), all hours H and minutes m, both values of divide, all pandas versions described by the flags", "why_tests_cant": "the values are filled within groups of the same day of the month, so an error only shows in records longer than a month or with gaps, and depends on the calendar", "anchors": ["melodist/util/util.py:distribute_equally", "melodist/util/util.py:hourly_index"]}
{"id": "C124", "title": "The same values on other dates give the same results", "statement": "Moving all timestamps of the inputs by k whole days moves the timestamps of the result by k days and changes nothing else; a call that raises raises the same exception. This holds for disaggregate_temperature and disaggregate_radiation (any frame, sun times and potential radiation, moved alike), the cascade model (same boxes on every level, same hourly or 5-minute values) and the master station, with no condition on the index, and for wind, humidity and equal shares for records of consecutive days. Only what is looked up by month needs that every day falls into the same month as before: min_max_time 'sun_loc_shift', the mean courses of temperature and radiation, 'pot_rad_via_ssd' and 'pot_rad_via_bc', and the categorical means of humidity. get_sun_times and potential_radiation need the same day of the year. Moving by any multiple of 400 years satisfies both conditions.", "quantifier": "all daily data, options, statistics, random numbers and numbers of days k (negative ones too); wind, humidity and equal shares: all records of consecutive days", "why_tests_cant": "a dependence on the absolute date (epoch, weekday, year, leap day, the order of months) shows only for the dates where it matters; a test fixes its dates", "anchors": ["melodist/temperature.py:disaggregate_temperature", "melodist/radiation.py:disaggregate_radiation", "melodist/radiation.py:potential_radiation", "melodist/util/util.py:get_sun_times", "melodist/wind.py:disaggregate_wind", "melodist/humidity.py:disaggregate_humidity", "melodist/precipitation.py:disagg_prec_cascade", "melodist/precipitation.py:precip_master_station", "melodist/util/util.py:distribute_equally"]}
{"id": "C125", "title": "Time zone and longitude", "statement": "With the time zone s hours further east (s a whole number) potential_radiation gives, on every day, the same values s hours later on the clock, hours beyond midnight coming out at the other end of the same day; disaggregate_radiation with 'pot_rad', 'pot_rad_via_ssd' or 'pot_rad_via_bc' then gives the same hourly values at these later hours, or raises the same exception. get_sun_times reports solar noon later by any change of the time zone and the same day length, sunrise and sunset later by the change up to 24 hours. Changing the longitude by 15 degrees for every hour of the time zone changes neither sun times nor potential radiation. Adding 360 degrees to the longitude leaves potential radiation as it is, but moves the reported solar noon 24 hours earlier.", "quantifier": "all daily data of consecutive days, sites, slopes, cloud fractions, parameters of the radiation models, changes of the time zone", "why_tests_cant": "a sign error in the conversion of longitude and time zone to solar time is invisible at longitude 0 and UTC and shifts curves by some hours elsewhere; tests compare single sites", "anchors": ["melodist/radiation.py:potential_radiation", "melodist/util/util.py:get_sun_times", "melodist/radiation.py:disaggregate_radiation"]}
{"id": "C126", "title": "Rows without observations, and the order of the rows", "statement": "Statistics fitted to a table of hourly observations depend only on the recorded values. Leaving out rows in which every column is missing, and reordering the rows, changes no entry of the mean daily courses (calculate_mean_daily_course_by_month, with or without scaling), of the humidity means by month, hour and wet or dry day, and of the dew point regression: what is found in the table of the shorter record is the same in that of the longer one, and what only the longer one has is missing. The wind fit gets the same rows up to their order, so every choice of parameters has the same sum of squares. With the rows in the same order (only rows left out) the fitted wind parameters are identical for any optimiser, and so are the monthly shifts of the temperature maximum; with other orders the shift can differ when the maximum occurs twice. The daily rows used to fit the radiation models are the same if days without a value are left out of any of the four series. The cascade statistics are different: leaving out a missing hour changes which hours are paired.", "quantifier": "all tables of observations with any values (infinite ones too), any rows left out and any order of the rest; radiation: all daily series without repeated days", "why_tests_cant": "records with gaps come either with explicit missing rows or without them; a function that uses row positions, counts rows or takes first and last rows gives different results for the two, which a test with a complete record cannot show", "anchors": ["melodist/util/util.py:calculate_mean_daily_course_by_month", "melodist/humidity.py:calculate_month_hour_precip_mean", "melodist/humidity.py:calculate_dewpoint_regression", "melodist/wind.py:fit_cosine_function", "melodist/temperature.py:get_shift_by_data", "melodist/stationstatistics.py:calc_radiation_stats", "melodist/precipitation.py:build_casc"]}
{"id": "C127", "title": "Statistics of the same observations on other dates", "statement": "Let the same hourly observations be recorded any number of days later. The wind parameters and the dew point regression are the same. The mean daily courses, the humidity means by month, hour and wet or dry day, and the cascade statistics of all seasons are the same if every day of the record lies in the same month as before. The shifts of the temperature maximum and the parameters of the radiation models are the same if moreover every day has the same number within its year. This holds for the functions and for the five calc_ methods of StationStatistics: the object is left with the same statistics, and raises the same exception or none.", "quantifier": "all tables of observations with gaps, in any order of the rows, all numbers of days, all options, any optimisers that look at the values", "why_tests_cant": "tests use one record; dates entering through row labels, positions or an absolute reference date would make statistics of other years incomparable, and only show with a second record of identical values", "anchors": ["melodist/util/util.py:calculate_mean_daily_course_by_month", "melodist/humidity.py:calculate_month_hour_precip_mean", "melodist/humidity.py:calculate_dewpoint_regression", "melodist/wind.py:fit_cosine_function", "melodist/temperature.py:get_shift_by_data", "melodist/precipitation.py:build_casc", "melodist/stationstatistics.py:calc_wind_stats", "melodist/stationstatistics.py:calc_humidity_stats", "melodist/stationstatistics.py:calc_temperature_stats", "melodist/stationstatistics.py:calc_precipitation_stats", "melodist/stationstatistics.py:calc_radiation_stats"]}
{"id": "C128", "title": "Cascade statistics fitted in floating-point arithmetic", "statement": "Fitted in any rounded arithmetic in which 1 is representable, from observations that are missing or non-negative representable numbers and however percentiles are computed, all cascade statistics are non-negative numbers, and the branching probabilities and the weights of every intensity class and box type add up to 1 up to (1+u)^(levels+4) and the 1e-14 of the sample data (double precision, hourly: 1.2e-14). A cascade driven by such statistics returns on every gap-free daily series of missing or non-negative values, if no random number exceeds (1-u)^15 (1-1e-14) (double precision: 1 - 1.2e-14). The bound is needed: with statistics fitted by the package, the drawable number 1 - 2^-53 ends in UnboundLocalError. Without rounding the fit is the exact one.", "quantifier": "all arithmetics, all observations, seasons and numbers of levels, all percentile functions, all daily series, all random numbers below the bound", "why_tests_cant": "tests compare sums with a tolerance for one record; neither a failure for one random number in 10^15 nor the growth of the error with the number of levels can be seen", "anchors": ["melodist/precipitation.py:build_casc", "melodist/precipitation.py:aggregate_precipitation", "melodist/precipitation.py:disagg_prec_cascade", "melodist/cascade.py:CascadeStatistics.__add__", "melodist/cascade.py:CascadeStatistics.__mul__"]}
{"id": "C129", "title": "Precipitation disaggregation in IEEE double precision, underflow and overflow included", "statement": "In binary64 arithmetic (nearest number with 53 binary digits and multiple of 2^-1074, ties to even; nothing is assumed about results beyond 2^1023), with statistics whose entries are at most 2, a record of at most a million days with at most 1e300 mm altogether: the hourly values of disagg_prec_cascade of a day with precipitation P add up to P up to 1.4e-15 P + 1.1e-14 S + 80*2^-1074 (S: precipitation of the record); none is negative, dry days stay dry and missing days missing. The last term is needed: a day with 2^-1074 mm gets 24 zeros. distribute_equally: up to 2^-53 P + 12*2^-1074; precip_master_station: up to 3e-15 P + 12*2^-1074, whatever the order in which the master station's day is summed. For any arithmetic with relative error u, and absolute error a of products and quotients, the cascade's bound is ((1+u)^12-1) P + 96 u (1+u)^(96n+12) (S + 158 n a) + 158 (1+u)^12 a.", "quantifier": "all daily series, random numbers, statistics, all arithmetics with these error bounds", "why_tests_cant": "tests use ordinary amounts; that no amount however small or large breaks the balance, negative values never arise from underflow, and overflow cannot occur in intermediate sums are statements about all inputs", "anchors": ["melodist/precipitation.py:disagg_prec_cascade", "melodist/util/util.py:distribute_equally", "melodist/precipitation.py:precip_master_station"]}
{"id": "C130", "title": "Line ends of files", "statement": "read_smet, read_dwd (data and metadata files), read_single_knmi_file and read_knmi_dataset return the same, or fail with the same exception, whether lines end with \\n, with \\r\\n (also only some of them) or all with \\r; each of several files may have its own line ends.", "quantifier": "all texts without other carriage returns, valid or not", "why_tests_cant": "the sample files have one kind of line ends; the readers count lines in Python and skip lines in pandas, and the two counts must agree for every file", "anchors": ["melodist/data_io.py:read_smet", "melodist/data_io.py:read_dwd", "melodist/data_io.py:read_single_knmi_file", "melodist/data_io.py:read_knmi_dataset"]}
{"id": "C131", "title": "5-minute precipitation in floating-point arithmetic", "statement": "With binary64 rounding of every operation (underflow included, anything on overflow) and hourly=False, level 1 to 11, the 5-minute values of a day with precipitation P up to 1e300 mm add up to P within 4e-15 P + 2048*2^-1074, whatever the precipitation of the other days (unlike with hourly output); no value is negative; those of dry days are exactly 0, those of missing days NaN; with levels 9 to 11 every day has 288 values. This holds whether pandas adds the numbers of a bin one after the other or with compensation.", "quantifier": "all records of binary64 numbers that are not negative, with or without missing days; all levels; all random draws; all statistics with entries at most 2; all calls that return", "why_tests_cant": "tests use a tolerance and a few days; errors of up to 11 levels and of the sums of bins that straddle boxes accumulate", "anchors": ["melodist/precipitation.py:disagg_prec_cascade"]}
{"id": "C132", "title": "The side of the sun on slopes", "statement": "Direct potential radiation on a slope, with the sun above the horizon, is 1367*R*(0.6+0.2c)*(1-k) times the scalar product (0 if negative) of the normal of the slope with the direction of the sun whose component towards the south (azimuth 0) has been replaced by its absolute value; diffuse radiation does not depend on the slope. So it is right while the sun is south of the east-west line: always in the northern winter half-year, and at noon at 23.43697 N or more. While the sun is in the north (mornings and evenings of the northern summer half-year, noon south of 23.43697 S) the value is that of a slope with azimuth pi - azimuth: at noon in the southern hemisphere a north slope at least as steep as the sun is high gets no direct radiation though the sun shines on it, and a south slope gets what belongs to the north slope.", "quantifier": "all dates, sites, slopes, azimuths and cloud fractions up to 1; exact arithmetic", "why_tests_cant": "the arcsine silently picks one of two azimuths; whether this is right depends on a relation between latitude, date and time of day that sampled sites north of the tropic do not reveal", "anchors": ["melodist/radiation.py:potential_radiation"]}
{"id": "C133", "title": "The normalised mean course in floating-point arithmetic", "statement": "calculate_mean_daily_course_by_month(normalize=True) with every operation rounded (gradual underflow included) and however pandas computes the means of the groups: if two hours of a month have different computed means, every entry of the month is missing exactly where the mean is, or between 0 and 1; 0 and 1 are attained exactly (no value like 1.0000000000000002); a larger mean never gets a smaller entry. If the computed means are all equal, every entry is NaN. If the computed means have errors of at most d and the true means span D > 2d, every entry has an error of at most 4d/(D-2d) and three roundings. With a course fitted in this way 'mean_course_min_max' gives tmin exactly and tmax up to two roundings.", "quantifier": "all hourly records of numbers and missing values; all monotone roundings with relative error u (and underflow a) that keep 1; all ways to compute means; binary64 as an instance", "why_tests_cant": "division and subtraction could round to values outside [0,1] or to 0/0; a test sees only the data it uses", "anchors": ["melodist/util/util.py:calculate_mean_daily_course_by_month"]}
{"id": "C134", "title": "Potential radiation in floating-point arithmetic", "statement": "potential_radiation in IEEE double precision, in the order of operations of the code, with trigonometric functions that have an error of at most 1e-15: on a horizontal surface each value is missing, or a number >= 0 within 1e-10 W/m2 of the exact value, 0 once the sine of the solar height is below -1e-13 and positive once it is above 1e-13. On slopes the direct part is missing, or a number >= 0 within 0.0004 W/m2 of the exact one (the arcsine loses half of the digits when the sun is near the east-west line), and the diffuse part a number >= 0 within 1e-10 W/m2. A value can be missing (a cosine rounded above 1, or a sine of the azimuth rounded beyond 1) only while the component of the direction of the sun to the north or south is below 1e-6.", "quantifier": "all dates, longitudes in [-360,360], latitudes in [-90,90], time zones in [-16,16], slopes, azimuths in [-7,7] rad, cloud fractions in [0,1]; all libraries with that error", "why_tests_cant": "rounding can push the argument of arccos or arcsin beyond 1; whether it does for some date and site cannot be excluded by samples", "anchors": ["melodist/radiation.py:potential_radiation"]}
{"id": "C135", "title": "Sun times in floating-point arithmetic", "statement": "get_sun_times in IEEE double precision, in the order of operations of the code, with trigonometric functions that have an error of at most 1e-15 (a relative one for the tangent): at every latitude, the poles included, sun rise, noon, set and day length are numbers, never missing; the day length lies in [0, 24 + 1.3e-13]; noon is within 4e-14 h of the exact value, and if it lies on the clock so do rise and set. Up to 89.9 degrees latitude the day length is within one second of the exact one and rise and set within half a second on the clock (the arccosine loses half of the digits at the limits of polar night and midnight sun); up to 60 degrees within 1e-12 h. Polar night (sine of the solar altitude below -3e-10 all day) gives a day length of exactly 0, midnight sun (above 3e-10) 24 h up to 1.3e-13.", "quantifier": "all dates, longitudes in [-360,360], all latitudes (accuracy: up to 89.9 degrees), time zones in [-16,16]; all libraries with that error", "why_tests_cant": "rounding can push the argument of arccos beyond 1 or the sun rise to the other side of midnight; samples cannot exclude a missing value at some date and site", "anchors": ["melodist/util/util.py:get_sun_times"]}
{"id": "C136", "title": "Expected precipitation of the cascade", "statement": "With independent uniform random numbers and proper statistics (probabilities adding up to at most 1, weights adding up to 1) the cascade succeeds with probability 1, and given all levels before, the first half of a box gets on average the share P(1/0) + (1 - P(0/1) - P(1/0)) * (mean of the class centres under the weight histogram) of its amount, the second half the rest, with the entries of the level's statistics for the class and type of the box. So if the shares lie between a and b, the expected amount of a box of level l lies between a^l and b^l times its day's amount, and the expected amount of every hour of hourly output between 32 a^5 and 32 b^5 times a 24th of the day's amount. For statistics that treat the two halves alike (P(0/1) = P(1/0), symmetric histograms) every hour gets on average a 24th of its day within 0.03 %; the deviation comes from the class limits in the code, which are rounded to four digits.", "quantifier": "all records of at least two days with non-negative or missing amounts, all proper statistics, all levels; expectations on any probability space", "why_tests_cant": "an expectation over all random numbers; simulations only estimate it, and the bias by the rounded class limits is far below sampling noise", "anchors": ["melodist/precipitation.py:disagg_prec_cascade"]}
{"id": "C137", "title": "Wet periods separated by a dry day are disaggregated independently", "statement": "With independent uniform random numbers and proper statistics, the precipitation that the cascade gives to the days before a dry (or missing) day and to the days after it is statistically independent, at all levels and in the hourly output: any joint event has the product of the probabilities, and each side has exactly the probabilities it has when the record is cut at the dry day. So what lies beyond a dry day does not change the law of the results, although it changes the random numbers that are used.", "quantifier": "all records with a dry or missing day that has at least one day on each side, all proper statistics, all levels, all events", "why_tests_cant": "a statement about all joint probabilities; the code draws the random numbers level by level over the whole record, so equal seeds do not even give equal values for the two records", "anchors": ["melodist/precipitation.py:disagg_prec_cascade"]}
{"id": "C138", "title": "Errors of coordinates, time zone and clock have bounded effects on sun times and potential radiation", "statement": "On the same day of the year, potential radiation on a horizontal surface of two sites (or at two times) differs by at most 24.8 W/m2 per degree of latitude plus 371 W/m2 per hour of solar time, that is 24.8 W/m2 per degree of longitude. The noons reported by get_sun_times differ by exactly one hour per 15 degrees of longitude and per hour of time zone; up to 60 degrees latitude the day length changes by at most 27 minutes per degree of latitude, and sunrise and sunset (on the 24 hour clock) by at most the shift of noon plus half of that.", "quantifier": "all pairs of sites and times on the same day of the year with the sun not exactly in the zenith (radiation), all pairs of sites up to 60 degrees latitude (day length, rise, set), all cloud fractions", "why_tests_cant": "continuity bounds over all pairs of coordinates; a test compares particular pairs, and the branches for the clock and for clipped arccosines hide jumps between tested points", "anchors": ["melodist/radiation.py:potential_radiation", "melodist/util/util.py:get_sun_times"]}
{"id": "C139", "title": "The dew point in floating-point arithmetic, and its jump at the freezing point", "statement": "In IEEE double precision, with np.exp and np.log accurate to a relative error of 1e-15, dewpoint_temperature is within 2e-12 K of the exact formula for all temperatures between -40 and 50 degrees Celsius that are doubles and all humidities between 1 and 100 %; the dew point of saturated air is the temperature up to 3e-12 K, and never above it by more than that. The formula itself jumps at 273.15 K: at 50 % humidity, air slightly below the freezing point has a dew point more than 1 K above that of air at the freezing point.", "quantifier": "all doubles between 233.15 and 323.15 K, all humidities between 1 and 100 %, all implementations of exp and log of that accuracy; for the jump all temperatures in the hundredth of a degree below 273.15 K", "why_tests_cant": "an error bound over all floating-point inputs, through two branches chosen by a comparison with a literal that is not a double; a test sees single temperatures and misses the jump unless it looks on both sides of 273.15", "anchors": ["melodist/util/util.py:dewpoint_temperature", "melodist/util/util.py:vapor_pressure"]}
{"id": "C140", "title": "The length of dry spells does not change the disaggregation of wet days", "statement": "With the same random numbers, two records that agree before and after a dry spell, but in which the spell lasts a different number of days, are disaggregated to the same values on the days before and on the days after it (the latter shifted by whole days). Dry days in front of or behind a record of at least two days change nothing in between. A run needs at most 62 random numbers per wet day for hourly values (2 * (2^L - 1) for L levels) and none for dry days: sources of random numbers that agree that far give the same result.", "quantifier": "all records with missing or non-negative values, all lengths of the spell (at least one day), all statistics, random numbers, levels (hourly and 5 minutes), all amounts in exact arithmetic", "why_tests_cant": "compares pairs of runs over all records and all lengths; tests fix the seed and the record, and a random number drawn for a dry box or a neighbour taken across the gap changes only the later days", "anchors": ["melodist/precipitation.py:disagg_prec_cascade"]}
{"id": "C141", "title": "The cascade on records with missing dates or rows out of order", "statement": "disagg_prec_cascade on a record of distinct dates: with increasing dates, gaps or not, every date keeps its own total whenever the call returns (24 non-negative hours, or 24 missing ones if the daily value is missing), and no hours of other dates are added; the two days on both sides of a gap are treated as neighbours, i.e. the values are those of a gap-free record with the same rows. With usable statistics a record with a gap raises AttributeError on current pandas (hourly: no Index.to_datetime; 5 minutes: no pd.datetime) and returns on old pandas. In 5-minute output the dates in the gap come out as dry days (288 zeros). Rows that are not in chronological order are not noticed: the k-th date in chronological order gets the rain of the k-th row.", "quantifier": "all lists of distinct dates in any order, all values, statistics, random numbers, levels 1 to 11 (exact arithmetic)", "why_tests_cant": "tests use complete records in order; the result silently depends on the order of the rows, on the pandas version and on the kind of output", "anchors": ["melodist/precipitation.py:disagg_prec_cascade", "melodist/precipitation.py:sub_level_index", "melodist/util/util.py:hourly_index"]}
{"id": "C142", "title": "How often boxes and hours are wet in the cascade", "statement": "Given the levels before, the first half of a wet box of the cascade is wet with probability 1 - P(0/1), the second with probability 1 - P(1/0), both with probability 1 - P(0/1) - P(1/0) (the probabilities of the level's statistics for the box's class and type); the halves of a dry box are dry. Hence, if 1 - P(0/1) and 1 - P(1/0) lie between A and B, a box after l splits of a day with precipitation is wet with a probability between A^l and B^l; if 2 - P(0/1) - P(1/0) lies between a and b, the expected number of wet boxes of the day after l splits lies between a^l and b^l (0 on days that are dry or missing), and with hourly output the expected number of wet hours between 3/4 a^5 and the smaller of 24 and 2 b^5; each single hour is wet with a probability between A^5 and 2 B^5.", "quantifier": "all daily records of at least two days, all statistics with usable probabilities, all levels 1 to 11, independent uniform random numbers (exact arithmetic)", "why_tests_cant": "the number of wet hours is the statistic users look at first; tests see single random runs, not the distribution", "anchors": ["melodist/precipitation.py:disagg_prec_cascade"]}
{"id": "C143", "title": "Cascade statistics fitted to the cascade's own output are unbiased", "statement": "Let aggregate_precipitation be applied to the boxes of a level of a cascade run (with hourly output the first level consists of the sums of twelve hours of the result). If the percentile of the wet parent boxes separates them like the threshold used by the run and every class and type occurs among them, then given the levels before the fit succeeds with that percentile as threshold, the fitted P(0/1), P(1/0), P(x/x) and the products of P(x/x) with the ratio frequencies have as expected values exactly the probabilities the run used; the squared errors of P(0/1), P(1/0) and P(x/x) are P(1 - P)/N on average with N the number of boxes of the class and type, so an error of at least e has at most the probability P(1 - P)/(N e^2).", "quantifier": "all daily records of at least two days, all statistics with usable probabilities, all levels, all percentiles, independent uniform random numbers (exact arithmetic)", "why_tests_cant": "that fitting and disaggregation use the same convention for classes, types, thresholds and ratios shows only in averages over all random outcomes", "anchors": ["melodist/precipitation.py:disagg_prec_cascade", "melodist/precipitation.py:aggregate_precipitation"]}
{"id": "C144", "title": "Station.interpolate with the other methods of pandas", "statement": "Daily table of consecutive days; any limit, limit_direction and limit_area. Station.interpolate keeps every observation with every method. A missing hour that limit, direction and area allow to fill gets: with 'index' the same value as with 'time'; with 'nearest' the nearer one of the two neighbouring observations (the earlier one in the middle); with 'zero' the earlier one; with 'slinear' the value of the straight line; with another kind of interp1d (e.g. 'cubic') the value of the curve through the observations; with 'pad' the last and with 'backfill' the next observation. With 'nearest', 'zero', 'slinear' and splines the hours before the first and after the last observation stay missing. With all these methods except splines the hours stay within the range of the observations; 'cubic', the method named in the docstring, can give hours warmer than every daily maximum. 'pad' and 'backfill' raise ValueError unless limit_direction is 'forward' or 'backward', in particular with the default; splines raise ValueError exactly if there are observations and gaps, but fewer observations than the method needs.", "quantifier": "all such tables, all assignments of hours to columns, all limits, directions and areas, all curves", "why_tests_cant": "patterns of gaps combined with options and methods of pandas; the station's tests use the default method only", "anchors": ["melodist/station.py:Station.interpolate", "melodist/util/util.py:prepare_interpolation_data"]}
{"id": "C145", "title": "What the tests of the package check, for all records", "statement": "The comparisons of /repo/tests are np.allclose(daily, total or mean of the day, atol=1e-3, equal_nan=True) on one record. In double precision, with any summation and averaging whose error is at most 1e-12 relative and absolute (e.g. additions from left to right), they hold for all records: wind 'equal' and humidity 'equal' (daily values in [0, 100]) pass, missing days included; precipitation 'equal' passes on a day exactly if the day is not missing (the sum of no values is 0); the hourly and 5-minute cascades pass on every day with an observation; temperature 'sine_mean' and 'mean_course_mean' return numbers with the daily mean and range, 'mean_course_min_max' numbers with the daily minimum and maximum; radiation returns numbers that are 0 whenever the potential radiation is 0 and passes if at most two sunny hours fall below the cut of 0.01 W/m2. They do not hold where the record is different: a day of at least 0.0012 W/m2 whose hours all fall below the cut is all 0 and fails, and the assertion that daily means are not below the smallest daily minimum fails if tmin = tmax = 0.7.", "quantifier": "all records of consecutive days of numbers and missing values (temperatures and radiation up to 10^6, cascade: up to 10^6 days and 10^10 mm in total), all methods of summation with that accuracy, all draws", "why_tests_cant": "this is what the tests check on a single record; for other records and orders of summation they give no evidence", "anchors": ["melodist/wind.py:disaggregate_wind", "melodist/humidity.py:disaggregate_humidity", "melodist/util/util.py:distribute_equally", "melodist/precipitation.py:disagg_prec_cascade", "melodist/temperature.py:disaggregate_temperature", "melodist/radiation.py:disaggregate_radiation"]}
{"id": "C146", "title": "Radiation from sunshine duration and from temperatures in floating-point arithmetic", "statement": "In double precision, with any order of additions in daily and monthly means: the Ångström model returns (a + b s/L) p up to a relative 1e-15 of (|a| + |b s/L|)|p| and a missing value where an input is missing. 'pot_rad_via_ssd' succeeds, every hour of a day with sunshine duration x and day length l > 0 is (a + b x/l) times its potential radiation up to 1e-15 relative, then set to 0 if below 0.01; days without observation are missing, days of length 0 are 0. 'pot_rad_via_bc' succeeds, and on a day with a temperature range r every hour is A (1 - exp(-0.036 exp(-0.154 m) r^C)) times its potential radiation up to 1e-8 A times the potential radiation (m the mean range of the calendar month over all years), cut at 0.01; a day without a range is missing. Whatever the temperatures, an hour is missing, 0, or between 0.01 and (1 + 1e-15) A times its potential radiation. With exact operations these are the functions of C58 and C59.", "quantifier": "all records of consecutive days (Bristow-Campbell accuracy: up to 100000 days, temperatures up to 400 in absolute value, ranges between 0 and 100, A >= 0, C in [1, 10]), all parameters as numbers or by month, all potential radiation >= 0 that is not 0 all day, all exp and pow with relative errors 2^-52 and 2^-50 (absolute 2^-1000 at underflow)", "why_tests_cant": "tests compare a few values computed by the same floating-point code; the effect of rounding in a mean of thousands of ranges inside two exponentials is not visible there", "anchors": ["melodist/radiation.py:angstroem", "melodist/radiation.py:bristow_campbell", "melodist/radiation.py:disaggregate_radiation"]}
{"id": "C147", "title": "Station files in floating-point arithmetic", "statement": "Numbers of files are read as doubles that differ from the decimal number by a relative 2^-50 at most (integers are exact). An hourly frame written with write_smet and read with read_smet comes back with the same times and columns and every value rounded to two decimals up to a relative 2^-50; exactly the missing values and the values printed as -999.00 are missing (default code). Writing what was read, with the header that was read, gives the same file, character by character. read_single_knmi_file returns humidity exactly, precipitation (never negative), wind and sunshine up to 2^-53 relative, radiation up to 2^-51 relative and temperature up to 2^-49 (|T| + 274) of the exact conversion. read_dwd of one file returns missing values exactly for empty fields and -999, other values up to 2^-50 relative, temperatures up to 2^-49 (|T| + 274). With exact operations these are the functions of C71, C74 and C75.", "quantifier": "all frames and files that C71, C74 and C75 accept, with numbers up to 1e9 in absolute value (SMET; same file: none printed as -0.00), integers of at most nine digits (KNMI), at most 15 characters and nine decimals (DWD); all ways of reading numbers with these errors, so whatever float_precision of pandas does within them; all layouts", "why_tests_cant": "tests read one file per format; that a second write reproduces the first file for all values, and that no other value is ever taken for the code -999, needs all numbers", "anchors": ["melodist/data_io.py:write_smet", "melodist/data_io.py:read_smet", "melodist/data_io.py:read_single_knmi_file", "melodist/data_io.py:read_dwd"]}
{"id": "C148", "title": "Averages over many days of cascade output come close to their expectations", "statement": "With independent uniform random numbers and proper statistics, the hourly values of days that are separated by dry (or missing) days are jointly independent. So the sum over N such days of any quantity of a day with values between a_k and b_k deviates from its expectation by eps or more with probability at most 2 exp(-2 eps^2 / sum (b_k - a_k)^2). In particular the precipitation of one hour of the day added up over the days stays within the bounds of C136 up to eps except with probability at most 2 exp(-2 eps^2 / sum x_k^2); for balanced statistics and equal daily amounts x the mean of every hour of the day is x/24 within 0.03 % and delta x, and the share of days on which an hour is wet stays within the bounds of C142 up to delta, except with probability at most 2 exp(-2 N delta^2), which tends to 0 for long records. So differences between the hours in a long record come from the statistics, not from the draws.", "quantifier": "all records with N days separated by dry or missing days, all proper statistics, all quantities of a day, all N, eps and delta; on any probability space with independent uniform random numbers", "why_tests_cant": "a test sees one seed and one record; independence of all days together and a bound that holds for every length of the record concern the law of the results", "anchors": ["melodist/precipitation.py:disagg_prec_cascade"]}
{"id": "C149", "title": "Daily values of an hourly record are accurate in floating-point arithmetic", "statement": "daily_from_hourly computed in double precision, for records with missing values and up to a million rows per day, with sums added one after the other or with the compensated summation of pandas: daily minima and maxima are exactly the smallest and largest value of the day; the mean of the N values of a day is off by at most (N + 9) 2^-53 times the mean of their absolute values, and daily precipitation and sunshine hours by (N + 9) 2^-53 times the sum of the absolute values; days without values have no mean. So the total of non-negative amounts is never negative and is 0 only if every amount is 0 (a wet day does not become dry), the mean lies between minimum and maximum up to (N + 9) 2^-53 times the largest absolute value, and a mean of values between whole numbers, such as humidity between 0 and 100, stays exactly between them when added one after the other. The compensated sum is even off by no more than 7 * 2^-53 of the sum of absolute values whatever the number of values.", "quantifier": "all well-formed frames with any of the columns temp, precip, glob, hum, wind, ssd, any values or missing values, any irregular time steps with at most a million rows per day", "why_tests_cant": "tests compare daily values of a few records with a tolerance; the error of a sum depends on all values and their order, and the bound holds for all of them", "anchors": ["melodist/util/util.py:daily_from_hourly"]}
{"id": "C150", "title": "Statistics methods called without the data they need", "statement": "A StationStatistics object without hourly data: every calc_* method raises an exception (TypeError for humidity, AttributeError for the others) and leaves the object as it was, except that calc_precipitation_stats has already stored the months of the failing call beside the statistics of earlier seasons. If the data lack a column the method reads, wind, temperature and radiation raise AttributeError without a change; calc_precipitation_stats raises KeyError with the months already stored; calc_humidity_stats raises KeyError without a change if temp or hum is missing, but if only precip is missing it raises AttributeError after the regression parameters have been replaced, so that new parameters stand beside the old table of means. Empty lists: a first season without months raises UnboundLocalError, no seasons at all give empty statistics without an exception. Conversely a call that raises nothing had all the columns it reads.", "quantifier": "all states of the object, all data without the column, all arguments of the methods", "why_tests_cant": "tests use complete data; what remains in the object after an exception depends on the state before and on the method, and users who catch the exception go on with it", "anchors": ["melodist/stationstatistics.py:StationStatistics.calc_precipitation_stats", "melodist/stationstatistics.py:StationStatistics.calc_humidity_stats", "melodist/stationstatistics.py:StationStatistics.calc_temperature_stats", "melodist/stationstatistics.py:StationStatistics.calc_wind_stats", "melodist/stationstatistics.py:StationStatistics.calc_radiation_stats"]}
{"id": "C151", "title": "Tables of means in floating-point arithmetic", "statement": "calculate_month_hour_precip_mean in double precision, for records of up to a million rows with non-negative precipitation, whether sums are added one after the other or with compensation: the categories (month, hour, wet or dry day) are exactly those of exact arithmetic in the same order, so no wet day counts as dry or the other way round, however small its amounts are; every mean is that of the humidity observations of its category up to (N + 9) 2^-53 of the mean of their absolute values. Hourly humidity disaggregated with such a table from observations between 0 and 100 % differs from that of exact arithmetic by at most (N + 9) 2^-53 * 100, lies between 0 and 100 and is missing exactly where that is. The mean daily course by month has the months and hours of exact arithmetic and entries with the same accuracy.", "quantifier": "all hourly records of at most a million rows with non-negative or missing precipitation and any humidity, temperature or radiation; all daily records whose categories occur in the table", "why_tests_cant": "the wet/dry decision is a comparison of a rounded sum with 0, and a test sees only few sums", "anchors": ["melodist/humidity.py:calculate_month_hour_precip_mean", "melodist/util/util.py:calculate_mean_daily_course_by_month"]}
{"id": "C152", "title": "The dew point regression in floating-point arithmetic", "statement": "The line fitted by linregress to n points (n up to 300000) in double precision, whatever the order of additions: if |x| <= X, |y| <= Y and the variance v of the x values is at least 8 E X^2 with E = (3 n + 16) 2^-53, slope and intercept are numbers, the slope differs from that of exact arithmetic by at most 9 E (X Y + |a1| X^2) / v, and the intercept by at most 2 E (Y + |a1| X) + 3 X times this. Changing the y values by at most e changes the exact slope by at most e / sqrt(v) and the intercept by at most e (1 + X / sqrt(v)). Together: calculate_dewpoint_regression from hourly observations between -40 and 50 degrees C and 1 and 100 % (any of them missing, at most 288 rows a day), with np.exp and np.log accurate to 1e-15 and a variance v of the daily minimum temperature of at least 1 K^2, returns a slope within 10^6 E (2 + |a1|) / v + 1.4e-11 and an intercept within 1.2 * 10^9 E (2 + |a1|) / v + 5e-9 of those of exact arithmetic. The temperature next to 273.15 K, where the dew point formula jumps, is excluded.", "quantifier": "all lists of points with enough variance; all frames of observations in these ranges; all orders of summation and all elementary functions of this accuracy", "why_tests_cant": "the error bound of a division of two nearly cancelling sums holds for all samples; a test compares a few samples with another floating-point result", "anchors": ["melodist/util/util.py:linregress", "melodist/humidity.py:calculate_dewpoint_regression"]}
{"id": "C153", "title": "Hours of the temperature extremes in floating-point arithmetic", "statement": "get_shift_by_data in double precision, for any record of at most N (up to a million) days and any order of additions, has entries for the months of exact arithmetic; the mean shift of a month is missing where that of exact arithmetic is and otherwise differs from it by at most (N + 16) 1e-14 hours. Latitudes up to 60 degrees: the hours of the daily minimum and maximum that disaggregate_temperature derives from computed sun times and computed shifts ('fix', 'sun_loc', 'sun_loc_shift') are exactly the hours of exact arithmetic, unless a sunrise or solar noon of exact arithmetic is within 1e-12 hours of midnight or of a half hour, or (for 'sun_loc_shift') the sum of solar noon and shift is within (N + 22) 1e-14 hours of a half hour. Then the sine methods give with computed sun times and shifts exactly the hourly temperatures they give with those of exact arithmetic: rounding of the sun times has no effect on the result, not even in the last digit, and the special branch for days shorter than 3 hours is not taken.", "quantifier": "all hourly records, places up to 60 degrees (shifts: all places), time zones, daily frames and methods with these properties; all orders of summation and all elementary functions of this accuracy", "why_tests_cant": "rounding to full hours is discontinuous; that an error of the last digits never moves an hour outside tiny intervals is a statement on all dates and places", "anchors": ["melodist/temperature.py:get_shift_by_data", "melodist/temperature.py:disaggregate_temperature", "melodist/util/util.py:get_sun_times"]}
{"id": "C154", "title": "Slightly different cascade statistics", "statement": "The cascade depends on the probabilities and weights of its statistics only through the side on which random numbers lie: for n days and L levels and two sets of statistics with the same thresholds, disagg_prec_cascade gives the same result (all levels, the series, or the same exception), if none of the first 2 n (2^L - 1) random numbers lies between corresponding limits, i.e. the values of P(0/1), of P(0/1) + P(1/0) or of a cumulative weight. If all probabilities and weights differ by at most e, runs with the same independent uniform random numbers differ with a probability of at most 2 n (2^L - 1) 248 L e; for statistics that are probability distributions the expected precipitation of every hour of a day with the amount x changes by at most 76880 n e x.", "quantifier": "all daily series, all pairs of statistics (one set or one per level) with the same thresholds, numbers of levels, hourly or not, shifts; expected values: series of consecutive days without negative values", "why_tests_cant": "statistics written with a few digits (JSON, tables of a publication) are compared for all series and all random numbers; a test compares single runs", "anchors": ["melodist/precipitation.py:disagg_prec_cascade", "melodist/cascade.py:CascadeStatistics"]}
{"id": "C155", "title": "Random wind speeds in floating-point arithmetic", "statement": "disaggregate_wind with method 'random' in double precision, for the numbers np.random.rand can return (multiples of 2^-53 from 0 to 1 - 2^-53): a number u > 0 gives an hour of a day with mean m the value m (-ln u)^0.3 of exact arithmetic up to 5e-15 of it; for m > 0 that is never less than 1.62e-5 m or more than 2.95 m. A number 0 gives an infinite value for m > 0 and a missing one for m = 0. Of the 2^53 numbers for an hour, the share that gives a wind above x m (x >= 0) is exp(-x^(1/0.3)) up to 5e-14, whatever the other numbers.", "quantifier": "all daily series of consecutive days, all random numbers of the generator, all logarithms and powers accurate to 1e-15", "why_tests_cant": "the one bad number of 2^53 and the bounds of the values are not met in test runs; the distribution concerns all numbers", "anchors": ["melodist/wind.py:disaggregate_wind"]}
{"id": "C156", "title": "Loaded tables with the remaining methods", "statement": "With tables that were saved to and loaded from a statistics file (10 decimals) the methods left out in C107 work like with the original tables. Temperature with 'sun_loc_shift': exactly the same hourly values or the same exception, if no sum of solar noon and shift is within 5e-11 hours of a half hour. Radiation, unless exactly one of the two values was cut to 0 (then the other is less than 0.01 plus the bound): 'mean_course' differs by at most 25 * 5e-11 |g| / M for a daily value g and a month of non-negative course values with mean M >= 1e-10, and is missing for a missing daily value; 'pot_rad_via_ssd' with monthly parameters differs by at most 5e-11 q (1 + |x| / l) for potential radiation q, sunshine x and day length l > 0; 'pot_rad_via_bc' differs by at most 5e-11 q (1 + |A| |ln r|) for a temperature range r > 0 and parameters A and C >= 1e-10, and both values are 0 for r = 0.", "quantifier": "all daily series of consecutive days, all tables, sun times and potential radiation", "why_tests_cant": "a bound for all tables and data; the hour of the maximum can jump by one for sums near a half hour, which tests do not meet", "anchors": ["melodist/stationstatistics.py:StationStatistics.from_json", "melodist/temperature.py:disaggregate_temperature", "melodist/radiation.py:disaggregate_radiation"]}
{"id": "C157", "title": "Linear interpolation in floating-point arithmetic", "statement": "Station.interpolate with method 'linear' in double precision, with any limit, direction and area: it raises exactly the exceptions of exact arithmetic; otherwise it returns the same hours with values missing at the same hours, keeps every daily value at its hour exactly, and for daily values of size at most B every value is within 2e-15 B of the value of exact arithmetic (C13, C114; fewer than 2^53 hours). If all daily values that are not missing are one number, the result is exactly that number wherever it is not missing.", "quantifier": "all daily tables without infinite values, all columns, hours and options", "why_tests_cant": "a bound over all records; a test compares single values with a tolerance", "anchors": ["melodist/station.py:Station.interpolate", "melodist/util/util.py:prepare_interpolation_data"]}
{"id": "C158", "title": "Columns a method does not read have no effect", "statement": "Two daily frames with the same index that have the same content in the columns a method reads give the same hourly values or the same exception, whatever other columns they have and in whatever order. The columns read are: temperature 'mean_course_min_max' tmin, tmax, the other methods tmin, tmax, temp; humidity 'equal' hum, the three dew point methods tmin, 'min_max' hum_min, hum_max, tmin, tmax, 'month_hour_precip_mean' precip, and hum for the preservation of daily means; radiation 'pot_rad' and 'mean_course' glob, 'pot_rad_via_ssd' ssd, 'pot_rad_via_bc' tmin, tmax; precipitation precip; interpolation the columns named by the caller. For whole programs: if two programs differ only in the frames assigned to data_daily and these agree on the eleven known columns (the ones above, wind, and tmean which is only checked for plausibility), the statements raise the same exceptions and leave the same hourly results, statistics, coordinates and sun times.", "quantifier": "all frames (regular or not, valid or not), all methods, options and parameters, all programs of station operations from all states", "why_tests_cant": "quantifies over all pairs of inputs and over whole programs; one column read by mistake on one path (an error path, the plausibility check, a reindexing) would break it", "anchors": ["melodist/temperature.py:disaggregate_temperature", "melodist/humidity.py:disaggregate_humidity", "melodist/radiation.py:disaggregate_radiation", "melodist/precipitation.py:disagg_prec", "melodist/station.py:Station.data_daily", "melodist/station.py:Station.interpolate"]}
{"id": "C159", "title": "Columns the statistics do not read have no effect", "statement": "The statistics methods depend only on the columns they name: calc_precipitation_stats on precip, calc_wind_stats on wind, calc_humidity_stats on temp, hum and precip, calc_temperature_stats on temp, calc_radiation_stats on glob and on ssd, tmin, tmax of its daily data. Two statistics objects with the same parameters and coordinates, whose hourly data have the same index and the same content in these columns, raise the same exception or have the same parameters afterwards, whatever other columns the data have and in whatever order, and however scipy's optimisers behave. Two histories of calls (assignments of data included) that differ only in other columns raise the same exceptions and end with the same parameters. daily_from_hourly of two hourly frames that agree on temp, precip, glob, hum, wind and ssd returns the identical daily frame, the order of its columns included.", "quantifier": "all frames (regular or not, valid or not), all arguments, all histories of calls from all states", "why_tests_cant": "quantifies over all pairs of inputs and all histories; calc_precipitation_stats changes the data of the object, so a later call could see another column", "anchors": ["melodist/stationstatistics.py:StationStatistics.calc_precipitation_stats", "melodist/stationstatistics.py:StationStatistics.calc_humidity_stats", "melodist/stationstatistics.py:StationStatistics.calc_radiation_stats", "melodist/util/util.py:daily_from_hourly"]}
{"id": "C160", "title": "How concentrated the precipitation of a day is in the cascade", "statement": "With independent uniform random numbers and statistics that are probabilities, for every r = 1, 2, ...: (a) given the levels before, the expected r-th power of the amount in the first half of a box with the amount y is y^r times P(1/0) + (1 - P(0/1) - P(1/0)) * (mean r-th power of the weight), that of the second half y^r times P(0/1) + (1 - P(0/1) - P(1/0)) * (mean r-th power of 1 - weight). (b) If these factors lie between α and β for all levels, classes and types, the expected r-th power of a box of level l lies between α^(l+1) and β^(l+1) times the r-th power of the daily amount x. (c) If the factors of the two halves add up to a number between a and b, the expected sum of the r-th powers of the boxes of a level of a day lies between a^(l+1) x^r and b^(l+1) x^r, and one of these boxes gets u or more with a probability of at most b^(l+1) (x/u)^r. (d) With hourly output the expected sum of the r-th powers of the hours of the day is at most 3/4 (4/3)^r b^5 x^r, and some hour gets u or more with a probability of at most 3/4 b^5 (4/3 x/u)^r. (e) If both halves of a wet box are wet with a probability of at least δ, some hour gets u or more with a probability of at most 4/3 (1 - 13/98 δ)^5 (x/u)^2.", "quantifier": "all daily series (missing and dry days included), all statistics, all levels, boxes and hours, all powers and thresholds", "why_tests_cant": "statements about the distribution of the output; a finite number of runs gives estimates only", "anchors": ["melodist/precipitation.py:disagg_prec_cascade", "melodist/cascade.py:CascadeStatistics"]}
{"id": "C161", "title": "Spread, averages and daily maxima of random wind speeds", "statement": "disaggregate_wind 'random' with independent uniform random numbers, on days whose daily mean is a number m: the expected p-th power of an hourly value is Gamma(1 + 0.3 p) m^p for p = 0, 1, 2, ... (p = 3: wind power). The variance of an hourly value is (Gamma(1.6) - Gamma(1.3)^2) m^2, where the factor is not negative and less than 0.21. On n days with means m_i the mean of all hourly values deviates by ε or more from Gamma(1.3) times the mean of the daily values with a probability of at most 0.21 Σ m_i^2 / (24 n^2 ε^2). On a day with m > 0 all 24 values stay at or below x m with probability (1 - exp(-x^(1/0.3)))^24, whatever the other days are.", "quantifier": "all probability spaces with independent uniform draws, all daily data (other days may be missing for moments, variance and maximum), all powers, thresholds and tolerances", "why_tests_cant": "distributions and expectations cannot be tested by finitely many draws", "anchors": ["melodist/wind.py:disaggregate_wind"]}
{"id": "C162", "title": "The sample statistics of the package", "statement": "CascadeStatistics.fill_with_sample_data keeps the thresholds and sets positive probabilities and weights; for each intensity class and position type P(0/1) + P(1/0) + P(x/x) and the sum of the seven weights are 1 up to 1e-15. With these statistics a box at the start of a wet spell passes on less than 30 % of its amount to its first half in the mean, a box at the end more than 70 %, enclosed and isolated boxes between 50 and 55 %; above the threshold both halves are wet more often than below it, by more than 37 percent points. With independent uniform draws and hourly output for n days the rounding of the weights (because of which a run can raise UnboundLocalError, see C19) has an effect with a probability of at most 1e-10 n, so the run raises an exception with a probability of at most 1e-10 n, and every hour of a day with precipitation is wet with a probability of at least 0.013 - 1e-10 n, whatever the five thresholds and the other days are.", "quantifier": "all thresholds, all daily data (missing or not negative), all probability spaces with independent uniform draws", "why_tests_cant": "a failure with a probability of about 1e-10 per day never shows up in a test, and probabilities cannot be tested by finitely many draws", "anchors": ["melodist/cascade.py:CascadeStatistics.fill_with_sample_data", "melodist/cascade.py:CascadeStatistics"]}
{"id": "C163", "title": "Errors of the fitted parameters have bounded effects", "statement": "Running a method twice on the same daily data with two sets of fitted parameters changes its output by a bounded amount. Cosine wind (a, b, t against a', b', t'): every hour of a day with mean wind speed x changes by at most |x| (|a - a'| + |b - b'| + |a'| pi/12 |t - t'|). Temperature: with mean courses that differ by at most eta and daily ranges of at most R kelvin the hours change by at most eta R (mean_course_min_max) or 2 eta R (mean_course_mean). Humidity: with regression parameters a0, a1 against a0', a1' (daily minima of at most M in absolute value, dew points of at least 231 K and temperatures of at least 230 K) dewpoint_regression and linear_dewpoint_variation change by at most 12 (|a0 - a0'| + |a1 - a1'| M) percent; with means per category that differ by at most eta month_hour_precip_mean changes by at most eta. Radiation (q = potential radiation of the hour; the methods set values below 0.01 to 0): pot_rad_via_ssd with Angstroem parameters a, b against a', b' changes by at most (|a - a'| + |b - b'| |ssd / daylength|) q + 0.01, pot_rad_via_bc with A, C against A', C' by at most (|A - A'| + 0.37 |A'| |C - C'| |ln r|) q + 0.01, where r is the temperature range the model uses. Missing values stay missing values.", "quantifier": "all daily data, all pairs of parameters (Bristow-Campbell: positive C), all days and hours", "why_tests_cant": "a bound on the effect of a real-valued error for all parameters and data is a statement about infinitely many pairs of runs", "anchors": ["melodist/wind.py:disaggregate_wind", "melodist/temperature.py:disaggregate_temperature", "melodist/humidity.py:disaggregate_humidity", "melodist/radiation.py:disaggregate_radiation"]}
{"id": "C164", "title": "Errors of the accompanying hourly records", "statement": "Some methods use a second, hourly record besides the daily data: the master station's precipitation, potential radiation, hourly temperature. Running them with two such records: (a) precip_master_station with complete records: on a day with the amount x on which both records have precipitation (the first not negative), the totals are S and S' and the hours of the records differ by D in total, hour h changes by at most |x| (|m_h - m'_h| + D) / S', and all 24 changes together are at most 2 |x| D / S'. (b) There is no such bound if one record is dry on the day: with zerodiv='uniform' an hour changes from x/24 to x, however small the amount of the other record is in that hour. (c) disaggregate_radiation 'pot_rad': hour h changes by at most |g| (|q_h - q'_h| + D) / (daily mean of q') + 0.01 for a daily value g. (d) disaggregate_humidity: with hourly temperatures that differ by at most delta, 'min_max' changes by at most delta |hum_max - hum_min| / (tmax - tmin), 'linear_dewpoint_variation' by at most 12 delta percent (temperatures from 230 K and daily dew points from 231 K on; the other dew point methods: C113).", "quantifier": "all daily data, all pairs of accompanying records, all days and hours", "why_tests_cant": "a bound for all pairs of real-valued records is a statement about infinitely many pairs of runs", "anchors": ["melodist/precipitation.py:precip_master_station", "melodist/radiation.py:disaggregate_radiation", "melodist/humidity.py:disaggregate_humidity"]}
{"id": "C165", "title": "Errors of hourly observations: effects on daily values, fitted tables and results", "statement": "Two hourly records with the same times and the same missing values, whose values differ by at most eps: (a) daily_from_hourly: daily means, minima and maxima differ by at most eps, daily precipitation by at most N eps and daily sunshine duration by at most N eps / 60, N being the largest number of rows of a day; (b) calculate_mean_daily_course_by_month: the mean courses have the same months and hours and differ by at most eps; the normalised courses by at most 4 eps / (R - 2 eps), if in each month with observations the means of two hours are at least R > 2 eps apart; (c) calculate_month_hour_precip_mean with the same precipitation: the same categories in the same order, the means differ by at most eps; (d) end to end: temperatures by 'mean_course_min_max' with the fitted courses are missing in the same hours and differ by at most 4 eps / (R - 2 eps) times the largest daily range; humidities by 'month_hour_precip_mean' with the fitted tables are missing in the same hours and differ by at most eps.", "quantifier": "all pairs of hourly records, all error sizes, all daily data", "why_tests_cant": "a bound for all pairs of real-valued records is a statement about infinitely many pairs of runs, here of the fit and the disaggregation together", "anchors": ["melodist/util/util.py:daily_from_hourly", "melodist/util/util.py:calculate_mean_daily_course_by_month", "melodist/humidity.py:calculate_month_hour_precip_mean", "melodist/temperature.py:disaggregate_temperature", "melodist/humidity.py:disaggregate_humidity"]}
{"id": "C166", "title": "Errors of hourly observations: dew points, the dew point regression, and the hour of the temperature maximum", "statement": "(a) dewpoint_temperature: at the same temperature (up to 50 degrees Celsius), relative humidities h and h' of at least H percent give dew points that differ by at most 20.1 |h - h'| / H kelvin. (b) calculate_dewpoint_regression for two hourly records with the same temperatures, whose humidities are at least H percent and differ by at most eps: with delta = 20.1 eps / H, tmin the daily minima on the days with dew points, m their mean and Q = sum |tmin - m| / sum (tmin - m)^2, the slopes differ by at most delta Q, and the dew points of the two lines for a daily minimum t by at most delta (1 + |t - m| Q). (c) get_shift_by_data: two hourly records with the same times and missing values that differ by at most eps give exactly the same shifts, if on every day with numbers the maximum of the first record is more than 2 eps above the values in other hours of the day. (d) Without such a distance there is no bound: for every eps > 0 two records of one day that differ by at most eps can have shifts 23 hours apart.", "quantifier": "all hourly records and their perturbations, all error sizes, all places", "why_tests_cant": "a bound for all pairs of real-valued records is a statement about infinitely many pairs of runs; ties of the maximum are a discontinuity that random data hardly meet", "anchors": ["melodist/util/util.py:dewpoint_temperature", "melodist/humidity.py:calculate_dewpoint_regression", "melodist/util/util.py:linregress", "melodist/temperature.py:get_shift_by_data"]}
{"id": "C167", "title": "The hourly values of the cascade follow the daily amounts, as long as no threshold is crossed", "statement": "Two runs of disagg_prec_cascade (hourly output) with the same statistics and random numbers, on daily records with the same missing and dry days. (a) If the amount of each day is multiplied by a positive factor of its own and neither a daily amount nor a box of the first run is moved across the threshold of its level by the factor of its day, the second run succeeds too, and the hourly values of every day are those of the first run times the day's factor. (b) If the amounts differ by at most the fraction rho < 1 and no daily amount or box of the first run is within the fraction rho of the threshold of its level, the hours keep their shares of the day, every hour changes by at most the fraction rho and by at most the difference of the daily amounts, and the changes of the 24 hours add up to that difference. (C113: without such a distance a difference of 1e-12 mm can change an hour by more than 1 mm.)", "quantifier": "all daily records, factors, statistics and random numbers", "why_tests_cant": "tests compare a few runs; that the thresholds are the only discontinuities is a statement about all amounts", "anchors": ["melodist/precipitation.py:disagg_prec_cascade"]}
{"id": "C168", "title": "The least-squares fits do not amplify errors of the observations", "statement": "Assuming that curve_fit returns least-squares parameters: (a) two records of observed radiation on the same days, with the same sunshine durations, day lengths (not zero) and potential radiation: the daily estimates with the two parameter pairs of fit_angstroem_params differ, in the sum of the squares, by no more than the observations, so on each day by at most E, the root of the sum of the squared differences of the observations; the slopes differ by at most E (1/q + 1/q') / |r - r'| for any two of the days with potential radiation q, q' > 0 and different relative sunshine durations r, r'. If the observations are the formula's values for some parameters plus errors, the fitted estimates are, in the sum of the squares, no further from the true values than the observations. (b) two hourly wind records with numbers at the same times and the same daily means: the cosines fitted by fit_cosine_function differ at the recorded times, in the sum of the squares, by no more than the records.", "quantifier": "all records, numbers of days, observation errors and least-squares optimisers", "why_tests_cant": "tests fit a few records; that no error is amplified concerns all errors and any optimiser", "anchors": ["melodist/radiation.py:fit_angstroem_params", "melodist/wind.py:fit_cosine_function"]}
{"id": "C169", "title": "The 5-minute values of the cascade follow the daily amounts, as long as no threshold is crossed", "statement": "C167 for the 5-minute output of disagg_prec_cascade (hourly=False, any level from 1 to 11): two runs with the same statistics and random numbers, on daily records with the same missing and dry days. (a) If the amount of each day is multiplied by a positive factor of its own and neither a daily amount nor a box of the first run is moved across the threshold of its level by the factor of its day, the second run succeeds too, at the same times, and the values of every day are those of the first run times the day's factor (no 5-minute sum mixes two days). (b) If the amounts differ by at most the fraction rho < 1 and no daily amount or box of the first run is within the fraction rho of the threshold of its level, the 5-minute values keep their shares of the day, each changes by at most the fraction rho and by at most the difference of the daily amounts, and the changes of a day add up to that difference.", "quantifier": "all daily records, levels, factors, statistics and random numbers", "why_tests_cant": "tests compare a few runs; that the thresholds are the only discontinuities is a statement about all amounts", "anchors": ["melodist/precipitation.py:disagg_prec_cascade"]}
{"id": "C170", "title": "Errors of observed radiation, carried through the Angstroem fit to the hourly values", "statement": "The Angstroem parameters are fitted by fit_angstroem_params (assuming curve_fit returns a least-squares minimum) and used by disaggregate_radiation(method='pot_rad_via_ssd'). Take a day whose relative sunshine duration lies between those of two of the days of the fit, both with a potential radiation of at least Q > 0, and an hour of it with the potential radiation q >= 0. (a) If the parameters are fitted to two records of observed radiation on the same days, the two values of the hour differ by at most E / Q * q + 0.01, where E is the root of the sum of the squared differences of the records. (b) The value with the fitted parameters and the value with any other parameters (the true ones, say) differ by at most E / Q * q + 0.01, where E is the root of the sum of the squared deviations of the observations from the formula with those parameters.", "quantifier": "all records of sunshine, day length, potential and observed radiation, all daily data, days and hours", "why_tests_cant": "tests compare fits on a few records; the bound is about all pairs of records and the whole way from the observations to the hourly values", "anchors": ["melodist/radiation.py:fit_angstroem_params", "melodist/radiation.py:disaggregate_radiation"]}
{"id": "C171", "title": "Errors of observed humidity, carried through the dew point regression to the hourly values", "statement": "The dew point regression is fitted by calculate_dewpoint_regression to two hourly records with the same temperatures (up to 50 degrees Celsius), whose humidities are at least H percent and differ by at most eps, and the same daily data are disaggregated by disaggregate_humidity with method 'dewpoint_regression' or 'linear_dewpoint_variation' (without preserve_daily_mean) with the two results. With tmin the daily minima on the days of the records with dew points, m their mean and Q = sum |tmin - m| / sum (tmin - m)^2: if no minimum in the daily data is farther than R from m, the daily dew points of both lines are at least 231 K and the hourly temperatures at least 230 K, then the results are missing in the same hours and differ by at most 12 * 20.1 eps / H * (1 + R Q) percent.", "quantifier": "all pairs of hourly records, daily data, error sizes and hourly temperatures", "why_tests_cant": "tests compare fits on a few records; the bound is about all pairs of records and the whole way from the observations to the hourly values", "anchors": ["melodist/humidity.py:calculate_dewpoint_regression", "melodist/humidity.py:disaggregate_humidity"]}
{"id": "C172", "title": "Programs on a station with loaded statistics, shifted temperature maxima included", "statement": "C107 for programs that also disaggregate temperatures by the sine methods with min_max_time='sun_loc_shift', which reads a rounded table. A station whose statistics object is replaced by the one that was saved to JSON and loaded raises the same exceptions and has exactly the same hourly data after any sequence of assignments of daily data, sun times and disaggregations (wind and precipitation with any method, humidity except 'month_hour_precip_mean', temperature with the sine methods, radiation 'pot_rad'), if at each call with 'sun_loc_shift' the shifts of the statistics are finite or missing and no sum of a solar noon of the station's sun times and the shift of its month is within 5e-11 hours of a half hour.", "quantifier": "all stations, statistics objects and programs of these statements", "why_tests_cant": "a statement about all programs; that 10 decimals of the shifts are enough fails only near half hours, which tests do not meet", "anchors": ["melodist/stationstatistics.py:StationStatistics.to_json", "melodist/stationstatistics.py:StationStatistics.from_json", "melodist/station.py:Station.statistics", "melodist/station.py:Station.disaggregate_temperature"]}
{"id": "C173", "title": "Errors of observed wind speeds, carried through the cosine fit to the hourly values", "statement": "The wind parameters are fitted by fit_cosine_function (assuming curve_fit returns a least-squares minimum) to complete hourly records of n days with daily means M, not all 0, and used by disaggregate_wind(method='cosine'). (a) If they are fitted to two records y, y' with the same daily means, the two values of any hour of a day with the mean x differ by at most |x| sqrt(sum (y - y')^2 / (8 sum M^2)), with the sums over all hours and all days of the records; days without a mean are missing in both. (b) The value with the fitted parameters and the value with any other parameters (the true ones, say) differ by at most |x| sqrt(S / (8 sum M^2)), where S is the sum of the squared deviations of the record from the course of those parameters. (c) If in (a) the records differ by at most e in every hour and no daily mean is below mu > 0 in absolute value, the two values differ by at most sqrt(3) |x| e / mu, however long the records are.", "quantifier": "all complete hourly records, daily data, days and hours, all least-squares optimisers", "why_tests_cant": "tests compare fits on a few records; the bound is about all pairs of records and the whole way from the observations to the hourly values", "anchors": ["melodist/wind.py:fit_cosine_function", "melodist/wind.py:disaggregate_wind"]}
{"id": "C174", "title": "Radiation from temperatures with calibrated Bristow-Campbell parameters keeps the observed total", "statement": "The Bristow-Campbell parameters are fitted by fit_bristow_campbell_params (assuming minimize returns a minimum) to complete records of n days, and the same days are disaggregated by disaggregate_radiation(method='pot_rad_via_bc') with the result (A, C). If C > 0, every day has a positive temperature range (see C94) and potential radiation that is not 0 all day, and the observations are not negative, then the disaggregation succeeds, no hour is missing, and the sum of the daily means of the result is at most the sum of the observed daily means and at most 0.01 n below it. The loss comes from the hours below 0.01, which are set to 0.", "quantifier": "all complete records of any length, potential radiation courses, minimisers and exponents C > 0", "why_tests_cant": "tests fit a few records and compare with stored numbers; that the total survives the fit, the model and the distribution over the hours is a statement about all records", "anchors": ["melodist/radiation.py:fit_bristow_campbell_params", "melodist/radiation.py:bristow_campbell", "melodist/radiation.py:disaggregate_radiation"]}
{"id": "C175", "title": "Radiation from sunshine durations with calibrated Angstroem parameters keeps weighted totals", "statement": "The Angstroem parameters are fitted by fit_angstroem_params (assuming curve_fit returns a least-squares minimum) to complete records of n days with sunshine durations s >= 0, day lengths l > 0, mean potential radiation Q > 0 and observed means o, and the same days are disaggregated by disaggregate_radiation(method='pot_rad_via_ssd') with the result (a, b). If a + b s/l >= 0 on every day, the disaggregation succeeds, no hour is missing, and for the daily means y of the result: sum Q y is at most sum Q o and at most 0.01 sum Q below it, and sum (s/l) Q y is at most sum (s/l) Q o and at most 0.01 sum (s/l) Q below it. If Q is the same on all days, the plain sum of y is at most that of o and at most 0.01 n below it. The sum of squares of y is at most that of o. In general the plain total is not kept: for two days with the same s/l, Q = 10 and 20 and o = 10 and 0 every least-squares optimiser leads to daily means that add up to at most 6 instead of 10.", "quantifier": "all complete records of any length, potential radiation courses and least-squares optimisers", "why_tests_cant": "tests fit a few records; which totals survive the fit, the model and the distribution over the hours is a statement about all records", "anchors": ["melodist/radiation.py:fit_angstroem_params", "melodist/radiation.py:angstroem", "melodist/radiation.py:disaggregate_radiation"]}
{"id": "C176", "title": "The dew point regression fitted to the package's own humidity gives its parameters back", "statement": "Humidity is disaggregated by disaggregate_humidity(method='dewpoint_regression') with parameters a0, a1 for days with minima tmin and a complete hourly temperature record whose daily minima are tmin. If on every day the dew point a0 + a1 tmin (above 0.53 K) is not above tmin and lies on the same side of the freezing point (273.15 K) as all temperatures of the day, and two of the minima differ, then the call succeeds, and calculate_dewpoint_regression on the table of these temperatures and humidities returns exactly (a1, a0).", "quantifier": "all daily data, complete hourly temperature records and parameters that meet the conditions", "why_tests_cant": "tests check single values of the two functions; that one undoes the other through vapour pressures, the cut to 0..100 %, daily means and the regression holds for all records at once", "anchors": ["melodist/humidity.py:calculate_dewpoint_regression", "melodist/humidity.py:disaggregate_humidity", "melodist/util/util.py:dewpoint_temperature", "melodist/util/util.py:linregress"]}
{"id": "C177", "title": "The Angstroem fit to the package's own radiation gives its parameters back, if no hour was cut", "statement": "Radiation is disaggregated by disaggregate_radiation(method='pot_rad_via_ssd') with one pair of parameters a, b for days with sunshine durations, positive day lengths and nonnegative hourly potential radiation that is not 0 all day, where a + b ssd / day length is never negative. If every hour with potential radiation gets at least 0.01 W/m2, and two days differ in ssd / day length, then the call succeeds, and fit_angstroem_params on the same sunshine durations, day lengths and potential radiation and the daily means of the result returns exactly (a, b) whenever it returns, for every optimiser that returns least-squares minimisers. If instead every hour is below 0.01 W/m2, the fit returns (0, 0) whatever a and b are.", "quantifier": "all daily data, potential radiation, parameters and least-squares optimisers that meet the conditions", "why_tests_cant": "tests fit single data sets with one optimiser; here the result follows for all data and every optimiser, and the effect of the cut at 0.01 on the fit is not visible in a sample", "anchors": ["melodist/radiation.py:fit_angstroem_params", "melodist/radiation.py:disaggregate_radiation"]}
{"id": "C178", "title": "Humidity from a calibrated dew point regression keeps the mean of the observed dew points", "statement": "calculate_dewpoint_regression is applied to a complete hourly record of temperatures (above 0.53 K) and humidities (above 0, at most 100 %) in which two daily minima tmin differ. It returns (a1, a0), and the dew points a0 + a1 tmin of the days have the same sum as the observed daily mean dew points, and the same sum of products with tmin. If the same days are disaggregated by disaggregate_humidity(method='dewpoint_regression') with these parameters and the observed temperatures, and on every day a0 + a1 tmin is above 0.53 K, not above tmin and on the same side of the freezing point (273.15 K) as all temperatures of the day, then the call succeeds and the dew points of all hours of the result have the same sum as the observed ones, and the same sum of products with the daily minima.", "quantifier": "all complete hourly records and daily data that meet the conditions", "why_tests_cant": "tests compare single fitted numbers; that calibrated humidity has no bias in the dew point is a statement about every record", "anchors": ["melodist/humidity.py:calculate_dewpoint_regression", "melodist/humidity.py:disaggregate_humidity", "melodist/util/util.py:dewpoint_temperature", "melodist/util/util.py:linregress"]}
{"id": "C179", "title": "Wind from a calibrated cosine keeps amplitude and phase of the daily course", "statement": "wind.fit_cosine_function is applied to a complete hourly record with daily means M, and the daily means are disaggregated by disaggregate_wind(method='cosine') with the fitted parameters. If the optimiser returns least-squares parameters, then for every c the hourly results have the same sum of products with M cos(pi (h - c) / 12) as the observed hourly values, where h is the hour and M the mean of the day: amplitude and phase of the first harmonic of the daily course, weighted with the daily means, are those of the observations. The sum of products with the daily means is kept as well. The sum of squares of the observations is the sum of squares of the results plus the sum of squares of the differences; hence the sum of squares of the results is never the larger one. The same holds for the deviations from the daily means: the results vary around the daily means at most as much as the observations.", "quantifier": "all complete hourly wind records, all c, every optimiser that returns least-squares parameters", "why_tests_cant": "the fit is nonlinear in the phase and the optimiser is not part of the package; a test checks one fit, not that no other phase would reproduce the course better", "anchors": ["melodist/wind.py:fit_cosine_function", "melodist/wind.py:_cosine_function", "melodist/wind.py:disaggregate_wind"]}
{"id": "C180", "title": "The Bristow-Campbell fit to the package's own radiation", "statement": "Radiation is disaggregated by disaggregate_radiation(method='pot_rad_via_bc') with one pair of parameters A >= 0, C > 0 for days with complete temperatures, positive temperature ranges and nonnegative hourly potential radiation that is not 0 all day. The call succeeds. Let fit_bristow_campbell_params on the same temperatures and potential radiation and the daily means of the result return (A', C') with C' > 0, for any optimiser that returns minima. Then the Bristow-Campbell estimates with (A', C') have the same total as the daily means of the result. If no hour with potential radiation was cut to 0 and C' = C, then A' = A.", "quantifier": "all complete daily data, potential radiation, parameters and minimising optimisers that meet the conditions", "why_tests_cant": "tests fit one data set with one optimiser; the total and the factor are determined for every data set, although the exponent is not", "anchors": ["melodist/radiation.py:fit_bristow_campbell_params", "melodist/radiation.py:bristow_campbell", "melodist/radiation.py:disaggregate_radiation"]}
{"id": "C181", "title": "The statistics returned with the linear regression", "statement": "util.linregress(x, y, return_stats=True) on points with two different x values returns (a1, a0, r, p, stderr) with the same line (a1, a0) as without statistics. r lies in [-1, 1], is 0 exactly if a1 is 0 and otherwise has the sign of a1; the sum of squared errors of the line is (1 - r^2) times the sum of squared deviations of y from its mean; stderr is not negative; with n > 2 points stderr^2 (n - 2) times the sum of squared deviations of x from its mean is the sum of squared errors of the line; with two points stderr is 0 and the line goes through both. If calculate_dewpoint_regression(return_stats=True) returns, its first two values are those it returns without statistics.", "quantifier": "all lists of points with two different x values; all hourly tables; any values of the t distribution", "why_tests_cant": "tests can compare numbers for a few samples; the relations between line, correlation and standard error hold for every sample, and the cut of r to [-1, 1] has no effect in exact arithmetic", "anchors": ["melodist/util/util.py:linregress", "melodist/humidity.py:calculate_dewpoint_regression"]}
