{
 "claims": [
  {
   "property": "C01",
   "status": "proved",
   "theorems": [
    "Melodist.C01_hourly_index_gapfree"
   ],
   "note": ""
  },
  {
   "property": "C02",
   "status": "proved",
   "theorems": [
    "Melodist.C02_hourly_index_fill",
    "Melodist.C02_hourly_index_gaps",
    "Melodist.C02_hourly_index_gaps_raises",
    "Melodist.C02_hourly_index_gaps_legacy"
   ],
   "note": ""
  },
  {
   "property": "C03",
   "status": "proved",
   "theorems": [
    "Melodist.C03_distribute_equally"
   ],
   "note": ""
  },
  {
   "property": "C04",
   "status": "proved",
   "theorems": [
    "Melodist.C04_distribute_divide"
   ],
   "note": ""
  },
  {
   "property": "C05",
   "status": "proved",
   "theorems": [
    "Melodist.C05_aggregate_recovers"
   ],
   "note": ""
  },
  {
   "property": "C06",
   "status": "proved",
   "theorems": [
    "Melodist.C06_sonntag_formula",
    "Melodist.C06_vapor_pressure",
    "Melodist.C06_vapor_pressure_array"
   ],
   "note": ""
  },
  {
   "property": "C07",
   "status": "proved",
   "theorems": [
    "Melodist.C07_dewpoint_saturated",
    "Melodist.C07_dewpoint_monotone",
    "Melodist.C07_dewpoint_inverts",
    "Melodist.C07_dewpoint_not_inverse"
   ],
   "note": ""
  },
  {
   "property": "C08",
   "status": "proved",
   "theorems": [
    "Melodist.C08_daylength"
   ],
   "note": ""
  },
  {
   "property": "C09",
   "status": "proved",
   "theorems": [
    "Melodist.C09_sun_times_consistent",
    "Melodist.C09_sun_times_rowwise"
   ],
   "note": ""
  },
  {
   "property": "C10",
   "status": "proved",
   "theorems": [
    "Melodist.C10_detect_gaps",
    "Melodist.C10_detect_gaps_raises",
    "Melodist.C10_detect_gaps_total",
    "Melodist.C10_detect_gaps_output",
    "Melodist.C10_no_index"
   ],
   "note": ""
  },
  {
   "property": "C11",
   "status": "proved",
   "theorems": [
    "Melodist.C11_whole_days",
    "Melodist.C11_exception"
   ],
   "note": ""
  },
  {
   "property": "C12",
   "status": "proved",
   "theorems": [
    "Melodist.C12_contiguous",
    "Melodist.C12_idempotent",
    "Melodist.C12_largest",
    "Melodist.C12_shift_out_of_range"
   ],
   "note": ""
  },
  {
   "property": "C13",
   "status": "proved",
   "theorems": [
    "Melodist.C13_interpolation",
    "Melodist.C13_anchors",
    "Melodist.C13_interpolate_keeps_observations",
    "Melodist.C13_raises",
    "Melodist.C13_station"
   ],
   "note": ""
  },
  {
   "property": "C14",
   "status": "proved",
   "theorems": [
    "Melodist.C14_mean_course",
    "Melodist.C14_mean_course_normalized",
    "Melodist.C14_scaling"
   ],
   "note": ""
  },
  {
   "property": "C15",
   "status": "proved",
   "theorems": [
    "Melodist.C15_equal"
   ],
   "note": ""
  },
  {
   "property": "C16",
   "status": "proved",
   "theorems": [
    "Melodist.C16_cascade_preserves_totals"
   ],
   "note": ""
  },
  {
   "property": "C17",
   "status": "proved",
   "theorems": [
    "Melodist.C17_cascade_bounds"
   ],
   "note": ""
  },
  {
   "property": "C18",
   "status": "proved",
   "theorems": [
    "Melodist.C18_cascade_dry_missing"
   ],
   "note": ""
  },
  {
   "property": "C19",
   "status": "proved",
   "theorems": [
    "Melodist.C19_cascade_total",
    "Melodist.C19_cascade_total_5min",
    "Melodist.C19_cascade_errors",
    "Melodist.C19_sample_data_can_fail"
   ],
   "note": ""
  },
  {
   "property": "C20",
   "status": "proved",
   "theorems": [
    "Melodist.C20_cascade_5min"
   ],
   "note": ""
  },
  {
   "property": "C21",
   "status": "proved",
   "theorems": [
    "Melodist.C21_cascade_levels"
   ],
   "note": ""
  },
  {
   "property": "C22",
   "status": "proved",
   "theorems": [
    "Melodist.C22_cascade_shift"
   ],
   "note": ""
  },
  {
   "property": "C23",
   "status": "proved",
   "theorems": [
    "Melodist.C23_proportional",
    "Melodist.C23_daily_totals",
    "Melodist.C23_modern_raises",
    "Melodist.C23_outside_master",
    "Melodist.C23_empty_master",
    "Melodist.C23_gap_day"
   ],
   "note": ""
  },
  {
   "property": "C24",
   "status": "proved",
   "theorems": [
    "Melodist.C24_seasonal_subset",
    "Melodist.C24_seasonal_subset_sorted",
    "Melodist.C24_all_months"
   ],
   "note": ""
  },
  {
   "property": "C25",
   "status": "proved",
   "theorems": [
    "Melodist.C25_aggregation_mass"
   ],
   "note": ""
  },
  {
   "property": "C26",
   "status": "proved",
   "theorems": [
    "Melodist.C26_statistics_distributions",
    "Melodist.C26_frequencies"
   ],
   "note": ""
  },
  {
   "property": "C27",
   "status": "proved",
   "theorems": [
    "Melodist.C27_level_statistics",
    "Melodist.C27_average",
    "Melodist.C27_distributions",
    "Melodist.C27_usable_by_cascade"
   ],
   "note": ""
  },
  {
   "property": "C28",
   "status": "proved",
   "theorems": [
    "Melodist.C28_fills_caller_data",
    "Melodist.C28_first_season",
    "Melodist.C28_position_matters"
   ],
   "note": ""
  },
  {
   "property": "C29",
   "status": "proved",
   "theorems": [
    "Melodist.C29_add",
    "Melodist.C29_mul",
    "Melodist.C29_shallow_copy",
    "Melodist.C29_build_casc_objects"
   ],
   "note": ""
  },
  {
   "property": "C30",
   "status": "proved",
   "theorems": [
    "Melodist.C30_eq_iff",
    "Melodist.C30_eq_relation",
    "Melodist.C30_from_dict_round_trip",
    "Melodist.C30_from_dict_shapes"
   ],
   "note": ""
  },
  {
   "property": "C31",
   "status": "proved",
   "theorems": [
    "Melodist.C31_level_uses_own_entry",
    "Melodist.C31_level_uses_own_threshold",
    "Melodist.C31_levels_local"
   ],
   "note": ""
  },
  {
   "property": "C32",
   "status": "proved",
   "theorems": [
    "Melodist.C32_wind_equal"
   ],
   "note": ""
  },
  {
   "property": "C33",
   "status": "proved",
   "theorems": [
    "Melodist.C33_wind_cosine_mean",
    "Melodist.C33_wind_cosine_range",
    "Melodist.C33_wind_cosine_peak",
    "Melodist.C33_course"
   ],
   "note": ""
  },
  {
   "property": "C34",
   "status": "proved",
   "theorems": [
    "Melodist.C34_wind_random",
    "Melodist.C34_wind_random_zero_draw"
   ],
   "note": ""
  },
  {
   "property": "C35",
   "status": "proved",
   "theorems": [
    "Melodist.C35_wind_options"
   ],
   "note": ""
  },
  {
   "property": "C36",
   "status": "proved",
   "theorems": [
    "Melodist.C36_humidity_range"
   ],
   "note": ""
  },
  {
   "property": "C37",
   "status": "proved",
   "theorems": [
    "Melodist.C37_daily_mean_preserved",
    "Melodist.C37_equal_unchanged",
    "Melodist.C37_mean_not_preserved_in_general"
   ],
   "note": ""
  },
  {
   "property": "C38",
   "status": "proved",
   "theorems": [
    "Melodist.C38_minimal",
    "Melodist.C38_regression_minimal",
    "Melodist.C38_values"
   ],
   "note": ""
  },
  {
   "property": "C39",
   "status": "proved",
   "theorems": [
    "Melodist.C39_min_max"
   ],
   "note": ""
  },
  {
   "property": "C40",
   "status": "proved",
   "theorems": [
    "Melodist.C40_linear_dewpoint",
    "Melodist.C40_invalid_kr"
   ],
   "note": ""
  },
  {
   "property": "C41",
   "status": "proved",
   "theorems": [
    "Melodist.C41_categorical",
    "Melodist.C41_table"
   ],
   "note": ""
  },
  {
   "property": "C42",
   "status": "proved",
   "theorems": [
    "Melodist.C42_invalid_options"
   ],
   "note": ""
  },
  {
   "property": "C43",
   "status": "proved",
   "theorems": [
    "Melodist.C43_envelope"
   ],
   "note": ""
  },
  {
   "property": "C44",
   "status": "proved",
   "theorems": [
    "Melodist.C44_fixed_times"
   ],
   "note": ""
  },
  {
   "property": "C45",
   "status": "proved",
   "theorems": [
    "Melodist.C45_extremes_preserved_if",
    "Melodist.C45_seven_oclock",
    "Melodist.C45_extremes_not_preserved"
   ],
   "note": ""
  },
  {
   "property": "C46",
   "status": "proved",
   "theorems": [
    "Melodist.C46_mod_nighttime",
    "Melodist.C46_course",
    "Melodist.C46_shape"
   ],
   "note": ""
  },
  {
   "property": "C47",
   "status": "proved",
   "theorems": [
    "Melodist.C47_sine_mean",
    "Melodist.C47_course"
   ],
   "note": ""
  },
  {
   "property": "C48",
   "status": "proved",
   "theorems": [
    "Melodist.C48_mean_course_min_max",
    "Melodist.C48_fitted"
   ],
   "note": ""
  },
  {
   "property": "C49",
   "status": "proved",
   "theorems": [
    "Melodist.C49_mean_course_mean"
   ],
   "note": ""
  },
  {
   "property": "C50",
   "status": "proved",
   "theorems": [
    "Melodist.C50_missing_sine",
    "Melodist.C50_missing_course"
   ],
   "note": ""
  },
  {
   "property": "C51",
   "status": "proved",
   "theorems": [
    "Melodist.C51_polar_night"
   ],
   "note": ""
  },
  {
   "property": "C52",
   "status": "proved",
   "theorems": [
    "Melodist.C52_options"
   ],
   "note": ""
  },
  {
   "property": "C53",
   "status": "proved",
   "theorems": [
    "Melodist.C53_shift"
   ],
   "note": ""
  },
  {
   "property": "C54",
   "status": "proved",
   "theorems": [
    "Melodist.C54_zero_or_at_least",
    "Melodist.C54_finite"
   ],
   "note": ""
  },
  {
   "property": "C55",
   "status": "proved",
   "theorems": [
    "Melodist.C55_daily_mean",
    "Melodist.C55_mean_course"
   ],
   "note": ""
  },
  {
   "property": "C56",
   "status": "proved",
   "theorems": [
    "Melodist.C56_with_sun",
    "Melodist.C56_follows_potential"
   ],
   "note": ""
  },
  {
   "property": "C57",
   "status": "proved",
   "theorems": [
    "Melodist.C57_polar_night",
    "Melodist.C57_mean_course"
   ],
   "note": ""
  },
  {
   "property": "C58",
   "status": "proved",
   "theorems": [
    "Melodist.C58_formula",
    "Melodist.C58_behaviour",
    "Melodist.C58_missing_month",
    "Melodist.C58_disaggregate",
    "Melodist.C58_uncovered"
   ],
   "note": ""
  },
  {
   "property": "C59",
   "status": "proved",
   "theorems": [
    "Melodist.C59_bounds",
    "Melodist.C59_formula",
    "Melodist.C59_monotone",
    "Melodist.C59_different_index",
    "Melodist.C59_disaggregate"
   ],
   "note": ""
  },
  {
   "property": "C60",
   "status": "proved",
   "theorems": [
    "Melodist.C60_horizontal",
    "Melodist.C60_terrain",
    "Melodist.C60_clouds"
   ],
   "note": ""
  },
  {
   "property": "C61",
   "status": "proved",
   "theorems": [
    "Melodist.C61_slope_at_night"
   ],
   "note": ""
  },
  {
   "property": "C62",
   "status": "proved",
   "theorems": [
    "Melodist.C62_symmetric",
    "Melodist.C62_seconds_ignored",
    "Melodist.C62_zone_shift"
   ],
   "note": ""
  },
  {
   "property": "C63",
   "status": "proved",
   "theorems": [
    "Melodist.World.C63_regularised",
    "Melodist.World.C63_with_frequency",
    "Melodist.World.C63_refused",
    "Melodist.World.C63_celsius_refused"
   ],
   "note": ""
  },
  {
   "property": "C64",
   "status": "proved",
   "theorems": [
    "Melodist.World.C64_in_sync",
    "Melodist.World.C64_last_assignment_wins",
    "Melodist.World.C64_assign_statistics",
    "Melodist.World.C64_sharing_breaks_it"
   ],
   "note": ""
  },
  {
   "property": "C65",
   "status": "proved",
   "theorems": [
    "Melodist.World.C65_computed",
    "Melodist.World.C65_otherwise_kept",
    "Melodist.World.C65_history",
    "Melodist.World.C65_stale"
   ],
   "note": ""
  },
  {
   "property": "C66",
   "status": "proved",
   "theorems": [
    "Melodist.World.C66_only_own_column",
    "Melodist.World.C66_raising",
    "Melodist.World.C66_radiation_leaves_sun_times"
   ],
   "note": ""
  },
  {
   "property": "C67",
   "status": "proved",
   "theorems": [
    "Melodist.World.C67_days",
    "Melodist.World.C67_gaps",
    "Melodist.World.C67_missing",
    "Melodist.World.C67_days_any",
    "Melodist.World.C67_old_pandas"
   ],
   "note": ""
  },
  {
   "property": "C68",
   "status": "proved",
   "theorems": [
    "Melodist.StatsObj.C68_sample",
    "Melodist.StatsObj.C68_returns",
    "Melodist.StatsObj.C68_failing_fit",
    "Melodist.StatsObj.C68_arguments",
    "Melodist.StatsObj.C68_no_exception"
   ],
   "note": ""
  },
  {
   "property": "C69",
   "status": "proved",
   "theorems": [
    "Melodist.C69_round_trip",
    "Melodist.C69_twice",
    "Melodist.C69_precision",
    "Melodist.C69_missing_month",
    "Melodist.C69_single_category",
    "Melodist.C69_repeated_label",
    "Melodist.C69_missing_group"
   ],
   "note": ""
  },
  {
   "property": "C70",
   "status": "proved",
   "theorems": [
    "Melodist.C70_attributes_are_items",
    "Melodist.C70_writes",
    "Melodist.C70_copy",
    "Melodist.C70_deepcopy",
    "Melodist.C70_deepcopy_succeeds",
    "Melodist.C70_deepcopy_cycle"
   ],
   "note": ""
  },
  {
   "property": "C71",
   "status": "proved",
   "theorems": [
    "Melodist.C71_hourly_round_trip"
   ],
   "note": ""
  },
  {
   "property": "C72",
   "status": "proved",
   "theorems": [
    "Melodist.C72_daily_exchange"
   ],
   "note": ""
  },
  {
   "property": "C73",
   "status": "proved",
   "theorems": [
    "Melodist.C73_check_nan",
    "Melodist.C73_dropped"
   ],
   "note": ""
  },
  {
   "property": "C74",
   "status": "proved",
   "theorems": [
    "Melodist.DataIO.C74_read",
    "Melodist.DataIO.C74_errors"
   ],
   "note": ""
  },
  {
   "property": "C75",
   "status": "proved",
   "theorems": [
    "Melodist.DataIO.C75_read",
    "Melodist.DataIO.C75_skip_last",
    "Melodist.DataIO.C75_flag"
   ],
   "note": ""
  },
  {
   "property": "C76",
   "status": "proved",
   "theorems": [
    "Melodist.C76_threshold_percentile"
   ],
   "note": ""
  },
  {
   "property": "C77",
   "status": "proved",
   "theorems": [
    "Melodist.C77_branching_rule"
   ],
   "note": ""
  },
  {
   "property": "C78",
   "status": "proved",
   "theorems": [
    "Melodist.C78_fit_preserves_mean"
   ],
   "note": ""
  },
  {
   "property": "C79",
   "status": "proved",
   "theorems": [
    "Melodist.C79_dewpoint_regression"
   ],
   "note": ""
  },
  {
   "property": "C80",
   "status": "proved",
   "theorems": [
    "Melodist.C80_peak_hour",
    "Melodist.C80_course"
   ],
   "note": ""
  },
  {
   "property": "C81",
   "status": "proved",
   "theorems": [
    "Melodist.C81_output_index",
    "Melodist.C81_outside_days"
   ],
   "note": ""
  },
  {
   "property": "C82",
   "status": "proved",
   "theorems": [
    "Melodist.C82_options"
   ],
   "note": ""
  },
  {
   "property": "C83",
   "status": "proved",
   "theorems": [
    "Melodist.World.C83_sun_times_after_assignment",
    "Melodist.World.C83_other_frequency"
   ],
   "note": ""
  },
  {
   "property": "C84",
   "status": "proved",
   "theorems": [
    "Melodist.World.C84_ready_after_assignment",
    "Melodist.World.C84_ready_kept",
    "Melodist.World.C84_wind",
    "Melodist.World.C84_humidity",
    "Melodist.World.C84_temperature",
    "Melodist.World.C84_precipitation",
    "Melodist.World.C84_radiation"
   ],
   "note": ""
  },
  {
   "property": "C85",
   "status": "proved",
   "theorems": [
    "Melodist.World.C85_humidity_always_in_range",
    "Melodist.World.C85_radiation_never_negative",
    "Melodist.World.C85_wind_cosine",
    "Melodist.World.C85_precipitation_equal",
    "Melodist.World.C85_temperature_course",
    "Melodist.World.C85_radiation_pot_rad"
   ],
   "note": ""
  },
  {
   "property": "C86",
   "status": "proved",
   "theorems": [
    "Melodist.StatsObj.C86_setter",
    "Melodist.StatsObj.C86_own_part",
    "Melodist.StatsObj.C86_hourly"
   ],
   "note": ""
  },
  {
   "property": "C87",
   "status": "proved",
   "theorems": [
    "Melodist.StatsObj.C87_repeat",
    "Melodist.StatsObj.C87_repeat_precipitation",
    "Melodist.StatsObj.C87_exchange",
    "Melodist.StatsObj.C87_any_order"
   ],
   "note": ""
  },
  {
   "property": "C88",
   "status": "proved",
   "theorems": [
    "Melodist.World.C88_wind",
    "Melodist.World.C88_temperature",
    "Melodist.World.C88_humidity",
    "Melodist.World.C88_precipitation",
    "Melodist.World.C88_shift",
    "Melodist.World.C88_radiation"
   ],
   "note": ""
  },
  {
   "property": "C89",
   "status": "proved",
   "theorems": [
    "Melodist.C89_effects"
   ],
   "note": ""
  },
  {
   "property": "C90",
   "status": "proved",
   "theorems": [
    "Melodist.DataIO.C90_dataset"
   ],
   "note": ""
  },
  {
   "property": "C91",
   "status": "proved",
   "theorems": [
    "Melodist.DataIO.C91_join",
    "Melodist.DataIO.C91_overlap"
   ],
   "note": ""
  },
  {
   "property": "C92",
   "status": "proved",
   "theorems": [
    "Melodist.C92_daily_values",
    "Melodist.C92_columns"
   ],
   "note": ""
  },
  {
   "property": "C93",
   "status": "proved",
   "theorems": [
    "Melodist.C93_least_squares",
    "Melodist.C93_unique",
    "Melodist.C93_recovers",
    "Melodist.C93_polar_night",
    "Melodist.C93_statistics"
   ],
   "note": ""
  },
  {
   "property": "C94",
   "status": "proved",
   "theorems": [
    "Melodist.C94_no_bias",
    "Melodist.C94_statistics",
    "Melodist.C94_every_exponent"
   ],
   "note": ""
  },
  {
   "property": "C95",
   "status": "proved",
   "theorems": [
    "Melodist.C95_fill",
    "Melodist.C95_no_gaps",
    "Melodist.C95_gaps",
    "Melodist.C95_no_alias"
   ],
   "note": ""
  },
  {
   "property": "C96",
   "status": "proved",
   "theorems": [
    "Melodist.C96_law",
    "Melodist.C96_proper"
   ],
   "note": ""
  },
  {
   "property": "C97",
   "status": "proved",
   "theorems": [
    "Melodist.C97_temperature",
    "Melodist.C97_statistics",
    "Melodist.C97_daily",
    "Melodist.C97_whole"
   ],
   "note": ""
  },
  {
   "property": "C98",
   "status": "proved",
   "theorems": [
    "Melodist.C98_wind",
    "Melodist.C98_fit",
    "Melodist.C98_radiation",
    "Melodist.C98_potential"
   ],
   "note": ""
  },
  {
   "property": "C99",
   "status": "proved",
   "theorems": [
    "Melodist.C99_cascade",
    "Melodist.C99_master",
    "Melodist.C99_equal",
    "Melodist.C99_statistics",
    "Melodist.C99_whole"
   ],
   "note": ""
  },
  {
   "property": "C100",
   "status": "proved",
   "theorems": [
    "Melodist.C100_temperature",
    "Melodist.C100_sine_parts",
    "Melodist.C100_wind",
    "Melodist.C100_humidity",
    "Melodist.C100_radiation",
    "Melodist.C100_radiation_course",
    "Melodist.C100_radiation_ssd",
    "Melodist.C100_radiation_bc",
    "Melodist.C100_equal",
    "Melodist.C100_master",
    "Melodist.C100_cascade_depends_on_neighbours"
   ],
   "note": ""
  },
  {
   "property": "C101",
   "status": "proved",
   "theorems": [
    "Melodist.C101_temperature_extremes",
    "Melodist.C101_temperature_mean",
    "Melodist.C101_wind",
    "Melodist.C101_radiation",
    "Melodist.C101_radiation_ssd",
    "Melodist.C101_humidity_dewpoint",
    "Melodist.C101_humidity_equal",
    "Melodist.C101_humidity_linear",
    "Melodist.C101_humidity_minmax",
    "Melodist.C101_equal",
    "Melodist.C101_master",
    "Melodist.C101_cascade_not_monotone"
   ],
   "note": ""
  },
  {
   "property": "C102",
   "status": "proved",
   "theorems": [
    "Melodist.C102_exact",
    "Melodist.C102_exact_equal",
    "Melodist.C102_exact_master",
    "Melodist.C102_cascade_total",
    "Melodist.C102_cascade_cells",
    "Melodist.C102_equal",
    "Melodist.C102_master",
    "Melodist.C102_cascade_double",
    "Melodist.C102_absorption"
   ],
   "note": ""
  },
  {
   "property": "C103",
   "status": "proved",
   "theorems": [
    "Melodist.C103_sine_mean",
    "Melodist.C103_mean_course_min_max",
    "Melodist.C103_mean_course_mean",
    "Melodist.C103_sine",
    "Melodist.C103_sine_not",
    "Melodist.C103_precip_equal",
    "Melodist.C103_precip_master",
    "Melodist.C103_wind_equal",
    "Melodist.C103_wind_cosine",
    "Melodist.C103_humidity_equal",
    "Melodist.C103_humidity_dewpoint",
    "Melodist.C103_humidity_min_max",
    "Melodist.C103_pot_rad",
    "Melodist.C103_mean_course",
    "Melodist.C103_pot_rad_not"
   ],
   "note": ""
  },
  {
   "property": "C104",
   "status": "proved",
   "theorems": [
    "Melodist.World.C104_isolated",
    "Melodist.World.C104_same",
    "Melodist.World.C104_sharing"
   ],
   "note": ""
  },
  {
   "property": "C105",
   "status": "proved",
   "theorems": [
    "Melodist.World.C105_exchange",
    "Melodist.World.C105_repeat",
    "Melodist.World.C105_any_order",
    "Melodist.World.C105_temperature_before_humidity",
    "Melodist.World.C105_radiation_provides_sun_times"
   ],
   "note": ""
  },
  {
   "property": "C106",
   "status": "proved",
   "theorems": [
    "Melodist.DataIO.C106_header",
    "Melodist.DataIO.C106_closing_line",
    "Melodist.DataIO.C106_errors",
    "Melodist.DataIO.C106_header_and_data"
   ],
   "note": ""
  },
  {
   "property": "C107",
   "status": "proved",
   "theorems": [
    "Melodist.StatsObj.C107_save_and_load",
    "Melodist.World.C107_same_results",
    "Melodist.C107_mean_course_close",
    "Melodist.C107_categorical_close"
   ],
   "note": ""
  },
  {
   "property": "C108",
   "status": "proved",
   "theorems": [
    "Melodist.C108_fit_rows",
    "Melodist.C108_fitted_values_unique",
    "Melodist.C108_fit_determined",
    "Melodist.C108_recovers",
    "Melodist.C108_refit"
   ],
   "note": ""
  },
  {
   "property": "C109",
   "status": "proved",
   "theorems": [
    "Melodist.C109_weibull",
    "Melodist.C109_expectation",
    "Melodist.C109_daily_mean",
    "Melodist.C109_independent",
    "Melodist.C109_long_run"
   ],
   "note": ""
  },
  {
   "property": "C110",
   "status": "proved",
   "theorems": [
    "Melodist.DataIO.C110_knmi",
    "Melodist.DataIO.C110_knmi_complete",
    "Melodist.DataIO.C110_dwd"
   ],
   "note": ""
  },
  {
   "property": "C111",
   "status": "proved",
   "theorems": [
    "Melodist.C111_exact",
    "Melodist.C111_sine_envelope",
    "Melodist.C111_sine_error",
    "Melodist.C111_sine_mean",
    "Melodist.C111_course_min_max",
    "Melodist.C111_course_mean",
    "Melodist.C111_wind",
    "Melodist.C111_radiation",
    "Melodist.C111_same_outcome",
    "Melodist.C111_double_sine",
    "Melodist.C111_double_mean",
    "Melodist.C111_double_wind",
    "Melodist.C111_double_radiation"
   ],
   "note": ""
  },
  {
   "property": "C112",
   "status": "proved",
   "theorems": [
    "Melodist.C112_wind",
    "Melodist.C112_humidity_equal",
    "Melodist.C112_humidity_dewpoint",
    "Melodist.C112_humidity_linear",
    "Melodist.C112_humidity_min_max",
    "Melodist.C112_humidity_categorical",
    "Melodist.C112_radiation",
    "Melodist.C112_radiation_course",
    "Melodist.C112_radiation_ssd",
    "Melodist.C112_radiation_bc"
   ],
   "note": ""
  },
  {
   "property": "C113",
   "status": "proved",
   "theorems": [
    "Melodist.C113_temperature_extremes",
    "Melodist.C113_temperature_mean",
    "Melodist.C113_wind",
    "Melodist.C113_radiation",
    "Melodist.C113_humidity_equal",
    "Melodist.C113_humidity_minmax",
    "Melodist.C113_humidity_dewpoint",
    "Melodist.C113_equal",
    "Melodist.C113_master",
    "Melodist.C113_cascade_not_stable"
   ],
   "note": ""
  },
  {
   "property": "C114",
   "status": "proved",
   "theorems": [
    "Melodist.C114_cells",
    "Melodist.C114_station",
    "Melodist.C114_default",
    "Melodist.C114_weaker",
    "Melodist.C114_invalid",
    "Melodist.C114_complete"
   ],
   "note": ""
  },
  {
   "property": "C115",
   "status": "proved",
   "theorems": [
    "Melodist.C115_latitude",
    "Melodist.C115_noon",
    "Melodist.C115_radiation",
    "Melodist.C115_declinations",
    "Melodist.C115_two_noons"
   ],
   "note": ""
  },
  {
   "property": "C116",
   "status": "proved",
   "theorems": [
    "Melodist.C116_by_label",
    "Melodist.C116_by_position",
    "Melodist.C116_linear_by_position",
    "Melodist.C116_wrong_length"
   ],
   "note": ""
  },
  {
   "property": "C117",
   "status": "proved",
   "theorems": [
    "Melodist.C117_exact",
    "Melodist.C117_range",
    "Melodist.C117_dewpoint",
    "Melodist.C117_minimal",
    "Melodist.C117_saturated",
    "Melodist.C117_min_max",
    "Melodist.C117_daily_mean",
    "Melodist.C117_double"
   ],
   "note": ""
  },
  {
   "property": "C118",
   "status": "proved",
   "theorems": [
    "Melodist.C118_temperature",
    "Melodist.C118_wind",
    "Melodist.C118_radiation",
    "Melodist.C118_humidity_equal",
    "Melodist.C118_humidity_minmax",
    "Melodist.C118_equal",
    "Melodist.C118_master",
    "Melodist.C118_cascade_not_additive"
   ],
   "note": ""
  },
  {
   "property": "C119",
   "status": "proved",
   "theorems": [
    "Melodist.C119_within_day",
    "Melodist.C119_midnight",
    "Melodist.C119_night",
    "Melodist.C119_night_midnight",
    "Melodist.C119_mean_midnight",
    "Melodist.C119_fixed"
   ],
   "note": ""
  },
  {
   "property": "C120",
   "status": "proved",
   "theorems": [
    "Melodist.C120_mean_course_min_max",
    "Melodist.C120_mean_course_mean",
    "Melodist.C120_radiation",
    "Melodist.C120_radiation_use",
    "Melodist.C120_radiation_cut",
    "Melodist.C120_humidity",
    "Melodist.C120_shift_mean",
    "Melodist.C120_shift_sine"
   ],
   "note": ""
  },
  {
   "property": "C121",
   "status": "proved",
   "theorems": [
    "Melodist.C121_dwd",
    "Melodist.C121_smet",
    "Melodist.C121_temperature",
    "Melodist.C121_station"
   ],
   "note": ""
  },
  {
   "property": "C122",
   "status": "proved",
   "theorems": [
    "Melodist.C122_options",
    "Melodist.C122_sine_curve",
    "Melodist.C122_columns"
   ],
   "note": ""
  },
  {
   "property": "C123",
   "status": "proved",
   "theorems": [
    "Melodist.C123_values",
    "Melodist.C123_returns",
    "Melodist.C123_gaps",
    "Melodist.C123_amount",
    "Melodist.C123_month",
    "Melodist.C123_minutes",
    "Melodist.C123_minutes_gap"
   ],
   "note": ""
  },
  {
   "property": "C124",
   "status": "proved",
   "theorems": [
    "Melodist.C124_temperature",
    "Melodist.C124_radiation",
    "Melodist.C124_sun_times",
    "Melodist.C124_potential_radiation",
    "Melodist.C124_wind",
    "Melodist.C124_humidity",
    "Melodist.C124_cascade",
    "Melodist.C124_master_station",
    "Melodist.C124_equal",
    "Melodist.C124_calendar"
   ],
   "note": ""
  },
  {
   "property": "C125",
   "status": "proved",
   "theorems": [
    "Melodist.C125_potential_radiation",
    "Melodist.C125_radiation",
    "Melodist.C125_sun_times",
    "Melodist.C125_same_clock",
    "Melodist.C125_longitude_360"
   ],
   "note": ""
  },
  {
   "property": "C126",
   "status": "proved",
   "theorems": [
    "Melodist.C126_mean_course",
    "Melodist.C126_course_lookup",
    "Melodist.C126_wind",
    "Melodist.C126_wind_same",
    "Melodist.C126_month_hour_precip",
    "Melodist.C126_dewpoint",
    "Melodist.C126_shift",
    "Melodist.C126_radiation_rows",
    "Melodist.C126_wind_table",
    "Melodist.C126_shift_table",
    "Melodist.C126_cascade_differs"
   ],
   "note": ""
  },
  {
   "property": "C127",
   "status": "proved",
   "theorems": [
    "Melodist.C127_mean_course",
    "Melodist.C127_wind",
    "Melodist.C127_month_hour_precip",
    "Melodist.C127_dewpoint",
    "Melodist.C127_shift",
    "Melodist.C127_cascade",
    "Melodist.StatsObj.C127_calc_wind",
    "Melodist.StatsObj.C127_calc_humidity",
    "Melodist.StatsObj.C127_calc_temperature",
    "Melodist.StatsObj.C127_calc_precipitation",
    "Melodist.StatsObj.C127_calc_radiation"
   ],
   "note": ""
  },
  {
   "property": "C128",
   "status": "proved",
   "theorems": [
    "Melodist.C128_exact",
    "Melodist.C128_statistics",
    "Melodist.C128_cascade_returns",
    "Melodist.C128_fit_and_run",
    "Melodist.C128_double",
    "Melodist.C128_can_fail"
   ],
   "note": ""
  },
  {
   "property": "C129",
   "status": "proved",
   "theorems": [
    "Melodist.C129_cascade_total",
    "Melodist.C129_cascade_cells",
    "Melodist.C129_cascade_binary64",
    "Melodist.C129_underflow",
    "Melodist.C129_equal_binary64",
    "Melodist.C129_master_binary64"
   ],
   "note": ""
  },
  {
   "property": "C130",
   "status": "proved",
   "theorems": [
    "Melodist.C130_smet",
    "Melodist.C130_knmi",
    "Melodist.C130_knmi_dataset",
    "Melodist.C130_dwd"
   ],
   "note": ""
  },
  {
   "property": "C131",
   "status": "proved",
   "theorems": [
    "Melodist.C131_exact",
    "Melodist.C131_cascade_5min",
    "Melodist.C131_sums",
    "Melodist.C131_binary64"
   ],
   "note": ""
  },
  {
   "property": "C132",
   "status": "proved",
   "theorems": [
    "Melodist.C132_slope",
    "Melodist.C132_true_in_the_south",
    "Melodist.C132_when_south",
    "Melodist.C132_mirrored_in_the_north",
    "Melodist.C132_southern_noon",
    "Melodist.C132_summer_morning"
   ],
   "note": ""
  },
  {
   "property": "C133",
   "status": "proved",
   "theorems": [
    "Melodist.C133_exact",
    "Melodist.C133_normalised",
    "Melodist.C133_error",
    "Melodist.C133_temperature"
   ],
   "note": ""
  },
  {
   "property": "C134",
   "status": "proved",
   "theorems": [
    "Melodist.C134_exact",
    "Melodist.C134_slope",
    "Melodist.C134_against_exact",
    "Melodist.C134_horizontal"
   ],
   "note": ""
  },
  {
   "property": "C135",
   "status": "proved",
   "theorems": [
    "Melodist.C135_exact",
    "Melodist.C135_never_missing",
    "Melodist.C135_accuracy"
   ],
   "note": ""
  },
  {
   "property": "C136",
   "status": "proved",
   "theorems": [
    "Melodist.C136_halves",
    "Melodist.C136_boxes",
    "Melodist.C136_hours",
    "Melodist.C136_balanced"
   ],
   "note": ""
  },
  {
   "property": "C137",
   "status": "proved",
   "theorems": [
    "Melodist.C137_levels",
    "Melodist.C137_hours"
   ],
   "note": ""
  },
  {
   "property": "C138",
   "status": "proved",
   "theorems": [
    "Melodist.C138_radiation",
    "Melodist.C138_coordinates",
    "Melodist.C138_sun_times"
   ],
   "note": ""
  },
  {
   "property": "C139",
   "status": "proved",
   "theorems": [
    "Melodist.C139_exact",
    "Melodist.C139_accuracy",
    "Melodist.C139_saturated",
    "Melodist.C139_array",
    "Melodist.C139_jump"
   ],
   "note": ""
  },
  {
   "property": "C140",
   "status": "proved",
   "theorems": [
    "Melodist.C140_random_numbers",
    "Melodist.C140_dry_spell",
    "Melodist.C140_dry_spell_hours",
    "Melodist.C140_dry_ends",
    "Melodist.C140_dry_ends_hours"
   ],
   "note": ""
  },
  {
   "property": "C141",
   "status": "proved",
   "theorems": [
    "Melodist.C141_hours",
    "Melodist.C141_hours_in_order",
    "Melodist.C141_neighbours",
    "Melodist.C141_hours_returns",
    "Melodist.C141_five",
    "Melodist.C141_five_in_order",
    "Melodist.C141_five_returns"
   ],
   "note": ""
  },
  {
   "property": "C142",
   "status": "proved",
   "theorems": [
    "Melodist.C142_halves",
    "Melodist.C142_boxes",
    "Melodist.C142_count",
    "Melodist.C142_hours",
    "Melodist.C142_hour"
   ],
   "note": ""
  },
  {
   "property": "C143",
   "status": "proved",
   "theorems": [
    "Melodist.C143_unbiased",
    "Melodist.C143_error",
    "Melodist.C143_half_days"
   ],
   "note": ""
  },
  {
   "property": "C144",
   "status": "proved",
   "theorems": [
    "Melodist.C144_nearest",
    "Melodist.C144_zero",
    "Melodist.C144_slinear",
    "Melodist.C144_spline",
    "Melodist.C144_pad",
    "Melodist.C144_backfill",
    "Melodist.C144_index",
    "Melodist.C144_errors",
    "Melodist.C144_range",
    "Melodist.C144_overshoot"
   ],
   "note": ""
  },
  {
   "property": "C145",
   "status": "proved",
   "theorems": [
    "Melodist.C145_wind",
    "Melodist.C145_humidity",
    "Melodist.C145_precipitation",
    "Melodist.C145_cascade",
    "Melodist.C145_five_minutes",
    "Melodist.C145_sine_mean",
    "Melodist.C145_course_mean",
    "Melodist.C145_course_min_max",
    "Melodist.C145_radiation",
    "Melodist.C145_radiation_lost",
    "Melodist.C145_left_sum",
    "Melodist.C145_left_mean",
    "Melodist.C145_mean_below_min"
   ],
   "note": ""
  },
  {
   "property": "C146",
   "status": "proved",
   "theorems": [
    "Melodist.C146_exact",
    "Melodist.C146_angstroem",
    "Melodist.C146_via_ssd",
    "Melodist.C146_via_bc",
    "Melodist.C146_via_bc_le"
   ],
   "note": ""
  },
  {
   "property": "C147",
   "status": "proved",
   "theorems": [
    "Melodist.C147_exact",
    "Melodist.C147_smet",
    "Melodist.C147_smet_again",
    "Melodist.C147_knmi",
    "Melodist.C147_dwd"
   ],
   "note": ""
  },
  {
   "property": "C148",
   "status": "proved",
   "theorems": [
    "Melodist.C148_independent",
    "Melodist.C148_deviation",
    "Melodist.C148_hours",
    "Melodist.C148_balanced",
    "Melodist.C148_wet",
    "Melodist.C148_limit"
   ],
   "note": ""
  },
  {
   "property": "C149",
   "status": "proved",
   "theorems": [
    "Melodist.C149_plain",
    "Melodist.C149_compensated",
    "Melodist.C149_daily",
    "Melodist.C149_exact",
    "Melodist.C149_dry",
    "Melodist.C149_order",
    "Melodist.C149_range",
    "Melodist.C149_tests"
   ],
   "note": ""
  },
  {
   "property": "C150",
   "status": "proved",
   "theorems": [
    "Melodist.StatsObj.C150_no_data",
    "Melodist.StatsObj.C150_missing_column",
    "Melodist.StatsObj.C150_no_seasons",
    "Melodist.StatsObj.C150_success"
   ],
   "note": ""
  },
  {
   "property": "C151",
   "status": "proved",
   "theorems": [
    "Melodist.C151_table",
    "Melodist.C151_humidity",
    "Melodist.C151_course",
    "Melodist.C151_exact"
   ],
   "note": ""
  },
  {
   "property": "C152",
   "status": "proved",
   "theorems": [
    "Melodist.C152_exact",
    "Melodist.C152_dewpoint",
    "Melodist.C152_regression",
    "Melodist.C152_perturbed"
   ],
   "note": ""
  },
  {
   "property": "C153",
   "status": "proved",
   "theorems": [
    "Melodist.C153_shift",
    "Melodist.C153_hours",
    "Melodist.C153_long_days",
    "Melodist.C153_temperature",
    "Melodist.C153_exact"
   ],
   "note": ""
  },
  {
   "property": "C154",
   "status": "proved",
   "theorems": [
    "Melodist.C154_same",
    "Melodist.C154_probability",
    "Melodist.C154_expectation"
   ],
   "note": ""
  },
  {
   "property": "C155",
   "status": "proved",
   "theorems": [
    "Melodist.C155_hours",
    "Melodist.C155_distribution"
   ],
   "note": ""
  },
  {
   "property": "C156",
   "status": "proved",
   "theorems": [
    "Melodist.C156_shift",
    "Melodist.C156_course",
    "Melodist.C156_sunshine",
    "Melodist.C156_bristow_campbell"
   ],
   "note": ""
  },
  {
   "property": "C157",
   "status": "proved",
   "theorems": [
    "Melodist.C157_accuracy",
    "Melodist.C157_constant",
    "Melodist.C157_keeps",
    "Melodist.C157_exact"
   ],
   "note": ""
  },
  {
   "property": "C158",
   "status": "proved",
   "theorems": [
    "Melodist.C158_temperature",
    "Melodist.C158_humidity",
    "Melodist.C158_radiation",
    "Melodist.C158_precipitation",
    "Melodist.C158_interpolate",
    "Melodist.C158_programs",
    "Melodist.C158_extra_column"
   ],
   "note": ""
  },
  {
   "property": "C159",
   "status": "proved",
   "theorems": [
    "Melodist.C159_daily_from_hourly",
    "Melodist.C159_methods",
    "Melodist.C159_histories"
   ],
   "note": ""
  },
  {
   "property": "C160",
   "status": "proved",
   "theorems": [
    "Melodist.C160_halves",
    "Melodist.C160_boxes",
    "Melodist.C160_day",
    "Melodist.C160_hours",
    "Melodist.C160_heavy"
   ],
   "note": ""
  },
  {
   "property": "C161",
   "status": "proved",
   "theorems": [
    "Melodist.C161_moments",
    "Melodist.C161_variance",
    "Melodist.C161_averages",
    "Melodist.C161_maximum"
   ],
   "note": ""
  },
  {
   "property": "C162",
   "status": "proved",
   "theorems": [
    "Melodist.C162_columns",
    "Melodist.C162_shares",
    "Melodist.C162_rounding",
    "Melodist.C162_failures",
    "Melodist.C162_hour"
   ],
   "note": ""
  },
  {
   "property": "C163",
   "status": "proved",
   "theorems": [
    "Melodist.C163_wind",
    "Melodist.C163_temperature",
    "Melodist.C163_humidity_dewpoint",
    "Melodist.C163_humidity_categories",
    "Melodist.C163_angstroem",
    "Melodist.C163_bristow_campbell"
   ],
   "note": ""
  },
  {
   "property": "C164",
   "status": "proved",
   "theorems": [
    "Melodist.C164_master",
    "Melodist.C164_master_dry",
    "Melodist.C164_radiation",
    "Melodist.C164_humidity_minmax",
    "Melodist.C164_humidity_linear"
   ],
   "note": ""
  },
  {
   "property": "C165",
   "status": "proved",
   "theorems": [
    "Melodist.C165_course",
    "Melodist.C165_normalised",
    "Melodist.C165_daily",
    "Melodist.C165_table",
    "Melodist.C165_temperature",
    "Melodist.C165_humidity"
   ],
   "note": ""
  },
  {
   "property": "C166",
   "status": "proved",
   "theorems": [
    "Melodist.C166_dewpoint",
    "Melodist.C166_shift",
    "Melodist.C166_shift_jump",
    "Melodist.C166_regression"
   ],
   "note": ""
  },
  {
   "property": "C167",
   "status": "proved",
   "theorems": [
    "Melodist.C167_cascade",
    "Melodist.C167_errors"
   ],
   "note": ""
  },
  {
   "property": "C168",
   "status": "proved",
   "theorems": [
    "Melodist.C168_angstroem",
    "Melodist.C168_angstroem_slope",
    "Melodist.C168_angstroem_truth",
    "Melodist.C168_wind"
   ],
   "note": ""
  },
  {
   "property": "C169",
   "status": "proved",
   "theorems": [
    "Melodist.C169_five",
    "Melodist.C169_errors"
   ],
   "note": ""
  },
  {
   "property": "C170",
   "status": "proved",
   "theorems": [
    "Melodist.C170_angstroem",
    "Melodist.C170_truth"
   ],
   "note": ""
  },
  {
   "property": "C171",
   "status": "proved",
   "theorems": [
    "Melodist.C171_dewpoint"
   ],
   "note": ""
  },
  {
   "property": "C172",
   "status": "proved",
   "theorems": [
    "Melodist.World.C172_same_results"
   ],
   "note": ""
  },
  {
   "property": "C173",
   "status": "proved",
   "theorems": [
    "Melodist.C173_wind",
    "Melodist.C173_per_hour",
    "Melodist.C173_truth"
   ],
   "note": ""
  },
  {
   "property": "C174",
   "status": "proved",
   "theorems": [
    "Melodist.C174_total"
   ],
   "note": ""
  },
  {
   "property": "C175",
   "status": "proved",
   "theorems": [
    "Melodist.C175_squares",
    "Melodist.C175_weighted_totals",
    "Melodist.C175_total",
    "Melodist.C175_plain_total_not_kept"
   ],
   "note": ""
  },
  {
   "property": "C176",
   "status": "proved",
   "theorems": [
    "Melodist.C176_recovers"
   ],
   "note": ""
  },
  {
   "property": "C177",
   "status": "proved",
   "theorems": [
    "Melodist.C177_recovers",
    "Melodist.C177_cut"
   ],
   "note": ""
  },
  {
   "property": "C178",
   "status": "proved",
   "theorems": [
    "Melodist.C178_dew_totals"
   ],
   "note": ""
  },
  {
   "property": "C179",
   "status": "proved",
   "theorems": [
    "Melodist.C179_course_kept",
    "Melodist.C179_variability"
   ],
   "note": ""
  },
  {
   "property": "C180",
   "status": "proved",
   "theorems": [
    "Melodist.C180_recovers"
   ],
   "note": ""
  },
  {
   "property": "C181",
   "status": "proved",
   "theorems": [
    "Melodist.C181_statistics",
    "Melodist.C181_dewpoint"
   ],
   "note": ""
  }
 ]
}