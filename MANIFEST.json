{
 "claims": [
  {
   "property": "C01",
   "status": "proved",
   "theorems": [
    "Ramp.C01_random_variation_band",
    "Ramp.C01_random_variation_interval",
    "Ramp.C01_random_variation_zero"
   ],
   "note": ""
  },
  {
   "property": "C02",
   "status": "proved",
   "theorems": [
    "Ramp.C02_duty_cycle_shape",
    "Ramp.C02_duty_cycle_exact",
    "Ramp.C02_duty_cycle_negative",
    "Ramp.C02_duty_cycle_negative_second"
   ],
   "note": ""
  },
  {
   "property": "C03",
   "status": "proved",
   "theorems": [
    "Ramp.C03_random_choice"
   ],
   "note": ""
  },
  {
   "property": "C04",
   "status": "proved",
   "theorems": [
    "Ramp.C04_within_peak",
    "Ramp.C04_range_within_window",
    "Ramp.C04_ends_order_irrelevant"
   ],
   "note": ""
  },
  {
   "property": "C05",
   "status": "proved",
   "theorems": [
    "Ramp.C05_calendar",
    "Ramp.C05_day_type",
    "Ramp.C05_yearly_pattern",
    "Ramp.C05_default_pattern",
    "Ramp.C05_patterns_agree"
   ],
   "note": ""
  },
  {
   "property": "C06",
   "status": "proved",
   "theorems": [
    "Ramp.C06_randomised_window",
    "Ramp.C06_stays_in_day",
    "Ramp.C06_no_variability",
    "Ramp.C06_reversed_iff",
    "Ramp.C06_windows_of_the_day"
   ],
   "note": ""
  },
  {
   "property": "C07",
   "status": "proved",
   "theorems": [
    "Ramp.C07_time_of_use_exact",
    "Ramp.C07_time_of_use_bounds",
    "Ramp.C07_no_variability"
   ],
   "note": ""
  },
  {
   "property": "C08",
   "status": "proved",
   "theorems": [
    "Ramp.C08_failure_iff",
    "Ramp.C08_negative_total"
   ],
   "note": ""
  },
  {
   "property": "C09",
   "status": "proved",
   "theorems": [
    "Ramp.C09_event_in_free_range",
    "Ramp.C09_events_exact",
    "Ramp.C09_events_exact_cycles"
   ],
   "note": ""
  },
  {
   "property": "C10",
   "status": "proved",
   "theorems": [
    "Ramp.C10_none_iff"
   ],
   "note": ""
  },
  {
   "property": "C11",
   "status": "proved",
   "theorems": [
    "Ramp.C11_only_recursion_error",
    "Ramp.C11_never_raises",
    "Ramp.C11_hypothesis_met"
   ],
   "note": ""
  },
  {
   "property": "C12",
   "status": "proved",
   "theorems": [
    "Ramp.C12_booking_exact",
    "Ramp.C12_touching_ranges",
    "Ramp.C12_booking_sound"
   ],
   "note": ""
  },
  {
   "property": "C13",
   "status": "partial",
   "theorems": [
    "Ramp.C13_no_overlap_partial",
    "Ramp.C13_no_overlap_declared_partial",
    "Ramp.C13_overlap_possible",
    "Ramp.C13_no_clash_partial",
    "Ramp.C13_touching_windows_partial",
    "Ramp.C13_exactly_when_partial"
   ],
   "note": "False for windows that touch or overlap (C13_overlap_possible, a run of an appliance built through the API); proved when the windows of the day are apart. Exact for appliances without duty cycles: a minute can be used twice if and only if two windows of the day can clash and the time of use exceeds func_cycle (C13_exactly_when_partial); touching windows are safe when func_cycle is at least 2 (C13_touching_windows_partial)."
  },
  {
   "property": "C14",
   "status": "proved",
   "theorems": [
    "Ramp.C14_total_time",
    "Ramp.C14_no_room_left"
   ],
   "note": ""
  },
  {
   "property": "C15",
   "status": "proved",
   "theorems": [
    "Ramp.C15_loop_bound",
    "Ramp.C15_terminates"
   ],
   "note": ""
  },
  {
   "property": "C16",
   "status": "partial",
   "theorems": [
    "Ramp.C16_minimum_on_time_partial",
    "Ramp.C16_short_event_possible",
    "Ramp.C16_exactly_when_partial"
   ],
   "note": "False for the last event of the day, which is cut to the time of use left (C16_short_event_possible); proved for all others; exact condition for one window without duty cycles (C16_exactly_when_partial)."
  },
  {
   "property": "C17",
   "status": "proved",
   "theorems": [
    "Ramp.C17_coincidence",
    "Ramp.C17_distribution",
    "Ramp.C17_event_number"
   ],
   "note": ""
  },
  {
   "property": "C18",
   "status": "proved",
   "theorems": [
    "Ramp.C18_zero_outside_randomised",
    "Ramp.C18_zero_outside_windows"
   ],
   "note": ""
  },
  {
   "property": "C19",
   "status": "proved",
   "theorems": [
    "Ramp.C19_minute_values",
    "Ramp.C19_exact_multiples",
    "Ramp.C19_constant_during_event"
   ],
   "note": ""
  },
  {
   "property": "C20",
   "status": "proved",
   "theorems": [
    "Ramp.C20_profile_bounds"
   ],
   "note": ""
  },
  {
   "property": "C21",
   "status": "partial",
   "theorems": [
    "Ramp.C21_minutes_in_use_partial",
    "Ramp.C21_flat_minutes",
    "Ramp.C21_flat_exceeds"
   ],
   "note": "False for flat appliances (C21_flat_exceeds), which are on exactly during the windows of the day (C21_flat_minutes); proved for all others."
  },
  {
   "property": "C22",
   "status": "proved",
   "theorems": [
    "Ramp.C22_skipped",
    "Ramp.C22_skip_possible_iff"
   ],
   "note": ""
  },
  {
   "property": "C23",
   "status": "proved",
   "theorems": [
    "Ramp.C23_flat_deterministic"
   ],
   "note": ""
  },
  {
   "property": "C24",
   "status": "partial",
   "theorems": [
    "Ramp.C24_cycle_layout_partial",
    "Ramp.C24_last_event",
    "Ramp.C24_overwritten_possible",
    "Ramp.C24_samples"
   ],
   "note": "False when windows touch or overlap: a later event can overwrite a minute of an earlier one (C24_overwritten_possible, C13). Proved for windows of the day that are apart, and for all windows at every minute that no later event covers (C24_last_event)."
  },
  {
   "property": "C25",
   "status": "proved",
   "theorems": [
    "Ramp.C25_cycle_selection"
   ],
   "note": ""
  },
  {
   "property": "C26",
   "status": "partial",
   "theorems": [
    "Ramp.C26_configured_partial",
    "Ramp.C26_minute_zero",
    "Ramp.C26_unconfigured_cycle_possible"
   ],
   "note": "False: the default cycle window [0,0] of an unconfigured cycle matches events containing minute 0 (C26_unconfigured_cycle_possible); proved for events without minute 0. C26_minute_zero: with a default window in the first cycle every event containing minute 0 uses the first cycle, and the claim fails for events starting at minute 0 only."
  },
  {
   "property": "C27",
   "status": "proved",
   "theorems": [
    "Ramp.C27_single_shot",
    "Ramp.C27_not_cut_early"
   ],
   "note": ""
  },
  {
   "property": "C28",
   "status": "partial",
   "theorems": [
    "Ramp.C28_recursion_error_iff",
    "Ramp.C28_no_recursion_error_partial",
    "Ramp.C28_one_cycle_two_windows_partial",
    "Ramp.C28_three_windows_always_crash",
    "Ramp.C28_exact"
   ],
   "note": "False: with one cycle and three windows events in window 3 never match (C28_three_windows_always_crash: always crashes). Exact condition for one event (C28_recursion_error_iff); absence of the error under coverage. C28_exact: for a whole day of a valid appliance with duty cycles, the RecursionError is possible exactly when some possible window of the day holds a shortest event that overlaps no duty cycle window."
  },
  {
   "property": "C29",
   "status": "partial",
   "theorems": [
    "Ramp.C29_invalid_window_iff",
    "Ramp.C29_accepts_iff",
    "Ramp.C29_ordered",
    "Ramp.C29_windows_establish",
    "Ramp.C29_outside_day_accepted",
    "Ramp.C29_fits_in_day_partial"
   ],
   "note": "'fits in the day' is false: windows() accepts negative windows that do not wrap and [1440,1441] (C29_outside_day_accepted); the InvalidWindow equivalence, the exact acceptance condition and the in-day case are proved."
  },
  {
   "property": "C30",
   "status": "partial",
   "theorems": [
    "Ramp.C30_rejected_unchanged_partial",
    "Ramp.C30_invalid_window_partial",
    "Ramp.C30_outcomes_partial",
    "Ramp.C30_left_behind"
   ],
   "note": "False when a duty cycle has a negative duration: specific_cycle raises after windows() registered the appliance (C30_left_behind); proved in all other cases. C30_outcomes_partial: an error leaves the user unchanged or is that ValueError with exactly the new appliance appended."
  },
  {
   "property": "C31",
   "status": "partial",
   "theorems": [
    "Ramp.C31_idempotent",
    "Ramp.C31_extends",
    "Ramp.C31_histories"
   ],
   "note": "Proved for every history: no object twice, names assigned, list only extended at its end, re-adding an owned object changes nothing. 'adding a different one appends' is false for an object == to an owned one (see C32)."
  },
  {
   "property": "C32",
   "status": "partial",
   "theorems": [
    "Ramp.C32_counted_partial",
    "Ramp.C32_counted_or_equal_partial",
    "Ramp.C32_equal_appliance_dropped"
   ],
   "note": "False: an appliance equal to an owned one is silently dropped (C32_equal_appliance_dropped); proved when the name is new. C32_counted_or_equal_partial: in all cases the returned appliance is appended, or the user is unchanged and owns an appliance equal to the returned one."
  },
  {
   "property": "C33",
   "status": "proved",
   "theorems": [
    "Ramp.C33_equality_iff",
    "Ramp.C33_reflexive",
    "Ramp.C33_symmetric",
    "Ramp.C33_transitive",
    "Ramp.C33_broadcast_breaks_transitivity",
    "Ramp.C33_raises_iff"
   ],
   "note": "As stated, for powers of the same length; C33_broadcast_breaks_transitivity shows the hypothesis is needed."
  },
  {
   "property": "C34",
   "status": "partial",
   "theorems": [
    "Ramp.C34_always_equal",
    "Ramp.C34_equal_users_partial"
   ],
   "note": "False: any two users compare equal (C34_always_equal)."
  },
  {
   "property": "C35",
   "status": "partial",
   "theorems": [
    "Ramp.C35_fresh_profile_partial",
    "Ramp.C35_user_profile",
    "Ramp.C35_history_dependent"
   ],
   "note": "The fresh profile is proved; independence of the history is false (C35_history_dependent)."
  },
  {
   "property": "C36",
   "status": "proved",
   "theorems": [
    "Ramp.C36_add_user",
    "Ramp.C36_invalid_type"
   ],
   "note": ""
  },
  {
   "property": "C37",
   "status": "partial",
   "theorems": [
    "Ramp.C37_consistent_partial",
    "Ramp.C37_always_partial",
    "Ramp.C37_full_statement_is_false_partial"
   ],
   "note": "Proved for every initialize() on a use case not left behind by a failed one; false after a failed initialize (C37_full_statement_is_false_partial)."
  },
  {
   "property": "C38",
   "status": "proved",
   "theorems": [
    "Ramp.C38_number_of_days",
    "Ramp.C38_from_start_to_end",
    "Ramp.C38_number_typed"
   ],
   "note": ""
  },
  {
   "property": "C39",
   "status": "partial",
   "theorems": [
    "Ramp.C39_without_force_partial",
    "Ramp.C39_with_force_partial",
    "Ramp.C39_old_number_partial",
    "Ramp.C39_full_statement_is_false_partial"
   ],
   "note": "Without force nothing changes (proved); with force the days follow the dates when num_days is given anew; false otherwise: the stale num_days is kept (C39_full_statement_is_false_partial)."
  },
  {
   "property": "C40",
   "status": "proved",
   "theorems": [
    "Ramp.C40_never_empty",
    "Ramp.C40_possible_ranges",
    "Ramp.C40_method"
   ],
   "note": ""
  },
  {
   "property": "C41",
   "status": "partial",
   "theorems": [
    "Ramp.C41_windows_on_a_grid_partial",
    "Ramp.C41_fails_only_for_one_minute_partial",
    "Ramp.C41_full_statement_is_false_partial"
   ],
   "note": "False: raises IndexError exactly when the maximum load has a single peak minute (C41_fails_only_for_one_minute_partial, witness C41_full_statement_is_false_partial). It cannot happen if all windows were given on a grid of k \u2265 2 minutes dividing the day (C41_windows_on_a_grid_partial)."
  },
  {
   "property": "C42",
   "status": "proved",
   "theorems": [
    "Ramp.C42_peak_enlarge",
    "Ramp.C42_total"
   ],
   "note": ""
  },
  {
   "property": "C43",
   "status": "partial",
   "theorems": [
    "Ramp.C43_powers_cover_partial",
    "Ramp.C43_short_series_partial",
    "Ramp.C43_constant_power_nonempty_partial",
    "Ramp.C43_full_statement_is_false_partial"
   ],
   "note": "Proved for the appliances collected at construction; false for users added later (C43_full_statement_is_false_partial)."
  },
  {
   "property": "C44",
   "status": "proved",
   "theorems": [
    "Ramp.C44_shape"
   ],
   "note": ""
  },
  {
   "property": "C45",
   "status": "proved",
   "theorems": [
    "Ramp.C45_superposition",
    "Ramp.C45_ready"
   ],
   "note": ""
  },
  {
   "property": "C46",
   "status": "proved",
   "theorems": [
    "Ramp.C46_bounds"
   ],
   "note": ""
  },
  {
   "property": "C47",
   "status": "proved",
   "theorems": [
    "Ramp.C47_other_day_types",
    "Ramp.C47_use_case"
   ],
   "note": ""
  },
  {
   "property": "C48",
   "status": "proved",
   "theorems": [
    "Ramp.C48_one_preference",
    "Ramp.C48_unreachable_preference",
    "Ramp.C48_single_profile",
    "Ramp.C48_every_preference",
    "Ramp.C48_use_case"
   ],
   "note": ""
  },
  {
   "property": "C49",
   "status": "proved",
   "theorems": [
    "Ramp.C49_configuration_unchanged",
    "Ramp.C49_same_attributes"
   ],
   "note": ""
  },
  {
   "property": "C50",
   "status": "partial",
   "theorems": [
    "Ramp.C50_reproducible_partial",
    "Ramp.C50_with_dates_partial",
    "Ramp.C50_seed_zero_ignored_partial",
    "Ramp.C50_dates_before_seed_partial",
    "Ramp.C50_seed_zero_false_partial"
   ],
   "note": "Proved for a seed other than 0 without both dates; with both dates equal up to the peak time range, computed before seeding (C50_dates_before_seed_partial: different profiles); seed 0 is ignored (C50_seed_zero_*). Workers of parallel mode draw from their own generators."
  },
  {
   "property": "C51",
   "status": "proved",
   "theorems": [
    "Ramp.C51_schedule_independent",
    "Ramp.C51_per_day_sums"
   ],
   "note": ""
  },
  {
   "property": "C52",
   "status": "partial",
   "theorems": [
    "Ramp.C52_same_results_partial",
    "Ramp.C52_no_new_failures_partial",
    "Ramp.C52_preferences_lost_partial",
    "Ramp.C52_key_error_partial"
   ],
   "note": "False for users with preferences (C52_preferences_lost_partial) and days without runs (C52_key_error_partial); otherwise the possible results are exactly those of sequential mode and no new failures."
  },
  {
   "property": "C53",
   "status": "proved",
   "theorems": [
    "Ramp.C53_save_then_load",
    "Ramp.C53_save_load_save"
   ],
   "note": "For users with distinct non-empty names, at least one appliance, distinct appliances whose windows are set inside the day, and a power that is constant or a 366-day series not ending with its first value (the exceptions are C54 and C57); the power lengths comparable with numpy >= 1.25."
  },
  {
   "property": "C54",
   "status": "partial",
   "theorems": [
    "Ramp.C54_saved_power_partial",
    "Ramp.C54_number_iff_ends_agree_partial",
    "Ramp.C54_series_lost_partial"
   ],
   "note": "False for series that end with their first value (C54_series_lost_partial); exact condition C54_number_iff_ends_agree_partial."
  },
  {
   "property": "C55",
   "status": "partial",
   "theorems": [
    "Ramp.C55_one_column_partial",
    "Ramp.C55_two_columns_partial"
   ],
   "note": "False for two columns: the timestamps become the power (C55_two_columns_partial)."
  },
  {
   "property": "C56",
   "status": "proved",
   "theorems": [
    "Ramp.C56_grouping",
    "Ramp.C56_value_error_iff"
   ],
   "note": ""
  },
  {
   "property": "C57",
   "status": "partial",
   "theorems": [
    "Ramp.C57_nothing_to_save_partial",
    "Ramp.C57_other_length_partial",
    "Ramp.C57_nameless_user_partial",
    "Ramp.C57_same_name_partial",
    "Ramp.C57_time_exceeds_windows_partial",
    "Ramp.C57_programs_partial",
    "Ramp.C57_mixed_powers_partial"
   ],
   "note": "False for use cases without users or appliances, nameless or same-named users, series of other lengths, windows not set, mixed powers with numpy >= 1.25 (one theorem each); proved for users built by programs with sensible arguments (C57_programs_partial)."
  },
  {
   "property": "C58",
   "status": "proved",
   "theorems": [
    "Ramp.C58_legacy_constructor",
    "Ramp.C58_same_as_add_appliance"
   ],
   "note": ""
  },
  {
   "property": "C59",
   "status": "proved",
   "theorems": [
    "Ramp.C59_plan",
    "Ramp.C59_lengths",
    "Ramp.C59_year_and_date",
    "Ramp.C59_main"
   ],
   "note": ""
  },
  {
   "property": "C60",
   "status": "proved",
   "theorems": [
    "Ramp.C60_inside_year",
    "Ramp.C60_as_given"
   ],
   "note": ""
  },
  {
   "property": "C61",
   "status": "partial",
   "theorems": [
    "Ramp.C61_distinct_paths_partial",
    "Ramp.C61_same_path_partial",
    "Ramp.C61_lost_partial"
   ],
   "note": "False when two inputs share a result path (one -o for several files, same base name in two folders, \".\" and \"_\" in names): C61_lost_partial, C61_same_path_partial says exactly what is left; proved for distinct result paths (C61_distinct_paths_partial)."
  },
  {
   "property": "C62",
   "status": "partial",
   "theorems": [
    "Ramp.C62_order_partial",
    "Ramp.C62_numbered_partial",
    "Ramp.C62_order_false_partial",
    "Ramp.C62_twelve_files",
    "Ramp.C62_year",
    "Ramp.C62_every_minute",
    "Ramp.C62_hours"
   ],
   "note": "Length, leap years, every minute and every hour proved for all years (C62_year, C62_every_minute, C62_hours). The order is by the digits of the whole path: false for some folders (C62_order_false_partial), proved when the names decide (C62_order_partial, C62_numbered_partial)."
  },
  {
   "property": "C63",
   "status": "partial",
   "theorems": [
    "Ramp.C63_n_days_partial",
    "Ramp.C63_both_dates_partial",
    "Ramp.C63_ignored_partial"
   ],
   "note": "False when both dates are given: -n is ignored (C63_ignored_partial, C63_both_dates_partial); proved otherwise."
  },
  {
   "property": "C64",
   "status": "partial",
   "theorems": [
    "Ramp.C64_draws_partial",
    "Ramp.C64_same_for_all_files_partial",
    "Ramp.C64_at_noon_partial"
   ],
   "note": "False: the range is computed before the file is loaded, so it is centred at noon for every file (C64_draws_partial, C64_same_for_all_files_partial and the witness)."
  },
  {
   "property": "C65",
   "status": "proved",
   "theorems": [
    "Ramp.C65_formatting"
   ],
   "note": ""
  },
  {
   "property": "C66",
   "status": "proved",
   "theorems": [
    "Ramp.C66_load_duration_curve"
   ],
   "note": ""
  },
  {
   "property": "C67",
   "status": "proved",
   "theorems": [
    "Ramp.C67_sum_is_kept",
    "Ramp.C67_bins",
    "Ramp.C67_mean_between"
   ],
   "note": ""
  },
  {
   "property": "C68",
   "status": "partial",
   "theorems": [
    "Ramp.C68_peak",
    "Ramp.C68_error_partial",
    "Ramp.C68_zero_validation_partial",
    "Ramp.C68_missing_data_partial"
   ],
   "note": "peak proved; error false where the validation value is 0 (infinite, C68_zero_validation_partial) and where a value is missing (0, C68_missing_data_partial); proved elsewhere."
  },
  {
   "property": "C69",
   "status": "partial",
   "theorems": [
    "Ramp.C69_add_column",
    "Ramp.C69_any_index_partial"
   ],
   "note": "add_column proved; 'a frame without DatetimeIndex is rejected' is false (C69_any_index_partial): the check in _validate_df is a non-empty tuple, always true."
  },
  {
   "property": "C70",
   "status": "partial",
   "theorems": [
    "Ramp.C70_conversion_edits",
    "Ramp.C70_empty_file_partial",
    "Ramp.C70_second_conversion_partial",
    "Ramp.C70_conversions_settle_partial",
    "Ramp.C70_two_imports_partial"
   ],
   "note": "False for files with several old import lines: one line is changed per conversion (C70_two_imports_partial; n lines take n conversions, C70_conversions_settle_partial); an empty file raises IndexError."
  },
  {
   "property": "C71",
   "status": "proved",
   "theorems": [
    "Ramp.C71_cycles_of_the_day",
    "Ramp.C71_cycles_exact"
   ],
   "note": ""
  },
  {
   "property": "C72",
   "status": "proved",
   "theorems": [
    "Ramp.C72_never_raises"
   ],
   "note": ""
  },
  {
   "property": "C73",
   "status": "proved",
   "theorems": [
    "Ramp.C73_built_appliances_are_simulable",
    "Ramp.C73_profile_zero_outside_windows"
   ],
   "note": ""
  },
  {
   "property": "C74",
   "status": "proved",
   "theorems": [
    "Ramp.C74_simulations_independent"
   ],
   "note": ""
  },
  {
   "property": "C75",
   "status": "partial",
   "theorems": [
    "Ramp.C75_before_simulation_partial",
    "Ramp.C75_full_statement_is_false_partial",
    "Ramp.C75_after_simulation_partial"
   ],
   "note": "False: the maximum profile uses the last simulated profile (C75_full_statement_is_false_partial: computable before a simulation, IndexError after); proved as long as nothing has been simulated; after a simulation C75_after_simulation_partial gives what is searched instead: the sum over users and appliances of num_users x mean power x number x the last profile of the last member on the last day."
  },
  {
   "property": "C76",
   "status": "proved",
   "theorems": [
    "Ramp.C76_loaded_users_simulate_alike",
    "Ramp.C76_loaded_users_same_peak"
   ],
   "note": "Under the hypotheses of C53 and window variabilities as windows() sets them."
  },
  {
   "property": "C77",
   "status": "partial",
   "theorems": [
    "Ramp.C77_saved_beside_input",
    "Ramp.C77_outputs_differ",
    "Ramp.C77_collisions_partial"
   ],
   "note": "Proved for names with '.py' only at the end; otherwise, or with -o, different inputs can share an output (C77_collisions_partial)."
  },
  {
   "property": "C78",
   "status": "partial",
   "theorems": [
    "Ramp.C78_calls_keep_other_data",
    "Ramp.C78_copies_are_independent",
    "Ramp.C78_shared_frame_partial"
   ],
   "note": "Proved for objects that do not share a frame; two Plots built from one frame share it (C78_shared_frame_partial)."
  },
  {
   "property": "C79",
   "status": "proved",
   "theorems": [
    "Ramp.C79_across_columns"
   ],
   "note": ""
  },
  {
   "property": "C80",
   "status": "proved",
   "theorems": [
    "Ramp.C80_order_irrelevant",
    "Ramp.C80_permuted_users"
   ],
   "note": ""
  },
  {
   "property": "C81",
   "status": "proved",
   "theorems": [
    "Ramp.C81_split_members",
    "Ramp.C81_nobody",
    "Ramp.C81_added_user"
   ],
   "note": ""
  },
  {
   "property": "C82",
   "status": "proved",
   "theorems": [
    "Ramp.C82_cannot_fail_iff",
    "Ramp.C82_sensible_never_fails",
    "Ramp.C82_after_initialize",
    "Ramp.C82_initialize_outcome",
    "Ramp.C82_usual_program"
   ],
   "note": ""
  },
  {
   "property": "C83",
   "status": "proved",
   "theorems": [
    "Ramp.C83_possible_days",
    "Ramp.C83_possible_days_plain"
   ],
   "note": ""
  },
  {
   "property": "C84",
   "status": "proved",
   "theorems": [
    "Ramp.C84_flat_days",
    "Ramp.C84_possible_profiles",
    "Ramp.C84_program"
   ],
   "note": ""
  },
  {
   "property": "C85",
   "status": "proved",
   "theorems": [
    "Ramp.C85_same_arguments",
    "Ramp.C85_unknown_keyword",
    "Ramp.C85_positional_is_keyword",
    "Ramp.C85_no_conflict_error",
    "Ramp.C85_attributes"
   ],
   "note": ""
  },
  {
   "property": "C86",
   "status": "proved",
   "theorems": [
    "Ramp.C86_input_file_1",
    "Ramp.C86_input_file_2",
    "Ramp.C86_input_file_3"
   ],
   "note": ""
  },
  {
   "property": "C87",
   "status": "proved",
   "theorems": [
    "Ramp.C87_source",
    "Ramp.C87_only_recursion"
   ],
   "note": ""
  },
  {
   "property": "C88",
   "status": "proved",
   "theorems": [
    "Ramp.C88_energy_of_a_day",
    "Ramp.C88_energy_of_a_fixed_day",
    "Ramp.C88_constant_energy",
    "Ramp.C88_flat_energy",
    "Ramp.C88_most_energy",
    "Ramp.C88_most_energy_of_a_use_case"
   ],
   "note": ""
  },
  {
   "property": "C89",
   "status": "proved",
   "theorems": [
    "Ramp.C89_results",
    "Ramp.C89_afterwards",
    "Ramp.C89_sequences",
    "Ramp.C89_one_range",
    "Ramp.C89_like_a_use_case",
    "Ramp.C89_no_range"
   ],
   "note": ""
  },
  {
   "property": "C90",
   "status": "proved",
   "theorems": [
    "Ramp.C90_labels",
    "Ramp.C90_cases",
    "Ramp.C90_shape"
   ],
   "note": ""
  },
  {
   "property": "C91",
   "status": "proved",
   "theorems": [
    "Ramp.C91_specific_cycle",
    "Ramp.C91_cycle_behaviour",
    "Ramp.C91_windows",
    "Ramp.C91_windows_rejected"
   ],
   "note": ""
  },
  {
   "property": "C92",
   "status": "proved",
   "theorems": [
    "Ramp.C92_frequency_of_use",
    "Ramp.C92_daily_preference",
    "Ramp.C92_window_bounds",
    "Ramp.C92_time_of_use",
    "Ramp.C92_switch_on"
   ],
   "note": ""
  },
  {
   "property": "C93",
   "status": "proved",
   "theorems": [
    "Ramp.C93_same_schedule",
    "Ramp.C93_use_case",
    "Ramp.C93_flat_exact",
    "Ramp.C93_peak_unchanged",
    "Ramp.C93_initialize"
   ],
   "note": ""
  },
  {
   "property": "C94",
   "status": "partial",
   "theorems": [
    "Ramp.C94_sharing_is_harmless_partial",
    "Ramp.C94_foreign_never_on_partial",
    "Ramp.C94_full_statement_is_false_partial"
   ],
   "note": "False for an appliance with a preference index added to another user than the one it was created for: generate_load_profile looks up the preference of the creator (C94_foreign_never_on_partial, C94_full_statement_is_false_partial; it is also saved under the name of the creator); proved for all other ways of sharing."
  },
  {
   "property": "C95",
   "status": "proved",
   "theorems": [
    "Ramp.C95_executions",
    "Ramp.C95_interrupted"
   ],
   "note": ""
  },
  {
   "property": "C96",
   "status": "proved",
   "theorems": [
    "Ramp.C96_executions",
    "Ramp.C96_files",
    "Ramp.C96_failure",
    "Ramp.C96_year"
   ],
   "note": ""
  },
  {
   "property": "C97",
   "status": "partial",
   "theorems": [
    "Ramp.C97_lines",
    "Ramp.C97_duration_curve",
    "Ramp.C97_shadow_partial",
    "Ramp.C97_shadow_list_partial"
   ],
   "note": "False for shadow with a list of columns, the documented type: columns.lower() raises AttributeError for every list (C97_shadow_list_partial). line, area, load_duration_curve and shadow with a text are proved."
  },
  {
   "property": "C98",
   "status": "partial",
   "theorems": [
    "Ramp.C98_iloc_partial",
    "Ramp.C98_single_position_partial",
    "Ramp.C98_head",
    "Ramp.C98_loc_partial",
    "Ramp.C98_from_file_partial",
    "Ramp.C98_loc_rows_partial",
    "Ramp.C98_loc_both_partial",
    "Ramp.C98_loc_one_row_partial"
   ],
   "note": "False for single positions and a single column name, both documented: the result is a Series, which Plot refuses with ValueError (C98_single_position_partial, C98_loc_partial), and for csv files, which always raise TypeError (C98_from_file_partial). A single timestamp is refused in the same way (C98_loc_one_row_partial). The rest is proved, including loc by slices of timestamps and days, lists of timestamps and texts of days (C98_loc_rows_partial, C98_loc_both_partial)."
  },
  {
   "property": "C99",
   "status": "proved",
   "theorems": [
    "Ramp.C99_without_rounding",
    "Ramp.C99_double_precision",
    "Ramp.C99_appliance_day",
    "Ramp.C99_appliance_errors",
    "Ramp.C99_nothing_to_widen",
    "Ramp.C99_simulation",
    "Ramp.C99_simulation_errors",
    "Ramp.C99_relative_error",
    "Ramp.C99_appliance_day_double",
    "Ramp.C99_simulation_double",
    "Ramp.C99_zero_outside_windows",
    "Ramp.C99_profile_bounds",
    "Ramp.C99_never_fails"
   ],
   "note": ""
  },
  {
   "property": "C100",
   "status": "proved",
   "theorems": [
    "Ramp.C100_parse_iff",
    "Ramp.C100_main",
    "Ramp.C100_usual",
    "Ramp.C100_order",
    "Ramp.C100_surprises"
   ],
   "note": ""
  },
  {
   "property": "C101",
   "status": "proved",
   "theorems": [
    "Ramp.C101_runs",
    "Ramp.C101_expected_products",
    "Ramp.C101_days",
    "Ramp.C101_independent_days",
    "Ramp.C101_one_day"
   ],
   "note": ""
  },
  {
   "property": "C102",
   "status": "proved",
   "theorems": [
    "Ramp.C102_days_in_use",
    "Ramp.C102_one_appliance",
    "Ramp.C102_python_frequency",
    "Ramp.C102_every_day",
    "Ramp.C102_python_exists"
   ],
   "note": ""
  },
  {
   "property": "C103",
   "status": "proved",
   "theorems": [
    "Ramp.C103_order",
    "Ramp.C103_split"
   ],
   "note": ""
  },
  {
   "property": "C104",
   "status": "proved",
   "theorems": [
    "Ramp.C104_expected_load",
    "Ramp.C104_load_adds_up",
    "Ramp.C104_energy_adds_up",
    "Ramp.C104_expected_energy",
    "Ramp.C104_python_preference",
    "Ramp.C104_parallel"
   ],
   "note": ""
  },
  {
   "property": "C105",
   "status": "proved",
   "theorems": [
    "Ramp.C105_same_means",
    "Ramp.C105_same_chances",
    "Ramp.C105_same_distribution"
   ],
   "note": ""
  },
  {
   "property": "C106",
   "status": "proved",
   "theorems": [
    "Ramp.C106_start",
    "Ramp.C106_duration",
    "Ramp.C106_window"
   ],
   "note": ""
  },
  {
   "property": "C107",
   "status": "proved",
   "theorems": [
    "Ramp.C107_off_peak",
    "Ramp.C107_on_peak",
    "Ramp.C107_together"
   ],
   "note": ""
  },
  {
   "property": "C108",
   "status": "proved",
   "theorems": [
    "Ramp.C108_unbiased",
    "Ramp.C108_python",
    "Ramp.C108_fair_exists"
   ],
   "note": ""
  },
  {
   "property": "C109",
   "status": "proved",
   "theorems": [
    "Ramp.C109_load_curve",
    "Ramp.C109_variable_power",
    "Ramp.C109_share"
   ],
   "note": ""
  },
  {
   "property": "C110",
   "status": "proved",
   "theorems": [
    "Ramp.C110_concentration",
    "Ramp.C110_many_members_exponential",
    "Ramp.C110_many_days_exponential",
    "Ramp.C110_parallel",
    "Ramp.C110_variance_adds_up",
    "Ramp.C110_variance_of_appliances",
    "Ramp.C110_variance_of_days",
    "Ramp.C110_chebyshev",
    "Ramp.C110_many_members",
    "Ramp.C110_many_days"
   ],
   "note": ""
  },
  {
   "property": "C111",
   "status": "proved",
   "theorems": [
    "Ramp.C111_used_up",
    "Ramp.C111_exactly_when",
    "Ramp.C111_enough_room",
    "Ramp.C111_by_the_minute",
    "Ramp.C111_expected_energy",
    "Ramp.C111_variable_power"
   ],
   "note": ""
  },
  {
   "property": "C112",
   "status": "proved",
   "theorems": [
    "Ramp.C112_average_time",
    "Ramp.C112_shorter",
    "Ramp.C112_expected_energy",
    "Ramp.C112_enough_room",
    "Ramp.C112_variable_power"
   ],
   "note": ""
  },
  {
   "property": "C113",
   "status": "proved",
   "theorems": [
    "Ramp.C113_average_number",
    "Ramp.C113_between",
    "Ramp.C113_outside_peak",
    "Ramp.C113_within_peak",
    "Ramp.C113_peak_range",
    "Ramp.C113_no_effect",
    "Ramp.C113_fair_exists"
   ],
   "note": ""
  },
  {
   "property": "C114",
   "status": "proved",
   "theorems": [
    "Ramp.C114_same_initialize",
    "Ramp.C114_already_initialized",
    "Ramp.C114_announced",
    "Ramp.C114_never_silent",
    "Ramp.C114_no_false_alarm",
    "Ramp.C114_powers_told",
    "Ramp.C114_announced_wrong"
   ],
   "note": ""
  },
  {
   "property": "C115",
   "status": "proved",
   "theorems": [
    "Ramp.C115_progress",
    "Ramp.C115_true_warnings",
    "Ramp.C115_recursion_limit",
    "Ramp.C115_warned_before",
    "Ramp.C115_sensible_silent",
    "Ramp.C115_possible_iff"
   ],
   "note": ""
  },
  {
   "property": "C116",
   "status": "proved",
   "theorems": [
    "Ramp.C116_expected_energy",
    "Ramp.C116_load_curve",
    "Ramp.C116_parallel"
   ],
   "note": ""
  },
  {
   "property": "C117",
   "status": "proved",
   "theorems": [
    "Ramp.C117_rare_parallel",
    "Ramp.C117_input_file_3",
    "Ramp.C117_retries",
    "Ramp.C117_rare_on_a_day",
    "Ramp.C117_rare"
   ],
   "note": ""
  },
  {
   "property": "C118",
   "status": "proved",
   "theorems": [
    "Ramp.C118_int",
    "Ramp.C118_decimal",
    "Ramp.C118_date",
    "Ramp.C118_readers",
    "Ramp.C118_command_line",
    "Ramp.C118_simulated",
    "Ramp.C118_years"
   ],
   "note": ""
  },
  {
   "property": "C119",
   "status": "proved",
   "theorems": [
    "Ramp.C119_same_preparation",
    "Ramp.C119_announced",
    "Ramp.C119_same_main",
    "Ramp.C119_dates",
    "Ramp.C119_input",
    "Ramp.C119_months",
    "Ramp.C119_writing",
    "Ramp.C119_year",
    "Ramp.C119_order"
   ],
   "note": ""
  }
 ]
}