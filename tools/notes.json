{
 "C13": {
  "status": "partial",
  "note": "False for windows that touch or overlap (C13_overlap_possible, a run of an appliance built through the API); proved when the windows of the day are apart. Exact for appliances without duty cycles: a minute can be used twice if and only if two windows of the day can clash and the time of use exceeds func_cycle (C13_exactly_when_partial); touching windows are safe when func_cycle is at least 2 (C13_touching_windows_partial)."
 },
 "C16": {
  "status": "partial",
  "note": "False for the last event of the day, which is cut to the time of use left (C16_short_event_possible); proved for all others; exact condition for one window without duty cycles (C16_exactly_when_partial)."
 },
 "C21": {
  "status": "partial",
  "note": "False for flat appliances (C21_flat_exceeds), which are on exactly during the windows of the day (C21_flat_minutes); proved for all others."
 },
 "C24": {
  "status": "partial",
  "note": "False when windows touch or overlap: a later event can overwrite a minute of an earlier one (C24_overwritten_possible, C13). Proved for windows of the day that are apart, and for all windows at every minute that no later event covers (C24_last_event)."
 },
 "C26": {
  "status": "partial",
  "note": "False: the default cycle window [0,0] of an unconfigured cycle matches events containing minute 0 (C26_unconfigured_cycle_possible); proved for events without minute 0. C26_minute_zero: with a default window in the first cycle every event containing minute 0 uses the first cycle, and the claim fails for events starting at minute 0 only."
 },
 "C28": {
  "status": "partial",
  "note": "False: with one cycle and three windows events in window 3 never match (C28_three_windows_always_crash: always crashes). Exact condition for one event (C28_recursion_error_iff); absence of the error under coverage. C28_exact: for a whole day of a valid appliance with duty cycles, the RecursionError is possible exactly when some possible window of the day holds a shortest event that overlaps no duty cycle window."
 },
 "C29": {
  "status": "partial",
  "note": "'fits in the day' is false: windows() accepts negative windows that do not wrap and [1440,1441] (C29_outside_day_accepted); the InvalidWindow equivalence, the exact acceptance condition and the in-day case are proved."
 },
 "C30": {
  "status": "partial",
  "note": "False when a duty cycle has a negative duration: specific_cycle raises after windows() registered the appliance (C30_left_behind); proved in all other cases. C30_outcomes_partial: an error leaves the user unchanged or is that ValueError with exactly the new appliance appended."
 },
 "C31": {
  "status": "partial",
  "note": "Proved for every history: no object twice, names assigned, list only extended at its end, re-adding an owned object changes nothing. 'adding a different one appends' is false for an object == to an owned one (see C32)."
 },
 "C32": {
  "status": "partial",
  "note": "False: an appliance equal to an owned one is silently dropped (C32_equal_appliance_dropped); proved when the name is new. C32_counted_or_equal_partial: in all cases the returned appliance is appended, or the user is unchanged and owns an appliance equal to the returned one."
 },
 "C33": {
  "status": "proved",
  "note": "As stated, for powers of the same length; C33_broadcast_breaks_transitivity shows the hypothesis is needed."
 },
 "C34": {
  "status": "partial",
  "note": "False: any two users compare equal (C34_always_equal)."
 },
 "C35": {
  "status": "partial",
  "note": "The fresh profile is proved; independence of the history is false (C35_history_dependent)."
 },
 "C37": {
  "status": "partial",
  "note": "Proved for every initialize() on a use case not left behind by a failed one; false after a failed initialize (C37_full_statement_is_false_partial)."
 },
 "C39": {
  "status": "partial",
  "note": "Without force nothing changes (proved); with force the days follow the dates when num_days is given anew; false otherwise: the stale num_days is kept (C39_full_statement_is_false_partial)."
 },
 "C41": {
  "status": "partial",
  "note": "False: raises IndexError exactly when the maximum load has a single peak minute (C41_fails_only_for_one_minute_partial, witness C41_full_statement_is_false_partial). It cannot happen if all windows were given on a grid of k ≥ 2 minutes dividing the day (C41_windows_on_a_grid_partial)."
 },
 "C43": {
  "status": "partial",
  "note": "Proved for the appliances collected at construction; false for users added later (C43_full_statement_is_false_partial)."
 },
 "C75": {
  "status": "partial",
  "note": "False: the maximum profile uses the last simulated profile (C75_full_statement_is_false_partial: computable before a simulation, IndexError after); proved as long as nothing has been simulated; after a simulation C75_after_simulation_partial gives what is searched instead: the sum over users and appliances of num_users x mean power x number x the last profile of the last member on the last day."
 },
 "C50": {
  "status": "partial",
  "note": "Proved for a seed other than 0 without both dates; with both dates equal up to the peak time range, computed before seeding (C50_dates_before_seed_partial: different profiles); seed 0 is ignored (C50_seed_zero_*). Workers of parallel mode draw from their own generators."
 },
 "C52": {
  "status": "partial",
  "note": "False for users with preferences (C52_preferences_lost_partial) and days without runs (C52_key_error_partial); otherwise the possible results are exactly those of sequential mode and no new failures."
 },
 "C53": {
  "status": "proved",
  "note": "For users with distinct non-empty names, at least one appliance, distinct appliances whose windows are set inside the day, and a power that is constant or a 366-day series not ending with its first value (the exceptions are C54 and C57); the power lengths comparable with numpy >= 1.25."
 },
 "C54": {
  "status": "partial",
  "note": "False for series that end with their first value (C54_series_lost_partial); exact condition C54_number_iff_ends_agree_partial."
 },
 "C55": {
  "status": "partial",
  "note": "False for two columns: the timestamps become the power (C55_two_columns_partial)."
 },
 "C57": {
  "status": "partial",
  "note": "False for use cases without users or appliances, nameless or same-named users, series of other lengths, windows not set, mixed powers with numpy >= 1.25 (one theorem each); proved for users built by programs with sensible arguments (C57_programs_partial)."
 },
 "C76": {
  "status": "proved",
  "note": "Under the hypotheses of C53 and window variabilities as windows() sets them."
 },
 "C68": {
  "status": "partial",
  "note": "peak proved; error false where the validation value is 0 (infinite, C68_zero_validation_partial) and where a value is missing (0, C68_missing_data_partial); proved elsewhere."
 },
 "C69": {
  "status": "partial",
  "note": "add_column proved; 'a frame without DatetimeIndex is rejected' is false (C69_any_index_partial): the check in _validate_df is a non-empty tuple, always true."
 },
 "C70": {
  "status": "partial",
  "note": "False for files with several old import lines: one line is changed per conversion (C70_two_imports_partial; n lines take n conversions, C70_conversions_settle_partial); an empty file raises IndexError."
 },
 "C77": {
  "status": "partial",
  "note": "Proved for names with '.py' only at the end; otherwise, or with -o, different inputs can share an output (C77_collisions_partial)."
 },
 "C78": {
  "status": "partial",
  "note": "Proved for objects that do not share a frame; two Plots built from one frame share it (C78_shared_frame_partial)."
 },
 "C61": {
  "status": "partial",
  "note": "False when two inputs share a result path (one -o for several files, same base name in two folders, \".\" and \"_\" in names): C61_lost_partial, C61_same_path_partial says exactly what is left; proved for distinct result paths (C61_distinct_paths_partial)."
 },
 "C62": {
  "status": "partial",
  "note": "Length, leap years, every minute and every hour proved for all years (C62_year, C62_every_minute, C62_hours). The order is by the digits of the whole path: false for some folders (C62_order_false_partial), proved when the names decide (C62_order_partial, C62_numbered_partial)."
 },
 "C63": {
  "status": "partial",
  "note": "False when both dates are given: -n is ignored (C63_ignored_partial, C63_both_dates_partial); proved otherwise."
 },
 "C64": {
  "status": "partial",
  "note": "False: the range is computed before the file is loaded, so it is centred at noon for every file (C64_draws_partial, C64_same_for_all_files_partial and the witness)."
 },
 "C94": {
  "status": "partial",
  "note": "False for an appliance with a preference index added to another user than the one it was created for: generate_load_profile looks up the preference of the creator (C94_foreign_never_on_partial, C94_full_statement_is_false_partial; it is also saved under the name of the creator); proved for all other ways of sharing."
 },
 "C97": {
  "status": "partial",
  "note": "False for shadow with a list of columns, the documented type: columns.lower() raises AttributeError for every list (C97_shadow_list_partial). line, area, load_duration_curve and shadow with a text are proved."
 },
 "C98": {
  "status": "partial",
  "note": "False for single positions and a single column name, both documented: the result is a Series, which Plot refuses with ValueError (C98_single_position_partial, C98_loc_partial), and for csv files, which always raise TypeError (C98_from_file_partial). A single timestamp is refused in the same way (C98_loc_one_row_partial). The rest is proved, including loc by slices of timestamps and days, lists of timestamps and texts of days (C98_loc_rows_partial, C98_loc_both_partial)."
 }
}