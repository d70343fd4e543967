#!/usr/bin/env python3
"""Writes /verif/properties.jsonl (run from anywhere)."""
import json, os
C = "ramp/core/core.py"; U = "ramp/core/utils.py"; K = "ramp/core/constants.py"
P = "ramp/post_process/post_process.py"; L = "ramp/cli.py"; R = "ramp/ramp_run.py"
V = "ramp/ramp_convert_old_input_files.py"
props = []
def p(title, statement, quantifier, why, *anchors):
    props.append(dict(title=title, statement=statement, quantifier=quantifier, why_tests_cant=why, anchors=list(anchors)))

RNG = "every sequence of outcomes of the random module"
# ---------------------------------------------------------------- utilities
p("Random variation stays in its band",
  "random_variation(var, norm) returns a number between norm*(1-var) and norm*(1+var), and every number of that band is a possible outcome; with var=0 it returns norm exactly.",
  f"all numbers var, norm; {RNG}", "a test samples finitely many draws; a draw outside the band could be rare",
  f"{U}:random_variation")
p("Duty cycle shape",
  "duty_cycle(var,t1,p1,t2,p2) with 0<=var<=1 and t1,t2>=0 never fails and returns k1 samples of p1 followed by k2 samples of p2 with int(t_i*(1-var)) <= k_i <= int(t_i*(1+var)); with var=0 exactly t1 samples of p1 then t2 of p2. With var=0 and a negative duration it raises ValueError.",
  f"all var, t1, p1, t2, p2; {RNG}", "the lengths depend on random draws", f"{U}:duty_cycle")
p("random_choice returns the cycle or its reverse",
  "random_choice returns either a two-part cycle (p1 part first) or the swapped cycle (p2 part first), with part lengths bounded as in duty_cycle; both orders are possible.",
  f"all parameters; {RNG}", "random outcome", f"{U}:random_choice")
p("Overlap tests are exact",
  "within_peak_time_window(a,b,c,d) is True exactly when the closed minute ranges [a,b] and [c,d] share a minute, and range_within_window(a,b,w) exactly when [a,b] and [w[0],w[1]] share one (for ordered ranges).",
  "all integers a<=b, c<=d", "unbounded integer domain with boundary cases", f"{U}:within_peak_time_window", f"{U}:range_within_window")
p("Day types and yearly pattern",
  "get_day_type is 1 exactly on Saturdays and Sundays; yearly_pattern() is the 365-day pattern of a year starting on a Monday, yearly_pattern(y) has one entry per calendar day of y giving that day's type, and both agree whenever y is a common year starting on a Monday.",
  "all days, all years", "infinitely many dates; leap-year rules", f"{U}:get_day_type", f"{U}:yearly_pattern")
# ---------------------------------------------------------------- appliance: time of use
p("Randomised windows stay in the day",
  "For a window inside [0,1440] and 0<=random_var_w<=1, the randomised window used for a day stays inside [0,1440] and each end moves by at most int(random_var_w*length); with random_var_w=0 it is the declared window.",
  f"all windows and variabilities; {RNG}", "random outcomes", f"{C}:Appliance.calc_rand_window", f"{C}:Appliance.windows")
p("Randomised time of use is bounded",
  "rand_total_time_of_use returns an integer t with func_cycle <= t <= 0.99*(sum of the three window lengths), never above max(func_cycle, func_time*(1+variability)) and never below min(int(0.99*total), int(func_time*(1-variability)), ...).",
  f"all appliances, windows; {RNG}", "random outcomes and rounding", f"{C}:Appliance.rand_total_time_of_use")
p("Time-of-use failure is a configuration error, not bad luck",
  "rand_total_time_of_use raises ValueError if and only if func_cycle exceeds 99% of the available window time, whatever the random draws.",
  f"all appliances, windows; {RNG}", "an error that depends on draws would be seen only sometimes", f"{C}:Appliance.rand_total_time_of_use")
# ---------------------------------------------------------------- switch-on events
p("Switch-on event stays inside one free range",
  "rand_switch_on_window returns either None or a non-empty contiguous run of minutes lying inside a single free range, of length at least min(func_cycle, duty cycle length) and at most rand_time.",
  f"all appliances, free ranges; {RNG}", "random outcomes", f"{C}:Appliance.rand_switch_on_window")
p("None is returned exactly when nothing fits",
  "rand_switch_on_window returns None if and only if no free range is at least func_cycle minutes long.",
  f"all appliances and free ranges; {RNG}", "random outcomes", f"{C}:Appliance.rand_switch_on_window")
p("The internal sanity error is unreachable",
  "When rand_time >= func_cycle (which generate_load_profile guarantees), rand_switch_on_window never raises the 'something fishy' ValueError or an internal type/index error.",
  f"all appliances with func_cycle>=1 and non-empty cycles; {RNG}", "absence of an error over all executions", f"{C}:Appliance.rand_switch_on_window", f"{C}:Appliance.generate_load_profile")
p("Booking an event frees exactly the other minutes",
  "update_available_time_for_switch_on_events removes exactly the minutes of the event from the set of available minutes when the free ranges are separated by at least one minute and the event lies in one of them, and keeps the ranges separated.",
  "all lists of separated free ranges and all events inside one", "unbounded lists of ranges; boundary cases", f"{C}:Appliance.update_available_time_for_switch_on_events")
p("Switch-on events of one appliance-day never overlap",
  "During one generate_load_profile call no minute is booked by two switch-on events.",
  f"all appliances, days; {RNG}", "overlap depends on random placement", f"{C}:Appliance.generate_load_profile", f"{C}:Appliance.update_available_time_for_switch_on_events")
p("Total switch-on time never exceeds, and normally equals, the randomised time of use",
  "The durations of all switch-on events of one appliance-day sum to at most the randomised time of use, with equality unless no free range of func_cycle minutes remained.",
  f"all appliances; {RNG}", "random outcomes", f"{C}:Appliance.generate_load_profile")
p("The generation loop terminates",
  "generate_load_profile always terminates: the switch-on loop runs at most rand_time+1 times, for every parameter value and every random outcome.",
  f"all appliances (no restriction); {RNG}", "tests cannot show termination", f"{C}:Appliance.generate_load_profile")
p("Minimum on-time after a switch-on",
  "Every switch-on event keeps the appliance on for at least func_cycle minutes (documented meaning of func_cycle).",
  f"all appliances; {RNG}", "random outcomes", f"{C}:Appliance.generate_load_profile", f"{C}:Appliance.rand_switch_on_window")
p("Coincident switch-on number is between 1 and number",
  "calc_coincident_switch_on returns an integer between 1 and number (number>=1), equal to number for fixed appliances, and every value 1..number is possible when not fixed. An event counts as inside the peak exactly when it has a minute in common with the range from the first to the last minute of the peak time range: then the number comes from the normal deviate, otherwise from the uniform one.",
  f"all number>=1; {RNG}", "random outcomes", f"{C}:Appliance.calc_coincident_switch_on", f"{K}:switch_on_parameters")
# ---------------------------------------------------------------- daily profile content
p("No load outside the windows of use",
  "The generated daily profile of an appliance is exactly zero at every minute outside its randomised windows; with random_var_w=0, outside the declared windows.",
  f"all appliances; {RNG}", "random outcomes", f"{C}:Appliance.generate_load_profile")
p("Every booked minute carries a coincident multiple of the power, every other window minute the 0.001 marker",
  "Without duty cycles, at a booked minute the load is c*power*f with c an integer in 1..number and |f-1|<=thermal_p_var (so an exact multiple of power when thermal_p_var=0); at a window minute not booked it is exactly 0.001.",
  f"all appliances; {RNG}", "random outcomes", f"{C}:Appliance.update_daily_use")
p("Profiles are non-negative and bounded",
  "With non-negative powers and 0<=thermal_p_var<=1 the daily profile lies between 0 and max(0.001, number*pmax*(1+thermal_p_var)) at every minute, pmax being the largest of the rated and duty-cycle powers.",
  f"all such appliances; {RNG}", "random outcomes", f"{C}:Appliance.generate_load_profile")
p("Number of minutes in use is bounded by the time of use",
  "The number of minutes of the day at which the profile is neither 0 nor the marker is at most max(func_cycle, func_time*(1+variability)) and at most 99% of the window time.",
  f"all appliances; {RNG}", "random outcomes", f"{C}:Appliance.generate_load_profile")
p("Skip rules",
  "If the day type does not match wd_we_type, or pref_index is set and differs from the user's preference of the day, or func_time is 0, the profile is zero at every minute for every random outcome and no error is raised; with occasional_use>=1 and none of these the appliance is never skipped.",
  f"all appliances; {RNG}", "random outcomes", f"{C}:Appliance.generate_load_profile")
p("Flat appliances are deterministic",
  "A flat='yes' appliance with random_var_w=0 and occasional_use>=1 that is used on the day has exactly power[day]*number at each minute of its windows and 0 elsewhere, for every random outcome.",
  f"all flat appliances; {RNG}", "must hold for every draw", f"{C}:Appliance.generate_load_profile")
p("Duty cycle is laid out from the start of each event and repeated",
  "With duty cycles, the k-th minute of a switch-on event carries coincidence times sample k mod len(cycle) of the selected cycle.",
  f"all duty-cycle appliances; {RNG}", "random outcomes", f"{C}:Appliance.update_daily_use")
p("The duty cycle chosen is the first whose window overlaps the event",
  "For a switch-on event of a duty-cycle appliance, cycle 1 is used if the event overlaps cw11 or cw12, else cycle 2 if it overlaps cw21 or cw22, else cycle 3 if cw31 or cw32; an event overlapping none is never used.",
  f"all duty-cycle appliances; {RNG}", "random outcomes", f"{C}:Appliance.rand_switch_on_window")
p("Only configured duty-cycle windows are used",
  "A duty cycle is used for an event only if the event overlaps one of the windows the user configured for that cycle.",
  f"all duty-cycle appliances; {RNG}", "rare event placement", f"{C}:Appliance.rand_switch_on_window", f"{U}:range_within_window")
p("Single-shot duty cycles",
  "With continuous_duty_cycle=0 no switch-on event is longer than its duty cycle.",
  f"all duty-cycle appliances; {RNG}", "random outcomes", f"{C}:Appliance.rand_switch_on_window")
p("Duty-cycle appliances do not crash at generation",
  "A duty-cycle appliance accepted by the API generates a profile for every random outcome (no RecursionError).",
  f"all duty-cycle appliances; {RNG}", "crash depends on draws", f"{C}:Appliance.rand_switch_on_window")
# ---------------------------------------------------------------- construction
p("windows() validation",
  "windows() succeeds only if each declared window is provided, has non-negative length, fits in the day, and the declared windows together last at least func_time; it raises InvalidWindow exactly when a declared window is missing or the total is too short.",
  "all appliances and window arguments", "unbounded argument space", f"{C}:Appliance.windows")
p("Rejected appliance is not registered",
  "If add_appliance raises, the user's list of appliances is unchanged.",
  "all users and arguments", "unbounded argument space", f"{C}:User.add_appliance", f"{C}:Appliance.windows")
p("Adding an appliance object is idempotent",
  "Adding an Appliance instance already owned leaves the list unchanged; adding a different one appends exactly one element and keeps the order.",
  "all users, appliances and histories", "all histories", f"{C}:User._add_appliance_instance")
p("Every added appliance is counted",
  "Each add_appliance call that returns an appliance makes the user own one more appliance.",
  "all users and arguments", "all histories", f"{C}:User.add_appliance", f"{C}:Appliance.__eq__")
p("Appliance equality is an equivalence on the saved attributes",
  "Appliance == is reflexive, symmetric and transitive and holds exactly when all saved attributes agree (power series of the same length).",
  "all appliances", "unbounded domain", f"{C}:Appliance.__eq__")
p("User equality compares users",
  "User == is True only if names, counts, preferences and appliances agree.",
  "all users", "unbounded domain", f"{C}:User.__eq__")
p("Maximum profile",
  "The theoretical maximum profile of a freshly defined appliance is proportional to its windows: mean(power)*number*0.001 in windows, 0 elsewhere; and it does not depend on what was simulated before.",
  "all appliances, all simulation histories", "all histories", f"{C}:Appliance.maximum_profile", f"{C}:User.maximum_profile")
p("add_user flattens nested lists",
  "add_user appends all users of arbitrarily nested lists in order and raises InvalidType iff some leaf is not a User.",
  "all nested lists", "unbounded nesting", f"{C}:UseCase.add_user")
# ---------------------------------------------------------------- use case
p("Initialisation gives a consistent calendar",
  "After a successful initialize(), num_days equals the number of days, the days are consecutive, and datetimeindex has 1440 consecutive minutes per day, starting at the first day.",
  "all dates, num_days, call histories", "all histories", f"{C}:UseCase.initialize")
p("Which days are simulated",
  "date_start and date_end given: exactly the days from start to end; only date_start (or today) and num_days: num_days days from it; only date_end: num_days days ending on it; both and a different num_days: num_days days from date_start.",
  "all dates and num_days", "unbounded domain", f"{C}:UseCase.initialize")
p("Re-initialisation needs force and then takes the new values",
  "initialize() on an initialised use case without force changes nothing; with force=True it takes the current dates into account.",
  "all histories", "all histories", f"{C}:UseCase.initialize")
p("Peak time range is never empty",
  "calc_peak_time_range returns a non-empty run of consecutive integers of even length containing its centre.",
  f"all use cases; {RNG}", "random outcomes", f"{C}:UseCase.calc_peak_time_range")
p("Peak time range can always be computed",
  "calc_peak_time_range does not fail.",
  f"all use cases; {RNG}", "depends on the number of minutes attaining the maximum", f"{C}:UseCase.calc_peak_time_range")
p("Peak enlarge validation",
  "Setting peak_enlarge accepts exactly non-negative floats; otherwise an error is raised and the stored value is unchanged.",
  "all values", "unbounded domain", f"{C}:UseCase.peak_enlarge")
p("Power values cover the simulated period",
  "After a successful initialize() every appliance of every user has a power value for every simulated day; a time-varying power too short for the period is rejected with ValueError.",
  "all use cases and histories", "all histories", f"{C}:UseCase.initialize", f"{C}:Appliance.check_power_values")
p("Profiles have the right shape and flattening is row-major",
  "generate_daily_load_profiles returns num_days rows of 1440 values (flat=False) or the same numbers day after day (flat=True).",
  f"all initialised use cases; {RNG}", "unbounded", f"{C}:UseCase.generate_daily_load_profiles")
p("Superposition",
  "The load of the use case at each minute is the sum, over users, over the num_users members and over appliances, of profiles each generated by one generate_load_profile run for that day.",
  f"all use cases; {RNG}", "unbounded", f"{C}:UseCase.generate_daily_load_profiles", f"{C}:User.generate_aggregated_load_profile", f"{C}:User.generate_single_load_profile")
p("Aggregate bounds",
  "With non-negative powers every minute of the use-case load lies between 0 and the sum over users of num_users times the sum of appliance bounds.",
  f"all use cases; {RNG}", "random outcomes", f"{C}:UseCase.generate_daily_load_profiles")
p("Weekday and weekend appliances",
  "A wd_we_type=0 appliance contributes nothing on Saturdays and Sundays and a wd_we_type=1 appliance nothing on other days, in the load of the whole use case.",
  f"all use cases, dates; {RNG}", "random outcomes, all dates", f"{C}:UseCase.generate_daily_load_profiles", f"{C}:Appliance.generate_load_profile")
p("One preference per member and day",
  "On each member-day the user's preference is in 1..user_preference, all appliances with another non-zero pref_index stay off, and an appliance with pref_index>user_preference is never on.",
  f"all users; {RNG}", "random outcomes", f"{C}:User.generate_single_load_profile")
p("Simulation does not change the configuration",
  "generate_daily_load_profiles leaves every saved attribute of every user and appliance, and num_days, days and datetimeindex unchanged.",
  f"all use cases; {RNG}", "all executions", f"{C}:UseCase.generate_daily_load_profiles")
p("A seed makes results reproducible",
  "Creating a use case with random_seed=s and running the same calls gives the same profiles whatever random numbers were drawn before in the process.",
  "all seeds, use cases and prior generator states", "all prior histories", f"{C}:UseCase.__init__")
p("Parallel result does not depend on the schedule",
  "generate_daily_load_profiles_parallel returns the same array for every order in which the worker results arrive, namely the per-day sums.",
  "all use cases, all completion orders", "all schedules", f"{C}:UseCase.generate_daily_load_profiles_parallel")
p("Parallel mode simulates the same appliances as sequential mode",
  "Every appliance that can be on in sequential mode can be on in parallel mode, and parallel mode succeeds whenever sequential mode does.",
  f"all use cases; {RNG}", "all schedules and random outcomes", f"{C}:UseCase.generate_daily_load_profiles_parallel", f"{C}:single_appliance_daily_load_profile")
# ---------------------------------------------------------------- save / load
p("Save then load restores the model",
  "Loading a saved use case gives the same users with the same attributes and the same appliances with the same saved attributes, in the same order.",
  "all use cases with distinct non-empty user names and valid appliances", "unbounded domain", f"{C}:UseCase.save", f"{C}:UseCase.load", f"{C}:Appliance.save", f"{U}:read_input_file")
p("Saved power is the appliance's power",
  "The power written by save() is the appliance's power series (a single number only if the series is constant).",
  "all power series", "unbounded domain", f"{C}:Appliance.save")
p("Power series read from a spreadsheet range",
  "A one-column range of 366 rows gives those values as the power series; a two-column range (timestamps, values) gives the values; other sizes are rejected with ValueError.",
  "all ranges", "unbounded domain", f"{U}:read_input_file", f"{C}:Appliance.__init__")
p("load() groups rows by user",
  "load() creates one user per distinct user name in order of first appearance, owning the appliances of its rows in order, and raises ValueError iff two rows of a user disagree on num_users or user_preference or a row has no user name.",
  "all tables", "unbounded tables", f"{C}:UseCase.load")
p("Any saved user can be loaded",
  "Any table written by save() can be loaded.",
  "all use cases", "unbounded domain", f"{C}:UseCase.load", f"{C}:UseCase.save")
p("The legacy constructor is equivalent to add_appliance",
  "User.Appliance(...) builds the same appliance as add_appliance with the same arguments.",
  "all arguments", "unbounded domain", f"{C}:User.Appliance")
# ---------------------------------------------------------------- command line
p("Command line: dates and counts per input file",
  "Each input file is run once, in order, with its own num_days and output path; one value of -n is used for all files; a list of a different length raises ValueError; -y together with a date raises ValueError.",
  "all argument lists", "unbounded lists", f"{L}:main")
p("Command line: open date ranges are completed inside the calendar year",
  "Without -n, a missing start date becomes 1 January of the end year and a missing end date 31 December of the start year, so the range is never reversed and stays in one calendar year.",
  "all dates", "all dates", f"{L}:main")
p("Command line: each input keeps its own results",
  "With several input files the results of every file are still available after the run.",
  "all argument lists", "unbounded lists", f"{L}:main", f"{P}:export_series")
p("Monthly mode covers the year exactly once",
  "In month-file mode the concatenated profile has exactly one value per minute of the year (leap years included), month i coming from the i-th file in numerical order of the file names.",
  "all years", "all years", f"{L}:main")
p("-n is honoured",
  "run_usecase(num_days=n) simulates n days.",
  "all arguments", "unbounded domain", f"{R}:run_usecase", f"{C}:UseCase.initialize")
p("The peak time range reflects the loaded users",
  "When running an .xlsx file from the command line the peak time range lies around the peak of the loaded users' maximum profile.",
  f"all input files; {RNG}", "random outcomes", f"{R}:run_usecase", f"{C}:UseCase.calc_peak_time_range")
# ---------------------------------------------------------------- post-processing
p("Profile formatting preserves the data",
  "Profile_formatting returns the minute-wise average over days, the profiles in kW and the concatenated series; the series is the row-major concatenation and its sum is 1440-day-average consistent.",
  "all lists of profiles", "unbounded", f"{P}:Profile_formatting")
p("Load duration curve",
  "The load duration curve is a non-increasing permutation of the column, so value k is exceeded or attained by at least k time steps.",
  "all columns", "unbounded", f"{P}:Plot.load_duration_curve")
p("Resampling conserves energy",
  "Plot.resample with rule 'sum' preserves the column total (divided by conversion), 'mean' lies between the minimum and maximum of each bin, and the data object itself is unchanged unless inplace.",
  "all columns and bin sizes", "unbounded", f"{P}:Plot.resample", f"{L}:main")
p("Peak and error indicators",
  "Plot.peak returns exactly the time steps attaining the maximum (at least one for a non-empty column); Plot.error is 0 where the data agree and recovers the simulated value from the validation value elsewhere.",
  "all columns", "unbounded", f"{P}:Plot.peak", f"{P}:Plot.error")
p("add_column validates the index",
  "Plot.add_column adds the columns only if the index is identical and raises ValueError otherwise leaving the data unchanged; a frame without DatetimeIndex is rejected.",
  "all frames", "unbounded", f"{P}:Plot.add_column", f"{P}:Plot._validate_df")
# ---------------------------------------------------------------- converter
p("Conversion edits the input file at most once",
  "Converting an old .py input file twice leaves the same text as converting it once, and everything but the import line is kept.",
  "all file texts", "all texts", f"{V}:convert_old_user_input_file")

# ---------------------------------------------------------------- added while proving
p("Duty cycles of the day follow the user's specification",
  "For sensible parameters the duty cycles of the day are always drawn without error; each has its two parts at the configured powers varied by at most thermal_p_var and of lengths within r_c of the configured ones; with one cycle all events share it, with three the order of the parts may be swapped.",
  f"all duty-cycle appliances; {RNG}", "random outcomes", f"{C}:Appliance.assign_random_cycles", f"{U}:duty_cycle", f"{U}:random_choice")
p("Sensible configurations never fail at generation",
  "An appliance whose windows lie in the day, cannot be turned around by the window variability and always leave room for one event, with at least one unit and (if it has duty cycles) duty cycle windows meeting every possible event, generates a profile for every random outcome.",
  f"all such appliances, days; {RNG}", "random outcomes", f"{C}:Appliance.generate_load_profile")
p("Programs with sensible arguments build appliances that can be simulated",
  "Any sequence of API calls (constructor, windows, specific_cycle, cycle_behaviour, add_appliance, the legacy constructor) that raises no exception, with windows in the day, variabilities between 0 and 1 and ordered duty-cycle windows, leaves every appliance with windows inside the day that move by at most their own length, non-negative duty-cycle durations and ordered duty-cycle windows; its daily profile is then zero outside the widened windows.",
  "all histories of construction calls", "histories of any length", f"{C}:User.add_appliance", f"{C}:Appliance.windows", f"{C}:Appliance.specific_cycle", f"{C}:Appliance.cycle_behaviour")

p("Simulations do not influence each other",
  "After a simulation the possible results of the next one are exactly those from before.",
  f"all use cases ready to simulate; {RNG}", "random outcomes, histories", f"{C}:UseCase.generate_daily_load_profiles")
p("The peak time range is computed from the configuration",
  "The peak time range computed by initialize(force=True), calc_peak_time_range or by setting peak_enlarge depends on the configuration of the users only, whatever was simulated before.",
  f"all use cases and histories; {RNG}", "random outcomes, histories", f"{C}:UseCase.calc_peak_time_range", f"{C}:Appliance.maximum_profile")

p("A saved and reloaded use case simulates like the original",
  "After save and load the loaded users can produce exactly the load profiles that the original users can produce, and have the same peak time ranges.",
  f"all valid use cases, days and peak time ranges; {RNG}", "random outcomes", f"{C}:UseCase.save", f"{C}:UseCase.load", f"{C}:UseCase.generate_daily_load_profiles")

p("Converted files are saved beside the input file",
  "ramp_convert saves the users of dir/name.py in dir/name<suffix>.xlsx, or in the folder given with -o; different input files are saved in different files.",
  "all paths and suffixes", "all strings", f"{V}:convert_old_user_input_file")
p("Plot objects do not change each other's data",
  "A method call on one Plot object changes the data of no other Plot object; resample without inplace, copy, mean, sum and indexing change no data at all.",
  "all histories of calls on any number of objects", "histories of any length", f"{P}:Plot")
p("Plot.sum and Plot.mean aggregate across the columns",
  "Plot.sum() and Plot.mean() return one column with the index of the data, each entry being the sum or mean of the row; with nothing missing the sum is the mean times the number of columns.",
  "all frames", "unbounded", f"{P}:Plot.sum", f"{P}:Plot.mean")

p("The order of users and appliances does not matter",
  "Permuting the users of a use case or the appliances of a user leaves the set of possible daily load profiles unchanged.",
  f"all use cases ready to simulate, all permutations; {RNG}", "all permutations and random outcomes", f"{C}:UseCase.generate_daily_load_profiles", f"{C}:User.generate_aggregated_load_profile")
p("Users add up",
  "The possible daily profiles of a use case with an additional user are exactly the sums of a possible profile without it and a possible profile of that user; a user with n+m members behaves like two users with n and m members and the same appliances; a user with no members contributes nothing.",
  f"all use cases ready to simulate; {RNG}", "random outcomes, unbounded", f"{C}:UseCase.generate_daily_load_profiles", f"{C}:User.generate_aggregated_load_profile")

p("Sensible use cases are simulated without errors",
  "A use case given its sensible users on construction (C72), with power values for the n days asked for and no single peak minute, is initialised by initialize(num_days=n) and then simulated without any exception, whatever the random numbers; exactly which use cases cannot fail, and the exact outcome of initialize(num_days=n).",
  f"all such use cases, numbers of days; {RNG}", "random outcomes, unbounded sizes", f"{C}:UseCase.initialize", f"{C}:UseCase.generate_daily_load_profiles")

p("The possible daily profiles of an appliance, exactly",
  "For an appliance with separated windows the profiles that a day can produce are exactly: nothing, on a day on which it may stay off; otherwise, with windows moved within their variability and a time of use in the permitted range, the profiles of the sequences of switch-on events that fit into the free runs of the windows, last func_cycle minutes or more (except a last event cut by the end of the time of use), use the power of one permitted number of appliances (or of the duty cycle of the window they fall in), and stop when the time of use is reached or no run of func_cycle minutes is free. Nothing else is possible and all of these are.",
  f"all appliances with separated windows, days, day types and peak time ranges; {RNG}", "the set of all random outcomes", f"{C}:Appliance.generate_load_profile", f"{C}:Appliance.rand_switch_on_window", f"{C}:Appliance.update_daily_use")

p("The possible load profiles of a use case, exactly",
  "For a use case whose appliances have separated windows, given its users, initialised with initialize(num_days=n) and simulated, the possible results are exactly the lists of n daily profiles in which day k is the sum over users, members and appliances of possible days of the appliances as in C83 (constant power in the moved windows for flat appliances), each member having one preference drawn for the day.",
  f"all such use cases, numbers of days; {RNG}", "the set of all random outcomes, unbounded sizes", f"{C}:UseCase.initialize", f"{C}:UseCase.generate_daily_load_profiles", f"{C}:Appliance.generate_load_profile")

p("How the arguments of add_appliance are matched with the parameters",
  "add_appliance accepts its arguments by position (in the order number, power, num_windows, ...), by keyword in any order, or mixed, with the same effect; an unknown keyword raises TypeError and leaves the user unchanged; after a successful call the attributes of the returned appliance are the given values, and the documented defaults for the parameters not given; a positional argument silently wins over the keyword of the same name and positional arguments after the fifteenth are ignored.",
  "all argument lists, all users", "unboundedly many combinations of arguments", f"{C}:User.add_appliance", f"{K}:APPLIANCE_ARGS", f"{K}:WINDOWS_PARAMETERS", f"{K}:DUTY_CYCLE_PARAMETERS")

p("The example input files that come with the package can be simulated",
  "The calls of input_file_1.py, input_file_2.py and input_file_3.py raise no exception and lead to one list of users; a use case of the users of input_file_1 is initialised and simulated without any exception for every number of days, every random outcome; that of input_file_2 for exactly the numbers of days covered by its shower power table (ValueError by initialize otherwise); that of input_file_3 is always initialised and its simulation can raise nothing but RecursionError, which it does raise for some random outcomes.",
  f"all numbers of days, power tables of input_file_2, first days, recursion limits; {RNG}", "random outcomes, all numbers of days", "ramp/example/input_file_1.py", "ramp/example/input_file_2.py", "ramp/example/input_file_3.py", f"{C}:UseCase.generate_daily_load_profiles")
p("Where the exceptions of a simulation come from",
  "Every exception raised while simulating an initialised use case is raised on some day for some user with members and is: ValueError for a negative user_preference, IndexError for a power table shorter than the days, or an exception that generate_load_profile of one of its appliances raises for that day and preference. If preferences are not negative, powers cover the days and all appliances have windows in the day that leave room for an event and continuous duty cycles, only RecursionError is possible, and only if some event can miss all duty cycle windows of its appliance.",
  f"all initialised use cases; {RNG}", "random outcomes, unbounded sizes", f"{C}:UseCase.generate_daily_load_profiles", f"{C}:User.generate_aggregated_load_profile", f"{C}:Appliance.generate_load_profile")

p("The energy of a day",
  "For an appliance with separated windows, m minutes of use and moved windows of T minutes in all, the energy of the day (the sum of its 1440 values) is at least m times the power of one appliance and at most m times that of all of them (up to thermal_p_var), plus the 0.001 W of the T - m unused minutes; with fixed='yes' and no thermal variation it is exact, and with no variability at all and func_cycle 1 it is the same number every day: min(func_time, 99 % of the windows) minutes of full power. A flat appliance uses its power times the number of appliances for all minutes of the moved windows. The energy of a day of a use case is between 0 and the sum over users and members of the appliance bounds.",
  f"all appliances with separated windows, use cases with powers up to a bound, days; {RNG}", "random outcomes, unbounded sizes", f"{C}:Appliance.generate_load_profile", f"{C}:Appliance.rand_total_time_of_use", f"{C}:UseCase.generate_daily_load_profiles")

p("A user generates profiles on its own",
  "generate_single_load_profile and generate_aggregated_load_profile can be called on a user without use case: the possible results are exactly the possible days of one member, or of all members together, with the given peak time range or, if none is given, one range drawn once for a default use case of this user and shared by all later calls; the aggregated profile has the same possible values as a day of a use case of this user only. The calls leave the definition of the user unchanged. Without a given range the call raises IndexError when the maximum load of the user has a single peak minute.",
  f"all users, sequences of calls, days, day types, peak time ranges; {RNG}", "random outcomes, unboundedly long sequences of calls", f"{C}:User.generate_single_load_profile", f"{C}:User.generate_aggregated_load_profile")

p("Several independent runs of one use case",
  "generate_daily_load_profiles(cases=cases) on an initialised use case returns one column per label 'case x', each label once in the order of first appearance, with the minutes of the simulated days as index; each column can be any possible result of generate_daily_load_profiles(), independently of the others, and nothing else; without cases it raises ValueError.",
  f"all initialised use cases, lists of cases; {RNG}", "the set of all random outcomes, unbounded sizes", f"{C}:UseCase.generate_daily_load_profiles")

p("What the calls on an existing appliance change",
  "specific_cycle(n, ...) sets exactly the powers, durations, randomness and the given windows of cycle n (an unknown n changes nothing; a negative duration raises ValueError but the values are set); cycle_behaviour sets exactly the six duty cycle windows; a successful windows(...) sets exactly the windows, their variabilities and marks, the automatic name and for fixed_cycle=1 the first two duty cycle windows; a rejected windows(...) has nevertheless replaced the windows. No other object changes.",
  "all users, appliances, arguments and states of the construction API", "all states and arguments", f"{C}:Appliance.specific_cycle", f"{C}:Appliance.cycle_behaviour", f"{C}:Appliance.windows")

p("The documented probabilities",
  "As functions of the random numbers drawn: an appliance eligible on a day is used exactly when one uniform number is at most occasional_use; the preference of a member, the displacement of each window bound and the start of a switch-on event (over all minutes with func_cycle free minutes) are equally likely over their ranges; the time of use and the duration of an event are the documented interpolations between their smallest and largest values.",
  f"all appliances, days; {RNG}", "the law of random outcomes, not single outcomes", f"{C}:Appliance.generate_load_profile", f"{C}:Appliance.calc_rand_window", f"{C}:Appliance.rand_total_time_of_use", f"{C}:Appliance.rand_switch_on_window", f"{C}:User.generate_single_load_profile")

p("Powers scale the load and nothing else",
  "Multiplying all powers of a use case by a positive number c, with the same seed: the initialisation gives the same days and the same peak time range, the simulation raises the same exception or uses the same windows, times of use, events and numbers of units, and the load is multiplied by c at every minute, exactly for appliances marked flat, and otherwise except for the 0.001 that marks unused minutes of windows.",
  f"all use cases, positive numbers c; {RNG}", "relates two runs for all random outcomes", f"{C}:UseCase.initialize", f"{C}:UseCase.generate_daily_load_profiles", f"{C}:Appliance.generate_load_profile")

p("Sharing objects does not change the results",
  "A simulation depends on the definitions of users and appliances only, not on which Python objects are shared: a User listed twice in a use case, or an Appliance object added to several users, behaves like separate copies, with the same seed.",
  f"all configurations of shared User and Appliance objects, days, peak time ranges; {RNG}", "unboundedly many ways of sharing; random outcomes", f"{C}:User._add_appliance_instance", f"{C}:User.generate_single_load_profile", f"{C}:Appliance.generate_load_profile", f"{C}:Appliance.save")

p("An interrupted simulation can be repeated",
  "When generate_daily_load_profiles of an initialised use case stops at any moment, because of an exception or an interruption, the use case keeps its dates, days and peak time range, its users and appliances keep their definitions, saving it gives the same table, and simulating again gives, with the same random numbers, the same rows or the same exception as if the interrupted simulation had never been started.",
  f"all initialised use cases, arguments, moments of interruption between two assignments to attributes; {RNG}", "every crash point of every execution", f"{C}:UseCase.generate_daily_load_profiles", f"{C}:User.generate_aggregated_load_profile", f"{C}:User.generate_single_load_profile", f"{C}:Appliance.generate_load_profile")

p("Results on disk at any moment",
  "When a run of the command line stops at any moment, because of an exception or an interruption: with several input files, the results of every file run before are on disk, complete (of files with the same result path those of the last), at most the results of the file being written are incomplete, and no other file has changed; with one input file per month nothing is written before all twelve months have been simulated, the table of hours is only started when the table of minutes is complete, and no other file has changed.",
  f"all command lines, spreadsheets, moments of interruption between two rows written, files on disk before; {RNG}", "every crash point of every run", f"{L}:main", f"{R}:run_usecase", f"{P}:export_series", f"{P}:old_post_process")

p("What the plots draw",
  "Plot.line and Plot.area draw exactly the columns asked for, in this order and with their values (all for None); load_duration_curve draws the curve of the column; shadow draws the average of the columns row by row (or the main column) as the dark line and all columns, or those listed, as light lines; a missing column raises KeyError, an engine other than matplotlib and plotly (in any case) or a contradictory choice of the main line raises ValueError.",
  "all data, column arguments, engines", "all data and arguments", f"{P}:Plot.line", f"{P}:Plot.area", f"{P}:Plot.shadow", f"{P}:Plot.load_duration_curve", f"{P}:Plot._check_engine")

p("Selections of the data",
  "Plot.iloc, loc and head return a new Plot with exactly the selected rows and columns, in the order asked for, with their timestamps, names and values, for a position, a list or a slice (positions may count from the end; slices of loc by timestamps or days contain both bounds, and the text of a day is all of its rows), raising IndexError or KeyError when something selected does not exist; from_file gives the data of a csv or xlsx file, with the index passed if any.",
  "all data, slices, lists and single positions, names; all files", "all data and arguments", f"{P}:Plot.iloc", f"{P}:Plot.loc", f"{P}:Plot.head", f"{P}:Plot.from_file")

p("Rounding of floating point numbers",
  "In double precision, with every operation of the simulation rounded as Python does, a simulation of use cases with parameters in the documented ranges is a simulation in exact arithmetic of the same use case with variabilities of the times larger by at most 16 rounding errors (unchanged if 0 or 1): the same windows, times of use, switch-on events and numbers of appliances, the same exceptions, and in every minute the same load with a relative error of 2 ** -49 for an appliance and 1e-9 for up to four million appliances and users; minutes outside the windows are exactly 0, loads are never negative, and sensible configurations never fail.",
  f"all use cases with parameters in range, days, peak windows; all values double precision can round to; {RNG}", "all values of all draws and their rounding errors", f"{C}:Appliance.generate_load_profile", f"{C}:Appliance.rand_total_time_of_use", f"{C}:Appliance.rand_switch_on_window", f"{C}:Appliance.calc_coincident_switch_on", f"{C}:Appliance.update_daily_use", f"{C}:Appliance.assign_random_cycles", f"{U}:duty_cycle", f"{U}:random_choice", f"{U}:random_variation", f"{C}:UseCase.generate_daily_load_profiles")

p("Options of the command line",
  "The command line runs with exactly the arguments its words say: every word is an option (its full name, an unambiguous abbreviation of a long name, with = or, for one letter, the value joined), or a value of the option before it; no word is ignored, the values must fit the option and be readable as numbers or dates, otherwise the program ends with a message before any simulation or file; the order of different options does not matter, of a repeated option the last occurrence counts, and -p switches parallel mode on unless followed by an empty word (also -p False, and a file name after -p is taken for its value).",
  "all lists of words without --; all readers of numbers and dates", "all command lines", f"{L}:parser", f"{L}:main")

p("The days of a simulation are independent",
  "If the random numbers drawn are independent with the same distribution: the rows of generate_daily_load_profiles are independent random variables (the probability that every row k has a property P_k is the product of the probabilities for the single days, and expected values of products are products of expected values), and rows of days with the same type and powers have the same distribution, that of a simulation of this day alone. The rows are a sum of independent runs: days, users, members and appliances one after the other, each with fresh numbers and the definitions as given, nothing left over from earlier runs.",
  "all initialised use cases, lists of days, properties of rows; every probability distribution of the numbers drawn", "a statement about the joint probability of all outcomes", f"{C}:UseCase.generate_daily_load_profiles", f"{C}:User.generate_aggregated_load_profile", f"{C}:User.generate_single_load_profile", f"{C}:Appliance.generate_load_profile")

p("How often appliances are used",
  "In a simulation of n days of users whose appliances may be used on each of them, the number of days with a load has the binomial distribution for n trials, where a day stays empty with the product over all appliances and members of the probabilities that the number drawn is greater than occasional_use; for one appliance of one user a day is a day of use with the probability that the number is at most occasional_use, which with Python's random numbers (multiples of 2**-53) exceeds occasional_use by at most 2**-53 (so that occasional_use = 0 does not quite mean never) and is 1 from occasional_use = 1 on.",
  "all sensible use cases, numbers of days; every probability distribution of the numbers drawn, in particular Python's", "a probability over all outcomes", f"{C}:Appliance.generate_load_profile", f"{C}:UseCase.generate_daily_load_profiles")

p("Order and grouping of users and appliances do not matter",
  "Listing the users, or the appliances of a user, in another order, or splitting a user of n + m members into two users of n and m members with the same appliances, changes the rows of a simulation with a fixed seed, but not their distribution: every set of results has the same probability and every quantity the same expected value.",
  "all initialised use cases, orders of users and appliances, splits of a user; every probability distribution of the numbers drawn", "equality of two probability distributions", f"{C}:UseCase.generate_daily_load_profiles", f"{C}:User.generate_aggregated_load_profile")

p("The expected load adds up",
  "The expected load of every minute, and the expected energy, of every day is the sum over users and appliances of num_users times the expected value in a simulation of one member with this appliance alone. For appliances without variability except for frequency of use, preference and times of the events, the expected energy is num_users times the probability of use (that of the preference, 1/user_preference with Python's random numbers, times that of the frequency) times (minutes of use) x number x power plus the markers of 0.001, added up over users and appliances. Without user preferences the same sum holds in parallel mode, whatever the order in which the worker processes deliver.",
  "all use cases that cannot fail, days, minutes; every probability distribution of the numbers drawn, in particular Python's", "an expected value over all outcomes", f"{C}:UseCase.generate_daily_load_profiles", f"{C}:User.generate_single_load_profile", f"{C}:Appliance.generate_load_profile")

p("Parallel mode has the same statistics",
  "If the random numbers of the workers are independent with the same distribution: for users without preferences every set of results has the same probability, and every quantity of the results the same expected value, in parallel mode as in sequential mode, whatever the order in which the results arrive; with preferences parallel mode has the distribution of a sequential simulation of the same users with user_preference = 0.",
  "all initialised use cases with at least one run per day, lists of days, arrival orders; every probability distribution of the numbers drawn", "equality of two probability distributions, over all schedules", f"{C}:UseCase.generate_daily_load_profiles_parallel", f"{C}:single_appliance_daily_load_profile", f"{C}:UseCase.generate_daily_load_profiles")

p("When and how long an appliance is switched on",
  "With Python's random numbers: the bounds of a window of use of the day are those of the window moved independently by up to v minutes, all (2 v + 1) ** 2 moves being equally likely, then cut to the day; rand_switch_on_window starts the event at each minute of the free ranges that leaves room for func_cycle minutes with the same probability, and lets it take each number of minutes from func_cycle to one less than what is left of the range and of the time of use with the same probability (up to 2 ** -53); the full rest is never taken unless it is just func_cycle minutes.",
  "all windows and variabilities, all appliances without duty cycles and with disjoint free ranges, all start minutes and durations", "a probability over all outcomes", f"{C}:Appliance.calc_rand_window", f"{C}:Appliance.rand_switch_on_window")

p("How many appliances are switched on together",
  "With Python's random numbers: of n appliances with fixed = 'no', outside the peak j are switched on with probability 2 / (2 n - 1) for each j from 1 to n - 1 and 1 / (2 n - 1) for j = n (up to 2 ** -53), never none or more than n; during the peak at most j with the probability that a standard normal deviate is at most 4 j / n - 2 (for 1 <= j < n); with fixed = 'yes' always all of them.",
  "all appliances, numbers, values of fixed; every distribution of the normal deviates", "a probability over all outcomes", f"{C}:Appliance.calc_coincident_switch_on", f"{K}:switch_on_parameters")

p("The variability of power is unbiased",
  "If the numbers drawn between 0 and 1 are independent and 1/2 on average, thermal_p_var changes no expected value: on every day the expected load of every minute, and the expected energy, are those of the same use case with thermal_p_var = 0 for all appliances, with and without duty cycles. With Python's random numbers, which are a little less than 1/2 on average, they are smaller by at most one part in 2 ** 53.",
  "all sensible use cases with powers that are not negative and thermal_p_var between 0 and 1, all days and minutes; every probability distribution of the numbers drawn with average 1/2, and Python's", "an expected value over all outcomes", f"{C}:Appliance.update_daily_use", f"{C}:Appliance.assign_random_cycles", f"{C}:Appliance.generate_load_profile", f"{U}:random_variation", f"{C}:UseCase.generate_daily_load_profiles")

p("The load curve of appliances used once a day",
  "For appliances used once a day (time of use equal to the length of one event, windows without common minutes, no duty cycles, no variability of windows and of time of use, all appliances of the entry on together), with Python's random numbers, the expected load of each minute of each day is known exactly: the sum over users and appliances of number of users x chance of use on that day x load curve, where the curve is the full power of the entry times the share of the possible starts that make the minute one of use, plus 0.001 W times the remaining share in the windows, and 0 outside the windows. The possible starts are all minutes that leave room for the use in a window, each as likely as the others. With variability of power it is smaller by at most one part in 2 ** 53. In one window (s, e) with a use of L minutes the share is (min(t, e-L) - max(s, t-L+1) + 1) / (e-s-L+1): a trapezium.",
  "all sensible use cases of such appliances, all days and minutes, all peak time ranges that are not empty", "an expected value over all outcomes", f"{C}:Appliance.generate_load_profile", f"{C}:Appliance.rand_switch_on_window", f"{C}:Appliance.update_daily_use", f"{C}:User.generate_single_load_profile", f"{C}:UseCase.generate_daily_load_profiles")

p("Fluctuations average out",
  "In a simulation that cannot fail, of appliances whose powers are not negative, the fluctuations of the members of the users, of the days and, without user preferences, of the appliances are independent: the variance of the load of a minute or of the energy of a day is the sum over users of number of users x variance for one member (without preferences: the sum over appliances of that of one member with this appliance alone), and the variance of the sum over the days is the sum of those of the days. So the load per member of a category of n members that can use at most B watts each is eps or more away from the expected load of one member with a probability of at most B^2 / (4 n eps^2), and so is the average of a minute over n simulated days; both also with a probability of at most 2 exp(- 2 n eps^2 / B^2), and the load of a minute of all users is eps or more away from that expected with a probability of at most 2 exp(- 2 eps^2 / sum of n_u B_u^2). Without user preferences this bound also holds in parallel mode.",
  "all use cases whose simulation cannot fail, with powers that are not negative; all days and minutes, all numbers of members and days, every probability distribution of the numbers drawn (independent draws)", "a statement about the distribution of all outcomes", f"{C}:User.generate_aggregated_load_profile", f"{C}:User.generate_single_load_profile", f"{C}:Appliance.generate_load_profile", f"{C}:UseCase.generate_daily_load_profiles")

p("When the time of use is always used up",
  "For an appliance with separated windows, without duty cycles, whose appliances are on together and with no variability of power, windows and time of use: on every day of use, whatever the random numbers, it is on for its full time of use (func_time, at least func_cycle, at most 99% of its windows), so that its energy is known exactly, if and only if it takes at least that many minutes of events to block its windows, u minutes blocking a window of T minutes when u = 0 or u >= func_cycle, and T <= u + (u // func_cycle + 1) * (func_cycle - 1). It is enough that the windows together last t + ((t - 1) // func_cycle + number of windows) * (func_cycle - 1) minutes for t minutes of use, and func_cycle = 1 always suffices. Otherwise some outcomes give less than the time of use. If there is room, the expected energy of a day of the use case is the sum over users and appliances of number of users x chance of use x energy of the full time of use; with variability of power up to one part in 2 ** 53.",
  "all such appliances, numbers drawn and days; all use cases of such appliances, every probability distribution of the numbers drawn (independent draws)", "an equivalence over all placements of the events, and an expected value over all outcomes", f"{C}:Appliance.generate_load_profile", f"{C}:Appliance.rand_switch_on_window", f"{C}:Appliance.update_available_time_for_switch_on_events", f"{C}:Appliance.rand_total_time_of_use")

p("The variability of the time of use and of the windows",
  "With Python's generator (independent draws) the time of use drawn for a day is func_time on average, at most half a minute less (int() cuts the varied time), up to (func_time + 1) / 2 ** 52 minutes, if the shortest time of use is not below func_cycle and the longest fits into 99% of the windows; with a variability of less than a minute it is at least a quarter of a minute less, without variability it is func_time. If moreover the windows, wherever they are moved, stay inside of the day and have room for the longest time of use, the appliances have no duty cycles and are on together, the expected energy of each day is the sum over users and appliances of number of users x chance of use x energy of that average time of use in the windows as given: the variability of the windows has no influence, and that of the power only one part in 2 ** 53. Room is guaranteed if the windows shortened by twice their variability have the room of the previous property.",
  "all appliances, windows and variabilities; all use cases of such appliances and all days", "expected values over all random numbers; tests can only compare averages of samples, where a bias of seconds is invisible", f"{C}:Appliance.rand_total_time_of_use", f"{C}:Appliance.calc_rand_window", f"{C}:Appliance.generate_load_profile", f"{U}:random_variation")

p("How many appliances are on together on average; the peak range matters little",
  "With Python's generator and a symmetric normal distribution: of n appliances of an entry with fixed = 'no' an event within the peak range switches on (n + 1) / 2 on average, one outside of it n ** 2 / (2 n - 1), up to one part in 2 ** 52; both are about half. So the expected load of each minute and the expected energy of each day of a use case are at most those of the use case with one appliance of (n + 1) / 2 times the power in the place of each such entry, and at least those with one of n ** 2 / (2 n - 1) times the power (up to that part), whatever the peak range; equal to the former if all windows lie within the peak range, to the latter (up to that part) if they lie outside of it. Another peak range changes each expected load and energy by at most a factor 9/8; not at all if all entries are single appliances or have fixed = 'yes'.",
  "all sensible use cases with powers that are not negative, with or without duty cycles and variabilities, all peak ranges that are not empty, all days and minutes", "expected values over all random numbers and all peak ranges", f"{C}:Appliance.calc_coincident_switch_on", f"{C}:Appliance.update_daily_use", f"{C}:Appliance.generate_load_profile", f"{U}:within_peak_time_window", f"{K}:switch_on_parameters", f"{C}:UseCase.generate_daily_load_profiles")

p("What initialize says",
  "Printing does not change what initialize does. On a use case already initialised, without force=True, the only message says so (exactly then), and nothing is changed. Otherwise an initialize that returns announces exactly once what will be simulated: the first and the day after the last are those of the days of the use case afterwards, and the number of days announced is their number, unless days had been provided before and there are not both dates (then it can be wrong). Nothing is ignored in silence: num_days given as argument becomes the number of days, or a message says that the use case is already initialised or that days were provided; with both dates the days from the one to the other are simulated, or a message says that the number of days goes first. These messages come only in those cases. If no message says that the powers of an appliance were updated, no appliance is changed; if one does, there is an appliance of that name of constant power with fewer values than days.",
  "all use cases, arguments, typed numbers and random numbers", "it relates the messages of all executions to their effects", f"{C}:UseCase.initialize", f"{C}:Appliance.check_power_values", f"{C}:UseCase.num_days")

p("The progress and the warnings of a simulation",
  "With verbose=True a simulation reports after each simulated day, in order, 'Day k / n completed', all of them if it returns, and those completed if it fails; nothing is reported without. Each warning about a switch-on event outside of the duty cycle windows is true: it names an appliance with duty cycles of the use case and its windows, and an event of at least func_cycle minutes that meets none of them. A simulation that fails with RecursionError has warned before, at least once for each level of the recursion limit left; a use case of sensible appliances (duty cycle windows that cover the windows of use) never warns. For an initialised use case that is configured so that nothing else fails, a warning is possible for some random numbers if and only if some appliance used on some day has an event of func_cycle minutes in its windows that meets none of its duty cycle windows. The message of update_daily_use about events outside of the duty cycles is never printed.",
  "all use cases, days, recursion limits and random numbers", "it holds for all random outcomes, including those that fail", f"{C}:UseCase.generate_daily_load_profiles", f"{C}:Appliance.rand_switch_on_window", f"{C}:Appliance.update_daily_use", f"{C}:Appliance.generate_load_profile")

p("The expected energy and load curve of entries of several appliances",
  "With Python's generator and a symmetric normal distribution, for a use case without duty cycles and flat loads whose windows, wherever they are moved, stay inside of the day and have room for the longest time of use, with any variability of windows, time of use and power, and entries of n appliances with fixed = 'no' or 'yes': the expected energy of each day lies between the sums over users and appliances of number of users x chance of use x energy of T minutes of c appliances, where T is func_time or at most half a minute less, and c is n for fixed = 'yes', and for fixed = 'no' n ** 2 / (2 n - 1) for the lower bound (less one part in 2 ** 51) and (n + 1) / 2 for the upper, whatever the peak range. For appliances used once a day the expected load of every minute lies in the same way between the load curves of c appliances. Without user preferences the same bounds hold in parallel mode.",
  "all use cases of such appliances, all peak ranges that are not empty, all days and minutes", "expected values over all random numbers and all peak ranges", f"{C}:Appliance.generate_load_profile", f"{C}:Appliance.calc_coincident_switch_on", f"{C}:Appliance.rand_total_time_of_use", f"{C}:Appliance.calc_rand_window", f"{U}:random_variation", f"{C}:UseCase.generate_daily_load_profiles")

p("The risk of RecursionError",
  "rand_switch_on_window calls itself when an event meets no duty cycle window. With independent draws: if it may call itself d times, it raises RecursionError with the probability of one miss to the power of d, and it returns each event with the probability that a single try returns it, times one factor for all events: trying again favours no event. With Python's generator, for an initialised use case that is configured so that nothing else can fail: if for each appliance of which some possible event meets no duty cycle window these windows contain, wherever the windows of use are moved, c of their at most T minutes more than twice the time of use and a shortest event (func_cycle) for each window, then a simulation fails with probability at most T (1 - c / T) ** d for each day of each appliance of each member, and otherwise returns, and so does a simulation in parallel mode. For the example input_file_3, whose simulation can fail, this is 12 * 234 * (1 - 50 / 234) ** d per day, less than 10 ** -90 for d = 900.",
  "all appliances, use cases of such appliances, numbers of days, recursion limits; probabilities over all random numbers", "a failure with a probability of 10 ** -90 is never seen in a test, one with 10 ** -4 seldom", f"{C}:Appliance.rand_switch_on_window", f"{C}:Appliance.generate_load_profile", f"{C}:UseCase.generate_daily_load_profiles", "ramp/example/input_file_3.py")

p("Numbers and dates of the command line",
  "-n and -y accept exactly the texts that stand for an integer (an optional sign and decimal digits, with single underscores between digits, within white space) and take them for this integer; every integer written in the decimal system is accepted as itself. --start-date and --end-date accept every date of the calendar from year 1 to 9999 written as YYYY-MM-DD and take it for this date (in Python 3.8-3.10 nothing else is accepted). So a command line with input files, numbers of days and dates is read as these files, numbers and dates, and if the program ends without an exception the profiles of each spreadsheet have one row for each day asked for: from date to date, otherwise as many as -n says for this file, otherwise to the end (or from the beginning) of the calendar year of the date given. With -y, unless one year and a folder are given, from 1 January of the first to 31 December of the last year.",
  "all texts, integers, dates, command lines of this form, files, workers and random numbers",
  "infinitely many texts, and every date of every year; leap years and month ends are where such conversions fail",
  L + ":parser", L + ":main", R + ":run_usecase")

p("What the command line prints",
  "The lines printed by the command line are true and complete, however the run ends. A start (or end) date is announced as chosen exactly if there is no -n and the other date is given but not this one; it is 1 January (31 December) of its year, and it is the date used. 'Provide path to input file' is printed exactly if there is no -i, and then nothing is simulated; 'the input path is not a folder' exactly if a single year is given and the first input is no folder. The month files are announced exactly if there are 12 with the extension in the folder (each with a digit in its path), in the order in which they are used. 'Writing RAMP results to' names, in order, the paths of the results of the spreadsheets run so far; after a run that returns there are results at all of them, and nothing was written elsewhere. The folder of the results of a year is announced exactly if the run returns the tables of the year in this folder. The lines come in this order. And before each run that gets as far as its simulation, the days it simulates are announced exactly once, with the first day, the end of the last and their number, which is the number of the profiles the run returns; 'already initialized' is printed exactly if both dates are given (then -n is ignored).",
  "all arguments, file systems, outcomes of the random module and of the worker processes; runs that return and runs that raise",
  "tests look at the files, and for some combinations of options only; that no line is false or missing is a statement about all runs",
  "ramp/cli.py:main", "ramp/post_process/post_process.py:export_series")

out = os.path.join(os.path.dirname(os.path.abspath(__file__)), "..", "properties.jsonl")
with open(out, "w") as f:
    for i, d in enumerate(props, 1):
        f.write(json.dumps(dict(id=f"C{i:02d}", **d), ensure_ascii=False) + "\n")
        print(f"C{i:02d}", d["title"])
