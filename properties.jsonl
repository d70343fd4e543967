{"id": "C01", "title": "Random variation stays in its band", "statement": "random_variation(var, norm) returns a number between norm*(1-var) and norm*(1+var), and every number of that band is a possible outcome; with var=0 it returns norm exactly.", "quantifier": "all numbers var, norm; every sequence of outcomes of the random module", "why_tests_cant": "a test samples finitely many draws; a draw outside the band could be rare", "anchors": ["ramp/core/utils.py:random_variation"]}
{"id": "C02", "title": "Duty cycle shape", "statement": "duty_cycle(var,t1,p1,t2,p2) with 0<=var<=1 and t1,t2>=0 never fails and returns k1 samples of p1 followed by k2 samples of p2 with int(t_i*(1-var)) <= k_i <= int(t_i*(1+var)); with var=0 exactly t1 samples of p1 then t2 of p2. With var=0 and a negative duration it raises ValueError.", "quantifier": "all var, t1, p1, t2, p2; every sequence of outcomes of the random module", "why_tests_cant": "the lengths depend on random draws", "anchors": ["ramp/core/utils.py:duty_cycle"]}
{"id": "C03", "title": "random_choice returns the cycle or its reverse", "statement": "random_choice returns either a two-part cycle (p1 part first) or the swapped cycle (p2 part first), with part lengths bounded as in duty_cycle; both orders are possible.", "quantifier": "all parameters; every sequence of outcomes of the random module", "why_tests_cant": "random outcome", "anchors": ["ramp/core/utils.py:random_choice"]}
{"id": "C04", "title": "Overlap tests are exact", "statement": "within_peak_time_window(a,b,c,d) is True exactly when the closed minute ranges [a,b] and [c,d] share a minute, and range_within_window(a,b,w) exactly when [a,b] and [w[0],w[1]] share one (for ordered ranges).", "quantifier": "all integers a<=b, c<=d", "why_tests_cant": "unbounded integer domain with boundary cases", "anchors": ["ramp/core/utils.py:within_peak_time_window", "ramp/core/utils.py:range_within_window"]}
{"id": "C05", "title": "Day types and yearly pattern", "statement": "get_day_type is 1 exactly on Saturdays and Sundays; yearly_pattern() is the 365-day pattern of a year starting on a Monday, yearly_pattern(y) has one entry per calendar day of y giving that day's type, and both agree whenever y is a common year starting on a Monday.", "quantifier": "all days, all years", "why_tests_cant": "infinitely many dates; leap-year rules", "anchors": ["ramp/core/utils.py:get_day_type", "ramp/core/utils.py:yearly_pattern"]}
{"id": "C06", "title": "Randomised windows stay in the day", "statement": "For a window inside [0,1440] and 0<=random_var_w<=1, the randomised window used for a day stays inside [0,1440] and each end moves by at most int(random_var_w*length); with random_var_w=0 it is the declared window.", "quantifier": "all windows and variabilities; every sequence of outcomes of the random module", "why_tests_cant": "random outcomes", "anchors": ["ramp/core/core.py:Appliance.calc_rand_window", "ramp/core/core.py:Appliance.windows"]}
{"id": "C07", "title": "Randomised time of use is bounded", "statement": "rand_total_time_of_use returns an integer t with func_cycle <= t <= 0.99*(sum of the three window lengths), never above max(func_cycle, func_time*(1+variability)) and never below min(int(0.99*total), int(func_time*(1-variability)), ...).", "quantifier": "all appliances, windows; every sequence of outcomes of the random module", "why_tests_cant": "random outcomes and rounding", "anchors": ["ramp/core/core.py:Appliance.rand_total_time_of_use"]}
{"id": "C08", "title": "Time-of-use failure is a configuration error, not bad luck", "statement": "rand_total_time_of_use raises ValueError if and only if func_cycle exceeds 99% of the available window time, whatever the random draws.", "quantifier": "all appliances, windows; every sequence of outcomes of the random module", "why_tests_cant": "an error that depends on draws would be seen only sometimes", "anchors": ["ramp/core/core.py:Appliance.rand_total_time_of_use"]}
{"id": "C09", "title": "Switch-on event stays inside one free range", "statement": "rand_switch_on_window returns either None or a non-empty contiguous run of minutes lying inside a single free range, of length at least min(func_cycle, duty cycle length) and at most rand_time.", "quantifier": "all appliances, free ranges; every sequence of outcomes of the random module", "why_tests_cant": "random outcomes", "anchors": ["ramp/core/core.py:Appliance.rand_switch_on_window"]}
{"id": "C10", "title": "None is returned exactly when nothing fits", "statement": "rand_switch_on_window returns None if and only if no free range is at least func_cycle minutes long.", "quantifier": "all appliances and free ranges; every sequence of outcomes of the random module", "why_tests_cant": "random outcomes", "anchors": ["ramp/core/core.py:Appliance.rand_switch_on_window"]}
{"id": "C11", "title": "The internal sanity error is unreachable", "statement": "When rand_time >= func_cycle (which generate_load_profile guarantees), rand_switch_on_window never raises the 'something fishy' ValueError or an internal type/index error.", "quantifier": "all appliances with func_cycle>=1 and non-empty cycles; every sequence of outcomes of the random module", "why_tests_cant": "absence of an error over all executions", "anchors": ["ramp/core/core.py:Appliance.rand_switch_on_window", "ramp/core/core.py:Appliance.generate_load_profile"]}
{"id": "C12", "title": "Booking an event frees exactly the other minutes", "statement": "update_available_time_for_switch_on_events removes exactly the minutes of the event from the set of available minutes when the free ranges are separated by at least one minute and the event lies in one of them, and keeps the ranges separated.", "quantifier": "all lists of separated free ranges and all events inside one", "why_tests_cant": "unbounded lists of ranges; boundary cases", "anchors": ["ramp/core/core.py:Appliance.update_available_time_for_switch_on_events"]}
{"id": "C13", "title": "Switch-on events of one appliance-day never overlap", "statement": "During one generate_load_profile call no minute is booked by two switch-on events.", "quantifier": "all appliances, days; every sequence of outcomes of the random module", "why_tests_cant": "overlap depends on random placement", "anchors": ["ramp/core/core.py:Appliance.generate_load_profile", "ramp/core/core.py:Appliance.update_available_time_for_switch_on_events"]}
{"id": "C14", "title": "Total switch-on time never exceeds, and normally equals, the randomised time of use", "statement": "The durations of all switch-on events of one appliance-day sum to at most the randomised time of use, with equality unless no free range of func_cycle minutes remained.", "quantifier": "all appliances; every sequence of outcomes of the random module", "why_tests_cant": "random outcomes", "anchors": ["ramp/core/core.py:Appliance.generate_load_profile"]}
{"id": "C15", "title": "The generation loop terminates", "statement": "generate_load_profile always terminates: the switch-on loop runs at most rand_time+1 times, for every parameter value and every random outcome.", "quantifier": "all appliances (no restriction); every sequence of outcomes of the random module", "why_tests_cant": "tests cannot show termination", "anchors": ["ramp/core/core.py:Appliance.generate_load_profile"]}
{"id": "C16", "title": "Minimum on-time after a switch-on", "statement": "Every switch-on event keeps the appliance on for at least func_cycle minutes (documented meaning of func_cycle).", "quantifier": "all appliances; every sequence of outcomes of the random module", "why_tests_cant": "random outcomes", "anchors": ["ramp/core/core.py:Appliance.generate_load_profile", "ramp/core/core.py:Appliance.rand_switch_on_window"]}
{"id": "C17", "title": "Coincident switch-on number is between 1 and number", "statement": "calc_coincident_switch_on returns an integer between 1 and number (number>=1), equal to number for fixed appliances, and every value 1..number is possible when not fixed. An event counts as inside the peak exactly when it has a minute in common with the range from the first to the last minute of the peak time range: then the number comes from the normal deviate, otherwise from the uniform one.", "quantifier": "all number>=1; every sequence of outcomes of the random module", "why_tests_cant": "random outcomes", "anchors": ["ramp/core/core.py:Appliance.calc_coincident_switch_on", "ramp/core/constants.py:switch_on_parameters"]}
{"id": "C18", "title": "No load outside the windows of use", "statement": "The generated daily profile of an appliance is exactly zero at every minute outside its randomised windows; with random_var_w=0, outside the declared windows.", "quantifier": "all appliances; every sequence of outcomes of the random module", "why_tests_cant": "random outcomes", "anchors": ["ramp/core/core.py:Appliance.generate_load_profile"]}
{"id": "C19", "title": "Every booked minute carries a coincident multiple of the power, every other window minute the 0.001 marker", "statement": "Without duty cycles, at a booked minute the load is c*power*f with c an integer in 1..number and |f-1|<=thermal_p_var (so an exact multiple of power when thermal_p_var=0); at a window minute not booked it is exactly 0.001.", "quantifier": "all appliances; every sequence of outcomes of the random module", "why_tests_cant": "random outcomes", "anchors": ["ramp/core/core.py:Appliance.update_daily_use"]}
{"id": "C20", "title": "Profiles are non-negative and bounded", "statement": "With non-negative powers and 0<=thermal_p_var<=1 the daily profile lies between 0 and max(0.001, number*pmax*(1+thermal_p_var)) at every minute, pmax being the largest of the rated and duty-cycle powers.", "quantifier": "all such appliances; every sequence of outcomes of the random module", "why_tests_cant": "random outcomes", "anchors": ["ramp/core/core.py:Appliance.generate_load_profile"]}
{"id": "C21", "title": "Number of minutes in use is bounded by the time of use", "statement": "The number of minutes of the day at which the profile is neither 0 nor the marker is at most max(func_cycle, func_time*(1+variability)) and at most 99% of the window time.", "quantifier": "all appliances; every sequence of outcomes of the random module", "why_tests_cant": "random outcomes", "anchors": ["ramp/core/core.py:Appliance.generate_load_profile"]}
{"id": "C22", "title": "Skip rules", "statement": "If the day type does not match wd_we_type, or pref_index is set and differs from the user's preference of the day, or func_time is 0, the profile is zero at every minute for every random outcome and no error is raised; with occasional_use>=1 and none of these the appliance is never skipped.", "quantifier": "all appliances; every sequence of outcomes of the random module", "why_tests_cant": "random outcomes", "anchors": ["ramp/core/core.py:Appliance.generate_load_profile"]}
{"id": "C23", "title": "Flat appliances are deterministic", "statement": "A flat='yes' appliance with random_var_w=0 and occasional_use>=1 that is used on the day has exactly power[day]*number at each minute of its windows and 0 elsewhere, for every random outcome.", "quantifier": "all flat appliances; every sequence of outcomes of the random module", "why_tests_cant": "must hold for every draw", "anchors": ["ramp/core/core.py:Appliance.generate_load_profile"]}
{"id": "C24", "title": "Duty cycle is laid out from the start of each event and repeated", "statement": "With duty cycles, the k-th minute of a switch-on event carries coincidence times sample k mod len(cycle) of the selected cycle.", "quantifier": "all duty-cycle appliances; every sequence of outcomes of the random module", "why_tests_cant": "random outcomes", "anchors": ["ramp/core/core.py:Appliance.update_daily_use"]}
{"id": "C25", "title": "The duty cycle chosen is the first whose window overlaps the event", "statement": "For a switch-on event of a duty-cycle appliance, cycle 1 is used if the event overlaps cw11 or cw12, else cycle 2 if it overlaps cw21 or cw22, else cycle 3 if cw31 or cw32; an event overlapping none is never used.", "quantifier": "all duty-cycle appliances; every sequence of outcomes of the random module", "why_tests_cant": "random outcomes", "anchors": ["ramp/core/core.py:Appliance.rand_switch_on_window"]}
{"id": "C26", "title": "Only configured duty-cycle windows are used", "statement": "A duty cycle is used for an event only if the event overlaps one of the windows the user configured for that cycle.", "quantifier": "all duty-cycle appliances; every sequence of outcomes of the random module", "why_tests_cant": "rare event placement", "anchors": ["ramp/core/core.py:Appliance.rand_switch_on_window", "ramp/core/utils.py:range_within_window"]}
{"id": "C27", "title": "Single-shot duty cycles", "statement": "With continuous_duty_cycle=0 no switch-on event is longer than its duty cycle.", "quantifier": "all duty-cycle appliances; every sequence of outcomes of the random module", "why_tests_cant": "random outcomes", "anchors": ["ramp/core/core.py:Appliance.rand_switch_on_window"]}
{"id": "C28", "title": "Duty-cycle appliances do not crash at generation", "statement": "A duty-cycle appliance accepted by the API generates a profile for every random outcome (no RecursionError).", "quantifier": "all duty-cycle appliances; every sequence of outcomes of the random module", "why_tests_cant": "crash depends on draws", "anchors": ["ramp/core/core.py:Appliance.rand_switch_on_window"]}
{"id": "C29", "title": "windows() validation", "statement": "windows() succeeds only if each declared window is provided, has non-negative length, fits in the day, and the declared windows together last at least func_time; it raises InvalidWindow exactly when a declared window is missing or the total is too short.", "quantifier": "all appliances and window arguments", "why_tests_cant": "unbounded argument space", "anchors": ["ramp/core/core.py:Appliance.windows"]}
{"id": "C30", "title": "Rejected appliance is not registered", "statement": "If add_appliance raises, the user's list of appliances is unchanged.", "quantifier": "all users and arguments", "why_tests_cant": "unbounded argument space", "anchors": ["ramp/core/core.py:User.add_appliance", "ramp/core/core.py:Appliance.windows"]}
{"id": "C31", "title": "Adding an appliance object is idempotent", "statement": "Adding an Appliance instance already owned leaves the list unchanged; adding a different one appends exactly one element and keeps the order.", "quantifier": "all users, appliances and histories", "why_tests_cant": "all histories", "anchors": ["ramp/core/core.py:User._add_appliance_instance"]}
{"id": "C32", "title": "Every added appliance is counted", "statement": "Each add_appliance call that returns an appliance makes the user own one more appliance.", "quantifier": "all users and arguments", "why_tests_cant": "all histories", "anchors": ["ramp/core/core.py:User.add_appliance", "ramp/core/core.py:Appliance.__eq__"]}
{"id": "C33", "title": "Appliance equality is an equivalence on the saved attributes", "statement": "Appliance == is reflexive, symmetric and transitive and holds exactly when all saved attributes agree (power series of the same length).", "quantifier": "all appliances", "why_tests_cant": "unbounded domain", "anchors": ["ramp/core/core.py:Appliance.__eq__"]}
{"id": "C34", "title": "User equality compares users", "statement": "User == is True only if names, counts, preferences and appliances agree.", "quantifier": "all users", "why_tests_cant": "unbounded domain", "anchors": ["ramp/core/core.py:User.__eq__"]}
{"id": "C35", "title": "Maximum profile", "statement": "The theoretical maximum profile of a freshly defined appliance is proportional to its windows: mean(power)*number*0.001 in windows, 0 elsewhere; and it does not depend on what was simulated before.", "quantifier": "all appliances, all simulation histories", "why_tests_cant": "all histories", "anchors": ["ramp/core/core.py:Appliance.maximum_profile", "ramp/core/core.py:User.maximum_profile"]}
{"id": "C36", "title": "add_user flattens nested lists", "statement": "add_user appends all users of arbitrarily nested lists in order and raises InvalidType iff some leaf is not a User.", "quantifier": "all nested lists", "why_tests_cant": "unbounded nesting", "anchors": ["ramp/core/core.py:UseCase.add_user"]}
{"id": "C37", "title": "Initialisation gives a consistent calendar", "statement": "After a successful initialize(), num_days equals the number of days, the days are consecutive, and datetimeindex has 1440 consecutive minutes per day, starting at the first day.", "quantifier": "all dates, num_days, call histories", "why_tests_cant": "all histories", "anchors": ["ramp/core/core.py:UseCase.initialize"]}
{"id": "C38", "title": "Which days are simulated", "statement": "date_start and date_end given: exactly the days from start to end; only date_start (or today) and num_days: num_days days from it; only date_end: num_days days ending on it; both and a different num_days: num_days days from date_start.", "quantifier": "all dates and num_days", "why_tests_cant": "unbounded domain", "anchors": ["ramp/core/core.py:UseCase.initialize"]}
{"id": "C39", "title": "Re-initialisation needs force and then takes the new values", "statement": "initialize() on an initialised use case without force changes nothing; with force=True it takes the current dates into account.", "quantifier": "all histories", "why_tests_cant": "all histories", "anchors": ["ramp/core/core.py:UseCase.initialize"]}
{"id": "C40", "title": "Peak time range is never empty", "statement": "calc_peak_time_range returns a non-empty run of consecutive integers of even length containing its centre.", "quantifier": "all use cases; every sequence of outcomes of the random module", "why_tests_cant": "random outcomes", "anchors": ["ramp/core/core.py:UseCase.calc_peak_time_range"]}
{"id": "C41", "title": "Peak time range can always be computed", "statement": "calc_peak_time_range does not fail.", "quantifier": "all use cases; every sequence of outcomes of the random module", "why_tests_cant": "depends on the number of minutes attaining the maximum", "anchors": ["ramp/core/core.py:UseCase.calc_peak_time_range"]}
{"id": "C42", "title": "Peak enlarge validation", "statement": "Setting peak_enlarge accepts exactly non-negative floats; otherwise an error is raised and the stored value is unchanged.", "quantifier": "all values", "why_tests_cant": "unbounded domain", "anchors": ["ramp/core/core.py:UseCase.peak_enlarge"]}
{"id": "C43", "title": "Power values cover the simulated period", "statement": "After a successful initialize() every appliance of every user has a power value for every simulated day; a time-varying power too short for the period is rejected with ValueError.", "quantifier": "all use cases and histories", "why_tests_cant": "all histories", "anchors": ["ramp/core/core.py:UseCase.initialize", "ramp/core/core.py:Appliance.check_power_values"]}
{"id": "C44", "title": "Profiles have the right shape and flattening is row-major", "statement": "generate_daily_load_profiles returns num_days rows of 1440 values (flat=False) or the same numbers day after day (flat=True).", "quantifier": "all initialised use cases; every sequence of outcomes of the random module", "why_tests_cant": "unbounded", "anchors": ["ramp/core/core.py:UseCase.generate_daily_load_profiles"]}
{"id": "C45", "title": "Superposition", "statement": "The load of the use case at each minute is the sum, over users, over the num_users members and over appliances, of profiles each generated by one generate_load_profile run for that day.", "quantifier": "all use cases; every sequence of outcomes of the random module", "why_tests_cant": "unbounded", "anchors": ["ramp/core/core.py:UseCase.generate_daily_load_profiles", "ramp/core/core.py:User.generate_aggregated_load_profile", "ramp/core/core.py:User.generate_single_load_profile"]}
{"id": "C46", "title": "Aggregate bounds", "statement": "With non-negative powers every minute of the use-case load lies between 0 and the sum over users of num_users times the sum of appliance bounds.", "quantifier": "all use cases; every sequence of outcomes of the random module", "why_tests_cant": "random outcomes", "anchors": ["ramp/core/core.py:UseCase.generate_daily_load_profiles"]}
{"id": "C47", "title": "Weekday and weekend appliances", "statement": "A wd_we_type=0 appliance contributes nothing on Saturdays and Sundays and a wd_we_type=1 appliance nothing on other days, in the load of the whole use case.", "quantifier": "all use cases, dates; every sequence of outcomes of the random module", "why_tests_cant": "random outcomes, all dates", "anchors": ["ramp/core/core.py:UseCase.generate_daily_load_profiles", "ramp/core/core.py:Appliance.generate_load_profile"]}
{"id": "C48", "title": "One preference per member and day", "statement": "On each member-day the user's preference is in 1..user_preference, all appliances with another non-zero pref_index stay off, and an appliance with pref_index>user_preference is never on.", "quantifier": "all users; every sequence of outcomes of the random module", "why_tests_cant": "random outcomes", "anchors": ["ramp/core/core.py:User.generate_single_load_profile"]}
{"id": "C49", "title": "Simulation does not change the configuration", "statement": "generate_daily_load_profiles leaves every saved attribute of every user and appliance, and num_days, days and datetimeindex unchanged.", "quantifier": "all use cases; every sequence of outcomes of the random module", "why_tests_cant": "all executions", "anchors": ["ramp/core/core.py:UseCase.generate_daily_load_profiles"]}
{"id": "C50", "title": "A seed makes results reproducible", "statement": "Creating a use case with random_seed=s and running the same calls gives the same profiles whatever random numbers were drawn before in the process.", "quantifier": "all seeds, use cases and prior generator states", "why_tests_cant": "all prior histories", "anchors": ["ramp/core/core.py:UseCase.__init__"]}
{"id": "C51", "title": "Parallel result does not depend on the schedule", "statement": "generate_daily_load_profiles_parallel returns the same array for every order in which the worker results arrive, namely the per-day sums.", "quantifier": "all use cases, all completion orders", "why_tests_cant": "all schedules", "anchors": ["ramp/core/core.py:UseCase.generate_daily_load_profiles_parallel"]}
{"id": "C52", "title": "Parallel mode simulates the same appliances as sequential mode", "statement": "Every appliance that can be on in sequential mode can be on in parallel mode, and parallel mode succeeds whenever sequential mode does.", "quantifier": "all use cases; every sequence of outcomes of the random module", "why_tests_cant": "all schedules and random outcomes", "anchors": ["ramp/core/core.py:UseCase.generate_daily_load_profiles_parallel", "ramp/core/core.py:single_appliance_daily_load_profile"]}
{"id": "C53", "title": "Save then load restores the model", "statement": "Loading a saved use case gives the same users with the same attributes and the same appliances with the same saved attributes, in the same order.", "quantifier": "all use cases with distinct non-empty user names and valid appliances", "why_tests_cant": "unbounded domain", "anchors": ["ramp/core/core.py:UseCase.save", "ramp/core/core.py:UseCase.load", "ramp/core/core.py:Appliance.save", "ramp/core/utils.py:read_input_file"]}
{"id": "C54", "title": "Saved power is the appliance's power", "statement": "The power written by save() is the appliance's power series (a single number only if the series is constant).", "quantifier": "all power series", "why_tests_cant": "unbounded domain", "anchors": ["ramp/core/core.py:Appliance.save"]}
{"id": "C55", "title": "Power series read from a spreadsheet range", "statement": "A one-column range of 366 rows gives those values as the power series; a two-column range (timestamps, values) gives the values; other sizes are rejected with ValueError.", "quantifier": "all ranges", "why_tests_cant": "unbounded domain", "anchors": ["ramp/core/utils.py:read_input_file", "ramp/core/core.py:Appliance.__init__"]}
{"id": "C56", "title": "load() groups rows by user", "statement": "load() creates one user per distinct user name in order of first appearance, owning the appliances of its rows in order, and raises ValueError iff two rows of a user disagree on num_users or user_preference or a row has no user name.", "quantifier": "all tables", "why_tests_cant": "unbounded tables", "anchors": ["ramp/core/core.py:UseCase.load"]}
{"id": "C57", "title": "Any saved user can be loaded", "statement": "Any table written by save() can be loaded.", "quantifier": "all use cases", "why_tests_cant": "unbounded domain", "anchors": ["ramp/core/core.py:UseCase.load", "ramp/core/core.py:UseCase.save"]}
{"id": "C58", "title": "The legacy constructor is equivalent to add_appliance", "statement": "User.Appliance(...) builds the same appliance as add_appliance with the same arguments.", "quantifier": "all arguments", "why_tests_cant": "unbounded domain", "anchors": ["ramp/core/core.py:User.Appliance"]}
{"id": "C59", "title": "Command line: dates and counts per input file", "statement": "Each input file is run once, in order, with its own num_days and output path; one value of -n is used for all files; a list of a different length raises ValueError; -y together with a date raises ValueError.", "quantifier": "all argument lists", "why_tests_cant": "unbounded lists", "anchors": ["ramp/cli.py:main"]}
{"id": "C60", "title": "Command line: open date ranges are completed inside the calendar year", "statement": "Without -n, a missing start date becomes 1 January of the end year and a missing end date 31 December of the start year, so the range is never reversed and stays in one calendar year.", "quantifier": "all dates", "why_tests_cant": "all dates", "anchors": ["ramp/cli.py:main"]}
{"id": "C61", "title": "Command line: each input keeps its own results", "statement": "With several input files the results of every file are still available after the run.", "quantifier": "all argument lists", "why_tests_cant": "unbounded lists", "anchors": ["ramp/cli.py:main", "ramp/post_process/post_process.py:export_series"]}
{"id": "C62", "title": "Monthly mode covers the year exactly once", "statement": "In month-file mode the concatenated profile has exactly one value per minute of the year (leap years included), month i coming from the i-th file in numerical order of the file names.", "quantifier": "all years", "why_tests_cant": "all years", "anchors": ["ramp/cli.py:main"]}
{"id": "C63", "title": "-n is honoured", "statement": "run_usecase(num_days=n) simulates n days.", "quantifier": "all arguments", "why_tests_cant": "unbounded domain", "anchors": ["ramp/ramp_run.py:run_usecase", "ramp/core/core.py:UseCase.initialize"]}
{"id": "C64", "title": "The peak time range reflects the loaded users", "statement": "When running an .xlsx file from the command line the peak time range lies around the peak of the loaded users' maximum profile.", "quantifier": "all input files; every sequence of outcomes of the random module", "why_tests_cant": "random outcomes", "anchors": ["ramp/ramp_run.py:run_usecase", "ramp/core/core.py:UseCase.calc_peak_time_range"]}
{"id": "C65", "title": "Profile formatting preserves the data", "statement": "Profile_formatting returns the minute-wise average over days, the profiles in kW and the concatenated series; the series is the row-major concatenation and its sum is 1440-day-average consistent.", "quantifier": "all lists of profiles", "why_tests_cant": "unbounded", "anchors": ["ramp/post_process/post_process.py:Profile_formatting"]}
{"id": "C66", "title": "Load duration curve", "statement": "The load duration curve is a non-increasing permutation of the column, so value k is exceeded or attained by at least k time steps.", "quantifier": "all columns", "why_tests_cant": "unbounded", "anchors": ["ramp/post_process/post_process.py:Plot.load_duration_curve"]}
{"id": "C67", "title": "Resampling conserves energy", "statement": "Plot.resample with rule 'sum' preserves the column total (divided by conversion), 'mean' lies between the minimum and maximum of each bin, and the data object itself is unchanged unless inplace.", "quantifier": "all columns and bin sizes", "why_tests_cant": "unbounded", "anchors": ["ramp/post_process/post_process.py:Plot.resample", "ramp/cli.py:main"]}
{"id": "C68", "title": "Peak and error indicators", "statement": "Plot.peak returns exactly the time steps attaining the maximum (at least one for a non-empty column); Plot.error is 0 where the data agree and recovers the simulated value from the validation value elsewhere.", "quantifier": "all columns", "why_tests_cant": "unbounded", "anchors": ["ramp/post_process/post_process.py:Plot.peak", "ramp/post_process/post_process.py:Plot.error"]}
{"id": "C69", "title": "add_column validates the index", "statement": "Plot.add_column adds the columns only if the index is identical and raises ValueError otherwise leaving the data unchanged; a frame without DatetimeIndex is rejected.", "quantifier": "all frames", "why_tests_cant": "unbounded", "anchors": ["ramp/post_process/post_process.py:Plot.add_column", "ramp/post_process/post_process.py:Plot._validate_df"]}
{"id": "C70", "title": "Conversion edits the input file at most once", "statement": "Converting an old .py input file twice leaves the same text as converting it once, and everything but the import line is kept.", "quantifier": "all file texts", "why_tests_cant": "all texts", "anchors": ["ramp/ramp_convert_old_input_files.py:convert_old_user_input_file"]}
{"id": "C71", "title": "Duty cycles of the day follow the user's specification", "statement": "For sensible parameters the duty cycles of the day are always drawn without error; each has its two parts at the configured powers varied by at most thermal_p_var and of lengths within r_c of the configured ones; with one cycle all events share it, with three the order of the parts may be swapped.", "quantifier": "all duty-cycle appliances; every sequence of outcomes of the random module", "why_tests_cant": "random outcomes", "anchors": ["ramp/core/core.py:Appliance.assign_random_cycles", "ramp/core/utils.py:duty_cycle", "ramp/core/utils.py:random_choice"]}
{"id": "C72", "title": "Sensible configurations never fail at generation", "statement": "An appliance whose windows lie in the day, cannot be turned around by the window variability and always leave room for one event, with at least one unit and (if it has duty cycles) duty cycle windows meeting every possible event, generates a profile for every random outcome.", "quantifier": "all such appliances, days; every sequence of outcomes of the random module", "why_tests_cant": "random outcomes", "anchors": ["ramp/core/core.py:Appliance.generate_load_profile"]}
{"id": "C73", "title": "Programs with sensible arguments build appliances that can be simulated", "statement": "Any sequence of API calls (constructor, windows, specific_cycle, cycle_behaviour, add_appliance, the legacy constructor) that raises no exception, with windows in the day, variabilities between 0 and 1 and ordered duty-cycle windows, leaves every appliance with windows inside the day that move by at most their own length, non-negative duty-cycle durations and ordered duty-cycle windows; its daily profile is then zero outside the widened windows.", "quantifier": "all histories of construction calls", "why_tests_cant": "histories of any length", "anchors": ["ramp/core/core.py:User.add_appliance", "ramp/core/core.py:Appliance.windows", "ramp/core/core.py:Appliance.specific_cycle", "ramp/core/core.py:Appliance.cycle_behaviour"]}
{"id": "C74", "title": "Simulations do not influence each other", "statement": "After a simulation the possible results of the next one are exactly those from before.", "quantifier": "all use cases ready to simulate; every sequence of outcomes of the random module", "why_tests_cant": "random outcomes, histories", "anchors": ["ramp/core/core.py:UseCase.generate_daily_load_profiles"]}
{"id": "C75", "title": "The peak time range is computed from the configuration", "statement": "The peak time range computed by initialize(force=True), calc_peak_time_range or by setting peak_enlarge depends on the configuration of the users only, whatever was simulated before.", "quantifier": "all use cases and histories; every sequence of outcomes of the random module", "why_tests_cant": "random outcomes, histories", "anchors": ["ramp/core/core.py:UseCase.calc_peak_time_range", "ramp/core/core.py:Appliance.maximum_profile"]}
{"id": "C76", "title": "A saved and reloaded use case simulates like the original", "statement": "After save and load the loaded users can produce exactly the load profiles that the original users can produce, and have the same peak time ranges.", "quantifier": "all valid use cases, days and peak time ranges; every sequence of outcomes of the random module", "why_tests_cant": "random outcomes", "anchors": ["ramp/core/core.py:UseCase.save", "ramp/core/core.py:UseCase.load", "ramp/core/core.py:UseCase.generate_daily_load_profiles"]}
{"id": "C77", "title": "Converted files are saved beside the input file", "statement": "ramp_convert saves the users of dir/name.py in dir/name<suffix>.xlsx, or in the folder given with -o; different input files are saved in different files.", "quantifier": "all paths and suffixes", "why_tests_cant": "all strings", "anchors": ["ramp/ramp_convert_old_input_files.py:convert_old_user_input_file"]}
{"id": "C78", "title": "Plot objects do not change each other's data", "statement": "A method call on one Plot object changes the data of no other Plot object; resample without inplace, copy, mean, sum and indexing change no data at all.", "quantifier": "all histories of calls on any number of objects", "why_tests_cant": "histories of any length", "anchors": ["ramp/post_process/post_process.py:Plot"]}
{"id": "C79", "title": "Plot.sum and Plot.mean aggregate across the columns", "statement": "Plot.sum() and Plot.mean() return one column with the index of the data, each entry being the sum or mean of the row; with nothing missing the sum is the mean times the number of columns.", "quantifier": "all frames", "why_tests_cant": "unbounded", "anchors": ["ramp/post_process/post_process.py:Plot.sum", "ramp/post_process/post_process.py:Plot.mean"]}
{"id": "C80", "title": "The order of users and appliances does not matter", "statement": "Permuting the users of a use case or the appliances of a user leaves the set of possible daily load profiles unchanged.", "quantifier": "all use cases ready to simulate, all permutations; every sequence of outcomes of the random module", "why_tests_cant": "all permutations and random outcomes", "anchors": ["ramp/core/core.py:UseCase.generate_daily_load_profiles", "ramp/core/core.py:User.generate_aggregated_load_profile"]}
{"id": "C81", "title": "Users add up", "statement": "The possible daily profiles of a use case with an additional user are exactly the sums of a possible profile without it and a possible profile of that user; a user with n+m members behaves like two users with n and m members and the same appliances; a user with no members contributes nothing.", "quantifier": "all use cases ready to simulate; every sequence of outcomes of the random module", "why_tests_cant": "random outcomes, unbounded", "anchors": ["ramp/core/core.py:UseCase.generate_daily_load_profiles", "ramp/core/core.py:User.generate_aggregated_load_profile"]}
{"id": "C82", "title": "Sensible use cases are simulated without errors", "statement": "A use case given its sensible users on construction (C72), with power values for the n days asked for and no single peak minute, is initialised by initialize(num_days=n) and then simulated without any exception, whatever the random numbers; exactly which use cases cannot fail, and the exact outcome of initialize(num_days=n).", "quantifier": "all such use cases, numbers of days; every sequence of outcomes of the random module", "why_tests_cant": "random outcomes, unbounded sizes", "anchors": ["ramp/core/core.py:UseCase.initialize", "ramp/core/core.py:UseCase.generate_daily_load_profiles"]}
{"id": "C83", "title": "The possible daily profiles of an appliance, exactly", "statement": "For an appliance with separated windows the profiles that a day can produce are exactly: nothing, on a day on which it may stay off; otherwise, with windows moved within their variability and a time of use in the permitted range, the profiles of the sequences of switch-on events that fit into the free runs of the windows, last func_cycle minutes or more (except a last event cut by the end of the time of use), use the power of one permitted number of appliances (or of the duty cycle of the window they fall in), and stop when the time of use is reached or no run of func_cycle minutes is free. Nothing else is possible and all of these are.", "quantifier": "all appliances with separated windows, days, day types and peak time ranges; every sequence of outcomes of the random module", "why_tests_cant": "the set of all random outcomes", "anchors": ["ramp/core/core.py:Appliance.generate_load_profile", "ramp/core/core.py:Appliance.rand_switch_on_window", "ramp/core/core.py:Appliance.update_daily_use"]}
{"id": "C84", "title": "The possible load profiles of a use case, exactly", "statement": "For a use case whose appliances have separated windows, given its users, initialised with initialize(num_days=n) and simulated, the possible results are exactly the lists of n daily profiles in which day k is the sum over users, members and appliances of possible days of the appliances as in C83 (constant power in the moved windows for flat appliances), each member having one preference drawn for the day.", "quantifier": "all such use cases, numbers of days; every sequence of outcomes of the random module", "why_tests_cant": "the set of all random outcomes, unbounded sizes", "anchors": ["ramp/core/core.py:UseCase.initialize", "ramp/core/core.py:UseCase.generate_daily_load_profiles", "ramp/core/core.py:Appliance.generate_load_profile"]}
{"id": "C85", "title": "How the arguments of add_appliance are matched with the parameters", "statement": "add_appliance accepts its arguments by position (in the order number, power, num_windows, ...), by keyword in any order, or mixed, with the same effect; an unknown keyword raises TypeError and leaves the user unchanged; after a successful call the attributes of the returned appliance are the given values, and the documented defaults for the parameters not given; a positional argument silently wins over the keyword of the same name and positional arguments after the fifteenth are ignored.", "quantifier": "all argument lists, all users", "why_tests_cant": "unboundedly many combinations of arguments", "anchors": ["ramp/core/core.py:User.add_appliance", "ramp/core/constants.py:APPLIANCE_ARGS", "ramp/core/constants.py:WINDOWS_PARAMETERS", "ramp/core/constants.py:DUTY_CYCLE_PARAMETERS"]}
{"id": "C86", "title": "The example input files that come with the package can be simulated", "statement": "The calls of input_file_1.py, input_file_2.py and input_file_3.py raise no exception and lead to one list of users; a use case of the users of input_file_1 is initialised and simulated without any exception for every number of days, every random outcome; that of input_file_2 for exactly the numbers of days covered by its shower power table (ValueError by initialize otherwise); that of input_file_3 is always initialised and its simulation can raise nothing but RecursionError, which it does raise for some random outcomes.", "quantifier": "all numbers of days, power tables of input_file_2, first days, recursion limits; every sequence of outcomes of the random module", "why_tests_cant": "random outcomes, all numbers of days", "anchors": ["ramp/example/input_file_1.py", "ramp/example/input_file_2.py", "ramp/example/input_file_3.py", "ramp/core/core.py:UseCase.generate_daily_load_profiles"]}
{"id": "C87", "title": "Where the exceptions of a simulation come from", "statement": "Every exception raised while simulating an initialised use case is raised on some day for some user with members and is: ValueError for a negative user_preference, IndexError for a power table shorter than the days, or an exception that generate_load_profile of one of its appliances raises for that day and preference. If preferences are not negative, powers cover the days and all appliances have windows in the day that leave room for an event and continuous duty cycles, only RecursionError is possible, and only if some event can miss all duty cycle windows of its appliance.", "quantifier": "all initialised use cases; every sequence of outcomes of the random module", "why_tests_cant": "random outcomes, unbounded sizes", "anchors": ["ramp/core/core.py:UseCase.generate_daily_load_profiles", "ramp/core/core.py:User.generate_aggregated_load_profile", "ramp/core/core.py:Appliance.generate_load_profile"]}
{"id": "C88", "title": "The energy of a day", "statement": "For an appliance with separated windows, m minutes of use and moved windows of T minutes in all, the energy of the day (the sum of its 1440 values) is at least m times the power of one appliance and at most m times that of all of them (up to thermal_p_var), plus the 0.001 W of the T - m unused minutes; with fixed='yes' and no thermal variation it is exact, and with no variability at all and func_cycle 1 it is the same number every day: min(func_time, 99 % of the windows) minutes of full power. A flat appliance uses its power times the number of appliances for all minutes of the moved windows. The energy of a day of a use case is between 0 and the sum over users and members of the appliance bounds.", "quantifier": "all appliances with separated windows, use cases with powers up to a bound, days; every sequence of outcomes of the random module", "why_tests_cant": "random outcomes, unbounded sizes", "anchors": ["ramp/core/core.py:Appliance.generate_load_profile", "ramp/core/core.py:Appliance.rand_total_time_of_use", "ramp/core/core.py:UseCase.generate_daily_load_profiles"]}
{"id": "C89", "title": "A user generates profiles on its own", "statement": "generate_single_load_profile and generate_aggregated_load_profile can be called on a user without use case: the possible results are exactly the possible days of one member, or of all members together, with the given peak time range or, if none is given, one range drawn once for a default use case of this user and shared by all later calls; the aggregated profile has the same possible values as a day of a use case of this user only. The calls leave the definition of the user unchanged. Without a given range the call raises IndexError when the maximum load of the user has a single peak minute.", "quantifier": "all users, sequences of calls, days, day types, peak time ranges; every sequence of outcomes of the random module", "why_tests_cant": "random outcomes, unboundedly long sequences of calls", "anchors": ["ramp/core/core.py:User.generate_single_load_profile", "ramp/core/core.py:User.generate_aggregated_load_profile"]}
{"id": "C90", "title": "Several independent runs of one use case", "statement": "generate_daily_load_profiles(cases=cases) on an initialised use case returns one column per label 'case x', each label once in the order of first appearance, with the minutes of the simulated days as index; each column can be any possible result of generate_daily_load_profiles(), independently of the others, and nothing else; without cases it raises ValueError.", "quantifier": "all initialised use cases, lists of cases; every sequence of outcomes of the random module", "why_tests_cant": "the set of all random outcomes, unbounded sizes", "anchors": ["ramp/core/core.py:UseCase.generate_daily_load_profiles"]}
{"id": "C91", "title": "What the calls on an existing appliance change", "statement": "specific_cycle(n, ...) sets exactly the powers, durations, randomness and the given windows of cycle n (an unknown n changes nothing; a negative duration raises ValueError but the values are set); cycle_behaviour sets exactly the six duty cycle windows; a successful windows(...) sets exactly the windows, their variabilities and marks, the automatic name and for fixed_cycle=1 the first two duty cycle windows; a rejected windows(...) has nevertheless replaced the windows. No other object changes.", "quantifier": "all users, appliances, arguments and states of the construction API", "why_tests_cant": "all states and arguments", "anchors": ["ramp/core/core.py:Appliance.specific_cycle", "ramp/core/core.py:Appliance.cycle_behaviour", "ramp/core/core.py:Appliance.windows"]}
{"id": "C92", "title": "The documented probabilities", "statement": "As functions of the random numbers drawn: an appliance eligible on a day is used exactly when one uniform number is at most occasional_use; the preference of a member, the displacement of each window bound and the start of a switch-on event (over all minutes with func_cycle free minutes) are equally likely over their ranges; the time of use and the duration of an event are the documented interpolations between their smallest and largest values.", "quantifier": "all appliances, days; every sequence of outcomes of the random module", "why_tests_cant": "the law of random outcomes, not single outcomes", "anchors": ["ramp/core/core.py:Appliance.generate_load_profile", "ramp/core/core.py:Appliance.calc_rand_window", "ramp/core/core.py:Appliance.rand_total_time_of_use", "ramp/core/core.py:Appliance.rand_switch_on_window", "ramp/core/core.py:User.generate_single_load_profile"]}
{"id": "C93", "title": "Powers scale the load and nothing else", "statement": "Multiplying all powers of a use case by a positive number c, with the same seed: the initialisation gives the same days and the same peak time range, the simulation raises the same exception or uses the same windows, times of use, events and numbers of units, and the load is multiplied by c at every minute, exactly for appliances marked flat, and otherwise except for the 0.001 that marks unused minutes of windows.", "quantifier": "all use cases, positive numbers c; every sequence of outcomes of the random module", "why_tests_cant": "relates two runs for all random outcomes", "anchors": ["ramp/core/core.py:UseCase.initialize", "ramp/core/core.py:UseCase.generate_daily_load_profiles", "ramp/core/core.py:Appliance.generate_load_profile"]}
{"id": "C94", "title": "Sharing objects does not change the results", "statement": "A simulation depends on the definitions of users and appliances only, not on which Python objects are shared: a User listed twice in a use case, or an Appliance object added to several users, behaves like separate copies, with the same seed.", "quantifier": "all configurations of shared User and Appliance objects, days, peak time ranges; every sequence of outcomes of the random module", "why_tests_cant": "unboundedly many ways of sharing; random outcomes", "anchors": ["ramp/core/core.py:User._add_appliance_instance", "ramp/core/core.py:User.generate_single_load_profile", "ramp/core/core.py:Appliance.generate_load_profile", "ramp/core/core.py:Appliance.save"]}
{"id": "C95", "title": "An interrupted simulation can be repeated", "statement": "When generate_daily_load_profiles of an initialised use case stops at any moment, because of an exception or an interruption, the use case keeps its dates, days and peak time range, its users and appliances keep their definitions, saving it gives the same table, and simulating again gives, with the same random numbers, the same rows or the same exception as if the interrupted simulation had never been started.", "quantifier": "all initialised use cases, arguments, moments of interruption between two assignments to attributes; every sequence of outcomes of the random module", "why_tests_cant": "every crash point of every execution", "anchors": ["ramp/core/core.py:UseCase.generate_daily_load_profiles", "ramp/core/core.py:User.generate_aggregated_load_profile", "ramp/core/core.py:User.generate_single_load_profile", "ramp/core/core.py:Appliance.generate_load_profile"]}
{"id": "C96", "title": "Results on disk at any moment", "statement": "When a run of the command line stops at any moment, because of an exception or an interruption: with several input files, the results of every file run before are on disk, complete (of files with the same result path those of the last), at most the results of the file being written are incomplete, and no other file has changed; with one input file per month nothing is written before all twelve months have been simulated, the table of hours is only started when the table of minutes is complete, and no other file has changed.", "quantifier": "all command lines, spreadsheets, moments of interruption between two rows written, files on disk before; every sequence of outcomes of the random module", "why_tests_cant": "every crash point of every run", "anchors": ["ramp/cli.py:main", "ramp/ramp_run.py:run_usecase", "ramp/post_process/post_process.py:export_series", "ramp/post_process/post_process.py:old_post_process"]}
{"id": "C97", "title": "What the plots draw", "statement": "Plot.line and Plot.area draw exactly the columns asked for, in this order and with their values (all for None); load_duration_curve draws the curve of the column; shadow draws the average of the columns row by row (or the main column) as the dark line and all columns, or those listed, as light lines; a missing column raises KeyError, an engine other than matplotlib and plotly (in any case) or a contradictory choice of the main line raises ValueError.", "quantifier": "all data, column arguments, engines", "why_tests_cant": "all data and arguments", "anchors": ["ramp/post_process/post_process.py:Plot.line", "ramp/post_process/post_process.py:Plot.area", "ramp/post_process/post_process.py:Plot.shadow", "ramp/post_process/post_process.py:Plot.load_duration_curve", "ramp/post_process/post_process.py:Plot._check_engine"]}
{"id": "C98", "title": "Selections of the data", "statement": "Plot.iloc, loc and head return a new Plot with exactly the selected rows and columns, in the order asked for, with their timestamps, names and values, for a position, a list or a slice (positions may count from the end; slices of loc by timestamps or days contain both bounds, and the text of a day is all of its rows), raising IndexError or KeyError when something selected does not exist; from_file gives the data of a csv or xlsx file, with the index passed if any.", "quantifier": "all data, slices, lists and single positions, names; all files", "why_tests_cant": "all data and arguments", "anchors": ["ramp/post_process/post_process.py:Plot.iloc", "ramp/post_process/post_process.py:Plot.loc", "ramp/post_process/post_process.py:Plot.head", "ramp/post_process/post_process.py:Plot.from_file"]}
{"id": "C99", "title": "Rounding of floating point numbers", "statement": "In double precision, with every operation of the simulation rounded as Python does, a simulation of use cases with parameters in the documented ranges is a simulation in exact arithmetic of the same use case with variabilities of the times larger by at most 16 rounding errors (unchanged if 0 or 1): the same windows, times of use, switch-on events and numbers of appliances, the same exceptions, and in every minute the same load with a relative error of 2 ** -49 for an appliance and 1e-9 for up to four million appliances and users; minutes outside the windows are exactly 0, loads are never negative, and sensible configurations never fail.", "quantifier": "all use cases with parameters in range, days, peak windows; all values double precision can round to; every sequence of outcomes of the random module", "why_tests_cant": "all values of all draws and their rounding errors", "anchors": ["ramp/core/core.py:Appliance.generate_load_profile", "ramp/core/core.py:Appliance.rand_total_time_of_use", "ramp/core/core.py:Appliance.rand_switch_on_window", "ramp/core/core.py:Appliance.calc_coincident_switch_on", "ramp/core/core.py:Appliance.update_daily_use", "ramp/core/core.py:Appliance.assign_random_cycles", "ramp/core/utils.py:duty_cycle", "ramp/core/utils.py:random_choice", "ramp/core/utils.py:random_variation", "ramp/core/core.py:UseCase.generate_daily_load_profiles"]}
{"id": "C100", "title": "Options of the command line", "statement": "The command line runs with exactly the arguments its words say: every word is an option (its full name, an unambiguous abbreviation of a long name, with = or, for one letter, the value joined), or a value of the option before it; no word is ignored, the values must fit the option and be readable as numbers or dates, otherwise the program ends with a message before any simulation or file; the order of different options does not matter, of a repeated option the last occurrence counts, and -p switches parallel mode on unless followed by an empty word (also -p False, and a file name after -p is taken for its value).", "quantifier": "all lists of words without --; all readers of numbers and dates", "why_tests_cant": "all command lines", "anchors": ["ramp/cli.py:parser", "ramp/cli.py:main"]}
{"id": "C101", "title": "The days of a simulation are independent", "statement": "If the random numbers drawn are independent with the same distribution: the rows of generate_daily_load_profiles are independent random variables (the probability that every row k has a property P_k is the product of the probabilities for the single days, and expected values of products are products of expected values), and rows of days with the same type and powers have the same distribution, that of a simulation of this day alone. The rows are a sum of independent runs: days, users, members and appliances one after the other, each with fresh numbers and the definitions as given, nothing left over from earlier runs.", "quantifier": "all initialised use cases, lists of days, properties of rows; every probability distribution of the numbers drawn", "why_tests_cant": "a statement about the joint probability of all outcomes", "anchors": ["ramp/core/core.py:UseCase.generate_daily_load_profiles", "ramp/core/core.py:User.generate_aggregated_load_profile", "ramp/core/core.py:User.generate_single_load_profile", "ramp/core/core.py:Appliance.generate_load_profile"]}
{"id": "C102", "title": "How often appliances are used", "statement": "In a simulation of n days of users whose appliances may be used on each of them, the number of days with a load has the binomial distribution for n trials, where a day stays empty with the product over all appliances and members of the probabilities that the number drawn is greater than occasional_use; for one appliance of one user a day is a day of use with the probability that the number is at most occasional_use, which with Python's random numbers (multiples of 2**-53) exceeds occasional_use by at most 2**-53 (so that occasional_use = 0 does not quite mean never) and is 1 from occasional_use = 1 on.", "quantifier": "all sensible use cases, numbers of days; every probability distribution of the numbers drawn, in particular Python's", "why_tests_cant": "a probability over all outcomes", "anchors": ["ramp/core/core.py:Appliance.generate_load_profile", "ramp/core/core.py:UseCase.generate_daily_load_profiles"]}
{"id": "C103", "title": "Order and grouping of users and appliances do not matter", "statement": "Listing the users, or the appliances of a user, in another order, or splitting a user of n + m members into two users of n and m members with the same appliances, changes the rows of a simulation with a fixed seed, but not their distribution: every set of results has the same probability and every quantity the same expected value.", "quantifier": "all initialised use cases, orders of users and appliances, splits of a user; every probability distribution of the numbers drawn", "why_tests_cant": "equality of two probability distributions", "anchors": ["ramp/core/core.py:UseCase.generate_daily_load_profiles", "ramp/core/core.py:User.generate_aggregated_load_profile"]}
{"id": "C104", "title": "The expected load adds up", "statement": "The expected load of every minute, and the expected energy, of every day is the sum over users and appliances of num_users times the expected value in a simulation of one member with this appliance alone. For appliances without variability except for frequency of use, preference and times of the events, the expected energy is num_users times the probability of use (that of the preference, 1/user_preference with Python's random numbers, times that of the frequency) times (minutes of use) x number x power plus the markers of 0.001, added up over users and appliances. Without user preferences the same sum holds in parallel mode, whatever the order in which the worker processes deliver.", "quantifier": "all use cases that cannot fail, days, minutes; every probability distribution of the numbers drawn, in particular Python's", "why_tests_cant": "an expected value over all outcomes", "anchors": ["ramp/core/core.py:UseCase.generate_daily_load_profiles", "ramp/core/core.py:User.generate_single_load_profile", "ramp/core/core.py:Appliance.generate_load_profile"]}
{"id": "C105", "title": "Parallel mode has the same statistics", "statement": "If the random numbers of the workers are independent with the same distribution: for users without preferences every set of results has the same probability, and every quantity of the results the same expected value, in parallel mode as in sequential mode, whatever the order in which the results arrive; with preferences parallel mode has the distribution of a sequential simulation of the same users with user_preference = 0.", "quantifier": "all initialised use cases with at least one run per day, lists of days, arrival orders; every probability distribution of the numbers drawn", "why_tests_cant": "equality of two probability distributions, over all schedules", "anchors": ["ramp/core/core.py:UseCase.generate_daily_load_profiles_parallel", "ramp/core/core.py:single_appliance_daily_load_profile", "ramp/core/core.py:UseCase.generate_daily_load_profiles"]}
{"id": "C106", "title": "When and how long an appliance is switched on", "statement": "With Python's random numbers: the bounds of a window of use of the day are those of the window moved independently by up to v minutes, all (2 v + 1) ** 2 moves being equally likely, then cut to the day; rand_switch_on_window starts the event at each minute of the free ranges that leaves room for func_cycle minutes with the same probability, and lets it take each number of minutes from func_cycle to one less than what is left of the range and of the time of use with the same probability (up to 2 ** -53); the full rest is never taken unless it is just func_cycle minutes.", "quantifier": "all windows and variabilities, all appliances without duty cycles and with disjoint free ranges, all start minutes and durations", "why_tests_cant": "a probability over all outcomes", "anchors": ["ramp/core/core.py:Appliance.calc_rand_window", "ramp/core/core.py:Appliance.rand_switch_on_window"]}
{"id": "C107", "title": "How many appliances are switched on together", "statement": "With Python's random numbers: of n appliances with fixed = 'no', outside the peak j are switched on with probability 2 / (2 n - 1) for each j from 1 to n - 1 and 1 / (2 n - 1) for j = n (up to 2 ** -53), never none or more than n; during the peak at most j with the probability that a standard normal deviate is at most 4 j / n - 2 (for 1 <= j < n); with fixed = 'yes' always all of them.", "quantifier": "all appliances, numbers, values of fixed; every distribution of the normal deviates", "why_tests_cant": "a probability over all outcomes", "anchors": ["ramp/core/core.py:Appliance.calc_coincident_switch_on", "ramp/core/constants.py:switch_on_parameters"]}
{"id": "C108", "title": "The variability of power is unbiased", "statement": "If the numbers drawn between 0 and 1 are independent and 1/2 on average, thermal_p_var changes no expected value: on every day the expected load of every minute, and the expected energy, are those of the same use case with thermal_p_var = 0 for all appliances, with and without duty cycles. With Python's random numbers, which are a little less than 1/2 on average, they are smaller by at most one part in 2 ** 53.", "quantifier": "all sensible use cases with powers that are not negative and thermal_p_var between 0 and 1, all days and minutes; every probability distribution of the numbers drawn with average 1/2, and Python's", "why_tests_cant": "an expected value over all outcomes", "anchors": ["ramp/core/core.py:Appliance.update_daily_use", "ramp/core/core.py:Appliance.assign_random_cycles", "ramp/core/core.py:Appliance.generate_load_profile", "ramp/core/utils.py:random_variation", "ramp/core/core.py:UseCase.generate_daily_load_profiles"]}
{"id": "C109", "title": "The load curve of appliances used once a day", "statement": "For appliances used once a day (time of use equal to the length of one event, windows without common minutes, no duty cycles, no variability of windows and of time of use, all appliances of the entry on together), with Python's random numbers, the expected load of each minute of each day is known exactly: the sum over users and appliances of number of users x chance of use on that day x load curve, where the curve is the full power of the entry times the share of the possible starts that make the minute one of use, plus 0.001 W times the remaining share in the windows, and 0 outside the windows. The possible starts are all minutes that leave room for the use in a window, each as likely as the others. With variability of power it is smaller by at most one part in 2 ** 53. In one window (s, e) with a use of L minutes the share is (min(t, e-L) - max(s, t-L+1) + 1) / (e-s-L+1): a trapezium.", "quantifier": "all sensible use cases of such appliances, all days and minutes, all peak time ranges that are not empty", "why_tests_cant": "an expected value over all outcomes", "anchors": ["ramp/core/core.py:Appliance.generate_load_profile", "ramp/core/core.py:Appliance.rand_switch_on_window", "ramp/core/core.py:Appliance.update_daily_use", "ramp/core/core.py:User.generate_single_load_profile", "ramp/core/core.py:UseCase.generate_daily_load_profiles"]}
{"id": "C110", "title": "Fluctuations average out", "statement": "In a simulation that cannot fail, of appliances whose powers are not negative, the fluctuations of the members of the users, of the days and, without user preferences, of the appliances are independent: the variance of the load of a minute or of the energy of a day is the sum over users of number of users x variance for one member (without preferences: the sum over appliances of that of one member with this appliance alone), and the variance of the sum over the days is the sum of those of the days. So the load per member of a category of n members that can use at most B watts each is eps or more away from the expected load of one member with a probability of at most B^2 / (4 n eps^2), and so is the average of a minute over n simulated days; both also with a probability of at most 2 exp(- 2 n eps^2 / B^2), and the load of a minute of all users is eps or more away from that expected with a probability of at most 2 exp(- 2 eps^2 / sum of n_u B_u^2). Without user preferences this bound also holds in parallel mode.", "quantifier": "all use cases whose simulation cannot fail, with powers that are not negative; all days and minutes, all numbers of members and days, every probability distribution of the numbers drawn (independent draws)", "why_tests_cant": "a statement about the distribution of all outcomes", "anchors": ["ramp/core/core.py:User.generate_aggregated_load_profile", "ramp/core/core.py:User.generate_single_load_profile", "ramp/core/core.py:Appliance.generate_load_profile", "ramp/core/core.py:UseCase.generate_daily_load_profiles"]}
{"id": "C111", "title": "When the time of use is always used up", "statement": "For an appliance with separated windows, without duty cycles, whose appliances are on together and with no variability of power, windows and time of use: on every day of use, whatever the random numbers, it is on for its full time of use (func_time, at least func_cycle, at most 99% of its windows), so that its energy is known exactly, if and only if it takes at least that many minutes of events to block its windows, u minutes blocking a window of T minutes when u = 0 or u >= func_cycle, and T <= u + (u // func_cycle + 1) * (func_cycle - 1). It is enough that the windows together last t + ((t - 1) // func_cycle + number of windows) * (func_cycle - 1) minutes for t minutes of use, and func_cycle = 1 always suffices. Otherwise some outcomes give less than the time of use. If there is room, the expected energy of a day of the use case is the sum over users and appliances of number of users x chance of use x energy of the full time of use; with variability of power up to one part in 2 ** 53.", "quantifier": "all such appliances, numbers drawn and days; all use cases of such appliances, every probability distribution of the numbers drawn (independent draws)", "why_tests_cant": "an equivalence over all placements of the events, and an expected value over all outcomes", "anchors": ["ramp/core/core.py:Appliance.generate_load_profile", "ramp/core/core.py:Appliance.rand_switch_on_window", "ramp/core/core.py:Appliance.update_available_time_for_switch_on_events", "ramp/core/core.py:Appliance.rand_total_time_of_use"]}
{"id": "C112", "title": "The variability of the time of use and of the windows", "statement": "With Python's generator (independent draws) the time of use drawn for a day is func_time on average, at most half a minute less (int() cuts the varied time), up to (func_time + 1) / 2 ** 52 minutes, if the shortest time of use is not below func_cycle and the longest fits into 99% of the windows; with a variability of less than a minute it is at least a quarter of a minute less, without variability it is func_time. If moreover the windows, wherever they are moved, stay inside of the day and have room for the longest time of use, the appliances have no duty cycles and are on together, the expected energy of each day is the sum over users and appliances of number of users x chance of use x energy of that average time of use in the windows as given: the variability of the windows has no influence, and that of the power only one part in 2 ** 53. Room is guaranteed if the windows shortened by twice their variability have the room of the previous property.", "quantifier": "all appliances, windows and variabilities; all use cases of such appliances and all days", "why_tests_cant": "expected values over all random numbers; tests can only compare averages of samples, where a bias of seconds is invisible", "anchors": ["ramp/core/core.py:Appliance.rand_total_time_of_use", "ramp/core/core.py:Appliance.calc_rand_window", "ramp/core/core.py:Appliance.generate_load_profile", "ramp/core/utils.py:random_variation"]}
{"id": "C113", "title": "How many appliances are on together on average; the peak range matters little", "statement": "With Python's generator and a symmetric normal distribution: of n appliances of an entry with fixed = 'no' an event within the peak range switches on (n + 1) / 2 on average, one outside of it n ** 2 / (2 n - 1), up to one part in 2 ** 52; both are about half. So the expected load of each minute and the expected energy of each day of a use case are at most those of the use case with one appliance of (n + 1) / 2 times the power in the place of each such entry, and at least those with one of n ** 2 / (2 n - 1) times the power (up to that part), whatever the peak range; equal to the former if all windows lie within the peak range, to the latter (up to that part) if they lie outside of it. Another peak range changes each expected load and energy by at most a factor 9/8; not at all if all entries are single appliances or have fixed = 'yes'.", "quantifier": "all sensible use cases with powers that are not negative, with or without duty cycles and variabilities, all peak ranges that are not empty, all days and minutes", "why_tests_cant": "expected values over all random numbers and all peak ranges", "anchors": ["ramp/core/core.py:Appliance.calc_coincident_switch_on", "ramp/core/core.py:Appliance.update_daily_use", "ramp/core/core.py:Appliance.generate_load_profile", "ramp/core/utils.py:within_peak_time_window", "ramp/core/constants.py:switch_on_parameters", "ramp/core/core.py:UseCase.generate_daily_load_profiles"]}
{"id": "C114", "title": "What initialize says", "statement": "Printing does not change what initialize does. On a use case already initialised, without force=True, the only message says so (exactly then), and nothing is changed. Otherwise an initialize that returns announces exactly once what will be simulated: the first and the day after the last are those of the days of the use case afterwards, and the number of days announced is their number, unless days had been provided before and there are not both dates (then it can be wrong). Nothing is ignored in silence: num_days given as argument becomes the number of days, or a message says that the use case is already initialised or that days were provided; with both dates the days from the one to the other are simulated, or a message says that the number of days goes first. These messages come only in those cases. If no message says that the powers of an appliance were updated, no appliance is changed; if one does, there is an appliance of that name of constant power with fewer values than days.", "quantifier": "all use cases, arguments, typed numbers and random numbers", "why_tests_cant": "it relates the messages of all executions to their effects", "anchors": ["ramp/core/core.py:UseCase.initialize", "ramp/core/core.py:Appliance.check_power_values", "ramp/core/core.py:UseCase.num_days"]}
{"id": "C115", "title": "The progress and the warnings of a simulation", "statement": "With verbose=True a simulation reports after each simulated day, in order, 'Day k / n completed', all of them if it returns, and those completed if it fails; nothing is reported without. Each warning about a switch-on event outside of the duty cycle windows is true: it names an appliance with duty cycles of the use case and its windows, and an event of at least func_cycle minutes that meets none of them. A simulation that fails with RecursionError has warned before, at least once for each level of the recursion limit left; a use case of sensible appliances (duty cycle windows that cover the windows of use) never warns. For an initialised use case that is configured so that nothing else fails, a warning is possible for some random numbers if and only if some appliance used on some day has an event of func_cycle minutes in its windows that meets none of its duty cycle windows. The message of update_daily_use about events outside of the duty cycles is never printed.", "quantifier": "all use cases, days, recursion limits and random numbers", "why_tests_cant": "it holds for all random outcomes, including those that fail", "anchors": ["ramp/core/core.py:UseCase.generate_daily_load_profiles", "ramp/core/core.py:Appliance.rand_switch_on_window", "ramp/core/core.py:Appliance.update_daily_use", "ramp/core/core.py:Appliance.generate_load_profile"]}
{"id": "C116", "title": "The expected energy and load curve of entries of several appliances", "statement": "With Python's generator and a symmetric normal distribution, for a use case without duty cycles and flat loads whose windows, wherever they are moved, stay inside of the day and have room for the longest time of use, with any variability of windows, time of use and power, and entries of n appliances with fixed = 'no' or 'yes': the expected energy of each day lies between the sums over users and appliances of number of users x chance of use x energy of T minutes of c appliances, where T is func_time or at most half a minute less, and c is n for fixed = 'yes', and for fixed = 'no' n ** 2 / (2 n - 1) for the lower bound (less one part in 2 ** 51) and (n + 1) / 2 for the upper, whatever the peak range. For appliances used once a day the expected load of every minute lies in the same way between the load curves of c appliances. Without user preferences the same bounds hold in parallel mode.", "quantifier": "all use cases of such appliances, all peak ranges that are not empty, all days and minutes", "why_tests_cant": "expected values over all random numbers and all peak ranges", "anchors": ["ramp/core/core.py:Appliance.generate_load_profile", "ramp/core/core.py:Appliance.calc_coincident_switch_on", "ramp/core/core.py:Appliance.rand_total_time_of_use", "ramp/core/core.py:Appliance.calc_rand_window", "ramp/core/utils.py:random_variation", "ramp/core/core.py:UseCase.generate_daily_load_profiles"]}
{"id": "C117", "title": "The risk of RecursionError", "statement": "rand_switch_on_window calls itself when an event meets no duty cycle window. With independent draws: if it may call itself d times, it raises RecursionError with the probability of one miss to the power of d, and it returns each event with the probability that a single try returns it, times one factor for all events: trying again favours no event. With Python's generator, for an initialised use case that is configured so that nothing else can fail: if for each appliance of which some possible event meets no duty cycle window these windows contain, wherever the windows of use are moved, c of their at most T minutes more than twice the time of use and a shortest event (func_cycle) for each window, then a simulation fails with probability at most T (1 - c / T) ** d for each day of each appliance of each member, and otherwise returns, and so does a simulation in parallel mode. For the example input_file_3, whose simulation can fail, this is 12 * 234 * (1 - 50 / 234) ** d per day, less than 10 ** -90 for d = 900.", "quantifier": "all appliances, use cases of such appliances, numbers of days, recursion limits; probabilities over all random numbers", "why_tests_cant": "a failure with a probability of 10 ** -90 is never seen in a test, one with 10 ** -4 seldom", "anchors": ["ramp/core/core.py:Appliance.rand_switch_on_window", "ramp/core/core.py:Appliance.generate_load_profile", "ramp/core/core.py:UseCase.generate_daily_load_profiles", "ramp/example/input_file_3.py"]}
{"id": "C118", "title": "Numbers and dates of the command line", "statement": "-n and -y accept exactly the texts that stand for an integer (an optional sign and decimal digits, with single underscores between digits, within white space) and take them for this integer; every integer written in the decimal system is accepted as itself. --start-date and --end-date accept every date of the calendar from year 1 to 9999 written as YYYY-MM-DD and take it for this date (in Python 3.8-3.10 nothing else is accepted). So a command line with input files, numbers of days and dates is read as these files, numbers and dates, and if the program ends without an exception the profiles of each spreadsheet have one row for each day asked for: from date to date, otherwise as many as -n says for this file, otherwise to the end (or from the beginning) of the calendar year of the date given. With -y, unless one year and a folder are given, from 1 January of the first to 31 December of the last year.", "quantifier": "all texts, integers, dates, command lines of this form, files, workers and random numbers", "why_tests_cant": "infinitely many texts, and every date of every year; leap years and month ends are where such conversions fail", "anchors": ["ramp/cli.py:parser", "ramp/cli.py:main", "ramp/ramp_run.py:run_usecase"]}
{"id": "C119", "title": "What the command line prints", "statement": "The lines printed by the command line are true and complete, however the run ends. A start (or end) date is announced as chosen exactly if there is no -n and the other date is given but not this one; it is 1 January (31 December) of its year, and it is the date used. 'Provide path to input file' is printed exactly if there is no -i, and then nothing is simulated; 'the input path is not a folder' exactly if a single year is given and the first input is no folder. The month files are announced exactly if there are 12 with the extension in the folder (each with a digit in its path), in the order in which they are used. 'Writing RAMP results to' names, in order, the paths of the results of the spreadsheets run so far; after a run that returns there are results at all of them, and nothing was written elsewhere. The folder of the results of a year is announced exactly if the run returns the tables of the year in this folder. The lines come in this order. And before each run that gets as far as its simulation, the days it simulates are announced exactly once, with the first day, the end of the last and their number, which is the number of the profiles the run returns; 'already initialized' is printed exactly if both dates are given (then -n is ignored).", "quantifier": "all arguments, file systems, outcomes of the random module and of the worker processes; runs that return and runs that raise", "why_tests_cant": "tests look at the files, and for some combinations of options only; that no line is false or missing is a statement about all runs", "anchors": ["ramp/cli.py:main", "ramp/post_process/post_process.py:export_series"]}
