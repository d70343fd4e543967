{
 "C01": [
  "`random_variation` over ℚ",
  "linear arithmetic; converse by exhibiting the draw"
 ],
 "C02": [
  "`duty_cycle`, `random_choice` with errors of negative sizes",
  "symbolic execution; converse by exhibiting the draws"
 ],
 "C03": [
  "`duty_cycle`, `random_choice` with errors of negative sizes",
  "symbolic execution; converse by exhibiting the draws"
 ],
 "C04": [
  "`within_peak_time_window`, `range_within_window`",
  "case split, `omega`"
 ],
 "C05": [
  "weekday of proleptic ordinals, `datetime` calendar arithmetic",
  "arithmetic on day numbers for every year, list extensionality"
 ],
 "C06": [
  "`windows`, `calc_rand_window`",
  "`omega` on the drawn integers; converse by exhibiting them"
 ],
 "C07": [
  "`rand_total_time_of_use`",
  "rounding lemmas, case split"
 ],
 "C08": [
  "`rand_total_time_of_use`",
  "rounding lemmas, case split"
 ],
 "C09": [
  "`rand_switch_on_window` with recursion depth",
  "induction on the depth; exact sets of outcomes"
 ],
 "C10": [
  "`rand_switch_on_window` with recursion depth",
  "induction on the depth; exact sets of outcomes"
 ],
 "C11": [
  "`rand_switch_on_window` with recursion depth",
  "induction on the depth; exact sets of outcomes"
 ],
 "C12": [
  "free-range list surgery of `update_available_time_for_switch_on_events`",
  "list lemmas, separation invariant"
 ],
 "C13": [
  "`generate_load_profile` with a ghost log of the bookings",
  "loop invariant by induction on fuel, then painting lemmas for `np.put`"
 ],
 "C14": [
  "`generate_load_profile` with a ghost log of the bookings",
  "loop invariant by induction on fuel, then painting lemmas for `np.put`"
 ],
 "C15": [
  "`generate_load_profile` with a ghost log of the bookings",
  "loop invariant by induction on fuel, then painting lemmas for `np.put`"
 ],
 "C16": [
  "`generate_load_profile` with a ghost log of the bookings",
  "loop invariant by induction on fuel, then painting lemmas for `np.put`"
 ],
 "C18": [
  "`generate_load_profile` with a ghost log of the bookings",
  "loop invariant by induction on fuel, then painting lemmas for `np.put`"
 ],
 "C19": [
  "`generate_load_profile` with a ghost log of the bookings",
  "loop invariant by induction on fuel, then painting lemmas for `np.put`"
 ],
 "C20": [
  "`generate_load_profile` with a ghost log of the bookings",
  "loop invariant by induction on fuel, then painting lemmas for `np.put`"
 ],
 "C21": [
  "`generate_load_profile` with a ghost log of the bookings",
  "loop invariant by induction on fuel, then painting lemmas for `np.put`"
 ],
 "C17": [
  "`calc_coincident_switch_on`",
  "floor arithmetic, exact set of outcomes"
 ],
 "C22": [
  "skip and flat branches of `generate_load_profile`",
  "symbolic execution for every stream"
 ],
 "C23": [
  "skip and flat branches of `generate_load_profile`",
  "symbolic execution for every stream"
 ],
 "C24": [
  "duty cycles inside `generate_load_profile`",
  "the same loop invariant with the selected cycle; induction on the depth for the retries"
 ],
 "C25": [
  "duty cycles inside `generate_load_profile`",
  "the same loop invariant with the selected cycle; induction on the depth for the retries"
 ],
 "C26": [
  "duty cycles inside `generate_load_profile`",
  "the same loop invariant with the selected cycle; induction on the depth for the retries"
 ],
 "C27": [
  "duty cycles inside `generate_load_profile`",
  "the same loop invariant with the selected cycle; induction on the depth for the retries"
 ],
 "C28": [
  "duty cycles inside `generate_load_profile`",
  "the same loop invariant with the selected cycle; induction on the depth for the retries"
 ],
 "C71": [
  "duty cycles inside `generate_load_profile`",
  "the same loop invariant with the selected cycle; induction on the depth for the retries"
 ],
 "C72": [
  "duty cycles inside `generate_load_profile`",
  "the same loop invariant with the selected cycle; induction on the depth for the retries"
 ],
 "C29": [
  "`windows` with its validation and registration",
  "case analysis of the method"
 ],
 "C30": [
  "`windows` with its validation and registration",
  "case analysis of the method"
 ],
 "C31": [
  "the construction API with object identity",
  "invariants by induction over histories of calls"
 ],
 "C32": [
  "the construction API with object identity",
  "invariants by induction over histories of calls"
 ],
 "C73": [
  "the construction API with object identity",
  "invariants by induction over histories of calls"
 ],
 "C33": [
  "`Appliance.__eq__`, `User.__eq__` with numpy broadcasting",
  "case analysis"
 ],
 "C34": [
  "`Appliance.__eq__`, `User.__eq__` with numpy broadcasting",
  "case analysis"
 ],
 "C35": [
  "`maximum_profile` of appliances and users",
  "slice lemmas; witness for the dependence on the history"
 ],
 "C36": [
  "`add_user`",
  "mutual induction on nested lists"
 ],
 "C37": [
  "`initialize` as a state machine",
  "invariant over calls; exact days"
 ],
 "C38": [
  "`initialize` as a state machine",
  "invariant over calls; exact days"
 ],
 "C39": [
  "`initialize` as a state machine",
  "invariant over calls; exact days"
 ],
 "C40": [
  "`calc_peak_time_range`, setter of `peak_enlarge`",
  "arithmetic of the window of maxima; exact ranges"
 ],
 "C41": [
  "`calc_peak_time_range`, setter of `peak_enlarge`",
  "arithmetic of the window of maxima; exact ranges"
 ],
 "C42": [
  "`calc_peak_time_range`, setter of `peak_enlarge`",
  "arithmetic of the window of maxima; exact ranges"
 ],
 "C75": [
  "`calc_peak_time_range`, setter of `peak_enlarge`",
  "arithmetic of the window of maxima; exact ranges"
 ],
 "C43": [
  "`check_power_values` on collected appliances",
  "induction over references"
 ],
 "C44": [
  "sequential generation",
  "relational characterisation of the possible results, induction over days, users, members, appliances"
 ],
 "C45": [
  "sequential generation",
  "relational characterisation of the possible results, induction over days, users, members, appliances"
 ],
 "C46": [
  "sequential generation",
  "relational characterisation of the possible results, induction over days, users, members, appliances"
 ],
 "C47": [
  "sequential generation",
  "relational characterisation of the possible results, induction over days, users, members, appliances"
 ],
 "C48": [
  "sequential generation",
  "relational characterisation of the possible results, induction over days, users, members, appliances"
 ],
 "C49": [
  "sequential generation",
  "relational characterisation of the possible results, induction over days, users, members, appliances"
 ],
 "C74": [
  "sequential generation",
  "relational characterisation of the possible results, induction over days, users, members, appliances"
 ],
 "C50": [
  "seed and construction order",
  "equality of runs from the same stream"
 ],
 "C51": [
  "parallel generation",
  "chunk and permutation lemmas; equivalence of possible results with sequential mode"
 ],
 "C52": [
  "parallel generation",
  "chunk and permutation lemmas; equivalence of possible results with sequential mode"
 ],
 "C53": [
  "`save`, spreadsheet cells, `read_input_file`, `load`",
  "round-trip lemmas over rows; simulation of the loaded users"
 ],
 "C54": [
  "`save`, spreadsheet cells, `read_input_file`, `load`",
  "round-trip lemmas over rows; simulation of the loaded users"
 ],
 "C55": [
  "`save`, spreadsheet cells, `read_input_file`, `load`",
  "round-trip lemmas over rows; simulation of the loaded users"
 ],
 "C56": [
  "`save`, spreadsheet cells, `read_input_file`, `load`",
  "round-trip lemmas over rows; simulation of the loaded users"
 ],
 "C57": [
  "`save`, spreadsheet cells, `read_input_file`, `load`",
  "round-trip lemmas over rows; simulation of the loaded users"
 ],
 "C76": [
  "`save`, spreadsheet cells, `read_input_file`, `load`",
  "round-trip lemmas over rows; simulation of the loaded users"
 ],
 "C58": [
  "legacy `User.Appliance`",
  "unfolding; the missing argument is explicit"
 ],
 "C59": [
  "planning part of `cli.main`",
  "case analysis; the plan is characterised without the planner's helpers"
 ],
 "C60": [
  "planning part of `cli.main`",
  "case analysis; the plan is characterised without the planner's helpers"
 ],
 "C61": [
  "result paths and overwriting of files",
  "induction over the runs"
 ],
 "C62": [
  "month mode: files, runs, frame of the year, hourly resampling",
  "calendar arithmetic for every year; resampling lemmas of C67"
 ],
 "C63": [
  "`run_usecase`: constructor, `initialize`, `load`, simulation in this order",
  "symbolic execution; possible ranges of C40"
 ],
 "C64": [
  "`run_usecase`: constructor, `initialize`, `load`, simulation in this order",
  "symbolic execution; possible ranges of C40"
 ],
 "C65": [
  "frames as lists of columns, `Plot` objects as references",
  "list lemmas; invariants over histories of calls for aliasing"
 ],
 "C66": [
  "frames as lists of columns, `Plot` objects as references",
  "list lemmas; invariants over histories of calls for aliasing"
 ],
 "C67": [
  "frames as lists of columns, `Plot` objects as references",
  "list lemmas; invariants over histories of calls for aliasing"
 ],
 "C68": [
  "frames as lists of columns, `Plot` objects as references",
  "list lemmas; invariants over histories of calls for aliasing"
 ],
 "C69": [
  "frames as lists of columns, `Plot` objects as references",
  "list lemmas; invariants over histories of calls for aliasing"
 ],
 "C78": [
  "frames as lists of columns, `Plot` objects as references",
  "list lemmas; invariants over histories of calls for aliasing"
 ],
 "C79": [
  "frames as lists of columns, `Plot` objects as references",
  "list lemmas; invariants over histories of calls for aliasing"
 ],
 "C70": [
  "text of the input file as lines, paths",
  "list lemmas on occurrences of the import line"
 ],
 "C77": [
  "text of the input file as lines, paths",
  "list lemmas on occurrences of the import line"
 ],
 "C80": [
  "the run of a use case as a relation to CaseDay specifications",
  "characterisation of results by CaseDay (C24/C25), sums over permutations and appends"
 ],
 "C81": [
  "the run of a use case as a relation to CaseDay specifications",
  "characterisation of results by CaseDay (C24/C25), sums over permutations and appends"
 ],
 "C82": [
  "initialize and the whole simulation of a use case",
  "failure-freedom composed through the loops over days, users, members and appliances; checkPowers keeps means"
 ],
 "C83": [
  "one appliance, one day, the whole switch-on loop",
  "the run of the loop with a free spot list is related step by step to a list of events (FreeInv); both directions by induction over the events, choosing the random numbers that draw them"
 ],
 "C84": [
  "initialize and the whole simulation, flat appliances included",
  "C83 and its analogue for flat appliances put into the superposition of C45; initialize only changes the number of repetitions of constant powers"
 ],
 "C85": [
  "the dictionary operations of add_appliance: positional arguments written into the keyword arguments, arguments popped for windows and duty cycles, the rest given to the constructor",
  "lookup in the resulting dictionaries computed for every key; the call depends on the matched values only; attributes followed through constructor, windows and specific_cycle"
 ],
 "C86": [
  "the calls of the three example files, copied call by call by tools/gen_examples.py, run by the model of the construction API",
  "boolean checks of the built users evaluated by the kernel (decide +kernel on closed terms) with soundness lemmas to the hypotheses of C82 and C87; random outcomes, days and powers stay universally quantified; for file 3 a run that misses all duty cycle windows"
 ],
 "C87": [
  "the loops over days, users, members and appliances of a simulation",
  "exceptions followed backwards through the loops; C72 for the appliances"
 ],
 "C88": [
  "the sum of the 1440 values of a profile, on the days described by C83/C84/C45",
  "minutes of the events counted through the exact description of the possible days; sums over disjoint windows; the bounds of the appliances added over members, users"
 ],
 "C89": [
  "the two methods of User without use case, the default use case attached by the first call",
  "possible results as in C45 by induction over members, then over the sequence of calls"
 ],
 "C90": [
  "the loop over the cases, the dictionary of columns, the index",
  "results of the loop by induction over the cases, each run as in C45"
 ],
 "C91": [
  "`specificCycle`, `cycleBehaviour`, `windows` as steps of the construction API (`apiStep`)",
  "the state after each step is computed exactly: the object addressed, and every other object unchanged"
 ],
 "C92": [
  "`generateLoadProfileInfo`, `drawPreference`, `calcRandWindow`, `randTotalTimeOfUse`, `randSwitchOnWindow` as functions of the stream of random numbers",
  "each draw is written as an explicit function of the numbers drawn; uniform choices as 'the k-th draw modulo the number of choices' over a list without repetitions"
 ],
 "C93": [
  "runs of the same use case with powers multiplied by c, on the same stream of random numbers",
  "a relational invariant (`Rel`) through every function from duty cycles and events to days, users, days and initialisation"
 ],
 "C94": [
  "`Model/Shared.lean`: the simulation on references to shared objects",
  "relational invariant between the simulation on references and the one on copies (C49: no dependence on what simulations leave behind); witness for appliances with a preference index held by another user"
 ],
 "C95": [
  "`Model/Trace.lean`: the methods of the sequential simulation as executions listing the state after every assignment to an attribute",
  "the outcome of the executions equals the model (`outcome_*`); an invariant over all states listed (`visits_*`); repetition by the relational argument of C93 with factor 1"
 ],
 "C96": [
  "`Model/CliTrace.lean`: `main` and `export_series` as executions listing the files on disk after every row written",
  "the outcome equals `mainCli`; an invariant over all states listed, by induction over the runs; the last state of a failing run computed exactly"
 ],
 "C97": [
  "`Model/Draw.lean`: `line`, `area`, `shadow`, `load_duration_curve` as the lines that are drawn; figures, colours and the libraries are not modelled",
  "columns looked up by name are those of the data; every list given to `shadow` raises `AttributeError` (`.lower()` of a list), so partial"
 ],
 "C98": [
  "`Model/Draw.lean`: `iloc`, `loc` by columns, `head`, `from_file`",
  "positions specified by a relation and proved equal to the slices and lookups; single positions and csv files always raise, so partial; `loc` by row labels over a sorted time index (`Model/Loc.lean`): the two binary searches of pandas are proved to select exactly the rows between the bounds"
 ],
 "C99": [
  "`Model/Float.lean`: every function of the simulation again, with each floating point operation followed by a rounding `fl`; `Spec5.lean`: `binary64`, what is used of a rounding, `NearTo`",
  "refinement: every run in floating point is matched, draw by draw, by a run of the exact model of the widened use case; `binary64` is proved to be such a rounding; with `fl = id` the model is the exact one, so it models the same program"
 ],
 "C100": [
  "`Model/Argparse.lean`: what argparse does with the parser of `cli.py` (classification of words, abbreviations, `nargs`, `type`, errors), `mainWords`; `Spec6.lean`: how options are spelled and what they mean",
  "the classification of words is proved equal to an inductive definition of spellings; grouping and storing by induction over the words; the result is an equivalence, so nothing is lost or invented"
 ],
 "C101": [
  "`Spec8.lean`: independent draws as an infinite product measure `stream μ`, `ChanceOf`, `MeanOf`; `rowsRun`: the simulation as a sum of runs with fresh numbers",
  "the simulation equals `rowsRun` draw by draw (relational induction over days, users, members, appliances); strong Markov property of computations that read finitely many draws (`mean_bind`); products by induction over the days"
 ],
 "C102": [
  "`daysWithLoad`, `binomial`, `chanceOff`, `PythonRandom`",
  "a day of an appliance is empty iff its first draw exceeds the frequency (C92, and counting of window minutes against the time of use); loads are not negative, so sums are zero iff all runs are; Pascal recursion for the binomial distribution; counting on the grid of multiples of 2^-53"
 ],
 "C103": [
  "`SameUpToOrder`, splits of a user; equality of all `ChanceOf` and `MeanOf`",
  "Tonelli for two consecutive runs gives invariance under transpositions, then permutations and groupings by induction"
 ],
 "C104": [
  "`AddsUp`, `loadAt`, `energyOf`, `chanceOfUse`, `SteadyUse`, `energyOfUse`",
  "linearity of expectation over the sum of runs; C88 for the energy of a day of use and C102 for its probability; parallel mode by C105 (`Props/ParallelStats.lean`)"
 ],
 "C105": [
  "`workers μ`: one independent stream per chunk, `ParallelMean`, `ParallelChance`, `noPreferences`",
  "a chunk is a sequence of runs with fresh definitions (relational induction); product measure: chunk after chunk; sums of runs are independent of order and grouping; arrival orders by C51"
 ],
 "C106": [
  "`possibleStarts`, `SpotsDisjoint`, `Nearly`, `Switched`, `ChanceOf`",
  "the draw decides an index into the list of starts without repetition; durations and numbers are intervals of the uniform number, counted on the grid of 2^53 values"
 ],
 "C107": [
  "`ChanceOf` of `calcCoincidentSwitchOn`, `Nearly`",
  "the number switched on is the floor of (n - 1/2) u plus one: intervals of the uniform number; comparison of the deviate on the peak"
 ],
 "C108": [
  "`expectedLoad`, `expectedEnergy` of `dailyRows`, `constantPowers`",
  "the expected load of a minute, as a function of one power drawn, is affine (`Lifts`), so that each drawn power can be replaced by its average without changing the expected value: run by run, event by event, duty cycle by duty cycle (`replace_loop`, `replace_assign`); the appliance with averaged powers is then compared with the constant one draw by draw (C93)"
 ],
 "C109": [
  "`expectedLoad` of `dailyRows`, `OneUse`, `startsOfUse`, `curveOfUse`",
  "the day of such an appliance is computed in closed form from the one start drawn (one event fills the time of use, so the loop stops after it); the start is uniform on the free minutes (C106), whose number is that of `startsOfUse`; the chance of use and the sum over users and appliances are those of C103 and C104; C108 removes the variability of power"
 ],
 "C110": [
  "`varianceOf` quantities of `dailyRows`, `oneMember`, `onlyOne`",
  "the load is a sum of independent runs (C101); the second moment of a sum of two independent runs gives that variances add; induction over members, users and days; variance at most B²/4 for values in [0, B] (C46); Chebyshev's inequality from the monotonicity of the expected value; Hoeffding's lemma (Mathlib) for each run and Chernoff's bound give the exponential bounds; parallel mode by C105 (`Props/ParallelStats.lean`)"
 ],
 "C111": [
  "`generateLoadProfile`, `dailyRows`; `Blocks`, `RoomFor`, `fullEnergy` (Spec11)",
  "events of a blocked day leave gaps shorter than func_cycle before each event and at the end of each window: counting minutes gives the bound; conversely a greedy layout of events (`blocking`) blocks the windows, and is a possible day by C83; the expected energy from C104 with the chance of use"
 ],
 "C112": [
  "`randTotalTimeOfUse`, `calcRandWindow`, `dailyRows`; `RoomToVary`, `AboutFuncTime`, `energyOfMinutes` (Spec12)",
  "averages over the grid of 2^53 numbers: pairing k with 2^53 - k cancels the rounding except for the few ties, `int` cuts less than one minute; integers drawn around a centre average to it; the energy of a day is affine in time of use and window lengths (C111), so its expected value follows window by window"
 ],
 "C113": [
  "The distribution of the number drawn by `calc_coincident_switch_on`, its mean within and outside of the peak; whole simulations compared with simulations of single appliances of a multiple of the power (`Spec13.lean`: `asOnes`, `fewestTogether`, `mostTogether`).",
  "What follows an event is an affine function of the number switched on (as for C108), so that the number can be replaced by its mean; induction over the loop of events with an order relation that passes to averages (`Lemmas/AsOne.lean`), with the invariant that all events lie in a set of minutes (all, or those within, or outside of the peak). Means: outside, a count on the generator's grid; within, the symmetry of the normal distribution (`Lemmas/Together.lean`). A single appliance knows no peak: coupling of runs with the same draws."
 ],
 "C114": [
  "`initialize` as an execution that lists its messages (`Model/Messages.lean`: `toldInitialize`), with the values in their texts; `Spec14.lean`: `announcements`.",
  "The execution with messages has the outcome of the execution without (`Lemmas/Messages.lean`); the messages of each part of `initialize` are computed (`Lemmas/Announced.lean`, `CalendarMessages` in `Props/Told.lean`) and combined with C37/C38/C43."
 ],
 "C115": [
  "A sequential simulation as an execution that lists its messages (`Model/Messages.lean`: `toldDaily`); `Spec14.lean`: `OutsideEvent`, `daysReported`, `cycleWarnings`.",
  "Induction over the loops with a predicate on the messages noted so far (`Lemmas/Warnings.lean`); the count of warnings by induction over the recursion of `rand_switch_on_window`; the equivalence from the characterisation of `RecursionError` (C87) by following the draws up to the first miss."
 ],
 "C116": [
  "Expected energies and loads of whole simulations compared with explicit sums over users and appliances (`Spec15.lean`: `energyTogether`, `curveTogether`, `sumOfUses`).",
  "C113 replaces each entry by one appliance of a multiple of the power, C108 removes the variability of power, C112 (C109) gives the expected energy (load curve) of what remains; the factors are combined (`Props/Entries.lean`).; parallel mode by C105 (`Props/ParallelStats.lean`)"
 ],
 "C117": [
  "The probability that an execution of the model ends with `RecursionError` under independent draws (`Spec16.lean`: `Crash`, `WellCovered`, `numRuns`).",
  "`rand_switch_on_window` is one try followed by a call of itself (`Lemmas/Retry.lean`: `rand_try`); induction over the depth gives the geometric law. A union bound over the events, days, appliances and members; each try hits with at least c/T because the starts left (counted against the bookings) are equally likely (C106). `Props/RareFile.lean` instantiates it for `input_file_3` with checked parameters."
 ],
 "C118": [
  "`Model/Readers.lean`: `int` and `date.fromisoformat` on texts (`readInt`, `isoDate`); `Spec17.lean`: what a text stands for (`StandsFor`, `isoText`), `PythonReaders`: what is used of any version of Python, `daysAsked`.",
  "acceptance is proved equal to the inductive description of the texts in both directions; decimal notation by strong induction; composed with C100 (words), C59/C60 (plan) and C63 (rows) into a theorem from the words of the command line to the number of rows of each result."
 ],
 "C119": [
  "`main` with the lines it prints (`Model/CliSays.lean`): lines as values, listed by the execution; what use cases print is C114 and C115; the messages of the preparation of a run from the constructor to the loaded file: `Model/RunSays.lean`",
  "the outcome is that of `main` (C59, C62); the lines before the first simulation are computed, those of the runs by induction over the files; plans by C59 and C62 (`Props/Says.lean`)"
 ]
}