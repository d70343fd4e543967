# Formal model of RAMP in Lean 4 — design

The plan was written before the proofs; the tables, the trusted base and the findings are kept current.

## Approach

* Shallow, executable, total model of `ramp/core/core.py`, `ramp/core/utils.py`, `ramp/core/constants.py`, `ramp/cli.py`,
  `ramp/ramp_run.py`, the data part of `ramp/post_process/post_process.py` and the text part of
  `ramp/ramp_convert_old_input_files.py`. One Lean definition per Python function or block, branch by branch, each with a
  comment citing the lines it models (`tools/check_citations.py` prints every citation next to the cited source lines).
* **Randomness** is an adversary: a random generator state is an infinite stream of draws (`Rng := ℕ → Draw`),
  each call of the `random` module consumes one draw and turns it into an outcome that Python documents as possible:
  `uniform(a,b)` is any point `a+(b-a)*u`, `0 ≤ u ≤ 1` (closed, because floating rounding can reach `b`);
  `randint(a,b)` any integer of the range, `ValueError` if empty; `gauss`/`normalvariate` any `mu+z*sigma`.
  A theorem that quantifies over `Rng` (or says `Returns m x`: some stream makes `m` return `x`) therefore holds for every
  outcome of every call.  Many theorems are equivalences: *exactly* these outcomes are possible.
* **Exceptions** are values: `Sim α := Rng → Except Err (α × Rng)`; methods that leave changed objects behind when they raise
  return the object and the outcome (`UseCase × Except Err Unit`).
* **Recursion limit**: the self-recursive retry of `rand_switch_on_window` takes the remaining Python recursion depth as a
  number; depth 0 is `RecursionError`. Theorems hold for every depth.
* **While loop**: fuelled; running out of fuel is a distinguished outcome `Err.diverge`, proved unreachable (C15).
* **Object identity**: appliances carry an identity; a user's list holds them by value and a mutation is propagated (`User.sync`).
  Histories of API calls are lists of operations (`ApiOp`, `Call`, `PlotOp`), quantified over by induction.
* **Parallel mode**: arbitrary generators per chunk, arbitrary arrival order of the chunks.

## Layout

| file | content |
|---|---|
| `Verif/Py.lean` | Python/numpy/random primitives, `Sim` |
| `Verif/Model/*.lean` | the model, function by function |
| `Verif/Spec.lean`, `Spec2.lean`, `Spec3.lean`, …, `Spec6.lean` | small independent vocabulary used by theorem statements |
| `Verif/Lemmas/*.lean` | helper lemmas |
| `Verif/Props/*.lean` | the property theorems (`Cnn_…`) and their non-vacuity examples |
| `tools/` | generators of `properties.jsonl`, `MANIFEST.json`, `Verif.lean`; citation check; mutation runner |
| `seeded/LOG.jsonl` | the wrong programs the theorems were tested against |

## Trusted base

* Lean 4.33.0's kernel.  `vcheck` replays every module.
* Axioms: every theorem of the manifest depends on a subset of `propext`, `Classical.choice`, `Quot.sound` (Lean's standard axioms, used by
  Mathlib).  No axiom is declared, no compiled evaluation is used (`decide +kernel` is checked by the kernel).
* The faithfulness of the model to the Python source, that is the following table and the simplifications below it.  The model was written by
  reading; it was not compared with runs of the code (the project's dependencies are not available here).

### What is modelled

| source | modelled | not modelled |
|---|---|---|
| `core/utils.py` | `random_variation`, `duty_cycle`, `range_within_window`, `random_choice`, `get_day_type`, `yearly_pattern`, `within_peak_time_window`, `read_input_file` (from cells on) | opening the workbook (openpyxl), ISO parsing of date strings |
| `core/constants.py` | `switch_on_parameters`, `APPLIANCE_ATTRIBUTES`, `APPLIANCE_ARGS`, `WINDOWS_PARAMETERS`, `DUTY_CYCLE_PARAMETERS` | `OLD_TO_NEW_MAPPING` (only read for attributes an appliance never lacks) |
| `core/core.py` `Appliance` | constructor, `check_power_values`, `save`, `__eq__`, `windows`, `assign_random_cycles`, `update_available_time…`, `update_daily_use`, `calc_rand_window`, `maximum_profile`, `specific_cycle*`, `cycle_behaviour`, `rand_total_time_of_use`, `rand_switch_on_window`, `calc_coincident_switch_on`, `generate_load_profile` | the other warnings (those of `rand_switch_on_window`, `update_daily_use`, `check_power_values` and the prints of `initialize` and `generate_daily_load_profiles` are modelled), `export_to_dataframe` (is `save`), the unused attributes `fixed_cycle1..3` except the error of computing them |
| `core/core.py` `User` | constructor, `add_appliance` (objects, keywords, positional arguments), `_add_appliance_instance`, `maximum_profile`, `num_days`, `save`, `__eq__`, legacy `Appliance`, `generate_single/aggregated_load_profile` (in a use case and on their own) | `__str__` |
| `core/core.py` `UseCase` | constructor, setters of dates and `peak_enlarge`, `add_user`, `collect_appliances_from_users`, `num_days`, `datetimeindex`, `initialize`, `calc_peak_time_range`, `generate_daily_load_profiles` (both modes, `cases`), `save`, `load` | progress bars; `load` after pickling; the file system |
| `cli.py`, `ramp_run.py` | `main` with the words of the command line (`argparse` for this parser, without `--`; `int` and `date.fromisoformat` on ASCII texts), `run_usecase` for `.xlsx` and `.py` names | what a `.py` input does in its own process, plots |
| `post_process/post_process.py` | `Profile_formatting`, `export_series`, `Plot`: data, `resample`, `load_duration_curve` (data), `error`, `peak`, `add_column`, `mean`, `sum`, `copy`, `__getitem__`, columns, `_validate_df`; `line`, `area`, `shadow`, `load_duration_curve`: the lines drawn; `iloc`, `loc` by columns, timestamps and days, `head`, `from_file` | figures and keyword arguments of the libraries; `loc` by row labels other than timestamps and days, boolean masks |
| `ramp_convert_old_input_files.py` | the edit of the input file, the output path | importing the input file, `User.save` of the imported objects (see `save` above) |

### Simplifications

* Floats are exact rationals in all properties but C99; C99 compares them with double precision (rounding to 53 bits after every operation, without
  overflow and underflow: the exponent is unbounded).  No theorem is about overflow, subnormal numbers or NaN (missing cells and values are explicit).  `nan` as the mean of an
  empty power array is 0.
* Counts, times and windows are integers as the annotations say; a Python `int`/`float`/`str` of another type than the annotation is modelled only
  where the code tests the type (`power`, `peak_enlarge`, `add_user`, `add_appliance`, frames).
* numpy: 1440-value arrays are `Fin 1440 → ℚ`; slice assignment, `np.put`, `np.full`, `np.ones`, `np.arange`, comparison with broadcasting are modelled with
  their error cases (negative size, shape mismatch, index out of range, negative index wrap-around); the flag `strict` is numpy ≥ 1.25.
* pandas: `date_range`, `resample`, `concat`, `sort_values`, `unique`, `to_excel`/openpyxl round trip of cells are modelled by their documented results.  Timestamps are
  minutes since Monday 0001-01-01 (no time zones); pandas' limits (1677–2262) are ignored.
* An appliance belongs to one user and a user to one use case (except in `Model/Shared.lean`, C94, which shows what sharing changes); the `usecase` attribute of a user is represented by the number of days it provides.
* Exceptions inside a simulation end it; the objects half changed by them are observed in `Model/Trace.lean` (C95), which lists the state after every assignment (construction and initialisation calls return their objects with the exception).
* The distribution of the numbers drawn: most theorems say which outcomes are possible for any numbers, C92 which function of the numbers drawn the outcome is. C101-C113 add probabilities: the draws are independent with any common distribution `μ` (that is the only assumption about the generator); `PythonRandom` states what Python documents about single draws. That Mersenne Twister behaves like independent draws is not claimed.

## Plan and result per property

| id | property | what is modelled | how it is proved | status |
|---|---|---|---|---|
| C01 | Random variation stays in its band | `random_variation` over ℚ | linear arithmetic; converse by exhibiting the draw | proved |
| C02 | Duty cycle shape | `duty_cycle`, `random_choice` with errors of negative sizes | symbolic execution; converse by exhibiting the draws | proved |
| C03 | random_choice returns the cycle or its reverse | `duty_cycle`, `random_choice` with errors of negative sizes | symbolic execution; converse by exhibiting the draws | proved |
| C04 | Overlap tests are exact | `within_peak_time_window`, `range_within_window` | case split, `omega` | proved |
| C05 | Day types and yearly pattern | weekday of proleptic ordinals, `datetime` calendar arithmetic | arithmetic on day numbers for every year, list extensionality | proved |
| C06 | Randomised windows stay in the day | `windows`, `calc_rand_window` | `omega` on the drawn integers; converse by exhibiting them | proved |
| C07 | Randomised time of use is bounded | `rand_total_time_of_use` | rounding lemmas, case split | proved |
| C08 | Time-of-use failure is a configuration error, not bad luck | `rand_total_time_of_use` | rounding lemmas, case split | proved |
| C09 | Switch-on event stays inside one free range | `rand_switch_on_window` with recursion depth | induction on the depth; exact sets of outcomes | proved |
| C10 | None is returned exactly when nothing fits | `rand_switch_on_window` with recursion depth | induction on the depth; exact sets of outcomes | proved |
| C11 | The internal sanity error is unreachable | `rand_switch_on_window` with recursion depth | induction on the depth; exact sets of outcomes | proved |
| C12 | Booking an event frees exactly the other minutes | free-range list surgery of `update_available_time_for_switch_on_events` | list lemmas, separation invariant | proved |
| C13 | Switch-on events of one appliance-day never overlap | `generate_load_profile` with a ghost log of the bookings | loop invariant by induction on fuel, then painting lemmas for `np.put` | partial |
| C14 | Total switch-on time never exceeds, and normally equals, the randomised time of use | `generate_load_profile` with a ghost log of the bookings | loop invariant by induction on fuel, then painting lemmas for `np.put` | proved |
| C15 | The generation loop terminates | `generate_load_profile` with a ghost log of the bookings | loop invariant by induction on fuel, then painting lemmas for `np.put` | proved |
| C16 | Minimum on-time after a switch-on | `generate_load_profile` with a ghost log of the bookings | loop invariant by induction on fuel, then painting lemmas for `np.put` | partial |
| C17 | Coincident switch-on number is between 1 and number | `calc_coincident_switch_on` | floor arithmetic, exact set of outcomes | proved |
| C18 | No load outside the windows of use | `generate_load_profile` with a ghost log of the bookings | loop invariant by induction on fuel, then painting lemmas for `np.put` | proved |
| C19 | Every booked minute carries a coincident multiple of the power, every other window minute the 0.001 marker | `generate_load_profile` with a ghost log of the bookings | loop invariant by induction on fuel, then painting lemmas for `np.put` | proved |
| C20 | Profiles are non-negative and bounded | `generate_load_profile` with a ghost log of the bookings | loop invariant by induction on fuel, then painting lemmas for `np.put` | proved |
| C21 | Number of minutes in use is bounded by the time of use | `generate_load_profile` with a ghost log of the bookings | loop invariant by induction on fuel, then painting lemmas for `np.put` | partial |
| C22 | Skip rules | skip and flat branches of `generate_load_profile` | symbolic execution for every stream | proved |
| C23 | Flat appliances are deterministic | skip and flat branches of `generate_load_profile` | symbolic execution for every stream | proved |
| C24 | Duty cycle is laid out from the start of each event and repeated | duty cycles inside `generate_load_profile` | the same loop invariant with the selected cycle; induction on the depth for the retries | partial |
| C25 | The duty cycle chosen is the first whose window overlaps the event | duty cycles inside `generate_load_profile` | the same loop invariant with the selected cycle; induction on the depth for the retries | proved |
| C26 | Only configured duty-cycle windows are used | duty cycles inside `generate_load_profile` | the same loop invariant with the selected cycle; induction on the depth for the retries | partial |
| C27 | Single-shot duty cycles | duty cycles inside `generate_load_profile` | the same loop invariant with the selected cycle; induction on the depth for the retries | proved |
| C28 | Duty-cycle appliances do not crash at generation | duty cycles inside `generate_load_profile` | the same loop invariant with the selected cycle; induction on the depth for the retries | partial |
| C29 | windows() validation | `windows` with its validation and registration | case analysis of the method | partial |
| C30 | Rejected appliance is not registered | `windows` with its validation and registration | case analysis of the method | partial |
| C31 | Adding an appliance object is idempotent | the construction API with object identity | invariants by induction over histories of calls | partial |
| C32 | Every added appliance is counted | the construction API with object identity | invariants by induction over histories of calls | partial |
| C33 | Appliance equality is an equivalence on the saved attributes | `Appliance.__eq__`, `User.__eq__` with numpy broadcasting | case analysis | proved |
| C34 | User equality compares users | `Appliance.__eq__`, `User.__eq__` with numpy broadcasting | case analysis | partial |
| C35 | Maximum profile | `maximum_profile` of appliances and users | slice lemmas; witness for the dependence on the history | partial |
| C36 | add_user flattens nested lists | `add_user` | mutual induction on nested lists | proved |
| C37 | Initialisation gives a consistent calendar | `initialize` as a state machine | invariant over calls; exact days | partial |
| C38 | Which days are simulated | `initialize` as a state machine | invariant over calls; exact days | proved |
| C39 | Re-initialisation needs force and then takes the new values | `initialize` as a state machine | invariant over calls; exact days | partial |
| C40 | Peak time range is never empty | `calc_peak_time_range`, setter of `peak_enlarge` | arithmetic of the window of maxima; exact ranges | proved |
| C41 | Peak time range can always be computed | `calc_peak_time_range`, setter of `peak_enlarge` | arithmetic of the window of maxima; exact ranges | partial |
| C42 | Peak enlarge validation | `calc_peak_time_range`, setter of `peak_enlarge` | arithmetic of the window of maxima; exact ranges | proved |
| C43 | Power values cover the simulated period | `check_power_values` on collected appliances | induction over references | partial |
| C44 | Profiles have the right shape and flattening is row-major | sequential generation | relational characterisation of the possible results, induction over days, users, members, appliances | proved |
| C45 | Superposition | sequential generation | relational characterisation of the possible results, induction over days, users, members, appliances | proved |
| C46 | Aggregate bounds | sequential generation | relational characterisation of the possible results, induction over days, users, members, appliances | proved |
| C47 | Weekday and weekend appliances | sequential generation | relational characterisation of the possible results, induction over days, users, members, appliances | proved |
| C48 | One preference per member and day | sequential generation | relational characterisation of the possible results, induction over days, users, members, appliances | proved |
| C49 | Simulation does not change the configuration | sequential generation | relational characterisation of the possible results, induction over days, users, members, appliances | proved |
| C50 | A seed makes results reproducible | seed and construction order | equality of runs from the same stream | partial |
| C51 | Parallel result does not depend on the schedule | parallel generation | chunk and permutation lemmas; equivalence of possible results with sequential mode | proved |
| C52 | Parallel mode simulates the same appliances as sequential mode | parallel generation | chunk and permutation lemmas; equivalence of possible results with sequential mode | partial |
| C53 | Save then load restores the model | `save`, spreadsheet cells, `read_input_file`, `load` | round-trip lemmas over rows; simulation of the loaded users | proved |
| C54 | Saved power is the appliance's power | `save`, spreadsheet cells, `read_input_file`, `load` | round-trip lemmas over rows; simulation of the loaded users | partial |
| C55 | Power series read from a spreadsheet range | `save`, spreadsheet cells, `read_input_file`, `load` | round-trip lemmas over rows; simulation of the loaded users | partial |
| C56 | load() groups rows by user | `save`, spreadsheet cells, `read_input_file`, `load` | round-trip lemmas over rows; simulation of the loaded users | proved |
| C57 | Any saved user can be loaded | `save`, spreadsheet cells, `read_input_file`, `load` | round-trip lemmas over rows; simulation of the loaded users | partial |
| C58 | The legacy constructor is equivalent to add_appliance | legacy `User.Appliance` | unfolding; the missing argument is explicit | proved |
| C59 | Command line: dates and counts per input file | planning part of `cli.main` | case analysis; the plan is characterised without the planner's helpers | proved |
| C60 | Command line: open date ranges are completed inside the calendar year | planning part of `cli.main` | case analysis; the plan is characterised without the planner's helpers | proved |
| C61 | Command line: each input keeps its own results | result paths and overwriting of files | induction over the runs | partial |
| C62 | Monthly mode covers the year exactly once | month mode: files, runs, frame of the year, hourly resampling | calendar arithmetic for every year; resampling lemmas of C67 | partial |
| C63 | -n is honoured | `run_usecase`: constructor, `initialize`, `load`, simulation in this order | symbolic execution; possible ranges of C40 | partial |
| C64 | The peak time range reflects the loaded users | `run_usecase`: constructor, `initialize`, `load`, simulation in this order | symbolic execution; possible ranges of C40 | partial |
| C65 | Profile formatting preserves the data | frames as lists of columns, `Plot` objects as references | list lemmas; invariants over histories of calls for aliasing | proved |
| C66 | Load duration curve | frames as lists of columns, `Plot` objects as references | list lemmas; invariants over histories of calls for aliasing | proved |
| C67 | Resampling conserves energy | frames as lists of columns, `Plot` objects as references | list lemmas; invariants over histories of calls for aliasing | proved |
| C68 | Peak and error indicators | frames as lists of columns, `Plot` objects as references | list lemmas; invariants over histories of calls for aliasing | partial |
| C69 | add_column validates the index | frames as lists of columns, `Plot` objects as references | list lemmas; invariants over histories of calls for aliasing | partial |
| C70 | Conversion edits the input file at most once | text of the input file as lines, paths | list lemmas on occurrences of the import line | partial |
| C71 | Duty cycles of the day follow the user's specification | duty cycles inside `generate_load_profile` | the same loop invariant with the selected cycle; induction on the depth for the retries | proved |
| C72 | Sensible configurations never fail at generation | duty cycles inside `generate_load_profile` | the same loop invariant with the selected cycle; induction on the depth for the retries | proved |
| C73 | Programs with sensible arguments build appliances that can be simulated | the construction API with object identity | invariants by induction over histories of calls | proved |
| C74 | Simulations do not influence each other | sequential generation | relational characterisation of the possible results, induction over days, users, members, appliances | proved |
| C75 | The peak time range is computed from the configuration | `calc_peak_time_range`, setter of `peak_enlarge` | arithmetic of the window of maxima; exact ranges | partial |
| C76 | A saved and reloaded use case simulates like the original | `save`, spreadsheet cells, `read_input_file`, `load` | round-trip lemmas over rows; simulation of the loaded users | proved |
| C77 | Converted files are saved beside the input file | text of the input file as lines, paths | list lemmas on occurrences of the import line | partial |
| C78 | Plot objects do not change each other's data | frames as lists of columns, `Plot` objects as references | list lemmas; invariants over histories of calls for aliasing | partial |
| C79 | Plot.sum and Plot.mean aggregate across the columns | frames as lists of columns, `Plot` objects as references | list lemmas; invariants over histories of calls for aliasing | proved |
| C80 | The order of users and appliances does not matter | the run of a use case as a relation to CaseDay specifications | characterisation of results by CaseDay (C24/C25), sums over permutations and appends | proved |
| C81 | Users add up | the run of a use case as a relation to CaseDay specifications | characterisation of results by CaseDay (C24/C25), sums over permutations and appends | proved |
| C82 | Sensible use cases are simulated without errors | initialize and the whole simulation of a use case | failure-freedom composed through the loops over days, users, members and appliances; checkPowers keeps means | proved |
| C83 | The possible daily profiles of an appliance, exactly | one appliance, one day, the whole switch-on loop | the run of the loop with a free spot list is related step by step to a list of events (FreeInv); both directions by induction over the events, choosing the random numbers that draw them | proved |
| C84 | The possible load profiles of a use case, exactly | initialize and the whole simulation, flat appliances included | C83 and its analogue for flat appliances put into the superposition of C45; initialize only changes the number of repetitions of constant powers | proved |
| C85 | How the arguments of add_appliance are matched with the parameters | the dictionary operations of add_appliance: positional arguments written into the keyword arguments, arguments popped for windows and duty cycles, the rest given to the constructor | lookup in the resulting dictionaries computed for every key; the call depends on the matched values only; attributes followed through constructor, windows and specific_cycle | proved |
| C86 | The example input files that come with the package can be simulated | the calls of the three example files, copied call by call by tools/gen_examples.py, run by the model of the construction API | boolean checks of the built users evaluated by the kernel (decide +kernel on closed terms) with soundness lemmas to the hypotheses of C82 and C87; random outcomes, days and powers stay universally quantified; for file 3 a run that misses all duty cycle windows | proved |
| C87 | Where the exceptions of a simulation come from | the loops over days, users, members and appliances of a simulation | exceptions followed backwards through the loops; C72 for the appliances | proved |
| C88 | The energy of a day | the sum of the 1440 values of a profile, on the days described by C83/C84/C45 | minutes of the events counted through the exact description of the possible days; sums over disjoint windows; the bounds of the appliances added over members, users | proved |
| C89 | A user generates profiles on its own | the two methods of User without use case, the default use case attached by the first call | possible results as in C45 by induction over members, then over the sequence of calls | proved |
| C90 | Several independent runs of one use case | the loop over the cases, the dictionary of columns, the index | results of the loop by induction over the cases, each run as in C45 | proved |
| C91 | What the calls on an existing appliance change | `specificCycle`, `cycleBehaviour`, `windows` as steps of the construction API (`apiStep`) | the state after each step is computed exactly: the object addressed, and every other object unchanged | proved |
| C92 | The documented probabilities | `generateLoadProfileInfo`, `drawPreference`, `calcRandWindow`, `randTotalTimeOfUse`, `randSwitchOnWindow` as functions of the stream of random numbers | each draw is written as an explicit function of the numbers drawn; uniform choices as 'the k-th draw modulo the number of choices' over a list without repetitions | proved |
| C93 | Powers scale the load and nothing else | runs of the same use case with powers multiplied by c, on the same stream of random numbers | a relational invariant (`Rel`) through every function from duty cycles and events to days, users, days and initialisation | proved |
| C94 | Sharing objects does not change the results | `Model/Shared.lean`: the simulation on references to shared objects | relational invariant between the simulation on references and the one on copies (C49: no dependence on what simulations leave behind); witness for appliances with a preference index held by another user | partial |
| C95 | An interrupted simulation can be repeated | `Model/Trace.lean`: the methods of the sequential simulation as executions listing the state after every assignment to an attribute | the outcome of the executions equals the model (`outcome_*`); an invariant over all states listed (`visits_*`); repetition by the relational argument of C93 with factor 1 | proved |
| C96 | Results on disk at any moment | `Model/CliTrace.lean`: `main` and `export_series` as executions listing the files on disk after every row written | the outcome equals `mainCli`; an invariant over all states listed, by induction over the runs; the last state of a failing run computed exactly | proved |
| C97 | What the plots draw | `Model/Draw.lean`: `line`, `area`, `shadow`, `load_duration_curve` as the lines that are drawn; figures, colours and the libraries are not modelled | columns looked up by name are those of the data; every list given to `shadow` raises `AttributeError` (`.lower()` of a list), so partial | partial |
| C98 | Selections of the data | `Model/Draw.lean`: `iloc`, `loc` by columns, `head`, `from_file` | positions specified by a relation and proved equal to the slices and lookups; single positions and csv files always raise, so partial; `loc` by row labels over a sorted time index (`Model/Loc.lean`): the two binary searches of pandas are proved to select exactly the rows between the bounds | partial |
| C99 | Rounding of floating point numbers | `Model/Float.lean`: every function of the simulation again, with each floating point operation followed by a rounding `fl`; `Spec5.lean`: `binary64`, what is used of a rounding, `NearTo` | refinement: every run in floating point is matched, draw by draw, by a run of the exact model of the widened use case; `binary64` is proved to be such a rounding; with `fl = id` the model is the exact one, so it models the same program | proved |
| C100 | Options of the command line | `Model/Argparse.lean`: what argparse does with the parser of `cli.py` (classification of words, abbreviations, `nargs`, `type`, errors), `mainWords`; `Spec6.lean`: how options are spelled and what they mean | the classification of words is proved equal to an inductive definition of spellings; grouping and storing by induction over the words; the result is an equivalence, so nothing is lost or invented | proved |
| C101 | The days of a simulation are independent | `Spec8.lean`: independent draws as an infinite product measure `stream μ`, `ChanceOf`, `MeanOf`; `rowsRun`: the simulation as a sum of runs with fresh numbers | the simulation equals `rowsRun` draw by draw (relational induction over days, users, members, appliances); strong Markov property of computations that read finitely many draws (`mean_bind`); products by induction over the days | proved |
| C102 | How often appliances are used | `daysWithLoad`, `binomial`, `chanceOff`, `PythonRandom` | a day of an appliance is empty iff its first draw exceeds the frequency (C92, and counting of window minutes against the time of use); loads are not negative, so sums are zero iff all runs are; Pascal recursion for the binomial distribution; counting on the grid of multiples of 2^-53 | proved |
| C103 | Order and grouping of users and appliances do not matter | `SameUpToOrder`, splits of a user; equality of all `ChanceOf` and `MeanOf` | Tonelli for two consecutive runs gives invariance under transpositions, then permutations and groupings by induction | proved |
| C104 | The expected load adds up | `AddsUp`, `loadAt`, `energyOf`, `chanceOfUse`, `SteadyUse`, `energyOfUse` | linearity of expectation over the sum of runs; C88 for the energy of a day of use and C102 for its probability; parallel mode by C105 (`Props/ParallelStats.lean`) | proved |
| C105 | Parallel mode has the same statistics | `workers μ`: one independent stream per chunk, `ParallelMean`, `ParallelChance`, `noPreferences` | a chunk is a sequence of runs with fresh definitions (relational induction); product measure: chunk after chunk; sums of runs are independent of order and grouping; arrival orders by C51 | proved |
| C106 | When and how long an appliance is switched on | `possibleStarts`, `SpotsDisjoint`, `Nearly`, `Switched`, `ChanceOf` | the draw decides an index into the list of starts without repetition; durations and numbers are intervals of the uniform number, counted on the grid of 2^53 values | proved |
| C107 | How many appliances are switched on together | `ChanceOf` of `calcCoincidentSwitchOn`, `Nearly` | the number switched on is the floor of (n - 1/2) u plus one: intervals of the uniform number; comparison of the deviate on the peak | proved |
| C108 | The variability of power is unbiased | `expectedLoad`, `expectedEnergy` of `dailyRows`, `constantPowers` | the expected load of a minute, as a function of one power drawn, is affine (`Lifts`), so that each drawn power can be replaced by its average without changing the expected value: run by run, event by event, duty cycle by duty cycle (`replace_loop`, `replace_assign`); the appliance with averaged powers is then compared with the constant one draw by draw (C93) | proved |
| C109 | The load curve of appliances used once a day | `expectedLoad` of `dailyRows`, `OneUse`, `startsOfUse`, `curveOfUse` | the day of such an appliance is computed in closed form from the one start drawn (one event fills the time of use, so the loop stops after it); the start is uniform on the free minutes (C106), whose number is that of `startsOfUse`; the chance of use and the sum over users and appliances are those of C103 and C104; C108 removes the variability of power | proved |
| C110 | Fluctuations average out | `varianceOf` quantities of `dailyRows`, `oneMember`, `onlyOne` | the load is a sum of independent runs (C101); the second moment of a sum of two independent runs gives that variances add; induction over members, users and days; variance at most B²/4 for values in [0, B] (C46); Chebyshev's inequality from the monotonicity of the expected value; Hoeffding's lemma (Mathlib) for each run and Chernoff's bound give the exponential bounds; parallel mode by C105 (`Props/ParallelStats.lean`) | proved |
| C111 | When the time of use is always used up | `generateLoadProfile`, `dailyRows`; `Blocks`, `RoomFor`, `fullEnergy` (Spec11) | events of a blocked day leave gaps shorter than func_cycle before each event and at the end of each window: counting minutes gives the bound; conversely a greedy layout of events (`blocking`) blocks the windows, and is a possible day by C83; the expected energy from C104 with the chance of use | proved |
| C112 | The variability of the time of use and of the windows | `randTotalTimeOfUse`, `calcRandWindow`, `dailyRows`; `RoomToVary`, `AboutFuncTime`, `energyOfMinutes` (Spec12) | averages over the grid of 2^53 numbers: pairing k with 2^53 - k cancels the rounding except for the few ties, `int` cuts less than one minute; integers drawn around a centre average to it; the energy of a day is affine in time of use and window lengths (C111), so its expected value follows window by window | proved |
| C113 | How many appliances are on together on average; the peak range matters little | The distribution of the number drawn by `calc_coincident_switch_on`, its mean within and outside of the peak; whole simulations compared with simulations of single appliances of a multiple of the power (`Spec13.lean`: `asOnes`, `fewestTogether`, `mostTogether`). | What follows an event is an affine function of the number switched on (as for C108), so that the number can be replaced by its mean; induction over the loop of events with an order relation that passes to averages (`Lemmas/AsOne.lean`), with the invariant that all events lie in a set of minutes (all, or those within, or outside of the peak). Means: outside, a count on the generator's grid; within, the symmetry of the normal distribution (`Lemmas/Together.lean`). A single appliance knows no peak: coupling of runs with the same draws. | proved |
| C114 | What initialize says | `initialize` as an execution that lists its messages (`Model/Messages.lean`: `toldInitialize`), with the values in their texts; `Spec14.lean`: `announcements`. | The execution with messages has the outcome of the execution without (`Lemmas/Messages.lean`); the messages of each part of `initialize` are computed (`Lemmas/Announced.lean`, `CalendarMessages` in `Props/Told.lean`) and combined with C37/C38/C43. | proved |
| C115 | The progress and the warnings of a simulation | A sequential simulation as an execution that lists its messages (`Model/Messages.lean`: `toldDaily`); `Spec14.lean`: `OutsideEvent`, `daysReported`, `cycleWarnings`. | Induction over the loops with a predicate on the messages noted so far (`Lemmas/Warnings.lean`); the count of warnings by induction over the recursion of `rand_switch_on_window`; the equivalence from the characterisation of `RecursionError` (C87) by following the draws up to the first miss. | proved |
| C116 | The expected energy and load curve of entries of several appliances | Expected energies and loads of whole simulations compared with explicit sums over users and appliances (`Spec15.lean`: `energyTogether`, `curveTogether`, `sumOfUses`). | C113 replaces each entry by one appliance of a multiple of the power, C108 removes the variability of power, C112 (C109) gives the expected energy (load curve) of what remains; the factors are combined (`Props/Entries.lean`).; parallel mode by C105 (`Props/ParallelStats.lean`) | proved |
| C117 | The risk of RecursionError | The probability that an execution of the model ends with `RecursionError` under independent draws (`Spec16.lean`: `Crash`, `WellCovered`, `numRuns`). | `rand_switch_on_window` is one try followed by a call of itself (`Lemmas/Retry.lean`: `rand_try`); induction over the depth gives the geometric law. A union bound over the events, days, appliances and members; each try hits with at least c/T because the starts left (counted against the bookings) are equally likely (C106). `Props/RareFile.lean` instantiates it for `input_file_3` with checked parameters. | proved |
| C118 | Numbers and dates of the command line | `Model/Readers.lean`: `int` and `date.fromisoformat` on texts (`readInt`, `isoDate`); `Spec17.lean`: what a text stands for (`StandsFor`, `isoText`), `PythonReaders`: what is used of any version of Python, `daysAsked`. | acceptance is proved equal to the inductive description of the texts in both directions; decimal notation by strong induction; composed with C100 (words), C59/C60 (plan) and C63 (rows) into a theorem from the words of the command line to the number of rows of each result. | proved |
| C119 | What the command line prints | `main` with the lines it prints (`Model/CliSays.lean`): lines as values, listed by the execution; what use cases print is C114 and C115; the messages of the preparation of a run from the constructor to the loaded file: `Model/RunSays.lean` | the outcome is that of `main` (C59, C62); the lines before the first simulation are computed, those of the runs by induction over the files; plans by C59 and C62 (`Props/Says.lean`) | proved |

No property of the list was found to be inexpressible.  Outside the model altogether: the quality of the random generator (C101-C113 assume independent draws), rendering of plots (C97 says what is drawn), floating-point rounding of the peak time range and of statistics (C99 covers that of the simulation), progress
bars, and process pools as OS objects (their schedules are arbitrary arrival orders).

## Findings

Properties that the code violates.  Each has a theorem with a concrete witness and a theorem for the remaining cases.

* C13 Two windows of use that touch (or overlap) let two events of one appliance-day overlap: an event may end at the common minute and another may start there.
* C14/C16 The last event of a day is cut to the time of use left, also below `func_cycle`.
* C21 A flat appliance is on during its whole windows whatever `func_time`.
* C26 The default window `[0,0]` of an unconfigured duty cycle matches events that contain minute 0.
* C28 With `fixed_cycle=1` and three windows, `windows()` sets only two of the cycle windows: events in window 3 match nothing and the method recurses until `RecursionError`.
* C29 `windows()` accepts windows outside of the day (negative bounds that do not wrap, `[1440,1441]`).
* C30 `add_appliance` with a negative cycle duration raises after the appliance was registered.
* C32 An appliance equal to one already owned is silently dropped: two equal lamps count once.
* C34 `User.__eq__` is true for any two users (`np.append` results dropped, `is True` of a numpy bool).
* C35/C75 `maximum_profile` uses the last simulated profile, so the peak time range depends on what was simulated before.
* C37/C39/C43 A failed `initialize()` leaves a half initialised use case; `initialize(force=True)` with new dates keeps the old number of days; users added after the construction are not checked for the
  length of their power.
* C41 A maximum profile with a single peak minute raises `IndexError`.
* C50 `random_seed=0` is ignored; with both dates given the peak time range is drawn before the seed is set.
* C52 Parallel mode uses the preference left over from the last sequential run, and a day without tasks raises `KeyError`.
* C54 A power series that ends with its first value is saved as a number.  C55 A two-column range is read as its first column, the timestamps.  C57 Several saved models cannot be loaded.
* C61 One output path for several inputs (and equal base names) overwrites results.  C62 The months are ordered by all digits of the path, also those of the folder.  C63 `-n` is ignored when both dates are given.
  C64 The peak time range is computed before the file is loaded: around noon whatever the users.
* C68 `error` is infinite where the validation value is 0 and 0 where a value is missing.  C69 The `DatetimeIndex` check is a non-empty tuple, always true.
* C70 One old import line is changed per conversion; an empty input raises `IndexError`.  C77 Different inputs can share an output name.  C78 Two `Plot` objects made from one frame share it.
* C85 A positional argument of `add_appliance` silently wins over the keyword argument of the same name; positional arguments after the fifteenth are silently dropped.
* C102 `occasional_use=0` does not mean never: the number drawn is compared with `>`, so a use of probability 2**-53 remains.
* C105 In parallel mode preferences have no effect on the statistics: appliances with a `pref_index` are never used (or every day, after a sequential run left a preference).
* C106 An event never takes all the minutes left in its free range (or of the time of use) unless they are just `func_cycle` minutes: `int(random.uniform(func_cycle, rest))` reaches `rest` with probability 0.
* C107 Outside the peak all `n` appliances are on together half as often as each smaller number.
* C111 In tight windows some days use less than the time of use: events can leave only gaps shorter than `func_cycle`.  C112 The time of use drawn is up to half a minute shorter than `func_time` on average, because `int()` cuts the varied time.
* C113 The documentation says that coincident switch-on is more probable within the peak range; the average number on together is `(n + 1) / 2` within and `n**2 / (2 n - 1)` outside, a difference of less than a quarter of an appliance, so that the choice of the peak range changes expected loads by at most 12.5 %.
* C114 The announced number of days can be wrong: if days were provided and `num_days` is given, `initialize` drops both numbers and asks for one, which is announced and used whatever the number of days provided
  (`C114_announced_wrong`: 4 days announced, 2 simulated).  C115 The message of `core.py:1560-1562` is never printed; a `RecursionError` comes only after a warning for each level of recursion left.
* C96 In month mode nothing is written before the last month has been simulated: a failure there loses the results of all months.  Result files are overwritten in place.
* C97 `Plot.shadow(columns=[...])` always raises `AttributeError`.  C98 `Plot.iloc` with one position and `Plot.loc(columns="name")` always raise `ValueError`; `Plot.from_file("....csv")` always raises `TypeError`.
* C94 An `Appliance` object added to a second user keeps following the daily preference of the user it was created for, and is saved under that user's name.
* C86 `input_file_3.py`: the duty cycle windows of some dishes are their windows of use, but `random_var_w=0.15` moves the windows of use by up to 27 minutes; an event outside of all duty cycle windows
  makes the method call itself with the same arguments until `RecursionError`.  Possible for some draws, with negligible probability (C117: below 10^-90 per day with 900 calls left): all repeated draws have to miss.

Also seen while reading (not all stated as properties): `switch_on_parameters` is unpacked in another order than returned (harmless, both are 1/2); the legacy `User.Appliance` does not pass
`continuous_duty_cycle`; `func_cycle=0` can raise `IndexError` in a simulation; `random_var_w > 1/2` can reverse a window (`ValueError`); `-p False` on the command line is `True` and `-p file.xlsx` swallows the file name (C100);
several `-o` in month mode are ignored; a default use case whose peak time range cannot be computed (C41) stays attached to the user, so a second call raises `TypeError`;
`windows()` called again with fewer windows keeps the old `window_2`/`window_3`, which are still used in simulations; a failed `windows()` leaves `window_1` changed; names given automatically
(`appliance_{n+1}`) are not unique; two different case labels with one text give one column; a `.py` file in month mode raises `AttributeError`; `Plot.from_file` of a csv passes `sheet_name` to `read_csv`.

## Testing the theorems against wrong programs

`tools/mutate.py` applies one edit to a scratch copy of the model, rebuilds, lists the declarations that fail and the manifest theorems that are or depend on them.  A theorem that survives
an edit which makes its English claim false is too weak and gets tightened.  `seeded/LOG.jsonl` has one line per attempt.
