
No property of the list was found to be inexpressible.  Outside the model altogether: the quality of the random generator (C101-C113 assume independent draws), rendering of plots (C97 says what is drawn), floating-point rounding of the peak time range and of statistics (C99 covers that of the simulation), progress
bars, and process pools as OS objects (their schedules are arbitrary arrival orders).

## Findings

Properties that the code violates.  Each has a theorem with a concrete witness and a theorem for the remaining cases.

* C13 Two windows of use that touch (or overlap) let two events of one appliance-day overlap: an event may end at the common minute and another may start there.
* C14/C16 The last event of a day is cut to the time of use left, also below `func_cycle`.
* C21 A flat appliance is on during its whole windows whatever `func_time`.
* C26 The default window `[0,0]` of an unconfigured duty cycle matches events that contain minute 0.
* C28 With `fixed_cycle=1` and three windows, `windows()` sets only two of the cycle windows: events in window 3 match nothing and the method recurses until `RecursionError`.
* C29 `windows()` accepts windows outside of the day (negative bounds that do not wrap, `[1440,1441]`).
* C30 `add_appliance` with a negative cycle duration raises after the appliance was registered.
* C32 An appliance equal to one already owned is silently dropped: two equal lamps count once.
* C34 `User.__eq__` is true for any two users (`np.append` results dropped, `is True` of a numpy bool).
* C35/C75 `maximum_profile` uses the last simulated profile, so the peak time range depends on what was simulated before.
* C37/C39/C43 A failed `initialize()` leaves a half initialised use case; `initialize(force=True)` with new dates keeps the old number of days; users added after the construction are not checked for the
  length of their power.
* C41 A maximum profile with a single peak minute raises `IndexError`.
* C50 `random_seed=0` is ignored; with both dates given the peak time range is drawn before the seed is set.
* C52 Parallel mode uses the preference left over from the last sequential run, and a day without tasks raises `KeyError`.
* C54 A power series that ends with its first value is saved as a number.  C55 A two-column range is read as its first column, the timestamps.  C57 Several saved models cannot be loaded.
* C61 One output path for several inputs (and equal base names) overwrites results.  C62 The months are ordered by all digits of the path, also those of the folder.  C63 `-n` is ignored when both dates are given.
  C64 The peak time range is computed before the file is loaded: around noon whatever the users.
* C68 `error` is infinite where the validation value is 0 and 0 where a value is missing.  C69 The `DatetimeIndex` check is a non-empty tuple, always true.
* C70 One old import line is changed per conversion; an empty input raises `IndexError`.  C77 Different inputs can share an output name.  C78 Two `Plot` objects made from one frame share it.
* C85 A positional argument of `add_appliance` silently wins over the keyword argument of the same name; positional arguments after the fifteenth are silently dropped.
* C102 `occasional_use=0` does not mean never: the number drawn is compared with `>`, so a use of probability 2**-53 remains.
* C105 In parallel mode preferences have no effect on the statistics: appliances with a `pref_index` are never used (or every day, after a sequential run left a preference).
* C106 An event never takes all the minutes left in its free range (or of the time of use) unless they are just `func_cycle` minutes: `int(random.uniform(func_cycle, rest))` reaches `rest` with probability 0.
* C107 Outside the peak all `n` appliances are on together half as often as each smaller number.
* C111 In tight windows some days use less than the time of use: events can leave only gaps shorter than `func_cycle`.  C112 The time of use drawn is up to half a minute shorter than `func_time` on average, because `int()` cuts the varied time.
* C113 The documentation says that coincident switch-on is more probable within the peak range; the average number on together is `(n + 1) / 2` within and `n**2 / (2 n - 1)` outside, a difference of less than a quarter of an appliance, so that the choice of the peak range changes expected loads by at most 12.5 %.
* C114 The announced number of days can be wrong: if days were provided and `num_days` is given, `initialize` drops both numbers and asks for one, which is announced and used whatever the number of days provided
  (`C114_announced_wrong`: 4 days announced, 2 simulated).  C115 The message of `core.py:1560-1562` is never printed; a `RecursionError` comes only after a warning for each level of recursion left.
* C96 In month mode nothing is written before the last month has been simulated: a failure there loses the results of all months.  Result files are overwritten in place.
* C97 `Plot.shadow(columns=[...])` always raises `AttributeError`.  C98 `Plot.iloc` with one position and `Plot.loc(columns="name")` always raise `ValueError`; `Plot.from_file("....csv")` always raises `TypeError`.
* C94 An `Appliance` object added to a second user keeps following the daily preference of the user it was created for, and is saved under that user's name.
* C86 `input_file_3.py`: the duty cycle windows of some dishes are their windows of use, but `random_var_w=0.15` moves the windows of use by up to 27 minutes; an event outside of all duty cycle windows
  makes the method call itself with the same arguments until `RecursionError`.  Possible for some draws, with negligible probability (C117: below 10^-90 per day with 900 calls left): all repeated draws have to miss.

Also seen while reading (not all stated as properties): `switch_on_parameters` is unpacked in another order than returned (harmless, both are 1/2); the legacy `User.Appliance` does not pass
`continuous_duty_cycle`; `func_cycle=0` can raise `IndexError` in a simulation; `random_var_w > 1/2` can reverse a window (`ValueError`); `-p False` on the command line is `True` and `-p file.xlsx` swallows the file name (C100);
several `-o` in month mode are ignored; a default use case whose peak time range cannot be computed (C41) stays attached to the user, so a second call raises `TypeError`;
`windows()` called again with fewer windows keeps the old `window_2`/`window_3`, which are still used in simulations; a failed `windows()` leaves `window_1` changed; names given automatically
(`appliance_{n+1}`) are not unique; two different case labels with one text give one column; a `.py` file in month mode raises `AttributeError`; `Plot.from_file` of a csv passes `sheet_name` to `read_csv`.

## Testing the theorems against wrong programs

`tools/mutate.py` applies one edit to a scratch copy of the model, rebuilds, lists the declarations that fail and the manifest theorems that are or depend on them.  A theorem that survives
an edit which makes its English claim false is too weak and gets tightened.  `seeded/LOG.jsonl` has one line per attempt.
