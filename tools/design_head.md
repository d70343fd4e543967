# Formal model of RAMP in Lean 4 — design

The plan was written before the proofs; the tables, the trusted base and the findings are kept current.

## Approach

* Shallow, executable, total model of `ramp/core/core.py`, `ramp/core/utils.py`, `ramp/core/constants.py`, `ramp/cli.py`,
  `ramp/ramp_run.py`, the data part of `ramp/post_process/post_process.py` and the text part of
  `ramp/ramp_convert_old_input_files.py`. One Lean definition per Python function or block, branch by branch, each with a
  comment citing the lines it models (`tools/check_citations.py` prints every citation next to the cited source lines).
* **Randomness** is an adversary: a random generator state is an infinite stream of draws (`Rng := ℕ → Draw`),
  each call of the `random` module consumes one draw and turns it into an outcome that Python documents as possible:
  `uniform(a,b)` is any point `a+(b-a)*u`, `0 ≤ u ≤ 1` (closed, because floating rounding can reach `b`);
  `randint(a,b)` any integer of the range, `ValueError` if empty; `gauss`/`normalvariate` any `mu+z*sigma`.
  A theorem that quantifies over `Rng` (or says `Returns m x`: some stream makes `m` return `x`) therefore holds for every
  outcome of every call.  Many theorems are equivalences: *exactly* these outcomes are possible.
* **Exceptions** are values: `Sim α := Rng → Except Err (α × Rng)`; methods that leave changed objects behind when they raise
  return the object and the outcome (`UseCase × Except Err Unit`).
* **Recursion limit**: the self-recursive retry of `rand_switch_on_window` takes the remaining Python recursion depth as a
  number; depth 0 is `RecursionError`. Theorems hold for every depth.
* **While loop**: fuelled; running out of fuel is a distinguished outcome `Err.diverge`, proved unreachable (C15).
* **Object identity**: appliances carry an identity; a user's list holds them by value and a mutation is propagated (`User.sync`).
  Histories of API calls are lists of operations (`ApiOp`, `Call`, `PlotOp`), quantified over by induction.
* **Parallel mode**: arbitrary generators per chunk, arbitrary arrival order of the chunks.

## Layout

| file | content |
|---|---|
| `Verif/Py.lean` | Python/numpy/random primitives, `Sim` |
| `Verif/Model/*.lean` | the model, function by function |
| `Verif/Spec.lean`, `Spec2.lean`, `Spec3.lean`, …, `Spec6.lean` | small independent vocabulary used by theorem statements |
| `Verif/Lemmas/*.lean` | helper lemmas |
| `Verif/Props/*.lean` | the property theorems (`Cnn_…`) and their non-vacuity examples |
| `tools/` | generators of `properties.jsonl`, `MANIFEST.json`, `Verif.lean`; citation check; mutation runner |
| `seeded/LOG.jsonl` | the wrong programs the theorems were tested against |

## Trusted base

* Lean 4.33.0's kernel.  `vcheck` replays every module.
* Axioms: every theorem of the manifest depends on a subset of `propext`, `Classical.choice`, `Quot.sound` (Lean's standard axioms, used by
  Mathlib).  No axiom is declared, no compiled evaluation is used (`decide +kernel` is checked by the kernel).
* The faithfulness of the model to the Python source, that is the following table and the simplifications below it.  The model was written by
  reading; it was not compared with runs of the code (the project's dependencies are not available here).

### What is modelled

| source | modelled | not modelled |
|---|---|---|
| `core/utils.py` | `random_variation`, `duty_cycle`, `range_within_window`, `random_choice`, `get_day_type`, `yearly_pattern`, `within_peak_time_window`, `read_input_file` (from cells on) | opening the workbook (openpyxl), ISO parsing of date strings |
| `core/constants.py` | `switch_on_parameters`, `APPLIANCE_ATTRIBUTES`, `APPLIANCE_ARGS`, `WINDOWS_PARAMETERS`, `DUTY_CYCLE_PARAMETERS` | `OLD_TO_NEW_MAPPING` (only read for attributes an appliance never lacks) |
| `core/core.py` `Appliance` | constructor, `check_power_values`, `save`, `__eq__`, `windows`, `assign_random_cycles`, `update_available_time…`, `update_daily_use`, `calc_rand_window`, `maximum_profile`, `specific_cycle*`, `cycle_behaviour`, `rand_total_time_of_use`, `rand_switch_on_window`, `calc_coincident_switch_on`, `generate_load_profile` | the other warnings (those of `rand_switch_on_window`, `update_daily_use`, `check_power_values` and the prints of `initialize` and `generate_daily_load_profiles` are modelled), `export_to_dataframe` (is `save`), the unused attributes `fixed_cycle1..3` except the error of computing them |
| `core/core.py` `User` | constructor, `add_appliance` (objects, keywords, positional arguments), `_add_appliance_instance`, `maximum_profile`, `num_days`, `save`, `__eq__`, legacy `Appliance`, `generate_single/aggregated_load_profile` (in a use case and on their own) | `__str__` |
| `core/core.py` `UseCase` | constructor, setters of dates and `peak_enlarge`, `add_user`, `collect_appliances_from_users`, `num_days`, `datetimeindex`, `initialize`, `calc_peak_time_range`, `generate_daily_load_profiles` (both modes, `cases`), `save`, `load` | progress bars; `load` after pickling; the file system |
| `cli.py`, `ramp_run.py` | `main` with the words of the command line (`argparse` for this parser, without `--`; `int` and `date.fromisoformat` on ASCII texts), `run_usecase` for `.xlsx` and `.py` names | what a `.py` input does in its own process, plots |
| `post_process/post_process.py` | `Profile_formatting`, `export_series`, `Plot`: data, `resample`, `load_duration_curve` (data), `error`, `peak`, `add_column`, `mean`, `sum`, `copy`, `__getitem__`, columns, `_validate_df`; `line`, `area`, `shadow`, `load_duration_curve`: the lines drawn; `iloc`, `loc` by columns, timestamps and days, `head`, `from_file` | figures and keyword arguments of the libraries; `loc` by row labels other than timestamps and days, boolean masks |
| `ramp_convert_old_input_files.py` | the edit of the input file, the output path | importing the input file, `User.save` of the imported objects (see `save` above) |

### Simplifications

* Floats are exact rationals in all properties but C99; C99 compares them with double precision (rounding to 53 bits after every operation, without
  overflow and underflow: the exponent is unbounded).  No theorem is about overflow, subnormal numbers or NaN (missing cells and values are explicit).  `nan` as the mean of an
  empty power array is 0.
* Counts, times and windows are integers as the annotations say; a Python `int`/`float`/`str` of another type than the annotation is modelled only
  where the code tests the type (`power`, `peak_enlarge`, `add_user`, `add_appliance`, frames).
* numpy: 1440-value arrays are `Fin 1440 → ℚ`; slice assignment, `np.put`, `np.full`, `np.ones`, `np.arange`, comparison with broadcasting are modelled with
  their error cases (negative size, shape mismatch, index out of range, negative index wrap-around); the flag `strict` is numpy ≥ 1.25.
* pandas: `date_range`, `resample`, `concat`, `sort_values`, `unique`, `to_excel`/openpyxl round trip of cells are modelled by their documented results.  Timestamps are
  minutes since Monday 0001-01-01 (no time zones); pandas' limits (1677–2262) are ignored.
* An appliance belongs to one user and a user to one use case (except in `Model/Shared.lean`, C94, which shows what sharing changes); the `usecase` attribute of a user is represented by the number of days it provides.
* Exceptions inside a simulation end it; the objects half changed by them are observed in `Model/Trace.lean` (C95), which lists the state after every assignment (construction and initialisation calls return their objects with the exception).
* The distribution of the numbers drawn: most theorems say which outcomes are possible for any numbers, C92 which function of the numbers drawn the outcome is. C101-C113 add probabilities: the draws are independent with any common distribution `μ` (that is the only assumption about the generator); `PythonRandom` states what Python documents about single draws. That Mersenne Twister behaves like independent draws is not claimed.

