import Verif.Model.Post

/-! # Model of the command line: `ramp/cli.py` and `ramp/ramp_run.py`

Simplifications: the parsing of the arguments (argparse, `cli.py:11-76`) is in `Model/Argparse.lean`, `CliArgs` is its result; messages on the screen
and plots are not modelled; years outside 1..9999 raise as in `datetime.date`, the narrower range of the timestamps of pandas is ignored;
digits are the ASCII digits. -/

set_option autoImplicit false

namespace Ramp

/-- A date of the command line (`datetime.date`). [`cli.py:95`, `cli.py:183-186`] -/
structure Date where
  year : ℕ
  month : ℕ
  day : ℕ
  deriving DecidableEq

/-- The timestamp of midnight at the start of a date. [`core.py:82-91`] -/
def Date.stamp (d : Date) : ℤ := 1440 * dateOrd d.year d.month d.day

/-- What a program finds outside: the clock and the prompt, the generator after a seed, the recursion limit, the version of numpy, the
folder of the package, the current folder, and the file system: folders, their entries in the order of `os.listdir`, existing files and
the first sheets of spreadsheets. [what `cli.py:79-233` and `ramp_run.py:39-70` read] -/
structure World where
  env : Env
  stream : ℤ → Rng
  depth : ℕ
  strict : Bool
  base : Text
  current : Text
  isDir : Text → Bool
  listDir : Text → List Text
  pathExists : Text → Bool
  sheet : Text → Option Table

/-- What the pool of parallel mode does: the generators of the workers, and the order in which the chunks arrive. [`core.py:477-505`] -/
structure Workers where
  rngs : ℕ → Rng
  order : List ℕ

/-! ## `ramp_run.py` -/

/-- The arguments of `run_usecase` (`ramp_run.py:39-47`), dates as timestamps. -/
structure RunArgs where
  fname : Text
  ofname : Option Text := none
  numDays : Option ℤ := none
  dateStart : Option ℤ := none
  dateEnd : Option ℤ := none
  plot : Bool := true
  parallel : Bool := false

/-- `text.endswith(end)`. [`ramp_run.py:48`, `cli.py:127`] -/
def endsWith (e t : Text) : Bool := e.isSuffixOf t

/-- `ramp_run.py:53`: `usecase.load(fname)`; a missing file raises `FileNotFoundError`. -/
def loadRun (w : World) (fname : Text) (uc : UseCase) : Except Err UseCase := match w.sheet fname with
  | none => .error .fileNotFoundError
  | some t => match loadUseCase w.strict uc t with
    | (_, .error e) => .error e
    | (uc, .ok ()) => .ok uc

/-- `ramp_run.py:49-53`: the use case of a spreadsheet, ready to simulate. -/
def prepareRun (w : World) (r : RunArgs) : Sim UseCase := do
  let uc ← mkUseCase w.env w.stream { dateStart := r.dateStart, dateEnd := r.dateEnd, parallel := r.parallel }
  let (uc, res) ← initUseCase w.env uc { numDays := r.numDays }
  liftE res
  liftE (loadRun w r.fname uc)

/-- `ramp_run.py:54`: `generate_daily_load_profiles(flat=False)`. -/
def simulateRun (w : World) (wk : Workers) (uc : UseCase) : Sim (List Profile) :=
  if uc.parallel then liftE (generateParallel w.depth uc wk.rngs wk.order)
  else do
    let (_, rows) ← generateDaily w.env w.depth uc none
    pure rows

/-- `ramp_run.py:39-70` `run_usecase`: the daily profiles; `none` for a `.py` file, which is run by another process. -/
def runUseCase (w : World) (wk : Workers) (r : RunArgs) : Sim (Option (List Profile)) :=
  if endsWith ".xlsx".toList r.fname then do
    let uc ← prepareRun w r
    let rows ← simulateRun w wk uc
    pure (some rows)
  else if endsWith ".py".toList r.fname then
    if w.pathExists r.fname then pure none else raise .fileNotFoundError
  else raise .typeError

/-! ## The plan of `cli.py` -/

/-- The arguments of the command line (`cli.py:80-90`); every list has at least one entry (`nargs="+"`). -/
structure CliArgs where
  fnames : Option (List Text) := none
  ofnames : Option (List Text) := none
  numDays : Option (List ℤ) := none
  years : Option (List ℤ) := none
  dateStart : Option Date := none
  dateEnd : Option Date := none
  extension : Text := "xlsx".toList
  parallel : Bool := false

/-- `cli.py:92-108`: missing dates are completed. -/
def completeDates (numDays : Option (List ℤ)) (s e : Option Date) : Option Date × Option Date := match numDays with
  | some _ => (s, e)
  | none => match s, e with
    | none, some e => (some ⟨e.year, 1, 1⟩, some e)
    | some s, none => (some s, some ⟨s.year, 12, 31⟩)
    | s, e => (s, e)

/-- `datetime.date(y, m, d)` for the first or last day of a year. [`cli.py:117-118`] -/
def yearDate (y : ℤ) (m d : ℕ) : Except Err Date := if 1 ≤ y ∧ y ≤ 9999 then .ok ⟨y.toNat, m, d⟩ else .error .valueError

/-- `cli.py:111-118`: the dates of the option `-y`. -/
def yearDates (years : Option (List ℤ)) (s e : Option Date) : Except Err (Option Date × Option Date) := match years with
  | none => .ok (s, e)
  | some ys =>
    if s.isSome ∨ e.isSome then .error .valueError
    else match ys.head?, ys.getLast? with
      | some a, some b => match yearDate a 1 1, yearDate b 12 31 with
        | .ok s, .ok e => .ok (some s, some e)
        | _, _ => .error .valueError
      | _, _ => .error .indexError

/-- `"".join(filter(str.isdigit, f))` (`cli.py:129`). -/
def digitsOf (t : Text) : Text := t.filter Char.isDigit

/-- `int(...)` of a text of digits. [`cli.py:129`] -/
def digitsValue (t : Text) : ℕ := t.foldl (fun n c => 10 * n + (c.toNat - 48)) 0

/-- The key of `cli.py:129`. -/
def fileKey (t : Text) : ℕ := digitsValue (digitsOf t)

/-- `cli.py:123-129`: the files of a folder; a file without digits raises `ValueError`. -/
def monthFiles (w : World) (dir ext : Text) : Except Err (List Text) :=
  let fs := ((w.listDir dir).filter (endsWith ext)).map (joinPath dir)
  if fs.any (fun f => (digitsOf f).isEmpty) then .error .valueError
  else .ok (fs.insertionSort (fun a b => fileKey a ≤ fileKey b))

/-- `cli.py:119-143`: one file for each month?  The year and the files, or nothing. -/
def monthMode (w : World) (years : Option (List ℤ)) (fnames : Option (List Text)) (ext : Text) : Except Err (Option (ℤ × List Text)) :=
  match years, fnames with
  | some [y], some (f :: _) =>
    if w.isDir f then match monthFiles w f ext with
      | .error e => .error e
      | .ok fs => if fs.length = 12 then .ok (some (y, fs)) else .error .valueError
    else .ok none
  | _, _ => .ok none

/-- `cli.py:152-158` and `cli.py:163-168`: one value for all files, or one for each. -/
def spread {α : Type} (l : List α) (n : ℕ) : Except Err (List α) := match l with
  | [x] => .ok (List.replicate n x)
  | l => if l.length = n then .ok l else .error .valueError

/-- `cli.py:151-160`: the numbers of days. -/
def spreadDays (numDays : Option (List ℤ)) (n : ℕ) : Except Err (List (Option ℤ)) := match numDays with
  | none => .ok (List.replicate n none)
  | some l => match spread l n with
    | .error e => .error e
    | .ok l => .ok (l.map some)

/-- What `main` will run. [`cli.py:145-199`] -/
inductive Plan
  /-- `cli.py:148-149`: nothing -/
  | nothing
  /-- `cli.py:170-179`: every input file -/
  | files (runs : List RunArgs)
  /-- `cli.py:181-199`: one input file per month; the folder of the results, `none` if it is the current folder -/
  | months (year : ℕ) (runs : List RunArgs) (folder : Option Text)

/-- `cli.py:170-179`: the runs of the input files. -/
def fileRuns (fnames : List Text) (ofnames : List (Option Text)) (numDays : List (Option ℤ)) (s e : Option ℤ) (parallel : Bool) : List RunArgs :=
  (fnames.zip (ofnames.zip numDays)).map (fun p =>
    { fname := p.1, ofname := p.2.1, numDays := p.2.2, dateStart := s, dateEnd := e, plot := true, parallel := parallel })

/-- `cli.py:183-195`: the run of month `i + 1`. -/
def monthRun (year : ℕ) (parallel : Bool) (i : ℕ) (fname : Text) (n : Option ℤ) : RunArgs :=
  { fname := fname, numDays := n, dateStart := some (Date.stamp ⟨year, i + 1, 1⟩),
    dateEnd := some (Date.stamp ⟨year, i + 1, daysInMonth year (i + 1)⟩), plot := false, parallel := parallel }

/-- `cli.py:182-195`: the runs of the months. -/
def monthRuns (year : ℕ) (parallel : Bool) : ℕ → List Text → List (Option ℤ) → List RunArgs
  | i, f :: fs, n :: ns => monthRun year parallel i f n :: monthRuns year parallel (i + 1) fs ns
  | _, _, _ => []

/-- `cli.py:209-215`: the folder of the results of a year. -/
def yearFolder (ofnames : List (Option Text)) : Option Text := match ofnames with
  | [o] => o
  | _ => none

/-- `cli.py:79-215` `main` without the simulations. -/
def planCli (w : World) (a : CliArgs) : Except Err Plan :=
  let dates := completeDates a.numDays a.dateStart a.dateEnd
  match yearDates a.years dates.1 dates.2 with
  | .error e => .error e
  | .ok (s, e) => match monthMode w a.years a.fnames a.extension with
    | .error e => .error e
    | .ok mode =>
      let ofnames := match a.ofnames with
        | none => [none]
        | some l => l.map some
      match a.fnames with
      | none => .ok .nothing
      | some fnames => match mode with
        | none => match spreadDays a.numDays fnames.length with
          | .error e => .error e
          | .ok ns => match spread ofnames fnames.length with
            | .error e => .error e
            | .ok os => .ok (.files (fileRuns fnames os ns (s.map Date.stamp) (e.map Date.stamp) a.parallel))
        | some (y, fs) => match spreadDays a.numDays fs.length with
          | .error e => .error e
          | .ok ns => .ok (.months y.toNat (monthRuns y.toNat a.parallel 0 fs ns) (yearFolder ofnames))

/-! ## Running the plan -/

/-- `cli.py:170-179`, `ramp_run.py:56-59`: run the files one after the other; the results of spreadsheets are written.  `k` counts the
runs. -/
def runFiles (w : World) (wk : ℕ → Workers) : ℕ → List RunArgs → Files → Sim Files
  | _, [], fs => pure fs
  | k, r :: rs, fs => do
    let res ← runUseCase w (wk k) r
    match res with
    | none => runFiles w wk (k + 1) rs fs
    | some rows => runFiles w wk (k + 1) rs (exportSeries w.base fs (profileFormatting rows).2.2 none (some r.fname) r.ofname)

/-- `cli.py:182-199`: run the months; the results of a `.py` file are `None`, which has no `reshape`. -/
def runMonths (w : World) (wk : ℕ → Workers) : ℕ → List RunArgs → Sim (List (List ℚ))
  | _, [] => pure []
  | k, r :: rs => do
    let res ← runUseCase w (wk k) r
    match res with
    | none => raise .attributeError
    | some rows => do
      let rest ← runMonths w wk (k + 1) rs
      pure (flatten rows :: rest)

/-- `cli.py:202-207`: the frame of the year, one row per minute; data of another length raise `ValueError`. -/
def yearFrame (year : ℕ) (series : List ℚ) : Except Err Frame :=
  let index := minuteRange (Date.stamp ⟨year, 1, 1⟩) (Date.stamp ⟨year, 12, 31⟩ + 23 * 60 + 59)
  if series.length ≠ index.length then .error .valueError
  else .ok { index := index.map Label.stamp, columns := [("0", series.map some)] }

/-- One column of `cli.py:225-227`: the first column of the resampled frame. -/
def hourlyColumn (f : Frame) (rule : Rule) (name : String) : Except Err (List Label × String × List (Option ℚ)) :=
  match pandasResample f 60 rule with
  | .error e => .error e
  | .ok g => match g.columns with
    | c :: _ => .ok (g.index, name, c.2)
    | [] => .error .valueError

/-- `cli.py:223-227`: mean, maximum and minimum of every hour. -/
def hourlyFrame (f : Frame) : Except Err Frame :=
  match hourlyColumn f .mean "mean", hourlyColumn f .max "max", hourlyColumn f .min "min" with
  | .ok a, .ok b, .ok c => .ok { index := a.1, columns := [a.2, b.2, c.2] }
  | .error e, _, _ => .error e
  | _, .error e, _ => .error e
  | _, _, .error e => .error e

/-- What a run of the command line leaves behind: the files with series, or the two files of a year. [`cli.py:202-231`, `post_process.py:95-99`] -/
inductive CliResult
  | nothing
  | files (fs : Files)
  /-- the folder, the frame of `yearly_profile_min_resolution.csv` and that of `yearly_profile_hourly_resolution.csv` -/
  | year (folder : Text) (minutes hours : Frame)

/-- `cli.py:79-235` `main`.  Simplification: the folder of the results of a year can be created. -/
def mainCli (w : World) (wk : ℕ → Workers) (a : CliArgs) (fs : Files) : Sim CliResult := match planCli w a with
  | .error e => raise e
  | .ok .nothing => pure .nothing
  | .ok (.files runs) => do
    let fs ← runFiles w wk 0 runs fs
    pure (.files fs)
  | .ok (.months y runs folder) => do
    let l ← runMonths w wk 0 runs
    let f ← liftE (yearFrame y l.flatten)
    let h ← liftE (hourlyFrame f)
    pure (.year (folder.getD w.current) f h)

end Ramp
