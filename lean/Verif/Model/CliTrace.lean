import Verif.Model.Trace
import Verif.Model.Cli

/-! # The files on disk during a run of the command line

`Verif.Model.Cli` says what a run that ends leaves behind.  Here the same functions are written as executions that list the files of
results on disk after every step of writing one, so that a run that is stopped by an exception or an interruption leaves the files of the
last state listed (or the files as they were). -/

set_option autoImplicit false

namespace Ramp

/-- The files of results on disk: the series written by `export_series` and the tables of a year. [`post_process.py:95-97`, `cli.py:219-230`] -/
structure Disk where
  series : Files := []
  tables : List (Text × Frame) := []

/-- Write a table: an existing one is overwritten. [`cli.py:219-221`, `cli.py:228-230`] -/
def writeTable (ts : List (Text × Frame)) (path : Text) (f : Frame) : List (Text × Frame) := (path, f) :: ts.filter (fun p => p.1 ≠ path)

/-- The first `n` rows of a table. [`cli.py:219-221`: the rows are written one after the other] -/
def firstRows (f : Frame) (n : ℕ) : Frame := { index := f.index.take n, columns := f.columns.map (fun c => (c.1, c.2.take n)) }

/-- `series_frame.to_csv(path)`: the file is emptied, then the rows are written one after the other.  Simplification: rows are written
whole. [`post_process.py:95-97`] -/
def tracedExport (base : Text) (fs : Files) (s : List ℚ) (fname ofname : Option Text) : Traced Files Files :=
  match exportPath base none fname ofname with
  | none => pure fs
  | some p => do
    notes ((List.range (s.length + 1)).map (fun n => writeFile fs p (s.take n)))
    pure (writeFile fs p s)

/-- `cli.py:170-179`: run the files one after the other. -/
def tracedFiles (w : World) (wk : ℕ → Workers) : ℕ → List RunArgs → Files → Traced Files Files
  | _, [], fs => pure fs
  | k, r :: rs, fs => do
    let res ← quiet (runUseCase w (wk k) r)
    match res with
    | none => tracedFiles w wk (k + 1) rs fs
    | some rows => do
      let fs ← tracedExport w.base fs (profileFormatting rows).2.2 (some r.fname) r.ofname
      tracedFiles w wk (k + 1) rs fs

/-- `to_csv` of a table of a year, row by row. [`cli.py:219-221`, `cli.py:228-230`] -/
def tracedTable (ts : List (Text × Frame)) (path : Text) (f : Frame) : Traced (List (Text × Frame)) (List (Text × Frame)) := do
  notes ((List.range (f.index.length + 1)).map (fun n => writeTable ts path (firstRows f n)))
  pure (writeTable ts path f)

/-- `cli.py:219-221`: the path of the table of minutes. -/
def minutesPath (folder : Text) : Text := joinPath folder "yearly_profile_min_resolution.csv".toList

/-- `cli.py:228-230`: the path of the table of hours. -/
def hoursPath (folder : Text) : Text := joinPath folder "yearly_profile_hourly_resolution.csv".toList

/-- `cli.py:79-235` `main`, with the files on disk.  Simplification: as for `mainCli`, the folder of the results of a year can be created. -/
def tracedMain (w : World) (wk : ℕ → Workers) (a : CliArgs) (d : Disk) : Traced Disk Disk := match planCli w a with
  | .error e => quiet (raise e)
  | .ok .nothing => pure d
  | .ok (.files runs) => do
    let fs ← within (fun fs => { d with series := fs }) (tracedFiles w wk 0 runs d.series)
    pure { d with series := fs }
  | .ok (.months y runs folder) => do
    let l ← quiet (runMonths w wk 0 runs)
    let f ← quiet (liftE (yearFrame y l.flatten))
    let ts ← within (fun ts => { d with tables := ts }) (tracedTable d.tables (minutesPath (folder.getD w.current)) f)
    let h ← quiet (liftE (hourlyFrame f))
    let ts ← within (fun ts => { d with tables := ts }) (tracedTable ts (hoursPath (folder.getD w.current)) h)
    pure { d with tables := ts }

end Ramp
