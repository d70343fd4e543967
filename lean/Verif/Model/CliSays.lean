import Verif.Model.CliTrace

/-! # What the command line prints

`main` of `Verif.Model.Cli` once more, as an execution that lists the lines printed by `ramp/cli.py` and by `export_series`.  What the use cases themselves print is in
`Verif.Model.Messages`. -/

set_option autoImplicit false

namespace Ramp

/-- The lines printed, with the values their texts contain. -/
inductive Said
  /-- "You did not provide a start date, this is chosen automatically for you: ..." [`cli.py:97-99`] -/
  | startChosen (d : Date)
  /-- "You did not provide an end date, this is chosen automatically for you: ..." [`cli.py:105-107`] -/
  | endChosen (d : Date)
  /-- "The following input files were found and will be used in this exact order for month inputs", and the files [`cli.py:132-135`] -/
  | monthFiles (files : List Text)
  /-- "You selected a single year but the input path is not a folder." [`cli.py:143`] -/
  | notFolder
  /-- "Please provide path to input file with option -i" [`cli.py:149`] -/
  | noInput
  /-- "Writing RAMP results to ..." [`post_process.py:96`] -/
  | writing (path : Text)
  /-- "No path to a file was provided to write the results" [`post_process.py:99`] -/
  | noPath
  /-- "Results of the yearly RAMP simulation with seasonality are located in the folder ..." [`cli.py:231-233`] -/
  | resultsIn (folder : Text)
  deriving DecidableEq

/-- `cli.py:92-108`: missing dates are completed. -/
def saysDates (numDays : Option (List ℤ)) (s e : Option Date) : Traced Said (Option Date × Option Date) := match numDays with
  | some _ => pure (s, e)
  | none => match s, e with
    | none, some e => do
      note (.startChosen ⟨e.year, 1, 1⟩)
      pure (some ⟨e.year, 1, 1⟩, some e)
    | some s, none => do
      note (.endChosen ⟨s.year, 12, 31⟩)
      pure (some s, some ⟨s.year, 12, 31⟩)
    | s, e => pure (s, e)

/-- `cli.py:119-143`: one file for each month? -/
def saysMonths (w : World) (years : Option (List ℤ)) (fnames : Option (List Text)) (ext : Text) : Traced Said (Option (ℤ × List Text)) :=
  match years, fnames with
  | some [y], some (f :: _) =>
    if w.isDir f then do
      let fs ← quiet (liftE (monthFiles w f ext))
      if fs.length = 12 then do
        note (.monthFiles fs)
        pure (some (y, fs))
      else quiet (raise .valueError)
    else do
      note .notFolder
      pure none
  | _, _ => pure none

/-- `cli.py:145-168`: the numbers of days and the paths of the results of the input files. -/
def planRuns (a : CliArgs) (s e : Option Date) (fnames : List Text) (mode : Option (ℤ × List Text)) : Except Err Plan :=
  let ofnames := match a.ofnames with
    | none => [none]
    | some l => l.map some
  match mode with
  | none => match spreadDays a.numDays fnames.length with
    | .error e => .error e
    | .ok ns => match spread ofnames fnames.length with
      | .error e => .error e
      | .ok os => .ok (.files (fileRuns fnames os ns (s.map Date.stamp) (e.map Date.stamp) a.parallel))
  | some (y, fs) => match spreadDays a.numDays fs.length with
    | .error e => .error e
    | .ok ns => .ok (.months y.toNat (monthRuns y.toNat a.parallel 0 fs ns) (yearFolder ofnames))

/-- `cli.py:79-215` `main` without the simulations. -/
def saysPlan (w : World) (a : CliArgs) : Traced Said Plan := do
  let dates ← saysDates a.numDays a.dateStart a.dateEnd
  let se ← quiet (liftE (yearDates a.years dates.1 dates.2))
  let mode ← saysMonths w a.years a.fnames a.extension
  match a.fnames with
  | none => do
    note .noInput
    pure .nothing
  | some fnames => quiet (liftE (planRuns a se.1 se.2 fnames mode))

/-- `post_process.py:78-99` `export_series`. -/
def saysExport (base : Text) (fs : Files) (s : List ℚ) (j : Option ℕ) (fname ofname : Option Text) : Traced Said Files :=
  match exportPath base j fname ofname with
  | some p => do
    note (.writing p)
    pure (writeFile fs p s)
  | none => do
    note .noPath
    pure fs

/-- `cli.py:170-179`: run the files one after the other. -/
def saysFiles (w : World) (wk : ℕ → Workers) : ℕ → List RunArgs → Files → Traced Said Files
  | _, [], fs => pure fs
  | k, r :: rs, fs => do
    let res ← quiet (runUseCase w (wk k) r)
    match res with
    | none => saysFiles w wk (k + 1) rs fs
    | some rows => do
      let fs ← saysExport w.base fs (profileFormatting rows).2.2 none (some r.fname) r.ofname
      saysFiles w wk (k + 1) rs fs

/-- `cli.py:79-235` `main`. -/
def saysMain (w : World) (wk : ℕ → Workers) (a : CliArgs) (fs : Files) : Traced Said CliResult := do
  match ← saysPlan w a with
  | .nothing => pure .nothing
  | .files runs => do
    let fs ← saysFiles w wk 0 runs fs
    pure (.files fs)
  | .months y runs folder => do
    let l ← quiet (runMonths w wk 0 runs)
    let f ← quiet (liftE (yearFrame y l.flatten))
    let h ← quiet (liftE (hourlyFrame f))
    note (.resultsIn (folder.getD w.current))
    pure (.year (folder.getD w.current) f h)

end Ramp
