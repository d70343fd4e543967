import Verif.Model.Convert
import Mathlib.Data.List.Sort

/-! # Model of `ramp/post_process/post_process.py`

Simplifications: numbers are exact; the plots themselves (matplotlib, plotly) are not modelled, only the data that are drawn; frames have
one level of columns, with distinct names unless stated; frequencies are whole numbers of minutes (`Tick` frequencies of pandas: minutes,
hours, days), not anchored ones such as weeks or months. -/

set_option autoImplicit false

namespace Ramp

/-! ## Formatting and export -/

/-- `post_process.py:18-21`: the average of the daily profiles; `none` is the `nan` of a division by zero. -/
def profileAvg (rows : List Profile) : Option Profile :=
  if rows = [] then none else some (fun i => (rows.map (fun p => p i)).sum / (rows.length : ℚ))

/-- `post_process.py:23-25`. -/
def profileKW (rows : List Profile) : List Profile := rows.map (fun p i => p i / 1000)

/-- `post_process.py:27-29`: the profiles one after the other. -/
def profileSeries (rows : List Profile) : List ℚ := rows.flatMap (fun p => List.ofFn p)

/-- `post_process.py:17-31` `Profile_formatting`. -/
def profileFormatting (rows : List Profile) : Option Profile × List Profile × List ℚ :=
  (profileAvg rows, profileKW rows, profileSeries rows)

/-- `os.path.split(fname)[-1]` (`post_process.py:92`). -/
def fileNameOf (path : Text) : Text := baseName path

/-- `post_process.py:78-94`: the path that the results are written to; `base` is the folder of the package. -/
def exportPath (base : Text) (j : Option ℕ) (fname ofname : Option Text) : Option Text := match ofname with
  | some o => some o
  | none => match fname with
    | some f => some (joinPath (joinPath base "results".toList) ("output_file_".toList ++ (replaceAll ".".toList "_".toList (fileNameOf f)) ++ ".csv".toList))
    | none => match j with
      | some j => some (joinPath (joinPath base "results".toList) ("output_file_".toList ++ (toString j).toList ++ ".csv".toList))
      | none => none

/-- The files on disk that hold series of results. [`post_process.py:95-97`] -/
abbrev Files := List (Text × List ℚ)

/-- Write a file: an existing one is overwritten. [`post_process.py:97`] -/
def writeFile (fs : Files) (path : Text) (s : List ℚ) : Files := (path, s) :: fs.filter (fun p => p.1 ≠ path)

/-- `post_process.py:78-99` `export_series`. -/
def exportSeries (base : Text) (fs : Files) (s : List ℚ) (j : Option ℕ) (fname ofname : Option Text) : Files :=
  match exportPath base j fname ofname with
  | some p => writeFile fs p s
  | none => fs

/-! ## Frames -/

/-- An entry of an index: a timestamp (in minutes) or anything else. [the index of `post_process.py:173-188`] -/
inductive Label
  | stamp (minute : ℤ)
  | other (s : String)
  deriving DecidableEq

/-- A `pd.DataFrame`: the columns in order; a missing value (`NaN`) is `none`. [the data of `post_process.py:173-188`] -/
structure Frame where
  index : List Label
  columns : List (String × List (Option ℚ))
  deriving DecidableEq

/-- `df[column]`. [`post_process.py:422`, `post_process.py:455-456`] -/
def Frame.column (f : Frame) (c : String) : Except Err (List (Option ℚ)) := match f.columns.lookup c with
  | some l => .ok l
  | none => .error .keyError

/-- The values that are not missing. [`post_process.py:476`, `post_process.py:236`] -/
def present (l : List (Option ℚ)) : List ℚ := l.filterMap id

/-- `max()` and `min()` skip missing values. [`post_process.py:476`, `cli.py:226`] -/
def maxPresent (l : List (Option ℚ)) : Option ℚ := (present l).max?

/-- See `maxPresent`. [`cli.py:227`] -/
def minPresent (l : List (Option ℚ)) : Option ℚ := (present l).min?

/-- `post_process.py:422-425`: the rows of the load duration curve, with their new index; `sort_values` puts missing values last. -/
def loadDurationCurve (f : Frame) (c : String) : Except Err (List (ℕ × Option ℚ)) := match f.column c with
  | .error e => .error e
  | .ok l =>
    let sorted := ((present l).insertionSort (fun a b => b ≤ a)).map some ++ l.filter (fun x => x = none)
    .ok ((List.range' 1 sorted.length).zip sorted)

/-- A number of numpy: rational or infinite. [`post_process.py:454-459`] -/
inductive NpFloat
  | num (q : ℚ)
  | inf (negative : Bool)
  deriving DecidableEq

/-- `post_process.py:454-459`: one entry of the error; 0/0 and missing values are `nan`, which `fillna(0)` replaces. -/
def errorEntry : Option ℚ → Option ℚ → NpFloat
  | some b, some v =>
    if v = 0 then (if b = 0 then .num 0 else .inf (b < 0))
    else .num ((b - v) / v * 100)
  | _, _ => .num 0

/-- `post_process.py:438-461` `Plot.error`. -/
def plotError (f : Frame) (base validated : String) : Except Err (List NpFloat) := match f.column base with
  | .error e => .error e
  | .ok b => match f.column validated with
    | .error e => .error e
    | .ok v => .ok (List.zipWith errorEntry b v)

/-- `post_process.py:476`: `vals.loc[vals == vals.max()]`. -/
def peakOf (index : List Label) (l : List (Option ℚ)) : List (Label × Option ℚ) :=
  (index.zip l).filter (fun p => p.2 ≠ none ∧ p.2 = maxPresent l)

/-- `post_process.py:463-480` `Plot.peak`. -/
def plotPeak (f : Frame) : List (String × List (Label × Option ℚ)) := f.columns.map (fun c => (c.1, peakOf f.index c.2))

/-! ## Resampling -/

/-- The rules of `Plot.resample` that are modelled. [`post_process.py:236`, `cli.py:225-227`] -/
inductive Rule
  | sum | mean | max | min
  deriving DecidableEq

/-- One aggregated value; missing values are skipped. [`post_process.py:236`, `cli.py:225-227`] -/
def aggregate : Rule → List (Option ℚ) → Option ℚ
  | .sum, l => some (present l).sum
  | .mean, l => if present l = [] then none else some ((present l).sum / ((present l).length : ℚ))
  | .max, l => maxPresent l
  | .min, l => minPresent l

/-- The timestamps of an index; `none` if it is not a `DatetimeIndex`. [pandas, used in `post_process.py:236`] -/
def stampsOf : List Label → Option (List ℤ)
  | [] => some []
  | .stamp t :: l => (stampsOf l).map (t :: ·)
  | .other _ :: _ => none

/-- The bin of a timestamp: bins of `m` minutes counted from midnight of the first day (`origin="start_day"` of pandas).
[pandas, used in `post_process.py:236`] -/
def binOf (origin m t : ℤ) : ℤ := (t - origin) / m

/-- The bins from the first to the last timestamp, empty ones included. [pandas, used in `post_process.py:236`] -/
def binsOf (origin m lo hi : ℤ) : List ℤ :=
  (List.range (binOf origin m hi - binOf origin m lo + 1).toNat).map (fun (j : ℕ) => binOf origin m lo + (j : ℤ))

/-- The entries of a column that belong to a bin. [pandas, used in `post_process.py:236`] -/
def binEntries (origin m : ℤ) (ts : List ℤ) (l : List (Option ℚ)) (b : ℤ) : List (Option ℚ) :=
  ((ts.zip l).filter (fun p => binOf origin m p.1 = b)).map (fun p => p.2)

/-- `df.resample(freq).rule()` of pandas. [used in `post_process.py:236`, `cli.py:225-227`] -/
def pandasResample (f : Frame) (m : ℤ) (rule : Rule) : Except Err Frame := match stampsOf f.index with
  | none => .error .typeError
  | some ts => match ts.min?, ts.max? with
    | some lo, some hi =>
      let origin := lo - lo % 1440
      let bins := binsOf origin m lo hi
      .ok { index := bins.map (fun b => .stamp (origin + b * m)),
            columns := f.columns.map (fun c => (c.1, bins.map (fun b => aggregate rule (binEntries origin m ts c.2 b)))) }
    | _, _ => .ok f

/-- `df / conversion` (`post_process.py:235`), for a conversion other than 0. -/
def divideFrame (f : Frame) (conversion : ℚ) : Frame :=
  { f with columns := f.columns.map (fun c => (c.1, c.2.map (Option.map (fun x => x / conversion)))) }

/-- `post_process.py:233-236`. -/
def resampleFrame (f : Frame) (m : ℤ) (rule : Rule) (conversion : ℚ) : Except Err Frame := pandasResample (divideFrame f conversion) m rule

/-! ## Adding columns -/

/-- `df[name] = values`. [`post_process.py:512`] -/
def setColumn (cols : List (String × List (Option ℚ))) (c : String × List (Option ℚ)) : List (String × List (Option ℚ)) :=
  if cols.any (fun d => d.1 = c.1) then cols.map (fun d => if d.1 = c.1 then (d.1, c.2) else d) else cols ++ [c]

/-- `post_process.py:512` `df[var.columns] = var.values`. -/
def assignColumns (f : Frame) (cols : List (String × List (Option ℚ))) : Frame := { f with columns := cols.foldl setColumn f.columns }

/-- `post_process.py:580-590` `_validate_df`.  The condition of the second test, `not (isinstance, other.index, pd.DatetimeIndex)`, is
the negation of a non-empty tuple: never true.  `own` is the index compared with, if any; `other = none` is an object that is not a
frame. -/
def validateDf (own : Option (List Label)) (other : Option Frame) : Except Err Frame := match other with
  | none => .error .valueError
  | some o =>
    let tupleIsTrue : Bool := true
    if ¬ tupleIsTrue then .error .valueError
    else match own with
      | none => .ok o
      | some i => if i ≠ o.index then .error .valueError else .ok o

/-- `post_process.py:499-512` `Plot.add_column` on the data of the object. -/
def addColumnFrame (f : Frame) (var : Option Frame) : Except Err Frame := match validateDf (some f.index) var with
  | .error e => .error e
  | .ok o => .ok (assignColumns f o.columns)

/-! ## Rows -/

/-- The values of row `i`. [`post_process.py:624`, `post_process.py:634`] -/
def Frame.row (f : Frame) (i : ℕ) : List (Option ℚ) := f.columns.map (fun c => (c.2[i]?).getD none)

/-- `post_process.py:616-634`: `DataFrame.mean(1).to_frame("Mean")` and `DataFrame.sum(1).to_frame("Sum")`. -/
def acrossColumns (rule : Rule) (name : String) (f : Frame) : Frame :=
  { index := f.index, columns := [(name, (List.range f.index.length).map (fun i => aggregate rule (f.row i)))] }

/-- `post_process.py:616-624` `Plot.mean`. -/
def meanFrame : Frame → Frame := acrossColumns .mean "Mean"

/-- `post_process.py:626-634` `Plot.sum`. -/
def sumFrame : Frame → Frame := acrossColumns .sum "Sum"

/-- `post_process.py:514-518` `__getitem__` with a list of columns. -/
def selectFrame (f : Frame) : List String → Except Err (List (String × List (Option ℚ)))
  | [] => .ok []
  | k :: ks => match f.column k with
    | .error e => .error e
    | .ok l => match selectFrame f ks with
      | .error e => .error e
      | .ok r => .ok ((k, l) :: r)

/-! ## Plot objects: which data they share -/

/-- The objects in memory: frames by address, and the frame of every `Plot` object. [`post_process.py:173-188`, `post_process.py:488-497`] -/
structure Heap where
  frames : List Frame := []
  plots : List ℕ := []
  deriving DecidableEq

/-- The data of a `Plot` object. [`post_process.py:488-491`] -/
def Heap.data (h : Heap) (p : ℕ) : Option Frame := (h.plots[p]?).bind (fun a => h.frames[a]?)

/-- The methods of `Plot`. [`post_process.py:173-638`] -/
inductive PlotOp
  /-- `pd.DataFrame(...)` [argument of `post_process.py:173`] -/
  | frame (f : Frame)
  /-- `Plot(df)` (`post_process.py:173-188` without `index`): the object keeps the frame itself -/
  | plot (addr : ℕ)
  /-- `Plot(df, index)`: a copy with another index [`post_process.py:184-188`] -/
  | plotIndexed (addr : ℕ) (index : List Label)
  /-- `p.copy()` (`:636-638`) [`post_process.py:636-638`] -/
  | copy (p : ℕ)
  /-- `p.add_column(df)` [`post_process.py:499-512`] -/
  | addColumn (p : ℕ) (var : Option Frame)
  /-- `p.columns = names` (`:206-208`) [`post_process.py:206-208`] -/
  | rename (p : ℕ) (names : List String)
  /-- `p.resample(freq, rule, conversion, inplace)` (`:214-242`) [`post_process.py:214-242`] -/
  | resample (p : ℕ) (m : ℤ) (rule : Rule) (conversion : ℚ) (inplace : Bool)
  /-- `p.DataFrame = df` (`:493-497`) [`post_process.py:493-497`] -/
  | assign (p : ℕ) (addr : ℕ)
  /-- `p.mean()`, `p.sum()` [`post_process.py:616-634`] -/
  | across (p : ℕ) (sum : Bool)
  /-- `p[keys]` [`post_process.py:514-518`] -/
  | select (p : ℕ) (keys : List String)

/-- A new frame and a new `Plot` object that holds it. [`post_process.py:185-188`, `post_process.py:242`, `post_process.py:638`] -/
def Heap.fresh (h : Heap) (f : Frame) : Heap := { frames := h.frames ++ [f], plots := h.plots ++ [h.frames.length] }

/-- One call.  A call on an object that does not exist cannot be written; the model changes nothing. [`post_process.py:173-638`] -/
def plotStep (h : Heap) : PlotOp → Heap × Except Err Unit
  | .frame f => ({ h with frames := h.frames ++ [f] }, .ok ())
  | .plot a => match h.frames[a]? with
    | none => (h, .ok ())
    | some _ => ({ h with plots := h.plots ++ [a] }, .ok ())
  | .plotIndexed a i => match h.frames[a]? with
    | none => (h, .ok ())
    | some f => if i.length ≠ f.index.length then (h, .error .valueError) else (h.fresh { f with index := i }, .ok ())
  | .copy p => match h.data p with
    | none => (h, .ok ())
    | some f => (h.fresh f, .ok ())
  | .addColumn p var => match h.plots[p]?, h.data p with
    | some a, some f => match addColumnFrame f var with
      | .error e => (h, .error e)
      | .ok f => ({ h with frames := h.frames.set a f }, .ok ())
    | _, _ => (h, .ok ())
  | .rename p names => match h.plots[p]?, h.data p with
    | some a, some f =>
      if names.length ≠ f.columns.length then (h, .error .valueError)
      else ({ h with frames := h.frames.set a { f with columns := List.zipWith (fun n c => (n, c.2)) names f.columns } }, .ok ())
    | _, _ => (h, .ok ())
  | .resample p m rule conversion inplace => match h.data p with
    | none => (h, .ok ())
    | some f => match resampleFrame f m rule conversion with
      | .error e => (h, .error e)
      | .ok f => if inplace then ({ frames := h.frames ++ [f], plots := h.plots.set p h.frames.length }, .ok ()) else (h.fresh f, .ok ())
  | .assign p a => match h.frames[a]? with
    | none => (h, .ok ())
    | some _ => ({ h with plots := h.plots.set p a }, .ok ())
  | .across p sum => match h.data p with
    | none => (h, .ok ())
    | some f => (h.fresh (if sum then sumFrame f else meanFrame f), .ok ())
  | .select p keys => match h.data p with
    | none => (h, .ok ())
    | some f => match selectFrame f keys with
      | .error e => (h, .error e)
      | .ok cols => (h.fresh { f with columns := cols }, .ok ())

/-- A history of calls. [programs over `post_process.py:173-638`] -/
def plotRun : Heap → List PlotOp → Heap
  | h, [] => h
  | h, op :: ops => plotRun (plotStep h op).1 ops

end Ramp
