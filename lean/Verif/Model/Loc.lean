import Verif.Model.Draw

/-! # `Plot.loc` by row labels

Model of `Plot.loc(index, columns)` (`ramp/post_process/post_process.py:520-536`) for data over a sorted `DatetimeIndex`, which all results of RAMP have: what
`DataFrame.loc` does with timestamps, texts of the form `"YYYY-MM-DD"`, slices of these and lists of timestamps.  Labels of other types, boolean masks and functions
are not modelled. -/

set_option autoImplicit false

namespace Ramp

/-- A bound of a slice: a timestamp (in minutes) or the text of a day, given by its number. [`post_process.py:525`] -/
inductive TimeBound
  | stamp (t : ℤ)
  | day (d : ℤ)

/-- The argument `index` of `loc`. [`post_process.py:520-527`] -/
inductive RowLabels
  | all
  | slice (a b : Option TimeBound)
  | day (d : ℤ)
  | one (t : ℤ)
  | many (l : List ℤ)

/-- A text is the range of its day: the first bound of a slice is its first minute. [pandas `_maybe_cast_slice_bound`, used in `post_process.py:536`] -/
def TimeBound.first : TimeBound → ℤ
  | .stamp t => t
  | .day d => 1440 * d

/-- The last bound of a slice is the last minute of the day. [pandas `_maybe_cast_slice_bound`, used in `post_process.py:536`] -/
def TimeBound.last : TimeBound → ℤ
  | .stamp t => t
  | .day d => 1440 * d + 1439

/-- `searchsorted(side="left")`. [pandas `slice_locs`, used in `post_process.py:536`] -/
def searchLeft (ts : List ℤ) (t : ℤ) : ℕ := (ts.takeWhile (fun s => decide (s < t))).length

/-- `searchsorted(side="right")`. [pandas `slice_locs`, used in `post_process.py:536`] -/
def searchRight (ts : List ℤ) (t : ℤ) : ℕ := (ts.takeWhile (fun s => decide (s ≤ t))).length

/-- The rows from position `i` up to but not including `j`. [pandas, used in `post_process.py:536`] -/
def rowSlice (f : Frame) (i j : ℕ) : Frame :=
  { index := (f.index.take j).drop i, columns := f.columns.map (fun c => (c.1, (c.2.take j).drop i)) }

/-- The resolution of the index is finer than days: not all timestamps are midnights. [pandas `_resolution_obj`, used in `post_process.py:536`] -/
def finerThanDays (ts : List ℤ) : Bool := ts.any (fun t => decide (t % 1440 ≠ 0))

/-- One timestamp: one row, which is a Series. [pandas `get_loc`, used in `post_process.py:536`] -/
def rowAt (f : Frame) (ts : List ℤ) (t : ℤ) : Except Err (Frame × Bool) :=
  if t ∈ ts then .ok (rowSlice f (ts.idxOf t) (ts.idxOf t + 1), true) else .error .keyError

/-- The text of a day: its rows, if the index is finer than days (`KeyError` if the day lies before or after all of the data); else the row of this timestamp.
[pandas `get_loc`, `_partial_date_slice`, used in `post_process.py:536`] -/
def rowsOfDay (f : Frame) (ts : List ℤ) (d : ℤ) : Except Err (Frame × Bool) :=
  if finerThanDays ts then
    if 1440 * d + 1439 < ts.headD 0 ∨ ts.getLastD 0 < 1440 * d then .error .keyError
    else .ok (rowSlice f (searchLeft ts (1440 * d)) (searchRight ts (1440 * d + 1439)), false)
  else rowAt f ts (1440 * d)

/-- The rows chosen, and whether a dimension was taken away. [`post_process.py:536`] -/
def locRows (f : Frame) (rows : RowLabels) : Except Err (Frame × Bool) := match stampsOf f.index with
  | none => .error .typeError
  | some ts => match rows with
    | .all => .ok (f, false)
    | .slice a b => .ok (rowSlice f ((a.map (fun x => searchLeft ts x.first)).getD 0) ((b.map (fun x => searchRight ts x.last)).getD ts.length), false)
    | .day d => rowsOfDay f ts d
    | .one t => rowAt f ts t
    | .many l => if ∀ t ∈ l, t ∈ ts then
        (match ilocFrame f (.many (l.map (fun t => (ts.idxOf t : ℤ)))) (.slice none none) with
        | .ok g => .ok (g, false)
        | .error e => .error e)
      else .error .keyError

/-- `post_process.py:520-536` `Plot.loc(index, columns)`: a Series or a number is refused by `Plot` (`post_process.py:581-582`). -/
def locFrame (f : Frame) (rows : RowLabels) (columns : Chosen) : Except Err Frame := match locRows f rows with
  | .error e => .error e
  | .ok (g, single) => match locColumns g columns with
    | .error e => .error e
    | .ok h => if single then .error .valueError else .ok h

end Ramp
