import Verif.Model.Post

/-! # What the plots of `Plot` draw, and its selections

Model of `Plot.line`, `area`, `shadow`, `load_duration_curve`, `_check_engine`, `iloc`, `loc` by columns, `head` and `from_file`
(`ramp/post_process/post_process.py`).  A drawing is the list of its lines with their names and values over the index; colours, legends,
figures and keyword arguments of the libraries are not modelled. -/

set_option autoImplicit false

namespace Ramp

/-- The two libraries. [`post_process.py:640-645`] -/
inductive Engine
  | matplotlib | plotly
  deriving DecidableEq

/-- `post_process.py:640-649` `_check_engine`.  Lower case of ASCII letters only: no other letter has an ASCII letter of the two names for its
lower case. -/
def checkEngine (engine : String) : Except Err Engine :=
  if engine.toLower = "matplotlib" then .ok .matplotlib
  else if engine.toLower = "plotly" then .ok .plotly
  else .error .valueError

/-- The argument `columns`: `None`, a name or a list of names. [`post_process.py:244`, `post_process.py:282`, `post_process.py:372`] -/
inductive Chosen
  | none
  | name (c : String)
  | names (l : List String)

/-- The lines of a drawing: names and values over the index of the data. [`post_process.py:272-277`] -/
abbrev DrawnLines := List (String × List (Option ℚ))

/-- `post_process.py:264-267` and `post_process.py:389-392`: the columns that are drawn. -/
def chosenColumns (f : Frame) : Chosen → Except Err DrawnLines
  | .none => .ok f.columns
  | .name c => selectFrame f [c]
  | .names l => selectFrame f l

/-- `post_process.py:244-277` `line` and `post_process.py:372-402` `area`: the lines that are drawn. -/
def drawLines (f : Frame) (columns : Chosen) (engine : String) : Except Err DrawnLines := match checkEngine engine with
  | .error e => .error e
  | .ok _ => chosenColumns f columns

/-- `post_process.py:404-436` `load_duration_curve`. -/
def drawDurationCurve (f : Frame) (column engine : String) : Except Err (List (ℕ × Option ℚ)) := match checkEngine engine with
  | .error e => .error e
  | .ok _ => loadDurationCurve f column

/-- What a shadow plot shows: one dark line and light ones. [`post_process.py:329-370`] -/
structure Shadow where
  main : String × List (Option ℚ)
  others : DrawnLines
  deriving DecidableEq

/-- `post_process.py:307-321`: the dark line. -/
def shadowMain (f : Frame) (main : Option String) (average : Bool) : Except Err (String × List (Option ℚ)) := match main, average with
  | none, false => .error .valueError
  | some _, true => .error .valueError
  | some c, false => match f.column c with
    | .error e => .error e
    | .ok l => .ok (c, l)
  | none, true => match (meanFrame f).column "Mean" with
    | .error e => .error e
    | .ok l => .ok ("Average", l)

/-- `post_process.py:323-329`: the light lines.  `columns.lower()` is called on the argument: a list and `None` have no such method. -/
def shadowOthers (f : Frame) : Chosen → Except Err DrawnLines
  | .none => .error .attributeError
  | .names _ => .error .attributeError
  | .name c => if c.toLower = "all" then selectFrame f (f.columns.map (fun c => c.1)) else selectFrame f [c]

/-- `post_process.py:279-370` `shadow`; the defaults of the arguments are `columns = "all"`, `average = True`. -/
def drawShadow (f : Frame) (main : Option String) (columns : Chosen) (average : Bool) (engine : String) : Except Err Shadow :=
  match checkEngine engine with
  | .error e => .error e
  | .ok _ => match shadowMain f main average with
    | .error e => .error e
    | .ok m => match shadowOthers f columns with
      | .error e => .error e
      | .ok o => .ok ⟨m, o⟩

/-! ## Selections -/

/-- A bound of a Python slice of `n` elements: negative ones count from the end. [Python, used in `post_process.py:554`, `post_process.py:569`] -/
def boundOf (n : ℕ) (i : ℤ) : ℕ := if i < 0 then (i + n).toNat else min i.toNat n

/-- `l[a:b]`. [Python, used in `post_process.py:554`, `post_process.py:569`] -/
def sliceList {α : Type} (l : List α) (a b : Option ℤ) : List α :=
  let start := (a.map (boundOf l.length)).getD 0
  let stop := (b.map (boundOf l.length)).getD l.length
  (l.take stop).drop start

/-- `l[i]` with a negative index counted from the end. [Python, used in `post_process.py:554`] -/
def pickOne {α : Type} (l : List α) (i : ℤ) : Except Err α :=
  match (if i < 0 then (if i + l.length < 0 then none else l[(i + l.length).toNat]?) else l[i.toNat]?) with
  | some x => .ok x
  | none => .error .indexError

/-- The elements at a list of positions. [`DataFrame.iloc` with a list, `post_process.py:554`] -/
def pickMany {α : Type} (l : List α) : List ℤ → Except Err (List α)
  | [] => .ok []
  | i :: is => match pickOne l i with
    | .error e => .error e
    | .ok x => match pickMany l is with
      | .error e => .error e
      | .ok r => .ok (x :: r)

/-- An argument of `iloc`: a slice, a list of positions or one position. [`post_process.py:538-554`] -/
inductive Positions
  | slice (a b : Option ℤ)
  | many (l : List ℤ)
  | one (i : ℤ)

/-- The elements chosen. [`DataFrame.iloc`, `post_process.py:554`] -/
def choose {α : Type} (l : List α) : Positions → Except Err (List α)
  | .slice a b => .ok (sliceList l a b)
  | .many is => pickMany l is
  | .one i => match pickOne l i with
    | .error e => .error e
    | .ok x => .ok [x]

/-- A single position takes a dimension away. [`DataFrame.iloc`, `post_process.py:554`] -/
def Positions.single : Positions → Bool
  | .one _ => true
  | _ => false

/-- The columns with the rows chosen. [`DataFrame.iloc`, `post_process.py:554`] -/
def chooseRows (p : Positions) : DrawnLines → Except Err DrawnLines
  | [] => .ok []
  | c :: cs => match choose c.2 p with
    | .error e => .error e
    | .ok l => match chooseRows p cs with
      | .error e => .error e
      | .ok r => .ok ((c.1, l) :: r)

/-- `post_process.py:538-554` `Plot.iloc`: a single row or column is a Series, a single cell a number, which `Plot` does not accept
(`post_process.py:581-582`). -/
def ilocFrame (f : Frame) (rows columns : Positions) : Except Err Frame := match choose f.index rows with
  | .error e => .error e
  | .ok index => match choose f.columns columns with
    | .error e => .error e
    | .ok cols => match chooseRows rows cols with
      | .error e => .error e
      | .ok cols => if rows.single || columns.single then .error .valueError else .ok { index := index, columns := cols }

/-- `post_process.py:520-536` `Plot.loc(columns=...)` with all rows: one name gives a Series. -/
def locColumns (f : Frame) : Chosen → Except Err Frame
  | .none => .ok f
  | .name c => match f.column c with
    | .error e => .error e
    | .ok _ => .error .valueError
  | .names l => match selectFrame f l with
    | .error e => .error e
    | .ok cols => .ok { f with columns := cols }

/-- `post_process.py:556-569` `Plot.head(n)`. -/
def headFrame (f : Frame) (n : ℤ) : Frame :=
  { index := sliceList f.index none (some n), columns := f.columns.map (fun c => (c.1, sliceList c.2 none (some n))) }

/-- `post_process.py:137-171` `Plot.from_file`; `sheets` are the spreadsheets.  `pd.read_csv` has no argument `sheet_name`
(`post_process.py:159-161`): it raises `TypeError` before it opens the file. -/
def fromFile (sheets : Text → Option Frame) (file : Text) (index : Option (List Label)) : Except Err Frame :=
  if (".csv".toList).isSuffixOf file then .error .typeError
  else if (".xlsx".toList).isSuffixOf file then match sheets file with
    | none => .error .fileNotFoundError
    | some f => match index with
      | none => .ok f
      | some i => if i.length ≠ f.index.length then .error .valueError else .ok { f with index := i }
  else .error .valueError

end Ramp
