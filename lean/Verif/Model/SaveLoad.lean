import Verif.Model.UseCase

/-! # Model of saving and loading: `Appliance.save`, `User.save`, `UseCase.save`, `UseCase.load` (`ramp/core/core.py`) and
`read_input_file` (`ramp/core/utils.py`)

A table is the list of its rows, a row is a dictionary from column names to cells.  The columns keep the names and the order of
`ramp/core/constants.py`.  Simplifications: user names, names and the `yes`/`no` options are texts without control characters;
counts, durations and window bounds are integers (a cell with another type gives `typeError`, which stands for whatever Python does
later with such a value); the writing and reading of numbers, of texts and of JSON by pandas, openpyxl and `json` is exact. -/

set_option autoImplicit false

namespace Ramp

/-- A cell.  `array` is a Python list in memory and the text of a JSON array of numbers in a sheet; `pairs` is the text of a JSON
array of arrays of two numbers; `range` is the text of a reference `=Sheet!A1:B366` to the columns it holds.
[the values of `core.py:1246-1287` and of `utils.py:21-89`] -/
inductive Cell
  | blank
  | num (q : ℚ)
  | text (s : String)
  | array (l : List ℚ)
  | pairs (l : List (ℚ × ℚ))
  | range (columns : List (List ℚ))
  deriving DecidableEq

/-- One line of a table. [`core.py:1287`, `core.py:605-607`] -/
abbrev Row := List (String × Cell)

/-- A data frame or a sheet. [`core.py:543`, `core.py:583`] -/
abbrev Table := List Row

/-- The suffixes of a list. [helper of `sub in s`, `core.py:1251`] -/
def suffixes {α : Type} : List α → List (List α)
  | [] => [[]]
  | c :: l => (c :: l) :: suffixes l

/-- `sub in s` for two strings. [`core.py:1251`, `core.py:616`, `core.py:631`] -/
def contains (sub s : String) : Bool := (suffixes s.toList).any (fun t => sub.toList.isPrefixOf t)

/-- `constants.py:66-107` `APPLIANCE_ATTRIBUTES`. -/
def applianceAttributes : List String :=
  ["name", "number", "power", "num_windows", "func_time", "time_fraction_random_variability", "func_cycle", "fixed", "fixed_cycle",
   "continuous_duty_cycle", "occasional_use", "flat", "thermal_p_var", "pref_index", "wd_we_type",
   "p_11", "t_11", "cw11", "p_12", "t_12", "cw12", "r_c1",
   "p_21", "t_21", "cw21", "p_22", "t_22", "cw22", "r_c2",
   "p_31", "t_31", "cw31", "p_32", "t_32", "cw32", "r_c3",
   "window_1", "window_2", "window_3", "random_var_w"]

/-- `constants.py:109-126` `APPLIANCE_ARGS`. -/
def applianceArgs : List String :=
  ["number", "power", "num_windows", "func_time", "time_fraction_random_variability", "func_cycle", "fixed", "fixed_cycle",
   "continuous_duty_cycle", "occasional_use", "flat", "thermal_p_var", "pref_index", "wd_we_type", "name"]

/-- `constants.py:129` `WINDOWS_PARAMETERS`. -/
def windowsParameters : List String := ["window_1", "window_2", "window_3", "random_var_w"]

/-- `constants.py:130-134` `DUTY_CYCLE_PARAMETERS`. -/
def dutyCycleParameters : List (List String) :=
  [["p_11", "t_11", "cw11", "p_12", "t_12", "cw12", "r_c1"],
   ["p_21", "t_21", "cw21", "p_22", "t_22", "cw22", "r_c2"],
   ["p_31", "t_31", "cw31", "p_32", "t_32", "cw32", "r_c3"]]

/-! ## Saving -/

/-- `np.diff(l).sum()`. [`core.py:1257`] -/
def diffSum (l : List ℚ) : ℚ := (List.zipWith (fun a b => b - a) l l.tail).sum

/-- `core.py:1256-1261`: the cell of the power. -/
def savePower (l : List ℚ) : Except Err Cell :=
  if diffSum l = 0 then match l.head? with
    | some p => .ok (.num p)
    | none => .error .indexError
  else .ok (.array l)

/-- `getattr(self, attribute)` for a window. [`core.py:1252`] -/
def windowAttr (app : Appliance) (k : String) : ℤ × ℤ :=
  if k = "window_1" then app.window1 else if k = "window_2" then app.window2 else if k = "window_3" then app.window3
  else if k = "cw11" then app.cw11 else if k = "cw12" then app.cw12 else if k = "cw21" then app.cw21
  else if k = "cw22" then app.cw22 else if k = "cw31" then app.cw31 else app.cw32

/-- `getattr(self, attribute)` for the attributes that are neither windows nor the power. [`core.py:1263`] -/
def plainAttr (app : Appliance) (k : String) : Cell :=
  if k = "name" then .text app.name
  else if k = "number" then .num app.number
  else if k = "num_windows" then .num app.numWindows
  else if k = "func_time" then .num app.funcTime
  else if k = "time_fraction_random_variability" then .num app.timeFractionRandomVariability
  else if k = "func_cycle" then .num app.funcCycle
  else if k = "fixed" then .text app.fixed
  else if k = "fixed_cycle" then .num app.fixedCycle
  else if k = "continuous_duty_cycle" then .num app.continuousDutyCycle
  else if k = "occasional_use" then .num app.occasionalUse
  else if k = "flat" then .text app.flat
  else if k = "thermal_p_var" then .num app.thermalPVar
  else if k = "pref_index" then .num app.prefIndex
  else if k = "wd_we_type" then .num app.wdWeType
  else if k = "p_11" then .num app.p11
  else if k = "t_11" then .num app.t11
  else if k = "p_12" then .num app.p12
  else if k = "t_12" then .num app.t12
  else if k = "r_c1" then .num app.rc1
  else if k = "p_21" then .num app.p21
  else if k = "t_21" then .num app.t21
  else if k = "p_22" then .num app.p22
  else if k = "t_22" then .num app.t22
  else if k = "r_c2" then .num app.rc2
  else if k = "p_31" then .num app.p31
  else if k = "t_31" then .num app.t31
  else if k = "p_32" then .num app.p32
  else if k = "t_32" then .num app.t32
  else if k = "r_c3" then .num app.rc3
  else if k = "random_var_w" then .num app.randomVarW
  else .blank

/-- `core.py:1250-1263`: the columns of one attribute.  Every appliance has all the attributes (they are set by the constructor), so
the branches of lines 1266-1286 on missing attributes are dead. -/
def saveAttr (app : Appliance) (k : String) : Except Err Row :=
  if contains "window_" k || contains "cw" k then
    let w := windowAttr app k
    .ok [(k ++ "_start", .num w.1), (k ++ "_end", .num w.2)]
  else if k = "power" then match savePower app.power with
    | .error e => .error e
    | .ok c => .ok [(k, c)]
  else .ok [(k, plainAttr app k)]

/-- `core.py:1249-1286`: the loop over the attributes. -/
def saveAttrs (app : Appliance) : List String → Except Err Row
  | [] => .ok []
  | k :: ks => match saveAttr app k with
    | .error e => .error e
    | .ok r => match saveAttrs app ks with
      | .error e => .error e
      | .ok rs => .ok (r ++ rs)

/-- `core.py:1238-1287` `Appliance.save`: the row of the appliance; the first three columns describe its user. -/
def saveAppliance (u : User) (app : Appliance) : Except Err Row := match saveAttrs app applianceAttributes with
  | .error e => .error e
  | .ok r => .ok ([("user_name", .text u.userName), ("num_users", .num u.numUsers), ("user_preference", .num u.userPreference)] ++ r)

/-- `core.py:857`: the rows of a list of appliances. -/
def saveAppliances (u : User) : List Appliance → Except Err Table
  | [] => .ok []
  | a :: as => match saveAppliance u a with
    | .error e => .error e
    | .ok r => match saveAppliances u as with
      | .error e => .error e
      | .ok rs => .ok (r :: rs)

/-- `core.py:826-864` `User.save()`: `pd.concat` of nothing raises `ValueError`, which is turned into `Exception`. -/
def saveUser (u : User) : Except Err Table :=
  if u.appList = [] then .error .exception else match saveAppliances u u.appList with
    | .error .valueError => .error .exception
    | r => r

/-- `core.py:543`: the tables of the users. -/
def saveUsers : List User → Except Err Table
  | [] => .ok []
  | u :: us => match saveUser u with
    | .error e => .error e
    | .ok t => match saveUsers us with
      | .error e => .error e
      | .ok ts => .ok (t ++ ts)

/-- `core.py:521-547` `UseCase.save()`; `pd.concat` of nothing raises `ValueError`. -/
def saveUseCase (uc : UseCase) : Except Err Table :=
  if uc.users.length = 0 then .error .valueError else saveUsers uc.users

/-- What a sheet holds after `DataFrame.to_excel` (`core.py:545`) and openpyxl reads back: an empty text is an empty cell. -/
def writeCell : Cell → Cell
  | .text s => if s = "" then .blank else .text s
  | c => c

/-- `core.py:545`: the sheet written by `save(filename)`. -/
def toExcel (t : Table) : Table := t.map (fun r => r.map (fun p => (p.1, writeCell p.2)))

/-! ## Reading -/

/-- `utils.py:33-88`: the power of one line.  A text that is neither a reference nor a JSON array raises `ValueError`. -/
def readPower : Cell → Except Err Cell
  | .range [c] => if c.length ≠ 366 then .error .valueError else .ok (.array c)
  | .range [c, d] => if c.length ≠ 366 then .error .valueError else .ok (.pairs (c.zip d))
  | .range _ => .error .valueError
  | .array l => if l.length ≠ 366 then .error .valueError else .ok (.array l)
  | .pairs l => if l.length ≠ 366 then .error .valueError else .ok (.pairs l)
  | .text _ => .error .valueError
  | c => .ok c

/-- Assign a cell of a row. [`utils.py:87-88`] -/
def setCell (r : Row) (k : String) (c : Cell) : Row := r.map (fun p => if p.1 = k then (p.1, c) else p)

/-- `utils.py:21-89` `read_input_file`, from the sheet on.  The column `p_series` it adds is read by nobody. -/
def readInput : Table → Except Err Table
  | [] => .ok []
  | r :: t => match r.lookup "power" with
    | none => .error .keyError
    | some c => match readPower c with
      | .error e => .error e
      | .ok c => match readInput t with
        | .error e => .error e
        | .ok t => .ok (setCell r "power" c :: t)

/-! ## Loading -/

/-- `pd.Series.unique()`: order of first appearance. [`core.py:584-593`] -/
def unique (l : List Cell) : List Cell := l.foldl (fun acc c => if c ∈ acc then acc else acc ++ [c]) []

/-- `row.get(k, np.NaN)`. [`core.py:617-618`, `core.py:624`] -/
def rowGet (r : Row) (k : String) : Cell := (r.lookup k).getD .blank

/-- `np.isnan`: `TypeError` for a text. [`core.py:619-625`] -/
def isNan : Cell → Except Err Bool
  | .blank => .ok true
  | .num _ => .ok false
  | _ => .error .typeError

/-- The value of a keyword argument: a cell or an array of two integers. [`core.py:612-641`] -/
inductive Val
  | cell (c : Cell)
  | pair (a b : ℤ)

/-- The keyword arguments of a call. [`core.py:609-643`] -/
abbrev Kwargs := List (String × Val)

/-- Conversion to `np.intc`: truncation. [`core.py:620-622`] -/
def cellTrunc : Cell → ℤ
  | .num q => pyInt q
  | _ => 0

/-- `core.py:617-622` and `633-639`: a window is passed when both ends are given. -/
def boundsKwarg (r : Row) (k : String) : Except Err Kwargs := match isNan (rowGet r (k ++ "_start")) with
  | .error e => .error e
  | .ok true => .ok []
  | .ok false => match isNan (rowGet r (k ++ "_end")) with
    | .error e => .error e
    | .ok true => .ok []
    | .ok false => .ok [(k, .pair (cellTrunc (rowGet r (k ++ "_start"))) (cellTrunc (rowGet r (k ++ "_end"))))]

/-- `core.py:624-626` and `640-643`: a value is passed when it is given. -/
def valueKwarg (r : Row) (k : String) : Except Err Kwargs := match isNan (rowGet r k) with
  | .error e => .error e
  | .ok true => .ok []
  | .ok false => .ok [(k, .cell (rowGet r k))]

/-- `core.py:615-641`: the loops over the window and duty cycle parameters; `word` is the text that tells a window. -/
def paramKwargs (r : Row) (word : String) : List String → Except Err Kwargs
  | [] => .ok []
  | k :: ks => match (if contains word k then boundsKwarg r k else valueKwarg r k) with
    | .error e => .error e
    | .ok l => match paramKwargs r word ks with
      | .error e => .error e
      | .ok ls => .ok (l ++ ls)

/-- `core.py:609-612`: the constructor arguments that have a column. -/
def argKwargs (r : Row) : Kwargs := applianceArgs.filterMap (fun k => (r.lookup k).map (fun c => (k, Val.cell c)))

/-- `core.py:609-641`: the keyword arguments made from one line. -/
def rowKwargs (r : Row) : Except Err Kwargs := match paramKwargs r "window" windowsParameters with
  | .error e => .error e
  | .ok w => match paramKwargs r "cw" dutyCycleParameters.flatten with
    | .error e => .error e
    | .ok c => .ok (argKwargs r ++ w ++ c)

/-- An integer argument. [`core.py:1059-1077`, called at `core.py:788`] -/
def kwInt (kw : Kwargs) (k : String) (d : ℤ) : Except Err ℤ := match kw.lookup k with
  | none => .ok d
  | some (.cell (.num q)) => if q.den = 1 then .ok q.num else .error .typeError
  | some _ => .error .typeError

/-- A number argument. [`core.py:1059-1077`, called at `core.py:788`] -/
def kwRat (kw : Kwargs) (k : String) (d : ℚ) : Except Err ℚ := match kw.lookup k with
  | none => .ok d
  | some (.cell (.num q)) => .ok q
  | some _ => .error .typeError

/-- A text argument. [`core.py:1059-1077`, called at `core.py:788`] -/
def kwText (kw : Kwargs) (k : String) (d : String) : Except Err String := match kw.lookup k with
  | none => .ok d
  | some (.cell (.text s)) => .ok s
  | some _ => .error .typeError

/-- A window argument. [`core.py:1339-1345`, called at `core.py:791`] -/
def kwPair (kw : Kwargs) (k : String) : Except Err (Option (ℤ × ℤ)) := match kw.lookup k with
  | none => .ok none
  | some (.pair a b) => .ok (some (a, b))
  | some _ => .error .typeError

/-- The argument `power` (`core.py:1167-1180`): the first column of a JSON table is used. -/
def kwPower (kw : Kwargs) : PowerArg := match kw.lookup "power" with
  | none => .number 0
  | some (.cell (.num q)) => .number q
  | some (.cell (.array l)) => .series l
  | some (.cell (.pairs l)) => .series (l.map (fun p => p.1))
  | some _ => .other

/-- The keyword arguments of the constructor, with their defaults (`core.py:1059-1077`). -/
def kwAppArgs (kw : Kwargs) : Except Err AppArgs := do
  let number ← kwInt kw "number" 1
  let numWindows ← kwInt kw "num_windows" 1
  let funcTime ← kwInt kw "func_time" 0
  let tfrv ← kwRat kw "time_fraction_random_variability" 0
  let funcCycle ← kwInt kw "func_cycle" 1
  let fixed ← kwText kw "fixed" "no"
  let fixedCycle ← kwInt kw "fixed_cycle" 0
  let cdc ← kwInt kw "continuous_duty_cycle" 1
  let occasionalUse ← kwRat kw "occasional_use" 1
  let flat ← kwText kw "flat" "no"
  let thermalPVar ← kwRat kw "thermal_p_var" 0
  let prefIndex ← kwInt kw "pref_index" 0
  let wdWeType ← kwInt kw "wd_we_type" 2
  let name ← kwText kw "name" ""
  pure { number := number, power := kwPower kw, numWindows := numWindows, funcTime := funcTime,
         timeFractionRandomVariability := tfrv, funcCycle := funcCycle, fixed := fixed, fixedCycle := fixedCycle,
         continuousDutyCycle := cdc, occasionalUse := occasionalUse, flat := flat, thermalPVar := thermalPVar,
         prefIndex := prefIndex, wdWeType := wdWeType, name := name }

/-- `core.py:772-776`: the window arguments, if any. -/
def kwWindows (kw : Kwargs) : Except Err (Option WindowsArgs) :=
  if windowsParameters.any (fun k => (kw.lookup k).isSome) then do
    let w1 ← kwPair kw "window_1"
    let w2 ← kwPair kw "window_2"
    let w3 ← kwPair kw "window_3"
    let rv ← kwRat kw "random_var_w" 0
    pure (some { window1 := w1, window2 := w2, randomVarW := rv, window3 := w3 })
  else pure none

/-- `core.py:778-786`: the arguments of one duty cycle, if any; `names` are the names of its parameters in the order of
`DUTY_CYCLE_PARAMETERS`. -/
def kwCycle (kw : Kwargs) (names : List String) : Except Err (Option CycleArgs) := match names with
  | [p1, t1, cwa, p2, t2, cwb, rc] =>
    if names.any (fun k => (kw.lookup k).isSome) then do
      let vp1 ← kwRat kw p1 0
      let vt1 ← kwInt kw t1 0
      let va ← kwPair kw cwa
      let vp2 ← kwRat kw p2 0
      let vt2 ← kwInt kw t2 0
      let vb ← kwPair kw cwb
      let vr ← kwRat kw rc 0
      pure (some { p1 := vp1, t1 := vt1, p2 := vp2, t2 := vt2, rc := vr, cwa := va, cwb := vb })
    else pure none
  | _ => pure none

/-- `core.py:772-793`: the arguments of `add_appliance` sorted by the method they are for. -/
def kwAddArgs (kw : Kwargs) : Except Err AddArgs := do
  let app ← kwAppArgs kw
  let w ← kwWindows kw
  let c1 ← kwCycle kw ["p_11", "t_11", "cw11", "p_12", "t_12", "cw12", "r_c1"]
  let c2 ← kwCycle kw ["p_21", "t_21", "cw21", "p_22", "t_22", "cw22", "r_c2"]
  let c3 ← kwCycle kw ["p_31", "t_31", "cw31", "p_32", "t_32", "cw32", "r_c3"]
  pure { app := app, windows := w, cycle1 := c1, cycle2 := c2, cycle3 := c3 }

/-- The arguments of the call of `add_appliance` for one line (`core.py:609-643`). -/
def rowArgs (r : Row) : Except Err AddArgs := match rowKwargs r with
  | .error e => .error e
  | .ok kw => kwAddArgs kw

/-- `core.py:604-643`: the lines of one user, in order; `k` numbers the new objects. -/
def loadRows (strict : Bool) (numDays : ℤ) : ℕ → User → Table → User × Except Err Unit
  | _, u, [] => (u, .ok ())
  | k, u, r :: t => match rowArgs r with
    | .error e => (u, .error e)
    | .ok a => match addAppliance strict k numDays u a with
      | (u, .error e) => (u, .error e)
      | (u, .ok _) => loadRows strict numDays (k + 1) u t

/-- `df.loc[df.user_name == user_name]`: an empty cell (`NaN`) equals nothing. [`core.py:585`] -/
def userRows (df : Table) (name : Cell) : Table := df.filter (fun r => name ≠ .blank ∧ rowGet r "user_name" = name)

/-- The value of a column that must be the same for all lines of a user (`core.py:586-599`). -/
def sameValue (rows : Table) (k : String) : Except Err Cell := match unique (rows.map (fun r => rowGet r k)) with
  | [c] => .ok c
  | _ => .error .valueError

/-- A cell used as a count. [`core.py:602`] -/
def cellInt : Cell → Except Err ℤ
  | .num q => if q.den = 1 then .ok q.num else .error .typeError
  | _ => .error .typeError

/-- A cell used as a name. [`core.py:602`] -/
def cellText : Cell → Except Err String
  | .text s => .ok s
  | _ => .error .typeError

/-- The number of days that `User.num_days` finds in the use case (`core.py:818-824`). -/
def UseCase.userDays (uc : UseCase) : ℤ := userNumDays (if uc.isInitialized then uc.numDays else none)

/-- `core.py:585-602`: the new user of a name. -/
def loadUserHead (df : Table) (name : Cell) : Except Err User := do
  let n ← sameValue (userRows df name) "num_users"
  let p ← sameValue (userRows df name) "user_preference"
  let s ← cellText name
  let n ← cellInt n
  let p ← cellInt p
  pure { userName := s, numUsers := n, userPreference := p }

/-- `core.py:584-643`: the loop over the user names. -/
def loadUsers (strict : Bool) (df : Table) : List Cell → UseCase → UseCase × Except Err Unit
  | [], uc => (uc, .ok ())
  | name :: names, uc => match loadUserHead df name with
    | .error e => (uc, .error e)
    | .ok u => match loadRows strict uc.userDays 0 u (userRows df name) with
      | (u, .error e) => ({ uc with users := uc.users ++ [u] }, .error e)
      | (u, .ok ()) => loadUsers strict df names { uc with users := uc.users ++ [u] }

/-- `core.py:584-645`: `load` on a table that has been read. -/
def loadTable (strict : Bool) (uc : UseCase) (df : Table) : UseCase × Except Err Unit :=
  match loadUsers strict df (unique (df.map (fun r => rowGet r "user_name"))) uc with
  | (uc, .error e) => (uc, .error e)
  | (uc, .ok ()) => (collectAppliances uc, .ok ())

/-- `core.py:559-645` `UseCase.load(filename)`; the argument is the first sheet of the file. -/
def loadUseCase (strict : Bool) (uc : UseCase) (sheet : Table) : UseCase × Except Err Unit := match readInput sheet with
  | .error e => (uc, .error e)
  | .ok df => loadTable strict uc df

end Ramp
