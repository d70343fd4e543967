import Verif.Model.Appliance

/-! # Model of the construction API and of the class `User` of `ramp/core/core.py`

Object identity: every `Appliance` object carries a number `oid`; the objects of a user's `App_list` are stored by value and
a mutation of an object is propagated to the list by `User.sync`.  Simplification: an appliance belongs to one user.
The type annotations are taken at their word: windows are pairs of integers, `power` is a number, a data frame or a JSON
array. -/

set_option autoImplicit false

namespace Ramp

/-- The argument `power` of the constructor (`core.py:1167-1180`): a number, the first column of a data frame (or of the
decoded JSON string), or a value of another type. -/
inductive PowerArg
  | number (p : ℚ)
  | series (vals : List ℚ)
  | other

/-- The arguments of `Appliance.__init__` (`core.py:1059-1077`) with their defaults. -/
structure AppArgs where
  number : ℤ := 1
  power : PowerArg := .number 0
  numWindows : ℤ := 1
  funcTime : ℤ := 0
  timeFractionRandomVariability : ℚ := 0
  funcCycle : ℤ := 1
  fixed : String := "no"
  fixedCycle : ℤ := 0
  continuousDutyCycle : ℤ := 1
  occasionalUse : ℚ := 1
  flat : String := "no"
  thermalPVar : ℚ := 0
  prefIndex : ℤ := 0
  wdWeType : ℤ := 2
  name : String := ""

/-- `core.py:1141-1224` `Appliance.__init__`.  `numDays` is `self.user.num_days`.  The warning about `func_time == 0` is not
modelled. -/
def mkAppliance (oid : ℕ) (numDays : ℤ) (a : AppArgs) : Except Err Appliance :=
  let base : Appliance :=
    { oid := oid, name := a.name, number := a.number, numWindows := a.numWindows, funcTime := a.funcTime,
      timeFractionRandomVariability := a.timeFractionRandomVariability, funcCycle := a.funcCycle, fixed := a.fixed,
      fixedCycle := a.fixedCycle, continuousDutyCycle := a.continuousDutyCycle, occasionalUse := a.occasionalUse,
      flat := a.flat, thermalPVar := a.thermalPVar, prefIndex := a.prefIndex, wdWeType := a.wdWeType }
  match a.power with
  | .series vals => .ok { base with power := vals }
  | .number p => match onesTimes (numDays + 1) p with
    | .ok l => .ok { base with power := l, constantPower := true }
    | .error e => .error e
  | .other => .error .valueError

/-- The arguments of `Appliance.windows` (`core.py:1339-1345`). -/
structure WindowsArgs where
  window1 : Option (ℤ × ℤ) := none
  window2 : Option (ℤ × ℤ) := none
  randomVarW : ℚ := 0
  window3 : Option (ℤ × ℤ) := none

/-- `np.diff(w)[0]`. [`core.py:1415`, `core.py:1424-1441`] -/
def winLen (w : ℤ × ℤ) : ℤ := w.2 - w.1

/-- `core.py:1413-1415`: total time of the declared windows.  A declared window beyond the third has no attribute. -/
def windowTime (app : Appliance) : Except Err ℤ :=
  if app.numWindows > 3 then .error .attributeError
  else .ok ((if app.numWindows ≥ 1 then winLen app.window1 else 0) + (if app.numWindows ≥ 2 then winLen app.window2 else 0)
    + (if app.numWindows ≥ 3 then winLen app.window3 else 0))

/-- `core.py:1387-1441` `windows`, up to the registration: the appliance after the call (its attributes are changed even when
an exception is raised) and the outcome. -/
def windowsBody (app : Appliance) (w : WindowsArgs) : Appliance × Except Err Unit :=
  let app := { app with window1 := w.window1.getD (0, 1440) }
  if w.window2 = none ∧ app.numWindows ≥ 2 then (app, .error .invalidWindow)
  else
    let app := { app with window2 := w.window2.getD app.window2 }
    if w.window3 = none ∧ app.numWindows = 3 then (app, .error .invalidWindow)
    else
      let app := { app with window3 := w.window3.getD app.window3 }
      match windowTime app with
      | .error e => (app, .error e)
      | .ok total =>
        if total < app.funcTime then (app, .error .invalidWindow)
        else
          let app := { app with randomVarW := w.randomVarW, dailyUse := zeros }
          match fillSlice app.dailyUse app.window1.1 app.window1.2 (winLen app.window1) (1 / 1000) with
          | .error e => (app, .error e)
          | .ok d =>
            let app := { app with dailyUse := d }
            match fillSlice app.dailyUse app.window2.1 app.window2.2 (winLen app.window2) (1 / 1000) with
            | .error e => (app, .error e)
            | .ok d =>
              let app := { app with dailyUse := d }
              match fillSlice app.dailyUse app.window3.1 app.window3.2 (winLen app.window3) (1 / 1000) with
              | .error e => (app, .error e)
              | .ok d =>
                ({ app with
                    dailyUse := d
                    randomVar1 := pyInt (w.randomVarW * winLen app.window1)
                    randomVar2 := pyInt (w.randomVarW * winLen app.window2)
                    randomVar3 := pyInt (w.randomVarW * winLen app.window3) }, .ok ())

/-- `core.py:1446-1448`: the end of `windows`. -/
def windowsTail (app : Appliance) : Appliance :=
  if app.fixedCycle = 1 then { app with cw11 := app.window1, cw12 := app.window2 } else app

/-- The arguments of `specific_cycle_1..3` (`core.py:1625-1627`). -/
structure CycleArgs where
  p1 : ℚ := 0
  t1 : ℤ := 0
  p2 : ℚ := 0
  t2 : ℤ := 0
  rc : ℚ := 0
  cwa : Option (ℤ × ℤ) := none
  cwb : Option (ℤ × ℤ) := none

/-- `np.concatenate((np.ones(t1) * p1, np.ones(t2) * p2))` of lines 1663-1665, whose value is not used: only its exception
matters. [`core.py:1662-1665`] -/
def fixedCycleCheck (c : CycleArgs) : Except Err Unit :=
  match onesTimes c.t1 c.p1 with
  | .error e => .error e
  | .ok _ => match onesTimes c.t2 c.p2 with
    | .error e => .error e
    | .ok _ => .ok ()

/-- `core.py:1625-1665` `specific_cycle_1`. -/
def specificCycle1 (app : Appliance) (c : CycleArgs) : Appliance × Except Err Unit :=
  ({ app with
      p11 := c.p1, t11 := c.t1, p12 := c.p2, t12 := c.t2, rc1 := c.rc,
      cw11 := c.cwa.getD app.cw11, cw12 := c.cwb.getD app.cw12 }, fixedCycleCheck c)

/-- `core.py:1667-1707` `specific_cycle_2`. -/
def specificCycle2 (app : Appliance) (c : CycleArgs) : Appliance × Except Err Unit :=
  ({ app with
      p21 := c.p1, t21 := c.t1, p22 := c.p2, t22 := c.t2, rc2 := c.rc,
      cw21 := c.cwa.getD app.cw21, cw22 := c.cwb.getD app.cw22 }, fixedCycleCheck c)

/-- `core.py:1709-1749` `specific_cycle_3`. -/
def specificCycle3 (app : Appliance) (c : CycleArgs) : Appliance × Except Err Unit :=
  ({ app with
      p31 := c.p1, t31 := c.t1, p32 := c.p2, t32 := c.t2, rc3 := c.rc,
      cw31 := c.cwa.getD app.cw31, cw32 := c.cwb.getD app.cw32 }, fixedCycleCheck c)

/-- `core.py:1600-1623` `specific_cycle`: an unknown cycle number does nothing. -/
def specificCycle (app : Appliance) (num : ℤ) (c : CycleArgs) : Appliance × Except Err Unit :=
  if num = 1 then specificCycle1 app c
  else if num = 2 then specificCycle2 app c
  else if num = 3 then specificCycle3 app c
  else (app, .ok ())

/-- `core.py:1752-1784` `cycle_behaviour`. -/
def cycleBehaviour (app : Appliance) (cw11 cw12 cw21 cw22 cw31 cw32 : ℤ × ℤ) : Appliance :=
  { app with cw11 := cw11, cw12 := cw12, cw21 := cw21, cw22 := cw22, cw31 := cw31, cw32 := cw32 }

/-- Comparison of two arrays of powers as used inside `Appliance.__eq__`: elementwise with broadcasting of an array of one
value; arrays that cannot be broadcast raise `ValueError` with numpy ≥ 1.25 (`strict`) and are unequal before. [`core.py:1307-1337`] -/
def powerEq (strict : Bool) (p q : List ℚ) : Except Err Bool :=
  if p.length = q.length then .ok (p == q)
  else if p.length = 1 then .ok (q.all (fun x => p.head? == some x))
  else if q.length = 1 then .ok (p.all (fun x => q.head? == some x))
  else if strict then .error .valueError else .ok false

/-- The saved attributes other than `power` (`constants.py:66-107` `APPLIANCE_ATTRIBUTES`), compared pairwise. -/
def attrEq (a b : Appliance) : Bool :=
  a.name == b.name && a.number == b.number && a.numWindows == b.numWindows && a.funcTime == b.funcTime
  && a.timeFractionRandomVariability == b.timeFractionRandomVariability && a.funcCycle == b.funcCycle
  && a.fixed == b.fixed && a.fixedCycle == b.fixedCycle && a.continuousDutyCycle == b.continuousDutyCycle
  && a.occasionalUse == b.occasionalUse && a.flat == b.flat && a.thermalPVar == b.thermalPVar
  && a.prefIndex == b.prefIndex && a.wdWeType == b.wdWeType
  && a.p11 == b.p11 && a.t11 == b.t11 && a.cw11 == b.cw11 && a.p12 == b.p12 && a.t12 == b.t12 && a.cw12 == b.cw12
  && a.rc1 == b.rc1
  && a.p21 == b.p21 && a.t21 == b.t21 && a.cw21 == b.cw21 && a.p22 == b.p22 && a.t22 == b.t22 && a.cw22 == b.cw22
  && a.rc2 == b.rc2
  && a.p31 == b.p31 && a.t31 == b.t31 && a.cw31 == b.cw31 && a.p32 == b.p32 && a.t32 == b.t32 && a.cw32 == b.cw32
  && a.rc3 == b.rc3
  && a.window1 == b.window1 && a.window2 == b.window2 && a.window3 == b.window3 && a.randomVarW == b.randomVarW

/-- `core.py:1307-1337` `Appliance.__eq__`.  Every appliance has all the attributes (they are set by the constructor), so the
branches on missing attributes are dead. -/
def appEq (strict : Bool) (a b : Appliance) : Except Err Bool :=
  match powerEq strict a.power b.power with
  | .error e => .error e
  | .ok p => .ok (attrEq a b && p)

/-- The attributes of a `User` instance (`core.py:668-676`) without `usecase`. -/
structure User where
  userName : String := ""
  numUsers : ℤ := 1
  userPreference : ℤ := 0
  randDailyPref : ℤ := 0
  load : Option Profile := none
  appList : List Appliance := []

/-- Propagate a mutation of the object `app` to the list that holds it. [Python references, `core.py:705`] -/
def User.sync (u : User) (app : Appliance) : User :=
  { u with appList := u.appList.map (fun a => if a.oid = app.oid then app else a) }

/-- `app in self.App_list` (`core.py:702`): Python's list membership tests identity, then `==`, from the first element on. -/
def memApps (strict : Bool) (app : Appliance) : List Appliance → Except Err Bool
  | [] => .ok false
  | a :: as =>
    if a.oid = app.oid then .ok true
    else match appEq strict app a with
      | .error e => .error e
      | .ok true => .ok true
      | .ok false => memApps strict app as

/-- `core.py:694-705` `_add_appliance_instance` for one appliance: the user and the appliance afterwards. -/
def addInstance (strict : Bool) (u : User) (app : Appliance) : Except Err (User × Appliance) :=
  match memApps strict app u.appList with
  | .error e => .error e
  | .ok true => .ok (u, app)
  | .ok false =>
    let app := if app.name = "" then { app with name := s!"appliance_{u.appList.length + 1}" } else app
    .ok ({ u with appList := u.appList ++ [app] }, app)

/-- An argument of `add_appliance(a, b, ...)`: an appliance or something else. [`core.py:694-701`] -/
inductive InstArg
  | app (a : Appliance)
  | other

/-- `core.py:694-705` `_add_appliance_instance` for a sequence: the user afterwards and the outcome. -/
def addInstances (strict : Bool) : User → List InstArg → User × Except Err Unit
  | u, [] => (u, .ok ())
  | u, .other :: _ => (u, .error .typeError)
  | u, .app a :: rest => match addInstance strict u a with
    | .error e => (u, .error e)
    | .ok (u', _) => addInstances strict u' rest

/-- `core.py:1339-1448` `windows` of an appliance of user `u`: user and appliance afterwards, and the outcome. -/
def windows (strict : Bool) (u : User) (app : Appliance) (w : WindowsArgs) : User × Appliance × Except Err Unit :=
  match windowsBody app w with
  | (app, .error e) => (u.sync app, app, .error e)
  | (app, .ok ()) =>
    let u := u.sync app
    match addInstance strict u app with
    | .error e => (u, app, .error e)
    | .ok (u, app) =>
      let app := windowsTail app
      (u.sync app, app, .ok ())

/-- `specific_cycle` of an appliance that may already be in the list of user `u`. [`core.py:1600-1623`, called at `core.py:793`] -/
def userCycle (u : User) (app : Appliance) (num : ℤ) (c : CycleArgs) : User × Appliance × Except Err Unit :=
  let r := specificCycle app num c
  (u.sync r.1, r.1, r.2)

/-- The keyword arguments of `add_appliance` (`core.py:707-797`): constructor arguments, window arguments if any, and the
arguments of each duty cycle if any. -/
structure AddArgs where
  app : AppArgs := {}
  windows : Option WindowsArgs := none
  cycle1 : Option CycleArgs := none
  cycle2 : Option CycleArgs := none
  cycle3 : Option CycleArgs := none

/-- `core.py:792-793`: the duty cycle calls of `add_appliance`, in order, stopping at the first exception. -/
def addCycles (u : User) (app : Appliance) : List (ℤ × CycleArgs) → User × Appliance × Except Err Unit
  | [] => (u, app, .ok ())
  | (i, c) :: rest => match userCycle u app i c with
    | (u, app, .error e) => (u, app, .error e)
    | (u, app, .ok ()) => addCycles u app rest

/-- The duty cycle calls requested by the arguments (`core.py:778-786`). -/
def AddArgs.cycles (a : AddArgs) : List (ℤ × CycleArgs) :=
  (match a.cycle1 with | some c => [((1 : ℤ), c)] | none => []) ++
  (match a.cycle2 with | some c => [((2 : ℤ), c)] | none => []) ++
  (match a.cycle3 with | some c => [((3 : ℤ), c)] | none => [])

/-- `core.py:707-797` `add_appliance` called with keyword arguments: the user afterwards and the returned appliance or the
exception.  `oid` is the identity of the new object, `numDays` is `User.num_days`. -/
def addAppliance (strict : Bool) (oid : ℕ) (numDays : ℤ) (u : User) (a : AddArgs) : User × Except Err Appliance :=
  match mkAppliance oid numDays a.app with
  | .error e => (u, .error e)
  | .ok app =>
    match (match a.windows with
        | none => (u, app, .ok ())
        | some w => windows strict u app w : User × Appliance × Except Err Unit) with
    | (u, _, .error e) => (u, .error e)
    | (u, app, .ok ()) =>
      match addCycles u app a.cycles with
      | (u, _, .error e) => (u, .error e)
      | (u, app, .ok ()) =>
        match addInstance strict u app with
        | .error e => (u, .error e)
        | .ok (u, app) => (u, .ok app)

/-- The arguments of the legacy method `User.Appliance` (`core.py:926-942`). -/
structure LegacyArgs where
  number : ℤ := 1
  power : PowerArg := .number 0
  numWindows : ℤ := 1
  funcTime : ℤ := 0
  timeFractionRandomVariability : ℚ := 0
  funcCycle : ℤ := 1
  fixed : String := "no"
  fixedCycle : ℤ := 0
  occasionalUse : ℚ := 1
  flat : String := "no"
  thermalPVar : ℚ := 0
  prefIndex : ℤ := 0
  wdWeType : ℤ := 2
  name : String := ""

/-- `core.py:926-970` the legacy method `User.Appliance`. -/
def legacyAppliance (strict : Bool) (oid : ℕ) (numDays : ℤ) (u : User) (a : LegacyArgs) : User × Except Err Appliance :=
  addAppliance strict oid numDays u
    { app := { number := a.number, power := a.power, numWindows := a.numWindows, funcTime := a.funcTime,
               timeFractionRandomVariability := a.timeFractionRandomVariability, funcCycle := a.funcCycle,
               fixed := a.fixed, fixedCycle := a.fixedCycle, occasionalUse := a.occasionalUse, flat := a.flat,
               thermalPVar := a.thermalPVar, prefIndex := a.prefIndex, wdWeType := a.wdWeType, name := a.name } }

/-- `core.py:1226-1236` `check_power_values`. -/
def checkPowerValues (app : Appliance) (numDays : ℤ) : Except Err Appliance :=
  if (app.power.length : ℤ) < numDays then
    if app.constantPower then
      match app.power.head? with
      | none => .error .indexError
      | some p => match onesTimes (numDays + 1) p with
        | .error e => .error e
        | .ok l => .ok { app with power := l }
    else .error .valueError
  else .ok app

/-- `np.mean` of an array of powers.  Simplification: the mean of an empty array is `nan` in numpy and 0 here. [`core.py:1598`] -/
def mean (l : List ℚ) : ℚ := l.sum / l.length

/-- `core.py:1588-1598` `Appliance.maximum_profile`. -/
def Appliance.maximumProfile (app : Appliance) : Profile := fun i => app.dailyUse i * mean app.power * app.number

/-- `core.py:800-816` `User.maximum_profile`. -/
def User.maximumProfile (u : User) : Profile :=
  fun i => (u.appList.map (fun a => a.maximumProfile i)).sum * u.numUsers

/-- `core.py:819-824` `User.num_days`; the argument is `usecase.num_days` when the user has an initialised use case. -/
def userNumDays (usecaseDays : Option ℤ) : ℤ := usecaseDays.getD 366

/-- A truth value of Python (`True`/`False`) or of numpy (`np.True_`/`np.False_`). [`core.py:881`] -/
inductive PyBool
  | py (b : Bool)
  | np (b : Bool)

/-- `x is True`: only the Python singleton passes. [`core.py:881`] -/
def PyBool.isTrue : PyBool → Bool
  | .py b => b
  | .np _ => false

/-- `bool(x)`. [`core.py:905`] -/
def PyBool.truth : PyBool → Bool
  | .py b => b
  | .np b => b

/-- `core.py:883-898`: the pairwise comparison of the appliances inside `User.__eq__`. -/
def appsEq (strict : Bool) : List Appliance → List Appliance → Except Err Bool
  | a :: as, b :: bs => match appEq strict a b with
    | .error e => .error e
    | .ok x => match appsEq strict as bs with
      | .error e => .error e
      | .ok y => .ok (x && y)
  | _, _ => .ok true

/-- `core.py:866-905` `User.__eq__`.  `np.append` (lines 875, 880) returns a new array and does not change its argument; the code
drops the result, so `answer` is still the empty array at line 881, where `answer.all()` is a numpy truth value. -/
def userEq (strict : Bool) (u v : User) : Except Err Bool :=
  let answer : List Bool := []
  -- lines 873-880: three calls of `np.append` whose results are dropped
  let _ := answer ++ [u.userName == v.userName]
  let _ := answer ++ [u.numUsers == v.numUsers]
  let _ := answer ++ [u.userPreference == v.userPreference]
  let answer : PyBool := .np (answer.all id)
  if answer.isTrue then
    if u.appList.length = v.appList.length then appsEq strict u.appList v.appList
    else .ok false
  else .ok answer.truth

/-- `core.py:1010-1020`: the loop of `generate_single_load_profile` over the appliances. -/
def singleLoop (depth : ℕ) (profI : ℕ) (peak : List ℤ) (dayType : ℤ) (pref : ℤ) :
    List Appliance → Profile → Sim (List Appliance × Profile)
  | [], load => pure ([], load)
  | app :: rest, load =>
    match app.power[profI]? with
    | none => raise .indexError
    | some p => do
      let app ← generateLoadProfile app depth pref profI peak dayType p
      let (rest, load) ← singleLoop depth profI peak dayType pref rest (fun i => load i + app.dailyUse i)
      pure (app :: rest, load)

/-- `core.py:1006-1008`: the preference of the day of one member. -/
def drawPreference (userPreference : ℤ) : Sim ℤ :=
  if userPreference = 0 then pure 0 else randint 1 userPreference

/-- `core.py:972-1020` `generate_single_load_profile` with an explicit peak time range. -/
def generateSingleLoadProfile (depth : ℕ) (u : User) (profI : ℕ) (peak : List ℤ) (dayType : ℤ) : Sim (User × Profile) := do
  let pref ← drawPreference u.userPreference
  let u := { u with randDailyPref := pref }
  let (apps, load) ← singleLoop depth profI peak dayType u.randDailyPref u.appList zeros
  pure ({ u with appList := apps }, load)

/-- `core.py:1049-1053`: the loop of `generate_aggregated_load_profile` over the members. -/
def aggregatedLoop (depth : ℕ) (profI : ℕ) (peak : List ℤ) (dayType : ℤ) : ℕ → User → Profile → Sim (User × Profile)
  | 0, u, load => pure (u, load)
  | n + 1, u, load => do
    let (u, single) ← generateSingleLoadProfile depth u profI peak dayType
    aggregatedLoop depth profI peak dayType n u (fun i => load i + single i)

/-- `core.py:1022-1055` `generate_aggregated_load_profile`; `range(num_users)` is empty for `num_users ≤ 0`. -/
def generateAggregatedLoadProfile (depth : ℕ) (u : User) (profI : ℕ) (peak : List ℤ) (dayType : ℤ) :
    Sim (User × Profile) := do
  let (u, load) ← aggregatedLoop depth profI peak dayType u.numUsers.toNat u zeros
  pure ({ u with load := some load }, load)

end Ramp
