import Verif.Model.Utils

/-! # Model of the class `Appliance` of `ramp/core/core.py` (lines 1058-2074)

Simplifications: time quantities and counts (`number`, `func_time`, `func_cycle`, windows, `t_ij`, ...) are integers and
powers/fractions are exact rationals; printing and warnings are not modelled; the attributes `fixed_cycle1..3`, which the
code itself marks as unused (lines 1662-1665), are only modelled through the error their computation can raise. -/

set_option autoImplicit false

namespace Ramp

/-- A free range `slice(start, stop, None)` of minutes. [`core.py:2034-2036`, `core.py:1508-1535`] -/
structure Spot where
  start : ℤ
  stop : ℤ
  deriving DecidableEq, Repr

/-- The attributes of an `Appliance` instance (`core.py:1141-1224`).  `oid` stands for the identity of the Python object.
`constantPower` is the private attribute `__constant_power`. -/
structure Appliance where
  oid : ℕ := 0
  name : String := ""
  number : ℤ := 1
  power : List ℚ := []
  constantPower : Bool := false
  numWindows : ℤ := 1
  funcTime : ℤ := 0
  timeFractionRandomVariability : ℚ := 0
  funcCycle : ℤ := 1
  fixed : String := "no"
  fixedCycle : ℤ := 0
  continuousDutyCycle : ℤ := 1
  occasionalUse : ℚ := 1
  flat : String := "no"
  thermalPVar : ℚ := 0
  prefIndex : ℤ := 0
  wdWeType : ℤ := 2
  p11 : ℚ := 0
  t11 : ℤ := 0
  cw11 : ℤ × ℤ := (0, 0)
  p12 : ℚ := 0
  t12 : ℤ := 0
  cw12 : ℤ × ℤ := (0, 0)
  rc1 : ℚ := 0
  p21 : ℚ := 0
  t21 : ℤ := 0
  cw21 : ℤ × ℤ := (0, 0)
  p22 : ℚ := 0
  t22 : ℤ := 0
  cw22 : ℤ × ℤ := (0, 0)
  rc2 : ℚ := 0
  p31 : ℚ := 0
  t31 : ℤ := 0
  cw31 : ℤ × ℤ := (0, 0)
  p32 : ℚ := 0
  t32 : ℤ := 0
  cw32 : ℤ × ℤ := (0, 0)
  rc3 : ℚ := 0
  window1 : ℤ × ℤ := (0, 0)
  window2 : ℤ × ℤ := (0, 0)
  window3 : ℤ × ℤ := (0, 0)
  randomVarW : ℚ := 0
  randomVar1 : ℤ := 0
  randomVar2 : ℤ := 0
  randomVar3 : ℤ := 0
  dailyUse : Profile := zeros
  freeSpots : List Spot := []
  randomCycle1 : List ℚ := []
  randomCycle2 : List ℚ := []
  randomCycle3 : List ℚ := []
  currentDutyCycleId : ℤ := 0

/-- `core.py:1574-1586` `calc_rand_window` for one window, with the default limits `[0, 1440]`. -/
def calcRandWindow (window : ℤ × ℤ) (randomVar : ℤ) : Sim (ℤ × ℤ) := do
  let a ← randint (window.1 - randomVar) (window.1 + randomVar)
  let b ← randint (window.2 - randomVar) (window.2 + randomVar)
  let a := if a < 0 then 0 else a
  let b := if b > 1440 then 1440 else b
  pure (a, b)

/-- `core.py:1786-1818` `rand_total_time_of_use`. -/
def randTotalTimeOfUse (app : Appliance) (w1 w2 w3 : ℤ × ℤ) : Sim ℤ := do
  let randomVarT ← randomVariation app.timeFractionRandomVariability 1
  let x ← uniform app.funcTime (pyInt (app.funcTime * randomVarT))
  let randTime := pyRound x
  let randTime := if randTime < app.funcCycle then app.funcCycle else randTime
  let totalTime := (w1.2 - w1.1) + (w2.2 - w2.1) + (w3.2 - w3.1)
  let randTime := if (randTime : ℚ) > 99 / 100 * totalTime then pyInt (99 / 100 * totalTime) else randTime
  if randTime < app.funcCycle then raise .valueError
  else pure randTime

/-- `core.py:1450-1494` `assign_random_cycles`. -/
def assignRandomCycles (app : Appliance) : Sim Appliance :=
  if app.fixedCycle ≥ 1 then do
    let p11 ← randomVariation app.thermalPVar app.p11
    let p12 ← randomVariation app.thermalPVar app.p12
    let c1 ← dutyCycle app.rc1 app.t11 p11 app.t12 p12
    let app := { app with randomCycle1 := c1, randomCycle2 := c1, randomCycle3 := c1 }
    if app.fixedCycle ≥ 2 then do
      let p21 ← randomVariation app.thermalPVar app.p21
      let p22 ← randomVariation app.thermalPVar app.p22
      let c2 ← dutyCycle app.rc2 app.t21 p21 app.t22 p22
      let app := { app with randomCycle2 := c2 }
      if app.fixedCycle ≥ 3 then do
        let p31 ← randomVariation app.thermalPVar app.p31
        let p32 ← randomVariation app.thermalPVar app.p32
        let c1 ← randomChoice app.rc1 app.t11 p11 app.t12 p12
        let c2 ← randomChoice app.rc2 app.t21 p21 app.t22 p22
        let c3 ← randomChoice app.rc3 app.t31 p31 app.t32 p32
        pure { app with randomCycle1 := c1, randomCycle2 := c2, randomCycle3 := c3 }
      else pure app
    else pure app
  else pure app

/-- `core.py:1508-1535`: the list surgery of `update_available_time_for_switch_on_events` for an event whose first and
last minutes are `i0` and `i1`. -/
def bookSpots (spots : List Spot) (i0 i1 : ℤ) : List Spot :=
  match spots.findIdx? (fun fs => i0 ≥ fs.start && i1 ≤ fs.stop) with
  | none => spots
  | some idx =>
    match spots[idx]? with
    | none => spots
    | some s =>
      let rest := spots.eraseIdx idx
      if i0 = s.start ∧ i1 = s.stop then rest
      else if i0 = s.start then rest.insertIdx idx ⟨i1 + 1, s.stop⟩
      else if i1 = s.stop then rest.insertIdx idx ⟨s.start, i0⟩
      else
        let rest := rest.insertIdx idx ⟨i1 + 1, s.stop⟩
        rest.insertIdx idx ⟨s.start, i0⟩

/-- `core.py:1496-1535` `update_available_time_for_switch_on_events`: `indexes[0]` of an empty array raises `IndexError` as
soon as there is a free range to compare with. -/
def updateAvailableTime (spots : List Spot) (indexes : List ℤ) : Except Err (List Spot) :=
  if spots = [] then .ok []
  else match indexes.head?, indexes.getLast? with
    | some i0, some i1 => .ok (bookSpots spots i0 i1)
    | _, _ => .error .indexError

/-- `core.py:1548-1570`: the power values written by `update_daily_use`.  The message of lines 1560-1562 is not modelled. -/
def putEvent (app : Appliance) (coincidence : ℤ) (power : ℚ) (indexes : List ℤ) : Sim Appliance :=
  if app.fixedCycle > 0 then
    if app.currentDutyCycleId = 1 then do
      let d ← liftE (npPut app.dailyUse indexes (app.randomCycle1.map (· * (coincidence : ℚ))))
      pure { app with dailyUse := d }
    else if app.currentDutyCycleId = 2 then do
      let d ← liftE (npPut app.dailyUse indexes (app.randomCycle2.map (· * (coincidence : ℚ))))
      pure { app with dailyUse := d }
    else if app.currentDutyCycleId = 3 then do
      let d ← liftE (npPut app.dailyUse indexes (app.randomCycle3.map (· * (coincidence : ℚ))))
      pure { app with dailyUse := d }
    else pure app
  else do
    let v ← randomVariation app.thermalPVar (coincidence * power)
    let d ← liftE (npPut app.dailyUse indexes [v])
    pure { app with dailyUse := d }

/-- `core.py:1537-1572` `update_daily_use`. -/
def updateDailyUse (app : Appliance) (coincidence : ℤ) (power : ℚ) (indexes : List ℤ) : Sim Appliance := do
  let app ← putEvent app coincidence power indexes
  let spots ← liftE (updateAvailableTime app.freeSpots indexes)
  pure { app with freeSpots := spots }

/-- `core.py:1830-1835`: the possible switch-on minutes. -/
def switchOnChoices (spots : List Spot) (funcCycle : ℤ) : List ℤ :=
  spots.flatMap (fun s => if s.stop - s.start ≥ funcCycle then arange s.start (s.stop - funcCycle + 1) else [])

/-- `core.py:1868-1888`: selection of the duty cycle for an event from `lo` to `hi`. -/
def selectDutyCycle (app : Appliance) (lo hi : ℤ) : Option (ℤ × List ℚ) :=
  if rangeWithinWindow lo hi app.cw11 || rangeWithinWindow lo hi app.cw12 then some (1, app.randomCycle1)
  else if rangeWithinWindow lo hi app.cw21 || rangeWithinWindow lo hi app.cw22 then some (2, app.randomCycle2)
  else if rangeWithinWindow lo hi app.cw31 || rangeWithinWindow lo hi app.cw32 then some (3, app.randomCycle3)
  else none

/-- `core.py:1851-1866`: the minutes of an event starting at `switchOn`. -/
def drawIndexes (funcCycle largestDuration switchOn : ℤ) : Sim (List ℤ) :=
  if largestDuration > funcCycle then do
    let x ← uniform funcCycle largestDuration
    pure (arange switchOn (switchOn + pyInt x))
  else if largestDuration = funcCycle then
    pure (arange switchOn (switchOn + largestDuration))
  else raise .valueError

/-- Result of `rand_switch_on_window` when it is not `None`.  `indexes` is what the method returns (`core.py:1923`);
`drawn` is a ghost copy of `indexes` before the shortening of lines 1913-1918. -/
structure SwitchOn where
  drawn : List ℤ
  indexes : List ℤ
  deriving DecidableEq, Repr

/-- `core.py:1820-1923` `rand_switch_on_window`.  The first argument is the Python recursion depth still available: the
method calls itself (line 1911) when the event overlaps no duty cycle window.  `none` stands for `None`. -/
def randSwitchOnWindow : ℕ → Appliance → ℤ → Sim (Appliance × Option SwitchOn)
  | 0, _, _ => raise .recursionError
  | depth + 1, app, randTime =>
    let choices := switchOnChoices app.freeSpots app.funcCycle
    let n : ℤ := choices.length
    if n > 0 then do
      let k ← randint 0 (n - 1)
      match choices[k.toNat]? with
      | none => raise .indexError
      | some switchOn =>
        match app.freeSpots.find? (fun fs => fs.start ≤ switchOn && switchOn ≤ fs.stop - app.funcCycle) with
        | none => raise .typeError
        | some spot => do
          let largestDuration := min randTime (spot.stop - switchOn)
          let indexes ← drawIndexes app.funcCycle largestDuration switchOn
          if app.fixedCycle > 0 then
            match indexes.head?, indexes.getLast? with
            | some lo, some hi =>
              match selectDutyCycle app lo hi with
              | some (i, cycle) =>
                let app := { app with currentDutyCycleId := i }
                if indexes.length > cycle.length ∧ app.continuousDutyCycle = 0 then
                  pure (app, some ⟨indexes, indexes.take cycle.length⟩)
                else pure (app, some ⟨indexes, indexes⟩)
              | none => randSwitchOnWindow depth app randTime
            | _, _ => raise .indexError
          else pure (app, some ⟨indexes, indexes⟩)
    else pure (app, none)

/-- `np.max(np.where(prob >= np.arange(0, number) / number)) + 1`, with the `except ValueError` of line 1962
(`core.py:1959-1963`). -/
def onNumber (prob : ℚ) (number : ℤ) : ℤ :=
  match ((List.range number.toNat).filter (fun (i : ℕ) => prob ≥ (i : ℚ) / number)).getLast? with
  | some i => (i : ℤ) + 1
  | none => 1

/-- `core.py:1925-1969` `calc_coincident_switch_on`.  Line 1934 unpacks the parameters in another order than
`switch_on_parameters` returns them; the model follows the code. -/
def calcCoincidentSwitchOn (app : Appliance) (insidePeak : Bool) : Sim ℤ :=
  let sPeak := switchOnParameters.1
  let muPeak := switchOnParameters.2.1
  let opFactor := switchOnParameters.2.2
  if insidePeak = true ∧ app.fixed = "no" then do
    let x ← gauss (app.number * muPeak) (sPeak * app.number * muPeak)
    pure (min app.number (max 1 ⌈x⌉))
  else if insidePeak = false ∧ app.fixed = "no" then
    if app.number = 0 then raise .zeroDivisionError
    else do
      let prob ← uniform 0 ((app.number - opFactor) / app.number)
      pure (onNumber prob app.number)
  else pure app.number

/-- Ghost record of one call of `update_daily_use` (`core.py:2064`, `2074`): the minutes drawn by `rand_switch_on_window`, the
minutes booked, the number of appliances switched on together and the duty cycle selected. -/
structure Booking where
  drawn : List ℤ
  indexes : List ℤ
  coincidence : ℤ
  cycleId : ℤ
  deriving DecidableEq, Repr

/-- The end of an iteration of the loop, lines 2053-2064 and 2068-2074 of `core.py`: peak test, coincidence, booking. [`core.py:2053-2074`] -/
def bookEvent (app : Appliance) (peak : List ℤ) (power : ℚ) (indexes : List ℤ) : Sim (Appliance × ℤ) :=
  match indexes.head?, indexes.getLast?, peak.head?, peak.getLast? with
  | some i0, some i1, some q0, some q1 => do
    let inside := withinPeakTimeWindow i0 i1 q0 q1
    let c ← calcCoincidentSwitchOn app inside
    let app ← updateDailyUse app c power indexes
    pure (app, c)
  | _, _, _, _ => raise .indexError

/-- `core.py:2039-2074`: the while loop of `generate_load_profile`.  `fuel` bounds the number of iterations of the model;
`log` is the ghost list of bookings, latest first. -/
def switchOnLoop (depth : ℕ) (peak : List ℤ) (power : ℚ) (randTime : ℤ) :
    ℕ → Appliance → ℤ → List Booking → Sim (Appliance × List Booking)
  | 0, _, _, _ => raise .diverge
  | fuel + 1, app, totTime, log =>
    if totTime ≤ randTime ∧ randTime ≠ 0 then do
      let (app, event) ← randSwitchOnWindow depth app randTime
      match event with
      | none => pure (app, log)
      | some ⟨drawn, indexes⟩ =>
        let totTime := totTime + indexes.length
        if totTime > randTime then
          -- `indexes[: -(tot_time - rand_time)]`
          let adj := indexes.take (indexes.length - (totTime - randTime).toNat)
          if adj.length > 0 then do
            let (app, c) ← bookEvent app peak power adj
            pure (app, ⟨drawn, adj, c, app.currentDutyCycleId⟩ :: log)
          else pure (app, log)
        else do
          let (app, c) ← bookEvent app peak power indexes
          switchOnLoop depth peak power randTime fuel app totTime (⟨drawn, indexes, c, app.currentDutyCycleId⟩ :: log)
    else pure (app, log)

/-- `core.py:2015-2018` and `2024-2027`: fill the three randomised windows with a constant. -/
def fillWindows (w1 w2 w3 : ℤ × ℤ) (v : ℚ) : Except Err Profile := do
  let d ← fillSlice zeros w1.1 w1.2 (w1.2 - w1.1) v
  let d ← fillSlice d w2.1 w2.2 (w2.2 - w2.1) v
  fillSlice d w3.1 w3.2 (w3.2 - w3.1) v

/-- `core.py:2034-2036`: the initial free ranges. -/
def initialSpots (ws : List (ℤ × ℤ)) : List Spot :=
  (ws.filter (fun w => w.1 ≠ w.2)).map (fun w => ⟨w.1, w.2⟩)

/-- What a run of `generate_load_profile` used: the randomised windows and time of use, and the bookings in order.
[ghost record of `core.py:1971-2074`] -/
structure RunInfo where
  w1 : ℤ × ℤ
  w2 : ℤ × ℤ
  w3 : ℤ × ℤ
  randTime : ℤ
  bookings : List Booking

/-- `core.py:1971-2074` `generate_load_profile`, together with a ghost record of the run (`none` when the appliance is
skipped).  `randDailyPref` is `self.user.rand_daily_pref`; `depth` the available recursion depth. -/
def generateLoadProfileInfo (app : Appliance) (depth : ℕ) (randDailyPref : ℤ) (profI : ℕ) (peak : List ℤ)
    (dayType : ℤ) (power : ℚ) : Sim (Appliance × Option RunInfo) := do
  let app := { app with dailyUse := zeros }
  let x ← uniform 0 1
  if x > app.occasionalUse
      ∨ (app.prefIndex ≠ 0 ∧ randDailyPref ≠ app.prefIndex)
      ∨ ¬ (app.wdWeType = dayType ∨ app.wdWeType = 2)
      ∨ app.funcTime = 0 then
    pure (app, none)
  else do
    let w1 ← calcRandWindow app.window1 app.randomVar1
    let w2 ← calcRandWindow app.window2 app.randomVar2
    let w3 ← calcRandWindow app.window3 app.randomVar3
    let randTime ← randTotalTimeOfUse app w1 w2 w3
    if app.flat = "yes" then
      match app.power[profI]? with
      | none => raise .indexError
      | some pw => do
        let d ← liftE (fillWindows w1 w2 w3 (pw * app.number))
        pure ({ app with dailyUse := d }, some ⟨w1, w2, w3, randTime, []⟩)
    else do
      let d ← liftE (fillWindows w1 w2 w3 (1 / 1000))
      let app := { app with dailyUse := d }
      let app ← assignRandomCycles app
      let app := { app with freeSpots := initialSpots [w1, w2, w3] }
      let (app, log) ← switchOnLoop depth peak power randTime (randTime.toNat + 2) app 0 []
      pure (app, some ⟨w1, w2, w3, randTime, log.reverse⟩)

/-- `core.py:1971-2074` `generate_load_profile`: the appliance afterwards (its `daily_use` is the result). -/
def generateLoadProfile (app : Appliance) (depth : ℕ) (randDailyPref : ℤ) (profI : ℕ) (peak : List ℤ)
    (dayType : ℤ) (power : ℚ) : Sim Appliance := do
  let (app, _) ← generateLoadProfileInfo app depth randDailyPref profI peak dayType power
  pure app

end Ramp
