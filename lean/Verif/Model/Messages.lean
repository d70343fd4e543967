import Verif.Model.Trace

/-! # What is printed and warned of

The methods of `Verif.Model.UseCase`, `Verif.Model.User` and `Verif.Model.Appliance` once more, as executions that also list the messages the
user gets: the output of `print` and the warnings issued by `warnings.warn` (whether Python shows a repeated warning again is decided by its
warning filters and is not modelled). -/

set_option autoImplicit false

namespace Ramp

/-- The messages of `initialize`, `check_power_values` and of a simulation, with the values their texts contain. -/
inductive Message where
  /-- "The usecase ... is already initialized. If you want to force ..." [`core.py:224-227`] -/
  | alreadyInitialized
  /-- "... already initialized but argument `force=True` was provided ..." [`core.py:231-233`] -/
  | reinitializing
  /-- "You want to initialize the usecase ... with num_days but you already have provided days ..." [`core.py:240-242`] -/
  | daysProvided
  /-- "You provided arguments 'date_start' and 'date_end' ... However you provided argument 'num_days' ..." [`core.py:252-254`] -/
  | numDaysOverDates
  /-- "Please wait..." [`core.py:266`] -/
  | pleaseWait
  /-- "You will simulate ... day(s) from ... until ..." [`core.py:275-303`] -/
  | willSimulate (numDays first afterLast : ℤ)
  /-- "Appliance ... of constant power had its power timeseries updated ..." [`core.py:1230-1232`] -/
  | powerUpdated (name : String)
  /-- "The app ... has duty cycle option on (with ... cycle(s)). However, the switch on window [..., ...] fell outside the provided duty cycle
  windows ..." [`core.py:1895-1910`] -/
  | outsideCycles (name : String) (fixedCycle start stop : ℤ) (cycleWindows : List (ℤ × ℤ))
  /-- "The app ... has duty cycle option on, however the switch on event fell outside the provided duty cycle windows" [`core.py:1560-1562`] -/
  | noCycle (name : String)
  /-- "Day ... / ... completed" [`core.py:446`] -/
  | dayCompleted (day numDays : ℤ)
  deriving DecidableEq, Repr

/-! ## `initialize` -/

/-- `core.py:236-243`: the argument `num_days`. -/
def toldNumDays (uc : UseCase) (n : Option ℤ) : Traced Message UseCase := match n with
  | none => pure uc
  | some n =>
    if uc.days.isSome then do
      note .daysProvided
      pure { uc with numDays := none }
    else pure { uc with numDays := some n }

/-- `core.py:245-259`: both dates are known. -/
def toldDates (uc : UseCase) : Traced Message UseCase := match uc.dateStart, uc.dateEnd with
  | some s, some e =>
    let days := dateRange s e
    match uc.numDays with
    | some n =>
      if n ≠ days.length then do
        note .numDaysOverDates
        pure { uc with days := none }
      else pure { uc with days := some days, numDays := some days.length }
    | none => pure { uc with days := some days, numDays := some days.length }
  | _, _ => pure uc

/-- `core.py:261-266`: the number of days typed at the prompt. -/
def toldInput (env : Env) (uc : UseCase) : Traced Message (UseCase × Except Err Unit) := match uc.numDays with
  | some _ => pure (uc, .ok ())
  | none => match env.input with
    | none => pure (uc, .error .valueError)
    | some n => do
      note .pleaseWait
      pure ({ uc with numDays := some n }, .ok ())

/-- The message of lines 274-303, which use `days[0]` or `days[-1]`: `first` and `afterLast` are the two dates of the text, as functions of the
first and of the last day. [`core.py:274-303`] -/
def toldShow (uc : UseCase) (first afterLast : ℤ → ℤ → ℤ) : Traced Message (UseCase × Except Err Unit) := match uc.days with
  | none => pure (uc, .error .typeError)
  | some [] => pure (uc, .error .indexError)
  | some (d :: ds) => do
    note (.willSimulate (uc.numDays.getD 0) (first d ((d :: ds).getLast (by simp))) (afterLast d ((d :: ds).getLast (by simp))))
    pure (uc, .ok ())

/-- `core.py:268-303`: the days. -/
def toldDays (env : Env) (uc : UseCase) : Traced Message (UseCase × Except Err Unit) := match uc.days with
  | some _ => toldShow uc (fun d _ => d) (fun _ l => l + 1440)
  | none => match uc.dateStart, uc.dateEnd with
    | some s, _ => match dateRangeFrom s (uc.numDays.getD 0) with
      | .error e => pure (uc, .error e)
      | .ok d => toldShow { uc with days := some d } (fun _ _ => s) (fun _ l => l + 1440)
    | none, some e => match dateRangeTo e (uc.numDays.getD 0) with
      | .error e => pure (uc, .error e)
      | .ok d => toldShow { uc with days := some d } (fun d _ => d) (fun _ _ => e + 1440)
    | none, none => match dateRangeFrom env.today (uc.numDays.getD 0) with
      | .error e => pure (uc, .error e)
      | .ok d => toldShow { uc with days := some d } (fun d _ => d) (fun _ l => l + 1440)

/-- `core.py:1226-1237` `check_power_values`. -/
def toldPowerValues (app : Appliance) (numDays : ℤ) : Traced Message (Except Err Appliance) :=
  if (app.power.length : ℤ) < numDays then
    if app.constantPower then
      match app.power.head? with
      | none => pure (.error .indexError)
      | some p => match onesTimes (numDays + 1) p with
        | .error e => pure (.error e)
        | .ok l => do
          note (.powerUpdated app.name)
          pure (.ok { app with power := l })
    else pure (.error .valueError)
  else pure (.ok app)

/-- `core.py:305-307`: check the powers of the collected appliances. -/
def toldPowers (n : ℤ) : List (ℕ × ℕ) → UseCase → Traced Message (UseCase × Except Err Unit)
  | [], uc => pure (uc, .ok ())
  | r :: rs, uc => match uc.findApp r with
    | none => pure (uc, .error .attributeError)
    | some app => do
      match ← toldPowerValues app n with
      | .error e => pure (uc, .error e)
      | .ok app => toldPowers n rs (uc.updateApp r app)

/-- `core.py:236-307`: `initialize` up to the peak time range. -/
def toldCalendar (env : Env) (uc : UseCase) (args : InitArgs) : Traced Message (UseCase × Except Err Unit) := do
  let uc ← toldNumDays uc args.numDays
  let uc ← toldDates uc
  match ← toldInput env uc with
  | (uc, .error e) => pure (uc, .error e)
  | (uc, .ok ()) => do
    match ← toldDays env uc with
    | (uc, .error e) => pure (uc, .error e)
    | (uc, .ok ()) => toldPowers (uc.numDays.getD 0) uc.appliances uc

/-- `core.py:203-318` `initialize`. -/
def toldInitialize (env : Env) (uc : UseCase) (args : InitArgs) : Traced Message (UseCase × Except Err Unit) :=
  if uc.isInitialized ∧ args.force = false then do
    note .alreadyInitialized
    pure (uc, .ok ())
  else do
    let uc ← (if uc.isInitialized ∧ args.force = true then do
        note .reinitializing
        pure { uc with days := none }
      else pure uc)
    match ← toldCalendar env uc args with
    | (uc, .error e) => pure (uc, .error e)
    | (uc, .ok ()) => match args.peakEnlarge with
      | some x => do
        let (uc, r) ← quiet (setPeakEnlarge uc x)
        match r with
        | .error e => pure (uc, .error e)
        | .ok () => pure (initIndex uc, .ok ())
      | none => do
        match ← quiet (attempt (peakTimeRangeOf uc.users uc.peakEnlarge)) with
        | .error e => pure (uc, .error e)
        | .ok r => pure (initIndex { uc with peakTimeRange := some r }, .ok ())

/-- `core.py:189-194` the property `num_days`. -/
def toldNumDaysProperty (env : Env) (uc : UseCase) : Traced Message (UseCase × Except Err ℤ) := match uc.numDays with
  | some n => pure (uc, .ok n)
  | none => do
    let (uc, r) ← toldInitialize env uc {}
    match r with
    | .error e => pure (uc, .error e)
    | .ok () => pure (uc, .ok (uc.numDays.getD 0))

/-! ## A simulation -/

/-- The six cycle windows, in the order of the text. [`core.py:1897-1908`] -/
def cycleWindowsOf (app : Appliance) : List (ℤ × ℤ) := [app.cw11, app.cw12, app.cw21, app.cw22, app.cw31, app.cw32]

/-- `core.py:1820-1923` `rand_switch_on_window`. -/
def toldWindow : ℕ → Appliance → ℤ → Traced Message (Appliance × Option SwitchOn)
  | 0, _, _ => quiet (raise .recursionError)
  | depth + 1, app, randTime =>
    let choices := switchOnChoices app.freeSpots app.funcCycle
    let n : ℤ := choices.length
    if n > 0 then do
      let k ← quiet (randint 0 (n - 1))
      match choices[k.toNat]? with
      | none => quiet (raise .indexError)
      | some switchOn =>
        match app.freeSpots.find? (fun fs => fs.start ≤ switchOn && switchOn ≤ fs.stop - app.funcCycle) with
        | none => quiet (raise .typeError)
        | some spot => do
          let largestDuration := min randTime (spot.stop - switchOn)
          let indexes ← quiet (drawIndexes app.funcCycle largestDuration switchOn)
          if app.fixedCycle > 0 then
            match indexes.head?, indexes.getLast? with
            | some lo, some hi =>
              match selectDutyCycle app lo hi with
              | some (i, cycle) =>
                let app := { app with currentDutyCycleId := i }
                if indexes.length > cycle.length ∧ app.continuousDutyCycle = 0 then
                  pure (app, some ⟨indexes, indexes.take cycle.length⟩)
                else pure (app, some ⟨indexes, indexes⟩)
              | none => do
                note (.outsideCycles app.name app.fixedCycle switchOn (switchOn + indexes.length) (cycleWindowsOf app))
                toldWindow depth app randTime
            | _, _ => quiet (raise .indexError)
          else pure (app, some ⟨indexes, indexes⟩)
    else pure (app, none)

/-- `core.py:1548-1570`: the power values written by `update_daily_use`. -/
def toldPutEvent (app : Appliance) (coincidence : ℤ) (power : ℚ) (indexes : List ℤ) : Traced Message Appliance :=
  if app.fixedCycle > 0 then
    if app.currentDutyCycleId = 1 then do
      let d ← quiet (liftE (npPut app.dailyUse indexes (app.randomCycle1.map (· * (coincidence : ℚ)))))
      pure { app with dailyUse := d }
    else if app.currentDutyCycleId = 2 then do
      let d ← quiet (liftE (npPut app.dailyUse indexes (app.randomCycle2.map (· * (coincidence : ℚ)))))
      pure { app with dailyUse := d }
    else if app.currentDutyCycleId = 3 then do
      let d ← quiet (liftE (npPut app.dailyUse indexes (app.randomCycle3.map (· * (coincidence : ℚ)))))
      pure { app with dailyUse := d }
    else do
      note (.noCycle app.name)
      pure app
  else do
    let v ← quiet (randomVariation app.thermalPVar (coincidence * power))
    let d ← quiet (liftE (npPut app.dailyUse indexes [v]))
    pure { app with dailyUse := d }

/-- `core.py:1537-1572` `update_daily_use`. -/
def toldUpdate (app : Appliance) (coincidence : ℤ) (power : ℚ) (indexes : List ℤ) : Traced Message Appliance := do
  let app ← toldPutEvent app coincidence power indexes
  let spots ← quiet (liftE (updateAvailableTime app.freeSpots indexes))
  pure { app with freeSpots := spots }

/-- `core.py:2053-2064` and `2068-2074`: peak test, coincidence, booking. -/
def toldBook (app : Appliance) (peak : List ℤ) (power : ℚ) (indexes : List ℤ) : Traced Message (Appliance × ℤ) :=
  match indexes.head?, indexes.getLast?, peak.head?, peak.getLast? with
  | some i0, some i1, some q0, some q1 => do
    let inside := withinPeakTimeWindow i0 i1 q0 q1
    let c ← quiet (calcCoincidentSwitchOn app inside)
    let app ← toldUpdate app c power indexes
    pure (app, c)
  | _, _, _, _ => quiet (raise .indexError)

/-- `core.py:2039-2074`: the while loop of `generate_load_profile`. -/
def toldLoop (depth : ℕ) (peak : List ℤ) (power : ℚ) (randTime : ℤ) :
    ℕ → Appliance → ℤ → List Booking → Traced Message (Appliance × List Booking)
  | 0, _, _, _ => quiet (raise .diverge)
  | fuel + 1, app, totTime, log =>
    if totTime ≤ randTime ∧ randTime ≠ 0 then do
      let (app, event) ← toldWindow depth app randTime
      match event with
      | none => pure (app, log)
      | some ⟨drawn, indexes⟩ =>
        let totTime := totTime + indexes.length
        if totTime > randTime then
          let adj := indexes.take (indexes.length - (totTime - randTime).toNat)
          if adj.length > 0 then do
            let (app, c) ← toldBook app peak power adj
            pure (app, ⟨drawn, adj, c, app.currentDutyCycleId⟩ :: log)
          else pure (app, log)
        else do
          let (app, c) ← toldBook app peak power indexes
          toldLoop depth peak power randTime fuel app totTime (⟨drawn, indexes, c, app.currentDutyCycleId⟩ :: log)
    else pure (app, log)

/-- `core.py:1971-2074` `generate_load_profile`. -/
def toldGenerate (app : Appliance) (depth : ℕ) (randDailyPref : ℤ) (profI : ℕ) (peak : List ℤ)
    (dayType : ℤ) (power : ℚ) : Traced Message Appliance := do
  let app := { app with dailyUse := zeros }
  let x ← quiet (uniform 0 1)
  if x > app.occasionalUse
      ∨ (app.prefIndex ≠ 0 ∧ randDailyPref ≠ app.prefIndex)
      ∨ ¬ (app.wdWeType = dayType ∨ app.wdWeType = 2)
      ∨ app.funcTime = 0 then
    pure app
  else do
    let w1 ← quiet (calcRandWindow app.window1 app.randomVar1)
    let w2 ← quiet (calcRandWindow app.window2 app.randomVar2)
    let w3 ← quiet (calcRandWindow app.window3 app.randomVar3)
    let randTime ← quiet (randTotalTimeOfUse app w1 w2 w3)
    if app.flat = "yes" then
      match app.power[profI]? with
      | none => quiet (raise .indexError)
      | some pw => do
        let d ← quiet (liftE (fillWindows w1 w2 w3 (pw * app.number)))
        pure { app with dailyUse := d }
    else do
      let d ← quiet (liftE (fillWindows w1 w2 w3 (1 / 1000)))
      let app := { app with dailyUse := d }
      let app ← quiet (assignRandomCycles app)
      let app := { app with freeSpots := initialSpots [w1, w2, w3] }
      let (app, _) ← toldLoop depth peak power randTime (randTime.toNat + 2) app 0 []
      pure app

/-- `core.py:1010-1020`: the loop of `generate_single_load_profile` over the appliances. -/
def toldSingleLoop (depth : ℕ) (profI : ℕ) (peak : List ℤ) (dayType : ℤ) (pref : ℤ) :
    List Appliance → Profile → Traced Message (List Appliance × Profile)
  | [], load => pure ([], load)
  | app :: rest, load =>
    match app.power[profI]? with
    | none => quiet (raise .indexError)
    | some p => do
      let app ← toldGenerate app depth pref profI peak dayType p
      let (rest, load) ← toldSingleLoop depth profI peak dayType pref rest (fun i => load i + app.dailyUse i)
      pure (app :: rest, load)

/-- `core.py:972-1020` `generate_single_load_profile` with an explicit peak time range. -/
def toldSingle (depth : ℕ) (u : User) (profI : ℕ) (peak : List ℤ) (dayType : ℤ) : Traced Message (User × Profile) := do
  let pref ← quiet (drawPreference u.userPreference)
  let u := { u with randDailyPref := pref }
  let (apps, load) ← toldSingleLoop depth profI peak dayType u.randDailyPref u.appList zeros
  pure ({ u with appList := apps }, load)

/-- `core.py:1049-1053`: the loop of `generate_aggregated_load_profile` over the members. -/
def toldMembers (depth : ℕ) (profI : ℕ) (peak : List ℤ) (dayType : ℤ) : ℕ → User → Profile → Traced Message (User × Profile)
  | 0, u, load => pure (u, load)
  | n + 1, u, load => do
    let (u, single) ← toldSingle depth u profI peak dayType
    toldMembers depth profI peak dayType n u (fun i => load i + single i)

/-- `core.py:1022-1055` `generate_aggregated_load_profile`. -/
def toldAggregated (depth : ℕ) (u : User) (profI : ℕ) (peak : List ℤ) (dayType : ℤ) : Traced Message (User × Profile) := do
  let (u, load) ← toldMembers depth profI peak dayType u.numUsers.toNat u zeros
  pure ({ u with load := some load }, load)

/-- `core.py:436-441`: the users of one day. -/
def toldUsers (depth : ℕ) (dayIdx : ℕ) (peak : List ℤ) (dayType : ℤ) : List User → Profile → Traced Message (List User × Profile)
  | [], load => pure ([], load)
  | u :: us, load => do
    let (u, l) ← toldAggregated depth u dayIdx peak dayType
    let (us, load) ← toldUsers depth dayIdx peak dayType us (fun i => load i + l i)
    pure (u :: us, load)

/-- `core.py:429-446`: the loop over the days, with the message about the progress; `numDays` is the value of the attribute. -/
def toldDaysLoop (depth : ℕ) (peak : List ℤ) (verbose : Bool) (numDays : ℤ) :
    ℕ → List ℤ → List User → List Profile → Traced Message (List User × List Profile)
  | _, [], us, rows => pure (us, rows)
  | k, d :: ds, us, rows => do
    let (us, load) ← toldUsers depth k peak (getDayType (dayOf d)) us zeros
    if k < rows.length then do
      if verbose then note (.dayCompleted (k + 1) numDays) else pure ()
      toldDaysLoop depth peak verbose numDays (k + 1) ds us (rows.set k load)
    else quiet (raise .indexError)

/-- `core.py:389-452` `generate_daily_load_profiles(days, flat=False, verbose=verbose)`, sequential mode. -/
def toldDaily (env : Env) (depth : ℕ) (uc : UseCase) (days : Option (List ℤ)) (verbose : Bool) : Traced Message (UseCase × List Profile) :=
  match resolveDays uc days with
  | (_, .error e) => quiet (raise e)
  | (uc, .ok ()) => do
    let (uc, n) ← toldNumDaysProperty env uc
    match n with
    | .error e => quiet (raise e)
    | .ok n => do
      let rows ← quiet (liftE (emptyRows n))
      let (us, rows) ← toldDaysLoop depth (uc.peakTimeRange.getD []) verbose n 0 (uc.days.getD []) uc.users rows
      pure ({ uc with users := us }, rows)

end Ramp
