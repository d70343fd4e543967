import Verif.Model.UseCase

/-! # The states a simulation goes through

The functions of `Verif.Model.Appliance`, `Verif.Model.User` and `Verif.Model.UseCase` return the objects as they are at the end.  Here the
same methods are written as executions that also list the state of the object after every assignment to one of its attributes.  An
exception, or an interruption from outside (`KeyboardInterrupt`) at any moment, leaves the object in the last of the states listed so far
(or as it was, when there is none). -/

set_option autoImplicit false

namespace Ramp

/-- An execution: the states of the object after each assignment, in order, and the outcome. [no source: the shape of the methods of
`core.py:429-446`, `core.py:1003-1055` and `core.py:1450-2074`, which assign to attributes of `self`] -/
def Traced (σ α : Type) : Type := Rng → List σ × Except Err (α × Rng)

instance (σ : Type) : Monad (Traced σ) where
  pure a := fun r => ([], .ok (a, r))
  bind m f := fun r => match m r with
    | (l, .ok (a, r')) => (l ++ (f a r').1, (f a r').2)
    | (l, .error e) => (l, .error e)

/-- An attribute has been assigned; the object is now `s`. [assignments to attributes, for example `core.py:1984`] -/
def note {σ : Type} (s : σ) : Traced σ Unit := fun r => ([s], .ok ((), r))

/-- A computation that changes no attribute. [for example `core.py:2000-2011`] -/
def quiet {σ α : Type} (m : Sim α) : Traced σ α := fun r => ([], m r)

/-- The execution of a method of a part of a larger object. [for example `core.py:1013-1015`] -/
def within {σ τ α : Type} (f : σ → τ) (m : Traced σ α) : Traced τ α := fun r => ((m r).1.map f, (m r).2)

/-- The outcome of an execution that runs to its end. [no source: forgets the states] -/
def outcome {σ α : Type} (m : Traced σ α) : Sim α := fun r => (m r).2

/-- The states listed by an execution that draws the numbers `r`. [no source: forgets the outcome] -/
def visited {σ α : Type} (m : Traced σ α) (r : Rng) : List σ := (m r).1

/-- `core.py:1450-1494` `assign_random_cycles`. -/
def tracedCycles (app : Appliance) : Traced Appliance Appliance :=
  if app.fixedCycle ≥ 1 then do
    let p11 ← quiet (randomVariation app.thermalPVar app.p11)
    let p12 ← quiet (randomVariation app.thermalPVar app.p12)
    let c1 ← quiet (dutyCycle app.rc1 app.t11 p11 app.t12 p12)
    note { app with randomCycle1 := c1 }
    note { app with randomCycle1 := c1, randomCycle2 := c1 }
    let app := { app with randomCycle1 := c1, randomCycle2 := c1, randomCycle3 := c1 }
    note app
    if app.fixedCycle ≥ 2 then do
      let p21 ← quiet (randomVariation app.thermalPVar app.p21)
      let p22 ← quiet (randomVariation app.thermalPVar app.p22)
      let c2 ← quiet (dutyCycle app.rc2 app.t21 p21 app.t22 p22)
      let app := { app with randomCycle2 := c2 }
      note app
      if app.fixedCycle ≥ 3 then do
        let p31 ← quiet (randomVariation app.thermalPVar app.p31)
        let p32 ← quiet (randomVariation app.thermalPVar app.p32)
        let c1 ← quiet (randomChoice app.rc1 app.t11 p11 app.t12 p12)
        note { app with randomCycle1 := c1 }
        let c2 ← quiet (randomChoice app.rc2 app.t21 p21 app.t22 p22)
        note { app with randomCycle1 := c1, randomCycle2 := c2 }
        let c3 ← quiet (randomChoice app.rc3 app.t31 p31 app.t32 p32)
        note { app with randomCycle1 := c1, randomCycle2 := c2, randomCycle3 := c3 }
        pure { app with randomCycle1 := c1, randomCycle2 := c2, randomCycle3 := c3 }
      else pure app
    else pure app
  else pure app

/-- The loop of `np.put` on `daily_use`: the values are written one after the other. [`core.py:1550-1570`] -/
def tracedPutFrom (v : List ℚ) : ℕ → List ℤ → Appliance → Traced Appliance Appliance
  | _, [], app => pure app
  | k, i :: is, app => match wrapIdx i with
    | none => quiet (raise .indexError)
    | some p => do
      let app := { app with dailyUse := fun j => if j = p then v.getD (k % v.length) 0 else app.dailyUse j }
      note app
      tracedPutFrom v (k + 1) is app

/-- `np.put(self.daily_use, indexes, v)`. [`core.py:1550-1570`] -/
def tracedPut (app : Appliance) (ind : List ℤ) (v : List ℚ) : Traced Appliance Appliance :=
  if v.length = 0 then pure app else tracedPutFrom v 0 ind app

/-- `core.py:1548-1570`: the power values written by `update_daily_use`. -/
def tracedPutEvent (app : Appliance) (coincidence : ℤ) (power : ℚ) (indexes : List ℤ) : Traced Appliance Appliance :=
  if app.fixedCycle > 0 then
    if app.currentDutyCycleId = 1 then tracedPut app indexes (app.randomCycle1.map (· * (coincidence : ℚ)))
    else if app.currentDutyCycleId = 2 then tracedPut app indexes (app.randomCycle2.map (· * (coincidence : ℚ)))
    else if app.currentDutyCycleId = 3 then tracedPut app indexes (app.randomCycle3.map (· * (coincidence : ℚ)))
    else pure app
  else do
    let v ← quiet (randomVariation app.thermalPVar (coincidence * power))
    tracedPut app indexes [v]

/-- `core.py:1508-1535`: the free ranges while one of them is taken out and its rest is put back. -/
def spotsOnTheWay (spots : List Spot) (i0 i1 : ℤ) : List (List Spot) :=
  match spots.findIdx? (fun fs => i0 ≥ fs.start && i1 ≤ fs.stop) with
  | none => []
  | some idx =>
    match spots[idx]? with
    | none => []
    | some s => [spots.eraseIdx idx, (spots.eraseIdx idx).insertIdx idx ⟨i1 + 1, s.stop⟩]

/-- List several states. [`core.py:1515-1535`] -/
def notes {σ : Type} (l : List σ) : Traced σ Unit := fun r => (l, .ok ((), r))

/-- `core.py:1496-1535` `update_available_time_for_switch_on_events`. -/
def tracedFree (app : Appliance) (indexes : List ℤ) : Traced Appliance Appliance :=
  if app.freeSpots = [] then pure { app with freeSpots := [] }
  else match indexes.head?, indexes.getLast? with
    | some i0, some i1 => do
      notes ((spotsOnTheWay app.freeSpots i0 i1).map (fun f => { app with freeSpots := f }))
      note { app with freeSpots := bookSpots app.freeSpots i0 i1 }
      pure { app with freeSpots := bookSpots app.freeSpots i0 i1 }
    | _, _ => quiet (raise .indexError)

/-- `core.py:1537-1572` `update_daily_use`. -/
def tracedUpdate (app : Appliance) (coincidence : ℤ) (power : ℚ) (indexes : List ℤ) : Traced Appliance Appliance := do
  let app ← tracedPutEvent app coincidence power indexes
  tracedFree app indexes

/-- `core.py:1820-1923` `rand_switch_on_window`: it assigns `current_duty_cycle_id` only. -/
def tracedWindow (depth : ℕ) (app : Appliance) (randTime : ℤ) : Traced Appliance (Appliance × Option SwitchOn) := do
  let x ← quiet (randSwitchOnWindow depth app randTime)
  note x.1
  pure x

/-- `core.py:2053-2064` and `2068-2074`: peak test, coincidence, booking. -/
def tracedBook (app : Appliance) (peak : List ℤ) (power : ℚ) (indexes : List ℤ) : Traced Appliance (Appliance × ℤ) :=
  match indexes.head?, indexes.getLast?, peak.head?, peak.getLast? with
  | some i0, some i1, some q0, some q1 => do
    let inside := withinPeakTimeWindow i0 i1 q0 q1
    let c ← quiet (calcCoincidentSwitchOn app inside)
    let app ← tracedUpdate app c power indexes
    pure (app, c)
  | _, _, _, _ => quiet (raise .indexError)

/-- `core.py:2039-2074`: the while loop of `generate_load_profile`. -/
def tracedLoop (depth : ℕ) (peak : List ℤ) (power : ℚ) (randTime : ℤ) :
    ℕ → Appliance → ℤ → List Booking → Traced Appliance (Appliance × List Booking)
  | 0, _, _, _ => quiet (raise .diverge)
  | fuel + 1, app, totTime, log =>
    if totTime ≤ randTime ∧ randTime ≠ 0 then do
      let (app, event) ← tracedWindow depth app randTime
      match event with
      | none => pure (app, log)
      | some ⟨drawn, indexes⟩ =>
        let totTime := totTime + indexes.length
        if totTime > randTime then
          let adj := indexes.take (indexes.length - (totTime - randTime).toNat)
          if adj.length > 0 then do
            let (app, c) ← tracedBook app peak power adj
            pure (app, ⟨drawn, adj, c, app.currentDutyCycleId⟩ :: log)
          else pure (app, log)
        else do
          let (app, c) ← tracedBook app peak power indexes
          tracedLoop depth peak power randTime fuel app totTime (⟨drawn, indexes, c, app.currentDutyCycleId⟩ :: log)
    else pure (app, log)

/-- `core.py:2015-2018` and `2024-2027`: fill the three randomised windows with a constant. -/
def tracedFill (app : Appliance) (w1 w2 w3 : ℤ × ℤ) (v : ℚ) : Traced Appliance Appliance := do
  let d ← quiet (liftE (fillSlice zeros w1.1 w1.2 (w1.2 - w1.1) v))
  note { app with dailyUse := d }
  let d ← quiet (liftE (fillSlice d w2.1 w2.2 (w2.2 - w2.1) v))
  note { app with dailyUse := d }
  let d ← quiet (liftE (fillSlice d w3.1 w3.2 (w3.2 - w3.1) v))
  note { app with dailyUse := d }
  pure { app with dailyUse := d }

/-- `core.py:1971-2074` `generate_load_profile`. -/
def tracedGenerate (app : Appliance) (depth : ℕ) (randDailyPref : ℤ) (profI : ℕ) (peak : List ℤ)
    (dayType : ℤ) (power : ℚ) : Traced Appliance Appliance := do
  let app := { app with dailyUse := zeros }
  note app
  let x ← quiet (uniform 0 1)
  if x > app.occasionalUse
      ∨ (app.prefIndex ≠ 0 ∧ randDailyPref ≠ app.prefIndex)
      ∨ ¬ (app.wdWeType = dayType ∨ app.wdWeType = 2)
      ∨ app.funcTime = 0 then
    pure app
  else do
    let w1 ← quiet (calcRandWindow app.window1 app.randomVar1)
    let w2 ← quiet (calcRandWindow app.window2 app.randomVar2)
    let w3 ← quiet (calcRandWindow app.window3 app.randomVar3)
    let randTime ← quiet (randTotalTimeOfUse app w1 w2 w3)
    if app.flat = "yes" then
      match app.power[profI]? with
      | none => quiet (raise .indexError)
      | some pw => tracedFill app w1 w2 w3 (pw * app.number)
    else do
      let app ← tracedFill app w1 w2 w3 (1 / 1000)
      let app ← tracedCycles app
      let app := { app with freeSpots := initialSpots [w1, w2, w3] }
      note app
      let (app, _) ← tracedLoop depth peak power randTime (randTime.toNat + 2) app 0 []
      pure app

/-- `core.py:1010-1020`: the loop of `generate_single_load_profile` over the appliances; `done` are those before. -/
def tracedSingleLoop (depth : ℕ) (profI : ℕ) (peak : List ℤ) (dayType : ℤ) (u : User) :
    List Appliance → List Appliance → Profile → Traced User (List Appliance × Profile)
  | done, [], load => pure (done, load)
  | done, app :: rest, load =>
    match app.power[profI]? with
    | none => quiet (raise .indexError)
    | some p => do
      let app ← within (fun a => { u with appList := done ++ a :: rest }) (tracedGenerate app depth u.randDailyPref profI peak dayType p)
      tracedSingleLoop depth profI peak dayType u (done ++ [app]) rest (fun i => load i + app.dailyUse i)

/-- `core.py:972-1020` `generate_single_load_profile` with an explicit peak time range. -/
def tracedSingle (depth : ℕ) (u : User) (profI : ℕ) (peak : List ℤ) (dayType : ℤ) : Traced User (User × Profile) := do
  let pref ← quiet (drawPreference u.userPreference)
  let u := { u with randDailyPref := pref }
  note u
  let (apps, load) ← tracedSingleLoop depth profI peak dayType u [] u.appList zeros
  pure ({ u with appList := apps }, load)

/-- `core.py:1049-1053`: the loop of `generate_aggregated_load_profile` over the members; the sum is kept in the attribute `load`. -/
def tracedMembers (depth : ℕ) (profI : ℕ) (peak : List ℤ) (dayType : ℤ) : ℕ → User → Profile → Traced User (User × Profile)
  | 0, u, load => pure (u, load)
  | n + 1, u, load => do
    let (u, single) ← tracedSingle depth u profI peak dayType
    let u := { u with load := some (fun i => load i + single i) }
    note u
    tracedMembers depth profI peak dayType n u (fun i => load i + single i)

/-- `core.py:1022-1055` `generate_aggregated_load_profile`. -/
def tracedAggregated (depth : ℕ) (u : User) (profI : ℕ) (peak : List ℤ) (dayType : ℤ) : Traced User (User × Profile) := do
  let u := { u with load := some zeros }
  note u
  tracedMembers depth profI peak dayType u.numUsers.toNat u zeros

/-- `core.py:436-441`: the users of one day; `done` are those before. -/
def tracedUsers (depth : ℕ) (dayIdx : ℕ) (peak : List ℤ) (dayType : ℤ) : List User → List User → Profile → Traced (List User) (List User × Profile)
  | done, [], load => pure (done, load)
  | done, u :: us, load => do
    let (u, l) ← within (fun v => done ++ v :: us) (tracedAggregated depth u dayIdx peak dayType)
    tracedUsers depth dayIdx peak dayType (done ++ [u]) us (fun i => load i + l i)

/-- `core.py:429-446`: the loop over the days. -/
def tracedDays (depth : ℕ) (peak : List ℤ) : ℕ → List ℤ → List User → List Profile → Traced (List User) (List User × List Profile)
  | _, [], us, rows => pure (us, rows)
  | k, d :: ds, us, rows => do
    let (us, load) ← tracedUsers depth k peak (getDayType (dayOf d)) [] us zeros
    if k < rows.length then tracedDays depth peak (k + 1) ds us (rows.set k load)
    else quiet (raise .indexError)

/-- `core.py:389-452` `generate_daily_load_profiles(days, flat=False)`, sequential mode.  Simplification: an `initialize()` called from here
(when the number of days is not known) is one step; the model of `initialize` itself says what its failure leaves behind. -/
def tracedDaily (env : Env) (depth : ℕ) (uc : UseCase) (days : Option (List ℤ)) : Traced UseCase (UseCase × List Profile) :=
  match resolveDays uc days with
  | (_, .error e) => quiet (raise e)
  | (uc, .ok ()) => do
    note uc
    let (uc, n) ← quiet (numDaysProperty env uc)
    note uc
    match n with
    | .error e => quiet (raise e)
    | .ok n => do
      let rows ← quiet (liftE (emptyRows n))
      let (us, rows) ← within (fun us => { uc with users := us })
        (tracedDays depth (uc.peakTimeRange.getD []) 0 (uc.days.getD []) uc.users rows)
      pure ({ uc with users := us }, rows)

end Ramp
