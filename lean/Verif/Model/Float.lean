import Verif.Model.UseCase

/-! # The generation of load profiles in floating point (`ramp/core/core.py`, `ramp/core/utils.py`)

The other modules of the model compute with exact rationals.  Here the generation is written again with a rounding `fl` after every
floating point operation, in the order in which Python and numpy perform the operations.  `fl` is any function on the rationals;
`binary64` (in `Spec5`) is the rounding of IEEE 754 double precision.

Simplifications: no overflow, no underflow, no `inf` and no `nan`; sums of numpy arrays are elementwise, so that one rounding per
element and addition is what numpy performs.  Functions that do no floating point operation are those of the exact model. -/

set_option autoImplicit false

namespace Ramp

variable (fl : ℚ → ℚ)

/-- `random.uniform(a, b)` as CPython computes it: `a + (b - a) * self.random()`, three operations. [`utils.py:106`, `core.py:1797`,
`core.py:1855`, `core.py:1956`, `core.py:1986`] -/
def flUniform (a b : ℚ) : Sim ℚ := do
  let d ← nextDraw
  pure (fl (a + fl (fl (b - a) * d.u)))

/-- `random.gauss(mu, sigma)`: `mu + z * sigma`. [`core.py:1945-1948`] -/
def flGauss (mu sigma : ℚ) : Sim ℚ := do
  let d ← nextDraw
  pure (fl (mu + fl (d.z * sigma)))

/-- `utils.py:92-106` `random_variation`. -/
def flRandomVariation (var norm : ℚ) : Sim ℚ := do
  let x ← flUniform fl (fl (1 - var)) (fl (1 + var))
  pure (fl (norm * x))

/-- `utils.py:109-138` `duty_cycle`; `np.ones(n) * p` is exact. -/
def flDutyCycle (var : ℚ) (t1 : ℤ) (p1 : ℚ) (t2 : ℤ) (p2 : ℚ) : Sim (List ℚ) := do
  let d1 ← flRandomVariation fl (-var) t1
  let a ← liftE (onesTimes (pyInt d1) p1)
  let d2 ← flRandomVariation fl (-var) t2
  let b ← liftE (onesTimes (pyInt d2) p2)
  pure (a ++ b)

/-- `utils.py:155-182` `random_choice`. -/
def flRandomChoice (var : ℚ) (t1 : ℤ) (p1 : ℚ) (t2 : ℤ) (p2 : ℚ) : Sim (List ℚ) := do
  let x ← flDutyCycle fl var t1 p1 t2 p2
  let y ← flDutyCycle fl var t2 p2 t1 p1
  choice2 x y

/-- `core.py:1786-1818` `rand_total_time_of_use`.  `0.99` is a literal: the nearest floating point number. -/
def flRandTotalTimeOfUse (app : Appliance) (w1 w2 w3 : ℤ × ℤ) : Sim ℤ := do
  let randomVarT ← flRandomVariation fl app.timeFractionRandomVariability 1
  let x ← flUniform fl app.funcTime (pyInt (fl (app.funcTime * randomVarT)))
  let randTime := pyRound x
  let randTime := if randTime < app.funcCycle then app.funcCycle else randTime
  let totalTime := (w1.2 - w1.1) + (w2.2 - w2.1) + (w3.2 - w3.1)
  let randTime := if (randTime : ℚ) > fl (fl (99 / 100) * totalTime) then pyInt (fl (fl (99 / 100) * totalTime)) else randTime
  if randTime < app.funcCycle then raise .valueError
  else pure randTime

/-- `core.py:1450-1494` `assign_random_cycles`. -/
def flAssignRandomCycles (app : Appliance) : Sim Appliance :=
  if app.fixedCycle ≥ 1 then do
    let p11 ← flRandomVariation fl app.thermalPVar app.p11
    let p12 ← flRandomVariation fl app.thermalPVar app.p12
    let c1 ← flDutyCycle fl app.rc1 app.t11 p11 app.t12 p12
    let app := { app with randomCycle1 := c1, randomCycle2 := c1, randomCycle3 := c1 }
    if app.fixedCycle ≥ 2 then do
      let p21 ← flRandomVariation fl app.thermalPVar app.p21
      let p22 ← flRandomVariation fl app.thermalPVar app.p22
      let c2 ← flDutyCycle fl app.rc2 app.t21 p21 app.t22 p22
      let app := { app with randomCycle2 := c2 }
      if app.fixedCycle ≥ 3 then do
        let p31 ← flRandomVariation fl app.thermalPVar app.p31
        let p32 ← flRandomVariation fl app.thermalPVar app.p32
        let c1 ← flRandomChoice fl app.rc1 app.t11 p11 app.t12 p12
        let c2 ← flRandomChoice fl app.rc2 app.t21 p21 app.t22 p22
        let c3 ← flRandomChoice fl app.rc3 app.t31 p31 app.t32 p32
        pure { app with randomCycle1 := c1, randomCycle2 := c2, randomCycle3 := c3 }
      else pure app
    else pure app
  else pure app

/-- `core.py:1548-1570`: the power values written by `update_daily_use`. -/
def flPutEvent (app : Appliance) (coincidence : ℤ) (power : ℚ) (indexes : List ℤ) : Sim Appliance :=
  if app.fixedCycle > 0 then
    if app.currentDutyCycleId = 1 then do
      let d ← liftE (npPut app.dailyUse indexes (app.randomCycle1.map (fun v => fl (v * (coincidence : ℚ)))))
      pure { app with dailyUse := d }
    else if app.currentDutyCycleId = 2 then do
      let d ← liftE (npPut app.dailyUse indexes (app.randomCycle2.map (fun v => fl (v * (coincidence : ℚ)))))
      pure { app with dailyUse := d }
    else if app.currentDutyCycleId = 3 then do
      let d ← liftE (npPut app.dailyUse indexes (app.randomCycle3.map (fun v => fl (v * (coincidence : ℚ)))))
      pure { app with dailyUse := d }
    else pure app
  else do
    let v ← flRandomVariation fl app.thermalPVar (fl (coincidence * power))
    let d ← liftE (npPut app.dailyUse indexes [v])
    pure { app with dailyUse := d }

/-- `core.py:1537-1572` `update_daily_use`. -/
def flUpdateDailyUse (app : Appliance) (coincidence : ℤ) (power : ℚ) (indexes : List ℤ) : Sim Appliance := do
  let app ← flPutEvent fl app coincidence power indexes
  let spots ← liftE (updateAvailableTime app.freeSpots indexes)
  pure { app with freeSpots := spots }

/-- `core.py:1851-1866`: the minutes of an event starting at `switchOn`. -/
def flDrawIndexes (funcCycle largestDuration switchOn : ℤ) : Sim (List ℤ) :=
  if largestDuration > funcCycle then do
    let x ← flUniform fl funcCycle largestDuration
    pure (arange switchOn (switchOn + pyInt x))
  else if largestDuration = funcCycle then
    pure (arange switchOn (switchOn + largestDuration))
  else raise .valueError

/-- `core.py:1820-1923` `rand_switch_on_window`. -/
def flRandSwitchOnWindow : ℕ → Appliance → ℤ → Sim (Appliance × Option SwitchOn)
  | 0, _, _ => raise .recursionError
  | depth + 1, app, randTime =>
    let choices := switchOnChoices app.freeSpots app.funcCycle
    let n : ℤ := choices.length
    if n > 0 then do
      let k ← randint 0 (n - 1)
      match choices[k.toNat]? with
      | none => raise .indexError
      | some switchOn =>
        match app.freeSpots.find? (fun fs => fs.start ≤ switchOn && switchOn ≤ fs.stop - app.funcCycle) with
        | none => raise .typeError
        | some spot => do
          let largestDuration := min randTime (spot.stop - switchOn)
          let indexes ← flDrawIndexes fl app.funcCycle largestDuration switchOn
          if app.fixedCycle > 0 then
            match indexes.head?, indexes.getLast? with
            | some lo, some hi =>
              match selectDutyCycle app lo hi with
              | some (i, cycle) =>
                let app := { app with currentDutyCycleId := i }
                if indexes.length > cycle.length ∧ app.continuousDutyCycle = 0 then
                  pure (app, some ⟨indexes, indexes.take cycle.length⟩)
                else pure (app, some ⟨indexes, indexes⟩)
              | none => flRandSwitchOnWindow depth app randTime
            | _, _ => raise .indexError
          else pure (app, some ⟨indexes, indexes⟩)
    else pure (app, none)

/-- `core.py:1959-1963`: `np.max(np.where(prob >= np.arange(0, number) / number)) + 1`, the divisions rounded. -/
def flOnNumber (prob : ℚ) (number : ℤ) : ℤ :=
  match ((List.range number.toNat).filter (fun (i : ℕ) => prob ≥ fl ((i : ℚ) / number))).getLast? with
  | some i => (i : ℤ) + 1
  | none => 1

/-- `core.py:1925-1969` `calc_coincident_switch_on`. -/
def flCalcCoincidentSwitchOn (app : Appliance) (insidePeak : Bool) : Sim ℤ :=
  let sPeak := switchOnParameters.1
  let muPeak := switchOnParameters.2.1
  let opFactor := switchOnParameters.2.2
  if insidePeak = true ∧ app.fixed = "no" then do
    let x ← flGauss fl (fl (app.number * muPeak)) (fl (fl (sPeak * app.number) * muPeak))
    pure (min app.number (max 1 ⌈x⌉))
  else if insidePeak = false ∧ app.fixed = "no" then
    if app.number = 0 then raise .zeroDivisionError
    else do
      let prob ← flUniform fl 0 (fl (fl (app.number - opFactor) / app.number))
      pure (flOnNumber fl prob app.number)
  else pure app.number

/-- `core.py:2053-2064` and `2068-2074`: the end of an iteration of the loop. -/
def flBookEvent (app : Appliance) (peak : List ℤ) (power : ℚ) (indexes : List ℤ) : Sim (Appliance × ℤ) :=
  match indexes.head?, indexes.getLast?, peak.head?, peak.getLast? with
  | some i0, some i1, some q0, some q1 => do
    let inside := withinPeakTimeWindow i0 i1 q0 q1
    let c ← flCalcCoincidentSwitchOn fl app inside
    let app ← flUpdateDailyUse fl app c power indexes
    pure (app, c)
  | _, _, _, _ => raise .indexError

/-- `core.py:2039-2074`: the while loop of `generate_load_profile`. -/
def flSwitchOnLoop (depth : ℕ) (peak : List ℤ) (power : ℚ) (randTime : ℤ) :
    ℕ → Appliance → ℤ → List Booking → Sim (Appliance × List Booking)
  | 0, _, _, _ => raise .diverge
  | fuel + 1, app, totTime, log =>
    if totTime ≤ randTime ∧ randTime ≠ 0 then do
      let (app, event) ← flRandSwitchOnWindow fl depth app randTime
      match event with
      | none => pure (app, log)
      | some ⟨drawn, indexes⟩ =>
        let totTime := totTime + indexes.length
        if totTime > randTime then
          let adj := indexes.take (indexes.length - (totTime - randTime).toNat)
          if adj.length > 0 then do
            let (app, c) ← flBookEvent fl app peak power adj
            pure (app, ⟨drawn, adj, c, app.currentDutyCycleId⟩ :: log)
          else pure (app, log)
        else do
          let (app, c) ← flBookEvent fl app peak power indexes
          flSwitchOnLoop depth peak power randTime fuel app totTime (⟨drawn, indexes, c, app.currentDutyCycleId⟩ :: log)
    else pure (app, log)

/-- `core.py:1971-2074` `generate_load_profile` with the ghost record of the run; `0.001` is a literal. -/
def flGenerateLoadProfileInfo (app : Appliance) (depth : ℕ) (randDailyPref : ℤ) (profI : ℕ) (peak : List ℤ)
    (dayType : ℤ) (power : ℚ) : Sim (Appliance × Option RunInfo) := do
  let app := { app with dailyUse := zeros }
  let x ← flUniform fl 0 1
  if x > app.occasionalUse
      ∨ (app.prefIndex ≠ 0 ∧ randDailyPref ≠ app.prefIndex)
      ∨ ¬ (app.wdWeType = dayType ∨ app.wdWeType = 2)
      ∨ app.funcTime = 0 then
    pure (app, none)
  else do
    let w1 ← calcRandWindow app.window1 app.randomVar1
    let w2 ← calcRandWindow app.window2 app.randomVar2
    let w3 ← calcRandWindow app.window3 app.randomVar3
    let randTime ← flRandTotalTimeOfUse fl app w1 w2 w3
    if app.flat = "yes" then
      match app.power[profI]? with
      | none => raise .indexError
      | some pw => do
        let d ← liftE (fillWindows w1 w2 w3 (fl (pw * app.number)))
        pure ({ app with dailyUse := d }, some ⟨w1, w2, w3, randTime, []⟩)
    else do
      let d ← liftE (fillWindows w1 w2 w3 (fl (1 / 1000)))
      let app := { app with dailyUse := d }
      let app ← flAssignRandomCycles fl app
      let app := { app with freeSpots := initialSpots [w1, w2, w3] }
      let (app, log) ← flSwitchOnLoop fl depth peak power randTime (randTime.toNat + 2) app 0 []
      pure (app, some ⟨w1, w2, w3, randTime, log.reverse⟩)

/-- `core.py:1971-2074` `generate_load_profile`. -/
def flGenerateLoadProfile (app : Appliance) (depth : ℕ) (randDailyPref : ℤ) (profI : ℕ) (peak : List ℤ)
    (dayType : ℤ) (power : ℚ) : Sim Appliance := do
  let (app, _) ← flGenerateLoadProfileInfo fl app depth randDailyPref profI peak dayType power
  pure app

/-- `core.py:1010-1020`: the loop over the appliances; the sum of the profiles is rounded at every addition. -/
def flSingleLoop (depth : ℕ) (profI : ℕ) (peak : List ℤ) (dayType : ℤ) (pref : ℤ) :
    List Appliance → Profile → Sim (List Appliance × Profile)
  | [], load => pure ([], load)
  | app :: rest, load =>
    match app.power[profI]? with
    | none => raise .indexError
    | some p => do
      let app ← flGenerateLoadProfile fl app depth pref profI peak dayType p
      let (rest, load) ← flSingleLoop depth profI peak dayType pref rest (fun i => fl (load i + app.dailyUse i))
      pure (app :: rest, load)

/-- `core.py:972-1020` `generate_single_load_profile`. -/
def flGenerateSingleLoadProfile (depth : ℕ) (u : User) (profI : ℕ) (peak : List ℤ) (dayType : ℤ) : Sim (User × Profile) := do
  let pref ← drawPreference u.userPreference
  let u := { u with randDailyPref := pref }
  let (apps, load) ← flSingleLoop fl depth profI peak dayType u.randDailyPref u.appList zeros
  pure ({ u with appList := apps }, load)

/-- `core.py:1049-1053`: the loop over the members. -/
def flAggregatedLoop (depth : ℕ) (profI : ℕ) (peak : List ℤ) (dayType : ℤ) : ℕ → User → Profile → Sim (User × Profile)
  | 0, u, load => pure (u, load)
  | n + 1, u, load => do
    let (u, single) ← flGenerateSingleLoadProfile fl depth u profI peak dayType
    flAggregatedLoop depth profI peak dayType n u (fun i => fl (load i + single i))

/-- `core.py:1022-1055` `generate_aggregated_load_profile`. -/
def flGenerateAggregatedLoadProfile (depth : ℕ) (u : User) (profI : ℕ) (peak : List ℤ) (dayType : ℤ) :
    Sim (User × Profile) := do
  let (u, load) ← flAggregatedLoop fl depth profI peak dayType u.numUsers.toNat u zeros
  pure ({ u with load := some load }, load)

/-- `core.py:436-441`: the users of one day. -/
def flUsersOfDay (depth : ℕ) (dayIdx : ℕ) (peak : List ℤ) (dayType : ℤ) : List User → Profile → Sim (List User × Profile)
  | [], load => pure ([], load)
  | u :: us, load => do
    let (u, l) ← flGenerateAggregatedLoadProfile fl depth u dayIdx peak dayType
    let (us, load) ← flUsersOfDay depth dayIdx peak dayType us (fun i => fl (load i + l i))
    pure (u :: us, load)

/-- `core.py:429-446`: the loop over the days. -/
def flDaysLoop (depth : ℕ) (peak : List ℤ) : ℕ → List ℤ → List User → List Profile → Sim (List User × List Profile)
  | _, [], us, rows => pure (us, rows)
  | k, d :: ds, us, rows => do
    let (us, load) ← flUsersOfDay fl depth k peak (getDayType (dayOf d)) us zeros
    if k < rows.length then flDaysLoop depth peak (k + 1) ds us (rows.set k load)
    else raise .indexError

/-- `core.py:389-452` `generate_daily_load_profiles` on a use case whose days, number of days and peak time range are known. -/
def flGenerateDaily (depth : ℕ) (uc : UseCase) : Sim (UseCase × List Profile) :=
  match uc.days, uc.numDays, uc.peakTimeRange with
  | some days, some n, some peak => do
    let rows ← liftE (emptyRows n)
    let (us, rows) ← flDaysLoop fl depth peak 0 days uc.users rows
    pure ({ uc with users := us }, rows)
  | _, _, _ => raise .attributeError

end Ramp
