import Verif.Model.SaveLoad

/-! # Simulation with shared objects

The other modules hold the appliances of a user and the users of a use case by value.  In Python they are references: a user can be listed
twice or belong to two use cases, and an `Appliance` object can be added to several users (`add_appliance(app)`, `core.py:691-706`),
while its attribute `user` stays the user it was created for.  Here the simulation is modelled on references. -/

set_option autoImplicit false

namespace Ramp

/-- The attributes of a `User` object (`core.py:667-678`); `apps` are the references of `App_list`. -/
structure UserObj where
  userName : String := ""
  numUsers : ℤ := 1
  userPreference : ℤ := 0
  randDailyPref : ℤ := 0
  load : Option Profile := none
  apps : List ℕ := []

/-- The objects: appliances, the attribute `user` of each appliance (`core.py:1141`), users. -/
structure Objects where
  app : ℕ → Appliance
  owner : ℕ → ℕ
  user : ℕ → UserObj

/-- Assignment to the attributes of the appliance `r`. [`core.py:1971-2074`] -/
def Objects.setApp (w : Objects) (r : ℕ) (a : Appliance) : Objects := { w with app := fun k => if k = r then a else w.app k }

/-- Assignment to `rand_daily_pref` of the user `u`. [`core.py:1006-1008`] -/
def Objects.setPref (w : Objects) (u : ℕ) (p : ℤ) : Objects :=
  { w with user := fun k => if k = u then { w.user u with randDailyPref := p } else w.user k }

/-- Assignment to `load` of the user `u`. [`core.py:1048-1053`] -/
def Objects.setLoad (w : Objects) (u : ℕ) (p : Profile) : Objects :=
  { w with user := fun k => if k = u then { w.user u with load := some p } else w.user k }

/-- `core.py:1010-1020`: the loop of `generate_single_load_profile` over the appliances.  `generate_load_profile` looks up
`self.user.rand_daily_pref` (`core.py:1988`): the preference of the user the appliance was created for. -/
def sharedSingleLoop (depth : ℕ) (profI : ℕ) (peak : List ℤ) (dayType : ℤ) : List ℕ → Profile → Objects → Sim (Objects × Profile)
  | [], load, w => pure (w, load)
  | r :: rs, load, w =>
    match (w.app r).power[profI]? with
    | none => raise .indexError
    | some p => do
      let a ← generateLoadProfile (w.app r) depth (w.user (w.owner r)).randDailyPref profI peak dayType p
      sharedSingleLoop depth profI peak dayType rs (fun i => load i + a.dailyUse i) (w.setApp r a)

/-- `core.py:972-1020` `generate_single_load_profile` of the user `u`, with a peak time range. -/
def sharedSingle (depth : ℕ) (u : ℕ) (profI : ℕ) (peak : List ℤ) (dayType : ℤ) (w : Objects) : Sim (Objects × Profile) := do
  let pref ← drawPreference (w.user u).userPreference
  let w := w.setPref u pref
  sharedSingleLoop depth profI peak dayType (w.user u).apps zeros w

/-- `core.py:1049-1053`: the loop of `generate_aggregated_load_profile` over the members. -/
def sharedAggregatedLoop (depth : ℕ) (u : ℕ) (profI : ℕ) (peak : List ℤ) (dayType : ℤ) : ℕ → Profile → Objects → Sim (Objects × Profile)
  | 0, load, w => pure (w, load)
  | n + 1, load, w => do
    let (w, single) ← sharedSingle depth u profI peak dayType w
    sharedAggregatedLoop depth u profI peak dayType n (fun i => load i + single i) w

/-- `core.py:1022-1055` `generate_aggregated_load_profile` of the user `u`. -/
def sharedAggregated (depth : ℕ) (u : ℕ) (profI : ℕ) (peak : List ℤ) (dayType : ℤ) (w : Objects) : Sim (Objects × Profile) := do
  let (w, load) ← sharedAggregatedLoop depth u profI peak dayType (w.user u).numUsers.toNat zeros w
  pure (w.setLoad u load, load)

/-- `core.py:436-441`: the users of one day. -/
def sharedUsersOfDay (depth : ℕ) (dayIdx : ℕ) (peak : List ℤ) (dayType : ℤ) : List ℕ → Profile → Objects → Sim (Objects × Profile)
  | [], load, w => pure (w, load)
  | u :: us, load, w => do
    let (w, l) ← sharedAggregated depth u dayIdx peak dayType w
    sharedUsersOfDay depth dayIdx peak dayType us (fun i => load i + l i) w

/-- `core.py:429-446`: the loop over the days. -/
def sharedDaysLoop (depth : ℕ) (peak : List ℤ) (us : List ℕ) : ℕ → List ℤ → List Profile → Objects → Sim (Objects × List Profile)
  | _, [], rows, w => pure (w, rows)
  | k, d :: ds, rows, w => do
    let (w, load) ← sharedUsersOfDay depth k peak (getDayType (dayOf d)) us zeros w
    if k < rows.length then sharedDaysLoop depth peak us (k + 1) ds (rows.set k load) w
    else raise .indexError

/-- `core.py:389-452` `generate_daily_load_profiles(flat=False)` of an initialised use case with the users `us`, the days `days` and the peak
time range `peak`, sequential mode. -/
def sharedGenerate (depth : ℕ) (us : List ℕ) (days peak : List ℤ) (w : Objects) : Sim (Objects × List Profile) := do
  let rows ← liftE (emptyRows days.length)
  sharedDaysLoop depth peak us 0 days rows w

/-- `core.py:1238-1287` `Appliance.save`: the first three columns describe `self.user`. -/
def sharedSaveAppliance (w : Objects) (r : ℕ) : Except Err Row :=
  let o := w.user (w.owner r)
  saveAppliance { userName := o.userName, numUsers := o.numUsers, userPreference := o.userPreference } (w.app r)

end Ramp
