import Verif.Model.User
import Verif.Model.Utils

/-! # Model of `UseCase` (`ramp/core/core.py:50-519`)

Timestamps are integers: minutes since Monday 0001-01-01 00:00.  A day of the simulation is the timestamp of its start.  Every user
of a use case is a different object and no appliance object belongs to two users; an appliance of a use case is referred to by the
position of its user and its identity. -/

set_option autoImplicit false

namespace Ramp

/-- What `initialize` takes from outside the program: the date of today (midnight) and what is typed at the prompt (`none`: not an
integer). [`core.py:263-265`, `core.py:289-294`] -/
structure Env where
  today : ℤ
  input : Option ℤ

/-- A number passed by the caller: Python distinguishes `float` from everything else. [`core.py:145-156`] -/
inductive PyNum
  | float (q : ℚ)
  | other

/-- The attributes of a `UseCase` (`core.py:81-106`). -/
structure UseCase where
  name : String := ""
  dateStart : Option ℤ := none
  dateEnd : Option ℤ := none
  parallel : Bool := false
  peakEnlarge : ℚ := 15 / 100
  peakTimeRange : Option (List ℤ) := none
  days : Option (List ℤ) := none
  numDays : Option ℤ := none
  datetimeindex : Option (List ℤ) := none
  users : List User := []
  /-- `self.appliances`: position of the user and identity of the appliance -/
  appliances : List (ℕ × ℕ) := []

/-- The argument of `add_user`: a user, a list, or anything else. [`core.py:158-180`] -/
inductive UserArg
  | user (u : User)
  | list (l : List UserArg)
  | other

mutual
/-- `core.py:158-180` `add_user`. -/
def addUser (uc : UseCase) : UserArg → UseCase × Except Err Unit
  | .user u => ({ uc with users := uc.users ++ [u] }, .ok ())
  | .list l => addUsers uc l
  | .other => (uc, .error .invalidType)

/-- `core.py:174-176`: the loop over a list. -/
def addUsers (uc : UseCase) : List UserArg → UseCase × Except Err Unit
  | [] => (uc, .ok ())
  | a :: l => match addUser uc a with
    | (uc, .error e) => (uc, .error e)
    | (uc, .ok ()) => addUsers uc l
end

/-- `core.py:182-187` `collect_appliances_from_users`. -/
def collectAppliances (uc : UseCase) : UseCase :=
  { uc with appliances := (uc.users.zipIdx.map (fun p => p.1.appList.map (fun a => (p.2, a.oid)))).flatten }

/-- `core.py:320-329` `is_initialized`. -/
def UseCase.isInitialized (uc : UseCase) : Bool :=
  uc.numDays.isSome && uc.datetimeindex.isSome && uc.peakTimeRange.isSome

/-- `pd.date_range(start=s, end=e)`: from `s` in steps of one day, up to `e`. [`core.py:246-248`] -/
def dateRange (s e : ℤ) : List ℤ := if e < s then [] else (List.range ((e - s) / 1440 + 1).toNat).map (fun (k : ℕ) => s + 1440 * (k : ℤ))

/-- `pd.date_range(start=s, periods=n)`; a negative `n` raises (the class of the exception depends on the version, a subclass of
`ValueError` before numpy 2). [`core.py:271-273`, `core.py:291-294`] -/
def dateRangeFrom (s n : ℤ) : Except Err (List ℤ) :=
  if n < 0 then .error .valueError else .ok ((List.range n.toNat).map (fun (k : ℕ) => s + 1440 * (k : ℤ)))

/-- `pd.date_range(end=e, periods=n)`. [`core.py:280-282`] -/
def dateRangeTo (e n : ℤ) : Except Err (List ℤ) :=
  if n < 0 then .error .valueError else .ok ((List.range n.toNat).map (fun (k : ℕ) => e - 1440 * (n - 1) + 1440 * (k : ℤ)))

/-- `pd.date_range(start=s, end=e, freq="min")`. [`core.py:313-318`, `cli.py:204-206`] -/
def minuteRange (s e : ℤ) : List ℤ := (List.range (e - s + 1).toNat).map (fun (k : ℕ) => s + (k : ℤ))

/-- The arguments of `initialize` (`core.py:203-205`). -/
structure InitArgs where
  numDays : Option ℤ := none
  peakEnlarge : Option PyNum := none
  force : Bool := false

/-- `core.py:236-243`: the argument `num_days`. -/
def initNumDays (uc : UseCase) (n : Option ℤ) : UseCase := match n with
  | none => uc
  | some n => { uc with numDays := if uc.days.isSome then none else some n }

/-- `core.py:245-259`: both dates are known. -/
def initDates (uc : UseCase) : UseCase := match uc.dateStart, uc.dateEnd with
  | some s, some e =>
    let days := dateRange s e
    match uc.numDays with
    | some n => if n ≠ days.length then { uc with days := none } else { uc with days := some days, numDays := some days.length }
    | none => { uc with days := some days, numDays := some days.length }
  | _, _ => uc

/-- `core.py:261-266`: the number of days typed at the prompt. -/
def initInput (env : Env) (uc : UseCase) : UseCase × Except Err Unit := match uc.numDays with
  | some _ => (uc, .ok ())
  | none => match env.input with
    | none => (uc, .error .valueError)
    | some n => ({ uc with numDays := some n }, .ok ())

/-- The messages of lines 274-303 use the first and the last day: `IndexError` without days. [`core.py:274-303`] -/
def showDays (uc : UseCase) : UseCase × Except Err Unit := match uc.days with
  | none => (uc, .error .typeError)
  | some [] => (uc, .error .indexError)
  | some _ => (uc, .ok ())

/-- `core.py:268-299`: the days when they are not known yet. -/
def chooseDays (env : Env) (dateStart dateEnd : Option ℤ) (n : ℤ) : Except Err (List ℤ) := match dateStart, dateEnd with
  | some s, _ => dateRangeFrom s n
  | none, some e => dateRangeTo e n
  | none, none => dateRangeFrom env.today n

/-- `core.py:268-303`: the days. -/
def initDays (env : Env) (uc : UseCase) : UseCase × Except Err Unit := match uc.days with
  | some _ => showDays uc
  | none => match chooseDays env uc.dateStart uc.dateEnd (uc.numDays.getD 0) with
    | .error e => (uc, .error e)
    | .ok d => showDays { uc with days := some d }

/-- Update one appliance of one user. [mutation of `app` in `core.py:305-307`] -/
def UseCase.updateApp (uc : UseCase) (r : ℕ × ℕ) (app : Appliance) : UseCase :=
  { uc with users := uc.users.modify r.1 (fun u => u.sync app) }

/-- The appliance a reference stands for. [`core.py:305-307`] -/
def UseCase.findApp (uc : UseCase) (r : ℕ × ℕ) : Option Appliance :=
  (uc.users[r.1]?).bind (fun u => u.appList.find? (fun a => a.oid = r.2))

/-- `core.py:305-307`: check the powers of the collected appliances. -/
def checkPowers (n : ℤ) : List (ℕ × ℕ) → UseCase → UseCase × Except Err Unit
  | [], uc => (uc, .ok ())
  | r :: rs, uc => match uc.findApp r with
    | none => (uc, .error .attributeError)
    | some app => match checkPowerValues app n with
      | .error e => (uc, .error e)
      | .ok app => checkPowers n rs (uc.updateApp r app)

/-- `core.py:361-364`: the total theoretical maximum profile. -/
def totalMaximumProfile (users : List User) : Profile := users.foldl (fun p u => fun i => p i + u.maximumProfile i) zeros

/-- `np.amax` of a daily profile. [`core.py:366-368`] -/
def profileMax (p : Profile) : ℚ := (List.ofFn p).tail.foldl max (p 0)

/-- `core.py:366-368`: the minutes of the peak window. -/
def peakWindow (p : Profile) : List ℤ :=
  ((List.finRange 1440).filter (fun i => p i = profileMax p)).map (fun (i : Fin 1440) => ((i : ℕ) : ℤ))

/-- `np.average` of a list of minutes. [`core.py:372`] -/
def average (l : List ℤ) : ℚ := (l.sum : ℚ) / l.length

/-- `core.py:361-387` `calc_peak_time_range` once `peak_enlarge` is known.  `np.squeeze` turns a peak window of one minute into a
number, which has no first element: `IndexError`. -/
def peakTimeRangeOf (users : List User) (peakEnlarge : ℚ) : Sim (List ℤ) :=
  let window := peakWindow (totalMaximumProfile users)
  match window with
  | a :: b :: rest => do
    let t ← gauss (pyRound (average window)) (1 / 3 * ((((b :: rest).getLast (by simp) - a : ℤ)) : ℚ))
    let peakTime := pyRound t
    let g ← gauss peakTime (peakEnlarge * peakTime)
    let enlarge := max (pyRound |(peakTime : ℚ) - g|) 1
    pure (arange (peakTime - enlarge) (peakTime + enlarge))
  | _ => raise .indexError

/-- Run a computation and keep its exception: the statements after it in the caller do not run, but the changes made before it
stay. [exceptions of `core.py:309-312` and of `core.py:145-156`] -/
def attempt {α : Type} (m : Sim α) : Sim (Except Err α) := fun r => match m r with
  | .ok (a, r') => .ok (.ok a, r')
  | .error e => .ok (.error e, r)

/-- `core.py:145-156` the setter of `peak_enlarge`. -/
def setPeakEnlarge (uc : UseCase) : PyNum → Sim (UseCase × Except Err Unit)
  | .float q =>
    if 0 ≤ q then do
      let uc := { uc with peakEnlarge := q }
      match ← attempt (peakTimeRangeOf uc.users uc.peakEnlarge) with
      | .error e => pure (uc, .error e)
      | .ok r => pure ({ uc with peakTimeRange := some r }, .ok ())
    else pure (uc, .error .valueError)
  | .other => pure (uc, .error .typeError)

/-- `core.py:331-387` `calc_peak_time_range(peak_enlarge)`: the use case afterwards and the range. -/
def calcPeakTimeRange (uc : UseCase) (peakEnlarge : Option PyNum) : Sim (UseCase × Except Err (List ℤ)) :=
  match peakEnlarge with
  | none => do
    let r ← attempt (peakTimeRangeOf uc.users uc.peakEnlarge)
    pure (uc, r)
  | some x => do
    let (uc, r) ← setPeakEnlarge uc x
    match r with
    | .error e => pure (uc, .error e)
    | .ok () => do
      -- the argument is used, which is now the stored value
      let r ← attempt (peakTimeRangeOf uc.users uc.peakEnlarge)
      pure (uc, r)

/-- `core.py:236-307`: `initialize` up to the peak time range. -/
def initCalendar (env : Env) (uc : UseCase) (args : InitArgs) : UseCase × Except Err Unit :=
  match initInput env (initDates (initNumDays uc args.numDays)) with
  | (uc, .error e) => (uc, .error e)
  | (uc, .ok ()) => match initDays env uc with
    | (uc, .error e) => (uc, .error e)
    | (uc, .ok ()) => checkPowers (uc.numDays.getD 0) uc.appliances uc

/-- `core.py:313-318`: the index of the minutes. -/
def initIndex (uc : UseCase) : UseCase := match uc.days with
  | some (d :: ds) => { uc with datetimeindex := some (minuteRange d ((d :: ds).getLast (by simp) + 1440 - 1)) }
  | _ => uc

/-- `core.py:203-318` `initialize`. -/
def initUseCase (env : Env) (uc : UseCase) (args : InitArgs) : Sim (UseCase × Except Err Unit) :=
  if uc.isInitialized ∧ args.force = false then pure (uc, .ok ())
  else
    let uc := if uc.isInitialized ∧ args.force = true then { uc with days := none } else uc
    match initCalendar env uc args with
    | (uc, .error e) => pure (uc, .error e)
    | (uc, .ok ()) => match args.peakEnlarge with
      | some x => do
        let (uc, r) ← setPeakEnlarge uc x
        match r with
        | .error e => pure (uc, .error e)
        | .ok () => pure (initIndex uc, .ok ())
      | none => do
        match ← attempt (peakTimeRangeOf uc.users uc.peakEnlarge) with
        | .error e => pure (uc, .error e)
        | .ok r => pure (initIndex { uc with peakTimeRange := some r }, .ok ())

/-- `core.py:189-194` the property `num_days`. -/
def numDaysProperty (env : Env) (uc : UseCase) : Sim (UseCase × Except Err ℤ) := match uc.numDays with
  | some n => pure (uc, .ok n)
  | none => do
    let (uc, r) ← initUseCase env uc {}
    match r with
    | .error e => pure (uc, .error e)
    | .ok () => pure (uc, .ok (uc.numDays.getD 0))

/-- `core.py:196-201` the property `datetimeindex`. -/
def datetimeindexProperty (env : Env) (uc : UseCase) : Sim (UseCase × Except Err (List ℤ)) := match uc.datetimeindex with
  | some l => pure (uc, .ok l)
  | none => do
    let (uc, r) ← initUseCase env uc {}
    match r with
    | .error e => pure (uc, .error e)
    | .ok () => pure (uc, .ok (uc.datetimeindex.getD []))

/-- The arguments of the constructor (`core.py:51-60`). -/
structure UseCaseArgs where
  name : String := ""
  users : List UserArg := []
  dateStart : Option ℤ := none
  dateEnd : Option ℤ := none
  parallel : Bool := false
  peakEnlarge : ℚ := 15 / 100
  randomSeed : Option ℤ := none

/-- `core.py:51-113` `UseCase(...)`.  `stream s` is the generator after `random.seed(s)`.  A seed of 0 counts as no seed (line
112).  Simplification: dates are given as timestamps, the parsing of ISO strings (lines 82-91) is Python's. -/
def mkUseCase (env : Env) (stream : ℤ → Rng) (a : UseCaseArgs) : Sim UseCase := fun rng =>
  let uc : UseCase := { name := a.name, dateStart := a.dateStart, dateEnd := a.dateEnd, parallel := a.parallel, peakEnlarge := a.peakEnlarge }
  match addUsers uc a.users with
  | (_, .error e) => .error e
  | (uc, .ok ()) =>
    let uc := collectAppliances uc
    match (if uc.dateStart.isSome ∧ uc.dateEnd.isSome then initUseCase env uc {} rng else .ok ((uc, .ok ()), rng)
        : Except Err ((UseCase × Except Err Unit) × Rng)) with
    | .error e => .error e
    | .ok ((_, .error e), _) => .error e
    | .ok ((uc, .ok ()), rng) => match a.randomSeed with
      | none => .ok (uc, rng)
      | some s => if s = 0 then .ok (uc, rng) else .ok (uc, stream s)

/-- The day of a timestamp. [`core.py:438`] -/
def dayOf (t : ℤ) : ℤ := t / 1440

/-- `core.py:436-441`: the users of one day. -/
def usersOfDay (depth : ℕ) (dayIdx : ℕ) (peak : List ℤ) (dayType : ℤ) : List User → Profile → Sim (List User × Profile)
  | [], load => pure ([], load)
  | u :: us, load => do
    let (u, l) ← generateAggregatedLoadProfile depth u dayIdx peak dayType
    let (us, load) ← usersOfDay depth dayIdx peak dayType us (fun i => load i + l i)
    pure (u :: us, load)

/-- `core.py:429-446`: the loop over the days; `rows` is the array of daily profiles. -/
def daysLoop (depth : ℕ) (peak : List ℤ) : ℕ → List ℤ → List User → List Profile → Sim (List User × List Profile)
  | _, [], us, rows => pure (us, rows)
  | k, d :: ds, us, rows => do
    let (us, load) ← usersOfDay depth k peak (getDayType (dayOf d)) us zeros
    if k < rows.length then daysLoop depth peak (k + 1) ds us (rows.set k load)
    else raise .indexError

/-- The result of `generate_daily_load_profiles`: an array of days or the flattened series (`reshape(1, n * 1440).squeeze()`).
[`core.py:448-449`, `core.py:514-515`] -/
def flatten (rows : List Profile) : List ℚ := (rows.map (fun p => List.ofFn p)).flatten

/-- `core.py:419-425`: the days must be known; an argument `days` is used only when they are not. -/
def resolveDays (uc : UseCase) (days : Option (List ℤ)) : UseCase × Except Err Unit := match uc.days with
  | some _ => (uc, .ok ())
  | none => match days with
    | some d => ({ uc with days := some d }, .ok ())
    | none => (uc, .error .valueError)

/-- `np.zeros((n, 1440))`. [`core.py:429`] -/
def emptyRows (n : ℤ) : Except Err (List Profile) := if n < 0 then .error .valueError else .ok (List.replicate n.toNat zeros)

/-- `core.py:389-452` `generate_daily_load_profiles(days, flat=False)`, sequential mode: the use case and the rows.  Simplifications:
exceptions end the simulation, what they leave behind in the objects is not modelled here; without a peak time range
(`peak_time_range is None`, after a failed `initialize`) the first event raises, here `indexError` instead of `TypeError`. -/
def generateDaily (env : Env) (depth : ℕ) (uc : UseCase) (days : Option (List ℤ)) : Sim (UseCase × List Profile) :=
  match resolveDays uc days with
  | (_, .error e) => raise e
  | (uc, .ok ()) => do
    let (uc, n) ← numDaysProperty env uc
    match n with
    | .error e => raise e
    | .ok n => do
      let rows ← liftE (emptyRows n)
      let (us, rows) ← daysLoop depth (uc.peakTimeRange.getD []) 0 (uc.days.getD []) uc.users rows
      pure ({ uc with users := us }, rows)

/-! ## Parallel mode -/

/-- One task of the pool (`core.py:486`): a copy of the appliance, the preference of its user at that moment, and the arguments. -/
structure Task where
  /-- position of the user, to tell the copies of the same object inside a chunk -/
  user : ℕ
  app : Appliance
  pref : ℤ
  dayIdx : ℕ
  dayType : ℤ

/-- `core.py:477-486`: the tasks. -/
def parallelTasks (uc : UseCase) (days : List ℤ) : List Task :=
  (days.zipIdx.map (fun d =>
    (uc.users.zipIdx.map (fun u =>
      (u.1.appList.map (fun a =>
        List.replicate u.1.numUsers.toNat (⟨u.2, a, u.1.randDailyPref, d.2, getDayType (dayOf d.1)⟩ : Task))).flatten)).flatten)).flatten

/-- Cut a list into chunks (`chunksize=4`, `core.py:498`). -/
def chunks {α : Type} (n : ℕ) : ℕ → List α → List (List α)
  | 0, _ => []
  | _ + 1, [] => []
  | fuel + 1, x :: xs => (x :: xs).take (n + 1) :: chunks n fuel ((x :: xs).drop (n + 1))

/-- `core.py:40-44` on one chunk, in the worker.  The tasks of a chunk are pickled together, so that a task finds the appliance in
the state in which an earlier task of the same chunk left it. -/
def runChunk (depth : ℕ) (peak : List ℤ) : List Task → Sim (List (ℕ × Profile))
  | [] => pure []
  | t :: ts => match t.app.power[t.dayIdx]? with
    | none => raise .indexError
    | some p => do
      let app ← generateLoadProfile t.app depth t.pref t.dayIdx peak t.dayType p
      let rest ← runChunk depth peak (ts.map (fun s => if s.user = t.user ∧ s.app.oid = app.oid then { s with app := app } else s))
      pure ((t.dayIdx, app.dailyUse) :: rest)
termination_by l => l.length
decreasing_by simp

/-- `core.py:500-505`: what the parent process collects, in the order in which the chunks arrive; an exception in a worker is
raised in the parent when its chunk is read. -/
def collectChunks (depth : ℕ) (peak : List ℤ) (chs : List (List Task)) (rngs : ℕ → Rng) : List ℕ → Except Err (List (ℕ × Profile))
  | [] => .ok []
  | k :: order => match runChunk depth peak ((chs[k]?).getD []) (rngs k) with
    | .error e => .error e
    | .ok (l, _) => match collectChunks depth peak chs rngs order with
      | .error e => .error e
      | .ok rest => .ok (l ++ rest)

/-- `np.vstack(l).sum(axis=0)`. [`core.py:509-512`] -/
def sumProfiles (l : List Profile) : Profile := fun i => (l.map (fun p => p i)).sum

/-- `core.py:507-512`: the rows; a day without result has no entry in the dictionary: `KeyError`. -/
def parallelRows (results : List (ℕ × Profile)) : ℕ → ℕ → Except Err (List Profile)
  | _, 0 => .ok []
  | k, n + 1 => match (results.filter (fun r => r.1 = k)).map (fun r => r.2) with
    | [] => .error .keyError
    | l => match parallelRows results (k + 1) n with
      | .error e => .error e
      | .ok rest => .ok (sumProfiles l :: rest)

/-- `core.py:454-519` `generate_daily_load_profiles_parallel` on an initialised use case: every worker draws from its own generator
(`rngs k` for chunk `k`; Python reseeds the generator of a forked worker), `order` is the order in which the chunks arrive.  The
objects of the parent process are not changed.  Simplifications: sums of floats are exact; the creation of the pool and pickling do
not fail. -/
def generateParallel (depth : ℕ) (uc : UseCase) (rngs : ℕ → Rng) (order : List ℕ) : Except Err (List Profile) :=
  match uc.days, uc.numDays, uc.peakTimeRange with
  | some days, some n, some peak =>
    let tasks := parallelTasks uc days
    match collectChunks depth peak (chunks 3 tasks.length tasks) rngs order with
    | .error e => .error e
    | .ok results =>
      if n < 0 then .error .valueError else parallelRows results 0 n.toNat
  | _, _, _ => .error .attributeError

end Ramp
