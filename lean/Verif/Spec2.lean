import Verif.Spec
import Verif.Model.UseCase

/-! # What a day of simulation means

Described without reference to how RAMP goes through users and appliances: a day of an appliance is the profile of one run of
`generate_load_profile` of the appliance as it was configured; the rest is addition. -/

set_option autoImplicit false

namespace Ramp

/-- Minute by minute sum. -/
def total (ps : List Profile) : Profile := fun i => (ps.map (fun p => p i)).sum

/-- `p` is a possible profile of appliance `a` on day number `dayIdx`, when the member's preference of the day is `pref`. -/
def ApplianceDay (depth dayIdx : ℕ) (peak : List ℤ) (dayType pref : ℤ) (a : Appliance) (p : Profile) : Prop :=
  ∃ power a', a.power[dayIdx]? = some power ∧ Returns (generateLoadProfile a depth pref dayIdx peak dayType power) a' ∧ p = a'.dailyUse

/-- The preferences a member can have on a day. -/
def PreferenceOf (u : User) (pref : ℤ) : Prop := if u.userPreference = 0 then pref = 0 else 1 ≤ pref ∧ pref ≤ u.userPreference

/-- `p` is a possible load of one member of the user category: one preference, one profile per appliance. -/
def MemberDay (depth dayIdx : ℕ) (peak : List ℤ) (dayType : ℤ) (u : User) (p : Profile) : Prop :=
  ∃ pref ps, PreferenceOf u pref ∧ List.Forall₂ (ApplianceDay depth dayIdx peak dayType pref) u.appList ps ∧ p = total ps

/-- `p` is a possible load of the user category: `num_users` members, each on its own. -/
def UserDay (depth dayIdx : ℕ) (peak : List ℤ) (dayType : ℤ) (u : User) (p : Profile) : Prop :=
  ∃ ps : List Profile, ps.length = u.numUsers.toNat ∧ (∀ q ∈ ps, MemberDay depth dayIdx peak dayType u q) ∧ p = total ps

/-- `p` is a possible load of the users together. -/
def CaseDay (depth dayIdx : ℕ) (peak : List ℤ) (dayType : ℤ) (us : List User) (p : Profile) : Prop :=
  ∃ ps, List.Forall₂ (UserDay depth dayIdx peak dayType) us ps ∧ p = total ps

/-- The weekday of a timestamp decides the type of the day: 0 from Monday to Friday, 1 on Saturday and Sunday.  Minute 0 is a
Monday. -/
def typeOfDay (t : ℤ) : ℤ := if (t / 1440) % 7 < 5 then 0 else 1

/-- The two appliances have the same definition: they differ at most in what simulations leave behind (the profile of the last
day, free ranges, duty cycles of the last day, last duty cycle used). -/
def SameDefinition (a b : Appliance) : Prop :=
  b = { a with dailyUse := b.dailyUse, freeSpots := b.freeSpots, randomCycle1 := b.randomCycle1, randomCycle2 := b.randomCycle2,
               randomCycle3 := b.randomCycle3, currentDutyCycleId := b.currentDutyCycleId }

/-- The two users have the same definition: they differ at most in what simulations leave behind (preference and load of the last
day, leftovers of the appliances). -/
structure SameUser (u v : User) : Prop where
  name : v.userName = u.userName
  number : v.numUsers = u.numUsers
  preference : v.userPreference = u.userPreference
  appliances : List.Forall₂ SameDefinition u.appList v.appList

/-- `n` consecutive days from `d` on. -/
def daysFrom (d : ℤ) : ℕ → List ℤ
  | 0 => []
  | n + 1 => d :: daysFrom (d + 1440) n

/-- The calendar of a use case is consistent: `num_days` consecutive days (at least one), and an index of all their minutes. -/
def ConsistentCalendar (uc : UseCase) : Prop :=
  ∃ (d : ℤ) (n : ℕ), 1 ≤ n ∧ uc.days = some (daysFrom d n) ∧ uc.numDays = some (n : ℤ) ∧
    uc.datetimeindex = some (minutesFrom d (1440 * n))

/-- The use case is ready to simulate the days `ds`. -/
structure Ready (uc : UseCase) (ds : List ℤ) (peak : List ℤ) : Prop where
  days : uc.days = some ds
  numDays : uc.numDays = some (ds.length : ℤ)
  peak : uc.peakTimeRange = some peak

/-- A use case that has not been initialised and for which nobody has chosen days yet, as after `UseCase(...)` without both
dates. -/
def Fresh (uc : UseCase) : Prop := uc.days = none ∧ uc.numDays = none ∧ uc.datetimeindex = none

/-- The first of `n` days: the start date, else `n - 1` days before the end date, else today. -/
def firstDay (env : Env) (uc : UseCase) (n : ℤ) : ℤ := match uc.dateStart, uc.dateEnd with
  | some s, _ => s
  | none, some e => e - 1440 * (n - 1)
  | none, none => env.today

/-- The profile of maximum load of the users: at each minute the sum over users, members, appliances and units of the mean power
times the curve of the appliance (0.001 inside the windows before the first simulation). -/
def maximumLoad (us : List User) : Profile := fun i =>
  (us.map (fun u => (u.appList.map (fun a => a.dailyUse i * (a.power.sum / (a.power.length : ℚ)) * (a.number : ℚ))).sum * (u.numUsers : ℚ))).sum

/-- Minute `i` is a peak of the profile `p`. -/
def IsPeak (p : Profile) (i : Fin 1440) : Prop := ∀ j, p j ≤ p i

mutual
/-- The leaves of an argument of `add_user`, from left to right; `none` is something that is not a user. -/
def leaves : UserArg → List (Option User)
  | .user u => [some u]
  | .other => [none]
  | .list l => leavesOfList l
def leavesOfList : List UserArg → List (Option User)
  | [] => []
  | a :: l => leaves a ++ leavesOfList l
end

/-- The user without the appliances that do not satisfy `keep`. -/
def User.only (u : User) (keep : Appliance → Bool) : User := { u with appList := u.appList.filter keep }

/-- Upper bound of the load of one appliance when no configured power exceeds `P`. -/
def applianceBound (P : Appliance → ℚ) (a : Appliance) : ℚ := max (1 / 1000) (a.number * P a * (1 + a.thermalPVar))

/-- An appliance with sensible values whose configured powers lie between 0 and `P`. -/
structure PowersUpTo (P : ℚ) (a : Appliance) : Prop where
  windows : ValidWindows a
  cycle : 1 ≤ a.funcCycle
  number : 1 ≤ a.number
  thermal : 0 ≤ a.thermalPVar ∧ a.thermalPVar ≤ 1
  powers : ∀ p ∈ a.power, 0 ≤ p ∧ p ≤ P
  cyclePowers : ∀ p ∈ [a.p11, a.p12, a.p21, a.p22, a.p31, a.p32], 0 ≤ p ∧ p ≤ P

/-! ## Parallel mode -/

/-- `p` is a possible load of the user category in parallel mode: every appliance is run `num_users` times, each time with the
preference `pref`. -/
def ParallelUserDay (depth dayIdx : ℕ) (peak : List ℤ) (dayType : ℤ) (u : User) (p : Profile) : Prop :=
  ∃ ps, List.Forall₂ (fun a q => ∃ rs : List Profile, rs.length = u.numUsers.toNat ∧
    (∀ r ∈ rs, ApplianceDay depth dayIdx peak dayType u.randDailyPref a r) ∧ q = total rs) u.appList ps ∧ p = total ps

/-- `p` is a possible load of the users together in parallel mode. -/
def ParallelDay (depth dayIdx : ℕ) (peak : List ℤ) (dayType : ℤ) (us : List User) (p : Profile) : Prop :=
  ∃ ps, List.Forall₂ (ParallelUserDay depth dayIdx peak dayType) us ps ∧ p = total ps

/-- The appliances of each user are different objects. -/
def DistinctAppliances (us : List User) : Prop := ∀ u ∈ us, (u.appList.map Appliance.oid).Nodup

/-- The number of runs of appliances per day. -/
def runsPerDay (us : List User) : ℕ := (us.map (fun u => u.numUsers.toNat * u.appList.length)).sum

/-- The orders in which the chunks of four runs can arrive. -/
def ArrivalOrder (us : List User) (ds : List ℤ) (order : List ℕ) : Prop := order.Perm (List.range ((runsPerDay us * ds.length + 3) / 4))

end Ramp
