import Verif.Model.UseCase

/-! # Model of a user that generates profiles on its own: `generate_single_load_profile` and `generate_aggregated_load_profile` without
an explicit peak time range -/

set_option autoImplicit false

namespace Ramp

/-- A user with its attribute `usecase`: `none` when it is `None`, otherwise the `peak_time_range` of the use case.  Simplification: a use
case without a peak time range (before `initialize`) is not represented. [`core.py:668`, `core.py:995`] -/
structure BoundUser where
  user : User
  usecase : Option (List ℤ) := none

/-- The peak time range of a call without argument: that of the use case, or of a default use case (with the default `peak_enlarge=0.15`)
of this user, which is created now and stays attached to the user. [`core.py:994-1002`] -/
def peakFor (b : BoundUser) : Option (List ℤ) → Sim (BoundUser × List ℤ)
  | some given => pure (b, given)
  | none => match b.usecase with
    | some r => pure (b, r)
    | none => do
      let r ← peakTimeRangeOf [b.user] (15 / 100)
      pure ({ b with usecase := some r }, r)

/-- `core.py:972-1020` `generate_single_load_profile`. -/
def standaloneSingle (depth : ℕ) (b : BoundUser) (profI : ℕ) (given : Option (List ℤ)) (dayType : ℤ) : Sim (BoundUser × Profile) := do
  let (b, peak) ← peakFor b given
  let (u, p) ← generateSingleLoadProfile depth b.user profI peak dayType
  pure ({ b with user := u }, p)

/-- `core.py:1049-1053`: the loop over the members. -/
def standaloneLoop (depth : ℕ) (profI : ℕ) (given : Option (List ℤ)) (dayType : ℤ) : ℕ → BoundUser → Profile → Sim (BoundUser × Profile)
  | 0, b, load => pure (b, load)
  | n + 1, b, load => do
    let (b, single) ← standaloneSingle depth b profI given dayType
    standaloneLoop depth profI given dayType n b (fun i => load i + single i)

/-- `core.py:1022-1055` `generate_aggregated_load_profile`. -/
def standaloneAggregated (depth : ℕ) (b : BoundUser) (profI : ℕ) (given : Option (List ℤ)) (dayType : ℤ) : Sim (BoundUser × Profile) := do
  let (b, load) ← standaloneLoop depth profI given dayType b.user.numUsers.toNat b zeros
  pure ({ b with user := { b.user with load := some load } }, load)

/-- A call of one of the two methods. [`core.py:972-1055`] -/
structure ProfileCall where
  aggregated : Bool
  profI : ℕ := 0
  peak : Option (List ℤ) := none
  dayType : ℤ := 0

/-- One call. [`core.py:972-1055`] -/
def standaloneCall (depth : ℕ) (b : BoundUser) (c : ProfileCall) : Sim (BoundUser × Profile) :=
  if c.aggregated then standaloneAggregated depth b c.profI c.peak c.dayType else standaloneSingle depth b c.profI c.peak c.dayType

/-- A sequence of calls: the profiles they return. [`core.py:972-1055`] -/
def standaloneCalls (depth : ℕ) : List ProfileCall → BoundUser → Sim (BoundUser × List Profile)
  | [], b => pure (b, [])
  | c :: cs, b => do
    let (b, p) ← standaloneCall depth b c
    let (b, ps) ← standaloneCalls depth cs b
    pure (b, p :: ps)

end Ramp
