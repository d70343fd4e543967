import Verif.Model.User

/-! # Histories of calls of the construction API

The objects a program holds: the appliances of the user's list, and appliances created but not (yet) in the list.  Every object is
referred to by its identity.  The methods themselves are those of `Verif.Model.User`. -/

set_option autoImplicit false

namespace Ramp

/-- A user category and the appliances created for it. [`core.py:668-676`, `core.py:1141-1224`] -/
structure ApiState where
  user : User := {}
  /-- appliances outside the list of the user -/
  loose : List Appliance := []
  /-- identity of the next object -/
  next : ℕ := 0

/-- The current state of the object `oid`. [variables of the program that refer to objects made by `core.py:707-797`, `core.py:1058-1224`] -/
def ApiState.lookup (s : ApiState) (oid : ℕ) : Option Appliance :=
  (s.user.appList.find? (fun a => a.oid = oid)) <|> (s.loose.find? (fun a => a.oid = oid))

/-- Store the state of an object outside the list. [mutation of `self` in `core.py:1339-1784`] -/
def ApiState.storeLoose (s : ApiState) (app : Appliance) : ApiState :=
  { s with loose := s.loose.map (fun a => if a.oid = app.oid then app else a) }

/-- The calls of a program. [`core.py:694-970`, `core.py:1058-1784`] -/
inductive ApiOp
  /-- `Appliance(user, ...)` (`core.py:1058-1224`) -/
  | construct (numDays : ℤ) (a : AppArgs)
  /-- `app.windows(...)` (`core.py:1339-1448`) -/
  | windows (oid : ℕ) (w : WindowsArgs)
  /-- `app.specific_cycle(num, ...)` (`core.py:1600-1749`) -/
  | cycle (oid : ℕ) (num : ℤ) (c : CycleArgs)
  /-- `app.cycle_behaviour(...)` (`core.py:1752-1784`) -/
  | behaviour (oid : ℕ) (cw11 cw12 cw21 cw22 cw31 cw32 : ℤ × ℤ)
  /-- `user.add_appliance(a, b, ...)` with objects (`core.py:762-767`) -/
  | addObjects (oids : List ℕ)
  /-- `user.add_appliance(...)` with arguments (`core.py:707-797`) -/
  | add (numDays : ℤ) (a : AddArgs)
  /-- the legacy `user.Appliance(...)` (`core.py:926-970`) -/
  | legacy (numDays : ℤ) (a : LegacyArgs)

/-- The argument of `add_appliance` that refers to the object `o`. [`core.py:762-767`] -/
def ApiState.argument (s : ApiState) (o : ℕ) : InstArg := match s.lookup o with
  | some a => .app a
  | none => .other

/-- One call: the state afterwards and the outcome.  A call on an object that does not exist cannot be written in a program; the
model answers `attributeError` and changes nothing. [`core.py:694-970`, `core.py:1058-1784`] -/
def apiStep (strict : Bool) (s : ApiState) : ApiOp → ApiState × Except Err Unit
  | .construct numDays a => match mkAppliance s.next numDays a with
    | .error e => (s, .error e)
    | .ok app => ({ s with loose := s.loose ++ [app], next := s.next + 1 }, .ok ())
  | .windows oid w => match s.lookup oid with
    | none => (s, .error .attributeError)
    | some app => match windows strict s.user app w with
      | (u, app, r) => ({ s with user := u }.storeLoose app, r)
  | .cycle oid num c => match s.lookup oid with
    | none => (s, .error .attributeError)
    | some app => match userCycle s.user app num c with
      | (u, app, r) => ({ s with user := u }.storeLoose app, r)
  | .behaviour oid cw11 cw12 cw21 cw22 cw31 cw32 => match s.lookup oid with
    | none => (s, .error .attributeError)
    | some app =>
      let app := cycleBehaviour app cw11 cw12 cw21 cw22 cw31 cw32
      ({ s with user := s.user.sync app }.storeLoose app, .ok ())
  | .addObjects oids =>
    match addInstances strict s.user (oids.map s.argument) with
    | (u, r) => ({ s with user := u }, r)
  | .add numDays a => match addAppliance strict s.next numDays s.user a with
    | (u, .error e) => ({ s with user := u, next := s.next + 1 }, .error e)
    | (u, .ok app) => ({ user := u, loose := s.loose ++ [app], next := s.next + 1 }, .ok ())
  | .legacy numDays a => match legacyAppliance strict s.next numDays s.user a with
    | (u, .error e) => ({ s with user := u, next := s.next + 1 }, .error e)
    | (u, .ok app) => ({ user := u, loose := s.loose ++ [app], next := s.next + 1 }, .ok ())

/-- A program: a list of calls, each of which may raise (and be caught). [programs over `core.py:694-970`, `core.py:1058-1784`] -/
def apiRun (strict : Bool) : ApiState → List ApiOp → ApiState
  | s, [] => s
  | s, op :: ops => apiRun strict (apiStep strict s op).1 ops

/-- The program when no exception is caught: it stops at the first one. [programs over `core.py:694-970`, `core.py:1058-1784`] -/
def apiRunUncaught (strict : Bool) : ApiState → List ApiOp → ApiState × Except Err Unit
  | s, [] => (s, .ok ())
  | s, op :: ops => match apiStep strict s op with
    | (s, .error e) => (s, .error e)
    | (s, .ok ()) => apiRunUncaught strict s ops

end Ramp
