import Verif.Model.SaveLoad

/-! # Model of a call of `add_appliance` as it is written in a program

`user.add_appliance(v1, v2, ..., name1=w1, name2=w2, ...)`: how positional and keyword arguments are matched with the parameters of the
constructor, of `windows` and of `specific_cycle`.  Simplification: a value of a type that the parameter does not accept gives `typeError`
at once, which stands for whatever Python does later with such a value. -/

set_option autoImplicit false

namespace Ramp

/-- `d[k] = v` for a dictionary. [`core.py:771`] -/
def dictSet : Kwargs → String → Val → Kwargs
  | [], k, v => [(k, v)]
  | (k', v') :: d, k, v => if k' = k then (k', v) :: d else (k', v') :: dictSet d k v

/-- `core.py:769-771`: the positional arguments are written into the keyword arguments. -/
def mergeArgs (pos : List Val) (kw : Kwargs) : Kwargs :=
  (applianceArgs.zip pos).foldl (fun d p => dictSet d p.1 p.2) kw

/-- `core.py:774-776` and `core.py:782-784`: move the named arguments to a dictionary of their own; first the ones moved, then the rest. -/
def popArgs : List String → Kwargs → Kwargs × Kwargs
  | [], kw => ([], kw)
  | k :: ks, kw => match kw.lookup k with
    | some v =>
      let r := popArgs ks (kw.filter (fun p => p.1 ≠ k))
      ((k, v) :: r.1, r.2)
    | none => popArgs ks kw

/-- `core.py:769-797` `add_appliance` with arguments that are not appliances: the user afterwards and the returned appliance or the
exception.  The constructor accepts the names of `APPLIANCE_ARGS` only (`core.py:1059-1077`). -/
def addCall (strict : Bool) (oid : ℕ) (numDays : ℤ) (u : User) (pos : List Val) (kw : Kwargs) : User × Except Err Appliance :=
  let kw := mergeArgs pos kw
  let w := popArgs windowsParameters kw
  let c1 := popArgs ["p_11", "t_11", "cw11", "p_12", "t_12", "cw12", "r_c1"] w.2
  let c2 := popArgs ["p_21", "t_21", "cw21", "p_22", "t_22", "cw22", "r_c2"] c1.2
  let c3 := popArgs ["p_31", "t_31", "cw31", "p_32", "t_32", "cw32", "r_c3"] c2.2
  if c3.2.any (fun p => p.1 ∉ applianceArgs) then (u, .error .typeError)
  else match kwAppArgs c3.2, kwWindows w.1, kwCycle c1.1 ["p_11", "t_11", "cw11", "p_12", "t_12", "cw12", "r_c1"],
      kwCycle c2.1 ["p_21", "t_21", "cw21", "p_22", "t_22", "cw22", "r_c2"],
      kwCycle c3.1 ["p_31", "t_31", "cw31", "p_32", "t_32", "cw32", "r_c3"] with
    | .ok a, .ok w, .ok c1, .ok c2, .ok c3 =>
      addAppliance strict oid numDays u { app := a, windows := w, cycle1 := c1, cycle2 := c2, cycle3 := c3 }
    | _, _, _, _, _ => (u, .error .typeError)

end Ramp
