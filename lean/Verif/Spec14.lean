import Verif.Model.Messages
import Verif.Spec2

/-! # Specification: the messages of `initialize` and of a simulation -/

set_option autoImplicit false

namespace Ramp

/-- What the warning "The app `name` has duty cycle option on (with `number` cycle(s)). However, the switch on window [`s`, `e`] fell outside the
provided duty cycle windows `ws`" says about the appliance `a`: it has duty cycles and these cycle windows, the event takes the minutes from `s` up to
and without `e`, at least `func_cycle` of them, and none of them is in a cycle window. -/
structure OutsideEvent (a : Appliance) (name : String) (number s e : ℤ) (ws : List (ℤ × ℤ)) : Prop where
  name : name = a.name
  number : number = a.fixedCycle
  cycles : 0 < a.fixedCycle
  windows : ws = [a.cw11, a.cw12, a.cw21, a.cw22, a.cw31, a.cw32]
  long : a.funcCycle ≤ e - s
  outside : ∀ w ∈ ws, ∀ m, s ≤ m → m < e → ¬ (w.1 ≤ m ∧ m ≤ w.2)

/-- The message is a warning about a switch on event outside of all duty cycle windows. -/
def IsCycleWarning (m : Message) : Prop := ∃ name number s e ws, m = .outsideCycles name number s e ws

/-- The messages "Day 1 / n completed", ..., "Day k / n completed". -/
def daysReported (k n : ℕ) : List Message := (List.range k).map (fun (i : ℕ) => .dayCompleted ((i : ℤ) + 1) n)

/-- Those of the messages that report the end of a day. -/
def reports (l : List Message) : List Message := l.filter (fun m => match m with | .dayCompleted _ _ => true | _ => false)

/-- Those of the messages that warn of an event outside of all duty cycle windows. -/
def cycleWarnings (l : List Message) : List Message := l.filter (fun m => match m with | .outsideCycles _ _ _ _ _ => true | _ => false)

/-- Those of the messages that announce the days to be simulated. -/
def announcements (l : List Message) : List Message := l.filter (fun m => match m with | .willSimulate _ _ _ => true | _ => false)

end Ramp
