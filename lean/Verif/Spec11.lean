import Verif.Spec4

/-! # Specification: room for the time of use -/

set_option autoImplicit false

namespace Ramp

/-- The minutes of use of an appliance without variability of time and windows on a day: `func_time`, at least `func_cycle`, at most 99 % of its windows. -/
def usableMinutes (a : Appliance) : ℤ := min (max a.funcTime a.funcCycle) ⌊(99 / 100 : ℚ) * totalTime a.window1 a.window2 a.window3⌋

/-- `u` minutes of use, in events of at least `c` minutes, can block a window of `T` minutes: up to `u / c` events, and less than `c` minutes before each of them and
after the last. -/
def Blocks (c T u : ℤ) : Prop := (u = 0 ∨ c ≤ u) ∧ u ≤ T ∧ T ≤ u + (u / c + 1) * (c - 1)

/-- The windows have room for `t` minutes in events of at least `c` minutes, wherever the events happen to be: blocking all windows takes `t` minutes or more. -/
def RoomFor (c t : ℤ) (w1 w2 w3 : ℤ × ℤ) : Prop :=
  ∀ u1 u2 u3, Blocks c (w1.2 - w1.1) u1 → Blocks c (w2.2 - w2.1) u2 → Blocks c (w3.2 - w3.1) u3 → t ≤ u1 + u2 + u3

/-- The windows of the appliance have room for its time of use. -/
def LeavesRoom (a : Appliance) : Prop := RoomFor a.funcCycle (usableMinutes a) a.window1 a.window2 a.window3

/-- Only whether the appliance is used on a day, and when, is left to chance: no duty cycles, all appliances on together, no variability of power, windows and time
of use. -/
structure OnlyWhen (a : Appliance) : Prop where
  noCycles : a.fixedCycle ≤ 0
  notFlat : a.flat ≠ "yes"
  together : a.fixed ≠ "no"
  power : a.thermalPVar = 0
  time : a.timeFractionRandomVariability = 0
  windows : a.randomVar1 = 0 ∧ a.randomVar2 = 0 ∧ a.randomVar3 = 0

/-- The energy of the appliance on a day of use with all its minutes of use, at the power `p`, in watt minutes. -/
def fullEnergy (a : Appliance) (p : ℚ) : ℚ :=
  usableMinutes a * (a.number * p) + 1 / 1000 * (totalTime a.window1 a.window2 a.window3 - usableMinutes a)

end Ramp
