import Verif.Spec11

/-! # Specification: time of use and windows that vary -/

set_option autoImplicit false

namespace Ramp

/-- The longest time of use: `func_time` raised by its variability. -/
def longestTime (a : Appliance) : ℤ := ⌊(a.funcTime : ℚ) * (1 + a.timeFractionRandomVariability)⌋

/-- The shortest time of use: `func_time` lowered by its variability. -/
def shortestTime (a : Appliance) : ℤ := ⌊(a.funcTime : ℚ) * (1 - a.timeFractionRandomVariability)⌋

/-- Only whether the appliance is used on a day, when and for how long is left to chance: no duty cycles, all appliances on together, no variability of power. -/
structure OnlyHowLong (a : Appliance) : Prop where
  noCycles : a.fixedCycle ≤ 0
  notFlat : a.flat ≠ "yes"
  together : a.fixed ≠ "no"
  power : a.thermalPVar = 0

/-- The variability of the time of use and of the windows has no side effects: the windows stay inside of the day, the shortest time of use is not below `func_cycle`, and
wherever the windows are moved they have room for the longest time of use. -/
structure RoomToVary (a : Appliance) : Prop where
  inDay1 : a.randomVar1 ≤ a.window1.1 ∧ a.window1.2 + a.randomVar1 ≤ 1440
  inDay2 : a.randomVar2 ≤ a.window2.1 ∧ a.window2.2 + a.randomVar2 ≤ 1440
  inDay3 : a.randomVar3 ≤ a.window3.1 ∧ a.window3.2 + a.randomVar3 ≤ 1440
  least : a.funcCycle ≤ shortestTime a
  longest : ∀ w1 w2 w3, MovedWindow a.window1 a.randomVar1 w1 → MovedWindow a.window2 a.randomVar2 w2 → MovedWindow a.window3 a.randomVar3 w3 →
    (longestTime a : ℚ) ≤ 99 / 100 * totalTime w1 w2 w3 ∧ RoomFor a.funcCycle (longestTime a) w1 w2 w3

/-- The energy of the appliance on a day of use with `t` minutes of use at the power `p`, in watt minutes; the other minutes of the windows count 0.001. -/
def energyOfMinutes (a : Appliance) (p t : ℚ) : ℚ := t * (a.number * p) + 1 / 1000 * (totalTime a.window1 a.window2 a.window3 - t)

/-- How many integers the ends of the windows are drawn from at most: `2 * random_var + 1` for each end of a window. -/
def windowDraws (a : Appliance) : ℤ := 2 * max a.randomVar1 (max a.randomVar2 a.randomVar3) + 1

/-- A possible average of the time of use of the appliance: `func_time`, or up to half a minute less (and an error of the generator's resolution); exactly
`func_time` without variability. -/
structure AboutFuncTime (a : Appliance) (t : ℚ) : Prop where
  least : (a.funcTime : ℚ) - 1 / 2 - (a.funcTime + 1) / 2 ^ 52 ≤ t
  most : t ≤ (a.funcTime : ℚ) + (a.funcTime + 1) / 2 ^ 52
  exact : a.timeFractionRandomVariability = 0 → t = a.funcTime

end Ramp
