import Verif.Spec8

/-! # Specification: averages -/

set_option autoImplicit false

open MeasureTheory ENNReal

namespace Ramp

/-- The same users, whose appliances have no variability of power: `thermal_p_var = 0`. -/
def constantPowers (us : List User) : List User := us.map (fun u => { u with appList := u.appList.map (fun a => { a with thermalPVar := 0 }) })

/-- The expected load of minute `i` of the day number `k` of a simulation. -/
noncomputable def expectedLoad (μ : Measure Draw) (rows : Sim (List Profile)) (k : ℕ) (i : Fin 1440) : ℝ≥0∞ :=
  MeanOf μ rows (fun l => ENNReal.ofReal (l.getD k zeros i : ℝ))

/-- The expected energy of the day number `k` of a simulation, in watt minutes. -/
noncomputable def expectedEnergy (μ : Measure Draw) (rows : Sim (List Profile)) (k : ℕ) : ℝ≥0∞ :=
  MeanOf μ rows (fun l => energyOf (l.getD k zeros))

/-! ## Appliances used once a day -/

/-- No minute belongs to both windows. -/
def ApartWindows (w v : ℤ × ℤ) : Prop := w.1 = w.2 ∨ v.1 = v.2 ∨ w.2 ≤ v.1 ∨ v.2 ≤ w.1

/-- Only whether the appliance is used on a day, and when, is left to chance, and it is used once: no duty cycles, all appliances on together, no variability of
power, windows and time of use, windows without common minutes, a time of use of just the length of one event. -/
structure OneUse (a : Appliance) : Prop where
  noCycles : a.fixedCycle ≤ 0
  notFlat : a.flat ≠ "yes"
  together : a.fixed ≠ "no"
  power : a.thermalPVar = 0
  time : a.timeFractionRandomVariability = 0
  windows : a.randomVar1 = 0 ∧ a.randomVar2 = 0 ∧ a.randomVar3 = 0
  once : a.funcTime = a.funcCycle
  apart : ApartWindows a.window1 a.window2 ∧ ApartWindows a.window1 a.window3 ∧ ApartWindows a.window2 a.window3

/-- The minutes at which such a use can start: those that leave room for it in a window. -/
def startsOfUse (a : Appliance) : Set ℤ := {m | ∃ w ∈ [a.window1, a.window2, a.window3], w.1 ≤ m ∧ m + a.funcCycle ≤ w.2}

/-- The share of the starts for which minute `t` is a minute of use. -/
noncomputable def shareOfStarts (a : Appliance) (t : ℤ) : ℚ :=
  ({m | m ∈ startsOfUse a ∧ m ≤ t ∧ t < m + a.funcCycle}.ncard : ℚ) / ((startsOfUse a).ncard : ℚ)

open Classical in
/-- The load curve of such an appliance on a day of use, the day number `k`: the full power for the share of the starts that make the minute one of use, the
marker of 0.001 for the others, nothing outside the windows. -/
noncomputable def curveOfUse (k : ℕ) (a : Appliance) (t : ℤ) : ℚ :=
  if ∃ w ∈ [a.window1, a.window2, a.window3], w.1 ≤ t ∧ t < w.2 then
    shareOfStarts a t * (a.number * a.power.getD k 0) + (1 - shareOfStarts a t) * (1 / 1000)
  else 0

end Ramp
