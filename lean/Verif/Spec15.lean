import Verif.Spec9
import Verif.Spec12
import Verif.Spec13

/-! # Specification: expected energies and loads of entries of several appliances -/

set_option autoImplicit false

open MeasureTheory ENNReal

namespace Ramp

/-- The energy of a day of use with `t` minutes of use of `c` appliances of the power `p`, in watt minutes; the other minutes of the windows count 0.001. -/
def energyTogether (a : Appliance) (c p t : ℚ) : ℚ := t * (c * p) + 1 / 1000 * (totalTime a.window1 a.window2 a.window3 - t)

open Classical in
/-- The load curve of an appliance used once a day, when `c` of them are on together. -/
noncomputable def curveTogether (c : ℚ) (k : ℕ) (a : Appliance) (t : ℤ) : ℚ :=
  if ∃ w ∈ [a.window1, a.window2, a.window3], w.1 ≤ t ∧ t < w.2 then
    shareOfStarts a t * (c * a.power.getD k 0) + (1 - shareOfStarts a t) * (1 / 1000)
  else 0

/-- The sum over users and appliances of `num_users` times the chance of use on a day of this type times `value`. -/
noncomputable def sumOfUses (μ : Measure Draw) (dayType : ℤ) (us : List User) (value : Appliance → ℚ) : ℝ≥0∞ :=
  (us.map (fun u => (u.numUsers.toNat : ℝ≥0∞) * (u.appList.map (fun a => chanceOfUse μ dayType u a * ENNReal.ofReal ((value a : ℚ) : ℝ))).sum)).sum

/-- No duty cycles and not `flat`; powers, windows, time of use and the number on together may vary. -/
structure PlainUse (a : Appliance) : Prop where
  noCycles : a.fixedCycle ≤ 0
  notFlat : a.flat ≠ "yes"

/-- Used once a day, without duty cycles: the time of use is just the length of one event, windows without common minutes and without variability; powers and the number on
together may vary. -/
structure OnceADay (a : Appliance) : Prop extends PlainUse a where
  time : a.timeFractionRandomVariability = 0
  windows : a.randomVar1 = 0 ∧ a.randomVar2 = 0 ∧ a.randomVar3 = 0
  once : a.funcTime = a.funcCycle
  apart : ApartWindows a.window1 a.window2 ∧ ApartWindows a.window1 a.window3 ∧ ApartWindows a.window2 a.window3

end Ramp
