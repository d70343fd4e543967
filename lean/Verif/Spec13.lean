import Verif.Spec12
import Verif.Lemmas.Prob

/-! # Specification: how many appliances are on together, on average -/

set_option autoImplicit false

open MeasureTheory ENNReal

namespace Ramp

/-- The appliances of `a` replaced by a single one with `κ a` times the power (`fixed` makes no difference then), in each of its duty cycles too. -/
def asOneAppliance (κ : Appliance → ℚ) (a : Appliance) : Appliance :=
  { a with number := 1, fixed := "yes", power := a.power.map (κ a * ·), p11 := κ a * a.p11, p12 := κ a * a.p12, p21 := κ a * a.p21, p22 := κ a * a.p22, p31 := κ a * a.p31, p32 := κ a * a.p32 }

/-- The same for all appliances of all users. -/
def asOnes (κ : Appliance → ℚ) (us : List User) : List User := us.map (fun u => { u with appList := u.appList.map (asOneAppliance κ) })

/-- The least average number on together: `n² / (2 n - 1)` of `n` appliances, the average outside of the peak; all of them if they are always switched on together. -/
def fewestTogether (a : Appliance) : ℚ := if a.fixed = "no" ∧ a.flat ≠ "yes" then (a.number : ℚ) ^ 2 / (2 * a.number - 1) else a.number

/-- The greatest average number on together: `(n + 1) / 2` of `n` appliances, the average within the peak; all of them if they are always switched on together. -/
def mostTogether (a : Appliance) : ℚ := if a.fixed = "no" ∧ a.flat ≠ "yes" then ((a.number : ℚ) + 1) / 2 else a.number

/-- The normal distribution is symmetric: `z` is as probable as `-z`. -/
def SymmetricNormal (μ : Measure Draw) : Prop := ∀ q : ℚ, μ {d | d.z = q} = μ {d | d.z = -q}

/-- How probable it is that the number drawn for `n` appliances within the peak is just an integer: a number with mean `n / 2` and standard deviation `n / 4`. For the
normal distribution, this is 0. -/
noncomputable def chanceOfInteger (μ : Measure Draw) (n : ℤ) : ℝ≥0∞ := μ {d | ∃ j : ℤ, (n : ℚ) / 2 + d.z * ((n : ℚ) / 4) = j}

/-- A window of the appliance, wherever its variability moves it. -/
def PossibleWindow (a : Appliance) (w : ℤ × ℤ) : Prop :=
  MovedWindow a.window1 a.randomVar1 w ∨ MovedWindow a.window2 a.randomVar2 w ∨ MovedWindow a.window3 a.randomVar3 w

/-- The windows have no minute of the peak range from `q0` to `q1`. -/
def OutsidePeak (q0 q1 : ℤ) (a : Appliance) : Prop := ∀ w, PossibleWindow a w → w.1 = w.2 ∨ w.2 ≤ q0 ∨ q1 < w.1

/-- The windows have only minutes of the peak range from `q0` to `q1`. -/
def WithinPeak (q0 q1 : ℤ) (a : Appliance) : Prop := ∀ w, PossibleWindow a w → w.1 = w.2 ∨ (q0 ≤ w.1 ∧ w.2 ≤ q1 + 1)

/-- Nothing is left to chance about how many are on together: there is only one, or `fixed` is not `"no"`. -/
def AlwaysTogether (a : Appliance) : Prop := a.number = 1 ∨ a.fixed ≠ "no"

end Ramp
