import Verif.Spec8
import Verif.Spec2
import Verif.Spec4

/-! # The risk of `RecursionError` -/

set_option autoImplicit false

open MeasureTheory ENNReal

namespace Ramp

/-- The probability that the computation raises `RecursionError`. -/
noncomputable def Crash (μ : Measure Draw) {α : Type} (m : Sim α) : ℝ≥0∞ := Chance μ m (fun e => e = .error .recursionError)

/-- The minutes of the windows of the day that belong to a duty cycle window. -/
def coveredMinutes (a : Appliance) (w1 w2 w3 : ℤ × ℤ) : Set ℤ :=
  {m | (InWindow w1 m ∨ InWindow w2 m ∨ InWindow w3 m) ∧
    (InWindow a.cw11 m ∨ InWindow a.cw12 m ∨ InWindow a.cw21 m ∨ InWindow a.cw22 m ∨ InWindow a.cw31 m ∨ InWindow a.cw32 m)}

/-- Wherever the windows of the day move and whatever its time of use, the windows have at most `T` minutes, and the duty cycle windows contain `c` of these minutes more than
twice the time of use and a shortest event for each window. -/
def WellCovered (c T : ℕ) (a : Appliance) : Prop :=
  ∀ w1 w2 w3 t, MovedWindow a.window1 a.randomVar1 w1 → MovedWindow a.window2 a.randomVar2 w2 → MovedWindow a.window3 a.randomVar3 w3 → TimeOfUse a w1 w2 w3 t →
    totalTime w1 w2 w3 ≤ T ∧
    c + 2 * t + ([w1, w2, w3].filter (fun w => w.1 ≠ w.2)).length * a.funcCycle ≤ (coveredMinutes a w1 w2 w3).ncard

/-- The number of times the use of an appliance is generated in a simulation of `days` days. -/
def numRuns (days : ℕ) (us : List User) : ℕ := days * runsPerDay us

end Ramp
