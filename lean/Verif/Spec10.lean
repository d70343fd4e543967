import Verif.Spec9

/-! # Specification: fluctuations -/

set_option autoImplicit false

open MeasureTheory ENNReal

namespace Ramp

/-- The variance of a quantity of the outcome: the expected square of its distance from its expected value. -/
noncomputable def varianceOf (μ : Measure Draw) {α : Type} (m : Sim α) (g : α → ℝ≥0∞) : ℝ≥0∞ :=
  MeanOf μ m (fun a => ENNReal.ofReal (((g a).toReal - (MeanOf μ m g).toReal) ^ 2))

/-- One member of the user category, with all its appliances. -/
def oneMember (u : User) : User := { u with numUsers := 1 }

/-- The sum of a quantity over the days of a simulation. -/
noncomputable def totalOf (g : Profile → ℝ≥0∞) (rows : List Profile) : ℝ≥0∞ := (rows.map g).sum

end Ramp
