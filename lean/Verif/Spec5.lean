import Verif.Spec4
import Mathlib.Data.Int.Log

/-! # What floating point arithmetic guarantees -/

set_option autoImplicit false

namespace Ramp

/-- Rounding to the nearest number with 53 significant bits, ties to even: IEEE 754 double precision without limits on the exponent.
[the arithmetic of every `float` of `ramp/core/core.py`; external to RAMP] -/
def binary64 (x : ℚ) : ℚ :=
  if x = 0 then 0
  else
    let e := Int.log 2 |x| - 52
    pyRound (x / (2 : ℚ) ^ e) * (2 : ℚ) ^ e

/-- `x` and `y` differ by a factor of at most `(1 + ε) ^ k`, in both directions. -/
def NearTo (ε : ℚ) (k : ℕ) (x y : ℚ) : Prop := x ≤ y * (1 + ε) ^ k ∧ y ≤ x * (1 + ε) ^ k

/-- What is used of a rounding: it keeps the order, is symmetric, does nothing to a number already rounded, is exact on integers of 53 bits, has a relative error of at most `ε`,
and `0.99 * n` has the right integer part for the possible numbers of minutes of three windows of a day. -/
structure Rounding (fl : ℚ → ℚ) (ε : ℚ) : Prop where
  pos : 0 ≤ ε
  small : ε ≤ 1 / 1000
  mono : Monotone fl
  odd : ∀ x, fl (-x) = -fl x
  idem : ∀ x, fl (fl x) = fl x
  int : ∀ n : ℤ, |n| < 2 ^ 53 → fl (n : ℚ) = n
  near : ∀ x, 0 ≤ x → NearTo ε 1 (fl x) x
  percent : ∀ n : ℤ, 0 ≤ n → n ≤ 4320 → ⌊fl (fl (99 / 100) * (n : ℚ))⌋ = 99 * n / 100

/-- A variability in which the ends of the interval may move by a rounding error; for 0 and 1 the ends are integers and do not move. -/
def widenBy (ε v : ℚ) : ℚ := if v = 0 ∨ v = 1 then v else v + 16 * ε

/-- The appliance with slightly larger variabilities of its time of use and of the durations of its duty cycles.  Nothing else
changes. -/
def widen (ε : ℚ) (a : Appliance) : Appliance :=
  { a with timeFractionRandomVariability := widenBy ε a.timeFractionRandomVariability,
           rc1 := widenBy ε a.rc1, rc2 := widenBy ε a.rc2, rc3 := widenBy ε a.rc3 }

/-- The user with widened appliances. -/
def widenUser (ε : ℚ) (u : User) : User := { u with appList := u.appList.map (widen ε) }

/-- Parameters within the documented ranges, and counts that a double can hold with room to spare. -/
structure FloatReady (a : Appliance) : Prop where
  tf : 0 ≤ a.timeFractionRandomVariability ∧ a.timeFractionRandomVariability ≤ 1
  tv : 0 ≤ a.thermalPVar ∧ a.thermalPVar ≤ 1
  rc : (0 ≤ a.rc1 ∧ a.rc1 ≤ 1) ∧ (0 ≤ a.rc2 ∧ a.rc2 ≤ 1) ∧ (0 ≤ a.rc3 ∧ a.rc3 ≤ 1)
  fc : 1 ≤ a.funcCycle
  ft : 0 ≤ a.funcTime ∧ a.funcTime ≤ 2 ^ 50
  number : 0 ≤ a.number
  t : (0 ≤ a.t11 ∧ a.t11 ≤ 2 ^ 50) ∧ (0 ≤ a.t12 ∧ a.t12 ≤ 2 ^ 50) ∧ (0 ≤ a.t21 ∧ a.t21 ≤ 2 ^ 50) ∧ (0 ≤ a.t22 ∧ a.t22 ≤ 2 ^ 50) ∧
    (0 ≤ a.t31 ∧ a.t31 ≤ 2 ^ 50) ∧ (0 ≤ a.t32 ∧ a.t32 ≤ 2 ^ 50)
  p : 0 ≤ a.p11 ∧ 0 ≤ a.p12 ∧ 0 ≤ a.p21 ∧ 0 ≤ a.p22 ∧ 0 ≤ a.p31 ∧ 0 ≤ a.p32
  power : ∀ p ∈ a.power, 0 ≤ p

end Ramp
