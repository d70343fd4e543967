import Verif.Model.SaveLoad
import Verif.Props.Build

/-! # What saving and loading should preserve -/

set_option autoImplicit false

namespace Ramp

/-- The power is the same on every day. -/
def ConstantPower (l : List ℚ) (p : ℚ) : Prop := l ≠ [] ∧ ∀ x ∈ l, x = p

/-- Two power series mean the same: equal, or constant with the same value (the length of a constant series has no meaning). -/
def SamePowers (l l' : List ℚ) : Prop := l = l' ∨ ∃ p, ConstantPower l p ∧ ConstantPower l' p

/-- `b` has the saved attributes of `a`, the power included. -/
def SameSaved (a b : Appliance) : Prop := savedAttributes a = savedAttributes b ∧ SamePowers a.power b.power

/-- `v` has the saved attributes of `u` and equal appliances in the same order. -/
structure SameSavedUser (u v : User) : Prop where
  name : v.userName = u.userName
  number : v.numUsers = u.numUsers
  preference : v.userPreference = u.userPreference
  appliances : List.Forall₂ SameSaved u.appList v.appList

/-- An appliance as it is after a call of `windows` inside the day, with one power per day of a year or the same power on all days. -/
structure ValidToSave (a : Appliance) : Prop where
  name : a.name ≠ ""
  fixed : a.fixed ≠ ""
  flat : a.flat ≠ ""
  power : (∃ p, ConstantPower a.power p) ∨ (a.power.length = 366 ∧ a.power.getLast? ≠ a.power.head?)
  numWindows : a.numWindows ≤ 3
  time : a.funcTime ≤ declaredTime a.numWindows a.window1 a.window2 a.window3
  window1 : DayWindow a.window1
  window2 : DayWindow a.window2
  window3 : DayWindow a.window3
  durations : ∀ t ∈ [a.t11, a.t12, a.t21, a.t22, a.t31, a.t32], 0 ≤ t

/-- The rows of a user: at least one appliance, all valid, no two with the same saved attributes. -/
structure ValidUserToSave (u : User) : Prop where
  name : u.userName ≠ ""
  some : u.appList ≠ []
  valid : ∀ a ∈ u.appList, ValidToSave a
  distinct : u.appList.Pairwise (fun a b => ¬ SameSaved a b)

/-- With numpy ≥ 1.25 (`strict`) appliances whose power series have different lengths cannot be compared: the constant powers of the
new use case (`n + 1` values) must have the length of the series (366), or the user has only one of the two kinds. -/
def ComparableUser (strict : Bool) (n : ℤ) (u : User) : Prop :=
  strict = false ∨ n = 365 ∨ (∀ a ∈ u.appList, ∃ p, ConstantPower a.power p) ∨ (∀ a ∈ u.appList, ¬ ∃ p, ConstantPower a.power p)

/-- The distinct elements in the order of their first occurrence. -/
def firstOccurrences {α : Type} [DecidableEq α] : List α → List α
  | [] => []
  | x :: xs => x :: (firstOccurrences xs).filter (· ≠ x)

end Ramp
