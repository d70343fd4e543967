import Verif.Spec

/-! # When two events of a day can meet -/

set_option autoImplicit false

namespace Ramp

/-- Two windows of the day, `u` declared before `v`, between which a minute may be used twice by events of `shortest` minutes or more.
Either both have room for an event and share a minute; or an event of the shortest length fits into `v` and, except perhaps for its last
minute, into `u` as well. -/
def CanClash (shortest : ℤ) (u v : ℤ × ℤ) : Prop :=
  u.1 < u.2 ∧ v.1 < v.2 ∧
  ((shortest ≤ u.2 - u.1 ∧ shortest ≤ v.2 - v.1 ∧ ∃ m, InWindow u m ∧ InWindow v m) ∨
    ∃ a, (v.1 ≤ a ∧ a + shortest ≤ v.2) ∧ (u.1 ≤ a ∧ a + shortest - 1 ≤ u.2))

/-- Two of the three windows of the day can clash. -/
def SomeClash (shortest : ℤ) (w1 w2 w3 : ℤ × ℤ) : Prop :=
  CanClash shortest w1 w2 ∨ CanClash shortest w1 w3 ∨ CanClash shortest w2 w3

/-- Some minute belongs to two events of the day. -/
def UsedTwice (bookings : List Booking) : Prop :=
  ∃ (i j : ℕ) (b c : Booking), i < j ∧ bookings[i]? = some b ∧ bookings[j]? = some c ∧ ∃ m, m ∈ b.indexes ∧ m ∈ c.indexes

end Ramp
