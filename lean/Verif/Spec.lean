import Verif.Model.Appliance

/-!
# Vocabulary of the property theorems

A handful of notions in which the properties are stated; none of them mentions how RAMP computes anything.
-/

set_option autoImplicit false

namespace Ramp

/-- `a` is a possible result of `m`: some sequence of random draws produces it. -/
def Returns {α : Type} (m : Sim α) (a : α) : Prop := ∃ rng rng', m rng = .ok (a, rng')

/-- Some sequence of random draws makes `m` raise `e`. -/
def Raises {α : Type} (m : Sim α) (e : Err) : Prop := ∃ rng, m rng = .error e

/-- No sequence of random draws makes `m` raise. -/
def NeverRaises {α : Type} (m : Sim α) : Prop := ∀ e, ¬ Raises m e

/-- The minutes `a, a+1, ..., a+n-1`. -/
def minutesFrom (a : ℤ) : ℕ → List ℤ
  | 0 => []
  | n + 1 => a :: minutesFrom (a + 1) n

/-- Two closed minute ranges `[a,b]` and `[c,d]` have a minute in common. -/
def ShareMinute (a b c d : ℤ) : Prop := ∃ m, (a ≤ m ∧ m ≤ b) ∧ (c ≤ m ∧ m ≤ d)

/-- Minute `m` belongs to the half-open range `w`. -/
def InWindow (w : ℤ × ℤ) (m : ℤ) : Prop := w.1 ≤ m ∧ m < w.2

instance (w : ℤ × ℤ) (m : ℤ) : Decidable (InWindow w m) := by unfold InWindow; infer_instance

/-- Three windows filled with `v`, zero elsewhere. -/
def windowProfile (w1 w2 w3 : ℤ × ℤ) (v : ℚ) : Profile :=
  fun i => if InWindow w1 i ∨ InWindow w2 i ∨ InWindow w3 i then v else 0

/-- Two ranges of minutes do not touch: at least one minute lies strictly between the end (excluded) of one and the start
of the other. -/
def Apart (w v : ℤ × ℤ) : Prop := w.2 < v.1 ∨ v.2 < w.1

/-- Minute `m` belongs to one of the free ranges. -/
def Avail (spots : List Spot) (m : ℤ) : Prop := ∃ s ∈ spots, s.start ≤ m ∧ m < s.stop

/-- Free ranges are well-formed and no two of them touch. -/
def SpotsApart (spots : List Spot) : Prop :=
  (∀ s ∈ spots, s.start ≤ s.stop) ∧ spots.Pairwise (fun s t => Apart (s.start, s.stop) (t.start, t.stop))

/-- A window inside the day. -/
def DayWindow (w : ℤ × ℤ) : Prop := 0 ≤ w.1 ∧ w.1 ≤ w.2 ∧ w.2 ≤ 1440

/-- The windows of an appliance lie inside the day and each may move by at most its own length.  This is what a successful
call of `windows` establishes (theorem `C29_windows_establish`). -/
structure ValidWindows (app : Appliance) : Prop where
  w1 : DayWindow app.window1
  w2 : DayWindow app.window2
  w3 : DayWindow app.window3
  r1 : 0 ≤ app.randomVar1 ∧ app.randomVar1 ≤ app.window1.2 - app.window1.1
  r2 : 0 ≤ app.randomVar2 ∧ app.randomVar2 ≤ app.window2.2 - app.window2.1
  r3 : 0 ≤ app.randomVar3 ∧ app.randomVar3 ≤ app.window3.2 - app.window3.1

/-- `v` is the window `w` with each end moved by at most `r` minutes and then kept inside the day. -/
def MovedWindow (w : ℤ × ℤ) (r : ℤ) (v : ℤ × ℤ) : Prop :=
  ∃ a b : ℤ, (w.1 - r ≤ a ∧ a ≤ w.1 + r) ∧ (w.2 - r ≤ b ∧ b ≤ w.2 + r) ∧ v = (max 0 a, min 1440 b)

/-- Total length of three windows. -/
def totalTime (w1 w2 w3 : ℤ × ℤ) : ℤ := (w1.2 - w1.1) + (w2.2 - w2.1) + (w3.2 - w3.1)

/-- The appliance is skipped for a reason that does not depend on the random draws: other preference, other type of day or no
time of use. -/
def SkippedForSure (app : Appliance) (randDailyPref dayType : ℤ) : Prop :=
  (app.prefIndex ≠ 0 ∧ randDailyPref ≠ app.prefIndex) ∨ (app.wdWeType ≠ dayType ∧ app.wdWeType ≠ 2) ∨ app.funcTime = 0

/-- The duty cycle windows of the appliance are ordered pairs. -/
structure OrderedCycleWindows (app : Appliance) : Prop where
  c11 : app.cw11.1 ≤ app.cw11.2
  c12 : app.cw12.1 ≤ app.cw12.2
  c21 : app.cw21.1 ≤ app.cw21.2
  c22 : app.cw22.1 ≤ app.cw22.2
  c31 : app.cw31.1 ≤ app.cw31.2
  c32 : app.cw32.1 ≤ app.cw32.2

/-- The minutes `lo..hi` have a minute in common with one of the windows of the first duty cycle. -/
def Overlaps1 (app : Appliance) (lo hi : ℤ) : Prop :=
  ShareMinute lo hi app.cw11.1 app.cw11.2 ∨ ShareMinute lo hi app.cw12.1 app.cw12.2

/-- The same for the second duty cycle. -/
def Overlaps2 (app : Appliance) (lo hi : ℤ) : Prop :=
  ShareMinute lo hi app.cw21.1 app.cw21.2 ∨ ShareMinute lo hi app.cw22.1 app.cw22.2

/-- The same for the third duty cycle. -/
def Overlaps3 (app : Appliance) (lo hi : ℤ) : Prop :=
  ShareMinute lo hi app.cw31.1 app.cw31.2 ∨ ShareMinute lo hi app.cw32.1 app.cw32.2

/-- `i` is the number of the first duty cycle one of whose windows has a minute in common with `lo..hi`. -/
def ChosenCycle (app : Appliance) (lo hi i : ℤ) : Prop :=
  (i = 1 ∧ Overlaps1 app lo hi) ∨ (i = 2 ∧ ¬ Overlaps1 app lo hi ∧ Overlaps2 app lo hi) ∨
  (i = 3 ∧ ¬ Overlaps1 app lo hi ∧ ¬ Overlaps2 app lo hi ∧ Overlaps3 app lo hi)

/-- The duty cycle of the day of number `i`. -/
def dutyCycleOf (app : Appliance) (i : ℤ) : List ℚ :=
  if i = 1 then app.randomCycle1 else if i = 2 then app.randomCycle2 else app.randomCycle3

/-- A run of `d` minutes from minute `a` on lies inside one free range and lasts at least `func_cycle` minutes and at most
`randTime`. -/
def EventFits (app : Appliance) (randTime a d : ℤ) : Prop :=
  ∃ s ∈ app.freeSpots, s.start ≤ a ∧ a + d ≤ s.stop ∧ app.funcCycle ≤ d ∧ d ≤ randTime

/-- No two windows touch; empty windows do not count. -/
def WindowsApart (w1 w2 w3 : ℤ × ℤ) : Prop :=
  (w1.1 = w1.2 ∨ w2.1 = w2.2 ∨ Apart w1 w2) ∧ (w1.1 = w1.2 ∨ w3.1 = w3.2 ∨ Apart w1 w3) ∧
  (w2.1 = w2.2 ∨ w3.1 = w3.2 ∨ Apart w2 w3)

instance (w v : ℤ × ℤ) : Decidable (Apart w v) := by unfold Apart; infer_instance
instance (w1 w2 w3 : ℤ × ℤ) : Decidable (WindowsApart w1 w2 w3) := by unfold WindowsApart; infer_instance

end Ramp
