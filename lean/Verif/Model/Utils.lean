import Verif.Py

/-! # Model of `ramp/core/utils.py` and `ramp/core/constants.py` -/

set_option autoImplicit false

namespace Ramp

/-- `utils.py:92-106` `random_variation`. -/
def randomVariation (var norm : ℚ) : Sim ℚ := do
  let x ← uniform (1 - var) (1 + var)
  pure (norm * x)

/-- `utils.py:109-138` `duty_cycle`.  Note the `var=-var` of lines 135-136. -/
def dutyCycle (var : ℚ) (t1 : ℤ) (p1 : ℚ) (t2 : ℤ) (p2 : ℚ) : Sim (List ℚ) := do
  let d1 ← randomVariation (-var) t1
  let a ← liftE (onesTimes (pyInt d1) p1)
  let d2 ← randomVariation (-var) t2
  let b ← liftE (onesTimes (pyInt d2) p2)
  pure (a ++ b)

/-- `utils.py:141-152` `range_within_window`. -/
def rangeWithinWindow (rangeLow rangeHigh : ℤ) (window : ℤ × ℤ) : Bool :=
  !((rangeLow < window.1 && rangeHigh < window.1) || (rangeLow > window.2 && rangeHigh > window.2))

/-- `utils.py:155-182` `random_choice`: both cycles are drawn, then one is picked. -/
def randomChoice (var : ℚ) (t1 : ℤ) (p1 : ℚ) (t2 : ℤ) (p2 : ℚ) : Sim (List ℚ) := do
  let x ← dutyCycle var t1 p1 t2 p2
  let y ← dutyCycle var t2 p2 t1 p1
  choice2 x y

/-- `datetime.date.weekday()` (Monday is 0) of a day given by its proleptic ordinal minus one: day 0 is Monday
0001-01-01.  External to RAMP (Python standard library). [used in `utils.py:191`] -/
def weekday (day : ℤ) : ℤ := day % 7

/-- `utils.py:185-195` `get_day_type`.  Simplification: the day is given as a day number, the ISO parsing of strings
(line 189) is Python's. -/
def getDayType (day : ℤ) : ℤ := if weekday day > 4 then 1 else 0

/-- `a[lo:hi:7] = 1` on an array of 365 values (numpy slice with step). [`utils.py:206-207`] -/
def setEvery7 (l : List ℤ) (lo hi : ℕ) : List ℤ :=
  l.mapIdx (fun i x => if lo ≤ i ∧ i < hi ∧ (i - lo) % 7 = 0 then 1 else x)

/-- `utils.py:204-208` `yearly_pattern()` without argument. -/
def yearlyPatternDefault : List ℤ :=
  setEvery7 (setEvery7 (List.replicate 365 0) 5 365) 6 365

/-- Leap years of the proleptic Gregorian calendar (Python standard library, `datetime`). [used through `utils.py:211-215`] -/
def isLeap (y : ℕ) : Bool := y % 4 = 0 && (y % 100 != 0 || y % 400 = 0)

/-- Number of days before 1 January of year `y ≥ 1` (CPython `datetime._days_before_year`). [used through `utils.py:211-215`] -/
def daysBeforeYear (y : ℕ) : ℤ :=
  let p := y - 1
  ((p * 365 + p / 4 - p / 100 + p / 400 : ℕ) : ℤ)

/-- Length of month `m` (1..12) of year `y` (CPython `datetime._days_in_month`, pandas `days_in_month`).
[used through `utils.py:211-215`, `cli.py:185`] -/
def daysInMonth (y m : ℕ) : ℕ :=
  if m = 2 then (if isLeap y then 29 else 28)
  else if m = 4 ∨ m = 6 ∨ m = 9 ∨ m = 11 then 30 else 31

/-- Number of days of year `y` before month `m` (CPython `datetime._days_before_month`). [used through `utils.py:211-215`] -/
def daysBeforeMonth (y m : ℕ) : ℕ := ((List.range (m - 1)).map (fun i => daysInMonth y (i + 1))).sum

/-- Day number of a calendar date (CPython `datetime._ymd2ord`, minus one). [used through `utils.py:211-215`] -/
def dateOrd (y m d : ℕ) : ℤ := daysBeforeYear y + daysBeforeMonth y m + ((d : ℤ) - 1)

/-- `pd.date_range(start, end, freq="D")` on day numbers. [`utils.py:212`] -/
def dayRange (start stop : ℤ) : List ℤ := arange start (stop + 1)

/-- `utils.py:209-215` `yearly_pattern(year)`. -/
def yearlyPattern (y : ℕ) : List ℤ := (dayRange (dateOrd y 1 1) (dateOrd y 12 31)).map getDayType

/-- `utils.py:219-228` `within_peak_time_window`. -/
def withinPeakTimeWindow (winStart winStop peakStart peakStop : ℤ) : Bool :=
  let answer := true
  let answer := if winStart < peakStart ∧ winStop < peakStart then false else answer
  let answer := if winStart > peakStop ∧ winStop > peakStop then false else answer
  answer

/-- `constants.py:1-20` `switch_on_parameters`: returned as `(mu_peak, s_peak, op_factor)`. -/
def switchOnParameters : ℚ × ℚ × ℚ :=
  let muPeak : ℚ := 1 / 2
  let sPeak : ℚ := 1 / 2
  let opFactor : ℚ := 1 / 2
  (muPeak, sPeak, opFactor)

end Ramp
