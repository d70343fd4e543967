import Verif.Model.Argparse
import Verif.Props.Utils

/-! # Numbers and dates written as text -/

set_option autoImplicit false

namespace Ramp

/-- The digit `n < 10`. -/
def digitChar (n : ℕ) : Char := Char.ofNat (48 + n)

/-- A natural number in the decimal system. -/
def decimalNat (n : ℕ) : Text := if _h : n < 10 then [digitChar n] else decimalNat (n / 10) ++ [digitChar (n % 10)]
termination_by n
decreasing_by omega

/-- An integer in the decimal system, as `str` writes it. -/
def decimal : ℤ → Text
  | .ofNat n => decimalNat n
  | .negSucc n => '-' :: decimalNat (n + 1)

/-- The last `k` digits of a number, with zeros in front. -/
def padded : ℕ → ℕ → Text
  | 0, _ => []
  | k + 1, n => padded k (n / 10) ++ [digitChar (n % 10)]

/-- A date as `YYYY-MM-DD`. -/
def isoText (d : Date) : Text := padded 4 d.year ++ '-' :: padded 2 d.month ++ '-' :: padded 2 d.day

/-- A date of the calendar, up to the year 9999. -/
def IsDate (d : Date) : Prop := ValidDate d.year d.month d.day ∧ d.year ≤ 9999

/-- The value of decimal digits: each counts ten times the next. -/
def placeValue : Text → ℕ
  | [] => 0
  | c :: r => (c.toNat - 48) * 10 ^ r.length + placeValue r

/-- The text shows these digits, with single underscores between some of them. -/
inductive ShowsDigits : Text → Text → Prop
  | one {c : Char} : c.isDigit = true → ShowsDigits [c] [c]
  | next {c : Char} {t ds : Text} : c.isDigit = true → ShowsDigits t ds → ShowsDigits (c :: t) (c :: ds)
  | underscore {c : Char} {t ds : Text} : c.isDigit = true → ShowsDigits t ds → ShowsDigits (c :: '_' :: t) (c :: ds)

/-- White space: the space, tabulators and line ends (9–13) and the separators 28–31. -/
def White (t : Text) : Prop := ∀ c ∈ t, c = ' ' ∨ (9 ≤ c.toNat ∧ c.toNat ≤ 13) ∨ (28 ≤ c.toNat ∧ c.toNat ≤ 31)

/-- The text stands for the integer: a sign or none, and digits, within white space. -/
inductive StandsFor : Text → ℤ → Prop
  | plain {l t ds r : Text} : White l → ShowsDigits t ds → White r → StandsFor (l ++ t ++ r) (placeValue ds)
  | plus {l t ds r : Text} : White l → ShowsDigits t ds → White r → StandsFor (l ++ '+' :: t ++ r) (placeValue ds)
  | minus {l t ds r : Text} : White l → ShowsDigits t ds → White r → StandsFor (l ++ '-' :: t ++ r) (-(placeValue ds : ℤ))

/-- What is used of the conversions of Python, of any version: texts of ASCII characters that stand for an integer are read as this integer and others are rejected;
a date of the form `YYYY-MM-DD` is read as this date, and every text that is read is read as a date of the calendar. -/
structure PythonReaders (rd : Readers) : Prop where
  int : ∀ t : Text, (∀ c ∈ t, c.toNat < 128) → ∀ z, rd.int t = some z ↔ StandsFor t z
  date : ∀ d, IsDate d → rd.date (isoText d) = some d
  calendar : ∀ t d, rd.date t = some d → IsDate d

/-- The command line `ramp -i files -n numbers --start-date start --end-date end`, without the options that are not given. -/
def commandLine (files : List Text) (numbers : List ℤ) (start stop : Option Date) : List Text :=
  "-i".toList :: files ++ (if numbers = [] then [] else "-n".toList :: numbers.map decimal) ++
    (match start with | none => [] | some d => ["--start-date".toList, isoText d]) ++ (match stop with | none => [] | some d => ["--end-date".toList, isoText d])

/-- The number of the day of a date. -/
def dayNumber (d : Date) : ℤ := dateOrd d.year d.month d.day

/-- The number of days a command line asks for, for file number `k`: from date to date (then `-n` is ignored), otherwise what `-n` says, for all files or for this one;
without `-n` from the start to the end of the year, or from the beginning of the year to the end; without all of these nothing, and the program asks for it. -/
def daysAsked (numbers : List ℤ) (start stop : Option Date) (k : ℕ) : Option ℤ := match start, stop with
  | some s, some e => some (dayNumber e - dayNumber s + 1)
  | s, e => match numbers with
    | [n] => some n
    | _ :: _ => numbers[k]?
    | [] => match s, e with
      | some s, _ => some (dayNumber ⟨s.year, 12, 31⟩ - dayNumber s + 1)
      | none, some e => some (dayNumber e - dayNumber ⟨e.year, 1, 1⟩ + 1)
      | none, none => none

/-- The command line `ramp -i files -y years`. -/
def yearLine (files : List Text) (years : List ℤ) : List Text := "-i".toList :: files ++ "-y".toList :: years.map decimal

end Ramp
