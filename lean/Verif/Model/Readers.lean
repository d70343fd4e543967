import Verif.Model.Argparse

/-! # Model of the conversions of the command line: `type=int` and `type=datetime.date.fromisoformat` (`ramp/cli.py:34,42,49,56`)

Both are functions of Python.  Simplifications: white space and digits are those of ASCII; the limit of 4300 digits of Python 3.11 is ignored; `fromisoformat` is that of
Python 3.8–3.10, which accepts the form `YYYY-MM-DD` only (later versions accept further forms and treat this one in the same way). -/

set_option autoImplicit false

namespace Ramp

/-- The white space that `int` ignores around a number. [`cli.py:34,42`: `int`] -/
def isSpace (c : Char) : Bool := c = ' ' || (9 ≤ c.toNat && c.toNat ≤ 13) || (28 ≤ c.toNat && c.toNat ≤ 31)

/-- `text.strip()`. [`cli.py:34,42`: `int`] -/
def strip (t : Text) : Text := ((t.dropWhile isSpace).reverse.dropWhile isSpace).reverse

/-- The digits of a text of digits, in which single underscores may stand between digits. [`cli.py:34,42`: `int`] -/
def underscored : Text → Option Text
  | [] => none
  | [c] => if c.isDigit then some [c] else none
  | c :: d :: r =>
    if c.isDigit then
      if d = '_' then (underscored r).map (fun ds => c :: ds) else (underscored (d :: r)).map (fun ds => c :: ds)
    else none

/-- `int(text)`; `none` is `ValueError`, which argparse turns into the end of the program. [`cli.py:34,42`] -/
def readInt (t : Text) : Option ℤ := match strip t with
  | '-' :: r => (underscored r).map (fun ds => -(digitsValue ds : ℤ))
  | '+' :: r => (underscored r).map (fun ds => (digitsValue ds : ℤ))
  | r => (underscored r).map (fun ds => (digitsValue ds : ℤ))

/-- `datetime.date.fromisoformat(text)`; `none` is `ValueError`, which argparse turns into the end of the program. [`cli.py:49,56`] -/
def isoDate : Text → Option Date
  | [y1, y2, y3, y4, s1, m1, m2, s2, d1, d2] =>
    if s1 = '-' ∧ s2 = '-' ∧ [y1, y2, y3, y4, m1, m2, d1, d2].all Char.isDigit = true then
      let d : Date := ⟨digitsValue [y1, y2, y3, y4], digitsValue [m1, m2], digitsValue [d1, d2]⟩
      if 1 ≤ d.year ∧ 1 ≤ d.month ∧ d.month ≤ 12 ∧ 1 ≤ d.day ∧ d.day ≤ daysInMonth d.year d.month then some d else none
    else none
  | _ => none

/-- The conversions of the parser. [`cli.py:34,42,49,56`] -/
def pyReaders : Readers := ⟨readInt, isoDate⟩

end Ramp
