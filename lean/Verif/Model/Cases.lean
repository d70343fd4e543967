import Verif.Model.UseCase

/-! # Model of `UseCase.generate_daily_load_profiles(cases=...)` -/

set_option autoImplicit false

namespace Ramp

/-- `results[key] = value` on a dictionary: a new key goes to the end, an old one keeps its place. [`core.py:414`] -/
def setKey (acc : List (String × List ℚ)) (key : String) (value : List ℚ) : List (String × List ℚ) :=
  if acc.any (fun p => p.1 = key) then acc.map (fun p => if p.1 = key then (key, value) else p) else acc ++ [(key, value)]

/-- `core.py:412-416`: the loop over the cases; a case is given by its text `str(case)`.  `pd.Series` raises `ValueError` when index and data
have different lengths.  Simplification: sequential mode only. -/
def casesLoop (env : Env) (depth : ℕ) (days : Option (List ℤ)) : List String → UseCase → List (String × List ℚ) →
    Sim (UseCase × List (String × List ℚ))
  | [], uc, acc => pure (uc, acc)
  | c :: cs, uc, acc => do
    let (uc, rows) ← generateDaily env depth uc days
    let (uc, idx) ← datetimeindexProperty env uc
    let idx ← liftE idx
    if idx.length = (flatten rows).length then casesLoop env depth days cs uc (setKey acc ("case " ++ c) (flatten rows))
    else raise .valueError

/-- The frame held by the returned `Plot`: its index and its columns. [`core.py:417`] -/
structure CasesFrame where
  index : List ℤ
  columns : List (String × List ℚ)

/-- `core.py:410-417` `generate_daily_load_profiles(days, cases=cases)`.  `pd.concat` of no series raises `ValueError`; all series have the same
index, that of the use case. -/
def generateCases (env : Env) (depth : ℕ) (uc : UseCase) (days : Option (List ℤ)) (cases : List String) : Sim (UseCase × CasesFrame) := do
  let (uc, columns) ← casesLoop env depth days cases uc []
  if columns = [] then raise .valueError
  else pure (uc, { index := uc.datetimeindex.getD [], columns := columns })

end Ramp
