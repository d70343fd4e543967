import Verif.Model.Messages
import Verif.Model.Cli

/-! # What the use case of a run of the command line prints before the file is loaded

`UseCase(...)` and `prepareRun` of `Verif.Model.Cli` once more, as executions that list the messages of `initialize`.  Simplification: the warnings of appliances and users while the
file is loaded are not listed. -/

set_option autoImplicit false

namespace Ramp

/-- `core.py:51-113` `UseCase(...)`, see `mkUseCase`. -/
def toldMake (env : Env) (stream : ℤ → Rng) (a : UseCaseArgs) : Traced Message UseCase := fun rng =>
  let uc : UseCase := { name := a.name, dateStart := a.dateStart, dateEnd := a.dateEnd, parallel := a.parallel, peakEnlarge := a.peakEnlarge }
  match addUsers uc a.users with
  | (_, .error e) => ([], .error e)
  | (uc, .ok ()) =>
    let uc := collectAppliances uc
    match (if uc.dateStart.isSome ∧ uc.dateEnd.isSome then toldInitialize env uc {} rng else ([], .ok ((uc, .ok ()), rng))
        : List Message × Except Err ((UseCase × Except Err Unit) × Rng)) with
    | (l, .error e) => (l, .error e)
    | (l, .ok ((_, .error e), _)) => (l, .error e)
    | (l, .ok ((uc, .ok ()), rng)) => match a.randomSeed with
      | none => (l, .ok (uc, rng))
      | some s => if s = 0 then (l, .ok (uc, rng)) else (l, .ok (uc, stream s))

/-- `ramp_run.py:49-53`: the use case of a spreadsheet, ready to simulate. -/
def toldPrepare (w : World) (r : RunArgs) : Traced Message UseCase := do
  let uc ← toldMake w.env w.stream { dateStart := r.dateStart, dateEnd := r.dateEnd, parallel := r.parallel }
  let (uc, res) ← toldInitialize w.env uc { numDays := r.numDays }
  quiet (liftE res)
  quiet (liftE (loadRun w r.fname uc))

end Ramp
