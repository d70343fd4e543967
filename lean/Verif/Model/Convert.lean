import Verif.Model.SaveLoad

/-! # Model of `ramp/ramp_convert_old_input_files.py`

A file is its text, the list of its characters.  Simplifications: lines end with `\n` (no `\r`, so that reading and writing in text mode
change nothing); the import and the execution of the converted file (`:97-100`) are not modelled: they happen after the edit of the file
and are Python's own business.  `UseCase(users=...).save(...)` (`:102`) is modelled in `Verif.Model.SaveLoad`. -/

set_option autoImplicit false

namespace Ramp

/-- The text of a file. [`ramp_convert_old_input_files.py:67-69`] -/
abbrev Text := List Char

/-- `fp.readlines()` (`ramp_convert_old_input_files.py:69`): every line keeps its `\n`; the last one may have none. -/
def readLines : Text → List Text
  | [] => []
  | c :: cs =>
    if c = '\n' then ['\n'] :: readLines cs
    else match readLines cs with
      | [] => [[c]]
      | l :: ls => (c :: l) :: ls

/-- `sub in text`. [`ramp_convert_old_input_files.py:70-73`] -/
def hasText (sub t : Text) : Bool := (suffixes t).any (fun s => sub.isPrefixOf s)

/-- `text.replace(old, new)` for a non-empty `old`, from left to right; `skip` characters still belong to the last occurrence found.
[`ramp_convert_old_input_files.py:76-78`] -/
def replaceGo (old new : Text) : ℕ → Text → Text
  | _, [] => []
  | skip + 1, _ :: cs => replaceGo old new skip cs
  | 0, c :: cs => if old.isPrefixOf (c :: cs) then new ++ replaceGo old new (old.length - 1) cs else c :: replaceGo old new 0 cs

/-- `text.replace(old, new)`. [`ramp_convert_old_input_files.py:76-78`] -/
def replaceAll (old new t : Text) : Text := replaceGo old new 0 t

/-- `ramp_convert_old_input_files.py:73`. -/
def oldImport : Text := "from core import".toList

/-- `ramp_convert_old_input_files.py:77`. -/
def newImport : Text := "from ramp.core.core import".toList

/-- `ramp_convert_old_input_files.py:70`, the line that tells a converted file. -/
def markerLine : Text := "# Code automatically added by ramp_convert_old_input_files.py\n".toList

/-- `ramp_convert_old_input_files.py:31-37` `convert_names`. -/
def convertNames : Text :=
  ("\n" ++ "# Code automatically added by ramp_convert_old_input_files.py\n" ++ "from ramp.core.core import Appliance\n" ++
  "local_var_names = [(i, a) for i, a in locals().items() if isinstance(a, Appliance)]\n" ++ "for i, a in local_var_names:\n" ++
  "    a.name = i\n").toList

/-- `ramp_convert_old_input_files.py:72-74`: the index of the last line with the old import; `none` is −1. -/
def lineToChange : ℕ → List Text → Option ℕ
  | _, [] => none
  | i, l :: ls => match lineToChange (i + 1) ls with
    | some j => some j
    | none => if hasText oldImport l then some i else none

/-- `ramp_convert_old_input_files.py:76-78`: `lines[i] = lines[i].replace(...)`. -/
def changeLine (lines : List Text) (i : ℕ) : List Text := lines.modify i (replaceAll oldImport newImport)

/-- `ramp_convert_old_input_files.py:64-88`: the text of the input file after its edit.  Without the old import the line −1 is
changed by the replacement to itself, which fails for a file without lines. -/
def convertText (keepNames : Bool) (t : Text) : Except Err Text :=
  let lines := readLines t
  let keep := if lines.contains markerLine then false else keepNames
  match lineToChange 0 lines with
  | none => match lines.getLast? with
    | none => .error .indexError
    | some _ => .ok (t ++ (if keep then convertNames else []))
  | some i => .ok ((changeLine lines i).flatten ++ (if keep then convertNames else []))

/-! ## Names of files -/

/-- `path.split("/")[-1]` (`ramp_convert_old_input_files.py:94`). -/
def baseName (path : Text) : Text := (path.reverse.takeWhile (· ≠ '/')).reverse

/-- `os.path.dirname(path)` (`ramp_convert_old_input_files.py:93`) of a posix path: what stands before the last `/`, without `/` at its
end unless it consists of `/` only. -/
def dirName (path : Text) : Text :=
  let head := (path.reverse.dropWhile (· ≠ '/')).reverse
  let stripped := (head.reverse.dropWhile (· = '/')).reverse
  if stripped = [] then head else stripped

/-- `os.path.join(dir, name)` of posix paths. [`ramp_convert_old_input_files.py:95`, `cli.py:125`] -/
def joinPath (dir name : Text) : Text :=
  if ['/'].isPrefixOf name then name
  else if dir = [] ∨ dir.getLast? = some '/' then dir ++ name
  else dir ++ '/' :: name

/-- `ramp_convert_old_input_files.py:92-95,102`, `core.py:545`: the file that the converted users are saved to. -/
def convertedPath (path : Text) (outputPath : Option Text) (suffix : Text) : Text :=
  let out := match outputPath with
    | none => dirName path
    | some o => o
  joinPath out (replaceAll ".py".toList suffix (baseName path)) ++ ".xlsx".toList

end Ramp
