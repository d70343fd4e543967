import Verif.Model.Cli

/-! # Model of the command line options: the parser of `ramp/cli.py:11-76`

The library argparse is external; modelled is what it does with this parser, which has no positional arguments: `parse_args` of Python 3.8–3.13 for
command lines without the word `--`.  Simplifications: a word like `-hi`, which joins `-h` with another option, is an error; an ambiguous
abbreviation is an error even after `-h`; digits are the ASCII digits; the texts printed are not modelled.  `int` and `datetime.date.fromisoformat`
are parameters here; `Model/Readers.lean` models them. -/

set_option autoImplicit false

namespace Ramp

/-- The options. [`cli.py:16-76`; `-h` is added by argparse] -/
inductive Opt
  | input | output | numDays | years | startDate | endDate | ext | parallel | help
  deriving DecidableEq

/-- The option strings. [`cli.py:17,24,31,39,47,54,61,69`] -/
def optionStrings : List (Text × Opt) :=
  [("-h".toList, .help), ("--help".toList, .help), ("-i".toList, .input), ("-o".toList, .output), ("-n".toList, .numDays), ("-y".toList, .years),
   ("--start-date".toList, .startDate), ("--end-date".toList, .endDate), ("--ext".toList, .ext), ("-p".toList, .parallel)]

/-- The conversions of `type=int` and `type=datetime.date.fromisoformat`. [`cli.py:34,42,49,56`] -/
structure Readers where
  int : Text → Option ℤ
  date : Text → Option Date

/-! ## Which words are options (argparse `_parse_optional`) -/

/-- The parts before and after the first `=`. [argparse, `_parse_optional`] -/
def splitEquals (t : Text) : Option (Text × Text) :=
  if '=' ∈ t then some (t.takeWhile (· ≠ '='), (t.dropWhile (· ≠ '=')).tail) else none

/-- `^-\d+$|^-\d*\.\d+$`. [argparse, `_negative_number_matcher`] -/
def isNegative : Text → Bool
  | '-' :: r =>
    let a := r.takeWhile Char.isDigit
    match r.dropWhile Char.isDigit with
    | [] => !a.isEmpty
    | '.' :: c => !c.isEmpty && c.all Char.isDigit
    | _ => false
  | _ => false

/-- The option an option string stands for. [argparse, `_option_string_actions`] -/
def optionOf (t : Text) : Option Opt := (optionStrings.find? (fun n => n.1 = t)).map (·.2)

/-- A word of the command line: a value, an option with the value joined to it, an unknown option, or an abbreviation of several. -/
inductive Word
  | value (t : Text)
  | option (o : Opt) (joined : Option Text)
  | unknown
  | ambiguous
  deriving DecidableEq

/-- Abbreviations of long options, and short options with a value joined. [argparse, `_get_option_tuples`] -/
def candidates (t : Text) : List (Opt × Option Text) :=
  if "--".toList.isPrefixOf t then
    match splitEquals t with
    | some (p, e) => (optionStrings.filter (fun n => p.isPrefixOf n.1)).map (fun n => (n.2, some e))
    | none => (optionStrings.filter (fun n => t.isPrefixOf n.1)).map (fun n => (n.2, none))
  else (optionStrings.filter (fun n => n.1 = t.take 2)).map (fun n => (n.2, some (t.drop 2)))

/-- A word that starts with `-`, is longer than that and is no option string. [argparse, `_parse_optional`] -/
def classifyDash (t : Text) : Word :=
  match (splitEquals t).bind (fun pe => (optionOf pe.1).map (fun o => (o, pe.2))) with
  | some (o, e) => .option o (some e)
  | none => match candidates t with
    | [(o, e)] => .option o e
    | _ :: _ :: _ => .ambiguous
    | [] => if isNegative t || ' ' ∈ t then .value t else .unknown

/-- What a word is. [argparse, `_parse_optional`] -/
def classify (t : Text) : Word :=
  match t with
  | [] => .value []
  | c :: r =>
    if c ≠ '-' then .value (c :: r)
    else match optionOf (c :: r) with
      | some o => .option o none
      | none => if r = [] then .value (c :: r) else classifyDash (c :: r)

/-! ## Options and their values (argparse `consume_optional`) -/

/-- An option (`none` if unknown), the value joined to it and the values up to the next option. -/
structure OptGroup where
  opt : Option Opt
  joined : Option Text
  values : List Text

/-- The values before the first option, and the options with the values after them. [argparse, `_parse_known_args`] -/
def groupWords : List Word → List Text × List OptGroup
  | [] => ([], [])
  | .value t :: ws => (t :: (groupWords ws).1, (groupWords ws).2)
  | .option o j :: ws => ([], ⟨some o, j, (groupWords ws).1⟩ :: (groupWords ws).2)
  | _ :: ws => ([], ⟨none, none, (groupWords ws).1⟩ :: (groupWords ws).2)

/-- How many values an option takes. [`cli.py:19,26,33,41,72`: `nargs`] -/
inductive Nargs
  | none | one | optional | plus

/-- `nargs` of the options. [`cli.py:16-76`] -/
def nargsOf : Opt → Nargs
  | .input | .output | .numDays | .years => .plus
  | .startDate | .endDate | .ext => .one
  | .parallel => .optional
  | .help => .none

/-- The values an option takes and the values left over; `none` is an error. [argparse, `_match_argument`, `consume_optional`] -/
def takeValues (o : Opt) (joined : Option Text) (values : List Text) : Option (List Text × List Text) :=
  match joined, nargsOf o with
  | some _, .none => none
  | some e, _ => some ([e], values)
  | none, .none => some ([], values)
  | none, .one => match values with
    | v :: r => some ([v], r)
    | [] => none
  | none, .optional => some (values.take 1, values.drop 1)
  | none, .plus => if values = [] then none else some (values, [])

/-- Converting the values and storing them; `none` is an error. [argparse, `_get_values`; `cli.py:18-74`: `dest`, `type`, `const`] -/
def storeValues (rd : Readers) (o : Opt) (vs : List Text) (a : CliArgs) : Option CliArgs :=
  match o with
  | .input => some { a with fnames := some vs }
  | .output => some { a with ofnames := some vs }
  | .numDays => (vs.mapM rd.int).map (fun l => { a with numDays := some l })
  | .years => (vs.mapM rd.int).map (fun l => { a with years := some l })
  | .startDate => (vs.head?.bind rd.date).map (fun d => { a with dateStart := some d })
  | .endDate => (vs.head?.bind rd.date).map (fun d => { a with dateEnd := some d })
  | .ext => vs.head?.map (fun t => { a with extension := t })
  | .parallel => match vs with
    | [] => some { a with parallel := true }
    | t :: _ => some { a with parallel := t ≠ [] }
  | .help => none

/-- The result of `parse_args`: arguments, the end of the program with status 2 and a message, or the help text and the end with status 0. -/
inductive Parsed
  | args (a : CliArgs)
  | usage
  | help

/-- The options in their order; `bad` if words are left over. [argparse, `_parse_known_args`, `parse_args`] -/
def parseGroups (rd : Readers) : Bool → CliArgs → List OptGroup → Parsed
  | bad, a, [] => if bad then .usage else .args a
  | bad, a, g :: gs => match g.opt with
    | none => parseGroups rd true a gs
    | some o => match takeValues o g.joined g.values with
      | none => .usage
      | some (vs, rest) =>
        if o = .help then .help
        else match storeValues rd o vs a with
          | none => .usage
          | some a => parseGroups rd (bad || !rest.isEmpty) a gs

/-- `cli.py:80` `parser.parse_args()`. -/
def parseArgs (rd : Readers) (words : List Text) : Parsed :=
  let ws := words.map classify
  if .ambiguous ∈ ws then .usage
  else parseGroups rd (!(groupWords ws).1.isEmpty) {} (groupWords ws).2

/-- What a program started with some words does: it ends at the parser, or it runs `main`. [`cli.py:79-80`] -/
inductive Started
  | usage | help
  | ran (o : CliResult)

/-- `cli.py:79-238` `main()`, from the words of the command line. -/
def mainWords (w : World) (wk : ℕ → Workers) (rd : Readers) (words : List Text) (fs : Files) : Sim Started :=
  match parseArgs rd words with
  | .usage => pure .usage
  | .help => pure .help
  | .args a => do
    let o ← mainCli w wk a fs
    pure (.ran o)

end Ramp
