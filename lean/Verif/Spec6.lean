import Verif.Model.Argparse

/-! # How a command line is written -/

set_option autoImplicit false

namespace Ramp

/-- The names of an option, as in the help text. -/
def namesOf : Opt → List Text
  | .input => ["-i".toList]
  | .output => ["-o".toList]
  | .numDays => ["-n".toList]
  | .years => ["-y".toList]
  | .startDate => ["--start-date".toList]
  | .endDate => ["--end-date".toList]
  | .ext => ["--ext".toList]
  | .parallel => ["-p".toList]
  | .help => ["-h".toList, "--help".toList]

/-- `p` abbreviates the name `n`: it has two dashes, is a beginning of `n` and of no other name. -/
def Abbreviates (p n : Text) : Prop := "--".toList <+: p ∧ p <+: n ∧ '=' ∉ p ∧ ∀ o', ∀ n' ∈ namesOf o', p <+: n' → n' = n

/-- The ways to write an option as a word, possibly with its value: `-i`, `-i=value`, `-ivalue`, `--start-date`, `--start-date=value`, and abbreviations
of the long names. -/
inductive Spells : Text → Opt → Option Text → Prop
  | full {n : Text} {o : Opt} : n ∈ namesOf o → Spells n o none
  | equals {n e : Text} {o : Opt} : n ∈ namesOf o → Spells (n ++ '=' :: e) o (some e)
  | joined {n e : Text} {o : Opt} : n ∈ namesOf o → n.length = 2 → e ≠ [] → e.head? ≠ some '=' → Spells (n ++ e) o (some e)
  | short {p n : Text} {o : Opt} : n ∈ namesOf o → Abbreviates p n → p ≠ n → Spells p o none
  | shortEquals {p n e : Text} {o : Opt} : n ∈ namesOf o → Abbreviates p n → p ≠ n → Spells (p ++ '=' :: e) o (some e)

/-- A negative number: `-5`, `-2.5`, `-.5`. -/
def IsNegative (t : Text) : Prop :=
  ∃ a : Text, (∀ c ∈ a, c.isDigit) ∧ ((a ≠ [] ∧ t = '-' :: a) ∨ ∃ b : Text, b ≠ [] ∧ (∀ c ∈ b, c.isDigit) ∧ t = '-' :: (a ++ '.' :: b))

/-- A word that is a value: no dash at its beginning, or only a dash, or it spells no option, is with two dashes no beginning of a name, and is a negative
number or contains a space. -/
def IsValue (t : Text) : Prop :=
  t.head? ≠ some '-' ∨ t = ['-'] ∨ ((∀ o j, ¬ Spells t o j) ∧
    ("--".toList <+: t → ∀ o, ∀ n ∈ namesOf o, ¬ t.takeWhile (· ≠ '=') <+: n) ∧ (IsNegative t ∨ ' ' ∈ t))

/-- The words say: these options, each with these values. -/
inductive Written : List Text → List (Opt × List Text) → Prop
  | nil : Written [] []
  | separate {w : Text} {o : Opt} {vs ws : List Text} {gs : List (Opt × List Text)} :
      Spells w o none → (∀ v ∈ vs, IsValue v) → Written ws gs → Written (w :: (vs ++ ws)) ((o, vs) :: gs)
  | joined {w e : Text} {o : Opt} {ws : List Text} {gs : List (Opt × List Text)} :
      Spells w o (some e) → Written ws gs → Written (w :: ws) ((o, [e]) :: gs)

/-- The values fit the option: at least one path, number of days or year, exactly one date or extension, at most one word after `-p`; the numbers and
dates can be read. -/
def FitsOption (rd : Readers) : Opt → List Text → Prop
  | .input, vs | .output, vs => vs ≠ []
  | .numDays, vs | .years, vs => vs ≠ [] ∧ ∀ v ∈ vs, (rd.int v).isSome
  | .startDate, vs | .endDate, vs => ∃ v, vs = [v] ∧ (rd.date v).isSome
  | .ext, vs => vs.length = 1
  | .parallel, vs => vs.length ≤ 1
  | .help, _ => False

/-- The values of the last occurrence of an option. -/
def lastValues (o : Opt) (gs : List (Opt × List Text)) : Option (List Text) := (gs.reverse.find? (fun g => g.1 = o)).map (·.2)

/-- The arguments the options stand for: of a repeated option, its last occurrence; without `--ext`, xlsx; parallel mode for `-p`, with any value
but the empty word. -/
structure Meaning (rd : Readers) (gs : List (Opt × List Text)) (a : CliArgs) : Prop where
  input : a.fnames = lastValues .input gs
  output : a.ofnames = lastValues .output gs
  numDays : a.numDays = (lastValues .numDays gs).map (List.filterMap rd.int)
  years : a.years = (lastValues .years gs).map (List.filterMap rd.int)
  dateStart : a.dateStart = (lastValues .startDate gs).bind (fun vs => vs.head?.bind rd.date)
  dateEnd : a.dateEnd = (lastValues .endDate gs).bind (fun vs => vs.head?.bind rd.date)
  ext : a.extension = ((lastValues .ext gs).bind List.head?).getD "xlsx".toList
  parallel : a.parallel = true ↔ ∃ vs, lastValues .parallel gs = some vs ∧ vs ≠ [[]]

end Ramp
