import Verif.Spec.MaxFile

/-!
# Specification: what is written in the files of a SPAC analysis

Data lines of a `.max` file have five fields separated by single spaces: time, frequency, component, ring, ratio.  The
`.log` file has a line ` --- Ring (dmin m, dmax m)` for each ring.
-/

namespace Verif.Spec

/-- The fields of a data line, as written. -/
structure SpacRow where
  time : List Char
  freq : List Char
  comp : List Char
  ring : List Char
  ratio : List Char
  deriving DecidableEq, Repr

/-- The fields in order. -/
def SpacRow.fields (r : SpacRow) : List (List Char) := [r.time, r.freq, r.comp, r.ring, r.ratio]

/-- The line. -/
def SpacRow.line (r : SpacRow) : List Char :=
  r.time ++ ' ' :: (r.freq ++ ' ' :: (r.comp ++ ' ' :: (r.ring ++ ' ' :: r.ratio)))

/-- Numbers where numbers belong; fields without space and line feed. -/
structure SpacRow.Ok (r : SpacRow) : Prop where
  blank : ∀ w ∈ r.fields, ' ' ∉ w ∧ '\n' ∉ w
  time : Numeral r.time
  freq : Numeral r.freq
  ring : Digits r.ring ∧ r.ring ≠ []
  ratio : Numeral r.ratio

/-- A line of the file. -/
inductive SpacLine where
  | row (r : SpacRow)
  | other (s : List Char)
  deriving DecidableEq, Repr

/-- The line as written. -/
def SpacLine.text : SpacLine → List Char
  | .row r => r.line
  | .other s => s

/-- A line which can be read: a data line with its five fields, or a line with no digit before a lone zero. -/
def SpacLine.Ok : SpacLine → Prop
  | .row r => r.Ok
  | .other s => '\n' ∉ s ∧ ∀ a b, s = a ++ ' ' :: '0' :: ' ' :: b → ∀ c ∈ a, ¬ ('0' ≤ c ∧ c ≤ '9')

/-- The text of a file. -/
def spacText (ls : List SpacLine) : List Char := ls.flatMap fun l => l.text ++ ['\n']

/-- The data lines. -/
def spacRows (ls : List SpacLine) : List SpacRow := ls.filterMap fun l =>
  match l with
  | .row r => some r
  | .other _ => none

/-- A line of the `.log` file: a ring with its smallest and largest distance, or another line. -/
inductive LogLine where
  | ring (dmin dmax : List Char)
  | other (s : List Char)
  deriving DecidableEq, Repr

/-- The line as written. -/
def LogLine.text : LogLine → List Char
  | .ring a b => " --- Ring (".toList ++ (a ++ (" m, ".toList ++ (b ++ " m)".toList)))
  | .other s => s

/-- Distances are numbers; other lines do not speak of rings. -/
def LogLine.Ok : LogLine → Prop
  | .ring a b => Numeral a ∧ Numeral b
  | .other s => '\n' ∉ s ∧ ∀ a b, s ≠ a ++ (" --- Ring (".toList ++ b)

/-- The text of the file. -/
def logText (ls : List LogLine) : List Char := ls.flatMap fun l => l.text ++ ['\n']

/-- The rings. -/
def ringsOf (ls : List LogLine) : List (List Char × List Char) := ls.filterMap fun l =>
  match l with
  | .ring a b => some (a, b)
  | .other _ => none

end Verif.Spec
