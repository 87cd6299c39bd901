import Mathlib.Data.List.Infix
import Verif.Model.Peaks

/-!
# Specification: what is written in a `.max` file

A file is a sequence of lines.  Data lines have nine fields separated by single spaces: time, frequency, wave,
slowness, azimuth, ellipticity, noise, power, valid.  Independent of how the file is searched.
-/

namespace Verif.Spec

/-- The fields of a data line, as written. -/
structure MaxRow where
  time : List Char
  freq : List Char
  wave : List Char
  slowness : List Char
  azimuth : List Char
  ellipticity : List Char
  noise : List Char
  power : List Char
  valid : List Char
  deriving DecidableEq, Repr

/-- The fields in order. -/
def MaxRow.fields (r : MaxRow) : List (List Char) :=
  [r.time, r.freq, r.wave, r.slowness, r.azimuth, r.ellipticity, r.noise, r.power, r.valid]

/-- The line. -/
def MaxRow.line (r : MaxRow) : List Char :=
  r.time ++ ' ' :: (r.freq ++ ' ' :: (r.wave ++ ' ' :: (r.slowness ++ ' ' :: (r.azimuth ++ ' ' ::
    (r.ellipticity ++ ' ' :: (r.noise ++ ' ' :: (r.power ++ ' ' :: r.valid)))))))

/-- A line of the file. -/
inductive MaxLine where
  | row (r : MaxRow)
  | other (s : List Char)
  deriving DecidableEq, Repr

/-- The line as written. -/
def MaxLine.text : MaxLine → List Char
  | .row r => r.line
  | .other s => s

/-- The text of a file. -/
def maxText (ls : List MaxLine) : List Char := ls.flatMap fun l => l.text ++ ['\n']

/-- The data lines. -/
def rowsOf (ls : List MaxLine) : List MaxRow := ls.filterMap fun l =>
  match l with
  | .row r => some r
  | .other _ => none

/-- ASCII digits. -/
def Digits (w : List Char) : Prop := ∀ c ∈ w, '0' ≤ c ∧ c ≤ '9'

instance (w : List Char) : Decidable (Digits w) := inferInstanceAs (Decidable (∀ c ∈ w, '0' ≤ c ∧ c ≤ '9'))

/-- A number as printed: sign, digits, perhaps a fraction, perhaps an exponent. -/
def Numeral (w : List Char) : Prop :=
  ∃ s i f e : List Char, w = s ++ (i ++ (f ++ e)) ∧ (s = [] ∨ s = ['-']) ∧ Digits i ∧ i ≠ [] ∧
    (f = [] ∨ ∃ d, f = '.' :: d ∧ Digits d) ∧
    (e = [] ∨ ∃ x y d, e = x :: (y ++ d) ∧ (x = 'e' ∨ x = 'E') ∧ (y = [] ∨ y = ['+'] ∨ y = ['-']) ∧ Digits d)

/-- A time as printed: digits, perhaps a fraction. -/
def IsTime (w : List Char) : Prop :=
  ∃ i f : List Char, w = i ++ f ∧ Digits i ∧ i ≠ [] ∧ (f = [] ∨ ∃ d, f = '.' :: d ∧ Digits d)

/-- `p` and `x` have the same characters, except that a `.` of `p` may be anything in `x`. -/
def LooksLike (p x : List Char) : Prop := List.Forall₂ (fun a b => a = '.' ∨ a = b) p x

/-- A file in which the peaks of wave `W` can be told apart. -/
structure WellFormed (W : List Char) (ls : List MaxLine) : Prop where
  /-- Lines which are not data have no digit before the name of the wave. -/
  other : ∀ s, MaxLine.other s ∈ ls → '\n' ∉ s ∧
    ∀ a b, s = a ++ ' ' :: (W ++ ' ' :: b) → ∀ c ∈ a, ¬ ('0' ≤ c ∧ c ≤ '9')
  /-- Fields have no space and no line feed. -/
  blank : ∀ r ∈ rowsOf ls, ∀ w ∈ r.fields, ' ' ∉ w ∧ '\n' ∉ w
  /-- Fields are numbers. -/
  numbers : ∀ r ∈ rowsOf ls, IsTime r.time ∧ Numeral r.freq ∧ Numeral r.slowness ∧ Numeral r.azimuth ∧
    Numeral r.ellipticity ∧ Numeral r.power ∧
    (Numeral r.noise ∨ r.noise = "inf".toList ∨ r.noise = "-inf".toList ∨ r.noise = "nan".toList)
  /-- The last field is 1, or 0 in a line none of whose later fields begins with 1. -/
  flag : ∀ r ∈ rowsOf ls, r.valid = ['1'] ∨ r.valid = ['0'] ∧
    ∀ w ∈ [r.azimuth, r.ellipticity, r.noise, r.power], w.head? ≠ some '1'
  /-- No time looks like the end of another one. -/
  times : ∀ r ∈ rowsOf ls, ∀ r' ∈ rowsOf ls, r.wave = W → r'.wave = W →
    ∀ x, x <:+ r'.time → LooksLike r.time x → r.time = r'.time
  /-- No frequency looks like another one. -/
  freqs : ∀ r ∈ rowsOf ls, ∀ r' ∈ rowsOf ls, r.wave = W → r'.wave = W →
    LooksLike r.freq r'.freq → r.freq = r'.freq
  /-- Frequencies are written without `+`. -/
  plus : ∀ r ∈ rowsOf ls, r.wave = W → '+' ∉ r.freq

/-- The valid peaks of wave `W`, in the order of the file. -/
def peaksOf (W : List Char) (ls : List MaxLine) : List MaxRow :=
  (rowsOf ls).filter fun r => decide (r.wave = W) && decide (r.valid = ['1'])

/-- The different values of a list, in the order of their first appearance. -/
def distinct : List (List Char) → List (List Char)
  | [] => []
  | x :: xs => x :: (distinct xs).filter (· ≠ x)

/-- The peaks of a time and a frequency, in the order of the file. -/
def cell (W : List Char) (ls : List MaxLine) (t f : List Char) : List MaxRow :=
  (peaksOf W ls).filter fun r => decide (r.time = t) && decide (r.freq = f)

/-- A value, NaN for a missing peak. -/
def valueOr (value : MaxRow → Fl) : Option MaxRow → Fl
  | some r => value r
  | none => .nan

/-- A table with `n` rows and one column for each frequency: in row `i` of column `f` the value of the `i`-th peak of
the time and the frequency, NaN when there are not so many. -/
def grid (W : List Char) (ls : List MaxLine) (n : ℕ) (fs : List (List Char)) (t : List Char) (value : MaxRow → Fl) :
    Nd Fl :=
  ⟨[n, fs.length], (List.range n).flatMap fun i => fs.map fun f => valueOr value (cell W ls t f)[i]?⟩

end Verif.Spec
