import Mathlib.Data.List.Basic

/-!
# Specification: fields in the header of a `.max` file

A field is a key followed at once by its value; the value reaches as far as its characters are allowed.
-/

namespace Verif.Spec

/-- `v` is the value at the first place of the text where the key is followed by a character allowed in values. -/
def FirstField (key : List Char) (ok : Char → Prop) (text v : List Char) : Prop :=
  ∃ pre rest, text = pre ++ (key ++ (v ++ rest)) ∧ v ≠ [] ∧ (∀ c ∈ v, ok c) ∧ (∀ c ∈ rest.head?, ¬ ok c) ∧
    ∀ p c q, text = p ++ (key ++ c :: q) → ok c → pre.length ≤ p.length

/-- There is no such place. -/
def NoField (key : List Char) (ok : Char → Prop) (text : List Char) : Prop :=
  ∀ p c q, text = p ++ (key ++ c :: q) → ¬ ok c

/-- Not white space. -/
def Visible (c : Char) : Prop := c ∉ [' ', '\n', '\t', '\r', '\x0b', '\x0c']

/-- A decimal digit. -/
def IsDigit (c : Char) : Prop := '0' ≤ c ∧ c ≤ '9'

/-- The number written with these digits. -/
def decimal (v : List Char) : ℕ := v.foldl (fun n c => 10 * n + (c.toNat - '0'.toNat)) 0

end Verif.Spec
