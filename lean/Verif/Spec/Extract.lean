import Mathlib.Algebra.BigOperators.Group.Finset.Basic

/-!
# The civil calendar: hours since 0001-01-01 00:00
-/

namespace Verif.Spec

/-- Days of a year. -/
def yearLength (y : ℕ) : ℕ := if 4 ∣ y ∧ (¬ 100 ∣ y ∨ 400 ∣ y) then 366 else 365

/-- Days of a month. -/
def monthLength (y : ℕ) : ℕ → ℕ
  | 1 => 31
  | 2 => if 4 ∣ y ∧ (¬ 100 ∣ y ∨ 400 ∣ y) then 29 else 28
  | 3 => 31
  | 4 => 30
  | 5 => 31
  | 6 => 30
  | 7 => 31
  | 8 => 31
  | 9 => 30
  | 10 => 31
  | 11 => 30
  | 12 => 31
  | _ => 0

/-- Hours from 0001-01-01 00:00 to the given hour of the given day: all earlier years, all earlier months of
the year, all earlier days of the month. -/
def hourNumber (y m d h : ℕ) : ℕ :=
  24 * (∑ i ∈ Finset.range (y - 1), yearLength (i + 1) + ∑ i ∈ Finset.range (m - 1), monthLength y (i + 1) +
    (d - 1)) + h

end Verif.Spec
