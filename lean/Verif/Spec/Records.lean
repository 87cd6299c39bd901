import Mathlib.Algebra.Order.Field.Rat
import Mathlib.Algebra.BigOperators.Group.List.Basic

/-!
# Specifications for time records

Plain mathematics on lists of samples; nothing here refers to the model.
-/

namespace Verif.Spec

/-- Stack-weighted mean at sample `i` of records given as (number of stacks, samples). -/
def weightedMean (records : List (ℚ × List ℚ)) (i : ℕ) : ℚ :=
  (records.map fun r => r.1 * r.2.getD i 0).sum / (records.map fun r => r.1).sum

/-- Record `b` moved later by `s` samples (earlier if negative): sample `i` of the moved record is
sample `i - s` of `b`, zero where `b` has no such sample. -/
def shiftedSample (b : List ℚ) (s : ℤ) (i : ℕ) : ℚ :=
  if 0 ≤ (i : ℤ) - s ∧ (i : ℤ) - s < b.length then b.getD ((i : ℤ) - s).toNat 0 else 0

/-- Correlation of `a` with `b` moved by `s`, over the samples of `a`. -/
def correlation (a b : List ℚ) (s : ℤ) : ℚ :=
  ((List.range a.length).map fun i => a.getD i 0 * shiftedSample b s i).sum

end Verif.Spec
