import Mathlib.Data.Rat.Defs
import Mathlib.Algebra.Order.Field.Rat
import Mathlib.Algebra.BigOperators.Group.List.Defs
import Mathlib.Data.Real.Basic

/-!
# Specification: resampled values, removal of incomplete rows and columns

Stated without the model: a matrix is a function from row and column to an optional number.
-/

namespace Verif.Spec

/-- `v` is the value at `x` of the broken line through the points, missing outside their range. -/
structure Resampled (ps : List (ℚ × ℚ)) (x : ℚ) (v : Option ℚ) : Prop where
  missing : v = none ↔ ¬ ((∃ p ∈ ps, p.1 ≤ x) ∧ ∃ p ∈ ps, x ≤ p.1)
  atPoint : ∀ p ∈ ps, p.1 = x → v = some p.2
  between : ∀ p ∈ ps, ∀ q ∈ ps, p.1 < x → x < q.1 → (∀ r ∈ ps, r.1 ≤ p.1 ∨ q.1 ≤ r.1) →
    ∃ y, v = some y ∧ (y - p.2) * (q.1 - p.1) = (q.2 - p.2) * (x - p.1) ∧ min p.2 q.2 ≤ y ∧ y ≤ max p.2 q.2

/-- Number of present values among the given positions of a line. -/
def present (line : ℕ → Option ℚ) (at_ : List ℕ) : ℕ := (at_.filter fun i => (line i).isSome).length

/-- The line has enough values: at least `count` and at least the fraction `percent` of the positions. -/
def Enough (percent : ℚ) (count : ℕ) (line : ℕ → Option ℚ) (at_ : List ℕ) : Prop :=
  count ≤ present line at_ ∧ percent ≤ (present line at_ : ℚ) / at_.length

instance (percent : ℚ) (count : ℕ) (line : ℕ → Option ℚ) (at_ : List ℕ) : Decidable (Enough percent count line at_) :=
  inferInstanceAs (Decidable (_ ∧ _))

/-- The rows that have enough values in the columns `C`; nothing is removed from an empty matrix. -/
def keepRows (e : ℕ → ℕ → Option ℚ) (percent : ℚ) (count : ℕ) (R C : List ℕ) : List ℕ :=
  if R = [] ∨ C = [] then R else R.filter fun r => Enough percent count (fun c => e r c) C

/-- The columns that have enough values in the rows `R`. -/
def keepCols (e : ℕ → ℕ → Option ℚ) (percent : ℚ) (count : ℕ) (R C : List ℕ) : List ℕ :=
  keepRows (fun c r => e r c) percent count C R

/-- Number of values in the sub-matrix. -/
def values (e : ℕ → ℕ → Option ℚ) (R C : List ℕ) : ℕ := (R.map fun r => present (fun c => e r c) C).sum

/-- Missing entries removed per value removed (plus one) by restricting the whole matrix to rows `R`, columns `C`. -/
def benefit (e : ℕ → ℕ → Option ℚ) (nr nc : ℕ) (R C : List ℕ) : ℚ :=
  let all := values e (List.range nr) (List.range nc)
  (((nr * nc : ℕ) - all : ℚ) - ((R.length * C.length : ℕ) - values e R C : ℚ)) /
    ((all : ℚ) - values e R C + 1)

/-- The rows and columns kept when incomplete data are dropped from a matrix of `nr` rows and `nc` columns: incomplete
columns first and then incomplete rows if that has the larger benefit, otherwise rows first. -/
def keptData (e : ℕ → ℕ → Option ℚ) (nr nc : ℕ) (samplePercent obsPercent : ℚ) (count : ℕ) : List ℕ × List ℕ :=
  let C1 := keepCols e samplePercent count (List.range nr) (List.range nc)
  let R1 := keepRows e obsPercent 0 (List.range nr) C1
  let R2 := keepRows e obsPercent 0 (List.range nr) (List.range nc)
  let C2 := keepCols e samplePercent count R2 (List.range nc)
  if benefit e nr nc R1 C1 > benefit e nr nc R2 C2 then (R1, C1) else (R2, C2)

/-- The first column in which the row has a value; the number of columns for an empty row. -/
def firstColumn (row : List (Option ℚ)) : ℕ := row.findIdx fun x => x.isSome

/-- Number of values in the rectangle of rows `[r1, r2)` and columns `[c1, c2)`. -/
def valuesIn (e : ℕ → ℕ → Option ℚ) (r1 r2 c1 c2 : ℕ) : ℕ :=
  values e (List.range' r1 (r2 - r1)) (List.range' c1 (c2 - c1))

/-- Arithmetic mean, missing without values. -/
def IsMean (vs : List ℚ) (mu : Option ℚ) : Prop :=
  (vs = [] ∧ mu = none) ∨ (vs ≠ [] ∧ ∃ q, mu = some q ∧ q * vs.length = vs.sum)

/-- Sample standard deviation (`n - 1` degrees of freedom), missing with fewer than two values. -/
def IsStd (vs : List ℚ) (sd : Option ℝ) : Prop :=
  (vs.length < 2 ∧ sd = none) ∨
    (2 ≤ vs.length ∧ ∃ (mu : ℚ) (s : ℝ), IsMean vs (some mu) ∧ sd = some s ∧ 0 ≤ s ∧
      s ^ 2 * (vs.length - 1) = (vs.map fun (v : ℚ) => ((v : ℝ) - mu) ^ 2).sum)

end Verif.Spec

namespace Verif.Spec

/-- Ask a random source for one number per request, in order. -/
def draws {G Mu Sd : Type} (normal : G → Mu → Sd → ℚ × G) : G → List (Mu × Sd) → List ℚ × G
  | g, [] => ([], g)
  | g, (mu, sd) :: rest =>
    let d := normal g mu sd
    let r := draws normal d.2 rest
    (d.1 :: r.1, r.2)

/-- The missing entries, column by column and from the first row to the last, as (row, column). -/
def gaps (e : ℕ → ℕ → Option ℚ) (nr nc : ℕ) : List (ℕ × ℕ) :=
  (List.range nc).flatMap fun c => ((List.range nr).filter fun r => (e r c).isNone).map fun r => (r, c)

end Verif.Spec
