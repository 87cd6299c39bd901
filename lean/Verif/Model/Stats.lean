import Verif.Model.Suite
import Mathlib.Analysis.Real.Sqrt

/-!
# Model of the statistics in `swprocess/peakssuite.py` and `swprocess/stats.py`

A data matrix is a list of rows; an entry is a number or missing (`none`, for `np.nan`).  Infinite entries are not
modelled.  `PeaksSuite._drop`/`_drop_indices` (peakssuite.py:642-729) and `Statistics._drop`/`_drop_indices`
(stats.py:122-209) are the same code and are modelled once.
-/

namespace Verif

/-- A two-dimensional data matrix with its number of columns. -/
structure Mat where
  ncols : ℕ
  rows : List (List (Option ℚ))
  deriving DecidableEq, Repr

namespace Mat

/-- Columns of the matrix, as lists from the first row to the last. -/
def cols (m : Mat) : List (List (Option ℚ)) := (List.range m.ncols).map fun c => m.rows.map fun r => r.getD c none

/-- `np.sum(~np.isnan(list))`. -/
def numCount (l : List (Option ℚ)) : ℕ := l.countP fun x => x.isSome

/-- Number of missing entries: `np.sum(np.isnan(matrix))`. -/
def nans (m : Mat) : ℕ := (m.rows.map fun r => r.length - numCount r).sum

/-- Number of numbers: `matrix.size - np.sum(np.isnan(matrix))`. -/
def nums (m : Mat) : ℕ := (m.rows.map numCount).sum

/-- peakssuite.py:715-729, stats.py:195-209 `_drop_indices`, on the rows of a matrix. -/
def dropIndices (rows : List (List (Option ℚ))) (percent : ℚ) (count : ℕ) : List ℕ :=
  if rows = [] ∨ rows.headD [] = [] then []
  else (rows.zipIdx.filter fun p =>
    decide (numCount p.1 < count) || decide ((numCount p.1 : ℚ) / p.1.length < percent)).map fun p => p.2

/-- `np.delete(list, indices)`. -/
def deleteAt {α : Type} (idx : List ℕ) (l : List α) : List α :=
  (l.zipIdx.filter fun p => !idx.contains p.2).map fun p => p.1

/-- `np.delete(matrix, indices, axis=1)`. -/
def deleteCols (idx : List ℕ) (m : Mat) : Mat :=
  ⟨(deleteAt idx (List.range m.ncols)).length, m.rows.map (deleteAt idx)⟩

/-- `np.delete(matrix, indices, axis=0)`. -/
def deleteRows (idx : List ℕ) (m : Mat) : Mat := ⟨m.ncols, deleteAt idx m.rows⟩

/-- peakssuite.py:692, 706, stats.py:172: `(i_nans - r_nans) / (i_nums - r_nums + 1)`. -/
def utility (m r : Mat) : ℚ := ((m.nans : ℚ) - r.nans) / ((m.nums : ℚ) - r.nums + 1)

/-- The arguments of `_drop`. -/
structure DropArgs where
  obsPercent : ℚ
  samplePercent : ℚ
  sampleCount : ℕ

/-- peakssuite.py:680-691, option 1: drop columns, then rows. -/
def option1 (a : DropArgs) (xx : List ℚ) (m : Mat) : List ℚ × Mat :=
  let dc := dropIndices m.cols a.samplePercent a.sampleCount
  let m1 := m.deleteCols dc
  (deleteAt dc xx, m1.deleteRows (dropIndices m1.rows a.obsPercent 0))

/-- peakssuite.py:694-705, option 2: drop rows, then columns. -/
def option2 (a : DropArgs) (xx : List ℚ) (m : Mat) : List ℚ × Mat :=
  let m2 := m.deleteRows (dropIndices m.rows a.obsPercent 0)
  let dc := dropIndices m2.cols a.samplePercent a.sampleCount
  (deleteAt dc xx, m2.deleteCols dc)

/-- peakssuite.py:642-713, stats.py:122-193 `_drop`. -/
def drop (a : DropArgs) (xx : List ℚ) (m : Mat) : List ℚ × Mat :=
  let o1 := option1 a xx m
  let o2 := option2 a xx m
  if utility m o1.2 > utility m o2.2 then o1 else o2

/-! ## Resampling -/

/-- Insert a point into a list sorted by abscissa (`argsort(kind="mergesort")` is stable). -/
def insertPoint (p : ℚ × ℚ) : List (ℚ × ℚ) → List (ℚ × ℚ)
  | [] => [p]
  | q :: qs => if p.1 < q.1 then p :: q :: qs else q :: insertPoint p qs

/-- Points sorted by abscissa. -/
def sortPoints (ps : List (ℚ × ℚ)) : List (ℚ × ℚ) := ps.foldl (fun l p => insertPoint p l) []

/-- Piecewise linear interpolation of sorted points, `none` outside their range. -/
def interpSorted : List (ℚ × ℚ) → ℚ → Option ℚ
  | [], _ => none
  | [p], x => if x = p.1 then some p.2 else none
  | p :: q :: rest, x =>
    if x < p.1 then none
    else if x < q.1 then some (p.2 + (q.2 - p.2) / (q.1 - p.1) * (x - p.1))
    else interpSorted (q :: rest) x

/-- `interp1d(x, y, bounds_error=False, fill_value=np.nan)(x_new)`; without points `interp1d` raises `ValueError`,
which `to_array` turns into missing values. -/
def interp (ps : List (ℚ × ℚ)) (x : ℚ) : Option ℚ := interpSorted (sortPoints ps) x

end Mat

namespace Suite

/-- The numbers of a list of floats; `none` if one is NaN (peakssuite.py:618-621 raises `ValueError`).  Infinite
values are not modelled (also `none`). -/
def numbers : List Fl → Option (List ℚ)
  | [] => some []
  | .fin q :: l =>
    match numbers l with
    | some r => some (q :: r)
    | none => none
  | _ :: _ => none

/-- peakssuite.py:617-629: one row of `to_array`. -/
def arrayRow (xtype ytype : String) (xx : List ℚ) (p : Peaks) : Except PyErr (List (Option ℚ)) :=
  match p.simplify xtype with
  | .error e => .error e
  | .ok xs =>
    match p.simplify ytype with
    | .error e => .error e
    | .ok ys =>
      match numbers xs, numbers ys with
      | some a, some b => .ok (xx.map (Mat.interp (a.zip b)))
      | _, _ => .error .valueError

/-- All rows, stopping at the first exception. -/
def arrayRows (xtype ytype : String) (xx : List ℚ) : List Peaks → Except PyErr (List (List (Option ℚ)))
  | [] => .ok []
  | p :: ps =>
    match arrayRow xtype ytype xx p with
    | .error e => .error e
    | .ok r =>
      match arrayRows xtype ytype xx ps with
      | .error e => .error e
      | .ok rs => .ok (r :: rs)

/-- peakssuite.py:590-631 `to_array`. -/
def toArray (s : Suite) (xtype ytype : String) (xx : List ℚ) : Except PyErr (List ℚ × Mat) :=
  match arrayRows xtype ytype xx s.peaks with
  | .error e => .error e
  | .ok rows => .ok (xx, ⟨xx.length, rows⟩)

end Suite

namespace Mat

/-- The numbers among the entries. -/
def valid (l : List (Option ℚ)) : List ℚ := l.filterMap id

/-- `np.nanmean` of one column; without numbers it is NaN. -/
def nanmean (l : List (Option ℚ)) : Option ℚ :=
  if valid l = [] then none else some ((valid l).sum / (valid l).length)

/-- `np.nanstd(..., ddof=1)` of one column; with fewer than two numbers it is NaN. -/
noncomputable def nanstd (l : List (Option ℚ)) : Option ℝ :=
  if (valid l).length < 2 then none
  else
    let mu := (valid l).sum / (valid l).length
    some (Real.sqrt ((((valid l).map fun x => (x - mu) * (x - mu)).sum / ((valid l).length - 1 : ℚ) : ℚ) : ℝ))

/-- peakssuite.py:580-584: replace the missing entries of one column by its mean. -/
def substitute (l : List (Option ℚ)) : List (Option ℚ) :=
  l.map fun x => if x.isSome then x else nanmean l

end Mat

namespace Suite

/-- peakssuite.py:536-588 `statistics` with `ignore_corr=True`: sample locations, means and standard deviations.
(`mean_substitution` changes only the matrix used for the correlations, see `Model/Correlation.lean`.) -/
noncomputable def statistics (s : Suite) (xtype ytype : String) (xx : List ℚ) (count : ℕ) :
    Except PyErr (List ℚ × List (Option ℚ) × List (Option ℝ)) :=
  if s.peaks.length < 3 then .error .valueError
  else
    match s.toArray xtype ytype xx with
    | .error e => .error e
    | .ok (xx, m) =>
      let r := Mat.drop ⟨1 / 100, 1 / 100, count⟩ xx m
      .ok (r.1, r.2.cols.map Mat.nanmean, r.2.cols.map Mat.nanstd)

end Suite
end Verif
