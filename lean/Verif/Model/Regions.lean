import Verif.Model.Stats

/-!
# Model of `Statistics` in `swprocess/stats.py`: sorting, regions, random replacement, construction
-/

namespace Verif
namespace Mat

/-- Entry in row `r` and column `c`. -/
def entry (rows : List (List (Option ℚ))) (r c : ℕ) : Option ℚ := (rows.getD r []).getD c none

/-! ## Sorting the rows -/

/-- stats.py:222-224: exchange two rows through a temporary row. -/
def swapRows (i j : ℕ) (rows : List (List (Option ℚ))) : List (List (Option ℚ)) :=
  (rows.set i (rows.getD j [])).set j (rows.getD i [])

/-- stats.py:221-225: one pass of the inner loop; the state is the matrix and `c_row`. -/
def sortStep (st : List (List (Option ℚ)) × ℕ) (valId : ℕ) : List (List (Option ℚ)) × ℕ :=
  (swapRows st.2 valId st.1, st.2 + 1)

/-- stats.py:219-220 `val_ids`. -/
def valIds (rows : List (List (Option ℚ))) (c cRow : ℕ) : List ℕ :=
  (List.range rows.length).filter fun r => (entry rows r c).isSome && decide (cRow ≤ r)

/-- stats.py:218-225: one column. -/
def sortCol (st : List (List (Option ℚ)) × ℕ) (c : ℕ) : List (List (Option ℚ)) × ℕ :=
  (valIds st.1 c st.2).foldl sortStep st

/-- stats.py:211-226 `_sort`. -/
def sort (m : Mat) : Mat := ⟨m.ncols, ((List.range m.ncols).foldl sortCol (m.rows, 0)).1⟩

/-! ## Regions -/

/-- The variables of the inner loop of `_identify_regions`. -/
structure Grow where
  cRow : ℕ
  cCol : ℕ
  nVals : ℕ
  total : ℕ
  deriving DecidableEq, Repr

/-- stats.py:246: `data_matrix[c_row+1, s_col:c_col+1]`. -/
def rowPart (m : Mat) (r s e : ℕ) : List (Option ℚ) := ((m.rows.getD r []).drop s).take (e - s)

/-- stats.py:267: `data_matrix[s_row:c_row+1, c_col+1]`. -/
def colPart (m : Mat) (c s e : ℕ) : List (Option ℚ) := ((m.rows.drop s).take (e - s)).map fun r => r.getD c none

/-- stats.py:245-263: try the next row; the flag is `row_failed`. -/
def growRow (m : Mat) (thr : ℚ) (sCol : ℕ) (g : Grow) : Grow × Bool :=
  if g.cRow + 1 < m.rows.length then
    let row := m.rowPart (g.cRow + 1) sCol (g.cCol + 1)
    if thr ≤ ((g.nVals + numCount row : ℕ) : ℚ) / ((g.total + row.length : ℕ) : ℚ) then
      (⟨g.cRow + 1, g.cCol, g.nVals + numCount row, g.total + row.length⟩, false)
    else (g, true)
  else (g, true)

/-- stats.py:266-284: try the next column; the flag is `col_failed`. -/
def growCol (m : Mat) (thr : ℚ) (sRow : ℕ) (g : Grow) : Grow × Bool :=
  if g.cCol + 1 < m.ncols then
    let col := m.colPart (g.cCol + 1) sRow (g.cRow + 1)
    if thr ≤ ((g.nVals + numCount col : ℕ) : ℚ) / ((g.total + col.length : ℕ) : ℚ) then
      (⟨g.cRow, g.cCol + 1, g.nVals + numCount col, g.total + col.length⟩, false)
    else (g, true)
  else (g, true)

/-- stats.py:242-291: the inner loop with its number of passes; `none` if no pass breaks. -/
def grow (m : Mat) (thr : ℚ) (sRow sCol : ℕ) : ℕ → Grow → Option Grow
  | 0, _ => none
  | n + 1, g =>
    let r := growRow m thr sCol g
    let c := growCol m thr sRow r.1
    if r.2 && c.2 then some c.1 else grow m thr sRow sCol n c.1

/-- stats.py:297: the first row with a value in the column. -/
def firstValid (m : Mat) (c : ℕ) : Option ℕ := (List.range m.rows.length).find? fun r => (entry m.rows r c).isSome

/-- A region: start corner and exclusive end corner. -/
structure Region where
  sRow : ℕ
  sCol : ℕ
  eRow : ℕ
  eCol : ℕ
  deriving DecidableEq, Repr

/-- stats.py:236-300: the outer loop; the first argument is the number of regions still allowed. -/
def regionsFrom (m : Mat) (thr : ℚ) : ℕ → ℕ → ℕ → Except PyErr (List Region)
  | 0, _, _ => .error .valueError
  | n + 1, sRow, sCol =>
    match grow m thr sRow sCol ((m.rows.length - sRow) + (m.ncols - sCol)) ⟨sRow, sCol, 1, 1⟩ with
    | none => .error .valueError
    | some g =>
      if g.cRow + 1 = m.rows.length ∧ g.cCol + 1 = m.ncols then .ok [⟨sRow, sCol, g.cRow + 1, g.cCol + 1⟩]
      else if m.ncols ≤ g.cCol + 1 then .error .indexError
      else
        match m.firstValid (g.cCol + 1) with
        | none => .error .indexError
        | some sRow' =>
          match regionsFrom m thr n sRow' (g.cCol + 1) with
          | .error e => .error e
          | .ok rs => .ok (⟨sRow, sCol, g.cRow + 1, g.cCol + 1⟩ :: rs)

/-- stats.py:228-302 `_identify_regions` with `max_regions=100`. -/
def identifyRegions (m : Mat) (thr : ℚ) : Except PyErr (List Region) := regionsFrom m thr 100 0 0

/-! ## Random replacement -/

section Fill
variable {G Mu Sd : Type} (normal : G → Mu → Sd → ℚ × G)

/-- stats.py:341-344: fill the missing entries of one column in the given rows, top to bottom. -/
def fillIds (c : ℕ) (mu : Mu) (sd : Sd) : List ℕ → List (List (Option ℚ)) × G → List (List (Option ℚ)) × G
  | [], st => st
  | r :: rs, st =>
    let d := normal st.2 mu sd
    fillIds c mu sd rs (st.1.modify r fun row => row.set c (some d.1), d.2)

/-- stats.py:341: `np.flatnonzero(np.isnan(data))`. -/
def nanIds (rows : List (List (Option ℚ))) (c : ℕ) : List ℕ :=
  (List.range rows.length).filter fun r => (entry rows r c).isNone

/-- stats.py:340-344: the columns from `c` on, with the means and deviations paired to them by `zip`. -/
def fillCols : ℕ → List (Mu × Sd) → List (List (Option ℚ)) × G → List (List (Option ℚ)) × G
  | _, [], st => st
  | c, (mu, sd) :: ps, st => fillCols (c + 1) ps (fillIds normal c mu sd (nanIds st.1 c) st)

/-- stats.py:304-346 `_fill_data` with given means and deviations.  The random source is a state `G` with an arbitrary
`normal(mean, deviation)` method returning a number. -/
def fillData (m : Mat) (means : List Mu) (stddevs : List Sd) (g : G) : Mat × G :=
  let r := fillCols normal 0 ((means.zip stddevs).take m.ncols) (m.rows, g)
  (⟨m.ncols, r.1⟩, r.2)

end Fill

/-- stats.py:402-409 `_calc_density` (both corners inclusive). -/
def calcDensity (m : Mat) (bRow bCol eRow eCol : ℕ) : ℚ :=
  ((((m.rows.drop bRow).take (eRow + 1 - bRow)).map fun r => numCount ((r.drop bCol).take (eCol + 1 - bCol))).sum : ℚ) /
    (((eCol : ℚ) - bCol + 1) * ((eRow : ℚ) - bRow + 1))

end Mat

/-- A `Statistics` object. -/
structure Statistics where
  xx : List ℚ
  mean : List (Option ℚ)
  stddev : List (Option ℚ)
  corr : List (List (Option ℚ))

namespace Statistics

/-- The keyword arguments `np.array` accepts. -/
def arrayKeywords : List String := ["dtype", "copy", "order", "subok", "ndmin", "like"]

/-- `np.array(value, keyword=float)`. -/
def npArray {α : Type} (value : α) (keyword : String) : Except PyErr α :=
  if keyword ∈ arrayKeywords then .ok value else .error .typeError

/-- stats.py:29-33 `__init__`. -/
def init (xx : List ℚ) (mean stddev : List (Option ℚ)) (corr : List (List (Option ℚ))) : Except PyErr Statistics :=
  match npArray xx "dtype" with
  | .error e => .error e
  | .ok xx =>
    match npArray mean "dtype" with
    | .error e => .error e
    | .ok mean =>
      match npArray stddev "dtype" with
      | .error e => .error e
      | .ok stddev =>
        match npArray corr "dytpe" with
        | .error e => .error e
        | .ok corr => .ok ⟨xx, mean, stddev, corr⟩

/-- The methods of the class (stats.py:27-414). -/
def methods : List String :=
  ["__init__", "from_peakssuite", "from_data_matrix", "_drop", "_drop_indices", "_sort", "_identify_regions",
   "_fill_data", "_fill_corr", "_calc_density", "_calc_stat"]

/-- stats.py:35-39 `from_peakssuite`; the result is that of a function without `return`. -/
def fromPeaksSuite (s : Suite) (xx : List ℚ) (xtype ytype : String) : Except PyErr (Option Statistics) :=
  match s.toArray xtype ytype xx with
  | .error e => .error e
  | .ok _ => if "from_array" ∈ methods then .ok none else .error .attributeError

/-- stats.py:41-120 `from_data_matrix`.  The random replacement loop and the correlations (lines 82-118, see
`Model/Replacement.lean`) are a function of the sorted matrix and its regions, which may raise. -/
def fromDataMatrix (a : Mat.DropArgs) (thr : ℚ) (xx : List ℚ) (m : Mat)
    (rest : Mat → List Mat.Region → Except PyErr (List (Option ℚ) × List (Option ℚ) × List (List (Option ℚ)))) :
    Except PyErr Statistics :=
  let d := Mat.drop a xx m
  let s := Mat.sort d.2
  match Mat.identifyRegions s thr with
  | .error e => .error e
  | .ok regions =>
    match rest s regions with
    | .error e => .error e
    | .ok (mean, stddev, corr) => init d.1 mean stddev corr

end Statistics
end Verif
