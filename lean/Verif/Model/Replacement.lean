import Verif.Model.Correlation

/-!
# Model of the random replacement in `Statistics.from_data_matrix` (`swprocess/stats.py`, lines 82-120)

The draws are numbers: columns without mean or deviation (fewer than two numbers, for which `normal` returns NaN) are
outside the model; the default of `drop_sample_if_fewer_count` keeps no such column.
-/

namespace Verif
namespace Mat

/-- The entry lies in `[s_row:e_row, s_col:e_col]`. -/
def Region.has (r : Region) (i j : ℕ) : Bool :=
  decide (r.sRow ≤ i) && decide (i < r.eRow) && (decide (r.sCol ≤ j) && decide (j < r.eCol))

/-- `data_matrix[s_row:e_row, s_col:e_col]`. -/
def part (m : Mat) (r : Region) : Mat :=
  ⟨r.eCol - r.sCol,
    ((m.rows.drop r.sRow).take (r.eRow - r.sRow)).map fun row => (row.drop r.sCol).take (r.eCol - r.sCol)⟩

/-- `data_matrix[s_row:e_row, s_col:e_col] = values`. -/
def putPart (m : Mat) (r : Region) (sub : Mat) : Mat :=
  ⟨m.ncols, m.rows.mapIdx fun i row => row.mapIdx fun j x =>
    if r.has i j then entry sub.rows (i - r.sRow) (j - r.sCol) else x⟩

/-- stats.py:411-414 `_calc_stat`. -/
noncomputable def calcStat (m : Mat) : List (Option ℚ) × List (Option ℝ) := (m.cols.map nanmean, m.cols.map nanstd)

section Loop
variable {G : Type} (normal : G → Option ℚ → Option ℝ → ℚ × G)

/-- stats.py:86-89: one region.  (Every call of `_fill_data` makes a new generator; `G` stands for all of them.) -/
def fillRegion (means : List (Option ℚ)) (stddevs : List (Option ℝ)) (st : Mat × G) (r : Region) : Mat × G :=
  let o := fillData normal (st.1.part r) ((means.drop r.sCol).take (r.eCol - r.sCol))
    ((stddevs.drop r.sCol).take (r.eCol - r.sCol)) st.2
  (st.1.putPart r o.1, o.2)

/-- stats.py:85-89: one attempt. -/
def attempt (means : List (Option ℚ)) (stddevs : List (Option ℝ)) (regions : List Region) (st : Mat × G) : Mat × G :=
  regions.foldl (fillRegion normal means stddevs) st

/-- stats.py:93-101 for one column.  A comparison with NaN or an infinite number (division by zero) fails.
Simplification: the bounds are 1/20 and 1/100, not the doubles nearest to them. -/
def closeColumn (mean : Option ℚ) (stddev : Option ℝ) (newMean : Option ℚ) (newStddev : Option ℝ) : Prop :=
  match mean, stddev, newMean, newStddev with
  | some a, some s, some b, some t =>
    a ≠ 0 ∧ b ≠ 0 ∧ |(b - a) / a| < 1 / 20 ∧ |t / (b : ℝ) - s / (a : ℝ)| < 1 / 100
  | _, _, _, _ => False

/-- stats.py:91-101: the attempt is accepted; `np.max` over the columns is below a bound if all columns are. -/
def accepted (means : List (Option ℚ)) (stddevs : List (Option ℝ)) (m : Mat) : Prop :=
  ∀ c < m.ncols, closeColumn (means.getD c none) (stddevs.getD c none)
    (m.calcStat.1.getD c none) (m.calcStat.2.getD c none)

/-- stats.py:104 `data_matrix[nan_mask] = np.nan`; `mask` is the matrix whose missing entries make up the mask. -/
def reset (mask m : Mat) : Mat :=
  ⟨m.ncols, m.rows.mapIdx fun i row => row.mapIdx fun j x => if (entry mask.rows i j).isNone then none else x⟩

open Classical in
/-- stats.py:84-107: the attempts; without columns `np.max` raises `ValueError`. -/
noncomputable def attempts (mask : Mat) (means : List (Option ℚ)) (stddevs : List (Option ℝ)) (regions : List Region) :
    ℕ → Mat × G → Except PyErr Mat
  | 0, _ => .error .valueError
  | n + 1, st =>
    let o := attempt normal means stddevs regions st
    if o.1.ncols = 0 then .error .valueError
    else if accepted means stddevs o.1 then .ok o.1
    else attempts mask means stddevs regions n (reset mask o.1, o.2)

/-- stats.py:82-107: random replacement with the means and deviations of the data. -/
noncomputable def replaceGaps (m : Mat) (regions : List Region) (n : ℕ) (g : G) : Except PyErr Mat :=
  attempts normal m m.calcStat.1 m.calcStat.2 regions n (m, g)

end Loop

/-- stats.py:113-115: `corr[s_row:e_row, s_col:e_col] = np.corrcoef(part, rowvar=False)`.  The coefficients are a number
for one column, else a square matrix with a row and a column for every column of the part, which fits only if the part
has as many rows as columns.  `num` gives the number stored for a coefficient. -/
noncomputable def putCorr (num : ℝ → ℚ) (m : Mat) (corr : List (List Fl)) (r : Region) : Except PyErr (List (List Fl)) :=
  let p := m.part r
  if p.ncols = 1 ∨ r.eRow - r.sRow = p.ncols then
    .ok (corr.mapIdx fun i row => row.mapIdx fun j x =>
      if r.has i j then
        match corrEntry (p.cols.getD (if p.ncols = 1 then 0 else i - r.sRow) []) (p.cols.getD (j - r.sCol) []) with
        | none => .nan
        | some rho => .fin (num rho)
      else x)
  else .error .valueError

/-- stats.py:112-115: all regions. -/
noncomputable def putCorrs (num : ℝ → ℚ) (m : Mat) : List Region → List (List Fl) → Except PyErr (List (List Fl))
  | [], corr => .ok corr
  | r :: rs, corr =>
    match putCorr num m corr r with
    | .error e => .error e
    | .ok corr => putCorrs num m rs corr

end Mat

namespace Statistics

/-- The external procedures and the random source of `from_data_matrix`. -/
structure External (G : Type) where
  normal : G → Option ℚ → Option ℝ → ℚ × G
  log : ℚ → Fl
  fit : List Fl → List Fl → Except PyErr (Fl → Fl)
  num : ℝ → ℚ
  junk : List (List Fl)

/-- A double as it is stored in the object. -/
def stored : Fl → Option ℚ
  | .fin q => some q
  | _ => none

/-- stats.py:82-118: replacement, correlation coefficients, filling of missing coefficients.  `junk` is what
`np.empty_like` finds in the memory. -/
noncomputable def replaceAndCorrelate {G : Type} (x : External G) (n : ℕ) (g : G) (xx : List ℚ) (m : Mat)
    (regions : List Mat.Region) : Except PyErr (List (Option ℚ) × List (Option ℚ) × List (List (Option ℚ))) :=
  match Mat.replaceGaps x.normal m regions n g with
  | .error e => .error e
  | .ok filled =>
    match Mat.putCorrs x.num filled regions x.junk with
    | .error e => .error e
    | .ok corr =>
      match fillCorr x.log x.fit xx corr with
      | .error e => .error e
      | .ok corr => .ok (m.calcStat.1, m.calcStat.2.map fun s => s.map x.num, corr.map fun row => row.map stored)

/-- stats.py:41-120 `from_data_matrix`. -/
noncomputable def fromMatrix {G : Type} (x : External G) (a : Mat.DropArgs) (thr : ℚ) (n : ℕ) (g : G) (xx : List ℚ)
    (m : Mat) : Except PyErr Statistics :=
  fromDataMatrix a thr xx m (replaceAndCorrelate x n g (Mat.drop a xx m).1)

end Statistics
end Verif
