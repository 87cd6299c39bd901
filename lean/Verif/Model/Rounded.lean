import Verif.Py.Float64
import Verif.Model.ActiveTimeSeries
import Verif.Model.Array
import Verif.Model.Transform
import Verif.Model.Regions

/-!
# The code with the rounding of binary64

The other modules compute with exact rationals.  Here the steps of the code whose result can depend on rounding -
a number turned into an index, a comparison, an average - are modelled again, every arithmetic operation on
`float`/`float64` followed by `B64.rnd`, in the order in which the code performs them.  Integers are converted to
`float64` without error (they are below `2^53`).
-/

namespace Verif.B64

/-! ## Records -/

/-- activetimeseries.py:262-263 `int(round(1/(df*self.dt)))`. -/
def targetSamples (df dt : ℚ) : ℤ := pyRound (div 1 (mul df dt))

/-- activetimeseries.py:234-287 `zero_pad`; `int(a/b)` of integers in lines 277 and 282 divides in binary64. -/
def zeroPad (r : ATS) (df : ℚ) : Outcome ATS :=
  let r1 := { r with multiple := 1 }
  if df ≤ 0 then (r1, .error .valueError)
  else
    let n : ℤ := targetSamples df r.dt
    if n > r.nsamples then
      ({ r1 with amp := r.amp ++ List.replicate (n - r.nsamples).toNat 0 }, .ok ())
    else if n < r.nsamples then
      if n = 0 then (r1, .error .zeroDivisionError)
      else if (r.nsamples : ℤ) % n = 0 then
        ({ r1 with multiple := (pyInt (div r.nsamples n)).toNat }, .ok ())
      else
        let padding := n - (r.nsamples : ℤ) % n
        ({ r1 with multiple := (pyInt (div (((r.nsamples : ℤ) + padding : ℤ) : ℚ) n)).toNat,
                   amp := r.amp ++ List.replicate padding.toNat 0 }, .ok ())
    else (r1, .ok ())

/-- activetimeseries.py:103-106 `_df`: the base class `df = 1/(nsamples*dt)`. -/
def dfInternal (r : ATS) : ℚ := div 1 (mul r.nsamples r.dt)

/-- activetimeseries.py:108-111 `df`. -/
def df (r : ATS) : ℚ := mul (dfInternal r) r.multiple

/-- activetimeseries.py:121-149 `stack_append`. -/
def stackAppend (r t : ATS) : Outcome ATS :=
  if !r.isSimilar t (.coll ["nstacks"]) then (r, .error .valueError)
  else
    ({ r with
        amp := (List.zipWith (fun (x y : ℚ) => add (mul x r.nstacks) (mul y t.nstacks)) r.amp t.amp).map
                 (fun x => div x ((r.nstacks + t.nstacks : ℤ) : ℚ))
        nstacks := r.nstacks + t.nstacks }, .ok ())

/-- activetimeseries.py:117-120 `time`: `np.arange(nsamples)*dt` of the base class plus the delay. -/
def time (r : ATS) : List ℚ := (List.range r.nsamples).map fun (i : ℕ) => add (mul i r.dt) r.delay

/-- `sigpropy.TimeSeries.trim` (external), see `ATS.trimBase`. -/
def trimBase (r : ATS) (start stop : ℚ) : Outcome ATS :=
  match argmin ((time r).map fun t => |sub t start|), argmin ((time r).map fun t => |sub t stop|),
        (time r).head?, (time r).getLast? with
  | some i, some j, some t0, some t1 =>
      if start < t0 || start > stop || stop > t1 then (r, .error .indexError)
      else ({ r with amp := pySlice r.amp i (j + 1) }, .ok ())
  | _, _, _, _ => (r, .error .valueError)

/-- activetimeseries.py:213-232 `trim`. -/
def trim (r : ATS) (start stop : ℚ) : Outcome ATS :=
  match trimBase r start stop with
  | (r', .ok ()) => ({ r' with delay := start }, .ok ())
  | (r', .error e) => (r', .error e)

/-! ## Frequencies -/

/-- wavefieldtransforms.py:344 (and 517, 560, 613): `np.arange(nsamples)*step`. -/
def binFrequencies (nsamples : ℕ) (step : ℚ) : List ℚ :=
  (List.range nsamples).map fun (k : ℕ) => mul k step

/-- wavefieldtransforms.py:76-82 `_frequency_keep_ids`. -/
def keepIds (frqs : List ℚ) (fmin fmax : ℚ) (multiple : ℕ) : Except PyErr (List ℕ) :=
  match argmin (frqs.map fun f => |sub f fmin|), argmin (frqs.map fun f => |sub f fmax|) with
  | some i, some j =>
    if multiple = 0 then .error .valueError else .ok (WT.pyRange i (j + 1) multiple)
  | _, _ => .error .valueError

/-! ## Slant stack -/

/-- wavefieldtransforms.py:474, 477: position of a sample, in samples. -/
def floatIndex (pos dt velocity : ℚ) : ℚ := div (div pos dt) velocity

/-- wavefieldtransforms.py:481-482: amplitudes of one trace, linearly interpolated. -/
def amplitudes (u : List ℚ) (cols : List ℤ) (delta : ℚ) : Except PyErr (List ℚ) :=
  cols.mapM fun c => do
    let lo ← WT.readSample u c
    let hi ← WT.readSample u (c + 1)
    return add (mul lo (sub 1 delta)) (mul hi delta)

/-- wavefieldtransforms.py:465: `position[1:] - position[:-1]`; also `np.diff`. -/
def diff : List ℚ → List ℚ
  | x :: y :: rest => sub y x :: diff (y :: rest)
  | _ => []

/-- wavefieldtransforms.py:483: `0.5*diff*(amplitudes[1:] + amplitudes[:-1])`, for one delay. -/
def trapezoids : List ℚ → List ℚ → List ℚ
  | d :: ds, x :: y :: rest => mul (mul (1 / 2) d) (add y x) :: trapezoids ds (y :: rest)
  | _, _ => []

/-- wavefieldtransforms.py:478-480: new columns of one trace. -/
def updateCols (pos dt velocity : ℚ) (c : List ℤ × ℤ) : List ℤ × ℤ :=
  (c.1.map fun i => i + (pyInt (floatIndex pos dt velocity) - c.2), pyInt (floatIndex pos dt velocity))

/-- wavefieldtransforms.py:476-487: one velocity of the loop.  `np.sum(integral, axis=0)` adds the rows one after
the other. -/
def slantRow (tm : List (List ℚ)) (pos : List ℚ) (dt : ℚ) (ntaus : ℕ) (carry : WT.Carry)
    (velocity : ℚ) : Except PyErr (WT.Carry × List ℚ) := do
  let carry' := List.zipWith (fun p c => updateCols p dt velocity c) pos carry
  let amps ← (tm.zip (pos.zip carry')).mapM fun x =>
    amplitudes x.1 x.2.2.1 (sub (floatIndex x.2.1 dt velocity) (pyInt (floatIndex x.2.1 dt velocity)))
  return (carry', (List.range ntaus).map fun j =>
    (trapezoids (diff pos) (amps.map fun a => a.getD j 0)).foldl add 0)

/-- wavefieldtransforms.py:476-487: the loop over the velocities. -/
def slantRows (tm : List (List ℚ)) (pos : List ℚ) (dt : ℚ) (ntaus : ℕ) :
    WT.Carry → List ℚ → Except PyErr (List (List ℚ))
  | _, [] => .ok []
  | carry, v :: vs => do
    let (carry', row) ← slantRow tm pos dt ntaus carry v
    let rest ← slantRows tm pos dt ntaus carry' vs
    return row :: rest

/-- wavefieldtransforms.py:469: `npts - int(np.max(position)*np.max(1/velocities)/dt) - 1`. -/
def ntaus (npts : ℕ) (pos velocities : List ℚ) (dt : ℚ) : ℤ :=
  npts - pyInt (div (mul ((Arr.maxList pos).getD 0)
    ((Arr.maxList (velocities.map fun v => div 1 v)).getD 0)) dt) - 1

/-- wavefieldtransforms.py:438-490 `slant_stack` on the (flipped) traces and offsets.  Empty inputs and a negative
number of delays raise `ValueError`. -/
def slantStack (tm : List (List ℚ)) (offsets : List ℚ) (dt : ℚ) (velocities : List ℚ) :
    Except PyErr (List (List ℚ)) :=
  match Arr.minList offsets, velocities with
  | none, _ => .error .valueError
  | some _, [] => .error .valueError
  | some m, _ :: _ =>
    let pos := offsets.map fun x => sub x m
    let nt := ntaus (tm.headD []).length pos velocities dt
    if nt < 0 then .error .valueError
    else slantRows tm pos dt nt.toNat
      (pos.map fun _ => ((List.range nt.toNat).map fun (j : ℕ) => (j : ℤ), 0)) velocities

/-! ## Coordinates in SU files -/

/-- array1d.py:762, 773-784 `rint(x*1000)`: a coordinate in metres as written to the header. -/
def toMillimetres (x : ℚ) : ℤ := pyRound (mul x 1000)

/-- `round(x, 3)` of a Python float: the decimal number with three places nearest to `x` (of two the even one), as
a float. -/
def roundDecimals (x : ℚ) : ℚ := rnd (pyRoundDigits x 3)

/-- sensor1c.py:208-210 (and 212-214; array1d.py:687-693) with the scalar -1000 written by `to_file`:
`round(int_x/1000, 3)`. -/
def fromMillimetres (k : ℤ) : ℚ := roundDecimals (div k 1000)

/-! ## Spacing -/

/-- `round(x, 2)` of a `np.float64`: numpy multiplies by 100, rounds to an integer and divides by 100. -/
def npRound2 (x : ℚ) : ℚ := div (pyRound (mul x 100)) 100

/-- array1d.py:158-166 `spacing`; `1E-2` is the float nearest 1/100. -/
def spacing (position : List ℚ) : Except PyErr ℚ :=
  match Arr.minList (diff position), Arr.maxList (diff position) with
  | some mn, some mx => if sub mx mn < rnd (1 / 100) then .ok (npRound2 mn) else .error .valueError
  | _, _ => .error .valueError

/-! ## Mute -/

/-- array1d.py:569-574 (and 578-583): sample index of a boundary line at each position. -/
def lineIndices (l : Arr.Line) (dt ndelay : ℚ) (positions : List ℚ) : Except PyErr (List ℤ) :=
  if sub l.x2 l.x1 = 0 then .error .zeroDivisionError
  else
    let slope := div (sub l.t2 l.t1) (sub l.x2 l.x1)
    .ok (positions.map fun p => pyInt (add (div (add l.t1 (mul slope (sub p l.x1))) dt) ndelay))

/-- array1d.py:565 `ndelay = abs(delay/dt)`. -/
def ndelay (delay dt : ℚ) : ℚ := |div delay dt|

/-! ## Fractions of a data matrix -/

/-- peakssuite.py:715-729, stats.py:195-209 `_drop_indices`, on the rows of a matrix. -/
def dropIndices (rows : List (List (Option ℚ))) (percent : ℚ) (count : ℕ) : List ℕ :=
  if rows = [] ∨ rows.headD [] = [] then []
  else (rows.zipIdx.filter fun p =>
    decide (Mat.numCount p.1 < count) || decide (div (Mat.numCount p.1) p.1.length < percent)).map fun p => p.2

/-- peakssuite.py:692, 706, stats.py:172: `(i_nans - r_nans) / (i_nums - r_nums + 1)`. -/
def utility (m r : Mat) : ℚ := div (((m.nans : ℤ) - r.nans : ℤ) : ℚ) (((m.nums : ℤ) - r.nums + 1 : ℤ) : ℚ)

/-- peakssuite.py:680-691, option 1: drop columns, then rows. -/
def option1 (a : Mat.DropArgs) (xx : List ℚ) (m : Mat) : List ℚ × Mat :=
  let dc := dropIndices m.cols a.samplePercent a.sampleCount
  let m1 := m.deleteCols dc
  (Mat.deleteAt dc xx, m1.deleteRows (dropIndices m1.rows a.obsPercent 0))

/-- peakssuite.py:694-705, option 2: drop rows, then columns. -/
def option2 (a : Mat.DropArgs) (xx : List ℚ) (m : Mat) : List ℚ × Mat :=
  let m2 := m.deleteRows (dropIndices m.rows a.obsPercent 0)
  let dc := dropIndices m2.cols a.samplePercent a.sampleCount
  (Mat.deleteAt dc xx, m2.deleteCols dc)

/-- peakssuite.py:642-713, stats.py:122-193 `_drop`. -/
def drop (a : Mat.DropArgs) (xx : List ℚ) (m : Mat) : List ℚ × Mat :=
  let o1 := option1 a xx m
  let o2 := option2 a xx m
  if utility m o1.2 > utility m o2.2 then o1 else o2

/-- stats.py:245-263: try the next row; the flag is `row_failed`. -/
def growRow (m : Mat) (thr : ℚ) (sCol : ℕ) (g : Mat.Grow) : Mat.Grow × Bool :=
  if g.cRow + 1 < m.rows.length then
    let row := m.rowPart (g.cRow + 1) sCol (g.cCol + 1)
    if thr ≤ div ((g.nVals + Mat.numCount row : ℕ) : ℚ) ((g.total + row.length : ℕ) : ℚ) then
      (⟨g.cRow + 1, g.cCol, g.nVals + Mat.numCount row, g.total + row.length⟩, false)
    else (g, true)
  else (g, true)

/-- stats.py:266-284: try the next column; the flag is `col_failed`. -/
def growCol (m : Mat) (thr : ℚ) (sRow : ℕ) (g : Mat.Grow) : Mat.Grow × Bool :=
  if g.cCol + 1 < m.ncols then
    let col := m.colPart (g.cCol + 1) sRow (g.cRow + 1)
    if thr ≤ div ((g.nVals + Mat.numCount col : ℕ) : ℚ) ((g.total + col.length : ℕ) : ℚ) then
      (⟨g.cRow, g.cCol + 1, g.nVals + Mat.numCount col, g.total + col.length⟩, false)
    else (g, true)
  else (g, true)

/-- stats.py:242-291: the inner loop with its number of passes; `none` if no pass breaks. -/
def grow (m : Mat) (thr : ℚ) (sRow sCol : ℕ) : ℕ → Mat.Grow → Option Mat.Grow
  | 0, _ => none
  | n + 1, g =>
    let r := growRow m thr sCol g
    let c := growCol m thr sRow r.1
    if r.2 && c.2 then some c.1 else grow m thr sRow sCol n c.1

/-- stats.py:236-300: the outer loop; the first argument is the number of regions still allowed. -/
def regionsFrom (m : Mat) (thr : ℚ) : ℕ → ℕ → ℕ → Except PyErr (List Mat.Region)
  | 0, _, _ => .error .valueError
  | n + 1, sRow, sCol =>
    match grow m thr sRow sCol ((m.rows.length - sRow) + (m.ncols - sCol)) ⟨sRow, sCol, 1, 1⟩ with
    | none => .error .valueError
    | some g =>
      if g.cRow + 1 = m.rows.length ∧ g.cCol + 1 = m.ncols then .ok [⟨sRow, sCol, g.cRow + 1, g.cCol + 1⟩]
      else if m.ncols ≤ g.cCol + 1 then .error .indexError
      else
        match m.firstValid (g.cCol + 1) with
        | none => .error .indexError
        | some sRow' =>
          match regionsFrom m thr n sRow' (g.cCol + 1) with
          | .error e => .error e
          | .ok rs => .ok (⟨sRow, sCol, g.cRow + 1, g.cCol + 1⟩ :: rs)

/-- stats.py:228-302 `_identify_regions` with `max_regions=100`. -/
def identifyRegions (m : Mat) (thr : ℚ) : Except PyErr (List Mat.Region) := regionsFrom m thr 100 0 0

end Verif.B64
