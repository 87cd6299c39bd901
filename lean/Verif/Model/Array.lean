import Verif.Model.Sensor
import Verif.Py.Fl
import Mathlib.Data.List.Sort

/-!
# Model of `swprocess/array1d.py` (class `Array1D`), without file input/output and plotting (see `Model/Draw.lean`)
-/

namespace Verif

/-- array1d.py:36-46 `Array1D`. -/
structure Arr where
  sensors : List Sensor
  source : Source
  deriving DecidableEq, Repr

namespace Arr

/-- The loop of `_check_array`, array1d.py:53-58. -/
def checkLoop (ex : Sensor) : List ℚ → List Sensor → Except PyErr Unit
  | _, [] => .ok ()
  | positions, s :: rest =>
    if !ex.isSimilar s (.coll ["x", "y", "z"]) then .error .valueError
    else if s.x ∈ positions then .error .valueError
    else checkLoop ex (positions ++ [s.x]) rest

/-- array1d.py:48-65 `_check_array` and 67-84 `__init__`.  Positions are distinct when the sort is
reached, so the order does not depend on the sorting algorithm behind `np.argsort`. -/
def init (sensors : List Sensor) (source : Source) : Except PyErr Arr :=
  match sensors with
  | [] => .error .indexError
  | ex :: rest =>
    match checkLoop ex [ex.x] rest with
    | .error e => .error e
    | .ok () => .ok ⟨(ex :: rest).insertionSort (fun a b => a.x ≤ b.x), source⟩

/-- array1d.py:149-152 `nchannels`. -/
def nchannels (a : Arr) : ℕ := a.sensors.length

/-- array1d.py:119-133 `position`. -/
def position (a : Arr) : List ℚ := a.sensors.map Sensor.x

/-- array1d.py:119-133 `position(normalize=True)`; no sensors: `IndexError`. -/
def positionNormalized (a : Arr) : Except PyErr (List ℚ) :=
  match a.sensors with
  | [] => .error .indexError
  | s :: _ => .ok (a.sensors.map fun t => t.x - s.x)

/-- array1d.py:135-142 `offsets`. -/
def offsets (a : Arr) : List ℚ := a.position.map fun p => |a.source.x - p|

/-- `np.diff`. -/
def diff : List ℚ → List ℚ
  | x :: y :: rest => (y - x) :: diff (y :: rest)
  | _ => []

/-- `min(list)` for a non-empty list. -/
def minList : List ℚ → Option ℚ
  | [] => none
  | x :: xs => some (xs.foldl min x)

/-- `max(list)` for a non-empty list. -/
def maxList : List ℚ → Option ℚ
  | [] => none
  | x :: xs => some (xs.foldl max x)

/-- The float64 value of `np.pi`. -/
def pyPi : ℚ := 884279719003555 / 281474976710656

/-- array1d.py:144-147 `kres`; `min([])` raises `ValueError`. -/
def kres (a : Arr) : Except PyErr ℚ :=
  match minList (diff a.position) with
  | none => .error .valueError
  | some m => .ok (pyPi / m)

/-- array1d.py:158-166 `spacing`. -/
def spacing (a : Arr) : Except PyErr ℚ :=
  match minList (diff a.position), maxList (diff a.position) with
  | some mn, some mx => if mx - mn < 1 / 100 then .ok (pyRoundDigits mn 2) else .error .valueError
  | _, _ => .error .valueError

/-- array1d.py:154-156 `array_center_distance` for a non-empty array. -/
def arrayCenterDistance (a : Arr) : ℚ := a.offsets.sum / a.offsets.length

/-- array1d.py:168-172 `_source_inside`; no sensors: `IndexError`. -/
def sourceInside (a : Arr) : Except PyErr Bool :=
  match a.position.head?, a.position.getLast? with
  | some p0, some p1 => .ok (decide (a.source.x > p0) && decide (a.source.x < p1))
  | _, _ => .error .indexError

/-- A `for` loop calling a mutating method on every sensor, ending at the first exception. -/
def forSensors (f : ATS → Outcome ATS) : List Sensor → Outcome (List Sensor)
  | [] => ([], .ok ())
  | s :: rest =>
    match f s.ts with
    | (r, .ok ()) =>
      match forSensors f rest with
      | (rest', o) => ({ s with ts := r } :: rest', o)
    | (r, .error e) => ({ s with ts := r } :: rest, .error e)

/-- array1d.py:174-190 `trim`. -/
def trim (a : Arr) (start stop : ℚ) : Outcome Arr :=
  match forSensors (fun r => r.trim start stop) a.sensors with
  | (ss, o) => ({ a with sensors := ss }, o)

/-- The loop of `trim_offsets`, array1d.py:207-212. -/
def trimOffsetsLoop (mn mx : ℚ) : List (ℚ × Sensor) → List Sensor
  | [] => []
  | (o, s) :: rest =>
    let kept := if o > mn ∧ o < mx then [s] else []
    if o > mx then kept else kept ++ trimOffsetsLoop mn mx rest

/-- array1d.py:192-219 `trim_offsets`. -/
def trimOffsets (a : Arr) (mn mx : ℚ) : Outcome Arr :=
  match trimOffsetsLoop mn mx (a.offsets.zip a.sensors) with
  | [] => (a, .error .valueError)
  | kept => ({ a with sensors := kept }, .ok ())

/-- array1d.py:221-236 `zero_pad`. -/
def zeroPad (a : Arr) (df : ℚ) : Outcome Arr :=
  match forSensors (fun r => r.zeroPad df) a.sensors with
  | (ss, o) => ({ a with sensors := ss }, o)

/-- array1d.py:238-240 `_flip_required`; no sensors: `IndexError`. -/
def flipRequired (a : Arr) : Except PyErr Bool :=
  match a.position.getLast? with
  | some p => .ok (decide (a.source.x > p))
  | none => .error .indexError

/-- array1d.py:86-117 `timeseriesmatrix()` with the default arguments, for an array whose sensors
have equally many samples. -/
def timeseriesmatrix (a : Arr) : List (List ℚ) := a.sensors.map fun s => s.ts.amp

/-- `np.max(np.abs(x))` of a non-empty array. -/
def maxAbs (l : List ℚ) : ℚ := (l.map fun x => |x|).foldl max 0

/-- Options of `timeseriesmatrix`'s `normalize`. -/
inductive Normalize
  | none
  | each
  | all
  deriving DecidableEq, Repr

/-- array1d.py:86-117 `timeseriesmatrix(detrend, normalize)` for a non-empty array with at least one
sample per trace; `detrend` is `signal.detrend` or the identity.  Division is IEEE division. -/
def timeseriesmatrixFl (a : Arr) (detrend : List ℚ → List ℚ) (n : Normalize) : List (List Fl) :=
  let rows := a.sensors.map fun s => detrend s.ts.amp
  match n with
  | .none => rows.map fun r => r.map Fl.fin
  | .each => rows.map fun r => r.map fun x => Fl.div (.fin x) (.fin (maxAbs r))
  | .all => rows.map fun r => r.map fun x => Fl.div (.fin x) (.fin (maxAbs rows.flatten))

/-- array1d.py:600-609 `_flipped_tseries_and_offsets`. -/
def flippedTseriesAndOffsets (a : Arr) : Except PyErr (List (List ℚ) × List ℚ) := do
  let flip ← a.flipRequired
  if flip then return (a.timeseriesmatrix.reverse, a.offsets.reverse)
  else return (a.timeseriesmatrix, a.offsets)

/-- A boundary line `((x1, t1), (x2, t2))` given to `mute`. -/
structure Line where
  x1 : ℚ
  t1 : ℚ
  x2 : ℚ
  t2 : ℚ
  deriving DecidableEq, Repr

/-- array1d.py:569-574 (and 578-582): sample index of the line at each position; a vertical line
raises `ZeroDivisionError` (Python floats; numpy floats would give infinite times).  `np.array(..., dtype=int)` truncates. -/
def lineIndices (l : Line) (dt ndelay : ℚ) (positions : List ℚ) : Except PyErr (List ℤ) :=
  if l.x2 - l.x1 = 0 then .error .zeroDivisionError
  else
    let slope := (l.t2 - l.t1) / (l.x2 - l.x1)
    .ok (positions.map fun p => pyInt ((l.t1 + slope * (p - l.x1)) / dt + ndelay))

/-- `window[start:stop] = values` on a window of zeros of length `n`: the values must have the length of
the slice, or length one. -/
def assignSlice (n : ℕ) (start stop : ℤ) (values : List ℚ) : Except PyErr (List ℚ) :=
  let i := sliceIdx n start
  let j := max i (sliceIdx n stop)
  if values.length = j - i then
    .ok (List.replicate i 0 ++ values ++ List.replicate (n - j) 0)
  else match values with
    | [v] => .ok (List.replicate i 0 ++ List.replicate (j - i) v ++ List.replicate (n - j) 0)
    | _ => .error .valueError

/-- array1d.py:594-598 the loop of `mute`; `tukey m` is `signal.windows.tukey(m, **window_kwargs)`, which
raises `ValueError` for a negative length.  Simplification: the product with a sensor of another length than the first
(numpy refuses it) is taken as far as both go; only arrays whose sensors were changed one by one have such sensors. -/
def muteLoop (tukey : ℕ → List ℚ) (n : ℕ) : List Sensor → List (ℤ × ℤ) → Outcome (List Sensor)
  | s :: rest, (start, stop) :: idx =>
    if stop - start < 0 then (s :: rest, .error .valueError)
    else match assignSlice n start stop (tukey (stop - start).toNat) with
      | .error e => (s :: rest, .error e)
      | .ok w =>
        match muteLoop tukey n rest idx with
        | (rest', o) =>
          ({ s with ts := { s.ts with amp := List.zipWith (· * ·) s.ts.amp w } } :: rest', o)
  | ss, _ => (ss, .ok ())

/-- array1d.py:541-598 `mute`; `self[0]` raises `IndexError` without sensors. -/
def mute (tukey : ℕ → List ℚ) (a : Arr) (start stop : Option Line) : Outcome Arr :=
  match a.sensors with
  | [] => (a, .error .indexError)
  | s0 :: _ =>
    let dt := s0.ts.dt
    let ndelay := |s0.ts.delay / dt|
    let n := s0.ts.nsamples
    let starts := match start with
      | some l => lineIndices l dt ndelay a.position
      | none => .ok (a.position.map fun _ => 0)
    let stops := match stop with
      | some l => lineIndices l dt ndelay a.position
      | none => .ok (a.position.map fun _ => (n : ℤ) - 1)
    match starts, stops with
    | .error e, _ => (a, .error e)
    | .ok _, .error e => (a, .error e)
    | .ok i, .ok j =>
      match muteLoop tukey n a.sensors (i.zip j) with
      | (ss, o) => ({ a with sensors := ss }, o)

/-- `Sensor1C.from_sensor1c` on every sensor (array1d.py:741-743). -/
def copySensors : List Sensor → Except PyErr (List Sensor)
  | [] => .ok []
  | s :: rest => do
    let c ← s.fromSensor
    let cs ← copySensors rest
    return c :: cs

/-- array1d.py:738-746 `from_array1d`. -/
def fromArray (a : Arr) : Except PyErr Arr := do
  let ss ← copySensors a.sensors
  init ss a.source.fromSource

/-- array1d.py:791-800 `is_similar`. -/
def isSimilar (a b : Arr) : Bool :=
  decide (a.nchannels = b.nchannels) && a.source.eq b.source

/-- array1d.py:802-811 `__eq__`. -/
def eq (a b : Arr) : Bool :=
  a.isSimilar b && (List.zipWith Sensor.eq a.sensors b.sensors).all id

/-- `np.sum` of a one-dimensional array. -/
def flSum (l : List Fl) : Fl := l.foldl Fl.add (.fin 0)

/-- `np.mean` of a one-dimensional array; of an empty one it is NaN. -/
def flMean (l : List Fl) : Fl := Fl.div (flSum l) (.fin l.length)

/-- array1d.py:435-436: index of the first sample which differs from the mean of the first ten by more
than the threshold; `[0]` of an empty selection raises `IndexError`. -/
def firstExceeding (threshold : ℚ) (trace : List Fl) : Except PyErr ℕ :=
  match trace.findIdx? (fun v => Fl.lt (.fin threshold) (Fl.abs (Fl.sub v (flMean (trace.take 10))))) with
  | some k => .ok k
  | none => .error .indexError

/-- The loop of `_pick_on_threshold`, array1d.py:433-437. -/
def pickLoop (threshold : ℚ) (time : List ℚ) : List (List Fl) → Except PyErr (List ℚ)
  | [] => .ok []
  | trace :: rest =>
    match firstExceeding threshold trace with
    | .error e => .error e
    | .ok k =>
      match time[k]?, pickLoop threshold time rest with
      | none, _ => .error .indexError
      | some _, .error e => .error e
      | some t, .ok ts => .ok (t :: ts)

/-- array1d.py:421-439 `_pick_on_threshold` (through 413-419 `auto_pick_first_arrivals`); `detrend` is
`signal.detrend`. -/
def pickOnThreshold (a : Arr) (detrend : List ℚ → List ℚ) (threshold : ℚ) :
    Except PyErr (List ℚ × List ℚ) :=
  match a.sensors with
  | [] => .error .indexError
  | s0 :: _ =>
    match pickLoop threshold s0.ts.time (a.timeseriesmatrixFl detrend .each) with
    | .error e => .error e
    | .ok ts => .ok (a.position, ts)

end Arr
end Verif
