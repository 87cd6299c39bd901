import Verif.Model.Array

/-!
# Arrays that share sensors

An `Array1D` holds references to sensors: the same `Sensor1C` object may belong to several arrays and be known to the
caller by a name of its own.  `Model/Array` takes the sensors as values; here they are numbers of objects in a common
store.  A constructed record owns its samples (`TimeSeries` of sigpropy copies what it is given).  Sources are never
changed, so they stay values.
-/

namespace Verif.ArrayHeap

/-- An `Array1D` object (array1d.py:36-46): references to its sensors, and its source. -/
structure RArr where
  refs : List ℕ
  source : Source
  deriving DecidableEq, Repr

/-- The `Sensor1C` objects and the arrays made so far, both numbered from zero. -/
structure World where
  sensors : List Sensor
  arrays : List RArr
  deriving DecidableEq, Repr

/-- Python code that names an object that does not exist. -/
def unknownName : PyErr := .unboundLocalError

/-- The objects behind references. -/
def contents (sensors : List Sensor) (refs : List ℕ) : List Sensor := refs.filterMap fun r => sensors[r]?

/-- The position of the sensor behind a reference. -/
def xOf (sensors : List Sensor) (r : ℕ) : ℚ := (sensors[r]?.map Sensor.x).getD 0

/-- array1d.py:48-65 `_check_array` and 67-84 `__init__`: the sensors themselves, sorted, become the array's. -/
def construct (sensors : List Sensor) (refs : List ℕ) (source : Source) : Except PyErr RArr :=
  if refs.all fun r => decide (r < sensors.length) then
    match contents sensors refs with
    | [] => .error .indexError
    | ex :: rest =>
      match Arr.checkLoop ex [ex.x] rest with
      | .error e => .error e
      | .ok () => .ok ⟨refs.insertionSort (fun a b => xOf sensors a ≤ xOf sensors b), source⟩
  else .error unknownName

/-- A `for` loop calling a method that changes its object on every sensor: stops at the first exception, earlier sensors
stay changed (array1d.py:189-190 and 235-236). -/
def forRefs (f : ATS → Outcome ATS) : List Sensor → List ℕ → Outcome (List Sensor)
  | sensors, [] => (sensors, .ok ())
  | sensors, r :: rs =>
    match sensors[r]? with
    | none => (sensors, .error unknownName)
    | some s =>
      match f s.ts with
      | (t, .error e) => (sensors.set r { s with ts := t }, .error e)
      | (t, .ok ()) => forRefs f (sensors.set r { s with ts := t }) rs

/-- array1d.py:594-598 the loop of `mute`, see `Arr.muteLoop`. -/
def muteRefs (tukey : ℕ → List ℚ) (n : ℕ) : List Sensor → List ℕ → List (ℤ × ℤ) → Outcome (List Sensor)
  | sensors, r :: rs, (start, stop) :: idx =>
    match sensors[r]? with
    | none => (sensors, .error unknownName)
    | some s =>
      if stop - start < 0 then (sensors, .error .valueError)
      else match Arr.assignSlice n start stop (tukey (stop - start).toNat) with
        | .error e => (sensors, .error e)
        | .ok w =>
          muteRefs tukey n
            (sensors.set r { s with ts := { s.ts with amp := List.zipWith (· * ·) s.ts.amp w } }) rs idx
  | sensors, _, _ => (sensors, .ok ())

/-- array1d.py:541-598 `mute`, see `Arr.mute`. -/
def mute (tukey : ℕ → List ℚ) (sensors : List Sensor) (refs : List ℕ) (start stop : Option Arr.Line) :
    Outcome (List Sensor) :=
  match contents sensors refs with
  | [] => (sensors, .error .indexError)
  | s0 :: _ =>
    let dt := s0.ts.dt
    let ndelay := |s0.ts.delay / dt|
    let n := s0.ts.nsamples
    let position := (contents sensors refs).map Sensor.x
    let starts := match start with
      | some l => Arr.lineIndices l dt ndelay position
      | none => .ok (position.map fun _ => 0)
    let stops := match stop with
      | some l => Arr.lineIndices l dt ndelay position
      | none => .ok (position.map fun _ => (n : ℤ) - 1)
    match starts, stops with
    | .error e, _ => (sensors, .error e)
    | .ok _, .error e => (sensors, .error e)
    | .ok i, .ok j => muteRefs tukey n sensors refs (i.zip j)

/-- The loop of `trim_offsets`, array1d.py:207-212, on references. -/
def trimOffsetsLoop (mn mx : ℚ) : List (ℚ × ℕ) → List ℕ
  | [] => []
  | (o, r) :: rest =>
    let kept := if o > mn ∧ o < mx then [r] else []
    if o > mx then kept else kept ++ trimOffsetsLoop mn mx rest

/-- What a program may do. -/
inductive Op where
  /-- make a `Sensor1C` object -/
  | newSensor (s : Sensor)
  /-- `Array1D(sensors, source)` -/
  | newArray (refs : List ℕ) (source : Source)
  /-- a function returns an array whose sensors were made for it, as `Array1D.from_files` does -/
  | obtained (sensors : List Sensor) (source : Source)
  /-- `Array1D.from_array1d(array)` -/
  | copy (array : ℕ)
  /-- `array.trim(...)` -/
  | trim (array : ℕ) (start stop : ℚ)
  /-- `array.trim_offsets(...)` -/
  | trimOffsets (array : ℕ) (mn mx : ℚ)
  /-- `array.zero_pad(...)` -/
  | zeroPad (array : ℕ) (df : ℚ)
  /-- `array.mute(...)`; `tukey` stands for the window's options -/
  | mute (array : ℕ) (tukey : ℕ → List ℚ) (start stop : Option Arr.Line)
  /-- `sensor.trim(...)` -/
  | sensorTrim (ref : ℕ) (start stop : ℚ)
  /-- `sensor.zero_pad(...)` -/
  | sensorPad (ref : ℕ) (df : ℚ)

/-- A method that changes sensors. -/
def changed (w : World) (o : Outcome (List Sensor)) : Outcome World := ({ w with sensors := o.1 }, o.2)

/-- Sensors made for an array, and the array made of them; a refused array is lost together with its sensors. -/
def allocate (w : World) (ss : List Sensor) (source : Source) : Outcome World :=
  match construct (w.sensors ++ ss) (List.range' w.sensors.length ss.length) source with
  | .error e => (w, .error e)
  | .ok a => (⟨w.sensors ++ ss, w.arrays ++ [a]⟩, .ok ())

/-- One statement of the program.  array1d.py:174-236 for `trim`, `trim_offsets` and `zero_pad`, 541-598 for `mute`,
738-746 for `from_array1d`. -/
def step (w : World) : Op → Outcome World
  | .newSensor s => ({ w with sensors := w.sensors ++ [s] }, .ok ())
  | .newArray refs source =>
    match construct w.sensors refs source with
    | .error e => (w, .error e)
    | .ok a => ({ w with arrays := w.arrays ++ [a] }, .ok ())
  | .obtained ss source => allocate w ss source
  | .copy i =>
    match w.arrays[i]? with
    | none => (w, .error unknownName)
    | some a =>
      match Arr.copySensors (contents w.sensors a.refs) with
      | .error e => (w, .error e)
      | .ok ss => allocate w ss a.source.fromSource
  | .trim i start stop =>
    match w.arrays[i]? with
    | none => (w, .error unknownName)
    | some a => changed w (forRefs (fun r => r.trim start stop) w.sensors a.refs)
  | .trimOffsets i mn mx =>
    match w.arrays[i]? with
    | none => (w, .error unknownName)
    | some a =>
      match trimOffsetsLoop mn mx ((a.refs.map fun r => |a.source.x - xOf w.sensors r|).zip a.refs) with
      | [] => (w, .error .valueError)
      | kept => ({ w with arrays := w.arrays.set i { a with refs := kept } }, .ok ())
  | .zeroPad i df =>
    match w.arrays[i]? with
    | none => (w, .error unknownName)
    | some a => changed w (forRefs (fun r => r.zeroPad df) w.sensors a.refs)
  | .mute i tukey start stop =>
    match w.arrays[i]? with
    | none => (w, .error unknownName)
    | some a => changed w (ArrayHeap.mute tukey w.sensors a.refs start stop)
  | .sensorTrim r start stop => changed w (forRefs (fun r => r.trim start stop) w.sensors [r])
  | .sensorPad r df => changed w (forRefs (fun r => r.zeroPad df) w.sensors [r])

/-- Nothing made yet. -/
def start : World := ⟨[], []⟩

end Verif.ArrayHeap
