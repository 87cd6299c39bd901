import Verif.Model.Array

/-!
# Model of file input and output of `swprocess/array1d.py`

The file system is a map from names to the traces which `obspy.read` returns for that file.
`obspy_read_kwargs` is in `Model/ReadOptions.lean`.
-/

namespace Verif

/-- Files by name; `none`: no such file. -/
abbrev Fs := String → Option (List Trace)

namespace Arr

/-- `obspy.read(str(fname))`. -/
def readFile (fs : Fs) (fname : String) : Except PyErr (List Trace) :=
  match fs fname with
  | none => .error .fileNotFoundError
  | some ts => .ok ts

/-- array1d.py:660-663: one sensor per trace, until the first failure. -/
def sensorsOf (a : Sensor.TraceArgs) : List Trace → Except PyErr (List Sensor)
  | [] => .ok []
  | t :: ts =>
    match Sensor.fromTrace t a with
    | .error e => .error e
    | .ok s =>
      match sensorsOf a ts with
      | .error e => .error e
      | .ok ss => .ok (s :: ss)

/-- `int(header[name])`: a missing field raises `KeyError`, an unreadable one `ValueError`. -/
def headerInt (h : Header) (name : String) : Except PyErr ℤ :=
  match h.lookup name with
  | none => .error .keyError
  | some v =>
    match v.toInt with
    | none => .error .valueError
    | some n => .ok n

/-- array1d.py:674-679 and 699-704: the coordinates must be lengths (0: unset, 1: length). -/
def checkUnits (h : Header) : Except PyErr Unit :=
  match h.lookup "coordinate_units" with
  | none => .error .keyError
  | some (.int 0) => .ok ()
  | some (.int 1) => .ok ()
  | some _ => .error .valueError

/-- array1d.py:673-695 (`zeroIsOne`: a zero scalar is replaced by one, SU) and 698-717 (SEGY, where a
zero scalar reaches `int(np.log10(0))`, an `OverflowError`). -/
def sourceFromHeader (zeroIsOne : Bool) (h : Header) (mapX mapY : ℚ → ℚ) : Except PyErr Source := do
  checkUnits h
  let scaleco0 ← headerInt h "scalar_to_be_applied_to_all_coordinates"
  let scaleco := if zeroIsOne && decide (scaleco0 = 0) then 1 else scaleco0
  let intX ← headerInt h "source_coordinate_x"
  if scaleco = 0 then throw .overflowError
  let intY ← headerInt h "source_coordinate_y"
  return ⟨mapX (Sensor.scaleCoordinate scaleco intX intX), mapY (Sensor.scaleCoordinate scaleco intY intY), 0⟩

/-- array1d.py:666-717 `parse_source`, chosen by the format of the last trace of the first file; an
unknown format leaves it undefined (`UnboundLocalError` when it is called). -/
def parseSource (format : String) (mapX mapY : ℚ → ℚ) (t : Trace) : Except PyErr Source :=
  if format = "SEG2" then
    match t.seg2 with
    | none => .error .attributeError
    | some h =>
      match h.lookup "SOURCE_LOCATION" with
      | none => .error .attributeError
      | some v =>
        match v.toFloat with
        | none => .error .valueError
        | some x => .ok ⟨mapX x, 0, 0⟩
  else if format = "SU" then
    match t.su with
    | none => .error .attributeError
    | some h => sourceFromHeader true h mapX mapY
  else if format = "SEGY" then
    match t.segy with
    | none => .error .attributeError
    | some h => sourceFromHeader false h mapX mapY
  else .error .unboundLocalError

/-- array1d.py:732-734: `zip` of the sensors with the traces of one more file; the new sensors are read
without the coordinate mappings. -/
def stackTraces : List Sensor → List Trace → Except PyErr (List Sensor)
  | s :: ss, t :: ts =>
    match Sensor.fromTrace t {} with
    | .error e => .error e
    | .ok n =>
      match s.stackAppend n with
      | (_, .error e) => .error e
      | (s', .ok ()) =>
        match stackTraces ss ts with
        | .error e => .error e
        | .ok ss' => .ok (s' :: ss')
  | ss, _ => .ok ss

/-- array1d.py:724-734: the loop over the additional files. -/
def stackFiles (fs : Fs) (format : String) (mapX mapY : ℚ → ℚ) (source : Source) :
    List Sensor → List String → Except PyErr (List Sensor)
  | ss, [] => .ok ss
  | ss, f :: rest =>
    match readFile fs f with
    | .error e => .error e
    | .ok [] => .error .indexError
    | .ok (t :: ts) =>
      match parseSource format mapX mapY t with
      | .error e => .error e
      | .ok nsource =>
        if !nsource.eq source then .error .valueError
        else
          match stackTraces ss (t :: ts) with
          | .error e => .error e
          | .ok ss' => stackFiles fs format mapX mapY source ss' rest

/-- array1d.py:611-736 `from_files`.  The array is not returned when an exception is raised, so partly
stacked sensors are not visible. -/
def fromFiles (fs : Fs) (fnames : List String) (mapX mapY : ℚ → ℚ) : Except PyErr Arr :=
  match fnames with
  | [] => .error .indexError
  | f0 :: rest =>
    match readFile fs f0 with
    | .error e => .error e
    | .ok traces =>
      match sensorsOf { mapX := mapX, mapY := mapY } traces with
      | .error e => .error e
      | .ok sensors =>
        match traces.getLast? with
        | none => .error .unboundLocalError
        | some t =>
          match t.format with
          | none => .error .attributeError
          | some format =>
            match parseSource format mapX mapY t with
            | .error e => .error e
            | .ok source =>
              match init sensors source with
              | .error e => .error e
              | .ok obj =>
                match stackFiles fs format mapX mapY source obj.sensors rest with
                | .error e => .error e
                | .ok ss => .ok { obj with sensors := ss }

/-- An integer which fits a signed header field of `bits` bits. -/
def fits (bits : ℕ) (n : ℤ) : Bool := decide (-(2 ^ (bits - 1)) ≤ n) && decide (n < 2 ^ (bits - 1))

/-- array1d.py:764-786: the trace written for one sensor.  `f32` is the conversion to single precision.
SU stores the sampling interval in whole microseconds (obspy).  Read back, the header has format "SU". -/
def traceOf (f32 : ℚ → ℚ) (src : Source) (s : Sensor) : Trace :=
  { data := s.ts.amp.map f32
    delta := (pyRound (s.ts.dt * 1000000) : ℚ) / 1000000
    format := some "SU"
    seg2 := none
    segy := none
    su := some [
      ("scalar_to_be_applied_to_all_coordinates", .int (-1000)),
      ("source_coordinate_x", .int (pyRound (src.x * 1000))),
      ("source_coordinate_y", .int (pyRound (src.y * 1000))),
      ("number_of_horizontally_stacked_traces_yielding_this_trace", .int (s.ts.nstacks - 1)),
      ("delay_recording_time", .int (pyRound (s.ts.delay * 1000))),
      ("group_coordinate_x", .int (pyRound (s.x * 1000))),
      ("group_coordinate_y", .int (pyRound (s.y * 1000))),
      ("coordinate_units", .int 1)] }

/-- The integers of `traceOf` fit their header fields (four bytes for coordinates, two for the stack count,
the delay; the sampling interval is an unsigned two byte number of microseconds, at least one). -/
def writable (src : Source) (s : Sensor) : Bool :=
  fits 32 (pyRound (src.x * 1000)) && fits 32 (pyRound (src.y * 1000)) &&
  fits 32 (pyRound (s.x * 1000)) && fits 32 (pyRound (s.y * 1000)) &&
  fits 16 (s.ts.nstacks - 1) && fits 16 (pyRound (s.ts.delay * 1000)) &&
  decide (0 < pyRound (s.ts.dt * 1000000)) && decide (pyRound (s.ts.dt * 1000000) < 65536)

/-- array1d.py:756-789 `to_file`.  A value which does not fit its header field makes obspy raise; the
exception's type is not modelled further, nor is what is left of the file in that case. -/
def toFile (f32 : ℚ → ℚ) (a : Arr) (fs : Fs) (fname : String) (ftype : String) : Fs × Except PyErr Unit :=
  if ftype ≠ "su" then (fs, .error .valueError)
  else if a.sensors.all (writable a.source) then
    (fun n => if n = fname then some (a.sensors.map (traceOf f32 a.source)) else fs n, .ok ())
  else (fs, .error .valueError)

end Arr

/-! ## Array with source signal -/

/-- source.py:74-96 `SourceWithSignal`: a source position, samples and time step. -/
structure SourceSig where
  src : Source
  amp : List ℚ
  dt : ℚ
  deriving DecidableEq, Repr

/-- array1d.py:818-821 `Array1DwSource`. -/
structure ArrSrc where
  sensors : List Sensor
  source : SourceSig
  deriving DecidableEq, Repr

namespace ArrSrc

/-- array1d.py:850-868, bounds used by `xcorrelate`, for a non-empty array and non-zero velocities and time step (zero gives a
Python `ZeroDivisionError`); the bounds of the slice are the same for every sensor. -/
def sliceBounds (a : ArrSrc) (vmin vmax : ℚ) : Except PyErr (ℤ × ℤ) :=
  let offs := a.sensors.map fun s => |a.source.src.x - s.x|
  match Arr.minList offs, Arr.maxList offs with
  | some mn, some mx =>
    if vmin = 0 ∨ vmax = 0 ∨ a.source.dt = 0 then .error .zeroDivisionError
    else
      .ok ((a.source.amp.length : ℤ) + pyInt ((mn / vmax - 1 / 2) / a.source.dt),
           (a.source.amp.length : ℤ) + pyInt (mx / vmin / a.source.dt))
  | _, _ => .error .valueError

/-- array1d.py:872-876: one sensor. -/
def xcorrSensor (a : ArrSrc) (b : ℤ × ℤ) (s : Sensor) : Except PyErr Sensor :=
  Sensor.init (pySlice (ATS.correlate s.ts.amp a.source.amp) b.1 b.2) s.ts.dt s.x s.y s.z s.ts.nstacks 0

/-- The list of new sensors, until the first failure. -/
def xcorrLoop (a : ArrSrc) (b : ℤ × ℤ) : List Sensor → Except PyErr (List Sensor)
  | [] => .ok []
  | s :: ss =>
    match xcorrSensor a b s with
    | .error e => .error e
    | .ok s' =>
      match xcorrLoop a b ss with
      | .error e => .error e
      | .ok ss' => .ok (s' :: ss')

/-- array1d.py:845-879 `xcorrelate`. -/
def xcorrelate (a : ArrSrc) (vmin vmax : ℚ) : Outcome ArrSrc :=
  match a.sliceBounds vmin vmax with
  | .error e => (a, .error e)
  | .ok b =>
    match a.xcorrLoop b a.sensors with
    | .error e => (a, .error e)
    | .ok ss => ({ a with sensors := ss }, .ok ())

/-- array1d.py:834 `amp += trace.data`: numpy broadcasts a single sample and refuses other lengths.  (The data
are taken as floating point; for integers see `ArrSrc.addSamples`.) -/
def addSignal (acc : Except PyErr (List ℚ)) (s : List ℚ) : Except PyErr (List ℚ) :=
  match acc with
  | .error e => .error e
  | .ok l =>
    if s.length = l.length then .ok (List.zipWith (· + ·) l s)
    else if s.length = 1 then .ok (l.map (· + s.getD 0 0))
    else .error .valueError

/-- array1d.py:829-835: the mean of the source signals, read with `[src_channel]` from every file. -/
def meanSignal (signals : List (List ℚ)) : Except PyErr (List ℚ) :=
  match signals with
  | [] => .error .indexError
  | s0 :: rest =>
    match rest.foldl addSignal (.ok s0) with
    | .error e => .error e
    | .ok l => .ok (l.map (· / ((rest.length : ℚ) + 1)))

end ArrSrc
end Verif
