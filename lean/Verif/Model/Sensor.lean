import Verif.Model.ActiveTimeSeries
import Mathlib.Data.Nat.Log

/-!
# Model of `swprocess/sensor1c.py` and `swprocess/source.py`
-/

namespace Verif

/-- source.py:23-54 `Source`: a position. -/
structure Source where
  x : ℚ
  y : ℚ
  z : ℚ
  deriving DecidableEq, Repr

/-- source.py:64-71 `__eq__`. -/
def Source.eq (a b : Source) : Bool :=
  decide (a.x = b.x) && decide (a.y = b.y) && decide (a.z = b.z)

/-- source.py:56-59 `from_source`. -/
def Source.fromSource (s : Source) : Source := ⟨s.x, s.y, s.z⟩

/-- sensor1c.py:29-52 `Sensor1C`: a record with a position. -/
structure Sensor where
  ts : ATS
  x : ℚ
  y : ℚ
  z : ℚ
  deriving DecidableEq, Repr

/-- A value found in a trace header: an integer, a float, or a text of which only the results of
`int(text)` and `float(text)` are known (`none`: the conversion raises). -/
inductive HVal
  | int (n : ℤ)
  | flt (q : ℚ)
  | text (asInt : Option ℤ) (asFloat : Option ℚ)
  deriving DecidableEq, Repr

/-- `int(value)`. -/
def HVal.toInt : HVal → Option ℤ
  | .int n => some n
  | .flt q => some (pyInt q)
  | .text i _ => i

/-- `float(value)`. -/
def HVal.toFloat : HVal → Option ℚ
  | .int n => some n
  | .flt q => some q
  | .text _ f => f

/-- A trace header: field name to value. -/
abbrev Header := List (String × HVal)

/-- An `obspy.Trace`: samples, time step, `stats._format` if there is one, and the header block of each
format it carries. -/
structure Trace where
  data : List ℚ
  delta : ℚ
  format : Option String
  seg2 : Option Header
  su : Option Header
  segy : Option Header
  deriving DecidableEq, Repr

namespace Sensor

/-- sensor1c.py:37-40 `__init__`. -/
def init (amp : List ℚ) (dt x y z : ℚ) (nstacks : ℤ) (delay : ℚ) : Except PyErr Sensor := do
  let ts ← ATS.init amp dt nstacks delay
  return ⟨ts, x, y, z⟩

/-- sensor1c.py:54-64 `from_sensor1c`. -/
def fromSensor (s : Sensor) : Except PyErr Sensor :=
  init s.ts.amp s.ts.dt s.x s.y s.z s.ts.nstacks s.ts.delay

/-- sensor1c.py:66-70 `from_activetimeseries`. -/
def fromATS (r : ATS) (x y z : ℚ) : Except PyErr Sensor :=
  init r.amp r.dt x y z r.nstacks r.delay

/-- sensor1c.py:66-67: a call `Sensor1C.from_activetimeseries(record, *position)`; the three coordinates have no
defaults, so another number of them is a `TypeError`. -/
def callFromATS (r : ATS) (position : List ℚ) : Except PyErr Sensor :=
  match position with
  | [x, y, z] => fromATS r x y z
  | _ => .error .typeError

/-- activetimeseries.py:354-384 `from_cross_stack`, inherited and called as `Sensor1C.from_cross_stack(a, b)`: lines
378-379 call `cls.from_activetimeseries`, which is the one of the sensor class. -/
def fromCrossStack (a b : Sensor) : Except PyErr Sensor := do
  let obj ← callFromATS a.ts []
  let bCopy ← callFromATS b.ts []
  let (_, shifted) ← ATS.crosscorrShift a.ts bCopy.ts (.coll ["nsamples", "nstacks"])
  match obj.ts.stackAppend { bCopy.ts with amp := shifted } with
  | (r, .ok ()) => .ok { obj with ts := r }
  | (_, .error e) => .error e

/-- sensor1c.py:135-143 `_safely_get_header` with `int` as conversion. -/
def safeInt (h : Header) (name : String) (default : ℤ) : ℤ :=
  ((h.lookup name).bind HVal.toInt).getD default

/-- sensor1c.py:135-143 `_safely_get_header` with `float` as conversion. -/
def safeFloat (h : Header) (name : String) (default : ℚ) : ℚ :=
  ((h.lookup name).bind HVal.toFloat).getD default

/-- sensor1c.py:209-210 (and 213-214, 259-260, 263-264; array1d.py:687-693, 709-715): apply the
coordinate scalar to a header integer, then round.  `int_if_positive` is the integer used when the
scalar is positive.  `int(np.log10(n))` is `Nat.log 10 n`. -/
def scaleCoordinate (scaleco intNeg intPos : ℤ) : ℚ :=
  let v : ℚ := if scaleco < 0 then (intNeg : ℚ) / (scaleco.natAbs : ℚ) else (intPos * scaleco : ℤ)
  pyRoundDigits v (-(scaleco.sign) * (Nat.log 10 scaleco.natAbs : ℤ))

/-- sensor1c.py:174-222 `_from_trace_su` and, statement for statement the same, 224-272
`_from_trace_segy`.  Lines 213 and 263 use `int_x`, not `int_y`, for a positive scalar. -/
def fromHeaderSu (data : List ℚ) (delta : ℚ) (h : Header) (mapX mapY : ℚ → ℚ) :
    Except PyErr Sensor :=
  let nstacks0 := safeInt h "number_of_horizontally_stacked_traces_yielding_this_trace" 1
  let nstacks := if nstacks0 = 0 then 1 else nstacks0
  let scaleco0 := safeInt h "scalar_to_be_applied_to_all_coordinates" 1
  let scaleco := if scaleco0 = 0 then 1 else scaleco0
  let intX := safeInt h "group_coordinate_x" 0
  let x := scaleCoordinate scaleco intX intX
  let intY := safeInt h "group_coordinate_y" 0
  let y := scaleCoordinate scaleco intY intX
  let delay : ℚ := (safeInt h "delay_recording_time" 0 : ℚ) / 1000
  init data delta (mapX x) (mapY y) 0 nstacks delay

/-- sensor1c.py:145-172 `_from_trace_seg2`. -/
def fromHeaderSeg2 (data : List ℚ) (delta : ℚ) (h : Header) (mapX mapY : ℚ → ℚ) :
    Except PyErr Sensor :=
  init data delta (mapX (safeFloat h "RECEIVER_LOCATION" 0)) (mapY 0) 0
    (safeInt h "STACK" 1) (safeFloat h "DELAY" 0)

/-- Arguments of `from_trace` other than the trace (sensor1c.py:73-75) with their defaults. -/
structure TraceArgs where
  readHeader : Bool := true
  mapX : ℚ → ℚ := id
  mapY : ℚ → ℚ := id
  nstacks : ℤ := 1
  delay : ℚ := 0
  x : ℚ := 0
  y : ℚ := 0
  z : ℚ := 0
  format : Option String := none

/-- sensor1c.py:114-120: the format to use, in upper case; `none` if it cannot be identified. -/
def traceFormat (t : Trace) (a : TraceArgs) : Option String :=
  match a.format with
  | some f => some f.toUpper
  | none => t.format.map String.toUpper

/-- sensor1c.py:72-133 `from_trace`.  A format whose header block is absent raises
`AttributeError` (`trace.stats.su`).  The inner calls pass `read_header=False` and no `format`, so
the trace's own format is looked up again (line 118) and must exist. -/
def fromTrace (t : Trace) (a : TraceArgs) : Except PyErr Sensor :=
  match traceFormat t a with
  | none => .error .valueError
  | some fmt =>
    if a.readHeader then
      if fmt = "SEG2" then
        match t.seg2 with
        | none => .error .attributeError
        | some h => if t.format.isNone then .error .valueError
                    else fromHeaderSeg2 t.data t.delta h a.mapX a.mapY
      else if fmt = "SU" then
        match t.su with
        | none => .error .attributeError
        | some h => if t.format.isNone then .error .valueError
                    else fromHeaderSu t.data t.delta h a.mapX a.mapY
      else if fmt = "SEGY" then
        match t.segy with
        | none => .error .attributeError
        | some h => if t.format.isNone then .error .valueError
                    else fromHeaderSu t.data t.delta h a.mapX a.mapY
      else .error .notImplementedError
    else init t.data t.delta a.x a.y a.z a.nstacks a.delay

/-- sensor1c.py:274-291 `_is_similar`. -/
def isSimilar (a b : Sensor) (e : Excl) : Bool :=
  (e.has "x" || decide (a.x = b.x)) && (e.has "y" || decide (a.y = b.y)) &&
  (e.has "z" || decide (a.z = b.z)) && a.ts.isSimilar b.ts e

/-- sensor1c.py:293-298 `__eq__`: the inherited comparison (activetimeseries.py:401-409), which
dispatches to the `_is_similar` of `Sensor1C`. -/
def eq (a b : Sensor) : Bool := a.isSimilar b .none && ATS.allclose a.ts.amp b.ts.amp

/-- activetimeseries.py:121-149 `stack_append` as inherited by `Sensor1C`: the similarity test
is that of `Sensor1C`, it includes the position. -/
def stackAppend (s t : Sensor) : Outcome Sensor :=
  if !s.isSimilar t (.coll ["nstacks"]) then (s, .error .valueError)
  else
    match s.ts.stackAppend t.ts with
    | (r, o) => ({ s with ts := r }, o)

end Sensor
end Verif
