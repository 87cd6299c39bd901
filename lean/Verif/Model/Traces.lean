import Verif.Model.Sensor
import Verif.Model.Register

/-!
# Records made from traces, instances made by name

`ActiveTimeSeries.from_trace`, `ActiveTimeSeries.from_trace_seg2`, the latter as inherited by `Sensor1C`, and
`AbstractRegistry.create_instance`.
-/

namespace Verif

namespace ATS

/-- activetimeseries.py:182-211 `from_trace`. -/
def fromTrace (t : Trace) (nstacks : ℤ) (delay : ℚ) : Except PyErr ATS := init t.data t.delta nstacks delay

/-- activetimeseries.py:178-180: what `int(trace.stats.seg2.STACK)` and `float(trace.stats.seg2.DELAY)` give, in this
order: no header block or no such field raises `AttributeError`, a text which is not a number `ValueError`. -/
def seg2Fields (t : Trace) : Except PyErr (ℤ × ℚ) :=
  match t.seg2 with
  | none => .error .attributeError
  | some h =>
    match h.lookup "STACK" with
    | none => .error .attributeError
    | some v =>
      match v.toInt with
      | none => .error .valueError
      | some n =>
        match h.lookup "DELAY" with
        | none => .error .attributeError
        | some w =>
          match w.toFloat with
          | none => .error .valueError
          | some d => .ok (n, d)

/-- activetimeseries.py:158-180 `from_trace_seg2`. -/
def fromTraceSeg2 (t : Trace) : Except PyErr ATS :=
  match seg2Fields t with
  | .error e => .error e
  | .ok (n, d) => fromTrace t n d

end ATS

/-- activetimeseries.py:158-180 `from_trace_seg2` as inherited by `Sensor1C`: `cls.from_trace` is that of sensor1c.py:72,
which reads the header itself, in the format of the trace, and ignores `nstacks` and `delay` then. -/
def Sensor.fromTraceSeg2 (t : Trace) : Except PyErr Sensor :=
  match ATS.seg2Fields t with
  | .error e => .error e
  | .ok (n, d) => Sensor.fromTrace t { nstacks := n, delay := d }

/-- register.py:41-44 `create_instance`: a class is what its constructor does with the arguments. -/
def Registry.createInstance {α β : Type} (r : Registry (α → Except PyErr β)) (name : String) (args : α) :
    Except PyErr β :=
  match r.createClass name with
  | .error e => .error e
  | .ok c => c args

end Verif
