import Verif.Py.Basic

/-!
# Model of `swprocess/activetimeseries.py`

Base class `sigpropy.TimeSeries` (external): `amplitude` is a one-dimensional
array, `dt` the time step, `nsamples` its length, `df = 1/(nsamples*dt)`,
`time = arange(nsamples)*dt`.
-/

namespace Verif

/-- State of an `ActiveTimeSeries` (activetimeseries.py:22-86): the amplitudes and time
step held by the base class, and `_nstacks`, `_delay`, `_multiple`.
The `(1, n)` shape of `_amp` is flattened. -/
structure ATS where
  amp : List ℚ
  dt : ℚ
  nstacks : ℤ
  delay : ℚ
  multiple : ℕ
  deriving DecidableEq, Repr

namespace ATS

/-- `nsamples` (sigpropy). -/
def nsamples (r : ATS) : ℕ := r.amp.length

/-- activetimeseries.py:41-60 `_check_input`. -/
def checkInput (nstacks : ℤ) (delay : ℚ) : Except PyErr (ℤ × ℚ) :=
  if nstacks ≤ 0 then .error .valueError
  else if delay > 0 then .error .valueError
  else .ok (nstacks, delay)

/-- activetimeseries.py:62-86 `__init__`; `_multiple` starts at 1. -/
def init (amp : List ℚ) (dt : ℚ) (nstacks : ℤ) (delay : ℚ) : Except PyErr ATS := do
  let (n, d) ← checkInput nstacks delay
  return { amp := amp, dt := dt, nstacks := n, delay := d, multiple := 1 }

/-- activetimeseries.py:103-106 `_df`: the base class `df = 1/(nsamples*dt)`. -/
def dfInternal (r : ATS) : ℚ := 1 / ((r.nsamples : ℚ) * r.dt)

/-- activetimeseries.py:108-111 `df`, the user facing frequency step. -/
def df (r : ATS) : ℚ := r.dfInternal * r.multiple

/-- activetimeseries.py:117-120 `time`: base class time plus delay. -/
def time (r : ATS) : List ℚ := (List.range r.nsamples).map fun (i : ℕ) => (i : ℚ) * r.dt + r.delay

/-- activetimeseries.py:386-399 `_is_similar` (the `isinstance` test is the type of `b`). -/
def isSimilar (a b : ATS) (e : Excl) : Bool :=
  (e.has "dt" || decide (a.dt = b.dt)) &&
  (e.has "nstacks" || decide (a.nstacks = b.nstacks)) &&
  (e.has "delay" || decide (a.delay = b.delay)) &&
  (e.has "nsamples" || decide (a.nsamples = b.nsamples))

/-- activetimeseries.py:121-149 `stack_append`.  The arrays have equal length here (checked by
`_is_similar`), so elementwise arithmetic is `zipWith`. -/
def stackAppend (r t : ATS) : Outcome ATS :=
  if !r.isSimilar t (.coll ["nstacks"]) then (r, .error .valueError)
  else
    ({ r with
        amp := (List.zipWith (fun (x y : ℚ) => x * r.nstacks + y * t.nstacks) r.amp t.amp).map
                 (fun x => x / ((r.nstacks + t.nstacks : ℤ) : ℚ))
        nstacks := r.nstacks + t.nstacks }, .ok ())

/-- activetimeseries.py:151-156 `from_activetimeseries`. -/
def fromATS (r : ATS) : Except PyErr ATS := init r.amp r.dt r.nstacks r.delay

/-- `sigpropy.TimeSeries.trim` (external): refuse illogical times, then keep the samples
from the one nearest `start` to the one nearest `stop`, both included. -/
def trimBase (r : ATS) (start stop : ℚ) : Outcome ATS :=
  match argmin (r.time.map fun t => |t - start|), argmin (r.time.map fun t => |t - stop|),
        r.time.head?, r.time.getLast? with
  | some i, some j, some t0, some t1 =>
      if start < t0 || start > stop || stop > t1 then (r, .error .indexError)
      else ({ r with amp := pySlice r.amp i (j + 1) }, .ok ())
  | _, _, _, _ => (r, .error .valueError)

/-- activetimeseries.py:213-232 `trim`. -/
def trim (r : ATS) (start stop : ℚ) : Outcome ATS :=
  match r.trimBase start stop with
  | (r', .ok ()) => ({ r' with delay := start }, .ok ())
  | (r', .error e) => (r', .error e)

/-- activetimeseries.py:262-263 number of samples requested from `zero_pad(df)`:
`int(round(1/(df*dt)))`. -/
def targetSamples (df dt : ℚ) : ℤ := pyRound (1 / (df * dt))

/-- activetimeseries.py:234-287 `zero_pad`.  `_multiple` is reset (line 258) before `df` is
checked (line 259).  `nsamples % 0` raises `ZeroDivisionError` (line 276). -/
def zeroPad (r : ATS) (df : ℚ) : Outcome ATS :=
  let r1 := { r with multiple := 1 }
  if df ≤ 0 then (r1, .error .valueError)
  else
    let n : ℤ := targetSamples df r.dt
    if n > r.nsamples then
      ({ r1 with amp := r.amp ++ List.replicate (n - r.nsamples).toNat 0 }, .ok ())
    else if n < r.nsamples then
      if n = 0 then (r1, .error .zeroDivisionError)
      else if (r.nsamples : ℤ) % n = 0 then
        ({ r1 with multiple := ((r.nsamples : ℤ) / n).toNat }, .ok ())
      else
        let padding := n - (r.nsamples : ℤ) % n
        ({ r1 with multiple := (((r.nsamples : ℤ) + padding) / n).toNat,
                   amp := r.amp ++ List.replicate padding.toNat 0 }, .ok ())
    else (r1, .ok ())

/-- `scipy.signal.correlate(a, b)` with the default `mode="full"` (external): entry `k` is the
correlation at lag `k - (len(b)-1)`. -/
def correlate (a b : List ℚ) : List ℚ :=
  (List.range (a.length + b.length - 1)).map fun (k : ℕ) =>
    ((List.range a.length).map fun (l : ℕ) =>
      getZ a l * getZ b ((l : ℤ) - ((k : ℤ) - ((b.length : ℤ) - 1)))).sum

/-- activetimeseries.py:289-319 `crosscorr` (with the default `correlate_kwargs`). -/
def crosscorr (a b : ATS) (e : Excl) : Except PyErr (List ℚ) :=
  if !a.isSimilar b e then .error .valueError
  else .ok (correlate a.amp b.amp)

/-- activetimeseries.py:321-352 `crosscorr_shift`: `(shifts, shifted amplitudes of b)`. -/
def crosscorrShift (a b : ATS) (e : Excl) : Except PyErr (ℤ × List ℚ) := do
  let corr ← crosscorr a b e
  match argmax corr with
  | none => .error .valueError
  | some m =>
    let shifts : ℤ := ((m : ℤ) + 1) - b.nsamples
    if shifts > 0 then
      .ok (shifts, List.replicate shifts.toNat 0 ++ pySlice b.amp 0 (-shifts))
    else if shifts < 0 then
      .ok (shifts, b.amp.drop shifts.natAbs ++ List.replicate shifts.natAbs 0)
    else .ok (shifts, b.amp)

/-- activetimeseries.py:354-384 `from_cross_stack`. -/
def fromCrossStack (a b : ATS) : Except PyErr ATS := do
  let obj ← fromATS a
  let bCopy ← fromATS b
  let (_, shifted) ← crosscorrShift a bCopy (.coll ["nsamples", "nstacks"])
  match obj.stackAppend { bCopy with amp := shifted } with
  | (r, .ok ()) => .ok r
  | (_, .error e) => .error e

/-- `np.allclose(a, b)` on arrays of equal length: `|a-b| <= atol + rtol*|b|` with the default
`atol = 1e-8`, `rtol = 1e-5` (the decimal values are used for the two floats). -/
def allclose (a b : List ℚ) : Bool :=
  (List.zipWith (fun x y => decide (|x - y| ≤ 1 / 10 ^ 8 + 1 / 10 ^ 5 * |y|)) a b).all id

/-- activetimeseries.py:401-409 `__eq__`. -/
def eq (a b : ATS) : Bool := a.isSimilar b .none && allclose a.amp b.amp

end ATS
end Verif
