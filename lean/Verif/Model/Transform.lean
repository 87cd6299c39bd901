import Verif.Model.Array
import Verif.Py.Fl

/-!
# Wavefield transforms: the discrete parts

Models the parts of `swprocess/wavefieldtransforms.py` that are index and array arithmetic:
frequency selection, normalization, stacking, peak picking and the slant stack.  The spectral parts
(complex exponentials) are in `Verif.Model.Spectral`.
-/

namespace Verif
namespace WT

/-- Python `range(a, stop, m)` for non-negative bounds and a positive step. -/
def pyRange (a stop m : ℕ) : List ℕ :=
  (List.range ((stop - a + m - 1) / m)).map fun k => a + k * m

/-- wavefieldtransforms.py:76-82 `_frequency_keep_ids`.  `np.argmin` of an empty array and a zero step
raise `ValueError`. -/
def keepIds (frqs : List ℚ) (fmin fmax : ℚ) (multiple : ℕ) : Except PyErr (List ℕ) :=
  match argmin (frqs.map fun f => |f - fmin|), argmin (frqs.map fun f => |f - fmax|) with
  | some i, some j => if multiple = 0 then .error .valueError else .ok (pyRange i (j + 1) multiple)
  | _, _ => .error .valueError

/-- wavefieldtransforms.py:344 (and 517, 560, 613), snr.py:45: `np.arange(nsamples)*step`. -/
def binFrequencies (nsamples : ℕ) (step : ℚ) : List ℚ :=
  (List.range nsamples).map fun (k : ℕ) => (k : ℚ) * step

/-! ## Normalization -/

/-- `self._to_abs`: a scalar, or one factor per frequency (broadcast over the velocities). -/
inductive Scale
  | scalar (s : Fl)
  | perColumn (v : List Fl)
  deriving DecidableEq, Repr

/-- The part of a transform's state that normalization touches: `power[velocity][frequency]` and
`_to_abs` (wavefieldtransforms.py:36-49).  Simplification: entries are real (`Fl`); a complex entry
enters normalization only through its modulus. -/
structure PowerState where
  power : List (List Fl)
  toAbs : Scale
  deriving DecidableEq, Repr

/-- A newly made transform (wavefieldtransforms.py:36-49). -/
def PowerState.new (power : List (List Fl)) : PowerState := ⟨power, .scalar (.fin 1)⟩

/-- `power * to_abs` with numpy broadcasting. -/
def scaleBy : Scale → List (List Fl) → List (List Fl)
  | .scalar s, p => p.map fun row => row.map fun x => Fl.mul x s
  | .perColumn v, p => p.map fun row => List.zipWith Fl.mul row v

/-- `np.abs(power)`. -/
def absPower (p : List (List Fl)) : List (List Fl) := p.map fun row => row.map Fl.abs

/-- The larger of two floats as in `np.maximum` (NaN wins). -/
def flMax (a b : Fl) : Fl := if a.isNan then a else if b.isNan then b else if a.lt b then b else a

/-- `np.max` of a non-empty one-dimensional array (numpy raises on an empty one; here 0). -/
def flMaxList : List Fl → Fl
  | [] => .fin 0
  | x :: xs => xs.foldl flMax x

/-- One column of a matrix. -/
def column (p : List (List Fl)) (c : ℕ) : List Fl := p.map fun row => row.getD c (.fin 0)

/-- `np.max(x, axis=0)`. -/
def columnMax (p : List (List Fl)) : List Fl :=
  (List.range (p.headD []).length).map fun c => flMaxList (column p c)

/-- wavefieldtransforms.py:84-111 `normalize`.  The power is first multiplied by the stored factor, in
place, and only then is the method looked up: an unknown method raises `KeyError` with the power
already changed and the factor kept. -/
def normalize (s : PowerState) (how : String) : Outcome PowerState :=
  let p := scaleBy s.toAbs s.power
  let a := absPower p
  if how = "none" then (⟨a, .scalar (.fin 1)⟩, .ok ())
  else if how = "absolute-maximum" then
    let m := flMaxList a.flatten
    (⟨a.map fun row => row.map fun x => Fl.div x m, .scalar m⟩, .ok ())
  else if how = "frequency-maximum" then
    let m := columnMax a
    (⟨a.map fun row => List.zipWith Fl.div row m, .perColumn m⟩, .ok ())
  else (⟨p, s.toAbs⟩, .error .keyError)

/-! ## Stacking -/

/-- What stacking reads from a transform: its weight `n` and its power matrix. -/
structure Stackable (K : Type) where
  n : ℕ
  power : List (List K)

/-- wavefieldtransforms.py:359-366 `EmptyWavefieldTransform.stack` for powers of one shape.
Simplification: `K` is a field, so `0/0` (stacking two empty transforms) is 0 instead of NaN. -/
def stack {K : Type} [Field K] (s o : Stackable K) : Stackable K :=
  ⟨s.n + o.n, List.zipWith (fun r r' => List.zipWith
    (fun x y => (x * (s.n : K) + y * (o.n : K)) / ((s.n : K) + (o.n : K))) r r') s.power o.power⟩

/-- wavefieldtransforms.py:336-357: a new empty transform, all zeros with `n = 0`. -/
def emptyTransform (K : Type) [Field K] (nvel nfrq : ℕ) : Stackable K :=
  ⟨0, List.replicate nvel (List.replicate nfrq 0)⟩

/-! ## A stack which is looked at while it grows -/

/-- A transform with its weight `n`, power and `_to_abs` (wavefieldtransforms.py:36-49). -/
structure Growing where
  n : ℕ
  state : PowerState
  deriving DecidableEq, Repr

/-- wavefieldtransforms.py:359-366 `stack` on the power as it is stored at the moment, normalized or not; `_to_abs` is
neither read nor written.  Simplification: real powers of one shape. -/
def Growing.stack (s o : Growing) : Growing :=
  ⟨s.n + o.n, ⟨List.zipWith (fun r r' => List.zipWith
    (fun x y => Fl.div (Fl.add (Fl.mul x (.fin s.n)) (Fl.mul y (.fin o.n))) (.fin ((s.n : ℚ) + o.n))) r r')
    s.state.power o.state.power, s.state.toAbs⟩⟩

/-- A call on a stack: `stack(other)`, or `normalize(by)` (alone, or from `plot`, wavefieldtransforms.py:218). -/
inductive GrowOp
  | stack (o : Growing)
  | normalize (how : String)

/-- One such call. -/
def GrowOp.run (s : Growing) : GrowOp → Outcome Growing
  | .stack o => (s.stack o, .ok ())
  | .normalize how =>
    match WT.normalize s.state how with
    | (p, o) => (⟨s.n, p⟩, o)

/-! ## Peak picking -/

/-- A complex number with rational parts, as stored in a numpy array. -/
structure Cq where
  re : ℚ
  im : ℚ
  deriving DecidableEq, Repr

/-- numpy's order on complex numbers: lexicographic, real part first. -/
def Cq.lt (a b : Cq) : Bool := decide (a.re < b.re) || (decide (a.re = b.re) && decide (a.im < b.im))

/-- `np.argmax` scan with the order `lt`: index of the first largest element. -/
def argmaxFrom {α : Type} (lt : α → α → Bool) : List α → ℕ → ℕ → α → ℕ
  | [], _, best, _ => best
  | x :: xs, i, best, v =>
      if lt v x then argmaxFrom lt xs (i + 1) i x else argmaxFrom lt xs (i + 1) best v

/-- `np.argmax` of one column. -/
def argmaxBy {α : Type} (lt : α → α → Bool) : List α → Option ℕ
  | [] => none
  | x :: xs => some (argmaxFrom lt xs 1 0 x)

/-- wavefieldtransforms.py:113-138 `find_peak_power` for numbers with order `lt`.  `power[velocity][frequency]`; real
powers have zero imaginary part.  `np.argmax` of an empty axis raises `ValueError`, an index beyond the
velocities `IndexError`.  `zero` only fills rows that are too short, which a numpy array does not have. -/
def findPeakBy {α ν : Type} (lt : α → α → Bool) (zero : α) (velocities : List ν) (power : List (List α))
    (how : String) : Except PyErr (List ν) :=
  if how = "frequency-maximum" then
    (List.range (power.headD []).length).mapM fun c =>
      match argmaxBy lt (power.map fun row => row.getD c zero) with
      | none => .error .valueError
      | some i => match velocities[i]? with
        | none => .error .indexError
        | some v => .ok v
  else .error .notImplementedError

/-- wavefieldtransforms.py:113-138 `find_peak_power` on numbers with rational parts. -/
def findPeakPower (velocities : List ℚ) (power : List (List Cq)) (how : String) :
    Except PyErr (List ℚ) := findPeakBy Cq.lt ⟨0, 0⟩ velocities power how

/-! ## Slant stack -/

/-- Reading one sample.  Stricter than numpy: a negative index, which numpy would wrap around, is an
error too. -/
def readSample (u : List ℚ) (i : ℤ) : Except PyErr ℚ :=
  if i < 0 then .error .indexError
  else match u[i.toNat]? with
    | none => .error .indexError
    | some v => .ok v

/-- wavefieldtransforms.py:481-482: amplitudes of one trace, linearly interpolated. -/
def amplitudes (u : List ℚ) (cols : List ℤ) (delta : ℚ) : Except PyErr (List ℚ) :=
  cols.mapM fun c => do
    let lo ← readSample u c
    let hi ← readSample u (c + 1)
    return lo * (1 - delta) + hi * delta

/-- wavefieldtransforms.py:483-484: trapezoidal integration over the offsets, for one delay. -/
def trapezoid : List ℚ → List ℚ → ℚ
  | d :: ds, x :: y :: rest => 1 / 2 * d * (y + x) + trapezoid ds (y :: rest)
  | _, _ => 0

/-- Per-trace state carried from one velocity to the next: the columns and the previous lower index. -/
abbrev Carry := List (List ℤ × ℤ)

/-- wavefieldtransforms.py:477-480: new columns of one trace. -/
def updateCols (pos dt velocity : ℚ) (c : List ℤ × ℤ) : List ℤ × ℤ :=
  (c.1.map fun i => i + (pyInt (pos / dt / velocity) - c.2), pyInt (pos / dt / velocity))

/-- wavefieldtransforms.py:476-487: one velocity of the loop. -/
def slantRow (tm : List (List ℚ)) (pos : List ℚ) (dt : ℚ) (ntaus : ℕ) (carry : Carry)
    (velocity : ℚ) : Except PyErr (Carry × List ℚ) := do
  let carry' := List.zipWith (fun p c => updateCols p dt velocity c) pos carry
  let amps ← (tm.zip (pos.zip carry')).mapM fun x =>
    amplitudes x.1 x.2.2.1 (x.2.1 / dt / velocity - pyInt (x.2.1 / dt / velocity))
  return (carry', (List.range ntaus).map fun j =>
    trapezoid (Arr.diff pos) (amps.map fun a => a.getD j 0))

/-- wavefieldtransforms.py:476-487: the loop over the velocities. -/
def slantRows (tm : List (List ℚ)) (pos : List ℚ) (dt : ℚ) (ntaus : ℕ) :
    Carry → List ℚ → Except PyErr (List (List ℚ))
  | _, [] => .ok []
  | carry, v :: vs => do
    let (carry', row) ← slantRow tm pos dt ntaus carry v
    let rest ← slantRows tm pos dt ntaus carry' vs
    return row :: rest

/-- wavefieldtransforms.py:462-469: number of delays; negative when the record is too short. -/
def ntaus (npts : ℕ) (pos velocities : List ℚ) (dt : ℚ) : ℤ :=
  npts - pyInt ((Arr.maxList pos).getD 0 * (Arr.maxList (velocities.map fun v => 1 / v)).getD 0 / dt)
    - 1

/-- wavefieldtransforms.py:438-490 `slant_stack` on the (flipped) traces and offsets.  Empty inputs
and a negative number of delays raise `ValueError`. -/
def slantStack (tm : List (List ℚ)) (offsets : List ℚ) (dt : ℚ) (velocities : List ℚ) :
    Except PyErr (List (List ℚ)) :=
  match Arr.minList offsets, velocities with
  | none, _ => .error .valueError
  | some _, [] => .error .valueError
  | some m, _ :: _ =>
    let pos := offsets.map fun x => x - m
    let nt := ntaus (tm.headD []).length pos velocities dt
    if nt < 0 then .error .valueError
    else slantRows tm pos dt nt.toNat
      (pos.map fun _ => ((List.range nt.toNat).map fun (j : ℕ) => (j : ℤ), 0)) velocities

/-- wavefieldtransforms.py:438-490 applied to an array (line 460 reads the flipped record). -/
def slantStackOfArray (a : Arr) (velocities : List ℚ) : Except PyErr (List (List ℚ)) := do
  let (tm, offsets) ← a.flippedTseriesAndOffsets
  match a.sensors with
  | [] => .error .indexError
  | s :: _ => slantStack tm offsets s.ts.dt velocities

end WT
end Verif
