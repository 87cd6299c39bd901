import Verif.Py.Fl
import Verif.Model.Array

/-!
# Model of `swprocess/peaks.py`

An array of floats or booleans is its shape and its entries in row-major order.  All arrays of one `Peaks` object
are taken to have one shape (the constructor does not check this; for other lengths see `Model/PeaksShapes.lean`).  `plot` is modelled in `Model/Draw.lean`.
-/

namespace Verif

/-- A numpy array: shape and row-major entries. -/
structure Nd (α : Type) where
  shape : List ℕ
  data : List α
  deriving DecidableEq, Repr

namespace Nd

/-- Apply a function to every entry. -/
def map {α β : Type} (f : α → β) (a : Nd α) : Nd β := ⟨a.shape, a.data.map f⟩

/-- Combine two arrays of one shape entry by entry. -/
def zipWith {α β γ : Type} (f : α → β → γ) (a : Nd α) (b : Nd β) : Nd γ := ⟨a.shape, List.zipWith f a.data b.data⟩

/-- `a[mask]`: the entries where the mask is true, in row-major order. -/
def select {α : Type} (a : Nd α) (mask : Nd Bool) : List α :=
  ((a.data.zip mask.data).filter fun p => p.2).map fun p => p.1

end Nd

/-- A `Peaks` object: `_frequency`, `_velocity`, the further attributes in the order of `attrs`, and `_valid`. -/
structure Peaks where
  identifier : String
  frequency : Nd Fl
  velocity : Nd Fl
  extra : List (String × Nd Fl)
  valid : Nd Bool
  deriving DecidableEq, Repr

namespace Peaks

/-- peaks.py:59-91 `__init__`.  Setting `_slowness`, `_wavelength` or `_wavenumber` raises `AttributeError`, they are
properties without setter.  A keyword argument `valid` would replace `_valid`, and one named `reject` the method
`_reject`; these are not modelled. -/
def init (frequency velocity : Nd Fl) (identifier : String) (kwargs : List (String × Nd Fl)) : Except PyErr Peaks :=
  if kwargs.any fun k => k.1 == "slowness" || k.1 == "wavelength" || k.1 == "wavenumber" then
    .error .attributeError
  else .ok ⟨identifier, frequency, velocity, kwargs, velocity.map fun v => !v.isNan⟩

/-- peaks.py:85 `attrs`. -/
def attrs (p : Peaks) : List String := "frequency" :: "velocity" :: p.extra.map Prod.fst

/-- peaks.py:117-123 `slowness`, `_slowness` of one peak. -/
def slownessOf (v : Fl) : Fl := .div (.fin 1) v
/-- peaks.py:125-131 `wavelength`, `_wavelength` of one peak. -/
def wavelengthOf (v f : Fl) : Fl := .div v f
/-- peaks.py:133-139 `wavenumber`, `_wavenumber` of one peak. -/
def wavenumberOf (f v : Fl) : Fl := .div (.mul (.fin (2 * Arr.pyPi)) f) v

/-- `getattr(self, f"_{name}")` (peaks.py:93-139): the recorded values of an attribute, valid or not. -/
def raw (p : Peaks) (name : String) : Except PyErr (Nd Fl) :=
  if name = "frequency" then .ok p.frequency
  else if name = "velocity" then .ok p.velocity
  else if name = "slowness" then .ok (p.velocity.map slownessOf)
  else if name = "wavelength" then .ok (Nd.zipWith wavelengthOf p.velocity p.frequency)
  else if name = "wavenumber" then .ok (Nd.zipWith wavenumberOf p.frequency p.velocity)
  else
    match p.extra.lookup name with
    | some a => .ok a
    | none => .error .attributeError

/-- peaks.py:93-115: attributes with a property of their own that selects the valid entries. -/
def stored : List String := ["frequency", "velocity", "azimuth", "ellipticity", "noise", "power"]

/-- `getattr(self, name)` (peaks.py:93-139). -/
def get (p : Peaks) (name : String) : Except PyErr (List Fl) :=
  if name ∈ stored then
    match p.raw name with
    | .ok a => .ok (a.select p.valid)
    | .error e => .error e
  else
    let f := p.frequency.select p.valid
    let v := p.velocity.select p.valid
    if name = "slowness" then .ok (v.map slownessOf)
    else if name = "wavelength" then .ok (List.zipWith wavelengthOf v f)
    else if name = "wavenumber" then .ok (List.zipWith wavenumberOf f v)
    else .error .attributeError

/-- peaks.py:141-145 `extended_attrs`. -/
def extendedAttrs (p : Peaks) : List String := p.attrs ++ ["wavelength", "slowness", "wavenumber"]

/-! ## Rejection -/

/-- peaks.py:464-466 `_reject`. -/
def reject (p : Peaks) (mask : List Bool) : Peaks :=
  { p with valid := ⟨p.valid.shape, List.zipWith (fun v m => if m then false else v) p.valid.data mask⟩ }

/-- peaks.py:395-409 for one entry: `np.greater`/`np.less` with `where` and `out` on zeros. -/
def limitsMark (lo hi : Option Fl) (x : Fl) (valid : Bool) : Bool :=
  match lo, hi with
  | none, none => false
  | none, some h => if valid then Fl.lt h x else false
  | some l, none => if valid then Fl.lt x l else false
  | some l, some h =>
    let b := if valid then Fl.lt h x else false
    if valid && !b then Fl.lt x l else b

/-- peaks.py:368-410 `reject_limits_outside`. -/
def rejectLimits (p : Peaks) (attr : String) (lo hi : Option Fl) : Outcome Peaks :=
  match p.raw attr with
  | .error e => (p, .error e)
  | .ok a => (p.reject (List.zipWith (limitsMark lo hi) a.data p.valid.data), .ok ())

/-- Python's `min((a, b))`. -/
def pyMin (a b : Fl) : Fl := if Fl.lt b a then b else a
/-- Python's `max((a, b))`. -/
def pyMax (a b : Fl) : Fl := if Fl.lt a b then b else a

/-- peaks.py:456-460 for one entry. -/
def boxMark (xlims ylims : Fl × Fl) (x y : Fl) (valid : Bool) : Bool :=
  let b := if valid then Fl.lt (pyMin xlims.1 xlims.2) x else false
  let b := if b then Fl.lt x (pyMax xlims.1 xlims.2) else b
  let b := if b then Fl.lt (pyMin ylims.1 ylims.2) y else b
  if b then Fl.lt y (pyMax ylims.1 ylims.2) else b

/-- peaks.py:433-462 `_reject_box_inside_bool_array`. -/
def boxMask (p : Peaks) (xtype : String) (xlims : Fl × Fl) (ytype : String) (ylims : Fl × Fl) :
    Except PyErr (List Bool) :=
  match p.raw xtype with
  | .error e => .error e
  | .ok xs =>
    match p.raw ytype with
    | .error e => .error e
    | .ok ys => .ok (List.zipWith (fun xy v => boxMark xlims ylims xy.1 xy.2 v) (xs.data.zip ys.data) p.valid.data)

/-- peaks.py:412-431 `reject_box_inside`. -/
def rejectBox (p : Peaks) (xtype : String) (xlims : Fl × Fl) (ytype : String) (ylims : Fl × Fl) : Outcome Peaks :=
  match p.boxMask xtype xlims ytype ylims with
  | .error e => (p, .error e)
  | .ok m => (p.reject m, .ok ())

/-! ## Several peaks per frequency -/

/-- peaks.py:499-506, the loop over the rows of one column: `(mindex, mval)` so far, next row index. -/
def bestLoop : List (Fl × Bool) → ℕ → ℕ × Fl → ℕ × Fl
  | [], _, best => best
  | (v, valid) :: rest, r, best =>
    if !valid then bestLoop rest (r + 1) best
    else if Fl.lt best.2 v then bestLoop rest (r + 1) (r, v)
    else bestLoop rest (r + 1) best

/-- peaks.py:499-509: the row chosen for one column, if `mval != -np.inf`. -/
def bestRow (col : List (Fl × Bool)) : Option ℕ :=
  let best := bestLoop col 0 (0, .ninf)
  if best.2 = .ninf then none else some best.1

/-- Column `c` of a table with `nr` rows and `nc` columns. -/
def column {α : Type} (d : α) (nr nc : ℕ) (data : List α) (c : ℕ) : List α :=
  (List.range nr).map fun r => data.getD (r * nc + c) d

/-- peaks.py:468-511 `simplify_mpeaks`.  `decide` is the power if there is one, else the frequency.  Arrays with
neither one nor two dimensions are not modelled. -/
def simplify (p : Peaks) (attr : String) : Except PyErr (List Fl) :=
  match p.raw attr with
  | .error e => .error e
  | .ok a =>
    match a.shape with
    | [_] => p.get attr
    | [nr, nc] =>
      let dec := (p.extra.lookup "power").getD p.frequency
      .ok ((List.range nc).filterMap fun c =>
        (bestRow ((column .nan nr nc dec.data c).zip (column false nr nc p.valid.data c))).map fun r =>
          a.data.getD (r * nc + c) .nan)
    | _ => .error .valueError

/-! ## Equality -/

/-- `np.isclose(a, b, equal_nan=True)` for one pair. -/
def close : Fl → Fl → Bool
  | .nan, .nan => true
  | .fin a, .fin b => decide (|a - b| ≤ 1 / 100000000 + 1 / 100000 * |b|)
  | .pinf, .pinf => true
  | .ninf, .ninf => true
  | _, _ => false

/-- `np.allclose(a, b, equal_nan=True)` of one-dimensional arrays: a single entry is broadcast; other unequal
lengths raise `ValueError` (`none`). -/
def allclose (a b : List Fl) : Option Bool :=
  if a.length = b.length then some ((a.zip b).all fun p => close p.1 p.2)
  else if a.length = 1 then some (b.all fun y => close (a.getD 0 .nan) y)
  else if b.length = 1 then some (a.all fun x => close x (b.getD 0 .nan))
  else none

/-- peaks.py:649-679 `__eq__`; a missing attribute or a `ValueError` gives false. -/
def eq (p q : Peaks) : Bool :=
  decide (p.identifier = q.identifier) && decide (p.attrs.length = q.attrs.length) &&
  p.attrs.all fun a =>
    match p.get a, q.get a with
    | .ok x, .ok y => (allclose x y).getD false
    | _, _ => false

end Peaks
end Verif
