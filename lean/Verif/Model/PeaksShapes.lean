import Verif.Model.Peaks

/-!
# Peaks whose arrays have different lengths

`Peaks.__init__` does not compare the lengths of what it is given.  `Model/Peaks` takes them to be equal; here numpy's
rules for arrays of different lengths are added, for one-dimensional arrays.
-/

namespace Verif
namespace Peaks

/-- `a[mask]`: a mask of another length raises `IndexError`. -/
def maskRead (a : Nd Fl) (mask : Nd Bool) : Except PyErr (List Fl) :=
  if a.data.length = mask.data.length then .ok (a.select mask) else .error .indexError

/-- A numpy operation on two one-dimensional arrays: equal lengths, or one of them has one entry, which is used with every
entry of the other one; otherwise `ValueError`. -/
def broadcast (f : Fl → Fl → Fl) (a b : Nd Fl) : Except PyErr (Nd Fl) :=
  if a.data.length = b.data.length then .ok (Nd.zipWith f a b)
  else
    match a.data, b.data with
    | [x], _ => .ok (b.map fun y => f x y)
    | _, [y] => .ok (a.map fun x => f x y)
    | _, _ => .error .valueError

/-- peaks.py:93-139 `getattr(self, f"_{name}")`. -/
def rawChecked (p : Peaks) (name : String) : Except PyErr (Nd Fl) :=
  if name = "wavelength" then broadcast wavelengthOf p.velocity p.frequency
  else if name = "wavenumber" then broadcast wavenumberOf p.frequency p.velocity
  else p.raw name

/-- peaks.py:93-139 `getattr(self, name)`. -/
def getChecked (p : Peaks) (name : String) : Except PyErr (List Fl) :=
  if name ∈ stored then
    match p.raw name with
    | .error e => .error e
    | .ok a => maskRead a p.valid
  else if name = "slowness" then
    match maskRead p.velocity p.valid with
    | .error e => .error e
    | .ok v => .ok (v.map slownessOf)
  else if name = "wavelength" ∨ name = "wavenumber" then
    match maskRead p.velocity p.valid, maskRead p.frequency p.valid with
    | .ok v, .ok f => .ok (if name = "wavelength" then List.zipWith wavelengthOf v f else List.zipWith wavenumberOf f v)
    | .error e, _ => .error e
    | _, .error e => .error e
  else .error .attributeError

/-- `np.greater(a, limit, out=marks, where=valid)` with marks of the shape of `a`: `valid` must have that length, or one
entry. -/
def whereFits (a : Nd Fl) (valid : Nd Bool) : Bool :=
  decide (valid.data.length = a.data.length) || decide (valid.data.length = 1)

/-- peaks.py:464-466 `_reject`: marks of another length raise `IndexError`. -/
def rejectChecked (p : Peaks) (mask : List Bool) : Outcome Peaks :=
  if mask.length = p.valid.data.length then (p.reject mask, .ok ()) else (p, .error .indexError)

/-- peaks.py:368-410 `reject_limits_outside`. -/
def rejectLimitsChecked (p : Peaks) (attr : String) (lo hi : Option Fl) : Outcome Peaks :=
  match p.rawChecked attr with
  | .error e => (p, .error e)
  | .ok a =>
    if (lo.isSome || hi.isSome) && !whereFits a p.valid then (p, .error .valueError)
    else if a.data.length = p.valid.data.length then
      p.rejectChecked (List.zipWith (limitsMark lo hi) a.data p.valid.data)
    else p.rejectChecked (a.data.map fun x => limitsMark lo hi x (p.valid.data.getD 0 false))

/-- peaks.py:433-462 `_reject_box_inside_bool_array` and 412-431 `reject_box_inside`: `np.greater(ys, ...)` has marks of the
shape of `xs` to write to and to select by, so `ys` must have that length, or one entry. -/
def rejectBoxChecked (p : Peaks) (xtype : String) (xlims : Fl × Fl) (ytype : String) (ylims : Fl × Fl) : Outcome Peaks :=
  match p.rawChecked xtype with
  | .error e => (p, .error e)
  | .ok xs =>
    match p.rawChecked ytype with
    | .error e => (p, .error e)
    | .ok ys =>
      if !whereFits xs p.valid then (p, .error .valueError)
      else
        let valid := if p.valid.data.length = xs.data.length then p.valid.data
          else xs.data.map fun _ => p.valid.data.getD 0 false
        if ys.data.length = xs.data.length then
          p.rejectChecked (List.zipWith (fun xy v => boxMark xlims ylims xy.1 xy.2 v) (xs.data.zip ys.data) valid)
        else
          match ys.data with
          | [y] => p.rejectChecked (List.zipWith (fun x v => boxMark xlims ylims x y v) xs.data valid)
          | _ => (p, .error .valueError)

end Peaks
end Verif
