import Verif.Model.Rounded
import Verif.Model.Files
import Verif.Model.Peaks

/-!
# Lags, derived values of peaks and statistics with the rounding of binary64

See `Verif/Model/Rounded.lean`.
-/

namespace Verif.B64

/-! ## Lags kept by the cross-correlation -/

/-- array1d.py:850-868, bounds used by `xcorrelate`; array1d.py:136-142 `offsets`.  See `ArrSrc.sliceBounds`. -/
def sliceBounds (a : ArrSrc) (vmin vmax : ℚ) : Except PyErr (ℤ × ℤ) :=
  let offs := a.sensors.map fun s => |sub a.source.src.x s.x|
  match Arr.minList offs, Arr.maxList offs with
  | some mn, some mx =>
    if vmin = 0 ∨ vmax = 0 ∨ a.source.dt = 0 then .error .zeroDivisionError
    else
      .ok ((a.source.amp.length : ℤ) + pyInt (div (sub (div mn vmax) (1 / 2)) a.source.dt),
           (a.source.amp.length : ℤ) + pyInt (div (div mx vmin) a.source.dt))
  | _, _ => .error .valueError

/-! ## Peaks -/

/-- A result of one operation, rounded.  Overflow and underflow are left out, as in `rnd`. -/
def rndFl : Fl → Fl
  | .fin q => .fin (rnd q)
  | x => x

/-- peaks.py:121-139 `_slowness`, `_wavelength`, `_wavenumber`, and the recorded attributes. -/
def raw (p : Peaks) (name : String) : Except PyErr (Nd Fl) :=
  if name = "slowness" then .ok (p.velocity.map fun v => rndFl (Peaks.slownessOf v))
  else if name = "wavelength" then .ok (Nd.zipWith (fun v f => rndFl (Peaks.wavelengthOf v f)) p.velocity p.frequency)
  else if name = "wavenumber" then
    .ok (Nd.zipWith (fun f v => rndFl (.div (rndFl (.mul (.fin (2 * Arr.pyPi)) f)) v)) p.frequency p.velocity)
  else p.raw name

/-- peaks.py:368-410 `reject_limits_outside`. -/
def rejectLimits (p : Peaks) (attr : String) (lo hi : Option Fl) : Outcome Peaks :=
  match raw p attr with
  | .error e => (p, .error e)
  | .ok a => (p.reject (List.zipWith (Peaks.limitsMark lo hi) a.data p.valid.data), .ok ())

/-- peaks.py:412-462 `reject_box_inside`. -/
def rejectBox (p : Peaks) (xtype : String) (xlims : Fl × Fl) (ytype : String) (ylims : Fl × Fl) : Outcome Peaks :=
  match raw p xtype with
  | .error e => (p, .error e)
  | .ok xs =>
    match raw p ytype with
    | .error e => (p, .error e)
    | .ok ys =>
      (p.reject (List.zipWith (fun xy v => Peaks.boxMark xlims ylims xy.1 xy.2 v) (xs.data.zip ys.data) p.valid.data),
        .ok ())

/-! ## Statistics -/

/-- Additions of several numbers in some order. -/
inductive Additions
  | entry (x : ℚ)
  | plus (l r : Additions)

/-- The numbers which are added. -/
def Additions.entries : Additions → List ℚ
  | .entry x => [x]
  | .plus l r => l.entries ++ r.entries

/-- The result, every addition rounded. -/
def Additions.result : Additions → ℚ
  | .entry x => x
  | .plus l r => add l.result r.result

/-- `np.sum` adds in an order which depends on the layout of the array: `total` is any such procedure. -/
def Sums (total : List ℚ → ℚ) : Prop :=
  ∀ l, l ≠ [] → ∃ t : Additions, t.entries.Perm l ∧ total l = t.result

/-- peakssuite.py:577 (also 582, stats.py:413) `np.nanmean`: missing entries are replaced by zero, the sum is divided by
the number of the others. -/
def nanmean (total : List ℚ → ℚ) (col : List (Option ℚ)) : Option ℚ :=
  if Mat.numCount col = 0 then none
  else some (div (total (col.map fun x => x.getD 0)) (Mat.numCount col))

/-- peakssuite.py:578 (also stats.py:414) `np.nanstd(..., ddof=1)` before the square root: squares of the differences from
the mean, zero for missing entries, added and divided. -/
def nanvar (total : List ℚ → ℚ) (col : List (Option ℚ)) : Option ℚ :=
  if Mat.numCount col < 2 then none
  else
    match nanmean total col with
    | none => none
    | some m =>
      some (div (total (col.map fun x =>
        match x with
        | none => 0
        | some x => mul (sub x m) (sub x m))) ((Mat.numCount col : ℚ) - 1))

end Verif.B64
