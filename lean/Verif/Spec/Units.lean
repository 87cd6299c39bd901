import Verif.Model.Stats
import Verif.Model.Settings

/-!
# Other units of frequency and velocity

A frequency of `f` in one unit is `a * f` in another, a velocity of `v` is `c * v`.
-/

namespace Verif.Spec
open Verif

/-- The same quantity in a unit which is `1 / k` of the old one. -/
def times (k : ℚ) : Fl → Fl
  | .fin q => .fin (k * q)
  | x => x

/-- What a quantity is multiplied by when frequencies are multiplied by `a` and velocities by `c`. -/
def unitFactor (a c : ℚ) (name : String) : ℚ :=
  if name = "frequency" then a
  else if name = "velocity" then c
  else if name = "slowness" then 1 / c
  else if name = "wavelength" then c / a
  else if name = "wavenumber" then a / c
  else 1

/-- The same peaks in other units. -/
def inUnits (a c : ℚ) (p : Peaks) : Peaks :=
  { p with
    frequency := p.frequency.map (times a)
    velocity := p.velocity.map (times c) }

/-- The same suite in other units. -/
def suiteInUnits (a c : ℚ) (s : Suite) : Suite := { s with peaks := s.peaks.map (inUnits a c) }

/-- An array with all lengths multiplied by `k`. -/
def enlarged (k : ℚ) (a : Arr) : Arr :=
  { a with
    sensors := a.sensors.map fun s => { s with x := k * s.x, y := k * s.y, z := k * s.z }
    source := ⟨k * a.source.x, k * a.source.y, k * a.source.z⟩ }

/-- Settings with the limits of the trial velocities multiplied by `k`. -/
def faster (k : ℚ) (set : Settings) : Settings := { set with vmin := k * set.vmin, vmax := k * set.vmax }

/-- A record whose times are all multiplied by `k`: the time step and the delay. -/
def slowRecord (k : ℚ) (r : ATS) : ATS := { r with dt := k * r.dt, delay := k * r.delay }

/-- An array whose records have all times multiplied by `k`. -/
def slowed (k : ℚ) (a : Arr) : Arr := { a with sensors := a.sensors.map fun s => { s with ts := slowRecord k s.ts } }

/-- Settings with the limits of frequency and of the trial velocities divided by `k`. -/
def slower (k : ℚ) (set : Settings) : Settings :=
  { set with fmin := set.fmin / k, fmax := set.fmax / k, vmin := set.vmin / k, vmax := set.vmax / k }

/-- A line in the position-time plane with all times multiplied by `k`. -/
def laterLine (k : ℚ) (l : Arr.Line) : Arr.Line := { l with t1 := k * l.t1, t2 := k * l.t2 }

end Verif.Spec
