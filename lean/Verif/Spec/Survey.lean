import Verif.Spec.Units
import Verif.Model.Builtin

/-!
# The same survey in other coordinates

Positions along the line are measured from another origin and in another unit: `x` becomes `k * x + c`.
-/

namespace Verif.Spec
open Verif Workflow

/-- A sensor in the other coordinates. -/
def movedSensor (k c : ℚ) (s : Sensor) : Sensor := { s with x := k * s.x + c, y := k * s.y, z := k * s.z }

/-- An array in the other coordinates. -/
def moved (k c : ℚ) (a : Arr) : Arr :=
  ⟨a.sensors.map (movedSensor k c), ⟨k * a.source.x + c, k * a.source.y, k * a.source.z⟩⟩

/-- A boundary line in the other coordinates. -/
def movedLine (k c : ℚ) (l : Arr.Line) : Arr.Line := ⟨k * l.x1 + c, l.t1, k * l.x2 + c, l.t2⟩

/-- Settings in the other unit of length: the limits of offset and velocity. -/
def inLengths (k : ℚ) (set : Settings) : Settings :=
  { faster k set with minOffset := k * set.minOffset, maxOffset := times k set.maxOffset }

/-- The other coordinates are those which `map_x` and `map_y` return; the user clicks at the same sensors and times. -/
def inCoordinates (k c : ℚ) (env : Env) : Env :=
  { env with
    mapX := fun x => k * env.mapX x + c
    mapY := fun y => k * env.mapY y
    user := { env.user with picks := env.user.picks.map fun l => l.map fun p => (k * p.1 + c, p.2) } }

/-- What the powers of a transform are multiplied by when lengths are. -/
noncomputable def powerFactor (k : ℝ) (set : Settings) : ℝ :=
  if set.transform = "slantstack" ∨ set.transform = "phaseshift" then k
  else if set.transform = "fdbf" ∧ (Builtin.specific set.fdbf).get "weighting" = some "sqrt" then k ^ 2
  else 1

/-- A dispersion image in the other unit of length. -/
noncomputable def movedImage (k F : ℝ) (t : Transform) : Transform :=
  { t with
    velocities := t.velocities.map fun (v : ℝ) => k * v
    power := t.power.map fun row => row.map fun z => (F : ℂ) * z }

/-- A workflow's attributes in the other coordinates. -/
def movedState (k c : ℚ) (s : State) : State :=
  ⟨moved k c s.array, s.signalStart.map (movedLine k c), s.signalEnd.map (movedLine k c),
    s.noise.map (moved k c), s.signal.map (moved k c)⟩

/-- What a run returns, in the other coordinates.  The signal-to-noise ratio stays as it is. -/
noncomputable def movedResult (k c : ℚ) (F : ℝ) (r : Result) : Result :=
  ⟨movedImage k F r.transform, moved k c r.array, r.snr, movedState k c r.final⟩

end Verif.Spec
