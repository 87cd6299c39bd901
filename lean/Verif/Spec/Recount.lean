import Verif.Model.Workflow

/-!
# The same record with other stack counts

Every stack count is multiplied by one number; samples, times and positions stay as they are.
-/

namespace Verif.Spec.Recount
open Verif Workflow

/-- A time series whose stack count is multiplied by `k`. -/
def series (k : ℤ) (r : ATS) : ATS := { r with nstacks := k * r.nstacks }

/-- A sensor whose stack count is multiplied by `k`. -/
def sensor (k : ℤ) (s : Sensor) : Sensor := { s with ts := series k s.ts }

/-- An array all of whose stack counts are multiplied by `k`. -/
def array (k : ℤ) (a : Arr) : Arr := { a with sensors := a.sensors.map (sensor k) }

/-- A workflow's attributes with the stack counts multiplied by `k`. -/
def state (k : ℤ) (s : State) : State :=
  { s with array := array k s.array, noise := s.noise.map (array k), signal := s.signal.map (array k) }

/-- What a run returns, with the stack counts multiplied by `k`: image, signal-to-noise ratio and mute lines are the same. -/
def result (k : ℤ) (r : Result) : Result := { r with array := array k r.array, final := state k r.final }

end Verif.Spec.Recount
