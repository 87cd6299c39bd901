import Verif.Model.Array

/-!
# Vocabulary for the array properties

`SameMeta`, `Consistent` and `offset` are stated on the data of sensors and arrays, without any function of
the model.
-/

namespace Verif.Spec

/-- Two records agree in time step, stack count, delay and number of samples. -/
def SameMeta (r s : ATS) : Prop :=
  r.dt = s.dt ∧ r.nstacks = s.nstacks ∧ r.delay = s.delay ∧ r.amp.length = s.amp.length

/-- A consistent array: at least one sensor, strictly increasing x, records that agree. -/
def Consistent (a : Arr) : Prop :=
  a.sensors ≠ [] ∧ a.sensors.Pairwise (fun s t => s.x < t.x) ∧
    ∀ s ∈ a.sensors, ∀ t ∈ a.sensors, SameMeta s.ts t.ts

/-- Distance of a sensor from a source along the line. -/
def offset (src : Source) (s : Sensor) : ℚ := |src.x - s.x|

end Verif.Spec
