import Verif.Spec.PlaneWave
import Verif.Spec.Arrays

/-!
# Specification: a pulse which stays inside the slant stack
-/

namespace Verif.Spec

/-- The shot is at sample `lead` of records of `n` samples.  A trial velocity `w` delays a trace by the travel time at that
velocity from the nearest receiver.  With the delays of every trial velocity the whole pulse is still inside the record, and
inside what all traces cover after the largest delay. -/
def StaysInStack (a : Arr) (v dt : ℚ) (lead : ℤ) (pulse : List ℚ) (n : ℕ) (velocities : List ℝ) : Prop :=
  ∀ near ∈ a.sensors, (∀ s ∈ a.sensors, offset a.source near ≤ offset a.source s) →
    ∀ s ∈ a.sensors, ∀ s' ∈ a.sensors, ∀ w ∈ velocities, ∀ w' ∈ velocities,
      ((offset a.source s - offset a.source near : ℚ) : ℝ) / w ≤ (lead * dt + offset a.source s / v : ℚ) ∧
      ((lead * dt + offset a.source s / v + pulse.length * dt : ℚ) : ℝ) -
          ((offset a.source s - offset a.source near : ℚ) : ℝ) / w +
          ((offset a.source s' - offset a.source near : ℚ) : ℝ) / w' + 2 * (dt : ℝ) ≤ ((n * dt : ℚ) : ℝ)

end Verif.Spec
