import Verif.Spec.Arrays

/-!
# Specification: a signal passing an array
-/

namespace Verif.Spec

/-- The signal `w` passes the receivers one after the other at velocity `v`: the nearest one records `w`, every other
one records zeros for the travel time from there, a whole number of samples, and then `w`, as far as the record goes. -/
def PulseOver (a : Arr) (v : ℚ) (w : List ℚ) : Prop :=
  ∃ near ∈ a.sensors, ∀ s ∈ a.sensors, ∃ d : ℕ,
    offset a.source s - offset a.source near = v * (d * s.ts.dt) ∧ s.ts.amp = (List.replicate d 0 ++ w).take w.length

end Verif.Spec
