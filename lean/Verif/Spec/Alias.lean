import Verif.Spec.Power

/-!
# Specification: evenly spaced arrays and aliased velocities
-/

namespace Verif.Spec

/-- The sensors follow one another at the distance `d`. -/
def OnGrid (a : Arr) (d : ℚ) : Prop :=
  0 < d ∧ ∃ x0 : ℚ, ∀ (i : ℕ) (s : Sensor), a.sensors[i]? = some s → s.x = x0 + i * d

/-- At frequency `f` the wavenumbers `2πf/v` and `2πf/v'` of two velocities differ by a whole multiple of twice the
wavenumber `k` (with the `π` of the code). -/
def WavenumbersDiffer (k : ℚ) (f v v' : ℝ) : Prop :=
  ∃ m : ℤ, 2 * (Arr.pyPi : ℝ) * f / v' = 2 * Arr.pyPi * f / v + m * (2 * k)

/-- At frequency `f` the wavenumber of `v` is smaller than twice the wavenumber `k`. -/
def WavenumberBelow (k : ℚ) (f v : ℝ) : Prop := 2 * (Arr.pyPi : ℝ) * f / v < 2 * k

end Verif.Spec
