import Verif.Model.Array
import Mathlib.Analysis.SpecialFunctions.Trigonometric.Basic

/-!
# Specification: spectra of recorded samples
-/

namespace Verif.Spec
open Complex

/-- The Fourier component at frequency `f` of samples taken every `dt`: the sum of `u(t) exp(-2 pi i f t)` over the times
`t = 0, dt, 2 dt, ...`. -/
noncomputable def component (f dt : ℝ) (u : List ℚ) : ℂ :=
  ∑ n ∈ Finset.range u.length, ((u.getD n 0 : ℚ) : ℂ) * exp (-(2 * Real.pi * f * (n * dt) : ℝ) * I)

/-- Mean over the channels of the magnitude at frequency `f`. -/
noncomputable def meanComponent (f : ℝ) (a : Arr) : ℝ :=
  (a.sensors.map fun s => ‖component f s.ts.dt s.ts.amp‖).sum / a.sensors.length

/-- Mean over the channels of the magnitude at bin `k`, that is at `k` oscillations per record. -/
noncomputable def meanSpectrum (a : Arr) (k : ℕ) : ℝ :=
  (a.sensors.map fun s => ‖component (k / s.ts.amp.length) 1 s.ts.amp‖).sum / a.sensors.length

end Verif.Spec
