import Verif.Spec.Power

/-!
# Specification: the same recording with noise
-/

open Complex

namespace Verif.Spec

/-- The recording `a` with other samples: `u s` instead of what the sensor `s` recorded. -/
def withSamples (u : Sensor → List ℚ) (a : Arr) : Arr :=
  { a with sensors := a.sensors.map fun s => { s with ts := { s.ts with amp := u s } } }

/-- At frequency `f` the spectrum of every sensor is not zero, and the spectrum of its new samples differs from it by at
most the part `ε` of its magnitude. -/
def CloseAt (a : Arr) (u : Sensor → List ℚ) (f ε : ℝ) : Prop :=
  ∀ s ∈ a.sensors, spectrumAt f s ≠ 0 ∧ ‖component f s.ts.dt (u s) - spectrumAt f s‖ ≤ ε * ‖spectrumAt f s‖

/-- Sum of the absolute values of the differences of the samples. -/
def totalNoise (x y : List ℚ) : ℚ := (List.zipWith (fun p q => |q - p|) x y).sum

/-- No two sensors are farther apart than `L`. -/
def NotLongerThan (a : Arr) (L : ℝ) : Prop := ∀ s ∈ a.sensors, ∀ t ∈ a.sensors, ((t.x - s.x : ℚ) : ℝ) ≤ L

/-- What the phase-shift transform shows at the trial velocity `v'` for a wave of velocity `v`: the magnitude of the
integral over offset of the remaining phase. -/
noncomputable def arrayResponse (src : Source) (ss : List Sensor) (f v v' : ℝ) : ℝ :=
  ‖integral (ss.map fun s => (((offset src s : ℚ) : ℝ),
    exp ((2 * Real.pi * f * (offset src s : ℚ) * (1 / v' - 1 / v) : ℝ) * I)))‖

end Verif.Spec
