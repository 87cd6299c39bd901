import Verif.Spec.Spectrum
import Verif.Spec.PlaneWave
import Verif.Spec.Arrays

/-!
# Specification: what the wavefield transforms measure

Stated with the Fourier components of the recorded samples at physical frequencies, without bins.
-/

open Complex

namespace Verif.Spec

/-- Fourier component at frequency `f` of what a sensor recorded. -/
noncomputable def spectrumAt (f : ℝ) (s : Sensor) : ℂ := component f s.ts.dt s.ts.amp

/-- `ss` are the sensors of the array from the nearest to the source to the farthest. -/
def NearToFar (a : Arr) (ss : List Sensor) : Prop :=
  ss.Perm a.sensors ∧ ss.Pairwise fun s t => offset a.source s < offset a.source t

/-- Trapezoidal integral of a quantity known at some positions. -/
noncomputable def integral : List (ℝ × ℂ) → ℂ
  | p :: q :: rest => ((q.1 - p.1) / 2 : ℝ) * (p.2 + q.2) + integral (q :: rest)
  | _ => 0

/-- Phase-shift power at frequency `f` and velocity `v`: magnitude of the integral over offset of the phase of the
spectrum, advanced by the travel time. -/
noncomputable def phaseShiftPower (src : Source) (ss : List Sensor) (f v : ℝ) : ℝ :=
  ‖integral (ss.map fun s => (((offset src s : ℚ) : ℝ),
    exp ((2 * Real.pi * f * (offset src s : ℚ) / v : ℝ) * I) * (spectrumAt f s / ‖spectrumAt f s‖)))‖

/-- Beamforming power at frequency `f` and velocity `v`: squared magnitude of the sum over the sensors of the weighted
spectra, advanced by the phase lag of the wavefront. -/
noncomputable def beamformingPower (a : Arr) (weight : Sensor → ℝ) (lag : ℝ → ℝ) (f v : ℝ) : ℝ :=
  ‖(a.sensors.map fun s =>
    exp ((lag (2 * Real.pi * f / v * (offset a.source s : ℚ)) : ℝ) * I) * (weight s * spectrumAt f s)).sum‖ ^ 2

/-- The weight a setting gives to a sensor at frequency `f`. -/
noncomputable def weightOf (src : Source) (weighting : Option String) (f : ℝ) (s : Sensor) : ℝ :=
  if weighting = some "sqrt" then (offset src s : ℚ)
  else if weighting = some "invamp" then 1 / ‖spectrumAt f s‖ else 1

/-- A wave at frequency `f` with velocity `v`: every receiver has the spectrum `S` with a gain of its own, and the phase
lag of the wavefront. -/
def WaveOver (a : Arr) (lag : ℝ → ℝ) (gain : Sensor → ℝ) (f v : ℝ) (S : ℂ) : Prop :=
  ∀ s ∈ a.sensors, spectrumAt f s =
    gain s * (S * exp (-(lag (2 * Real.pi * f / v * (offset a.source s : ℚ)) : ℝ) * I))

/-- All records multiplied by a factor. -/
def amplified (q : ℚ) (a : Arr) : Arr :=
  { a with sensors := a.sensors.map fun s => { s with ts := { s.ts with amp := s.ts.amp.map fun x => q * x } } }

/-- `b` is the recording `a` begun `d` samples earlier: `d` zeros stand before the arrivals instead of after them. -/
def StartedEarlier (d : ℕ) (a b : Arr) : Prop :=
  b.source = a.source ∧ List.Forall₂ (fun s t => ∃ u, s.ts.amp = u ++ List.replicate d 0 ∧
    t = { s with ts := { s.ts with amp := List.replicate d 0 ++ u } }) a.sensors b.sensors

end Verif.Spec
