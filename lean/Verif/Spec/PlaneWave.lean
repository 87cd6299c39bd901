import Verif.Model.Spectral

/-!
# What a plane wave is
-/

open Complex

namespace Verif
namespace Spec

/-- Frequency of bin `k` of a record. -/
def binFrequency (r : WT.Record) (k : ℕ) : ℚ := k * r.step

/-- In the spectral domain: at bin `k` every trace has the spectrum `S` delayed by its offset over the
velocity `v`. -/
def PlaneWaveAt (r : WT.Record) (v : ℝ) (k : ℕ) (S : ℂ) : Prop :=
  ∀ a, a < r.tm.length →
    WT.fftBin (r.tm.getD a []) k =
      S * exp (-(2 * Real.pi * (binFrequency r k : ℝ) * (r.offsets.getD a 0 : ℚ) / v : ℝ) * I)

/-- A wave of any shape of wavefront: at bin `k` every trace has the spectrum `S` with a positive gain of its own and
with the phase lag `lag (k x)`, where `k x` is wavenumber times offset.  A plane wave has the lag `k x` itself, a
cylindrical wave that of the Hankel function. -/
def WaveAt (lag : ℝ → ℝ) (r : WT.Record) (v : ℝ) (k : ℕ) (S : ℂ) : Prop :=
  ∀ a, a < r.tm.length → ∃ gain : ℝ, 0 < gain ∧
    WT.fftBin (r.tm.getD a []) k =
      gain * (S * exp (-(lag (2 * Real.pi * (binFrequency r k : ℝ) / v * (r.offsets.getD a 0 : ℚ)) : ℝ) * I))

/-- Phase lag of the wavefront a steering setting stands for. -/
noncomputable def lagOf (hankel : ℝ → ℂ) (steering : Option String) (kx : ℝ) : ℝ :=
  if steering = some "cylindrical" then arg (hankel kx) else kx

/-- The two velocities differ by a whole number of periods in the time from receiver `a` to receiver `b` at
frequency `f`. -/
def Aliased (f v v' : ℝ) (xa xb : ℚ) : Prop := ∃ n : ℤ, f * ((xb - xa) / v') = f * ((xb - xa) / v) + n

/-- In the time domain: a wavelet `w` recorded at sampling interval `dt`, arriving at each receiver a
whole number of samples `d` later than at zero offset, with `offset = v * d * dt`.  Undoing the delay
(`rotate`) gives the wavelet back. -/
def RecordedPlaneWave (r : WT.Record) (v dt : ℚ) (w : List ℚ) : Prop :=
  w.length = r.nsamples ∧ r.step = 1 / (r.nsamples * dt) ∧
  ∀ a, a < r.tm.length → ∃ d : ℕ, (r.tm.getD a []).length = r.nsamples ∧
    r.offsets.getD a 0 = v * (d * dt) ∧ (r.tm.getD a []).rotate d = w

/-- Every receiver of the array records, at sampling interval `dt`, `n` samples: the same pulse with a positive gain of
its own, nothing before and nothing after it.  The shot is at sample `lead` of the record (before it, if `lead` is
negative), and the pulse comes later by the offset over the velocity `v`, which is a whole number of samples. -/
def CarriesPulse (a : Arr) (v dt : ℚ) (lead : ℤ) (pulse : List ℚ) (n : ℕ) : Prop :=
  ∀ s ∈ a.sensors, s.ts.dt = dt ∧ ∃ (before after : ℕ) (gain : ℚ), 0 < gain ∧
    |a.source.x - s.x| = v * (((before : ℚ) - lead) * dt) ∧ before + pulse.length + after = n ∧
    s.ts.amp = List.replicate before 0 ++ pulse.map (fun x => gain * x) ++ List.replicate after 0

/-- Time at which the pulse reaches a receiver: the shot is at sample `lead` of the record, whose first sample has the
time `delay`. -/
def arrival (src : Source) (v : ℚ) (lead : ℤ) (s : Sensor) : ℚ := s.ts.delay + lead * s.ts.dt + |src.x - s.x| / v

/-- The first and the last sample of the pulse at a receiver lie in a time window. -/
def PulseWithin (src : Source) (v : ℚ) (lead : ℤ) (pulse : List ℚ) (start stop : ℚ) (s : Sensor) : Prop :=
  start ≤ arrival src v lead s ∧ arrival src v lead s + (pulse.length - 1) * s.ts.dt ≤ stop

/-- Fourier transform of a pulse at a frequency given in cycles per sample. -/
noncomputable def pulseSpectrum (pulse : List ℚ) (cycles : ℝ) : ℂ :=
  ∑ m ∈ Finset.range pulse.length, ((pulse.getD m 0 : ℚ) : ℂ) * exp (-(2 * Real.pi * cycles * m : ℝ) * I)

/-- Distance from the first to the last receiver. -/
def arrayLength (offsets : List ℚ) : ℝ := ((offsets.getLastD 0 - offsets.headD 0 : ℚ) : ℝ)

end Spec
end Verif
