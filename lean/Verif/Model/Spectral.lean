import Verif.Model.Transform
import Mathlib.Analysis.SpecialFunctions.Trigonometric.Basic
import Mathlib.Analysis.SpecialFunctions.Complex.Arg
import Mathlib.Analysis.SpecialFunctions.Pow.Real

/-!
# Wavefield transforms: the spectral parts

Models the phase-shift, FDBF and FK transforms of `swprocess/wavefieldtransforms.py` and the
signal-to-noise ratio of `swprocess/snr.py`.  Spectra are exact complex numbers: `np.fft.fft` is the
discrete Fourier sum.
-/

open Complex

namespace Verif
namespace WT

/-- wavefieldtransforms.py:51-57 `_create_vector`, on real numbers.  `np.linspace` gives
`pmin + k*(pmax-pmin)/(n-1)`, `np.geomspace` gives `pmin*(pmax/pmin)^(k/(n-1))`; both give `[pmin]` for
one point and raise `ValueError` for a negative number.  `np.geomspace` raises `ValueError` if a bound
is zero.  Simplification: `np.geomspace` on negative bounds (allowed by numpy) is outside the model and
also answered by the formula. -/
noncomputable def createVector (pmin pmax : ℝ) (pn : ℤ) (pspace : String) :
    Except PyErr (List ℝ) :=
  if pspace = "linear" ∨ pspace = "lin" then
    if pn < 0 then .error .valueError
    else .ok ((List.range pn.toNat).map fun (k : ℕ) => pmin + k * ((pmax - pmin) / (pn - 1)))
  else if pspace = "log" ∨ pspace = "logarithmic" then
    if pn < 0 ∨ pmin = 0 ∨ pmax = 0 then .error .valueError
    else .ok ((List.range pn.toNat).map fun (k : ℕ) => pmin * (pmax / pmin) ^ ((k : ℝ) / (pn - 1)))
  else .error .keyError

/-- `np.fft.fft(u)[k]`: the discrete Fourier sum. -/
noncomputable def fftBin (u : List ℚ) (k : ℕ) : ℂ :=
  ∑ n ∈ Finset.range u.length,
    ((u.getD n 0 : ℚ) : ℂ) * exp (-(2 * Real.pi * k * n / u.length : ℝ) * I)

/-- Processing settings read by the transforms: `fmin`, `fmax` and the optional FDBF settings. -/
structure FreqSettings where
  fmin : ℚ
  fmax : ℚ
  deriving DecidableEq, Repr

/-- What a transform reads from the array: the (flipped) traces and offsets, and the number of samples,
internal frequency step and multiple of the first sensor. -/
structure Record where
  tm : List (List ℚ)
  offsets : List ℚ
  nsamples : ℕ
  step : ℚ
  multiple : ℕ
  deriving DecidableEq, Repr

/-- array1d.py `_flipped_tseries_and_offsets` and the first sensor's sampling. -/
def Record.ofArray (a : Arr) : Except PyErr Record := do
  let (tm, offsets) ← a.flippedTseriesAndOffsets
  match a.sensors with
  | [] => .error .indexError
  | s :: _ => return ⟨tm, offsets, s.ts.nsamples, s.ts.dfInternal, s.ts.multiple⟩

/-- wavefieldtransforms.py:558-567 (and 610-618): the selected bins. -/
def Record.keepIds (r : Record) (set : FreqSettings) : Except PyErr (List ℕ) :=
  WT.keepIds (binFrequencies r.nsamples r.step) set.fmin set.fmax r.multiple

/-! ## Phase shift -/

/-- wavefieldtransforms.py:573-576: the shifted, amplitude-normalized spectrum of one trace.  In numpy a
vanishing `U` gives NaN; here `0/0` is 0, so theorems ask for non-vanishing spectra. -/
noncomputable def phaseInner (vel frq x : ℝ) (U : ℂ) : ℂ :=
  exp ((2 * Real.pi / vel * x * frq : ℝ) * I) * U / (‖U‖ : ℝ)

/-- wavefieldtransforms.py:571, 577: `np.sum(0.5*dx*(inner[:-1] + inner[1:]))`. -/
noncomputable def phaseSum : List ℝ → List ℂ → ℂ
  | x :: x' :: xs, a :: b :: rest => (1 / 2 * (x' - x) : ℝ) * (a + b) + phaseSum (x' :: xs) (b :: rest)
  | _, _ => 0

/-- wavefieldtransforms.py:569-578: power of one velocity and frequency. -/
noncomputable def phasePower (offsets : List ℝ) (spectra : List ℂ) (vel frq : ℝ) : ℝ :=
  ‖phaseSum offsets (List.zipWith (phaseInner vel frq) offsets spectra)‖

/-- wavefieldtransforms.py:530-580 `PhaseShift.transform`: frequencies and `power[velocity][frequency]`. -/
noncomputable def phaseShift (r : Record) (velocities : List ℝ) (set : FreqSettings) :
    Except PyErr (List ℚ × List (List ℝ)) :=
  match r.keepIds set with
  | .error e => .error e
  | .ok ids =>
    .ok (ids.map fun k => (binFrequencies r.nsamples r.step).getD k 0,
      velocities.map fun v => ids.map fun k =>
        phasePower (r.offsets.map fun (x : ℚ) => (x : ℝ)) (r.tm.map fun u => fftBin u k) v
          (((binFrequencies r.nsamples r.step).getD k 0 : ℚ) : ℝ))

/-! ## Frequency-domain beamforming -/

/-- wavefieldtransforms.py:687-695: `invamp` weighting divides each channel by the magnitude of its
mean over the blocks. -/
noncomputable def invamp (blocks : List (ℕ → ℂ)) (t : ℕ → ℂ) : ℕ → ℂ :=
  fun a => t a * ((1 / ‖(blocks.map fun b => b a).sum / blocks.length‖ : ℝ) : ℂ)

/-- wavefieldtransforms.py:658-712 `_spatiospectral_correlation_matrix` at one frequency.  `blocks`
holds for each block the spectrum of each channel. -/
noncomputable def sscm (weighting : Option String) (blocks : List (ℕ → ℂ)) (a b : ℕ) : ℂ :=
  let bl := if weighting = some "invamp" then blocks.map (invamp blocks) else blocks
  (bl.map fun t => t a * (starRingEnd ℂ) (t b)).sum / bl.length

/-- wavefieldtransforms.py:627-633: the spatial weights. -/
noncomputable def spatialWeight (weighting : Option String) (x : ℕ → ℝ) (a b : ℕ) : ℝ :=
  if weighting = some "sqrt" then x a * x b else 1

/-- wavefieldtransforms.py:635-642: the steering of one channel.  `hankel` stands for
`J0 + 1j*Y0` (scipy.special, not modelled further). -/
noncomputable def steer (hankel : ℝ → ℂ) (steering : Option String) (kx : ℝ) : ℂ :=
  if steering = some "cylindrical" then exp (-(arg (hankel kx) : ℝ) * I) else exp (-(kx : ℝ) * I)

/-- wavefieldtransforms.py:648-654: `steer^H (sscm*w) steer` with `n` channels. -/
noncomputable def beamPower (n : ℕ) (R : ℕ → ℕ → ℂ) (w : ℕ → ℕ → ℝ) (s : ℕ → ℂ) : ℂ :=
  ∑ b ∈ Finset.range n,
    (∑ a ∈ Finset.range n, (starRingEnd ℂ) (s a) * (R a b * (w a b : ℂ))) * s b

/-- wavefieldtransforms.py:645-654: power of one velocity and frequency. -/
noncomputable def fdbfPower (hankel : ℝ → ℂ) (weighting steering : Option String) (n : ℕ)
    (x : ℕ → ℝ) (blocks : List (ℕ → ℂ)) (vel frq : ℝ) : ℂ :=
  beamPower n (sscm weighting blocks) (spatialWeight weighting x)
    (fun a => steer hankel steering (2 * Real.pi * frq / vel * x a))

/-- The optional `settings["fdbf-specific"]` dictionary. -/
abbrev FdbfSpecific := Option (List (String × String))

/-- wavefieldtransforms.py:621-622, 636: `settings.get("fdbf-specific", {}).get(key)`. -/
def FdbfSpecific.get (d : FdbfSpecific) (key : String) : Option String :=
  match d with
  | none => none
  | some l => l.lookup key

/-- wavefieldtransforms.py:583-656 `FDBF.transform`: frequencies and `power[velocity][frequency]`. -/
noncomputable def fdbf (hankel : ℝ → ℂ) (r : Record) (velocities : List ℝ) (set : FreqSettings)
    (specific : FdbfSpecific) : Except PyErr (List ℚ × List (List ℂ)) :=
  match r.keepIds set with
  | .error e => .error e
  | .ok ids =>
    .ok (ids.map fun k => (binFrequencies r.nsamples r.step).getD k 0,
      velocities.map fun v => ids.map fun k =>
        fdbfPower hankel (specific.get "weighting") (specific.get "steering") r.tm.length
          (fun a => ((r.offsets.getD a 0 : ℚ) : ℝ)) [fun a => fftBin (r.tm.getD a []) k] v
          (((binFrequencies r.nsamples r.step).getD k 0 : ℚ) : ℝ))

/-- `d[key] = value` on a dictionary. -/
def dictSet (d : List (String × String)) (key value : String) : List (String × String) :=
  if (d.lookup key).isSome then d.map fun p => if p.1 = key then (key, value) else p
  else d ++ [(key, value)]

/-- wavefieldtransforms.py:715-723 `FK.from_array` followed by `FDBF.transform`: the caller's settings
dictionary is changed first.  Returns the settings as the caller sees them afterwards. -/
noncomputable def fk (hankel : ℝ → ℂ) (r : Record) (velocities : List ℝ) (set : FreqSettings)
    (specific : FdbfSpecific) : FdbfSpecific × Except PyErr (List ℚ × List (List ℂ)) :=
  match specific with
  | none => (none, .error .keyError)
  | some d =>
    let d' := dictSet (dictSet d "weighting" "none") "steering" "plane"
    (some d', fdbf hankel r velocities set (some d'))

/-! ## Signal-to-noise ratio -/

/-- snr.py:50-54: `np.mean(np.abs(np.fft.fft(tseries)[:, k]), axis=0)`. -/
noncomputable def meanMagnitude (tm : List (List ℚ)) (k : ℕ) : ℝ :=
  (tm.map fun u => ‖fftBin u k‖).sum / tm.length

/-- snr.py:33-36: padding, if asked for. -/
def padIf (pad : Bool) (a : Arr) (df : ℚ) : Outcome Arr := if pad then a.zeroPad df else (a, .ok ())

/-- snr.py:38-56: frequencies and ratios of the (padded) windows.  A vanishing noise spectrum (numpy:
`inf` or NaN) gives 0 here; theorems exclude it. -/
noncomputable def snrCore (signal noise : Arr) (fmin fmax : ℚ) : Except PyErr (List ℚ × List ℝ) :=
  match noise.sensors, signal.sensors with
  | ns :: _, ss :: _ =>
    if ns.ts.nsamples ≠ ss.ts.nsamples then .error .indexError
    else
      match WT.keepIds (binFrequencies ns.ts.nsamples ns.ts.df) fmin fmax ns.ts.multiple with
      | .error e => .error e
      | .ok ids =>
        .ok (ids.map fun k => (binFrequencies ns.ts.nsamples ns.ts.df).getD k 0,
          ids.map fun k =>
            meanMagnitude signal.timeseriesmatrix k / meanMagnitude noise.timeseriesmatrix k)
  | _, _ => .error .indexError

/-- snr.py:30-56 `from_array1ds`: the arrays (signal, noise) as left by the call, and frequencies with
ratios.  The noise is padded first. -/
noncomputable def snr (signal noise : Arr) (fmin fmax : ℚ) (padSnr : Bool) (dfSnr : ℚ) :
    (Arr × Arr) × Except PyErr (List ℚ × List ℝ) :=
  match padIf padSnr noise dfSnr with
  | (noise', .error e) => ((signal, noise'), .error e)
  | (noise', .ok ()) =>
    match padIf padSnr signal dfSnr with
    | (signal', .error e) => ((signal', noise'), .error e)
    | (signal', .ok ()) => ((signal', noise'), snrCore signal' noise' fmin fmax)

end WT
end Verif
