import Verif.Model.Workflow

/-!
# The registered wavefield transforms, from an array to a `WavefieldTransform`

Models `from_array` of the five classes registered in `swprocess/wavefieldtransforms.py` with the settings the
workflows hand over.
-/

namespace Verif
namespace Builtin
open Workflow

/-- wavefieldtransforms.py:62-63: the trial velocities. -/
noncomputable def velocities (set : Settings) : Except PyErr (List ℝ) :=
  WT.createVector set.vmin set.vmax set.nvel set.vspace

/-- `settings.get("fdbf-specific")` as the transforms compare it: only strings can be equal to the names looked
for (wavefieldtransforms.py:621-622, 635-636). -/
def specific (d : Option Kwargs) : WT.FdbfSpecific :=
  d.map fun l => l.filterMap fun p =>
    match p.2 with
    | .str s => some (p.1, s)
    | _ => none

/-- wavefieldtransforms.py:59-70 `from_array` of `PhaseShift` (530-574).  The real power is embedded in the complex
numbers. -/
noncomputable def phaseShift (a : Arr) (set : Settings) : Except PyErr Transform := do
  let vels ← velocities set
  let r ← WT.Record.ofArray a
  let (frqs, powr) ← WT.phaseShift r vels ⟨set.fmin, set.fmax⟩
  return ⟨1, frqs, vels, powr.map fun row => row.map fun (x : ℝ) => (x : ℂ)⟩

/-- wavefieldtransforms.py:59-70 `from_array` of `FDBF` (583-655). -/
noncomputable def fdbf (hankel : ℝ → ℂ) (a : Arr) (set : Settings) : Except PyErr Transform := do
  let vels ← velocities set
  let r ← WT.Record.ofArray a
  let (frqs, powr) ← WT.fdbf hankel r vels ⟨set.fmin, set.fmax⟩ (specific set.fdbf)
  return ⟨1, frqs, vels, powr⟩

/-- wavefieldtransforms.py:715-723 `FK.from_array`.  The change of the settings dictionary is in `WT.fk`; a second
file meets the values written for the first, which are the values written again. -/
noncomputable def fk (hankel : ℝ → ℂ) (a : Arr) (set : Settings) : Except PyErr Transform :=
  match specific set.fdbf with
  | none => .error .keyError
  | some d => do
    let vels ← velocities set
    let r ← WT.Record.ofArray a
    let (frqs, powr) ← (WT.fk hankel r vels ⟨set.fmin, set.fmax⟩ (some d)).2
    return ⟨1, frqs, vels, powr⟩

/-- wavefieldtransforms.py:51-57 `_create_vector` in floating point numbers, which are rational: `np.linspace`, and
`np.geomspace` as an unspecified function. -/
def velocitiesQ (geom : ℚ → ℚ → ℕ → List ℚ) (set : Settings) : Except PyErr (List ℚ) :=
  if set.vspace = "linear" ∨ set.vspace = "lin" then
    if set.nvel < 0 then .error .valueError
    else .ok ((List.range set.nvel.toNat).map fun (k : ℕ) =>
      set.vmin + k * ((set.vmax - set.vmin) / (set.nvel - 1)))
  else if set.vspace = "log" ∨ set.vspace = "logarithmic" then
    if set.nvel < 0 ∨ set.vmin = 0 ∨ set.vmax = 0 then .error .valueError
    else .ok (geom set.vmin set.vmax set.nvel.toNat)
  else .error .keyError

/-- `np.fft.fft(u, n=n)[k]`: `u` is cut or filled with zeros to `n` samples. -/
noncomputable def fftPadded (u : List ℚ) (n k : ℕ) : ℂ :=
  WT.fftBin ((u ++ List.replicate (n - u.length) 0).take n) k

/-- wavefieldtransforms.py:59-70 `from_array` of `SlantStack` with `transform` (438-527). -/
noncomputable def slantStack (geom : ℚ → ℚ → ℕ → List ℚ) (a : Arr) (set : Settings) : Except PyErr Transform := do
  let vels ← velocitiesQ geom set
  let stack ← WT.slantStackOfArray a vels
  match a.sensors with
  | [] => .error .indexError
  | s :: _ => do
    let ids ← WT.keepIds (WT.binFrequencies s.ts.nsamples s.ts.dfInternal) set.fmin set.fmax s.ts.multiple
    return ⟨1, ids.map fun k => (WT.binFrequencies s.ts.nsamples s.ts.dfInternal).getD k 0,
      vels.map fun (v : ℚ) => (v : ℝ), stack.map fun row => ids.map fun k => fftPadded row s.ts.nsamples k⟩

open Classical in
/-- numpy's order on complex numbers: lexicographic, real part first. -/
noncomputable def complexLt (a b : ℂ) : Bool := decide (a.re < b.re) || (decide (a.re = b.re) && decide (a.im < b.im))

/-- wavefieldtransforms.py:113-138 `find_peak_power` of a transform. -/
noncomputable def findPeakPower (t : Transform) (how : String) : Except PyErr (List ℝ) :=
  WT.findPeakBy complexLt 0 t.velocities t.power how

/-- wavefieldtransforms.py:333, 438, 530, 583, 715: the registrations, in the order of the file. -/
noncomputable def transforms (hankel : ℝ → ℂ) (geom : ℚ → ℚ → ℕ → List ℚ) :
    Registry (Arr → Settings → Except PyErr Transform) :=
  [("empty", Workflow.empty), ("slantstack", slantStack geom), ("phaseshift", phaseShift),
   ("fdbf", fdbf hankel), ("fk", fk hankel)]

end Builtin
end Verif
