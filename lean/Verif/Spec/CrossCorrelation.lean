import Verif.Spec.Workflow
import Verif.Spec.PlaneWave
import Verif.Spec.Arrays
import Verif.Spec.Records
import Verif.Spec.Number
import Mathlib.Order.Bounds.Basic

/-!
# What the cross-correlation workflow does, in terms of the operations of the package
-/

namespace Verif.Spec
open Verif Workflow

/-- The record with the source signal: `raw` are the receivers from time zero to their last sample, `sig` has the position
of the shot and the mean of channel `ch` of the source files. -/
def RecordWithSignal (env : Env) (f : Fnames) (src : List String) (ch : ℤ) (raw : Arr) (sig : SourceSig) : Prop :=
  ∃ read sorted signals s t, Workflow.fromFiles env f = .ok read ∧ Arr.init read.sensors read.source = .ok sorted ∧
    readSignals env.fs ch src = .ok signals ∧ ArrSrc.meanSignal (signals.map fun p => p.1) = .ok sig.amp ∧
    signals.head?.map (fun p => p.2) = some sig.dt ∧ sig.src = sorted.source ∧ sig.amp ≠ [] ∧
    sorted.sensors.head? = some s ∧ Arr.maxList s.ts.time = some t ∧ sorted.trim 0 t = (raw, .ok ())

/-- `result` are the receivers of `a` correlated with the source signal and padded (if asked). -/
def Correlated (set : Settings) (sig : SourceSig) (a result : Arr) : Prop :=
  ∃ x, ArrSrc.xcorrelate ⟨a.sensors, sig⟩ set.vmin set.vmax = (x, .ok ()) ∧
    if set.padApply then (⟨x.sensors, a.source⟩ : Arr).zeroPad set.padDf = (result, .ok ()) else result = ⟨x.sensors, a.source⟩

/-- What a pulse becomes when the record is correlated with the source signal: its correlation at all lags at which the two
overlap. -/
def wavelet (pulse sig : List ℚ) : List ℚ :=
  (List.range (pulse.length + sig.length - 1)).map fun (k : ℕ) => correlation pulse sig ((k : ℤ) - ((sig.length : ℤ) - 1))

/-- The entries of the correlation which are kept, from `first` to the one before `last`: half a second before the arrival
at the nearest receiver at the largest velocity until the arrival at the farthest receiver at the smallest velocity,
counted from entry number `sig.amp.length`. -/
def KeptLags (a : Arr) (sig : SourceSig) (vmin vmax : ℚ) (first last : ℤ) : Prop :=
  ∃ near far, IsLeast {o | ∃ s ∈ a.sensors, o = offset a.source s} near ∧
    IsGreatest {o | ∃ s ∈ a.sensors, o = offset a.source s} far ∧
    first = sig.amp.length + cut ((near / vmax - 1 / 2) / sig.dt) ∧ last = sig.amp.length + cut (far / vmin / sig.dt)

/-- The kept entries, of `total`, hold for every receiver the `length` entries which begin `skip` entries after the
pulse.  (A number `first` which reaches back beyond all entries stands for the beginning; other negative numbers count from
the end and are excluded here.) -/
def LagsHold (a : Arr) (sig : SourceSig) (vmin vmax v dt : ℚ) (lead : ℤ) (total skip length : ℕ) : Prop :=
  ∃ first last, KeptLags a sig vmin vmax first last ∧ (0 ≤ first ∨ first + total ≤ 0) ∧ ∀ s ∈ a.sensors,
    (first : ℚ) ≤ lead + offset a.source s / (v * dt) + skip ∧
    lead + offset a.source s / (v * dt) + skip + length ≤ (last : ℚ)

end Verif.Spec
