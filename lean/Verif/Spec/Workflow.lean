import Verif.Model.Workflow

/-!
# What a workflow does to one record, in terms of the operations of the package

No state, no order of optional calls: only which record each operation is applied to.
-/

namespace Verif.Spec
open Verif Workflow

/-- The pre-processing of one record: `near` keeps the receivers in the offset range, `level` is
detrended, `cut` is trimmed in time (if asked), `muted` is muted between `lines` (if asked) with the
window `kw`, `padded` is zero-padded (if asked). -/
structure Preprocessed (env : Env) (set : Settings) (kw : Option Kwargs)
    (lines : Option Arr.Line × Option Arr.Line) (raw near level cut muted padded : Arr) : Prop where
  offsets : trimOffsetsFl raw set.minOffset set.maxOffset = (near, .ok ())
  source : level.source = near.source
  detrended : level.sensors =
    near.sensors.map fun s => { s with ts := { s.ts with amp := env.detrend s.ts.amp } }
  trimmed : if set.trimApply then level.trim set.trimBegin set.trimEnd = (cut, .ok ()) else cut = level
  windowed : if set.muteApply then cut.mute (env.tukey kw) lines.1 lines.2 = (muted, .ok ())
    else muted = cut
  zeroPadded : if set.padApply then muted.zeroPad set.padDf = (padded, .ok ()) else padded = muted

/-- `w` is a copy of `a` trimmed to a time window. -/
def IsWindow (a : Arr) (start stop : ℚ) (w : Arr) : Prop :=
  ∃ c, a.fromArray = .ok c ∧ c.trim start stop = (w, .ok ())

/-- The source lies strictly between the first and the last receiver. -/
def SourceBetween (a : Arr) : Prop :=
  ∃ p q, a.position.head? = some p ∧ a.position.getLast? = some q ∧ p < a.source.x ∧ a.source.x < q

/-- The transform chosen in the settings, applied to an array. -/
def IsTransformOf (env : Env) (set : Settings) (a : Arr) (t : Transform) : Prop :=
  ∃ tr, env.transforms.createClass set.transform = .ok tr ∧ tr a set = .ok t

end Verif.Spec

namespace Verif.Spec
open Verif Workflow

/-- `t` is the transform of the file `name` by itself: read, source not between the receivers,
pre-processed with the mute lines `lines`, transformed.  `level` and `muted` are the intermediate arrays
from which the noise and the signal window are taken. -/
def PerFile (env : Env) (set : Settings) (kw : Option Kwargs) (lines : Option Arr.Line × Option Arr.Line)
    (name : String) (level muted : Arr) (t : Transform) : Prop :=
  ∃ raw near cut padded, Workflow.fromFiles env (.one name) = .ok raw ∧ ¬ SourceBetween raw ∧
    Preprocessed env set kw lines raw near level cut muted padded ∧ IsTransformOf env set padded t

/-- The records of two files belong to one shot point with one number of channels. -/
def Compatible (a b : Arr) : Prop := a.sensors.length = b.sensors.length ∧ a.source = b.source

end Verif.Spec

namespace Verif.Spec
open Verif Workflow

/-- The record of the first file without receiver selection or muting: detrended, trimmed and padded (if asked). -/
def Reference (env : Env) (set : Settings) (raw ex : Arr) : Prop :=
  ∃ level cut : Arr, level.source = raw.source ∧
    level.sensors = raw.sensors.map (fun s => { s with ts := { s.ts with amp := env.detrend s.ts.amp } }) ∧
    (if set.trimApply then level.trim set.trimBegin set.trimEnd = (cut, .ok ()) else cut = level) ∧
    (if set.padApply then cut.zeroPad set.padDf = (ex, .ok ()) else ex = cut)

end Verif.Spec
