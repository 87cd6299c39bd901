import Verif.Spec.CrossCorrelation
import Verif.Model.Describe

/-!
# How a reader understands the description of a workflow
-/

namespace Verif.Spec
open Verif Workflow

/-- The steps a workflow can be described to have. -/
inductive Step
  | read
  | readFirst
  | readNext
  | check
  | near
  | level
  | correlate
  | cut
  | mute
  | pad
  | transform
  | again
  deriving DecidableEq, Repr

/-- A line of the description. -/
def stepOfLine (line : String) : Option Step :=
  if line = "  - Create Array1D from files." then some .read
  else if line = "  - Create Array1D from file (ignore if multiple)." then some .readFirst
  else if line = "  - Create Array1D from file." then some .readNext
  else if line = "  - Check array is acceptable." then some .check
  else if line = "  - Perform trim in space (if desired)." then some .near
  else if line = "  - Perform linear detrend on each trace." then some .level
  else if line = "  - Cross-correlate traces with source." then some .correlate
  else if line = "  - Perform trim in time (if desired)." then some .cut
  else if line = "  - Perform mute (if desired)." then some .mute
  else if line = "  - Perform pad  (if desired)." then some .pad
  else if line = "  - Perform transform." then some .transform
  else if line = "  - Repeat steps for remaining files, stacking in frequency-domain." then some .again
  else none

/-- All lines, each a step. -/
def stepsOfLines : List String → Option (List Step)
  | [] => some []
  | line :: rest =>
    match stepOfLine line, stepsOfLines rest with
    | some s, some ss => some (s :: ss)
    | _, _ => none

/-- What a workflow is given: the files, and for cross-correlation the source files and their channel.  `next` is the file
whose turn it is, in workflows which repeat their steps for every file. -/
structure Input where
  files : Fnames
  source : Option (List String × ℤ)
  next : Option String := none

/-- Only the first of several files. -/
def firstOnly : Fnames → Fnames
  | .many (n :: _) => .one n
  | f => f

/-- The record `a`, with the source signal `sig` if there is one, is that of the files. -/
def IsRecordOf (env : Env) (f : Fnames) (source : Option (List String × ℤ)) (a : Arr) (sig : Option SourceSig) : Prop :=
  match source with
  | none => Workflow.fromFiles env f = .ok a ∧ sig = none
  | some (src, ch) => ∃ s, RecordWithSignal env f src ch a s ∧ sig = some s

/-- The state of the work: the array, the source signal, the transform. -/
structure Work where
  array : Arr
  signal : Option SourceSig
  transform : Option Transform

/-- One step, with the mute lines `lines` and the window `kw`, done on `w`. -/
def Performs (env : Env) (set : Settings) (kw : Option Kwargs) (lines : Option Arr.Line × Option Arr.Line)
    (input : Input) (w w' : Work) : Step → Prop
  | .read => IsRecordOf env input.files input.source w'.array w'.signal ∧ w'.transform = none
  | .readFirst => IsRecordOf env (firstOnly input.files) input.source w'.array w'.signal ∧ w'.transform = none
  | .readNext => ∃ name, input.next = some name ∧
      IsRecordOf env (.one name) input.source w'.array w'.signal ∧ w'.transform = none
  | .check => ¬ SourceBetween w.array ∧ w' = w
  | .near => ∃ a, trimOffsetsFl w.array set.minOffset set.maxOffset = (a, .ok ()) ∧ w' = { w with array := a }
  | .level => w' = ⟨⟨w.array.sensors.map fun s => { s with ts := { s.ts with amp := env.detrend s.ts.amp } }, w.array.source⟩,
      w.signal, w.transform⟩
  | .correlate => ∃ sig x, w.signal = some sig ∧
      ArrSrc.xcorrelate ⟨w.array.sensors, sig⟩ set.vmin set.vmax = (x, .ok ()) ∧
      w' = { w with array := ⟨x.sensors, w.array.source⟩ }
  | .cut => if set.trimApply then
      ∃ a, w.array.trim set.trimBegin set.trimEnd = (a, .ok ()) ∧ w' = { w with array := a } else w' = w
  | .mute => if set.muteApply then
      ∃ a, w.array.mute (env.tukey kw) lines.1 lines.2 = (a, .ok ()) ∧ w' = { w with array := a } else w' = w
  | .pad => if set.padApply then
      ∃ a, w.array.zeroPad set.padDf = (a, .ok ()) ∧ w' = { w with array := a } else w' = w
  | .transform => ∃ t, IsTransformOf env set w.array t ∧ w' = { w with transform := some t }
  | .again => False

/-- The steps, one after the other. -/
def Follows (env : Env) (set : Settings) (kw : Option Kwargs) (lines : Option Arr.Line × Option Arr.Line)
    (input : Input) : Work → List Step → Work → Prop
  | w, [], w' => w' = w
  | w, s :: ss, w' => ∃ m, Performs env set kw lines input w m s ∧ Follows env set kw lines input m ss w'

/-- Before the first step. -/
def nothingYet : Work := ⟨⟨[], ⟨0, 0, 0⟩⟩, none, none⟩

/-- The steps of the description of the workflow registered under `name`: the lines below the title. -/
def DescribedSteps (name : String) (steps : List Step) : Prop :=
  ∃ title rest, describe name = some (title :: rest) ∧ stepsOfLines rest = some steps

end Verif.Spec
