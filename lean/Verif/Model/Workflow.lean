import Verif.Model.Files
import Verif.Model.Interact
import Verif.Model.Spectral
import Verif.Model.Register
import Verif.Model.Settings

/-!
# Model of `swprocess/maswworkflows.py` and of `run` in `swprocess/masw.py`

Log messages, warnings and plots are not modelled.  A run which needs an answer of the user that is not
there is `waiting`.  The workflow object is not visible after an exception, so an exception carries no
state.
-/

namespace Verif
namespace Workflow

/-- Why a run has no result. -/
inductive Stop
  | waiting
  | raised (e : PyErr)
  deriving DecidableEq, Repr

/-- An exception ends the run. -/
def lift {α : Type} : Except PyErr α → Except Stop α
  | .error e => .error (.raised e)
  | .ok a => .ok a

/-- A mutating call: the new state, or the exception. -/
def call {σ : Type} : Outcome σ → Except Stop σ
  | (s, .ok ()) => .ok s
  | (_, .error e) => .error (.raised e)

/-- The `fnames` argument: one file name, or a list of them. -/
inductive Fnames
  | one (name : String)
  | many (names : List String)
  deriving DecidableEq, Repr

/-- A transform (wavefieldtransforms.py:36-49): weight, axes and `power[velocity][frequency]`. -/
structure Transform where
  n : ℕ
  frequencies : List ℚ
  velocities : List ℝ
  power : List (List ℂ)

/-- Everything outside the package which a run depends on: the files, the coordinate mappings,
`scipy.signal.detrend`, `scipy.signal.windows.tukey` (by its keyword arguments; `none`: those of
`Array1D.mute`'s default, array1d.py:588-589), the user, and the registered transforms. -/
structure Env where
  fs : Fs
  mapX : ℚ → ℚ
  mapY : ℚ → ℚ
  detrend : List ℚ → List ℚ
  tukey : Option Kwargs → ℕ → List ℚ
  user : Interact.User
  transforms : Registry (Arr → Settings → Except PyErr Transform)

/-- maswworkflows.py:38-52: the attributes of a workflow.  The array is not `None` once read. -/
structure State where
  array : Arr
  signalStart : Option Arr.Line
  signalEnd : Option Arr.Line
  noise : Option Arr
  signal : Option Arr
  deriving DecidableEq

/-- maswworkflows.py:44-52: attributes after reading the first array. -/
def State.new (a : Arr) : State := ⟨a, none, none, none, none⟩

/-- What a run returns: the transform with its attributes `array`, `snr` and `snr_frequencies`.  The
final attributes of the workflow are kept for reference. -/
structure Result where
  transform : Transform
  array : Arr
  snr : Option (List ℚ × List ℝ)
  final : State

/-- array1d.py:611-662 `Array1D.from_files`: a string is a list of one name. -/
def fromFiles (env : Env) (f : Fnames) : Except Stop Arr :=
  lift (Arr.fromFiles env.fs (match f with | .one n => [n] | .many ns => ns) env.mapX env.mapY)

/-- maswworkflows.py:54-57 `check`. -/
def check (a : Arr) : Except Stop Unit :=
  match a.sourceInside with
  | .error e => .error (.raised e)
  | .ok true => .error (.raised .valueError)
  | .ok false => .ok ()

/-- array1d.py:192-219 `trim_offsets` with a maximum which may be infinite: without an upper bound the loop
is not left early.  No comparison with NaN holds. -/
def trimOffsetsFl (a : Arr) (mn : ℚ) : Fl → Outcome Arr
  | .fin mx => a.trimOffsets mn mx
  | .pinf =>
    match (a.offsets.zip a.sensors).filterMap fun p => if p.1 > mn then some p.2 else none with
    | [] => (a, .error .valueError)
    | kept => ({ a with sensors := kept }, .ok ())
  | _ => (a, .error .valueError)

/-- maswworkflows.py:64-67 `detrend`. -/
def detrend (env : Env) (a : Arr) : Arr :=
  { a with sensors := a.sensors.map fun s => { s with ts := { s.ts with amp := env.detrend s.ts.amp } } }

/-- maswworkflows.py:59-62 `trim_offsets`. -/
def trimOffsets (set : Settings) (s : State) : Except Stop State := do
  let a ← call (trimOffsetsFl s.array set.minOffset set.maxOffset)
  return { s with array := a }

/-- maswworkflows.py:74-75 and 105-106: a copy, trimmed. -/
def copyWindow (a : Arr) (start stop : ℚ) : Except Stop Arr := do
  let c ← lift a.fromArray
  call (c.trim start stop)

/-- maswworkflows.py:69-75 `select_noise`. -/
def selectNoise (set : Settings) (s : State) : Except Stop State :=
  if set.snrPerform && s.noise.isNone then do
    let w ← copyWindow s.array set.noiseBegin set.noiseEnd
    return { s with noise := some w }
  else return s

/-- maswworkflows.py:77-81 `trim_time`. -/
def trimTime (set : Settings) (s : State) : Except Stop State :=
  if set.trimApply then do
    let a ← call (s.array.trim set.trimBegin set.trimEnd)
    return { s with array := a }
  else return s

/-- maswworkflows.py:88-89: interactive muting (without window settings) of the first array. -/
def interactive (env : Env) (s : State) : Except Stop State :=
  match Interact.interactiveMute (env.tukey none) s.array "both" true env.user with
  | none => .error .waiting
  | some (_, .error e) => .error (.raised e)
  | some (a, .ok lines) => .ok { s with array := a, signalStart := lines.1, signalEnd := lines.2 }

/-- maswworkflows.py:83-98 `mute`. -/
def mute (env : Env) (set : Settings) (s : State) : Except Stop State :=
  if set.muteApply then
    if s.signalStart.isNone && s.signalEnd.isNone then
      if set.muteMethod = "interactive" then interactive env s
      else .error (.raised .keyError)
    else do
      let a ← call (s.array.mute (env.tukey set.windowKwargs) s.signalStart s.signalEnd)
      return { s with array := a }
  else return s

/-- maswworkflows.py:100-106 `select_signal`. -/
def selectSignal (set : Settings) (s : State) : Except Stop State :=
  if set.snrPerform && s.signal.isNone then do
    let w ← copyWindow s.array set.signalBegin set.signalEnd
    return { s with signal := some w }
  else return s

/-- maswworkflows.py:108-115 `calculate_snr`; it pads the windows.  A missing window (`None`) has no
attribute to read. -/
noncomputable def calculateSnr (set : Settings) (s : State) :
    Except Stop (State × Option (List ℚ × List ℝ)) :=
  if set.snrPerform then
    match s.signal, s.noise with
    | some signal, some noise =>
      match WT.snr signal noise set.fmin set.fmax set.snrPad set.snrDf with
      | (_, .error e) => .error (.raised e)
      | ((signal', noise'), .ok r) =>
        .ok ({ s with signal := some signal', noise := some noise' }, some r)
    | _, _ => .error (.raised .attributeError)
  else return (s, none)

/-- maswworkflows.py:117-121 `pad`. -/
def pad (set : Settings) (s : State) : Except Stop State :=
  if set.padApply then do
    let a ← call (s.array.zeroPad set.padDf)
    return { s with array := a }
  else return s

/-- maswworkflows.py:148-149 (and 234-235, 278, 297-298): look up and perform the transform. -/
def transform (env : Env) (set : Settings) (a : Arr) : Except Stop Transform := do
  let t ← lift (env.transforms.createClass set.transform)
  lift (t a set)

/-- maswworkflows.py:135-154 `TimeDomainWorkflow.run`. -/
noncomputable def timeDomain (env : Env) (set : Settings) (f : Fnames) : Except Stop Result := do
  let raw ← fromFiles env f
  check raw
  let s ← trimOffsets set (State.new raw)
  let s := { s with array := detrend env s.array }
  let s ← selectNoise set s
  let s ← trimTime set s
  let s ← mute env set s
  let s ← selectSignal set s
  let (s, snr) ← calculateSnr set s
  let s ← pad set s
  let t ← transform env set s.array
  return ⟨t, s.array, snr, s⟩

/-- maswworkflows.py:135-154 `TimeDomainWorkflow.run` on an object which has run before: mute lines and windows in the
attributes are those of the earlier run, the array is read again. -/
noncomputable def timeDomainAgain (env : Env) (set : Settings) (s : State) (f : Fnames) : Except Stop Result := do
  let raw ← fromFiles env f
  check raw
  let s ← trimOffsets set { s with array := raw }
  let s := { s with array := detrend env s.array }
  let s ← selectNoise set s
  let s ← trimTime set s
  let s ← mute env set s
  let s ← selectSignal set s
  let (s, snr) ← calculateSnr set s
  let s ← pad set s
  let t ← transform env set s.array
  return ⟨t, s.array, snr, s⟩

/-- maswworkflows.py:161-166 `SingleMaswWorkflow.run`. -/
noncomputable def single (env : Env) (set : Settings) (f : Fnames) : Except Stop Result :=
  match f with
  | .one n => timeDomain env set (.one n)
  | .many [n] => timeDomain env set (.many [n])
  | .many [] => .error (.raised .indexError)
  | .many (n :: _ :: _) => timeDomain env set (.one n)

/-! ## Frequency domain -/

/-- numpy broadcasting of two rows. -/
def broadcast (f : ℂ → ℂ → ℂ) (r r' : List ℂ) : Except PyErr (List ℂ) :=
  if r.length = r'.length then .ok (List.zipWith f r r')
  else if r'.length = 1 then .ok (r.map fun x => f x (r'.getD 0 0))
  else if r.length = 1 then .ok (r'.map fun y => f (r.getD 0 0) y)
  else .error .valueError

/-- wavefieldtransforms.py:359-366 `stack`, rows of any length.  Simplification: the numbers of velocities
are equal (they come from one settings dictionary). -/
noncomputable def stackRows (n m : ℕ) : List (List ℂ) → List (List ℂ) → Except PyErr (List (List ℂ))
  | r :: p, r' :: p' => do
    let row ← broadcast (fun x y => (x * (n : ℂ) + y * (m : ℂ)) / ((n : ℂ) + (m : ℂ))) r r'
    let rest ← stackRows n m p p'
    return row :: rest
  | _, _ => .ok []

/-- wavefieldtransforms.py:359-366 `stack`: the axes stay those of the running stack. -/
noncomputable def stack (t o : Transform) : Except PyErr Transform := do
  let p ← stackRows t.n o.n t.power o.power
  return { t with n := t.n + o.n, power := p }

/-- wavefieldtransforms.py:336-357 `EmptyWavefieldTransform.from_array`; a negative number of
velocities raises `ValueError` (already in `_create_vector`). -/
noncomputable def empty (a : Arr) (set : Settings) : Except PyErr Transform :=
  match a.sensors with
  | [] => .error .indexError
  | s :: _ => do
    let ids ← WT.keepIds (WT.binFrequencies s.ts.nsamples s.ts.dfInternal) set.fmin set.fmax s.ts.multiple
    let vels ← WT.createVector set.vmin set.vmax set.nvel set.vspace
    return ⟨0, ids.map fun k => (WT.binFrequencies s.ts.nsamples s.ts.dfInternal).getD k 0, vels,
      List.replicate set.nvel.toNat (List.replicate ids.length 0)⟩

/-- maswworkflows.py:262-272: the example array. -/
def exampleArray (env : Env) (set : Settings) (fname : String) : Except Stop Arr := do
  let raw ← fromFiles env (.one fname)
  let a := detrend env raw
  let a ← if set.trimApply then call (a.trim set.trimBegin set.trimEnd) else pure a
  if set.padApply then call (a.zeroPad set.padDf) else pure a

/-- maswworkflows.py:280-298: one file of the loop; `st` is `none` before the first. -/
def freqFile (env : Env) (set : Settings) (example_ : Arr) (st : Option State) (fname : String) :
    Except Stop (State × Transform) := do
  let raw ← fromFiles env (.one fname)
  let s : State := match st with
    | none => State.new raw
    | some s => { s with array := raw }
  if !raw.isSimilar example_ then throw (.raised .valueError)
  check raw
  let s ← trimOffsets set s
  let s := { s with array := detrend env s.array }
  let s ← selectNoise set s
  let s ← trimTime set s
  let s ← mute env set s
  let s ← selectSignal set s
  let s ← pad set s
  let t ← transform env set s.array
  return (s, t)

/-- maswworkflows.py:279-299: the loop over the files. -/
noncomputable def freqLoop (env : Env) (set : Settings) (example_ : Arr) :
    Option State → Transform → List String → Except Stop (Option State × Transform)
  | st, running, [] => .ok (st, running)
  | st, running, f :: rest => do
    let (s, t) ← freqFile env set example_ st f
    let running ← lift (stack running t)
    freqLoop env set example_ (some s) running rest

/-- maswworkflows.py:261-305 for a list of names. -/
noncomputable def freqFiles (env : Env) (set : Settings) (names : List String) : Except Stop Result :=
  match names with
  | [] => .error (.raised .indexError)
  | f0 :: rest => do
    let ex ← exampleArray env set f0
    let running ← lift (empty ex set)
    let _ ← lift (env.transforms.createClass set.transform)
    match ← freqLoop env set ex none running (f0 :: rest) with
    | (none, _) => .error (.raised .attributeError)
    | (some s, running) =>
      let (s', snr) ← calculateSnr set s
      return ⟨running, s'.array, snr, s'⟩

/-- maswworkflows.py:261-305 `FrequencyDomainMaswWorkflow.run`.  A string is indexed and iterated like a
list: by its characters. -/
noncomputable def frequencyDomain (env : Env) (set : Settings) (f : Fnames) : Except Stop Result :=
  match f with
  | .one n => freqFiles env set (n.toList.map fun c => String.singleton c)
  | .many ns => freqFiles env set ns

/-- maswworkflows.py:261-305 on an object which has run before: the loop begins with the mute lines and windows of the
earlier run. -/
noncomputable def freqFilesAgain (env : Env) (set : Settings) (s : State) (names : List String) : Except Stop Result :=
  match names with
  | [] => .error (.raised .indexError)
  | f0 :: rest => do
    let ex ← exampleArray env set f0
    let running ← lift (empty ex set)
    let _ ← lift (env.transforms.createClass set.transform)
    match ← freqLoop env set ex (some s) running (f0 :: rest) with
    | (none, _) => .error (.raised .attributeError)
    | (some s, running) =>
      let (s', snr) ← calculateSnr set s
      return ⟨running, s'.array, snr, s'⟩

/-- maswworkflows.py:261-305 `FrequencyDomainMaswWorkflow.run`, again. -/
noncomputable def frequencyDomainAgain (env : Env) (set : Settings) (s : State) (f : Fnames) : Except Stop Result :=
  match f with
  | .one n => freqFilesAgain env set s (n.toList.map fun c => String.singleton c)
  | .many ns => freqFilesAgain env set s ns

/-! ## Cross-correlation with the source signal -/

/-- `l[i]` with Python's negative indices. -/
def pyIndex {α : Type} (l : List α) (i : ℤ) : Option α :=
  if 0 ≤ i then l[i.toNat]?
  else if 0 ≤ (l.length : ℤ) + i then l[((l.length : ℤ) + i).toNat]? else none

/-- array1d.py:829-834: the source channel of every file. -/
def readSignals (fs : Fs) (ch : ℤ) : List String → Except PyErr (List (List ℚ × ℚ))
  | [] => .ok []
  | f :: rest => do
    let ts ← Arr.readFile fs f
    match pyIndex ts ch with
    | none => .error .indexError
    | some t => do
      let more ← readSignals fs ch rest
      return (t.data, t.delta) :: more

/-- array1d.py:823-843 `Array1DwSource.from_files`.  Simplification: all source files are read before the
first addition. -/
def fromFilesWithSource (env : Env) (f : Fnames) (src : List String) (ch : ℤ) :
    Except Stop (Arr × SourceSig) := do
  let a ← fromFiles env f
  match ← lift (readSignals env.fs ch src) with
  | [] => .error (.raised .indexError)
  | (s0, dt) :: rest => do
    let amp ← lift (ArrSrc.meanSignal (s0 :: rest.map fun p => p.1))
    let a ← lift (Arr.init a.sensors a.source)
    return (a, ⟨a.source, amp, dt⟩)

/-- `max(self.array.sensors[0].time)` (maswworkflows.py:220). -/
def lastTime (a : Arr) : Except Stop ℚ :=
  match a.sensors with
  | [] => .error (.raised .indexError)
  | s :: _ =>
    match Arr.maxList s.ts.time with
    | none => .error (.raised .valueError)
    | some t => .ok t

/-- maswworkflows.py:214-240 `TimeDomainXcorrMaswWorkflow.run`.  `source.trim(0, max(time))` keeps all
samples of the source signal. -/
noncomputable def xcorr (env : Env) (set : Settings) (f : Fnames) (src : List String) (ch : ℤ) :
    Except Stop Result := do
  let (raw, sig) ← fromFilesWithSource env f src ch
  let t ← lastTime raw
  let raw ← call (raw.trim 0 t)
  if sig.amp = [] then throw (.raised .valueError)
  check raw
  let s ← trimOffsets set (State.new raw)
  let s := { s with array := detrend env s.array }
  let s ← selectNoise set s
  let s ← trimTime set s
  let s ← mute env set s
  let s ← selectSignal set s
  let (s, snr) ← calculateSnr set s
  let x ← call (ArrSrc.xcorrelate ⟨s.array.sensors, sig⟩ set.vmin set.vmax)
  let s := { s with array := { s.array with sensors := x.sensors } }
  let s ← pad set s
  let t ← transform env set s.array
  return ⟨t, s.array, snr, s⟩

/-- maswworkflows.py:214-240 `TimeDomainXcorrMaswWorkflow.run` on an object which has run before. -/
noncomputable def xcorrAgain (env : Env) (set : Settings) (s : State) (f : Fnames) (src : List String) (ch : ℤ) :
    Except Stop Result := do
  let (raw, sig) ← fromFilesWithSource env f src ch
  let t ← lastTime raw
  let raw ← call (raw.trim 0 t)
  if sig.amp = [] then throw (.raised .valueError)
  check raw
  let s ← trimOffsets set { s with array := raw }
  let s := { s with array := detrend env s.array }
  let s ← selectNoise set s
  let s ← trimTime set s
  let s ← mute env set s
  let s ← selectSignal set s
  let (s, snr) ← calculateSnr set s
  let x ← call (ArrSrc.xcorrelate ⟨s.array.sensors, sig⟩ set.vmin set.vmax)
  let s := { s with array := { s.array with sensors := x.sensors } }
  let s ← pad set s
  let t ← transform env set s.array
  return ⟨t, s.array, snr, s⟩

/-! ## Dispatch -/

/-- A registered workflow class: what happens when it is made with `fnames=` (masw.py:83-87) and run, and
when it is made with `fnames_rec=, fnames_src=, src_channel=` (masw.py:270-278) and run. -/
structure Class where
  viaFnames : Env → Settings → Fnames → Except Stop Result
  viaXcorr : Env → Settings → Fnames → List String → ℤ → Except Stop Result

/-- maswworkflows.py:34: unknown keyword arguments raise `TypeError`. -/
def noXcorr : Env → Settings → Fnames → List String → ℤ → Except Stop Result :=
  fun _ _ _ _ _ => .error (.raised .typeError)

/-- maswworkflows.py:157, 182, 200, 257: the registrations, in the order of the file.
The constructor of the cross-correlation workflow (204-205) has no parameter `fnames`. -/
noncomputable def builtin : List (String × Class) :=
  [("single", ⟨single, noXcorr⟩), ("time-domain", ⟨timeDomain, noXcorr⟩),
   ("time-domain-xcorr", ⟨fun _ _ _ => .error (.raised .typeError), xcorr⟩),
   ("frequency-domain", ⟨frequencyDomain, noXcorr⟩)]

/-- masw.py:36-87 `Masw.run`.  A settings dictionary which lacks another key the workflows read is outside
the model (`KeyError` here). -/
def maswRun (reg : Registry Class) (env : Env) (settings : Val) (f : Fnames) : Except Stop Result :=
  match settings.str? ["workflow"] with
  | none => .error (.raised .keyError)
  | some w =>
    match reg.createClass w with
    | .error e => .error (.raised e)
    | .ok c =>
      match Settings.ofDict settings with
      | none => .error (.raised .keyError)
      | some set => c.viaFnames env set f

/-- masw.py:257-278 `MaswXcorr.run`. -/
def maswXcorrRun (reg : Registry Class) (env : Env) (settings : Val) (f : Fnames) (src : List String)
    (ch : ℤ) : Except Stop Result :=
  match settings.str? ["workflow"] with
  | none => .error (.raised .keyError)
  | some w =>
    if w ≠ "time-domain-xcorr" then .error (.raised .notImplementedError)
    else
      match reg.createClass w with
      | .error e => .error (.raised e)
      | .ok c =>
        match Settings.ofDict settings with
        | none => .error (.raised .keyError)
        | some set => c.viaXcorr env set f src ch

end Workflow
end Verif
