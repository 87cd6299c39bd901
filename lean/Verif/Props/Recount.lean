import Verif.Props.Survey
import Verif.Props.FileOrder
import Verif.Props.Recovery
import Verif.Spec.Recount

/-!
# C185: a common factor in the stack counts
-/

namespace Verif.Props

namespace Recounted
open Verif WT Spec Workflow Spec.Recount

variable {k : ℤ}

/-! ## Arrays -/

theorem array_sensors (k : ℤ) (a : Arr) : (array k a).sensors = a.sensors.map (sensor k) := rfl

theorem forSensors_array (k : ℤ) (f : ATS → Outcome ATS) (hf : ∀ r, f (series k r) = (series k (f r).1, (f r).2)) :
    ∀ ss : List Sensor,
      Arr.forSensors f (ss.map (sensor k)) = ((Arr.forSensors f ss).1.map (sensor k), (Arr.forSensors f ss).2)
  | [] => rfl
  | s :: rest => by
    have ih := forSensors_array k f hf rest
    simp only [List.map_cons, Arr.forSensors]
    rw [show (sensor k s).ts = series k s.ts from rfl, hf]
    rcases f s.ts with ⟨r, _ | ⟨⟩⟩
    · rfl
    · simp only [ih]
      rfl

theorem trim_series (k : ℤ) (start stop : ℚ) (r : ATS) :
    (series k r).trim start stop = (series k (r.trim start stop).1, (r.trim start stop).2) := by
  unfold ATS.trim ATS.trimBase
  rw [show (series k r).time = r.time from rfl, show (series k r).amp = r.amp from rfl]
  generalize argmin (r.time.map fun t => |t - start|) = o1
  generalize argmin (r.time.map fun t => |t - stop|) = o2
  generalize r.time.head? = o3
  generalize r.time.getLast? = o4
  rcases o1 with _ | i
  · rfl
  rcases o2 with _ | j
  · rfl
  rcases o3 with _ | t0
  · rfl
  rcases o4 with _ | t1
  · rfl
  simp only []
  rcases (decide (start < t0) || decide (start > stop) || decide (stop > t1)) with _ | _
  · rfl
  · rfl

theorem trim_array (k : ℤ) (a : Arr) (start stop : ℚ) :
    (array k a).trim start stop = (array k (a.trim start stop).1, (a.trim start stop).2) := by
  simp only [Arr.trim, array_sensors]
  rw [forSensors_array k _ (trim_series k start stop)]
  rfl

theorem zeroPad_series (k : ℤ) (df : ℚ) (r : ATS) :
    (series k r).zeroPad df = (series k (r.zeroPad df).1, (r.zeroPad df).2) := by
  unfold ATS.zeroPad
  rw [show (series k r).dt = r.dt from rfl, show (series k r).nsamples = r.nsamples from rfl,
    show (series k r).amp = r.amp from rfl]
  dsimp only
  split_ifs <;> rfl

theorem zeroPad_array (k : ℤ) (a : Arr) (df : ℚ) :
    (array k a).zeroPad df = (array k (a.zeroPad df).1, (a.zeroPad df).2) := by
  simp only [Arr.zeroPad, array_sensors]
  rw [forSensors_array k _ (zeroPad_series k df)]
  rfl

theorem similar_series (hk : 0 < k) (r t : ATS) (e : Excl) : (series k r).isSimilar (series k t) e = r.isSimilar t e := by
  unfold ATS.isSimilar
  have h : decide (k * r.nstacks = k * t.nstacks) = decide (r.nstacks = t.nstacks) :=
    decide_eq_decide.2 (mul_right_inj' hk.ne')
  change ((_ || _) && (_ || decide (k * r.nstacks = k * t.nstacks)) && (_ || _) && (_ || _)) = _
  rw [h]
  rfl

theorem similar_sensor (hk : 0 < k) (s t : Sensor) (e : Excl) : (sensor k s).isSimilar (sensor k t) e = s.isSimilar t e := by
  unfold Sensor.isSimilar
  rw [show (sensor k s).ts = series k s.ts from rfl, show (sensor k t).ts = series k t.ts from rfl, similar_series hk]
  rfl

theorem checkLoop_array (hk : 0 < k) (ex : Sensor) : ∀ (ss : List Sensor) (ps : List ℚ),
    Arr.checkLoop (sensor k ex) ps (ss.map (sensor k)) = Arr.checkLoop ex ps ss
  | [], _ => rfl
  | s :: rest, ps => by
    simp only [List.map_cons, Arr.checkLoop, similar_sensor hk, checkLoop_array hk ex rest]
    rfl

theorem init_array (hk : 0 < k) (ss : List Sensor) (src : Source) :
    Arr.init (ss.map (sensor k)) src = (Arr.init ss src).map (array k) := by
  rcases ss with _ | ⟨ex, rest⟩
  · rfl
  have h := checkLoop_array hk ex rest [ex.x]
  simp only [List.map_cons, Arr.init]
  rw [show (sensor k ex).x = ex.x from rfl, h]
  rcases Arr.checkLoop ex [ex.x] rest with e | ⟨⟩
  · rfl
  · simp only [Except.map, array]
    congr 2
    rw [← List.map_cons]
    refine (List.map_insertionSort (fun a b : Sensor => a.x ≤ b.x) (fun a b : Sensor => a.x ≤ b.x) (sensor k) _ ?_).symm
    exact fun a _ b _ => Iff.rfl

theorem init_series (hk : 0 < k) (amp : List ℚ) (dt : ℚ) (n : ℤ) (d : ℚ) :
    ATS.init amp dt (k * n) d = (ATS.init amp dt n d).map (series k) := by
  unfold ATS.init ATS.checkInput
  have : k * n ≤ 0 ↔ n ≤ 0 := by
    constructor
    · intro h; by_contra hn; have := mul_pos hk (not_le.1 hn); omega
    · intro h; exact mul_nonpos_of_nonneg_of_nonpos hk.le h
  simp only [this]
  split_ifs <;> rfl

theorem copySensors_array (hk : 0 < k) : ∀ ss : List Sensor,
    Arr.copySensors (ss.map (sensor k)) = (Arr.copySensors ss).map fun l => l.map (sensor k)
  | [] => rfl
  | s :: rest => by
    simp only [List.map_cons, Arr.copySensors, copySensors_array hk rest, Sensor.fromSensor, Sensor.init]
    have e : ATS.init (sensor k s).ts.amp (sensor k s).ts.dt (sensor k s).ts.nstacks (sensor k s).ts.delay =
        (ATS.init s.ts.amp s.ts.dt s.ts.nstacks s.ts.delay).map (series k) := init_series hk _ _ _ _
    rw [e]
    rcases ATS.init s.ts.amp s.ts.dt s.ts.nstacks s.ts.delay with e | t
    · rfl
    rcases Arr.copySensors rest with e | l
    · rfl
    rfl

theorem fromArray_array (hk : 0 < k) (a : Arr) : (array k a).fromArray = (a.fromArray).map (array k) := by
  unfold Arr.fromArray
  rw [array_sensors, copySensors_array hk]
  rcases Arr.copySensors a.sensors with e | ss
  · rfl
  simp only [Except.map, bind, Except.bind]
  exact init_array hk ss a.source.fromSource

theorem position_array (k : ℤ) (a : Arr) : (array k a).position = a.position := by
  simp [Arr.position, array, sensor, Function.comp_def]

theorem offsets_array (k : ℤ) (a : Arr) : (array k a).offsets = a.offsets := by
  unfold Arr.offsets
  rw [position_array]
  rfl

theorem matrix_array (k : ℤ) (a : Arr) : (array k a).timeseriesmatrix = a.timeseriesmatrix := by
  simp [Arr.timeseriesmatrix, array, sensor, series, Function.comp_def]

theorem flipped_array (k : ℤ) (a : Arr) : (array k a).flippedTseriesAndOffsets = a.flippedTseriesAndOffsets := by
  unfold Arr.flippedTseriesAndOffsets Arr.flipRequired
  rw [position_array, offsets_array, matrix_array]
  rfl

theorem check_array (k : ℤ) (a : Arr) : check (array k a) = check a := by
  unfold check Arr.sourceInside
  rw [position_array]
  rfl

theorem trimOffsetsLoop_array (k : ℤ) (mn mx : ℚ) : ∀ l : List (ℚ × Sensor),
    Arr.trimOffsetsLoop mn mx (l.map fun p => (p.1, sensor k p.2)) = (Arr.trimOffsetsLoop mn mx l).map (sensor k)
  | [] => rfl
  | (o, s) :: rest => by
    have ih := trimOffsetsLoop_array k mn mx rest
    simp only [List.map_cons, Arr.trimOffsetsLoop, ih]
    split_ifs <;> rfl

theorem zip_array (k : ℤ) (a : Arr) : (array k a).offsets.zip (array k a).sensors =
    (a.offsets.zip a.sensors).map fun p => (p.1, sensor k p.2) := by
  rw [offsets_array, array_sensors, List.zip_map_right]
  rfl

theorem trimOffsetsFl_array (k : ℤ) (a : Arr) (mn : ℚ) (mx : Fl) :
    trimOffsetsFl (array k a) mn mx = (array k (trimOffsetsFl a mn mx).1, (trimOffsetsFl a mn mx).2) := by
  match mx with
  | .fin q =>
    simp only [trimOffsetsFl, Arr.trimOffsets, zip_array, trimOffsetsLoop_array]
    rcases Arr.trimOffsetsLoop mn q (a.offsets.zip a.sensors) with _ | ⟨s, l⟩
    · rfl
    · rfl
  | .ninf => rfl
  | .nan => rfl
  | .pinf =>
    simp only [trimOffsetsFl, zip_array, List.filterMap_map, Function.comp_def]
    have e : ((a.offsets.zip a.sensors).filterMap fun p => if p.1 > mn then some (sensor k p.2) else none) =
        ((a.offsets.zip a.sensors).filterMap fun p => if p.1 > mn then some p.2 else none).map (sensor k) := by
      rw [List.map_filterMap]
      refine List.filterMap_congr fun p _ => ?_
      split_ifs <;> rfl
    rw [e]
    generalize ((a.offsets.zip a.sensors).filterMap fun p => if p.1 > mn then some p.2 else none) = l
    rcases l with _ | ⟨s, l⟩
    · rfl
    · rfl

theorem detrend_array (k : ℤ) (env : Env) (a : Arr) : detrend env (array k a) = array k (detrend env a) := by
  simp [detrend, array, sensor, series, Function.comp_def]

theorem muteLoop_array (k : ℤ) (tukey : ℕ → List ℚ) (n : ℕ) : ∀ (ss : List Sensor) (idx : List (ℤ × ℤ)),
    Arr.muteLoop tukey n (ss.map (sensor k)) idx =
      ((Arr.muteLoop tukey n ss idx).1.map (sensor k), (Arr.muteLoop tukey n ss idx).2)
  | [], idx => by simp [Arr.muteLoop]
  | s :: rest, [] => by simp [Arr.muteLoop]
  | s :: rest, (start, stop) :: idx => by
    have ih := muteLoop_array k tukey n rest idx
    simp only [List.map_cons, Arr.muteLoop]
    by_cases h : stop - start < 0
    · rw [if_pos h, if_pos h]; rfl
    · rw [if_neg h, if_neg h]
      rcases Arr.assignSlice n start stop (tukey (stop - start).toNat) with e | w
      · rfl
      · simp only [ih]
        rfl

theorem mute_array (k : ℤ) (tukey : ℕ → List ℚ) (a : Arr) (start stop : Option Arr.Line) :
    (array k a).mute tukey start stop = (array k (a.mute tukey start stop).1, (a.mute tukey start stop).2) := by
  unfold Arr.mute
  rw [position_array]
  rcases hs : a.sensors with _ | ⟨s0, rest⟩
  · simp [array, hs]
  have hs' : (array k a).sensors = sensor k s0 :: rest.map (sensor k) := by simp [array, hs]
  have hl := muteLoop_array k tukey s0.ts.nsamples (s0 :: rest)
  simp only [List.map_cons] at hl
  rw [hs']
  dsimp only
  rw [show (sensor k s0).ts.nsamples = s0.ts.nsamples from rfl, show (sensor k s0).ts.dt = s0.ts.dt from rfl,
    show (sensor k s0).ts.delay = s0.ts.delay from rfl]
  simp only [hl]
  rcases start with _ | l
  · rcases stop with _ | m
    · rfl
    · simp only []
      generalize Arr.lineIndices m s0.ts.dt |s0.ts.delay / s0.ts.dt| a.position = o
      rcases o with e | j
      · rfl
      · rfl
  · rcases stop with _ | m
    · simp only []
      generalize Arr.lineIndices l s0.ts.dt |s0.ts.delay / s0.ts.dt| a.position = o
      rcases o with e | j
      · rfl
      · rfl
    · simp only []
      generalize Arr.lineIndices l s0.ts.dt |s0.ts.delay / s0.ts.dt| a.position = o
      generalize Arr.lineIndices m s0.ts.dt |s0.ts.delay / s0.ts.dt| a.position = o'
      rcases o with e | j
      · rfl
      rcases o' with e | j'
      · rfl
      · rfl

theorem interactiveMute_array (k : ℤ) (tukey : ℕ → List ℚ) (a : Arr) (u : Interact.User) :
    Interact.interactiveMute tukey (array k a) "both" true u =
      (Interact.interactiveMute tukey a "both" true u).map fun r => (array k r.1, r.2) := by
  unfold Interact.interactiveMute
  have hl : (array k a).sensors.length = a.sensors.length := by simp [array]
  rw [hl]
  split_ifs with h2
  · rfl
  generalize Interact.pickLine ("both" == "before" || "both" == "both") true u = o
  rcases o with _ | ⟨_ | start, u'⟩
  · rfl
  · rfl
  simp only []
  generalize Interact.pickLine ("both" == "after" || "both" == "both") true u' = o
  rcases o with _ | ⟨_ | stop, u''⟩
  · rfl
  · rfl
  simp only [mute_array]
  rcases a.mute tukey start stop with ⟨a', _ | ⟨⟩⟩
  · rfl
  · rfl

/-! ## The steps of a workflow -/

theorem call_array (k : ℤ) (o : Outcome Arr) : call (array k o.1, o.2) = (call o).map (array k) := by
  rcases o with ⟨a, _ | ⟨⟩⟩
  · rfl
  · rfl

theorem trimOffsets_state (k : ℤ) (set : Settings) (s : State) :
    trimOffsets set (state k s) = (trimOffsets set s).map (state k) := by
  unfold trimOffsets
  rw [show (state k s).array = array k s.array from rfl, trimOffsetsFl_array, call_array]
  rcases call (trimOffsetsFl s.array set.minOffset set.maxOffset) with e | a
  · rfl
  · rfl

theorem copyWindow_array (hk : 0 < k) (a : Arr) (start stop : ℚ) :
    copyWindow (array k a) start stop = (copyWindow a start stop).map (array k) := by
  unfold copyWindow
  rw [fromArray_array hk]
  rcases a.fromArray with e | b
  · rfl
  change call ((array k b).trim start stop) = (call (b.trim start stop)).map (array k)
  rw [trim_array, call_array]

theorem selectNoise_state (hk : 0 < k) (set : Settings) (s : State) :
    selectNoise set (state k s) = (selectNoise set s).map (state k) := by
  unfold selectNoise
  have e : (state k s).noise.isNone = s.noise.isNone := by simp [state]
  rw [e]
  by_cases h : (set.snrPerform && s.noise.isNone) = true
  · rw [if_pos h, if_pos h, show (state k s).array = array k s.array from rfl, copyWindow_array hk]
    rcases copyWindow s.array set.noiseBegin set.noiseEnd with e | w
    · rfl
    · rfl
  · rw [if_neg h, if_neg h]; rfl

theorem selectSignal_state (hk : 0 < k) (set : Settings) (s : State) :
    selectSignal set (state k s) = (selectSignal set s).map (state k) := by
  unfold selectSignal
  have e : (state k s).signal.isNone = s.signal.isNone := by simp [state]
  rw [e]
  by_cases h : (set.snrPerform && s.signal.isNone) = true
  · rw [if_pos h, if_pos h, show (state k s).array = array k s.array from rfl, copyWindow_array hk]
    rcases copyWindow s.array set.signalBegin set.signalEnd with e | w
    · rfl
    · rfl
  · rw [if_neg h, if_neg h]; rfl

theorem trimTime_state (k : ℤ) (set : Settings) (s : State) :
    trimTime set (state k s) = (trimTime set s).map (state k) := by
  unfold trimTime
  rcases set.trimApply with _ | _
  · rfl
  · simp only [if_true]
    rw [show (state k s).array = array k s.array from rfl, trim_array, call_array]
    rcases call (s.array.trim set.trimBegin set.trimEnd) with e | a
    · rfl
    · rfl

theorem pad_state (k : ℤ) (set : Settings) (s : State) : pad set (state k s) = (pad set s).map (state k) := by
  unfold pad
  rcases set.padApply with _ | _
  · rfl
  · simp only [if_true]
    rw [show (state k s).array = array k s.array from rfl, zeroPad_array, call_array]
    rcases call (s.array.zeroPad set.padDf) with e | a
    · rfl
    · rfl

theorem mute_state (k : ℤ) (env : Env) (set : Settings) (s : State) :
    Workflow.mute env set (state k s) = (Workflow.mute env set s).map (state k) := by
  unfold Workflow.mute
  rcases set.muteApply with _ | _
  · rfl
  simp only [if_true]
  rw [show (state k s).signalStart = s.signalStart from rfl, show (state k s).signalEnd = s.signalEnd from rfl]
  by_cases h : (s.signalStart.isNone && s.signalEnd.isNone) = true
  · rw [if_pos h, if_pos h]
    by_cases hm : set.muteMethod = "interactive"
    · rw [if_pos hm, if_pos hm]
      unfold interactive
      rw [show (state k s).array = array k s.array from rfl, interactiveMute_array]
      generalize Interact.interactiveMute (env.tukey none) s.array "both" true env.user = o
      rcases o with _ | ⟨a, _ | l⟩
      · rfl
      · rfl
      · rfl
    · rw [if_neg hm, if_neg hm]; rfl
  · rw [if_neg h, if_neg h, show (state k s).array = array k s.array from rfl, mute_array, call_array]
    rcases call (s.array.mute (env.tukey set.windowKwargs) s.signalStart s.signalEnd) with e | a
    · rfl
    · rfl

theorem snr_array (k : ℤ) (signal noise : Arr) (fmin fmax : ℚ) (p : Bool) (df : ℚ) :
    WT.snr (array k signal) (array k noise) fmin fmax p df =
      ((array k (WT.snr signal noise fmin fmax p df).1.1, array k (WT.snr signal noise fmin fmax p df).1.2),
        (WT.snr signal noise fmin fmax p df).2) := by
  have hpad : ∀ a : Arr, padIf p (array k a) df = (array k (padIf p a df).1, (padIf p a df).2) := by
    intro a
    unfold padIf
    cases p
    · rfl
    · exact zeroPad_array k a df
  have hcore : ∀ s n : Arr, snrCore (array k s) (array k n) fmin fmax = snrCore s n fmin fmax := by
    intro s n
    unfold snrCore
    rw [matrix_array, matrix_array, array_sensors, array_sensors]
    rcases n.sensors with _ | ⟨ns, nr⟩
    · rfl
    rcases s.sensors with _ | ⟨ss, sr⟩
    · rfl
    rfl
  unfold WT.snr
  rw [hpad, hpad]
  rcases padIf p noise df with ⟨n', _ | ⟨⟩⟩
  · rfl
  rcases padIf p signal df with ⟨s', _ | ⟨⟩⟩
  · rfl
  simp only [hcore]

theorem calculateSnr_state (k : ℤ) (set : Settings) (s : State) :
    calculateSnr set (state k s) = (calculateSnr set s).map fun r => (state k r.1, r.2) := by
  unfold calculateSnr
  rcases set.snrPerform with _ | _
  · rfl
  simp only [if_true, state]
  rcases s.signal with _ | signal
  · rfl
  rcases s.noise with _ | noise
  · rfl
  simp only [Option.map_some, snr_array]
  rcases WT.snr signal noise set.fmin set.fmax set.snrPad set.snrDf with ⟨⟨s', n'⟩, _ | r⟩
  · rfl
  · rfl

/-! ## The transforms -/

theorem record_array (k : ℤ) (a : Arr) : Record.ofArray (array k a) = Record.ofArray a := by
  unfold Record.ofArray
  rw [flipped_array, array_sensors]
  rcases a.sensors with _ | ⟨s, rest⟩
  · rfl
  · rfl

theorem empty_array (k : ℤ) (a : Arr) (set : Settings) : Workflow.empty (array k a) set = Workflow.empty a set := by
  unfold Workflow.empty
  rw [array_sensors]
  rcases a.sensors with _ | ⟨s, rest⟩
  · rfl
  · rfl

theorem slantStack_array (k : ℤ) (geom : ℚ → ℚ → ℕ → List ℚ) (a : Arr) (set : Settings) :
    Builtin.slantStack geom (array k a) set = Builtin.slantStack geom a set := by
  unfold Builtin.slantStack WT.slantStackOfArray
  rw [flipped_array, array_sensors]
  rcases a.sensors with _ | ⟨s, rest⟩
  · rfl
  · rfl

theorem transform_array (k : ℤ) (hankel : ℝ → ℂ) (geom : ℚ → ℚ → ℕ → List ℚ) (env : Env) (set : Settings)
    (henv : env.transforms = Builtin.transforms hankel geom) (a : Arr) :
    Workflow.transform env set (array k a) = Workflow.transform env set a := by
  unfold Workflow.transform
  rw [henv]
  rcases h : (Builtin.transforms hankel geom).createClass set.transform with e | t
  · rfl
  simp only [Workflow.lift, bind, Except.bind]
  have : t (array k a) set = t a set := by
    have hm : ∃ n, (n, t) ∈ Builtin.transforms hankel geom := by
      unfold Registry.createClass at h
      rcases hl : (Builtin.transforms hankel geom).lookup set.transform with _ | c
      · rw [hl] at h; cases h
      · rw [hl] at h
        cases h
        rw [List.lookup_eq_some_iff] at hl
        obtain ⟨l1, l2, hl, -⟩ := hl
        exact ⟨set.transform, by rw [hl]; simp⟩
    obtain ⟨n, hm⟩ := hm
    simp only [Builtin.transforms, List.mem_cons, Prod.mk.injEq, List.not_mem_nil, or_false] at hm
    rcases hm with ⟨-, rfl⟩ | ⟨-, rfl⟩ | ⟨-, rfl⟩ | ⟨-, rfl⟩ | ⟨-, rfl⟩
    · exact empty_array k a set
    · exact slantStack_array k geom a set
    · simp only [Builtin.phaseShift, record_array]
    · simp only [Builtin.fdbf, record_array]
    · simp only [Builtin.fk, record_array]
  rw [this]

/-! ## A run -/

theorem timeDomain_array (hk : 0 < k) (hankel : ℝ → ℂ) (geom : ℚ → ℚ → ℕ → List ℚ) (env : Env) (set : Settings)
    (henv : env.transforms = Builtin.transforms hankel geom) (f g : Fnames)
    (h : Workflow.fromFiles env g = (Workflow.fromFiles env f).map (array k)) :
    timeDomain env set g = (timeDomain env set f).map (result k) := by
  unfold timeDomain
  rw [h]
  rcases Workflow.fromFiles env f with e | raw
  · rfl
  simp only [Except.map, bind, Except.bind, check_array]
  rcases check raw with e | ⟨⟩
  · rfl
  simp only []
  rw [show State.new (array k raw) = state k (State.new raw) from rfl, trimOffsets_state]
  rcases trimOffsets set (State.new raw) with e | s
  · rfl
  simp only [Except.map]
  have hd : ({ state k s with array := detrend env (state k s).array } : State) =
      state k { s with array := detrend env s.array } := by
    unfold state
    simp only [State.mk.injEq, and_true]
    exact detrend_array k env s.array
  rw [hd, selectNoise_state hk]
  rcases selectNoise set { s with array := detrend env s.array } with e | s
  · rfl
  simp only [Except.map, trimTime_state]
  rcases trimTime set s with e | s
  · rfl
  simp only [Except.map, mute_state]
  rcases Workflow.mute env set s with e | s
  · rfl
  simp only [Except.map, selectSignal_state hk]
  rcases selectSignal set s with e | s
  · rfl
  simp only [Except.map, calculateSnr_state]
  rcases calculateSnr set s with e | ⟨s, snr⟩
  · rfl
  simp only [pad_state]
  rcases pad set s with e | s
  · rfl
  simp only [Except.map]
  rw [show (state k s).array = array k s.array from rfl, transform_array k hankel geom env set henv]
  rcases transform env set s.array with e | t
  · rfl
  rfl

/-! ## Adding a file again -/

/-- `V` is `B` with `S` stacked onto it, sensor by sensor. -/
inductive Added : List Sensor → List Sensor → List Sensor → Prop
  | nil : Added [] [] []
  | cons {b s v : Sensor} {B S V : List Sensor} : b.stackAppend s = (v, .ok ()) → Added B S V → Added (b :: B) (s :: S) (v :: V)

/-- Sensors which can be stacked. -/
def Same (s t : Sensor) : Prop :=
  (s.x = t.x ∧ s.y = t.y ∧ s.z = t.z) ∧ s.ts.dt = t.ts.dt ∧ s.ts.delay = t.ts.delay ∧ s.ts.amp.length = t.ts.amp.length

theorem same_refl (s : Sensor) : Same s s := ⟨⟨rfl, rfl, rfl⟩, rfl, rfl, rfl⟩

theorem Same.trans {s t u : Sensor} (h : Same s t) (h' : Same t u) : Same s u :=
  ⟨⟨h.1.1.trans h'.1.1, h.1.2.1.trans h'.1.2.1, h.1.2.2.trans h'.1.2.2⟩, h.2.1.trans h'.2.1, h.2.2.1.trans h'.2.2.1,
    h.2.2.2.trans h'.2.2.2⟩

theorem Same.symm {s t : Sensor} (h : Same s t) : Same t s :=
  ⟨⟨h.1.1.symm, h.1.2.1.symm, h.1.2.2.symm⟩, h.2.1.symm, h.2.2.1.symm, h.2.2.2.symm⟩

theorem stack_iff (s t v : Sensor) : s.stackAppend t = (v, .ok ()) ↔ Same s t ∧ v = { s with ts := { s.ts with
        amp := (List.zipWith (fun (x y : ℚ) => x * s.ts.nstacks + y * t.ts.nstacks) s.ts.amp t.ts.amp).map
                 (fun x => x / ((s.ts.nstacks + t.ts.nstacks : ℤ) : ℚ))
        nstacks := s.ts.nstacks + t.ts.nstacks } } := by
  rw [Sensor.stackAppend_ok_iff, ATS.stackAppend_ok_iff]
  rcases v with ⟨r, x, y, z⟩
  simp only [Sensor.mk.injEq, Same, ATS.nsamples]
  tauto

theorem stack_same {s t v : Sensor} (h : s.stackAppend t = (v, .ok ())) : Same s v := by
  obtain ⟨⟨h1, h2, h3, h4⟩, rfl⟩ := (stack_iff s t v).1 h
  refine ⟨⟨rfl, rfl, rfl⟩, rfl, rfl, ?_⟩
  simp only [List.length_map, List.length_zipWith]
  omega

theorem stack_assoc {b s t v u : Sensor} (hb : 0 < b.ts.nstacks) (hs : 0 < s.ts.nstacks) (ht : 0 < t.ts.nstacks)
    (h1 : b.stackAppend s = (v, .ok ())) (h2 : s.stackAppend t = (u, .ok ())) :
    ∃ w, v.stackAppend t = (w, .ok ()) ∧ b.stackAppend u = (w, .ok ()) := by
  have e1 := stack_same h1
  have e2 := stack_same h2
  obtain ⟨d1, hv⟩ := (stack_iff b s v).1 h1
  obtain ⟨d2, hu⟩ := (stack_iff s t u).1 h2
  refine ⟨_, (stack_iff v t _).2 ⟨e1.symm.trans (d1.trans d2), rfl⟩, (stack_iff b u _).2 ⟨d1.trans e2, ?_⟩⟩
  have f1 : (0 : ℚ) < b.ts.nstacks := by exact_mod_cast hb
  have f2 : (0 : ℚ) < s.ts.nstacks := by exact_mod_cast hs
  have f3 : (0 : ℚ) < t.ts.nstacks := by exact_mod_cast ht
  have l1 := d1.2.2.2
  have l2 := d2.2.2.2
  subst hv
  subst hu
  simp only [Sensor.mk.injEq, ATS.mk.injEq, and_true, add_assoc]
  apply List.ext_getElem
  · simp only [List.length_map, List.length_zipWith]; omega
  · intro i g1 g2
    simp only [List.getElem_map, List.getElem_zipWith, Int.cast_add]
    rw [div_mul_cancel₀ _ (by positivity), div_mul_cancel₀ _ (by positivity)]
    congr 1
    ring

theorem added_traces : ∀ {B S V U : List Sensor} {ts : List Trace}, Added B S V → (∀ s ∈ B, 0 < s.ts.nstacks) →
    (∀ s ∈ S, 0 < s.ts.nstacks) → Arr.stackTraces S ts = .ok U →
    ∃ W, Arr.stackTraces V ts = .ok W ∧ Added B U W := by
  intro B S V U ts h
  induction h generalizing U ts with
  | nil =>
    intro _ _ hU
    have e : U = [] := by cases ts <;> (simp only [Arr.stackTraces, Except.ok.injEq] at hU; exact hU.symm)
    subst e
    exact ⟨[], by cases ts <;> rfl, .nil⟩
  | @cons b s v B S V h1 h2 ih =>
    intro hB hS hU
    rcases ts with _ | ⟨t, ts⟩
    · rw [stackTraces_nil, Except.ok.injEq] at hU
      subst hU
      exact ⟨_, stackTraces_nil _, .cons h1 h2⟩
    obtain ⟨n, r', rs, a1, a2, a3, rfl⟩ := stackTraces_cons hU
    obtain ⟨w, w1, w2⟩ := stack_assoc (hB b (by simp)) (hS s (by simp)) (Sensor.fromTrace_pos rfl a1).1 h1 a2
    obtain ⟨W, W1, W2⟩ := ih (fun s h => hB s (by simp [h])) (fun s h => hS s (by simp [h])) a3
    exact ⟨w :: W, by simp only [Arr.stackTraces, a1, w1, W1], .cons w2 W2⟩

theorem added_files {fs : Fs} {format : String} {mapX mapY : ℚ → ℚ} {src : Source} : ∀ (l : List String)
    {B S V U : List Sensor}, Added B S V → (∀ s ∈ B, 0 < s.ts.nstacks) → (∀ s ∈ S, 0 < s.ts.nstacks) →
    Arr.stackFiles fs format mapX mapY src S l = .ok U →
    ∃ W, Arr.stackFiles fs format mapX mapY src V l = .ok W ∧ Added B U W
  | [], B, S, V, U, h, _, _, hU => by
    simp only [Arr.stackFiles, Except.ok.injEq] at hU
    subst hU
    exact ⟨V, rfl, h⟩
  | f :: rest, B, S, V, U, h, hB, hS, hU => by
    obtain ⟨t, ts, nsrc, ss1, k1, k2, k3, k4, k5⟩ := stackFiles_cons.1 hU
    obtain ⟨W1, w1, w2⟩ := added_traces h hB hS k4
    obtain ⟨W, e1, e2⟩ := added_files rest w2 hB (stackTraces_keeps_pos hS k4) k5
    exact ⟨W, stackFiles_cons.2 ⟨t, ts, nsrc, W1, k1, k2, k3, w1, e1⟩, e2⟩

theorem files_same {fs : Fs} {format : String} {mapX mapY : ℚ → ℚ} {src : Source} : ∀ (l : List String)
    {S U : List Sensor}, (∀ s ∈ S, 0 < s.ts.nstacks) → Arr.stackFiles fs format mapX mapY src S l = .ok U →
    List.Forall₂ Same S U ∧ ∀ s ∈ U, 0 < s.ts.nstacks
  | [], S, U, hS, hU => by
    simp only [Arr.stackFiles, Except.ok.injEq] at hU
    subst hU
    exact ⟨List.forall₂_same.2 fun s _ => same_refl s, hS⟩
  | f :: rest, S, U, hS, hU => by
    obtain ⟨t, ts, nsrc, ss1, k1, k2, k3, k4, k5⟩ := stackFiles_cons.1 hU
    obtain ⟨h1, h2⟩ := files_same rest (stackTraces_keeps_pos hS k4) k5
    refine ⟨?_, h2⟩
    have key : ∀ {S ss1 : List Sensor} {ts : List Trace}, Arr.stackTraces S ts = .ok ss1 → List.Forall₂ Same S ss1 := by
      intro S
      induction S with
      | nil =>
        intro ss1 ts h
        have e : ss1 = [] := by cases ts <;> (simp only [Arr.stackTraces, Except.ok.injEq] at h; exact h.symm)
        subst e
        exact .nil
      | cons r S ih =>
        intro ss1 ts h
        rcases ts with _ | ⟨t, ts⟩
        · rw [stackTraces_nil, Except.ok.injEq] at h
          subst h
          exact List.forall₂_same.2 fun s _ => same_refl s
        obtain ⟨n, r', rs, a1, a2, a3, rfl⟩ := stackTraces_cons h
        exact .cons (stack_same a2) (ih a3)
    have tr : ∀ {A B C : List Sensor}, List.Forall₂ Same A B → List.Forall₂ Same B C → List.Forall₂ Same A C := by
      intro A B C h
      induction h generalizing C with
      | nil => intro h; cases h; exact .nil
      | cons a1 a2 ih => intro h; cases h with | cons b1 b2 => exact .cons (a1.trans b1) (ih b2)
    exact tr (key k4) h1

/-- Stacking the same record once more multiplies the count and keeps the samples. -/
theorem added_again {j : ℤ} (hj : 0 < j) : ∀ {A W : List Sensor}, (∀ s ∈ A, 0 < s.ts.nstacks) →
    Added (A.map (sensor j)) A W → W = A.map (sensor (j + 1))
  | [], W, _, h => by cases h; rfl
  | s :: A, W, hp, h => by
    cases h with
    | @cons _ _ v _ _ V h1 h2 =>
      rw [List.map_cons, ← added_again hj (fun s h => hp s (by simp [h])) h2]
      congr 1
      obtain ⟨-, rfl⟩ := (stack_iff _ _ _).1 h1
      have f1 : (0 : ℚ) < s.ts.nstacks := by exact_mod_cast hp s (by simp)
      have f2 : (0 : ℚ) < j := by exact_mod_cast hj
      simp only [sensor, series, Sensor.mk.injEq, ATS.mk.injEq, and_true, true_and]
      refine ⟨?_, by ring⟩
      apply List.ext_getElem
      · simp
      · intro i g1 g2
        simp only [List.getElem_map, List.getElem_zipWith, Int.cast_add, Int.cast_mul]
        rw [div_eq_iff (by positivity)]
        ring

theorem traces_added {j : ℤ} : ∀ {A ss : List Sensor} {ts : List Trace}, List.Forall₂ Same ss A →
    List.Forall₂ (fun t s => Sensor.fromTrace t {} = .ok s) ts ss →
    ∃ V, Arr.stackTraces (A.map (sensor j)) ts = .ok V ∧ Added (A.map (sensor j)) ss V := by
  intro A ss ts h
  induction h generalizing ts with
  | nil => intro h; cases h; exact ⟨[], rfl, .nil⟩
  | @cons s a ss A a1 a2 ih =>
    intro h
    cases h with
    | @cons t _ ts _ b1 b2 =>
      obtain ⟨V, v1, v2⟩ := ih b2
      have hs : Same (sensor j a) s := a1.symm
      have := (stack_iff (sensor j a) s _).2 ⟨hs, rfl⟩
      exact ⟨_, by simp only [List.map_cons, Arr.stackTraces, b1, this, v1], .cons this v2⟩

theorem stackFiles_append {fs : Fs} {format : String} {mapX mapY : ℚ → ℚ} {src : Source} : ∀ (l l' : List String)
    {S U : List Sensor}, Arr.stackFiles fs format mapX mapY src S l = .ok U →
    Arr.stackFiles fs format mapX mapY src S (l ++ l') = Arr.stackFiles fs format mapX mapY src U l'
  | [], l', S, U, h => by
    simp only [Arr.stackFiles, Except.ok.injEq] at h
    subst h
    rfl
  | f :: rest, l', S, U, h => by
    obtain ⟨t, ts, nsrc, ss1, k1, k2, k3, k4, k5⟩ := stackFiles_cons.1 h
    rw [← stackFiles_append rest l' k5]
    simp only [List.cons_append, Arr.stackFiles, Arr.readFile, k1, k2, k3, k4, Bool.not_true, Bool.false_eq_true, if_false]

theorem stackFiles_stops {fs : Fs} {format : String} {mapX mapY : ℚ → ℚ} {src : Source} : ∀ (l l' : List String)
    {S : List Sensor} {e : PyErr}, Arr.stackFiles fs format mapX mapY src S l = .error e →
    Arr.stackFiles fs format mapX mapY src S (l ++ l') = .error e
  | [], l', S, e, h => by simp [Arr.stackFiles] at h
  | f :: rest, l', S, e, h => by
    simp only [List.cons_append, Arr.stackFiles] at h ⊢
    revert h
    rcases Arr.readFile fs f with e' | _ | ⟨t, ts⟩
    · exact id
    · exact id
    simp only []
    rcases Arr.parseSource format mapX mapY t with e' | nsrc
    · exact id
    simp only []
    split_ifs with hs
    · exact id
    rcases Arr.stackTraces S (t :: ts) with e' | ss
    · exact id
    exact fun h => stackFiles_stops rest l' h

theorem fromFiles_stops {fs : Fs} {mapX mapY : ℚ → ℚ} (f : String) (l l' : List String) {e : PyErr}
    (h : Arr.fromFiles fs (f :: l) mapX mapY = .error e) : Arr.fromFiles fs (f :: l ++ l') mapX mapY = .error e := by
  simp only [List.cons_append, Arr.fromFiles] at h ⊢
  revert h
  rcases Arr.readFile fs f with e' | traces
  · exact id
  simp only []
  rcases Arr.sensorsOf { mapX := mapX, mapY := mapY } traces with e' | ss
  · exact id
  simp only []
  rcases traces.getLast? with _ | t
  · exact id
  simp only []
  rcases t.format with _ | fmt
  · exact id
  simp only []
  rcases Arr.parseSource fmt mapX mapY t with e' | src
  · exact id
  simp only []
  rcases Arr.init ss src with e' | obj
  · exact id
  simp only []
  rcases hs : Arr.stackFiles fs fmt mapX mapY src obj.sensors l with e' | out
  · rw [stackFiles_stops l l' hs]
    exact id
  · intro h
    cases h

theorem repeated {fs : Fs} {format : String} {src : Source} {n : ℕ} {f : String} {rest : List String} {a : Arr}
    (hf : Orderly fs format src n f) (h : Arr.fromFiles fs (f :: rest) id id = .ok a) (m : ℕ) :
    Arr.fromFiles fs (List.replicate (m + 1) (f :: rest)).flatten id id = .ok (array ((m : ℤ) + 1) a) := by
  obtain ⟨traces, sensors, t, fmt, obj, g1, g2, g3, g4, g5, g6, g7⟩ := Arr.fromFiles_ok h
  have hfmt : fmt = format := by
    have := hf.formats _ g1 t (List.mem_of_getLast? g3)
    rw [g4] at this; simpa using this
  subst hfmt
  have hs1 : a.source = src := by
    have := hf.source _ g1 t (List.mem_of_getLast? g3)
    rw [g5] at this; simpa using this
  have e1 : obj.sensors = sensors := by
    obtain ⟨⟨-, c1, -⟩, c2, -⟩ := Arr.init_consistent g6
    refine List.Perm.eq_of_pairwise (fun s t _ _ h1 h2 => ?_) c1 (hf.ascending _ _ g1 g2) c2
    exact absurd h1 (by have := h2; linarith)
  rw [e1] at g7
  have hpos : ∀ s ∈ sensors, 0 < s.ts.nstacks := by
    intro s hs
    obtain ⟨u, -, hu⟩ : ∃ u ∈ traces, Sensor.fromTrace u {} = .ok s := by
      clear g3 g1 g6 g7 e1
      induction g2 with
      | nil => cases hs
      | @cons u v _ _ a1 _ ih =>
        rcases List.mem_cons.1 hs with rfl | hs
        · exact ⟨u, by simp, a1⟩
        · obtain ⟨w, w1, w2⟩ := ih hs
          exact ⟨w, by simp [w1], w2⟩
    exact (Sensor.fromTrace_pos rfl hu).1
  obtain ⟨q1, q2⟩ := files_same rest hpos g7
  rcases traces with _ | ⟨t0, ts0⟩
  · simp at g3
  have hsrc0 : Arr.parseSource fmt id id t0 = .ok a.source := by rw [hs1]; exact hf.source _ g1 t0 (by simp)
  have hself : a.source.eq a.source = true := by
    obtain ⟨x, y, z⟩ := a.source
    simp [Source.eq]
  -- one more pass
  have pass : ∀ j : ℤ, 0 < j → Arr.stackFiles fs fmt id id a.source (a.sensors.map (sensor j)) (f :: rest) =
      .ok (a.sensors.map (sensor (j + 1))) := by
    intro j hj
    have hBpos : ∀ s ∈ a.sensors.map (sensor j), 0 < s.ts.nstacks := by
      intro s hs
      obtain ⟨s', h1, rfl⟩ := List.mem_map.1 hs
      exact mul_pos hj (q2 s' h1)
    obtain ⟨V, v1, v2⟩ := traces_added (j := j) q1 g2
    obtain ⟨W, w1, w2⟩ := added_files rest v2 hBpos hpos g7
    rw [← added_again hj q2 w2]
    exact stackFiles_cons.2 ⟨t0, ts0, a.source, V, g1, hsrc0, hself, v1, w1⟩
  have passes : ∀ (m : ℕ) (j : ℤ), 0 < j →
      Arr.stackFiles fs fmt id id a.source (a.sensors.map (sensor j)) (List.replicate m (f :: rest)).flatten =
        .ok (a.sensors.map (sensor (j + m))) := by
    intro m
    induction m with
    | zero => intro j hj; simp [Arr.stackFiles]
    | succ m ih =>
      intro j hj
      rw [List.replicate_succ, List.flatten_cons, stackFiles_append _ _ (pass j hj), ih (j + 1) (by omega)]
      congr 3
      push_cast
      ring
  have hone : a.sensors.map (sensor 1) = a.sensors := by
    have : sensor 1 = id := by
      funext s
      simp [sensor, series]
    rw [this, List.map_id]
  rw [List.replicate_succ, List.flatten_cons, List.cons_append]
  have hlast : Arr.stackFiles fs fmt id id a.source obj.sensors (rest ++ (List.replicate m (f :: rest)).flatten) =
      .ok (a.sensors.map (sensor ((m : ℤ) + 1))) := by
    rw [e1, stackFiles_append _ _ g7]
    have := passes m 1 (by norm_num)
    rw [hone, add_comm] at this
    exact this
  exact fromFiles_intro g1 (Arr.sensorsOf_ok.2 g2) g3 g4 g5 g6 hlast

end Recounted

open Verif Workflow Recounted

/-- **C185** (stack counts).  If two lists of files give arrays which differ only by a common positive factor of all stack
counts, time-domain runs on them agree: both stop at the same point for the same reason, or both return the same image,
signal-to-noise ratio and mute lines, and arrays which differ by that factor only. -/
theorem C185_common_factor (hankel : ℝ → ℂ) (geom : ℚ → ℚ → ℕ → List ℚ) (env : Env) (set : Settings) (k : ℤ) (hk : 0 < k)
    (henv : env.transforms = Builtin.transforms hankel geom) (f g : Fnames)
    (h : Workflow.fromFiles env g = (Workflow.fromFiles env f).map (Spec.Recount.array k)) :
    timeDomain env set g = (timeDomain env set f).map (Spec.Recount.result k) :=
  timeDomain_array hk hankel geom env set henv f g h

/-- **C185** (reading).  A list of files given `m + 1` times over is read as the list given once, with all stack counts
multiplied by `m + 1`; it is refused for the same reason if the list is.  The first file states one format and one source
and lists its receivers in order of their positions; the others are of any kind. -/
theorem C185_repeated_files (fs : Fs) (format : String) (src : Source) (n : ℕ) (f : String) (rest : List String)
    (hf : Orderly fs format src n f) (m : ℕ) :
    Arr.fromFiles fs (List.replicate (m + 1) (f :: rest)).flatten id id =
      (Arr.fromFiles fs (f :: rest) id id).map (Spec.Recount.array ((m : ℤ) + 1)) := by
  rcases h : Arr.fromFiles fs (f :: rest) id id with e | a
  · rw [List.replicate_succ, List.flatten_cons, fromFiles_stops f rest _ h]
    rfl
  · exact repeated hf h m

/-- **C185** (a run).  Repeating the whole list of files changes nothing in what a time-domain run returns but the stack
counts. -/
theorem C185_repeated_run (hankel : ℝ → ℂ) (geom : ℚ → ℚ → ℕ → List ℚ) (env : Env) (set : Settings)
    (henv : env.transforms = Builtin.transforms hankel geom) (hx : env.mapX = id) (hy : env.mapY = id)
    (format : String) (src : Source) (n : ℕ) (f : String) (rest : List String) (hf : Orderly env.fs format src n f) (m : ℕ) :
    timeDomain env set (.many (List.replicate (m + 1) (f :: rest)).flatten) =
      (timeDomain env set (.many (f :: rest))).map (Spec.Recount.result ((m : ℤ) + 1)) := by
  refine C185_common_factor hankel geom env set _ (by omega) henv _ _ ?_
  unfold Workflow.fromFiles
  simp only [hx, hy, C185_repeated_files env.fs format src n f rest hf m]
  rcases Arr.fromFiles env.fs (f :: rest) id id with e | a
  · rfl
  · rfl

/-- Two files, listed twice: counts 1 and 3 make 8, the samples are those of the two files. -/
example : Arr.fromFiles exFs ["a", "b", "a", "b"] id id =
    .ok ⟨[⟨⟨[4, 5], 1 / 1000, 8, 0, 1⟩, 0, 0, 0⟩, ⟨⟨[6, 1], 1 / 1000, 8, 0, 1⟩, 2, 0, 0⟩], ⟨-5, 0, 0⟩⟩ ∧
    Arr.fromFiles exFs ["a", "b"] id id =
    .ok ⟨[⟨⟨[4, 5], 1 / 1000, 4, 0, 1⟩, 0, 0, 0⟩, ⟨⟨[6, 1], 1 / 1000, 4, 0, 1⟩, 2, 0, 0⟩], ⟨-5, 0, 0⟩⟩ := by
  have h := C185_repeated_files exFs "SEG2" ⟨-5, 0, 0⟩ 2 "a" ["b"] (exFs_orderly "a" (by simp)) 1
  have h2 : Arr.fromFiles exFs ["a", "b"] id id =
    .ok ⟨[⟨⟨[4, 5], 1 / 1000, 4, 0, 1⟩, 0, 0, 0⟩, ⟨⟨[6, 1], 1 / 1000, 4, 0, 1⟩, 2, 0, 0⟩], ⟨-5, 0, 0⟩⟩ := by decide +kernel
  refine ⟨?_, h2⟩
  rw [h2] at h
  exact h

theorem pulse_orderly (f : String) : Orderly pulseEnv.fs "SEG2" ⟨0, 0, 0⟩ 3 f := by
  have hfs : ∀ ts, pulseEnv.fs f = some ts → ts = [seg2 2 0 1 [0, 2, 0, 0, 0, 0, 0, 0], seg2 4 0 1 [0, 0, 3, 0, 0, 0, 0, 0],
      seg2 8 0 1 [0, 0, 0, 0, 7, 0, 0, 0]] := fun ts h => (Option.some.inj h).symm
  refine ⟨⟨pulseArr, ?_⟩, ⟨_, rfl, rfl⟩, ?_, ?_, ?_⟩
  · have h : Arr.fromFiles pulseEnv.fs ["a"] id id = .ok pulseArr := by decide +kernel
    exact h
  · intro ts h
    rw [hfs ts h]
    decide +kernel
  · intro ts h
    rw [hfs ts h]
    decide +kernel
  · intro ts ss h hss
    rw [hfs ts h] at hss
    have e := Arr.sensorsOf_ok.2 hss
    have e' : Arr.sensorsOf {} [seg2 2 0 1 [0, 2, 0, 0, 0, 0, 0, 0], seg2 4 0 1 [0, 0, 3, 0, 0, 0, 0, 0],
      seg2 8 0 1 [0, 0, 0, 0, 7, 0, 0, 0]] = .ok pulseArr.sensors := by decide +kernel
    rw [e', Except.ok.injEq] at e
    subst e
    decide +kernel

/-- A file listed three times: the run returns, with the image of the file and three stacks. -/
example : ∃ r, timeDomain pulseEnv (pulseSet "phaseshift") (.many ["a"]) = .ok r ∧
    timeDomain pulseEnv (pulseSet "phaseshift") (.many ["a", "a", "a"]) = .ok (Spec.Recount.result 3 r) ∧
    Builtin.findPeakPower r.transform "frequency-maximum" = .ok [2000, 2000] := by
  obtain ⟨r, h1, h2⟩ := pulse_run "phaseshift" (Or.inl rfl)
  have h1' : timeDomain pulseEnv (pulseSet "phaseshift") (.many ["a"]) = .ok r := h1
  have h := C185_repeated_run (fun _ => 0) (fun _ _ _ => []) pulseEnv (pulseSet "phaseshift") rfl rfl rfl "SEG2" ⟨0, 0, 0⟩ 3
    "a" [] (pulse_orderly "a") 2
  rw [h1'] at h
  exact ⟨r, h1', h, h2⟩

/-- Repeating one file of the two is another matter: the samples change. -/
example : Arr.fromFiles exFs ["a", "b", "a"] id id ≠
    (Arr.fromFiles exFs ["a", "b"] id id).map (Spec.Recount.array 2) := by decide +kernel

/-- A file whose receivers are listed in descending order is refused when it is listed twice. -/
theorem C185_descending_refused : (∃ a, Arr.fromFiles exFs ["descending"] id id = .ok a) ∧
    Arr.fromFiles exFs ["descending", "descending"] id id = .error .valueError := by
  refine ⟨?_, by decide +kernel⟩
  have hs : (Arr.fromFiles exFs ["descending"] id id).toOption.isSome = true := by decide +kernel
  rcases h : Arr.fromFiles exFs ["descending"] id id with e | a
  · rw [h] at hs
    cases hs
  · exact ⟨a, rfl⟩

end Verif.Props
