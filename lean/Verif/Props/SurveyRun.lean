import Verif.Props.Survey
import Verif.Props.Beamforming
import Verif.Props.Recovery
import Verif.Props.FreqReturns

/-!
# C150 — the same survey in other coordinates

Theorems about whole runs.
-/

open Complex

namespace Verif.Props
open Verif WT Spec Workflow

variable {k : ℚ} (c : ℚ)

/-! ## The transforms -/

theorem ofArray_moved (hk : 0 < k) (a : Arr) : Record.ofArray (moved k c a) = Record.ofArray (enlarged k a) := by
  unfold Record.ofArray
  rw [flipped_moved c hk]
  rcases hs : a.sensors with _ | ⟨s, rest⟩
  · simp [moved, enlarged, hs]
  · simp [moved, enlarged, movedSensor, hs]

theorem phaseShift_moved (hk : 0 < k) (a : Arr) (set : Settings) :
    Builtin.phaseShift (moved k c a) (inLengths k set) = (Builtin.phaseShift a set).map (movedImage k k) := by
  refine Eq.trans ?_ (C144_phase_shift hk a set)
  unfold Builtin.phaseShift
  rw [ofArray_moved c hk]
  rfl

theorem fdbf_moved (hankel : ℝ → ℂ) (hk : 0 < k) (a : Arr) (set : Settings) :
    Builtin.fdbf hankel (moved k c a) (inLengths k set) = (Builtin.fdbf hankel a set).map
      (movedImage k (if (Builtin.specific set.fdbf).get "weighting" = some "sqrt" then (k : ℝ) ^ 2 else 1)) := by
  refine Eq.trans ?_ (C144_beamforming hankel hk a set)
  unfold Builtin.fdbf
  rw [ofArray_moved c hk]
  rfl

theorem fk_moved (hankel : ℝ → ℂ) (hk : 0 < k) (a : Arr) (set : Settings) :
    Builtin.fk hankel (moved k c a) (inLengths k set) = (Builtin.fk hankel a set).map (movedImage k 1) := by
  have hk' : (0 : ℝ) < k := by exact_mod_cast hk
  unfold Builtin.fk
  rw [show (inLengths k set).fdbf = set.fdbf from rfl]
  rcases Builtin.specific set.fdbf with _ | d
  · rfl
  simp only []
  rw [show Builtin.velocities (inLengths k set) = Builtin.velocities (faster k set) from rfl, velocities_faster hk,
    ofArray_moved c hk, ofArray_enlarged hk]
  rcases Builtin.velocities set with e | vels
  · rfl
  rcases Record.ofArray a with e | r
  · rfl
  simp only [Except.map, bind, Except.bind, WT.fk, WT.fdbf, Record.keepIds]
  have hs : (inLengths k set).fmin = set.fmin ∧ (inLengths k set).fmax = set.fmax := ⟨rfl, rfl⟩
  rw [hs.1, hs.2]
  rcases WT.keepIds (binFrequencies r.nsamples r.step) set.fmin set.fmax r.multiple with e | ids
  · rfl
  have ho : (fun i => (((r.offsets.map fun (x : ℚ) => k * x).getD i 0 : ℚ) : ℝ)) =
      fun i => (k : ℝ) * ((r.offsets.getD i 0 : ℚ) : ℝ) := by
    funext i
    simp only [List.getD_eq_getElem?_getD, List.getElem?_map]
    cases r.offsets[i]? <;> simp
  have hw : FdbfSpecific.get (some (dictSet (dictSet d "weighting" "none") "steering" "plane")) "weighting" = some "none" := by
    unfold FdbfSpecific.get
    simp only []
    rw [lookup_dictSet_other _ _ _ _ (by decide), lookup_dictSet_same]
  have hf : weightFactor (k : ℝ) (some "none") = 1 := by
    unfold weightFactor
    rw [if_neg (by decide)]
  simp only [pure, Except.pure, ho, movedImage, List.map_map, Function.comp_def, fdbfPower_enlarged hankel _ _ _ hk', hw, hf]

theorem slantStack_moved (geom : ℚ → ℚ → ℕ → List ℚ) (hk : 0 < k) (a : Arr) (set : Settings)
    (hg : geom (k * set.vmin) (k * set.vmax) set.nvel.toNat = (geom set.vmin set.vmax set.nvel.toNat).map fun (v : ℚ) => k * v) :
    Builtin.slantStack geom (moved k c a) (inLengths k set) = (Builtin.slantStack geom a set).map (movedImage k k) := by
  refine Eq.trans ?_ (C144_slant_stack geom hk a set hg)
  unfold Builtin.slantStack slantStackOfArray
  rw [flipped_moved c hk]
  rcases hs : a.sensors with _ | ⟨s, rest⟩
  · simp [moved, enlarged, hs]
    rfl
  · simp [moved, enlarged, movedSensor, hs]
    rfl

theorem empty_moved (hk : 0 < k) (F : ℝ) (a : Arr) (set : Settings) :
    Workflow.empty (moved k c a) (inLengths k set) = (Workflow.empty a set).map (movedImage k F) := by
  unfold Workflow.empty
  rcases hs : a.sensors with _ | ⟨s, rest⟩
  · simp only [moved, hs]; rfl
  have hv : createVector ((inLengths k set).vmin) (inLengths k set).vmax (inLengths k set).nvel (inLengths k set).vspace =
      (createVector set.vmin set.vmax set.nvel set.vspace).map fun v => v.map fun (x : ℝ) => (k : ℝ) * x :=
    velocities_faster hk set
  have hs' : (moved k c a).sensors = movedSensor k c s :: rest.map (movedSensor k c) := by simp [moved, hs]
  rw [hs']
  simp only [hv]
  rw [show (movedSensor k c s).ts = s.ts from rfl, show (inLengths k set).fmin = set.fmin from rfl,
    show (inLengths k set).fmax = set.fmax from rfl, show (inLengths k set).nvel = set.nvel from rfl]
  rcases WT.keepIds (binFrequencies s.ts.nsamples s.ts.dfInternal) set.fmin set.fmax s.ts.multiple with e | ids
  · rfl
  simp only [bind, Except.bind]
  rcases createVector set.vmin set.vmax set.nvel set.vspace with e | vels
  · rfl
  simp [Except.map, pure, Except.pure, movedImage]

theorem createClass_builtin (hankel : ℝ → ℂ) (geom : ℚ → ℚ → ℕ → List ℚ) (name : String) :
    (Builtin.transforms hankel geom).createClass name =
      if name = "empty" then .ok Workflow.empty
      else if name = "slantstack" then .ok (Builtin.slantStack geom)
      else if name = "phaseshift" then .ok Builtin.phaseShift
      else if name = "fdbf" then .ok (Builtin.fdbf hankel)
      else if name = "fk" then .ok (Builtin.fk hankel)
      else .error .keyError := by
  unfold Registry.createClass Builtin.transforms
  simp only [List.lookup]
  by_cases h1 : name = "empty"
  · simp [h1]
  by_cases h2 : name = "slantstack"
  · simp [h2]
  by_cases h3 : name = "phaseshift"
  · simp [h3]
  by_cases h4 : name = "fdbf"
  · simp [h4]
  by_cases h5 : name = "fk"
  · simp [h5]
  rw [if_neg h1, if_neg h2, if_neg h3, if_neg h4, if_neg h5, beq_eq_false_iff_ne.2 h1, beq_eq_false_iff_ne.2 h2,
    beq_eq_false_iff_ne.2 h3, beq_eq_false_iff_ne.2 h4, beq_eq_false_iff_ne.2 h5]

theorem transform_moved (hankel : ℝ → ℂ) (geom : ℚ → ℚ → ℕ → List ℚ) (hk : 0 < k) (env : Env) (set : Settings)
    (henv : env.transforms = Builtin.transforms hankel geom)
    (hg : geom (k * set.vmin) (k * set.vmax) set.nvel.toNat = (geom set.vmin set.vmax set.nvel.toNat).map fun (v : ℚ) => k * v)
    (a : Arr) :
    transform (inCoordinates k c env) (inLengths k set) (moved k c a) =
      (transform env set a).map (movedImage k (powerFactor k set)) := by
  have lm : ∀ (o : Except PyErr Transform) (F : ℝ), Workflow.lift (o.map (movedImage k F)) = (Workflow.lift o).map (movedImage k F) := by
    rintro (e | t) F <;> rfl
  unfold transform powerFactor
  rw [show (inCoordinates k c env).transforms = env.transforms from rfl, show (inLengths k set).transform = set.transform from rfl,
    henv, createClass_builtin]
  by_cases h1 : set.transform = "empty"
  · rw [if_pos h1, h1, if_neg (by decide), if_neg (fun h => absurd h.1 (by decide))]
    change Workflow.lift (Workflow.empty (moved k c a) (inLengths k set)) = (Workflow.lift (Workflow.empty a set)).map _
    rw [empty_moved c hk 1, lm]
  rw [if_neg h1]
  by_cases h2 : set.transform = "slantstack"
  · rw [if_pos h2, if_pos (Or.inl h2)]
    change Workflow.lift (Builtin.slantStack geom (moved k c a) (inLengths k set)) = (Workflow.lift (Builtin.slantStack geom a set)).map _
    rw [slantStack_moved c geom hk a set hg, lm]
  rw [if_neg h2]
  by_cases h3 : set.transform = "phaseshift"
  · rw [if_pos h3, if_pos (Or.inr h3)]
    change Workflow.lift (Builtin.phaseShift (moved k c a) (inLengths k set)) = (Workflow.lift (Builtin.phaseShift a set)).map _
    rw [phaseShift_moved c hk a set, lm]
  rw [if_neg h3, if_neg (not_or.2 ⟨h2, h3⟩)]
  by_cases h4 : set.transform = "fdbf"
  · rw [if_pos h4]
    change Workflow.lift (Builtin.fdbf hankel (moved k c a) (inLengths k set)) = (Workflow.lift (Builtin.fdbf hankel a set)).map _
    rw [fdbf_moved c hankel hk a set, lm]
    simp only [h4, true_and]
  have h4' : ¬(set.transform = "fdbf" ∧ (Builtin.specific set.fdbf).get "weighting" = some "sqrt") := fun h => h4 h.1
  rw [if_neg h4, if_neg h4']
  by_cases h5 : set.transform = "fk"
  · rw [if_pos h5]
    change Workflow.lift (Builtin.fk hankel (moved k c a) (inLengths k set)) = (Workflow.lift (Builtin.fk hankel a set)).map _
    rw [fk_moved c hankel hk a set, lm]
  rw [if_neg h5]
  rfl

/-! ## One file -/

theorem timeDomain_moved (hankel : ℝ → ℂ) (geom : ℚ → ℚ → ℕ → List ℚ) (hk : 0 < k) (env : Env) (set : Settings)
    (henv : env.transforms = Builtin.transforms hankel geom)
    (hg : geom (k * set.vmin) (k * set.vmax) set.nvel.toNat = (geom set.vmin set.vmax set.nvel.toNat).map fun (v : ℚ) => k * v)
    (f : Fnames) (n : String) (hf : f = .one n ∨ f = .many [n]) :
    timeDomain (inCoordinates k c env) (inLengths k set) f = (timeDomain env set f).map (movedResult k c (powerFactor k set)) := by
  unfold timeDomain
  rw [fromFile_moved c hk env f n hf]
  rcases fromFiles env f with e | raw
  · rfl
  simp only [Except.map, bind, Except.bind, check_moved c hk]
  rcases check raw with e | ⟨⟩
  · rfl
  simp only []
  rw [show State.new (moved k c raw) = movedState k c (State.new raw) from rfl, wfTrimOffsets_moved c hk]
  rcases trimOffsets set (State.new raw) with e | s
  · rfl
  simp only [Except.map]
  have hd : ({ movedState k c s with array := detrend (inCoordinates k c env) (movedState k c s).array } : State) =
      movedState k c { s with array := detrend env s.array } := by
    unfold movedState
    simp only [State.mk.injEq, and_true]
    exact detrend_moved k c env s.array
  rw [hd, selectNoise_moved c hk]
  rcases selectNoise set { s with array := detrend env s.array } with e | s
  · rfl
  simp only [Except.map, trimTime_moved]
  rcases trimTime set s with e | s
  · rfl
  simp only [Except.map, wfMute_moved c hk]
  rcases Workflow.mute env set s with e | s
  · rfl
  simp only [Except.map, selectSignal_moved c hk]
  rcases selectSignal set s with e | s
  · rfl
  simp only [Except.map, calculateSnr_moved]
  rcases calculateSnr set s with e | ⟨s, snr⟩
  · rfl
  simp only [Except.map, pad_moved]
  rcases pad set s with e | s
  · rfl
  simp only []
  rw [show (movedState k c s).array = moved k c s.array from rfl, transform_moved c hankel geom hk env set henv hg]
  rcases transform env set s.array with e | t
  · rfl
  rfl

/-! ## Several files -/

theorem isSimilar_moved (hk : 0 < k) (a b : Arr) : (moved k c a).isSimilar (moved k c b) = a.isSimilar b := by
  have h1 : ∀ x y : ℚ, k * x + c = k * y + c ↔ x = y := fun x y => by
    rw [add_left_inj]
    exact mul_right_inj' hk.ne'
  have h2 : ∀ x y : ℚ, k * x = k * y ↔ x = y := fun x y => mul_right_inj' hk.ne'
  unfold Arr.isSimilar Source.eq Arr.nchannels
  simp only [moved, List.length_map, h1, h2]

theorem exampleArray_moved (hk : 0 < k) (env : Env) (set : Settings) (n : String) :
    exampleArray (inCoordinates k c env) (inLengths k set) n = (exampleArray env set n).map (moved k c) := by
  unfold exampleArray
  rw [fromFile_moved c hk env (.one n) n (Or.inl rfl)]
  rcases fromFiles env (.one n) with e | raw
  · rfl
  simp only [Except.map, bind, Except.bind]
  rw [show detrend (inCoordinates k c env) (moved k c raw) = moved k c (detrend env raw) from detrend_moved k c env raw,
    show (inLengths k set).trimApply = set.trimApply from rfl, show (inLengths k set).padApply = set.padApply from rfl,
    show (inLengths k set).trimBegin = set.trimBegin from rfl, show (inLengths k set).trimEnd = set.trimEnd from rfl,
    show (inLengths k set).padDf = set.padDf from rfl]
  have hp : ∀ a : Arr, (if set.padApply = true then call ((moved k c a).zeroPad set.padDf) else pure (moved k c a)) =
      (if set.padApply = true then call (a.zeroPad set.padDf) else pure a : Except Stop Arr).map (moved k c) := by
    intro a
    rcases set.padApply with _ | _
    · rfl
    · simp only [if_true]
      rw [zeroPad_moved, call_moved]
  rcases set.trimApply with _ | _
  · exact hp _
  · simp only [if_true]
    rw [trim_moved, call_moved]
    rcases call ((detrend env raw).trim set.trimBegin set.trimEnd) with e | a
    · rfl
    · exact hp a

theorem broadcast_moved (F : ℂ) (f : ℂ → ℂ → ℂ) (hf : ∀ x y, f (F * x) (F * y) = F * f x y) (r r' : List ℂ) :
    broadcast f (r.map fun z => F * z) (r'.map fun z => F * z) = (broadcast f r r').map fun l => l.map fun z => F * z := by
  have hg : ∀ l : List ℂ, l.length = 1 → (l.map fun z => F * z).getD 0 0 = F * l.getD 0 0 := by
    rintro (_ | ⟨x, l⟩) h
    · cases h
    · rfl
  unfold broadcast
  rw [List.length_map, List.length_map]
  by_cases h1 : r.length = r'.length
  · rw [if_pos h1, if_pos h1, List.zipWith_map]
    simp only [hf, Except.map, List.map_zipWith]
  · rw [if_neg h1, if_neg h1]
    by_cases h2 : r'.length = 1
    · rw [if_pos h2, if_pos h2, hg r' h2]
      simp only [List.map_map, Function.comp_def, hf, Except.map]
    · rw [if_neg h2, if_neg h2]
      by_cases h3 : r.length = 1
      · rw [if_pos h3, if_pos h3, hg r h3]
        simp only [List.map_map, Function.comp_def, hf, Except.map]
      · rw [if_neg h3, if_neg h3]; rfl

theorem stackRows_moved (F : ℂ) (n m : ℕ) : ∀ p p' : List (List ℂ),
    stackRows n m (p.map fun row => row.map fun z => F * z) (p'.map fun row => row.map fun z => F * z) =
      (stackRows n m p p').map fun q => q.map fun row => row.map fun z => F * z
  | [], _ => rfl
  | r :: p, [] => rfl
  | r :: p, r' :: p' => by
    simp only [List.map_cons, stackRows]
    rw [broadcast_moved F _ (fun x y => by ring), stackRows_moved F n m p p']
    rcases broadcast _ r r' with e | row
    · rfl
    rcases stackRows n m p p' with e | rest
    · rfl
    rfl

theorem stack_moved (k F : ℝ) (t o : Transform) :
    Workflow.stack (movedImage k F t) (movedImage k F o) = (Workflow.stack t o).map (movedImage k F) := by
  unfold Workflow.stack movedImage
  simp only [stackRows_moved]
  rcases stackRows t.n o.n t.power o.power with e | p
  · rfl
  rfl

theorem freqSteps_moved (hankel : ℝ → ℂ) (geom : ℚ → ℚ → ℕ → List ℚ) (hk : 0 < k) (env : Env) (set : Settings)
    (henv : env.transforms = Builtin.transforms hankel geom)
    (hg : geom (k * set.vmin) (k * set.vmax) set.nvel.toNat = (geom set.vmin set.vmax set.nvel.toNat).map fun (v : ℚ) => k * v)
    (s : State) :
    (do
      let s ← trimOffsets (inLengths k set) (movedState k c s)
      let s := { s with array := detrend (inCoordinates k c env) s.array }
      let s ← selectNoise (inLengths k set) s
      let s ← trimTime (inLengths k set) s
      let s ← Workflow.mute (inCoordinates k c env) (inLengths k set) s
      let s ← selectSignal (inLengths k set) s
      let s ← pad (inLengths k set) s
      let t ← transform (inCoordinates k c env) (inLengths k set) s.array
      return (s, t) : Except Stop (State × Transform)) =
    (do
      let s ← trimOffsets set s
      let s := { s with array := detrend env s.array }
      let s ← selectNoise set s
      let s ← trimTime set s
      let s ← Workflow.mute env set s
      let s ← selectSignal set s
      let s ← pad set s
      let t ← transform env set s.array
      return (s, t) : Except Stop (State × Transform)).map fun r =>
        (movedState k c r.1, movedImage k (powerFactor k set) r.2) := by
  rw [wfTrimOffsets_moved c hk]
  rcases trimOffsets set s with e | s
  · rfl
  simp only [Except.map, bind, Except.bind]
  have hd : ({ movedState k c s with array := detrend (inCoordinates k c env) (movedState k c s).array } : State) =
      movedState k c { s with array := detrend env s.array } := by
    unfold movedState
    simp only [State.mk.injEq, and_true]
    exact detrend_moved k c env s.array
  rw [hd, selectNoise_moved c hk]
  rcases selectNoise set { s with array := detrend env s.array } with e | s
  · rfl
  simp only [Except.map, trimTime_moved]
  rcases trimTime set s with e | s
  · rfl
  simp only [Except.map, wfMute_moved c hk]
  rcases Workflow.mute env set s with e | s
  · rfl
  simp only [Except.map, selectSignal_moved c hk]
  rcases selectSignal set s with e | s
  · rfl
  simp only [Except.map, pad_moved]
  rcases pad set s with e | s
  · rfl
  simp only []
  rw [show (movedState k c s).array = moved k c s.array from rfl, transform_moved c hankel geom hk env set henv hg]
  rcases transform env set s.array with e | t
  · rfl
  rfl

theorem freqFile_moved (hankel : ℝ → ℂ) (geom : ℚ → ℚ → ℕ → List ℚ) (hk : 0 < k) (env : Env) (set : Settings)
    (henv : env.transforms = Builtin.transforms hankel geom)
    (hg : geom (k * set.vmin) (k * set.vmax) set.nvel.toNat = (geom set.vmin set.vmax set.nvel.toNat).map fun (v : ℚ) => k * v)
    (ex : Arr) (st : Option State) (n : String) :
    freqFile (inCoordinates k c env) (inLengths k set) (moved k c ex) (st.map (movedState k c)) n =
      (freqFile env set ex st n).map fun r => (movedState k c r.1, movedImage k (powerFactor k set) r.2) := by
  unfold freqFile
  rw [fromFile_moved c hk env (.one n) n (Or.inl rfl)]
  rcases fromFiles env (.one n) with e | raw
  · rfl
  simp only [Except.map, bind, Except.bind, isSimilar_moved c hk]
  cases raw.isSimilar ex
  · rfl
  simp only [Bool.not_true, Bool.false_eq_true, if_false, check_moved c hk]
  rcases check raw with e | ⟨⟩
  · rfl
  simp only [pure, Except.pure]
  rcases st with _ | s0
  · simp only [Option.map_none]
    rw [show State.new (moved k c raw) = movedState k c (State.new raw) from rfl]
    exact freqSteps_moved c hankel geom hk env set henv hg (State.new raw)
  · simp only [Option.map_some]
    exact freqSteps_moved c hankel geom hk env set henv hg { s0 with array := raw }

theorem freqLoop_moved (hankel : ℝ → ℂ) (geom : ℚ → ℚ → ℕ → List ℚ) (hk : 0 < k) (env : Env) (set : Settings)
    (henv : env.transforms = Builtin.transforms hankel geom)
    (hg : geom (k * set.vmin) (k * set.vmax) set.nvel.toNat = (geom set.vmin set.vmax set.nvel.toNat).map fun (v : ℚ) => k * v)
    (ex : Arr) : ∀ (names : List String) (st : Option State) (running : Transform),
    freqLoop (inCoordinates k c env) (inLengths k set) (moved k c ex) (st.map (movedState k c))
        (movedImage k (powerFactor k set) running) names =
      (freqLoop env set ex st running names).map fun r =>
        (r.1.map (movedState k c), movedImage k (powerFactor k set) r.2)
  | [], st, running => rfl
  | f :: rest, st, running => by
    simp only [freqLoop]
    rw [freqFile_moved c hankel geom hk env set henv hg]
    rcases freqFile env set ex st f with e | ⟨s, t⟩
    · rfl
    simp only [Except.map, bind, Except.bind, stack_moved]
    rcases Workflow.stack running t with e | running'
    · rfl
    exact freqLoop_moved hankel geom hk env set henv hg ex rest (some s) running'

theorem freqFiles_moved (hankel : ℝ → ℂ) (geom : ℚ → ℚ → ℕ → List ℚ) (hk : 0 < k) (env : Env) (set : Settings)
    (henv : env.transforms = Builtin.transforms hankel geom)
    (hg : geom (k * set.vmin) (k * set.vmax) set.nvel.toNat = (geom set.vmin set.vmax set.nvel.toNat).map fun (v : ℚ) => k * v)
    (names : List String) :
    freqFiles (inCoordinates k c env) (inLengths k set) names =
      (freqFiles env set names).map (movedResult k c (powerFactor k set)) := by
  rcases names with _ | ⟨f0, rest⟩
  · rfl
  unfold freqFiles
  simp only []
  rw [exampleArray_moved c hk]
  rcases exampleArray env set f0 with e | ex
  · rfl
  simp only [Except.map, bind, Except.bind, empty_moved c hk (powerFactor k set)]
  rcases Workflow.empty ex set with e | running
  · rfl
  simp only [Workflow.lift]
  rw [show (inCoordinates k c env).transforms = env.transforms from rfl, show (inLengths k set).transform = set.transform from rfl]
  rcases env.transforms.createClass set.transform with e | tr
  · rfl
  simp only []
  have := freqLoop_moved c hankel geom hk env set henv hg ex (f0 :: rest) none running
  rw [Option.map_none] at this
  rw [this]
  rcases freqLoop env set ex none running (f0 :: rest) with e | ⟨_ | s, running'⟩
  · rfl
  · rfl
  simp only [Except.map, Option.map_some, calculateSnr_moved]
  rcases calculateSnr set s with e | ⟨s', snr⟩
  · rfl
  rfl

/-! ## Cross-correlation -/

theorem xcorrLoop_moved (k c : ℚ) (sig sig' : SourceSig) (h : sig'.amp = sig.amp) (b : ℤ × ℤ) (ss0 ss0' : List Sensor) :
    ∀ ss : List Sensor, ArrSrc.xcorrLoop ⟨ss0', sig'⟩ b (ss.map (movedSensor k c)) =
      (ArrSrc.xcorrLoop ⟨ss0, sig⟩ b ss).map fun l => l.map (movedSensor k c)
  | [] => rfl
  | s :: ss => by
    simp only [List.map_cons, ArrSrc.xcorrLoop, xcorrLoop_moved k c sig sig' h b ss0 ss0' ss, ArrSrc.xcorrSensor, h,
      show (movedSensor k c s).ts = s.ts from rfl, Sensor.init]
    rcases ATS.init (pySlice (ATS.correlate s.ts.amp sig.amp) b.1 b.2) s.ts.dt s.ts.nstacks 0 with e | r
    · rfl
    rcases ArrSrc.xcorrLoop ⟨ss0, sig⟩ b ss with e | l
    · rfl
    rfl

theorem sliceBounds_moved (hk : 0 < k) (ss : List Sensor) (sig : SourceSig) (vmin vmax : ℚ) :
    ArrSrc.sliceBounds ⟨ss.map (movedSensor k c), ⟨⟨k * sig.src.x + c, k * sig.src.y, k * sig.src.z⟩, sig.amp, sig.dt⟩⟩
      (k * vmin) (k * vmax) = ArrSrc.sliceBounds ⟨ss, sig⟩ vmin vmax := by
  unfold ArrSrc.sliceBounds
  have ho : ((ss.map (movedSensor k c)).map fun s => |k * sig.src.x + c - s.x|) =
      (ss.map fun s => |sig.src.x - s.x|).map fun (x : ℚ) => k * x := by
    simp only [List.map_map]
    refine List.map_congr_left fun s _ => ?_
    simp only [Function.comp, movedSensor]
    rw [show k * sig.src.x + c - (k * s.x + c) = k * (sig.src.x - s.x) by ring, abs_mul, abs_of_pos hk]
  have hd : ∀ x v : ℚ, k * x / (k * v) = x / v := fun x v => mul_div_mul_left x v hk.ne'
  simp only [ho, minList_enlarged hk, maxList_enlarged hk, mul_eq_zero, hk.ne', false_or]
  cases hmn : Arr.minList (ss.map fun s => |sig.src.x - s.x|) with
  | none => simp only [Option.map_none]
  | some mn =>
    cases hmx : Arr.maxList (ss.map fun s => |sig.src.x - s.x|) with
    | none => simp only [Option.map_none, Option.map_some]
    | some mx => simp only [Option.map_some, hd]

theorem xcorrelate_moved (hk : 0 < k) (ss : List Sensor) (sig : SourceSig) (vmin vmax : ℚ) :
    (call (ArrSrc.xcorrelate ⟨ss.map (movedSensor k c), ⟨⟨k * sig.src.x + c, k * sig.src.y, k * sig.src.z⟩, sig.amp, sig.dt⟩⟩
      (k * vmin) (k * vmax))).map (fun x => x.sensors) =
        (call (ArrSrc.xcorrelate ⟨ss, sig⟩ vmin vmax)).map fun x => x.sensors.map (movedSensor k c) := by
  unfold ArrSrc.xcorrelate
  rw [sliceBounds_moved c hk]
  rcases ArrSrc.sliceBounds ⟨ss, sig⟩ vmin vmax with e | b
  · rfl
  simp only []
  rw [xcorrLoop_moved k c sig ⟨⟨k * sig.src.x + c, k * sig.src.y, k * sig.src.z⟩, sig.amp, sig.dt⟩ rfl b ss]
  rcases ArrSrc.xcorrLoop ⟨ss, sig⟩ b ss with e | l
  · rfl
  rfl

theorem fromFilesWithSource_moved (hk : 0 < k) (env : Env) (f : Fnames) (n : String) (hf : f = .one n ∨ f = .many [n])
    (src : List String) (ch : ℤ) :
    fromFilesWithSource (inCoordinates k c env) f src ch = (fromFilesWithSource env f src ch).map fun r =>
      (moved k c r.1, ⟨⟨k * r.2.src.x + c, k * r.2.src.y, k * r.2.src.z⟩, r.2.amp, r.2.dt⟩) := by
  unfold fromFilesWithSource
  rw [fromFile_moved c hk env f n hf]
  rcases fromFiles env f with e | raw
  · rfl
  simp only [Except.map, bind, Except.bind]
  rw [show (inCoordinates k c env).fs = env.fs from rfl]
  rcases Workflow.lift (readSignals env.fs ch src) with e | _ | ⟨⟨s0, dt⟩, rest⟩
  · rfl
  · rfl
  simp only []
  generalize Workflow.lift (ArrSrc.meanSignal _) = o
  rcases o with e | amp
  · rfl
  simp only []
  have := init_moved c hk raw.sensors raw.source
  rw [show (moved k c raw).sensors = raw.sensors.map (movedSensor k c) from rfl,
    show (moved k c raw).source = ⟨k * raw.source.x + c, k * raw.source.y, k * raw.source.z⟩ from rfl, this]
  rcases Arr.init raw.sensors raw.source with e | a
  · rfl
  rfl

theorem lastTime_moved (k c : ℚ) (a : Arr) : lastTime (moved k c a) = lastTime a := by
  unfold lastTime
  rw [moved_sensors]
  rcases a.sensors with _ | ⟨s, rest⟩
  · rfl
  rfl

theorem xcorr_moved (hankel : ℝ → ℂ) (geom : ℚ → ℚ → ℕ → List ℚ) (hk : 0 < k) (env : Env) (set : Settings)
    (henv : env.transforms = Builtin.transforms hankel geom)
    (hg : geom (k * set.vmin) (k * set.vmax) set.nvel.toNat = (geom set.vmin set.vmax set.nvel.toNat).map fun (v : ℚ) => k * v)
    (f : Fnames) (n : String) (hf : f = .one n ∨ f = .many [n]) (src : List String) (ch : ℤ) :
    xcorr (inCoordinates k c env) (inLengths k set) f src ch =
      (xcorr env set f src ch).map (movedResult k c (powerFactor k set)) := by
  unfold xcorr
  rw [fromFilesWithSource_moved c hk env f n hf]
  rcases fromFilesWithSource env f src ch with e | ⟨raw, sig⟩
  · rfl
  simp only [Except.map, bind, Except.bind, lastTime_moved]
  rcases lastTime raw with e | tl
  · rfl
  simp only []
  rw [trim_moved, call_moved]
  rcases call (raw.trim 0 tl) with e | raw
  · rfl
  simp only [Except.map]
  by_cases hs : sig.amp = []
  · rw [if_pos hs, if_pos hs]; rfl
  rw [if_neg hs, if_neg hs]
  simp only [pure, Except.pure, check_moved c hk]
  rcases check raw with e | ⟨⟩
  · rfl
  simp only []
  rw [show State.new (moved k c raw) = movedState k c (State.new raw) from rfl, wfTrimOffsets_moved c hk]
  rcases trimOffsets set (State.new raw) with e | s
  · rfl
  simp only [Except.map]
  have hd : ({ movedState k c s with array := detrend (inCoordinates k c env) (movedState k c s).array } : State) =
      movedState k c { s with array := detrend env s.array } := by
    unfold movedState
    simp only [State.mk.injEq, and_true]
    exact detrend_moved k c env s.array
  rw [hd, selectNoise_moved c hk]
  rcases selectNoise set { s with array := detrend env s.array } with e | s
  · rfl
  simp only [Except.map, trimTime_moved]
  rcases trimTime set s with e | s
  · rfl
  simp only [Except.map, wfMute_moved c hk]
  rcases Workflow.mute env set s with e | s
  · rfl
  simp only [Except.map, selectSignal_moved c hk]
  rcases selectSignal set s with e | s
  · rfl
  simp only [Except.map, calculateSnr_moved]
  rcases calculateSnr set s with e | ⟨s, snr⟩
  · rfl
  simp only []
  have hx := xcorrelate_moved c hk s.array.sensors sig set.vmin set.vmax
  rw [show (movedState k c s).array.sensors = s.array.sensors.map (movedSensor k c) from rfl,
    show (inLengths k set).vmin = k * set.vmin from rfl, show (inLengths k set).vmax = k * set.vmax from rfl]
  generalize call (ArrSrc.xcorrelate ⟨s.array.sensors.map (movedSensor k c), ⟨⟨k * sig.src.x + c, k * sig.src.y, k * sig.src.z⟩,
    sig.amp, sig.dt⟩⟩ (k * set.vmin) (k * set.vmax)) = o at hx ⊢
  generalize call (ArrSrc.xcorrelate ⟨s.array.sensors, sig⟩ set.vmin set.vmax) = o' at hx ⊢
  rcases o with e | x
  · rcases o' with e' | x'
    · cases hx; rfl
    · cases hx
  rcases o' with e' | x'
  · cases hx
  have hx' : x.sensors = x'.sensors.map (movedSensor k c) := by
    injection hx
  simp only []
  have hst : ({ movedState k c s with array := { (movedState k c s).array with sensors := x.sensors } } : State) =
      movedState k c { s with array := { s.array with sensors := x'.sensors } } := by
    rw [hx']; rfl
  rw [hst, pad_moved]
  rcases pad set { s with array := { s.array with sensors := x'.sensors } } with e | s
  · rfl
  simp only [Except.map]
  rw [show (movedState k c s).array = moved k c s.array from rfl, transform_moved c hankel geom hk env set henv hg]
  rcases transform env set s.array with e | t
  · rfl
  rfl

/-! ## The property -/

/-- **C150** (one record).  Positions along the line are measured from another origin and in another unit, and the limits
of offset and of velocity are stated in that unit: `x` becomes `k * x + c`, a velocity `k * v`.  A run on one file then
raises or waits exactly if it did before, at the same point and with the same exception; otherwise it returns the same
samples, times and frequencies, the same signal-to-noise ratio, the positions and velocities in the other unit, and
powers which differ by one common factor. -/
theorem C150_one_file (hankel : ℝ → ℂ) (geom : ℚ → ℚ → ℕ → List ℚ) {k : ℚ} (c : ℚ) (hk : 0 < k) (env : Env) (set : Settings)
    (henv : env.transforms = Builtin.transforms hankel geom)
    (hg : geom (k * set.vmin) (k * set.vmax) set.nvel.toNat = (geom set.vmin set.vmax set.nvel.toNat).map fun (v : ℚ) => k * v) :
    (∀ f n, f = .one n ∨ f = .many [n] →
      timeDomain (inCoordinates k c env) (inLengths k set) f = (timeDomain env set f).map (movedResult k c (powerFactor k set))) ∧
    (∀ f, single (inCoordinates k c env) (inLengths k set) f = (single env set f).map (movedResult k c (powerFactor k set))) := by
  have h1 : ∀ f n, f = .one n ∨ f = .many [n] →
      timeDomain (inCoordinates k c env) (inLengths k set) f = (timeDomain env set f).map (movedResult k c (powerFactor k set)) :=
    fun f n hf => timeDomain_moved c hankel geom hk env set henv hg f n hf
  refine ⟨h1, ?_⟩
  rintro (n | _ | ⟨n, _ | ⟨n', ns⟩⟩)
  · exact h1 _ n (Or.inl rfl)
  · rfl
  · exact h1 _ n (Or.inr rfl)
  · exact h1 (.one n) n (Or.inl rfl)

/-- **C150** (stacking in the frequency domain).  The same for the workflow which reads any number of files and stacks their
transforms. -/
theorem C150_frequency_domain (hankel : ℝ → ℂ) (geom : ℚ → ℚ → ℕ → List ℚ) {k : ℚ} (c : ℚ) (hk : 0 < k) (env : Env) (set : Settings)
    (henv : env.transforms = Builtin.transforms hankel geom)
    (hg : geom (k * set.vmin) (k * set.vmax) set.nvel.toNat = (geom set.vmin set.vmax set.nvel.toNat).map fun (v : ℚ) => k * v)
    (f : Fnames) :
    frequencyDomain (inCoordinates k c env) (inLengths k set) f =
      (frequencyDomain env set f).map (movedResult k c (powerFactor k set)) := by
  rcases f with n | ns
  · exact freqFiles_moved c hankel geom hk env set henv hg _
  · exact freqFiles_moved c hankel geom hk env set henv hg ns

/-- **C150** (cross-correlation).  The same for the workflow which correlates the record of one file with the source signal
of any number of files. -/
theorem C150_cross_correlation (hankel : ℝ → ℂ) (geom : ℚ → ℚ → ℕ → List ℚ) {k : ℚ} (c : ℚ) (hk : 0 < k) (env : Env) (set : Settings)
    (henv : env.transforms = Builtin.transforms hankel geom)
    (hg : geom (k * set.vmin) (k * set.vmax) set.nvel.toNat = (geom set.vmin set.vmax set.nvel.toNat).map fun (v : ℚ) => k * v)
    (n : String) (src : List String) (ch : ℤ) :
    xcorr (inCoordinates k c env) (inLengths k set) (.one n) src ch =
      (xcorr env set (.one n) src ch).map (movedResult k c (powerFactor k set)) :=
  xcorr_moved c hankel geom hk env set henv hg (.one n) n (Or.inl rfl) src ch

theorem powerFactor_pos {k : ℝ} (hk : 0 < k) (set : Settings) : 0 < powerFactor k set := by
  unfold powerFactor
  split_ifs <;> positivity

/-- **C150** (dispersion curve).  The velocities picked from the returned transform are those picked before, in the other
unit. -/
theorem C150_picked {k : ℚ} (c : ℚ) (hk : 0 < k) (set : Settings) (r : Result) (how : String) :
    Builtin.findPeakPower (movedResult k c (powerFactor k set) r).transform how =
      (Builtin.findPeakPower r.transform how).map fun vs => vs.map fun (v : ℝ) => k * v :=
  C144_picked (powerFactor_pos (by exact_mod_cast hk) set) k r.transform how

/-! ## Cases -/

/-- A run on the file of `pulseEnv` returns. -/
theorem pulse_returns {tr : String} (h : tr = "phaseshift" ∨ tr = "fk" ∨ tr = "fdbf") :
    ∃ r, timeDomain pulseEnv (pulseSet tr) (.one "a") = .ok r ∧ r.array = pulsePadded := by
  obtain ⟨t, ht, hf, hv⟩ := pulse_transform h
  have hraw : fromFiles pulseEnv (.one "a") = .ok pulseArr := by decide +kernel
  have hpre : Spec.Preprocessed pulseEnv (pulseSet tr) none (none, none) pulseArr pulseArr pulseArr pulseArr pulseArr
      pulsePadded := by
    refine ⟨?_, rfl, rfl, rfl, rfl, ?_⟩
    · show trimOffsetsFl pulseArr 0 .pinf = _
      decide +kernel
    · show Arr.zeroPad pulseArr (125 / 2) = _
      decide +kernel
  obtain ⟨r, hr, ea, et, -⟩ := C76_run_returns pulseEnv (pulseSet tr) (.one "a") pulseArr pulseArr pulseArr pulseArr
    pulseArr pulsePadded (none, none) t hraw (by decide) (by
      rintro ⟨p, q, h1, h2, h3, h4⟩
      cases h1
      exact absurd h3 (by decide +kernel)) hpre (by intro h; cases h) ht none (fun _ => rfl) (by intro h; cases h)
  exact ⟨r, hr, ea⟩

/-- The survey of `pulseEnv` in feet, measured from a mark 100 ft before the source: the run returns. -/
example : ∃ r, timeDomain (inCoordinates (10000 / 3048) 100 pulseEnv) (inLengths (10000 / 3048) (pulseSet "phaseshift")) (.one "a") = .ok r ∧
    r.array = moved (10000 / 3048) 100 pulsePadded ∧
    (moved (10000 / 3048) 100 pulsePadded).position = [100 + 20000 / 3048, 100 + 40000 / 3048, 100 + 80000 / 3048] := by
  obtain ⟨r, hr, ha⟩ := pulse_returns (Or.inl rfl)
  have := (C150_one_file (fun _ => 0) (fun _ _ _ => []) (k := 10000 / 3048) 100 (by norm_num) pulseEnv (pulseSet "phaseshift") rfl rfl).1
    (.one "a") "a" (Or.inl rfl)
  rw [hr] at this
  exact ⟨_, this, by simp [movedResult, ha], by decide +kernel⟩

/-- Two files stacked in the frequency domain. -/
example : ∃ r, frequencyDomain (inCoordinates 100 7 exRegEnv) (inLengths 100 exRegSet) (.many ["a", "b"]) = .ok r := by
  obtain ⟨r, hr⟩ := exReg_run
  have := C150_frequency_domain (fun _ => 1) (fun a _ n => List.replicate n a) (k := 100) 7 (by norm_num) exRegEnv exRegSet rfl
    (by simp) (.many ["a", "b"])
  rw [hr] at this
  exact ⟨_, this⟩

end Verif.Props
