import Verif.Props.Lengths
import Verif.Spec.Survey

/-!
# C150: the whole run in other coordinates
-/

open Complex

namespace Verif.Props
open Verif WT Spec Workflow

variable {k : ℚ} (c : ℚ)

/-! ## Arrays -/

theorem moved_sensors (k c : ℚ) (a : Arr) : (moved k c a).sensors = a.sensors.map (movedSensor k c) := rfl

theorem forSensors_moved (k c : ℚ) (f : ATS → Outcome ATS) : ∀ ss : List Sensor,
    Arr.forSensors f (ss.map (movedSensor k c)) = ((Arr.forSensors f ss).1.map (movedSensor k c), (Arr.forSensors f ss).2)
  | [] => rfl
  | s :: rest => by
    have ih := forSensors_moved k c f rest
    simp only [List.map_cons, Arr.forSensors]
    have e : (movedSensor k c s).ts = s.ts := rfl
    rw [e]
    rcases f s.ts with ⟨r, _ | ⟨⟩⟩
    · rfl
    · simp only [ih]
      rfl

theorem trim_moved (k c : ℚ) (a : Arr) (start stop : ℚ) :
    (moved k c a).trim start stop = (moved k c (a.trim start stop).1, (a.trim start stop).2) := by
  simp only [Arr.trim, moved_sensors, forSensors_moved]
  rfl

theorem zeroPad_moved (k c : ℚ) (a : Arr) (df : ℚ) :
    (moved k c a).zeroPad df = (moved k c (a.zeroPad df).1, (a.zeroPad df).2) := by
  simp only [Arr.zeroPad, moved_sensors, forSensors_moved]
  rfl

theorem affine_inj (hk : 0 < k) (x y : ℚ) : k * x + c = k * y + c ↔ x = y := by
  rw [add_left_inj, mul_right_inj' hk.ne']

theorem checkLoop_moved (hk : 0 < k) (ex : Sensor) : ∀ (ss : List Sensor) (ps : List ℚ),
    Arr.checkLoop (movedSensor k c ex) (ps.map fun (x : ℚ) => k * x + c) (ss.map (movedSensor k c)) = Arr.checkLoop ex ps ss
  | [], _ => rfl
  | s :: rest, ps => by
    have ih := checkLoop_moved hk ex rest (ps ++ [s.x])
    rw [List.map_append, List.map_cons, List.map_nil] at ih
    simp only [List.map_cons, Arr.checkLoop]
    have e1 : (movedSensor k c ex).isSimilar (movedSensor k c s) (.coll ["x", "y", "z"]) =
        ex.isSimilar s (.coll ["x", "y", "z"]) := by
      simp [Sensor.isSimilar, Excl.has, movedSensor]
    have e2 : ((movedSensor k c s).x ∈ ps.map fun (x : ℚ) => k * x + c) ↔ s.x ∈ ps := by
      simp only [movedSensor, List.mem_map, affine_inj c hk, exists_eq_right]
    have e3 : (movedSensor k c s).x = k * s.x + c := rfl
    rw [e1]
    by_cases h1 : (!ex.isSimilar s (.coll ["x", "y", "z"])) = true
    · rw [if_pos h1, if_pos h1]
    · rw [if_neg h1, if_neg h1]
      by_cases h2 : s.x ∈ ps
      · rw [if_pos h2, if_pos (e2.2 h2)]
      · rw [if_neg h2, if_neg (mt e2.1 h2), e3, ih]

theorem init_moved (hk : 0 < k) (ss : List Sensor) (src : Source) :
    Arr.init (ss.map (movedSensor k c)) ⟨k * src.x + c, k * src.y, k * src.z⟩ = (Arr.init ss src).map (moved k c) := by
  rcases ss with _ | ⟨ex, rest⟩
  · rfl
  have h := checkLoop_moved c hk ex rest [ex.x]
  simp only [List.map_cons, List.map_nil] at h
  simp only [List.map_cons, Arr.init]
  rw [show (movedSensor k c ex).x = k * ex.x + c from rfl, h]
  rcases Arr.checkLoop ex [ex.x] rest with e | ⟨⟩
  · rfl
  · simp only [Except.map, moved]
    congr 2
    rw [← List.map_cons]
    refine (List.map_insertionSort (fun a b : Sensor => a.x ≤ b.x) (fun a b : Sensor => a.x ≤ b.x) _ _ ?_).symm
    intro a _ b _
    simp only [movedSensor, add_le_add_iff_right]
    exact (mul_le_mul_iff_right₀ hk).symm

theorem copySensors_moved (k c : ℚ) : ∀ ss : List Sensor,
    Arr.copySensors (ss.map (movedSensor k c)) = (Arr.copySensors ss).map fun l => l.map (movedSensor k c)
  | [] => rfl
  | s :: rest => by
    simp only [List.map_cons, Arr.copySensors, copySensors_moved k c rest, Sensor.fromSensor, Sensor.init]
    have e : (movedSensor k c s).ts = s.ts := rfl
    rw [e]
    rcases ATS.init s.ts.amp s.ts.dt s.ts.nstacks s.ts.delay with e | t
    · rfl
    rcases Arr.copySensors rest with e | l
    · rfl
    rfl

theorem fromArray_moved (hk : 0 < k) (a : Arr) : (moved k c a).fromArray = (a.fromArray).map (moved k c) := by
  unfold Arr.fromArray
  rw [moved_sensors, copySensors_moved]
  rcases Arr.copySensors a.sensors with e | ss
  · rfl
  simp only [Except.map, bind, Except.bind]
  exact init_moved c hk ss a.source.fromSource

theorem position_moved (k c : ℚ) (a : Arr) : (moved k c a).position = a.position.map fun (x : ℚ) => k * x + c := by
  simp [Arr.position, moved, movedSensor, Function.comp_def]

theorem offsets_moved (hk : 0 < k) (a : Arr) : (moved k c a).offsets = a.offsets.map fun (x : ℚ) => k * x := by
  unfold Arr.offsets
  rw [position_moved]
  simp only [moved, List.map_map]
  refine List.map_congr_left fun p _ => ?_
  simp only [Function.comp]
  rw [show k * a.source.x + c - (k * p + c) = k * (a.source.x - p) by ring, abs_mul, abs_of_pos hk]

theorem flipped_moved (hk : 0 < k) (a : Arr) : (moved k c a).flippedTseriesAndOffsets = (enlarged k a).flippedTseriesAndOffsets := by
  rw [record_enlarged hk]
  unfold Arr.flippedTseriesAndOffsets Arr.flipRequired
  rw [position_moved, offsets_moved c hk, List.getLast?_map]
  have e : (moved k c a).timeseriesmatrix = a.timeseriesmatrix := by
    simp [Arr.timeseriesmatrix, moved, movedSensor, Function.comp_def]
  rw [e]
  rcases a.position.getLast? with _ | p
  · rfl
  have h : k * a.source.x + c > k * p + c ↔ a.source.x > p := by
    simp only [gt_iff_lt, add_lt_add_iff_right]
    exact mul_lt_mul_iff_right₀ hk
  simp only [Option.map_some, moved, bind, Except.bind]
  by_cases hp : a.source.x > p
  · simp [hp, h.2 hp, pure, Except.pure, Except.map]
  · simp [hp, mt h.1 hp, pure, Except.pure, Except.map]

theorem sourceInside_moved (hk : 0 < k) (a : Arr) : (moved k c a).sourceInside = a.sourceInside := by
  unfold Arr.sourceInside
  rw [position_moved, List.head?_map, List.getLast?_map]
  have h : ∀ x y : ℚ, k * x + c < k * y + c ↔ x < y := fun x y => by
    simp only [add_lt_add_iff_right]
    exact mul_lt_mul_iff_right₀ hk
  rcases a.position.head? with _ | p0
  · rfl
  rcases a.position.getLast? with _ | p1
  · rfl
  simp only [Option.map_some, moved, gt_iff_lt, h]

theorem check_moved (hk : 0 < k) (a : Arr) : check (moved k c a) = check a := by
  unfold check
  rw [sourceInside_moved c hk]

theorem trimOffsetsLoop_moved (hk : 0 < k) (mn mx : ℚ) : ∀ l : List (ℚ × Sensor),
    Arr.trimOffsetsLoop (k * mn) (k * mx) (l.map fun p => (k * p.1, movedSensor k c p.2)) =
      (Arr.trimOffsetsLoop mn mx l).map (movedSensor k c)
  | [] => rfl
  | (o, s) :: rest => by
    have ih := trimOffsetsLoop_moved hk mn mx rest
    have h : ∀ x y : ℚ, k * x < k * y ↔ x < y := fun x y => mul_lt_mul_iff_right₀ hk
    simp only [List.map_cons, Arr.trimOffsetsLoop, gt_iff_lt, h, ih]
    by_cases h1 : mn < o ∧ o < mx
    · by_cases h2 : mx < o
      · simp [h1, h2]
      · simp [h1, h2]
    · by_cases h2 : mx < o
      · simp [h1, h2]
      · simp [h1, h2]

theorem zip_moved (hk : 0 < k) (a : Arr) : (moved k c a).offsets.zip (moved k c a).sensors =
    (a.offsets.zip a.sensors).map fun p => (k * p.1, movedSensor k c p.2) := by
  rw [offsets_moved c hk, moved_sensors, List.zip_map]
  rfl

theorem trimOffsetsFl_moved (hk : 0 < k) (a : Arr) (mn : ℚ) (mx : Fl) :
    trimOffsetsFl (moved k c a) (k * mn) (times k mx) =
      (moved k c (trimOffsetsFl a mn mx).1, (trimOffsetsFl a mn mx).2) := by
  have h : ∀ x y : ℚ, k * x < k * y ↔ x < y := fun x y => mul_lt_mul_iff_right₀ hk
  match mx with
  | .fin q =>
    simp only [times, trimOffsetsFl, Arr.trimOffsets, zip_moved c hk, trimOffsetsLoop_moved c hk]
    rcases Arr.trimOffsetsLoop mn q (a.offsets.zip a.sensors) with _ | ⟨s, l⟩
    · rfl
    · rfl
  | .ninf => rfl
  | .nan => rfl
  | .pinf =>
    simp only [times, trimOffsetsFl, zip_moved c hk, List.filterMap_map, Function.comp_def]
    have e : ((a.offsets.zip a.sensors).filterMap fun p => if k * p.1 > k * mn then some (movedSensor k c p.2) else none) =
        ((a.offsets.zip a.sensors).filterMap fun p => if p.1 > mn then some p.2 else none).map (movedSensor k c) := by
      rw [List.map_filterMap]
      refine List.filterMap_congr fun p _ => ?_
      simp only [gt_iff_lt, h]
      split_ifs <;> rfl
    rw [e]
    generalize ((a.offsets.zip a.sensors).filterMap fun p => if p.1 > mn then some p.2 else none) = l
    rcases l with _ | ⟨s, l⟩
    · rfl
    · rfl

theorem detrend_moved (k c : ℚ) (env : Env) (a : Arr) : detrend env (moved k c a) = moved k c (detrend env a) := by
  simp [detrend, moved, movedSensor, Function.comp_def]

theorem lineIndices_moved (hk : 0 < k) (l : Arr.Line) (dt nd : ℚ) (ps : List ℚ) :
    Arr.lineIndices (movedLine k c l) dt nd (ps.map fun (x : ℚ) => k * x + c) = Arr.lineIndices l dt nd ps := by
  unfold Arr.lineIndices movedLine
  have e : k * l.x2 + c - (k * l.x1 + c) = k * (l.x2 - l.x1) := by ring
  simp only [e, mul_eq_zero, hk.ne', false_or]
  by_cases h : l.x2 - l.x1 = 0
  · rw [if_pos h, if_pos h]
  · rw [if_neg h, if_neg h]
    simp only [List.map_map, Function.comp_def]
    congr 1
    refine List.map_congr_left fun p _ => ?_
    have hs : (l.t2 - l.t1) / (k * (l.x2 - l.x1)) * (k * p + c - (k * l.x1 + c)) =
        (l.t2 - l.t1) / (l.x2 - l.x1) * (p - l.x1) := by
      have := hk.ne'
      field_simp
      ring
    rw [hs]

theorem muteLoop_moved (k c : ℚ) (tukey : ℕ → List ℚ) (n : ℕ) : ∀ (ss : List Sensor) (idx : List (ℤ × ℤ)),
    Arr.muteLoop tukey n (ss.map (movedSensor k c)) idx =
      ((Arr.muteLoop tukey n ss idx).1.map (movedSensor k c), (Arr.muteLoop tukey n ss idx).2)
  | [], idx => by simp [Arr.muteLoop]
  | s :: rest, [] => by simp [Arr.muteLoop]
  | s :: rest, (start, stop) :: idx => by
    have ih := muteLoop_moved k c tukey n rest idx
    simp only [List.map_cons, Arr.muteLoop]
    by_cases h : stop - start < 0
    · rw [if_pos h, if_pos h]; rfl
    · rw [if_neg h, if_neg h]
      rcases Arr.assignSlice n start stop (tukey (stop - start).toNat) with e | w
      · rfl
      · simp only [ih]
        rfl

theorem mute_moved (hk : 0 < k) (tukey : ℕ → List ℚ) (a : Arr) (start stop : Option Arr.Line) :
    (moved k c a).mute tukey (start.map (movedLine k c)) (stop.map (movedLine k c)) =
      (moved k c (a.mute tukey start stop).1, (a.mute tukey start stop).2) := by
  unfold Arr.mute
  rw [position_moved]
  rcases hs : a.sensors with _ | ⟨s0, rest⟩
  · simp [moved, hs]
  have hs' : (moved k c a).sensors = movedSensor k c s0 :: rest.map (movedSensor k c) := by simp [moved, hs]
  have hl := muteLoop_moved k c tukey s0.ts.nsamples (s0 :: rest)
  simp only [List.map_cons] at hl
  have hts : (movedSensor k c s0).ts = s0.ts := rfl
  rw [hs']
  simp only [hts]
  rcases start with _ | l
  · rcases stop with _ | m
    · simp only [Option.map_none, List.map_map, Function.comp_def, hl]
      rfl
    · simp only [Option.map_none, Option.map_some, List.map_map, Function.comp_def]
      have := lineIndices_moved c hk m s0.ts.dt |s0.ts.delay / s0.ts.dt| a.position
      rw [this]
      generalize Arr.lineIndices m s0.ts.dt |s0.ts.delay / s0.ts.dt| a.position = o
      rcases o with e | j
      · rfl
      · simp only [hl]
        rfl
  · rcases stop with _ | m
    · simp only [Option.map_none, Option.map_some, List.map_map, Function.comp_def]
      rw [lineIndices_moved c hk l]
      generalize Arr.lineIndices l s0.ts.dt |s0.ts.delay / s0.ts.dt| a.position = o
      rcases o with e | j
      · rfl
      · simp only [hl]
        rfl
    · simp only [Option.map_some]
      rw [lineIndices_moved c hk l, lineIndices_moved c hk m]
      generalize Arr.lineIndices l s0.ts.dt |s0.ts.delay / s0.ts.dt| a.position = o
      generalize Arr.lineIndices m s0.ts.dt |s0.ts.delay / s0.ts.dt| a.position = o'
      rcases o with e | j
      · rfl
      rcases o' with e | j'
      · rfl
      · simp only [hl]
        rfl

/-! ## The user -/

/-- The answers in the other coordinates. -/
def movedPicks (k c : ℚ) (l : List (List Interact.Pt)) : List (List Interact.Pt) :=
  l.map fun l => l.map fun p => (k * p.1 + c, p.2)

/-- The user in the other coordinates. -/
def movedUser (k c : ℚ) (u : Interact.User) : Interact.User := { u with picks := movedPicks k c u.picks }

theorem selectLoop_moved (k c : ℚ) : ∀ (picks : List (List Interact.Pt)) (left : ℕ) (presses : List (Option Bool)) (xs ys : List ℚ),
    Interact.selectLoop false left (movedPicks k c picks) presses (xs.map fun (x : ℚ) => k * x + c) ys =
      (Interact.selectLoop false left picks presses xs ys).map fun r =>
        (r.1.map (fun (x : ℚ) => k * x + c), r.2.1, movedUser k c r.2.2)
  | picks, 0, presses, xs, ys => by
    cases picks <;> rfl
  | [], left + 1, presses, xs, ys => rfl
  | vals :: picks, left + 1, presses, xs, ys => by
    simp only [movedPicks, List.map_cons, Interact.selectLoop, List.getLast?_map]
    rcases vals.getLast? with _ | ⟨x, y⟩
    · exact selectLoop_moved k c picks (left + 1) presses xs ys
    · rcases presses with _ | ⟨_ | _ | _, presses⟩
      · rfl
      · have := selectLoop_moved k c picks left presses (xs ++ [x]) (ys ++ [y])
        rw [List.map_append] at this
        exact this
      · have := selectLoop_moved k c picks left presses (xs ++ [x]) (ys ++ [y])
        rw [List.map_append] at this
        exact this
      · simp [movedUser, movedPicks]

theorem pickLine_moved (k c : ℚ) (wanted : Bool) (u : Interact.User) :
    Interact.pickLine wanted true (movedUser k c u) =
      (Interact.pickLine wanted true u).map fun r => (r.1.map (Option.map (movedLine k c)), movedUser k c r.2) := by
  unfold Interact.pickLine
  rcases wanted with _ | _
  · rfl
  simp only [if_true, Interact.ginputSession, Bool.false_eq_true, if_false]
  have h := selectLoop_moved k c u.picks (2 : ℤ).toNat u.presses [] []
  rw [List.map_nil] at h
  rw [show (movedUser k c u).picks = movedPicks k c u.picks from rfl, show (movedUser k c u).presses = u.presses from rfl, h]
  generalize Interact.selectLoop false (2 : ℤ).toNat u.picks u.presses [] [] = o
  rcases o with _ | ⟨xs, ys, u'⟩
  · rfl
  simp only [Option.map_some, Interact.parseLine]
  rcases xs with _ | ⟨x0, _ | ⟨x1, xs⟩⟩
  · rfl
  · rfl
  rcases ys with _ | ⟨y0, _ | ⟨y1, ys⟩⟩
  · rfl
  · rfl
  · rfl

theorem interactiveMute_moved (hk : 0 < k) (tukey : ℕ → List ℚ) (a : Arr) (u : Interact.User) :
    Interact.interactiveMute tukey (moved k c a) "both" true (movedUser k c u) =
      (Interact.interactiveMute tukey a "both" true u).map fun r =>
        (moved k c r.1, r.2.map fun l => (l.1.map (movedLine k c), l.2.map (movedLine k c))) := by
  unfold Interact.interactiveMute
  have hl : (moved k c a).sensors.length = a.sensors.length := by simp [moved]
  rw [hl]
  split_ifs with h2
  · rfl
  rw [pickLine_moved]
  generalize Interact.pickLine ("both" == "before" || "both" == "both") true u = o
  rcases o with _ | ⟨_ | start, u'⟩
  · rfl
  · rfl
  simp only [Option.map_some, Except.map]
  rw [pickLine_moved]
  generalize Interact.pickLine ("both" == "after" || "both" == "both") true u' = o
  rcases o with _ | ⟨_ | stop, u''⟩
  · rfl
  · rfl
  simp only [Option.map_some, Except.map, mute_moved c hk]
  rcases a.mute tukey start stop with ⟨a', _ | ⟨⟩⟩
  · rfl
  · rfl

/-! ## The steps of a workflow -/

theorem call_moved (k c : ℚ) (o : Outcome Arr) : call (moved k c o.1, o.2) = (call o).map (moved k c) := by
  rcases o with ⟨a, _ | ⟨⟩⟩
  · rfl
  · rfl

theorem wfTrimOffsets_moved (hk : 0 < k) (set : Settings) (s : State) :
    trimOffsets (inLengths k set) (movedState k c s) = (trimOffsets set s).map (movedState k c) := by
  unfold trimOffsets
  rw [show (movedState k c s).array = moved k c s.array from rfl,
    show (inLengths k set).minOffset = k * set.minOffset from rfl,
    show (inLengths k set).maxOffset = times k set.maxOffset from rfl, trimOffsetsFl_moved c hk, call_moved]
  rcases call (trimOffsetsFl s.array set.minOffset set.maxOffset) with e | a
  · rfl
  · rfl

theorem copyWindow_moved (hk : 0 < k) (a : Arr) (start stop : ℚ) :
    copyWindow (moved k c a) start stop = (copyWindow a start stop).map (moved k c) := by
  unfold copyWindow
  rw [fromArray_moved c hk]
  rcases a.fromArray with e | b
  · rfl
  change call ((moved k c b).trim start stop) = (call (b.trim start stop)).map (moved k c)
  rw [trim_moved, call_moved]

theorem selectNoise_moved (hk : 0 < k) (set : Settings) (s : State) :
    selectNoise (inLengths k set) (movedState k c s) = (selectNoise set s).map (movedState k c) := by
  unfold selectNoise
  have e : (movedState k c s).noise.isNone = s.noise.isNone := by simp [movedState]
  rw [e, show (inLengths k set).snrPerform = set.snrPerform from rfl]
  by_cases h : (set.snrPerform && s.noise.isNone) = true
  · rw [if_pos h, if_pos h, show (movedState k c s).array = moved k c s.array from rfl,
      show (inLengths k set).noiseBegin = set.noiseBegin from rfl,
      show (inLengths k set).noiseEnd = set.noiseEnd from rfl, copyWindow_moved c hk]
    rcases copyWindow s.array set.noiseBegin set.noiseEnd with e | w
    · rfl
    · rfl
  · rw [if_neg h, if_neg h]; rfl

theorem selectSignal_moved (hk : 0 < k) (set : Settings) (s : State) :
    selectSignal (inLengths k set) (movedState k c s) = (selectSignal set s).map (movedState k c) := by
  unfold selectSignal
  have e : (movedState k c s).signal.isNone = s.signal.isNone := by simp [movedState]
  rw [e, show (inLengths k set).snrPerform = set.snrPerform from rfl]
  by_cases h : (set.snrPerform && s.signal.isNone) = true
  · rw [if_pos h, if_pos h, show (movedState k c s).array = moved k c s.array from rfl,
      show (inLengths k set).signalBegin = set.signalBegin from rfl,
      show (inLengths k set).signalEnd = set.signalEnd from rfl, copyWindow_moved c hk]
    rcases copyWindow s.array set.signalBegin set.signalEnd with e | w
    · rfl
    · rfl
  · rw [if_neg h, if_neg h]; rfl

theorem trimTime_moved (k c : ℚ) (set : Settings) (s : State) :
    trimTime (inLengths k set) (movedState k c s) = (trimTime set s).map (movedState k c) := by
  unfold trimTime
  rw [show (inLengths k set).trimApply = set.trimApply from rfl]
  rcases set.trimApply with _ | _
  · rfl
  · simp only [if_true]
    rw [show (movedState k c s).array = moved k c s.array from rfl,
      show (inLengths k set).trimBegin = set.trimBegin from rfl,
      show (inLengths k set).trimEnd = set.trimEnd from rfl, trim_moved, call_moved]
    rcases call (s.array.trim set.trimBegin set.trimEnd) with e | a
    · rfl
    · rfl

theorem pad_moved (k c : ℚ) (set : Settings) (s : State) :
    pad (inLengths k set) (movedState k c s) = (pad set s).map (movedState k c) := by
  unfold pad
  rw [show (inLengths k set).padApply = set.padApply from rfl]
  rcases set.padApply with _ | _
  · rfl
  · simp only [if_true]
    rw [show (movedState k c s).array = moved k c s.array from rfl,
      show (inLengths k set).padDf = set.padDf from rfl, zeroPad_moved, call_moved]
    rcases call (s.array.zeroPad set.padDf) with e | a
    · rfl
    · rfl

theorem wfMute_moved (hk : 0 < k) (env : Env) (set : Settings) (s : State) :
    mute (inCoordinates k c env) (inLengths k set) (movedState k c s) = (mute env set s).map (movedState k c) := by
  unfold mute
  rw [show (inLengths k set).muteApply = set.muteApply from rfl]
  rcases set.muteApply with _ | _
  · rfl
  simp only [if_true]
  have e1 : (movedState k c s).signalStart.isNone = s.signalStart.isNone := by simp [movedState]
  have e2 : (movedState k c s).signalEnd.isNone = s.signalEnd.isNone := by simp [movedState]
  rw [e1, e2]
  by_cases h : (s.signalStart.isNone && s.signalEnd.isNone) = true
  · rw [if_pos h, if_pos h, show (inLengths k set).muteMethod = set.muteMethod from rfl]
    by_cases hm : set.muteMethod = "interactive"
    · rw [if_pos hm, if_pos hm]
      unfold interactive
      rw [show (inCoordinates k c env).tukey = env.tukey from rfl, show (inCoordinates k c env).user = movedUser k c env.user from rfl,
        show (movedState k c s).array = moved k c s.array from rfl, interactiveMute_moved c hk]
      generalize Interact.interactiveMute (env.tukey none) s.array "both" true env.user = o
      rcases o with _ | ⟨a, _ | l⟩
      · rfl
      · rfl
      · rfl
    · rw [if_neg hm, if_neg hm]; rfl
  · rw [if_neg h, if_neg h, show (inCoordinates k c env).tukey = env.tukey from rfl,
      show (inLengths k set).windowKwargs = set.windowKwargs from rfl,
      show (movedState k c s).array = moved k c s.array from rfl,
      show (movedState k c s).signalStart = s.signalStart.map (movedLine k c) from rfl,
      show (movedState k c s).signalEnd = s.signalEnd.map (movedLine k c) from rfl, mute_moved c hk, call_moved]
    rcases call (s.array.mute (env.tukey set.windowKwargs) s.signalStart s.signalEnd) with e | a
    · rfl
    · rfl

theorem snr_moved (k c : ℚ) (signal noise : Arr) (fmin fmax : ℚ) (p : Bool) (df : ℚ) :
    WT.snr (moved k c signal) (moved k c noise) fmin fmax p df =
      ((moved k c (WT.snr signal noise fmin fmax p df).1.1, moved k c (WT.snr signal noise fmin fmax p df).1.2),
        (WT.snr signal noise fmin fmax p df).2) := by
  have hpad : ∀ a : Arr, padIf p (moved k c a) df = (moved k c (padIf p a df).1, (padIf p a df).2) := by
    intro a
    unfold padIf
    cases p
    · rfl
    · exact zeroPad_moved k c a df
  have hcore : ∀ s n : Arr, snrCore (moved k c s) (moved k c n) fmin fmax = snrCore s n fmin fmax := by
    intro s n
    unfold snrCore
    have e : ∀ a : Arr, (moved k c a).timeseriesmatrix = a.timeseriesmatrix := by
      intro a
      simp [Arr.timeseriesmatrix, moved, movedSensor, Function.comp_def]
    rw [e, e, moved_sensors, moved_sensors]
    rcases n.sensors with _ | ⟨ns, nr⟩
    · rfl
    rcases s.sensors with _ | ⟨ss, sr⟩
    · rfl
    rfl
  unfold WT.snr
  rw [hpad, hpad]
  rcases padIf p noise df with ⟨n', _ | ⟨⟩⟩
  · rfl
  rcases padIf p signal df with ⟨s', _ | ⟨⟩⟩
  · rfl
  simp only [hcore]

theorem calculateSnr_moved (k c : ℚ) (set : Settings) (s : State) :
    calculateSnr (inLengths k set) (movedState k c s) =
      (calculateSnr set s).map fun r => (movedState k c r.1, r.2) := by
  unfold calculateSnr
  rw [show (inLengths k set).snrPerform = set.snrPerform from rfl]
  rcases set.snrPerform with _ | _
  · rfl
  simp only [if_true, movedState]
  rcases s.signal with _ | signal
  · rfl
  rcases s.noise with _ | noise
  · rfl
  simp only [Option.map_some, snr_moved]
  rw [show (inLengths k set).fmin = set.fmin from rfl, show (inLengths k set).fmax = set.fmax from rfl,
    show (inLengths k set).snrPad = set.snrPad from rfl, show (inLengths k set).snrDf = set.snrDf from rfl]
  rcases WT.snr signal noise set.fmin set.fmax set.snrPad set.snrDf with ⟨⟨s', n'⟩, _ | r⟩
  · rfl
  · rfl

/-! ## Reading -/

theorem sensor_mapped (env : Env) (t : Trace) :
    Sensor.fromTrace t { mapX := (inCoordinates k c env).mapX, mapY := (inCoordinates k c env).mapY } =
      (Sensor.fromTrace t { mapX := env.mapX, mapY := env.mapY }).map (movedSensor k c) := by
  have hi : ∀ (amp : List ℚ) (dt x y : ℚ) (n : ℤ) (d : ℚ),
      Sensor.init amp dt (k * x + c) (k * y) 0 n d = (Sensor.init amp dt x y 0 n d).map (movedSensor k c) := by
    intro amp dt x y n d
    unfold Sensor.init
    rcases ATS.init amp dt n d with e | r
    · rfl
    · simp [bind, Except.bind, pure, Except.pure, Except.map, movedSensor]
  unfold Sensor.fromTrace
  cases hf : t.format with
  | none => simp only [Sensor.traceFormat, hf, Option.map_none]; rfl
  | some f =>
    simp only [Sensor.traceFormat, hf, Option.map_some, if_true, Option.isNone_some, Bool.false_eq_true, if_false,
      Sensor.fromHeaderSeg2, Sensor.fromHeaderSu, inCoordinates, hi]
    by_cases h1 : f.toUpper = "SEG2"
    · rw [if_pos h1, if_pos h1]
      cases t.seg2 <;> rfl
    rw [if_neg h1, if_neg h1]
    by_cases h2 : f.toUpper = "SU"
    · rw [if_pos h2, if_pos h2]
      cases t.su <;> rfl
    rw [if_neg h2, if_neg h2]
    by_cases h3 : f.toUpper = "SEGY"
    · rw [if_pos h3, if_pos h3]
      cases t.segy <;> rfl
    rw [if_neg h3, if_neg h3]; rfl

theorem sensorsOf_mapped (env : Env) : ∀ ts : List Trace,
    Arr.sensorsOf { mapX := (inCoordinates k c env).mapX, mapY := (inCoordinates k c env).mapY } ts =
      (Arr.sensorsOf { mapX := env.mapX, mapY := env.mapY } ts).map fun l => l.map (movedSensor k c)
  | [] => rfl
  | t :: ts => by
    simp only [Arr.sensorsOf, sensor_mapped, sensorsOf_mapped env ts]
    rcases Sensor.fromTrace t { mapX := env.mapX, mapY := env.mapY } with e | s
    · rfl
    rcases Arr.sensorsOf { mapX := env.mapX, mapY := env.mapY } ts with e | ss
    · rfl
    rfl

theorem source_mapped (env : Env) (format : String) (t : Trace) :
    Arr.parseSource format (inCoordinates k c env).mapX (inCoordinates k c env).mapY t =
      (Arr.parseSource format env.mapX env.mapY t).map fun s => ⟨k * s.x + c, k * s.y, k * s.z⟩ := by
  have hh : ∀ b h, Arr.sourceFromHeader b h (inCoordinates k c env).mapX (inCoordinates k c env).mapY =
      (Arr.sourceFromHeader b h env.mapX env.mapY).map fun s => (⟨k * s.x + c, k * s.y, k * s.z⟩ : Source) := by
    intro b h
    unfold Arr.sourceFromHeader
    rcases Arr.checkUnits h with e | ⟨⟩
    · rfl
    simp only [bind, Except.bind]
    rcases Arr.headerInt h "scalar_to_be_applied_to_all_coordinates" with e | n
    · rfl
    simp only []
    rcases Arr.headerInt h "source_coordinate_x" with e | x
    · rfl
    simp only []
    generalize (if (b && decide (n = 0)) = true then (1 : ℤ) else n) = sc
    by_cases h0 : sc = 0
    · rw [if_pos h0, if_pos h0]; rfl
    · rw [if_neg h0, if_neg h0]
      simp only [pure, Except.pure]
      rcases Arr.headerInt h "source_coordinate_y" with e | y
      · rfl
      simp [Except.map, inCoordinates]
  unfold Arr.parseSource
  simp only [hh]
  split_ifs
  · rcases t.seg2 with _ | h
    · rfl
    simp only []
    rcases h.lookup "SOURCE_LOCATION" with _ | v
    · rfl
    simp only []
    rcases v.toFloat with _ | x
    · rfl
    simp [Except.map, inCoordinates]
  · rcases t.su with _ | h
    · rfl
    · rfl
  · rcases t.segy with _ | h
    · rfl
    · rfl
  · rfl

theorem fromFile_moved (hk : 0 < k) (env : Env) (f : Fnames) (n : String) (hf : f = .one n ∨ f = .many [n]) :
    fromFiles (inCoordinates k c env) f = (fromFiles env f).map (moved k c) := by
  have h : lift (Arr.fromFiles (inCoordinates k c env).fs [n] (inCoordinates k c env).mapX (inCoordinates k c env).mapY) =
      (lift (Arr.fromFiles env.fs [n] env.mapX env.mapY)).map (moved k c) := by
    unfold Arr.fromFiles
    dsimp only
    rw [show (inCoordinates k c env).fs = env.fs from rfl]
    rcases Arr.readFile env.fs n with e | traces
    · rfl
    simp only [sensorsOf_mapped]
    rcases Arr.sensorsOf { mapX := env.mapX, mapY := env.mapY } traces with e | ss
    · rfl
    simp only [Except.map]
    rcases traces.getLast? with _ | t
    · rfl
    simp only []
    rcases t.format with _ | fmt
    · rfl
    simp only [source_mapped]
    rcases Arr.parseSource fmt env.mapX env.mapY t with e | src
    · rfl
    simp only [Except.map]
    rw [init_moved c hk]
    rcases Arr.init ss src with e | a
    · rfl
    rfl
  rcases hf with rfl | rfl
  · exact h
  · exact h

end Verif.Props
