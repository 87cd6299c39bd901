import Verif.Props.Recount
import Verif.Props.XcorrWorkflow

/-!
# C185: a common factor in the stack counts, with a source signal
-/

namespace Verif.Props

namespace Recounted
open Verif WT Spec Workflow Spec.Recount

variable {k : ℤ}

theorem xcorrLoop_array (hk : 0 < k) (sig : SourceSig) (b : ℤ × ℤ) (ss0 ss0' : List Sensor) : ∀ ss : List Sensor,
    ArrSrc.xcorrLoop ⟨ss0', sig⟩ b (ss.map (sensor k)) =
      (ArrSrc.xcorrLoop ⟨ss0, sig⟩ b ss).map fun l => l.map (sensor k)
  | [] => rfl
  | s :: ss => by
    simp only [List.map_cons, ArrSrc.xcorrLoop, xcorrLoop_array hk sig b ss0 ss0' ss, ArrSrc.xcorrSensor, Sensor.init]
    have e : ATS.init (pySlice (ATS.correlate (sensor k s).ts.amp sig.amp) b.1 b.2) (sensor k s).ts.dt (sensor k s).ts.nstacks 0 =
        (ATS.init (pySlice (ATS.correlate s.ts.amp sig.amp) b.1 b.2) s.ts.dt s.ts.nstacks 0).map (series k) :=
      init_series hk _ _ _ _
    rw [e]
    rcases ATS.init (pySlice (ATS.correlate s.ts.amp sig.amp) b.1 b.2) s.ts.dt s.ts.nstacks 0 with e | r
    · rfl
    rcases ArrSrc.xcorrLoop ⟨ss0, sig⟩ b ss with e | l
    · rfl
    rfl

theorem sliceBounds_array (k : ℤ) (ss : List Sensor) (sig : SourceSig) (vmin vmax : ℚ) :
    ArrSrc.sliceBounds ⟨ss.map (sensor k), sig⟩ vmin vmax = ArrSrc.sliceBounds ⟨ss, sig⟩ vmin vmax := by
  unfold ArrSrc.sliceBounds
  have ho : ((ss.map (sensor k)).map fun s => |sig.src.x - s.x|) = ss.map fun s => |sig.src.x - s.x| := by
    simp only [List.map_map]
    rfl
  simp only [ho]

theorem xcorrelate_array (hk : 0 < k) (ss : List Sensor) (sig : SourceSig) (vmin vmax : ℚ) :
    call (ArrSrc.xcorrelate ⟨ss.map (sensor k), sig⟩ vmin vmax) =
        (call (ArrSrc.xcorrelate ⟨ss, sig⟩ vmin vmax)).map fun x => { x with sensors := x.sensors.map (sensor k) } := by
  unfold ArrSrc.xcorrelate
  rw [sliceBounds_array]
  rcases ArrSrc.sliceBounds ⟨ss, sig⟩ vmin vmax with e | b
  · rfl
  simp only []
  rw [xcorrLoop_array hk sig b ss]
  rcases ArrSrc.xcorrLoop ⟨ss, sig⟩ b ss with e | l
  · rfl
  rfl

theorem fromFilesWithSource_array (hk : 0 < k) (env : Env) (f g : Fnames) (src : List String) (ch : ℤ)
    (h : Workflow.fromFiles env g = (Workflow.fromFiles env f).map (array k)) :
    fromFilesWithSource env g src ch = (fromFilesWithSource env f src ch).map fun r => (array k r.1, r.2) := by
  unfold fromFilesWithSource
  rw [h]
  rcases Workflow.fromFiles env f with e | raw
  · rfl
  simp only [Except.map, bind, Except.bind]
  rcases Workflow.lift (readSignals env.fs ch src) with e | _ | ⟨⟨s0, dt⟩, rest⟩
  · rfl
  · rfl
  simp only []
  generalize Workflow.lift (ArrSrc.meanSignal _) = o
  rcases o with e | amp
  · rfl
  simp only []
  rw [array_sensors, show (array k raw).source = raw.source from rfl, init_array hk]
  rcases Arr.init raw.sensors raw.source with e | a
  · rfl
  rfl

theorem lastTime_array (k : ℤ) (a : Arr) : lastTime (array k a) = lastTime a := by
  unfold lastTime
  rw [array_sensors]
  rcases a.sensors with _ | ⟨s, rest⟩
  · rfl
  rfl

theorem xcorr_array (hk : 0 < k) (hankel : ℝ → ℂ) (geom : ℚ → ℚ → ℕ → List ℚ) (env : Env) (set : Settings)
    (henv : env.transforms = Builtin.transforms hankel geom) (f g : Fnames) (src src' : List String) (ch : ℤ)
    (h : fromFilesWithSource env g src' ch = (fromFilesWithSource env f src ch).map fun r => (array k r.1, r.2)) :
    xcorr env set g src' ch = (xcorr env set f src ch).map (result k) := by
  unfold xcorr
  rw [h]
  rcases fromFilesWithSource env f src ch with e | ⟨raw, sig⟩
  · rfl
  simp only [Except.map, bind, Except.bind, lastTime_array]
  rcases lastTime raw with e | tl
  · rfl
  simp only []
  rw [trim_array, call_array]
  rcases call (raw.trim 0 tl) with e | raw
  · rfl
  simp only [Except.map]
  by_cases hs : sig.amp = []
  · rw [if_pos hs, if_pos hs]; rfl
  rw [if_neg hs, if_neg hs]
  simp only [pure, Except.pure, check_array]
  rcases check raw with e | ⟨⟩
  · rfl
  simp only []
  rw [show State.new (array k raw) = state k (State.new raw) from rfl, trimOffsets_state]
  rcases trimOffsets set (State.new raw) with e | s
  · rfl
  simp only [Except.map]
  have hd : ({ state k s with array := detrend env (state k s).array } : State) =
      state k { s with array := detrend env s.array } := by
    unfold state
    simp only [State.mk.injEq, and_true]
    exact detrend_array k env s.array
  rw [hd, selectNoise_state hk]
  rcases selectNoise set { s with array := detrend env s.array } with e | s
  · rfl
  simp only [Except.map, trimTime_state]
  rcases trimTime set s with e | s
  · rfl
  simp only [Except.map, mute_state]
  rcases Workflow.mute env set s with e | s
  · rfl
  simp only [Except.map, selectSignal_state hk]
  rcases selectSignal set s with e | s
  · rfl
  simp only [Except.map, calculateSnr_state]
  rcases calculateSnr set s with e | ⟨s, snr⟩
  · rfl
  simp only []
  rw [show (state k s).array.sensors = s.array.sensors.map (sensor k) from rfl, xcorrelate_array hk]
  rcases call (ArrSrc.xcorrelate ⟨s.array.sensors, sig⟩ set.vmin set.vmax) with e | x
  · rfl
  simp only [Except.map]
  rw [show ({ state k s with array := { (state k s).array with sensors := x.sensors.map (sensor k) } } : State) =
    state k { s with array := { s.array with sensors := x.sensors } } from rfl, pad_state]
  rcases pad set { s with array := { s.array with sensors := x.sensors } } with e | s
  · rfl
  simp only [Except.map]
  rw [show (state k s).array = array k s.array from rfl, transform_array k hankel geom env set henv]
  rcases transform env set s.array with e | t
  · rfl
  rfl

/-! ## The source signal -/

theorem readSignals_append (fs : Fs) (ch : ℤ) : ∀ (l l' : List String),
    readSignals fs ch (l ++ l') = (readSignals fs ch l).bind fun a => (readSignals fs ch l').map fun b => a ++ b
  | [], l' => by
    simp only [List.nil_append, readSignals, Except.bind]
    rcases readSignals fs ch l' with e | b
    · rfl
    · rfl
  | f :: rest, l' => by
    simp only [List.cons_append, readSignals, bind, Except.bind]
    rcases Arr.readFile fs f with e | ts
    · rfl
    simp only []
    rcases pyIndex ts ch with _ | t
    · rfl
    simp only []
    rw [readSignals_append fs ch rest l']
    rcases readSignals fs ch rest with e | a
    · rfl
    simp only [Except.bind]
    rcases readSignals fs ch l' with e | b
    · rfl
    rfl

theorem readSignals_repeated (fs : Fs) (ch : ℤ) (l : List String) : ∀ m : ℕ,
    readSignals fs ch (List.replicate (m + 1) l).flatten =
      (readSignals fs ch l).map fun a => (List.replicate (m + 1) a).flatten
  | 0 => by
    simp only [zero_add, List.replicate_one, List.flatten_singleton]
    rcases readSignals fs ch l with e | a
    · rfl
    · rfl
  | m + 1 => by
    rw [List.replicate_succ, List.flatten_cons, readSignals_append, readSignals_repeated fs ch l m]
    rcases readSignals fs ch l with e | a
    · rfl
    · simp only [Except.bind, Except.map]
      rw [List.replicate_succ (n := m + 1), List.flatten_cons]

/-- What the signals of a list add to a sum does not depend on the sum. -/
theorem addSignals_add : ∀ (sigs : List (List ℚ)) (l r l' : List ℚ), l'.length = l.length →
    sigs.foldl ArrSrc.addSignal (.ok l) = .ok r →
    r.length = l.length ∧ sigs.foldl ArrSrc.addSignal (.ok l') = .ok (List.zipWith (· + ·) l' (List.zipWith (· - ·) r l))
  | [], l, r, l', hl, h => by
    simp only [List.foldl_nil, Except.ok.injEq] at h ⊢
    subst h
    refine ⟨rfl, List.ext_getElem (by simp [hl]) fun i g1 g2 => by simp⟩
  | s :: sigs, l, r, l', hl, h => by
    have hstop : ∀ (e : PyErr) (sigs : List (List ℚ)), sigs.foldl ArrSrc.addSignal (.error e) = .error e := by
      intro e sigs
      induction sigs with
      | nil => rfl
      | cons _ _ ih => exact ih
    simp only [List.foldl_cons] at h ⊢
    by_cases h1 : s.length = l.length
    · have e1 : ArrSrc.addSignal (.ok l) s = .ok (List.zipWith (· + ·) l s) := by simp [ArrSrc.addSignal, h1]
      have e2 : ArrSrc.addSignal (.ok l') s = .ok (List.zipWith (· + ·) l' s) := by simp [ArrSrc.addSignal, h1, hl]
      rw [e1] at h
      obtain ⟨a1, a2⟩ := addSignals_add sigs _ r (List.zipWith (· + ·) l' s) (by simp [hl]) h
      rw [List.length_zipWith] at a1
      refine ⟨by omega, ?_⟩
      rw [e2, a2]
      congr 1
      apply List.ext_getElem
      · simp only [List.length_zipWith]; omega
      · intro i g1 g2
        simp only [List.getElem_zipWith]
        ring
    · by_cases h2 : s.length = 1
      · have e1 : ArrSrc.addSignal (.ok l) s = .ok (l.map (· + s.getD 0 0)) := by
          simp only [ArrSrc.addSignal, if_neg h1, if_pos h2]
        have h1' : ¬ s.length = l'.length := by rw [hl]; exact h1
        have e2 : ArrSrc.addSignal (.ok l') s = .ok (l'.map (· + s.getD 0 0)) := by
          simp only [ArrSrc.addSignal, if_neg h1', if_pos h2]
        rw [e1] at h
        obtain ⟨a1, a2⟩ := addSignals_add sigs _ r (l'.map (· + s.getD 0 0)) (by simp [hl]) h
        rw [List.length_map] at a1
        refine ⟨a1, ?_⟩
        rw [e2, a2]
        congr 1
        apply List.ext_getElem
        · simp only [List.length_zipWith, List.length_map]
        · intro i g1 g2
          simp only [List.getElem_zipWith, List.getElem_map]
          ring
      · have e1 : ArrSrc.addSignal (.ok l) s = .error .valueError := by simp only [ArrSrc.addSignal, if_neg h1, if_neg h2]
        rw [e1, hstop] at h
        cases h

theorem addSignals_stops (e : PyErr) : ∀ sigs : List (List ℚ), sigs.foldl ArrSrc.addSignal (.error e) = .error e
  | [] => rfl
  | _ :: sigs => addSignals_stops e sigs

/-- The mean of signals which are all listed `m + 1` times. -/
theorem meanSignal_repeated (s0 : List ℚ) (sigs : List (List ℚ)) (m : ℕ) :
    ArrSrc.meanSignal (List.replicate (m + 1) (s0 :: sigs)).flatten = ArrSrc.meanSignal (s0 :: sigs) := by
  rw [List.replicate_succ, List.flatten_cons, List.cons_append]
  unfold ArrSrc.meanSignal
  simp only [List.foldl_append]
  rcases h : sigs.foldl ArrSrc.addSignal (.ok s0) with e | r
  · rw [addSignals_stops]
  have hl := (addSignals_add sigs s0 r s0 rfl h).1
  -- the sum after any number of further passes
  have pass : ∀ (m : ℕ) (c : ℚ), (List.replicate m (s0 :: sigs)).flatten.foldl ArrSrc.addSignal (.ok (r.map (c * ·))) =
      .ok (r.map ((c + m) * ·)) := by
    intro m
    induction m with
    | zero => intro c; simp
    | succ m ih =>
      intro c
      rw [List.replicate_succ, List.flatten_cons, List.foldl_append, List.foldl_cons]
      have e1 : ArrSrc.addSignal (.ok (r.map (c * ·))) s0 = .ok (List.zipWith (· + ·) (r.map (c * ·)) s0) := by
        simp [ArrSrc.addSignal, hl]
      rw [e1, (addSignals_add sigs s0 r _ (by simp [hl]) h).2]
      have e2 : List.zipWith (· + ·) (List.zipWith (· + ·) (r.map (c * ·)) s0) (List.zipWith (· - ·) r s0) =
          r.map ((c + 1) * ·) := by
        apply List.ext_getElem
        · simp [hl]
        · intro i g1 g2
          simp only [List.getElem_zipWith, List.getElem_map]
          ring
      rw [e2, ih (c + 1)]
      congr 2
      funext x
      push_cast
      ring
  have h1 := pass m 1
  simp only [one_mul, List.map_id'] at h1
  simp only [h1, List.map_map]
  congr 1
  refine List.map_congr_left fun x _ => ?_
  simp only [Function.comp, List.length_append, List.length_flatten, List.map_replicate, List.sum_replicate, List.length_cons,
    smul_eq_mul]
  push_cast
  have e : ((sigs.length : ℚ) + m * (sigs.length + 1)) + 1 = (1 + m) * (sigs.length + 1) := by ring
  rw [e]
  have p1 : (0 : ℚ) < 1 + m := by positivity
  have p2 : (0 : ℚ) < sigs.length + 1 := by positivity
  field_simp

theorem sources_repeated (env : Env) (f : Fnames) (src : List String) (ch : ℤ) (m : ℕ) :
    fromFilesWithSource env f (List.replicate (m + 1) src).flatten ch = fromFilesWithSource env f src ch := by
  unfold fromFilesWithSource
  rw [readSignals_repeated]
  rcases Workflow.fromFiles env f with e | raw
  · rfl
  simp only [bind, Except.bind]
  rcases readSignals env.fs ch src with e | _ | ⟨⟨s0, dt⟩, rest⟩
  · rfl
  · have : (List.replicate (m + 1) ([] : List (List ℚ × ℚ))).flatten = [] := by simp
    simp only [Except.map, this]
  · have hr : (List.replicate (m + 1) ((s0, dt) :: rest)).flatten =
        (s0, dt) :: (rest ++ (List.replicate m ((s0, dt) :: rest)).flatten) := by
      rw [List.replicate_succ, List.flatten_cons, List.cons_append]
    have hm := meanSignal_repeated s0 (rest.map fun p => p.1) m
    have hr' : (List.replicate (m + 1) (s0 :: rest.map fun p => p.1)).flatten =
        s0 :: ((rest ++ (List.replicate m ((s0, dt) :: rest)).flatten).map fun p => p.1) := by
      rw [List.replicate_succ, List.flatten_cons, List.cons_append, List.map_append, List.map_flatten, List.map_replicate]
      rfl
    rw [hr'] at hm
    simp only [Except.map, hr, Workflow.lift, hm]

end Recounted

open Verif Workflow Recounted

/-- **C185** (source signals).  The source files given `m + 1` times over have the same mean signal. -/
theorem C185_repeated_sources (env : Env) (f : Fnames) (src : List String) (ch : ℤ) (m : ℕ) :
    fromFilesWithSource env f (List.replicate (m + 1) src).flatten ch = fromFilesWithSource env f src ch :=
  sources_repeated env f src ch m

/-- **C185** (cross-correlation).  Every shot listed `m + 1` times over, with its source file: the cross-correlation workflow
returns the same image and signal-to-noise ratio, and the stack counts are multiplied; or it stops for the same reason.  The
number of repetitions of the source files may be another. -/
theorem C185_cross_correlation (hankel : ℝ → ℂ) (geom : ℚ → ℚ → ℕ → List ℚ) (env : Env) (set : Settings)
    (henv : env.transforms = Builtin.transforms hankel geom) (hx : env.mapX = id) (hy : env.mapY = id)
    (format : String) (src : Source) (n : ℕ) (f : String) (rest : List String) (hf : Orderly env.fs format src n f)
    (sources : List String) (ch : ℤ) (m m' : ℕ) :
    xcorr env set (.many (List.replicate (m + 1) (f :: rest)).flatten) (List.replicate (m' + 1) sources).flatten ch =
      (xcorr env set (.many (f :: rest)) sources ch).map (Spec.Recount.result ((m : ℤ) + 1)) := by
  have hk : (0 : ℤ) < (m : ℤ) + 1 := by omega
  refine xcorr_array hk hankel geom env set henv _ _ _ _ ch ?_
  rw [sources_repeated]
  refine fromFilesWithSource_array hk env _ _ sources ch ?_
  unfold Workflow.fromFiles
  simp only [hx, hy, C185_repeated_files env.fs format src n f rest hf m]
  rcases Arr.fromFiles env.fs (f :: rest) id id with e | a
  · rfl
  · rfl

/-- A shot listed three times and its source signal twice: the workflow returns, with the image of the shot. -/
example : ∃ r, xcorr sweepEnv (pulseSet "phaseshift") (.many ["a"]) ["s"] 0 = .ok r ∧
    xcorr sweepEnv (pulseSet "phaseshift") (.many ["a", "a", "a"]) ["s", "s"] 0 = .ok (Spec.Recount.result 3 r) := by
  obtain ⟨r, hr, -⟩ := sweep_returns (tr := "phaseshift") (Or.inl rfl)
  have hr' : xcorr sweepEnv (pulseSet "phaseshift") (.many ["a"]) ["s"] 0 = .ok r := hr
  have ho : Orderly sweepEnv.fs "SEG2" ⟨0, 0, 0⟩ 3 "a" := by
    have h := pulse_orderly "a"
    have hfs : sweepEnv.fs "a" = pulseEnv.fs "a" := by simp [sweepEnv]
    refine ⟨⟨pulseArr, ?_⟩, ?_, ?_, ?_, ?_⟩
    · have h : Arr.fromFiles sweepEnv.fs ["a"] id id = .ok pulseArr := by decide +kernel
      exact h
    · rw [hfs]; exact h.channels
    · rw [hfs]; exact h.formats
    · rw [hfs]; exact h.source
    · rw [hfs]; exact h.ascending
  have h := C185_cross_correlation (fun _ => 0) (fun _ _ _ => []) sweepEnv (pulseSet "phaseshift") rfl rfl rfl "SEG2"
    ⟨0, 0, 0⟩ 3 "a" [] ho ["s"] 0 2 1
  rw [hr'] at h
  exact ⟨r, hr', h⟩

end Verif.Props
