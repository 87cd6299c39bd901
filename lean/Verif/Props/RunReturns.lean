import Verif.Props.Copies
import Verif.Props.Workflow

/-!
# C76, C102: runs which return

The converse of `C76_steps`: when every step asked for succeeds, the run returns.
-/

namespace Verif.Props
open Verif Workflow

theorem check_not_between {a : Arr} (hne : a.sensors ≠ []) (h : ¬ Spec.SourceBetween a) : check a = .ok () := by
  have hp : a.position ≠ [] := by simpa [Arr.position] using hne
  unfold check Arr.sourceInside
  rw [List.head?_eq_some_head hp, List.getLast?_eq_some_getLast hp]
  have hb : (decide (a.source.x > a.position.head hp) && decide (a.source.x < a.position.getLast hp)) = false := by
    rw [Bool.eq_false_iff]
    intro hc
    simp only [Bool.and_eq_true, decide_eq_true_eq] at hc
    exact h ⟨_, _, List.head?_eq_some_head hp, List.getLast?_eq_some_getLast hp, hc.1, hc.2⟩
  simp only [hb]

/-- **C76** (completeness).  A source which is not between the receivers is no reason to refuse a run: if the
receiver selection, trimming, muting (between the lines the user picks), the windows, the ratio, padding and the
transform succeed one by one, the run returns exactly their results, and keeps the lines. -/
theorem C76_run_returns (env : Env) (set : Settings) (f : Fnames) (raw near level cut muted padded : Arr)
    (lines : Option Arr.Line × Option Arr.Line) (t : Transform) (hraw : fromFiles env f = .ok raw)
    (hne : raw.sensors ≠ []) (hsrc : ¬ Spec.SourceBetween raw)
    (hpre : Spec.Preprocessed env set none lines raw near level cut muted padded)
    (hmute : set.muteApply = true → set.muteMethod = "interactive" ∧
      Interact.interactiveMute (env.tukey none) cut "both" true env.user = some (muted, .ok lines))
    (htr : Spec.IsTransformOf env set padded t) (q : Option (List ℚ × List ℝ))
    (hno : set.snrPerform = false → q = none)
    (hsnr : set.snrPerform = true → ∃ noise signal windows q', q = some q' ∧
      Spec.IsWindow level set.noiseBegin set.noiseEnd noise ∧
      Spec.IsWindow muted set.signalBegin set.signalEnd signal ∧
      WT.snr signal noise set.fmin set.fmax set.snrPad set.snrDf = (windows, .ok q')) :
    ∃ r, timeDomain env set f = .ok r ∧ r.array = padded ∧ r.transform = t ∧ r.snr = q ∧
      (set.muteApply = true → r.final.signalStart = lines.1 ∧ r.final.signalEnd = lines.2) := by
  obtain ⟨p1, p2, p3, p4, p5, p6⟩ := hpre
  obtain ⟨tr, ht1, ht2⟩ := htr
  have hlevel : detrend env near = level := by
    obtain ⟨ls, lsrc⟩ := level
    simp only at p2 p3
    unfold detrend
    rw [p2, p3]
  have htrim : ∀ s : State, s.array = level → trimTime set s = .ok { s with array := cut } := by
    intro s hs
    unfold trimTime
    split_ifs with c
    · rw [if_pos c] at p4
      rw [hs, p4]; rfl
    · rw [if_neg c] at p4
      rw [p4, ← hs]; rfl
  have hpad : ∀ s : State, s.array = muted → Workflow.pad set s = .ok { s with array := padded } := by
    intro s hs
    unfold Workflow.pad
    split_ifs with c
    · rw [if_pos c] at p6
      rw [hs, p6]; rfl
    · rw [if_neg c] at p6
      rw [p6, ← hs]; rfl
  have hmut : ∀ (noise : Option Arr), ∃ l1 l2, Workflow.mute env set ⟨cut, none, none, noise, none⟩ =
      .ok ⟨muted, l1, l2, noise, none⟩ ∧ (set.muteApply = true → l1 = lines.1 ∧ l2 = lines.2) := by
    intro noise
    unfold Workflow.mute
    by_cases c : set.muteApply = true
    · obtain ⟨m1, m2⟩ := hmute c
      refine ⟨lines.1, lines.2, ?_, fun _ => ⟨rfl, rfl⟩⟩
      simp only [c, if_true, Option.isNone_none, Bool.and_self, m1, interactive, m2]
    · rw [if_neg c] at p5
      refine ⟨none, none, ?_, fun h => absurd h c⟩
      rw [if_neg c, p5]; rfl
  have htf : Workflow.transform env set padded = .ok t := by
    unfold Workflow.transform
    rw [ht1]
    simp only [lift, bind, Except.bind, ht2]
  rcases hp : set.snrPerform
  · obtain rfl := hno hp
    obtain ⟨l1, l2, hm, hl⟩ := hmut none
    refine ⟨⟨t, padded, none, ⟨padded, l1, l2, none, none⟩⟩, ?_, rfl, rfl, rfl, hl⟩
    unfold timeDomain
    rw [hraw]
    simp only [bind, Except.bind, check_not_between hne hsrc, Workflow.trimOffsets, State.new, p1, call, pure,
      Except.pure, hlevel, selectNoise, hp, Bool.false_and, Bool.false_eq_true, if_false, htrim, hm, selectSignal,
      calculateSnr, hpad, htf]
  · obtain ⟨noise, signal, windows, q', rfl, ⟨cn, n1, n2⟩, ⟨cs, g1, g2⟩, hs⟩ := hsnr hp
    obtain ⟨l1, l2, hm, hl⟩ := hmut (some noise)
    have hwn : copyWindow level set.noiseBegin set.noiseEnd = .ok noise := by
      unfold copyWindow
      rw [n1]
      simp only [lift, bind, Except.bind, n2, call]
    have hws : copyWindow muted set.signalBegin set.signalEnd = .ok signal := by
      unfold copyWindow
      rw [g1]
      simp only [lift, bind, Except.bind, g2, call]
    obtain ⟨w1, w2⟩ := windows
    refine ⟨⟨t, padded, some q', ⟨padded, l1, l2, some w2, some w1⟩⟩, ?_, rfl, rfl, rfl, hl⟩
    unfold timeDomain
    rw [hraw]
    simp only [bind, Except.bind, check_not_between hne hsrc, Workflow.trimOffsets, State.new, p1, call, pure,
      Except.pure, hlevel, selectNoise, hp, Bool.true_and, Option.isNone_none, if_true, hwn, htrim, hm, selectSignal,
      hws, calculateSnr, hs, hpad, htf]

/-- The hypotheses are met by the file "a", with the mute lines of the user, padding and a ratio. -/
example : ∃ raw near level cut muted padded lines t noise signal windows q,
    fromFiles exEnv (.one "a") = .ok raw ∧ raw.sensors ≠ [] ∧ ¬ Spec.SourceBetween raw ∧
    Spec.Preprocessed exEnv exMuteSet none lines raw near level cut muted padded ∧
    Interact.interactiveMute (exEnv.tukey none) cut "both" true exEnv.user = some (muted, .ok lines) ∧
    Spec.IsTransformOf exEnv exMuteSet padded t ∧
    Spec.IsWindow level exMuteSet.noiseBegin exMuteSet.noiseEnd noise ∧
    Spec.IsWindow muted exMuteSet.signalBegin exMuteSet.signalEnd signal ∧
    WT.snr signal noise exMuteSet.fmin exMuteSet.fmax exMuteSet.snrPad exMuteSet.snrDf = (windows, .ok q) := by
  have e : WT.keepIds (WT.binFrequencies 2 (500 : ℚ)) 100 600 1 = .ok [0, 1] := by decide +kernel
  have ed : (⟨[1, 2], 1 / 1000, 1, 0, 1⟩ : ATS).df = 500 := by decide +kernel
  have h := snrCore_eq (signal := exM) (noise := exA) (fmin := 100) (fmax := 600) (ids := [0, 1]) rfl rfl
    rfl (by rw [ed]; exact e)
  refine ⟨exA, exA, exA, exA, exM, exP, (some ⟨0, 0, 2, 0⟩, some ⟨0, 1 / 1000, 2, 1 / 1000⟩), _, exA, exM, (exM, exA),
    _, exA_read, by decide, check_ok exA_check, ⟨exA_near, rfl, by decide +kernel, rfl, ?_, ?_⟩, ?_, ⟨_, rfl, rfl⟩,
    copyWindow_ok exA_window, copyWindow_ok ?_, congrArg (Prod.mk (exM, exA)) h⟩
  · show Arr.mute _ _ _ _ = _
    decide +kernel
  · show Arr.zeroPad _ _ = _
    decide +kernel
  · decide +kernel
  · decide +kernel

/-! ## C102 -/

/-- A time window within a record. -/
def WithinRecord (r : ATS) (start stop : ℚ) : Prop :=
  r.amp ≠ [] ∧ r.delay ≤ start ∧ start ≤ stop ∧ stop ≤ r.delay + ((r.amp.length : ℚ) - 1) * r.dt

theorem trim_returns {r : ATS} {start stop : ℚ} (h : WithinRecord r start stop) :
    (r.trim start stop).2 = .ok () := by
  obtain ⟨hn, h1, h2, h3⟩ := h
  have hpos : 0 < r.nsamples := List.length_pos_iff.2 hn
  have ht : r.time ≠ [] := by
    intro h0
    have := ATS.time_length r
    rw [h0] at this
    simp at this; omega
  have hm : ∀ g : ℚ → ℚ, ∃ i, argmin (r.time.map g) = some i := by
    intro g
    rcases hg : argmin (r.time.map g) with _ | i
    · exfalso
      rcases hl : r.time.map g with _ | ⟨x, l⟩
      · exact ht (List.map_eq_nil_iff.1 hl)
      · rw [hl] at hg
        simp [argmin] at hg
    · exact ⟨i, rfl⟩
  obtain ⟨i, hi⟩ := hm fun t => |t - start|
  obtain ⟨j, hj⟩ := hm fun t => |t - stop|
  have h0 : r.time.head? = some r.delay := by
    rw [List.head?_eq_getElem?, List.getElem?_eq_getElem (by rw [ATS.time_length]; exact hpos)]
    simp [ATS.time_getElem]
  have hl : r.time.getLast? = some (r.delay + ((r.amp.length : ℚ) - 1) * r.dt) := by
    rw [List.getLast?_eq_getElem?, ATS.time_length,
      List.getElem?_eq_getElem (by rw [ATS.time_length]; omega)]
    simp only [ATS.time_getElem, Option.some.injEq]
    rw [Nat.cast_sub (by omega)]
    show _ = _ + ((r.nsamples : ℚ) - 1) * _
    push_cast; ring
  unfold ATS.trim ATS.trimBase
  simp only [hi, hj, h0, hl]
  have hc : (decide (start < r.delay) || decide (start > stop) ||
      decide (stop > r.delay + ((r.amp.length : ℚ) - 1) * r.dt)) = false := by
    simp only [Bool.or_eq_false_iff, decide_eq_false_iff_not, not_lt]
    exact ⟨⟨h1, h2⟩, h3⟩
  simp only [hc]
  rfl

/-- A window of an array which starts at or before the trigger. -/
theorem window_returns {a : Arr} (ha : Spec.Consistent a) {start stop : ℚ}
    (h : ∀ s ∈ a.sensors, 0 < s.ts.nstacks ∧ s.ts.delay ≤ 0 ∧ WithinRecord s.ts start stop) :
    ∃ w, Spec.IsWindow a start stop w := by
  obtain ⟨k1, k2⟩ := C08_array_copy_partial a ha
  obtain ⟨c, hc⟩ := k1.2 fun s hs => ⟨(h s hs).1, (h s hs).2.1⟩
  obtain ⟨-, hf⟩ := k2 c hc
  have hall : ∀ t ∈ c.sensors, ((fun r : ATS => r.trim start stop) t.ts).2 = .ok () := by
    intro t ht
    obtain ⟨s, hs, hst⟩ := forall₂_mem_right hf ht
    obtain ⟨-, -, h4⟩ := h s hs
    obtain ⟨-, -, -, e1, e2, e3, -, -⟩ := hst
    refine trim_returns ?_
    unfold WithinRecord
    rw [e1, e2, e3]
    exact h4
  have := Arr.forSensors_ok (fun r : ATS => r.trim start stop) c.sensors hall
  refine ⟨(c.trim start stop).1, c, hc, ?_⟩
  unfold Arr.trim
  rw [this]

theorem stackTraces_pos : ∀ {ss : List Sensor} {ts : List Trace} {ss' : List Sensor},
    (∀ s ∈ ss, 0 < s.ts.nstacks ∧ s.ts.delay ≤ 0) → Arr.stackTraces ss ts = .ok ss' →
    ∀ s ∈ ss', 0 < s.ts.nstacks ∧ s.ts.delay ≤ 0 := by
  intro ss
  induction ss with
  | nil =>
    intro ts ss' _ h
    simp only [Arr.stackTraces, Except.ok.injEq] at h
    subst h
    simp
  | cons s ss ih =>
    intro ts ss' hp h
    rcases ts with _ | ⟨t, ts⟩
    · simp only [Arr.stackTraces, Except.ok.injEq] at h
      subst h
      exact hp
    unfold Arr.stackTraces at h
    rcases hn : Sensor.fromTrace t {} with e | n
    · rw [hn] at h; simp at h
    rw [hn] at h
    rcases hs : s.stackAppend n with ⟨s1, e | ⟨⟨⟩⟩⟩
    · simp [hs] at h
    simp only [hs] at h
    rcases hr : Arr.stackTraces ss ts with e | ss1
    · rw [hr] at h; simp at h
    rw [hr, Except.ok.injEq] at h
    subst h
    have h1 := ih (fun s hs => hp s (List.mem_cons_of_mem _ hs)) hr
    intro x hx
    rcases List.mem_cons.1 hx with rfl | hx
    · have hpos := (Sensor.fromTrace_pos rfl hn).1
      have hs0 := hp s List.mem_cons_self
      obtain ⟨-, -, -, -, -, -, ha⟩ := (Sensor.stackAppend_ok_iff s n x).1 hs
      unfold ATS.stackAppend at ha
      split_ifs at ha
      · simp at ha
      · simp only [Prod.mk.injEq, and_true] at ha
        rw [← ha]
        exact ⟨by simp only; omega, hs0.2⟩
    · exact h1 x hx

/-- Every sensor of an array read from files has a positive stack count and does not start after the trigger. -/
theorem fromFiles_pos {env : Env} {f : Fnames} {raw : Arr} (h : fromFiles env f = .ok raw) :
    ∀ s ∈ raw.sensors, 0 < s.ts.nstacks ∧ s.ts.delay ≤ 0 := by
  have key : ∀ names, Arr.fromFiles env.fs names env.mapX env.mapY = .ok raw →
      ∀ s ∈ raw.sensors, 0 < s.ts.nstacks ∧ s.ts.delay ≤ 0 := by
    intro names h
    rcases names with _ | ⟨f0, rest⟩
    · simp [Arr.fromFiles] at h
    obtain ⟨traces, sensors, t, format, obj, -, hf, -, -, -, hi, hst⟩ := Arr.fromFiles_ok h
    have hobj : ∀ s ∈ obj.sensors, 0 < s.ts.nstacks ∧ s.ts.delay ≤ 0 := by
      intro s hs
      obtain ⟨tr, -, h1⟩ := forall₂_mem_right hf ((Arr.init_consistent hi).2.1.mem_iff.1 hs)
      obtain ⟨a, b, -⟩ := Sensor.fromTrace_pos rfl h1
      exact ⟨a, b⟩
    have hloop : ∀ (fs : List String) (ss ss' : List Sensor), (∀ s ∈ ss, 0 < s.ts.nstacks ∧ s.ts.delay ≤ 0) →
        Arr.stackFiles env.fs format env.mapX env.mapY raw.source ss fs = .ok ss' →
        ∀ s ∈ ss', 0 < s.ts.nstacks ∧ s.ts.delay ≤ 0 := by
      intro fs
      induction fs with
      | nil =>
        intro ss ss' hp h
        simp only [Arr.stackFiles, Except.ok.injEq] at h
        subst h; exact hp
      | cons f fs ih =>
        intro ss ss' hp h
        unfold Arr.stackFiles at h
        split at h
        · simp at h
        · simp at h
        · split at h
          · simp at h
          · split_ifs at h
            split at h
            · simp at h
            · rename_i ss1 h1
              exact ih ss1 ss' (stackTraces_pos hp h1) h
    exact hloop rest _ _ hobj hst
  exact key _ (lift_ok h)

theorem trimOffsetsFl_sublist {a b : Arr} {mn : ℚ} {mx : Fl} (h : trimOffsetsFl a mn mx = (b, .ok ())) :
    b.sensors.Sublist a.sensors ∧ b.sensors ≠ [] := by
  unfold trimOffsetsFl at h
  split at h
  · have := Arr.trimOffsets_sublist a mn ‹ℚ›
    rw [h] at this
    refine ⟨this, ?_⟩
    unfold Arr.trimOffsets at h
    split at h
    · simp at h
    · rename_i heq
      cases h
      exact heq
  · split at h
    · simp at h
    · rename_i heq
      cases h
      refine ⟨?_, heq⟩
      simp only
      rw [Arr.offsets_zip, List.filterMap_map]
      have : ((fun p : ℚ × Sensor => if p.1 > mn then some p.2 else none) ∘
          fun s => (Spec.offset a.source s, s)) = fun s => if Spec.offset a.source s > mn then some s else none := rfl
      rw [this]
      have h2 : (fun s => if Spec.offset a.source s > mn then some s else none) =
          Option.guard fun s => decide (Spec.offset a.source s > mn) := by
        funext s
        simp [Option.guard]
      rw [h2, List.filterMap_eq_filter]
      exact List.filter_sublist
  · simp at h

/-- What pre-processing keeps: sensors which agree stay so, stack counts stay positive. -/
theorem preprocessed_keeps {env : Env} {set : Settings} {kw : Option Kwargs}
    {lines : Option Arr.Line × Option Arr.Line} {raw near level cut muted padded : Arr}
    (hd : ∀ l, (env.detrend l).length = l.length) (hc : Spec.Consistent raw)
    (hp : ∀ s ∈ raw.sensors, 0 < s.ts.nstacks ∧ s.ts.delay ≤ 0)
    (h : Spec.Preprocessed env set kw lines raw near level cut muted padded) :
    (Spec.Consistent level ∧ ∀ s ∈ level.sensors, 0 < s.ts.nstacks ∧ s.ts.delay ≤ 0) ∧
    (Spec.Consistent muted ∧ ∀ s ∈ muted.sensors, 0 < s.ts.nstacks) := by
  obtain ⟨p1, p2, p3, p4, p5, p6⟩ := h
  obtain ⟨n1, n2⟩ := trimOffsetsFl_sublist p1
  have cn := Arr.consistent_of_sublist hc n1 n2
  have cl : Spec.Consistent level := by
    refine Arr.consistent_of_frame cn ?_
    rw [p3, List.forall₂_map_right_iff]
    exact List.forall₂_same.2 fun s _ => ⟨rfl, rfl, rfl, rfl, (hd _).symm⟩
  have pl : ∀ s ∈ level.sensors, 0 < s.ts.nstacks ∧ s.ts.delay ≤ 0 := by
    intro s hs
    rw [p3] at hs
    obtain ⟨s0, hs0, rfl⟩ := List.mem_map.1 hs
    exact hp s0 (n1.subset hs0)
  have cc : Spec.Consistent cut ∧ ∀ s ∈ cut.sensors, 0 < s.ts.nstacks := by
    split_ifs at p4
    · have h1 := Arr.forSensors_consistent (ATS.trim_metaFun set.trimBegin set.trimEnd) cl
      unfold Arr.trim at p4
      simp only [Prod.mk.injEq] at p4
      rw [← p4.1]
      refine ⟨h1, ?_⟩
      have key : ∀ l : List Sensor, (∀ s ∈ l, 0 < s.ts.nstacks) →
          ∀ s ∈ (Arr.forSensors (fun r => r.trim set.trimBegin set.trimEnd) l).1, 0 < s.ts.nstacks := by
        intro l
        induction l with
        | nil => intro _ s hs; simp [Arr.forSensors] at hs
        | cons x l ih =>
          intro hl s hs
          have hx : 0 < (x.ts.trim set.trimBegin set.trimEnd).1.nstacks := by
            rcases ATS.trim_sameMeta (show Spec.SameMeta x.ts x.ts from ⟨rfl, rfl, rfl, rfl⟩) set.trimBegin set.trimEnd with ⟨i, j, e, -⟩ | ⟨e, e1, -⟩
            · rw [e]; exact hl x List.mem_cons_self
            · rw [e1]; exact hl x List.mem_cons_self
          unfold Arr.forSensors at hs
          rcases ho : x.ts.trim set.trimBegin set.trimEnd with ⟨r, e | u⟩
          · rw [ho] at hs hx
            simp only [List.mem_cons] at hs
            rcases hs with rfl | hs
            · exact hx
            · exact hl s (List.mem_cons_of_mem _ hs)
          · rw [ho] at hs hx
            simp only [List.mem_cons] at hs
            rcases hs with rfl | hs
            · exact hx
            · exact ih (fun s hs => hl s (List.mem_cons_of_mem _ hs)) s hs
      exact key _ fun s hs => (pl s hs).1
    · rw [p4]; exact ⟨cl, fun s hs => (pl s hs).1⟩
  refine ⟨⟨cl, pl⟩, ?_⟩
  split_ifs at p5
  · have h1 := Arr.mute_consistent (env.tukey kw) cc.1 lines.1 lines.2
    have h2 := (Arr.mute_frame (env.tukey kw) cc.1 lines.1 lines.2).1
    rw [p5] at h1 h2
    refine ⟨h1, fun s hs => ?_⟩
    obtain ⟨s0, hs0, h3⟩ := forall₂_mem_right h2 hs
    have := cc.2 s0 hs0
    rw [h3.2.2.2.1.2.1] at this
    exact this
  · rw [p5]; exact cc

/-- **C102** (partial).  A run which returns without a signal-to-noise ratio also returns with one, and with the same
array, if the sensors of the file agree, both windows are within the records they are taken from, the record of the
signal window does not start after the trigger, and the ratio of the two windows can be formed.  Missing: a trim which
starts after the trigger, where the claim is false (`C102_late_trim_fails`). -/
theorem C102_early_record_partial (env : Env) (set : Settings) (f : Fnames) (raw : Arr) (r : Result)
    (hraw : fromFiles env f = .ok raw) (hc : Spec.Consistent raw)
    (hd : ∀ l, (env.detrend l).length = l.length)
    (h : timeDomain env { set with snrPerform := false } f = .ok r)
    (htr : ∀ t, env.transforms.createClass set.transform = .ok t →
      ∀ a, t a { set with snrPerform := true } = t a { set with snrPerform := false })
    (hw : ∀ lines near level cut muted, Spec.Preprocessed env set none lines raw near level cut muted r.array →
      (∀ s ∈ level.sensors, WithinRecord s.ts set.noiseBegin set.noiseEnd) ∧
      (∀ s ∈ muted.sensors, s.ts.delay ≤ 0 ∧ WithinRecord s.ts set.signalBegin set.signalEnd) ∧
      ∀ noise signal, Spec.IsWindow level set.noiseBegin set.noiseEnd noise →
        Spec.IsWindow muted set.signalBegin set.signalEnd signal →
        ∃ windows q, WT.snr signal noise set.fmin set.fmax set.snrPad set.snrDf = (windows, .ok q)) :
    ∃ r', timeDomain env { set with snrPerform := true } f = .ok r' ∧ r'.snr.isSome ∧
      r'.array = r.array ∧ r'.transform = r.transform := by
  have h0 := h
  unfold timeDomain at h
  obtain ⟨raw', hraw', h⟩ := bind_ok h
  rw [hraw] at hraw'
  cases hraw'
  obtain ⟨⟨⟩, hcheck, h⟩ := bind_ok h
  obtain ⟨s1, h1, h⟩ := bind_ok h
  obtain ⟨s2, h2, h⟩ := bind_ok h
  obtain ⟨s3, h3, h⟩ := bind_ok h
  obtain ⟨s4, h4, h⟩ := bind_ok h
  obtain ⟨s5, h5, h⟩ := bind_ok h
  obtain ⟨⟨s6, q⟩, h6, h⟩ := bind_ok h
  simp only at h
  obtain ⟨s7, h7, h⟩ := bind_ok h
  obtain ⟨t, h8, h⟩ := bind_ok h
  cases h
  obtain ⟨near, e1, rfl⟩ := trimOffsets_ok h1
  obtain ⟨e2, n1, n2, n3⟩ := selectNoise_ok h2
  obtain ⟨cut, e3, rfl⟩ := trimTime_ok h3
  obtain ⟨muted, e4, e4', -⟩ := mute_ok_first h4 (by rw [e2]; rfl) (by rw [e2]; rfl)
  obtain ⟨e5, g1, g2, g3⟩ := selectSignal_ok h5
  obtain ⟨e6, k1, k2⟩ := calculateSnr_ok h6
  obtain ⟨padded, e7, rfl⟩ := pad_ok h7
  have a2 : s2.array = detrend env near := by rw [e2]
  have a4 : s4.array = muted := by rw [e4]
  have a5 : s5.array = muted := by rw [e5, a4]
  have a6 : s6.array = muted := by rw [e6, a5]
  have hpre : Spec.Preprocessed env set none (s4.signalStart, s4.signalEnd) raw near (detrend env near) cut muted
      padded := by
    refine ⟨e1, rfl, rfl, ?_, e4', ?_⟩
    · rw [a2] at e3; exact e3
    · rw [a6] at e7; exact e7
  obtain ⟨w1, w2, w3⟩ := hw _ _ _ _ _ hpre
  obtain ⟨⟨cl, pl⟩, cm, pm⟩ := preprocessed_keeps hd hc (fromFiles_pos hraw) hpre
  obtain ⟨noise, hn⟩ := window_returns cl fun s hs => ⟨(pl s hs).1, (pl s hs).2, w1 s hs⟩
  obtain ⟨signal, hsig⟩ := window_returns cm fun s hs => ⟨pm s hs, w2 s hs⟩
  obtain ⟨windows, q', hq⟩ := w3 _ _ hn hsig
  obtain ⟨tr, ht1, ht2⟩ := transform_ok h8
  have hmute : set.muteApply = true → set.muteMethod = "interactive" ∧
      Interact.interactiveMute (env.tukey none) cut "both" true env.user =
        some (muted, .ok (s4.signalStart, s4.signalEnd)) := by
    intro c
    unfold Workflow.mute at h4
    rw [e2] at h4
    simp only [c, if_true, State.new, Option.isNone_none, Bool.and_self] at h4
    split_ifs at h4 with c2
    refine ⟨c2, ?_⟩
    unfold interactive at h4
    simp only at h4
    split at h4
    · cases h4
    · cases h4
    · rename_i a l hi
      rw [hi]
      simp only [Except.ok.injEq] at h4
      rw [← h4] at a4 ⊢
      simp only at a4
      rw [a4]
  obtain ⟨r', hr', ha, hb, hcc, -⟩ := C76_run_returns env { set with snrPerform := true } f raw near (detrend env near) cut
    muted padded (s4.signalStart, s4.signalEnd) t hraw hc.1 (check_ok hcheck) ⟨hpre.1, hpre.2, hpre.3, hpre.4, hpre.5, hpre.6⟩
    hmute ⟨tr, ht1, by rw [htr tr ht1]; exact ht2⟩ (some q') (fun hf => by cases hf)
    (fun _ => ⟨noise, signal, windows, q', rfl, hn, hsig, hq⟩)
  exact ⟨r', hr', by rw [hcc]; rfl, ha, hb⟩

/-- The hypotheses are met by a run on the file "a". -/
example : ∃ r', timeDomain exEnv { exSet with snrPerform := true } (.one "a") = .ok r' ∧ r'.snr.isSome := by
  have hdet : Workflow.detrend exEnv exA = exA := by decide +kernel
  have hrun : timeDomain exEnv { exSet with snrPerform := false } (.one "a") =
      .ok ⟨⟨1, [0, 500], [200], [[((1 : ℚ) : ℂ), ((2 : ℚ) : ℂ)]]⟩, exA, none, ⟨exA, none, none, none, none⟩⟩ := by
    unfold timeDomain
    rw [exA_read]
    simp only [bind, Except.bind, exA_check, Workflow.trimOffsets, State.new, exSet, exA_near, call, pure,
      Except.pure, hdet, selectNoise, Bool.false_and, trimTime, Bool.false_eq_true, if_false, Workflow.mute,
      selectSignal, calculateSnr, Workflow.pad, Workflow.transform]
    rfl
  obtain ⟨q, hq⟩ := exA_snr
  obtain ⟨r', h1, h2, -⟩ := C102_early_record_partial exEnv exSet (.one "a") exA _ exA_read
    ⟨by decide, by decide +kernel, by unfold Spec.SameMeta; decide +kernel⟩ (fun _ => rfl) hrun
    (fun t ht a => by cases ht; rfl) (by
      rintro lines near level cut muted ⟨p1, p2, p3, p4, p5, -⟩
      rw [show exSet.minOffset = 0 from rfl, show exSet.maxOffset = .pinf from rfl, exA_near] at p1
      obtain rfl := (Prod.mk.inj p1).1
      have hl : level = exA := by
        obtain ⟨ls, lsrc⟩ := level
        simp only at p2 p3
        rw [p2, p3]
        exact hdet
      have hcut : cut = level := p4
      have hmut : muted = cut := p5
      subst hmut hcut hl
      have hu : ∀ w, Spec.IsWindow exA 0 (1 / 1000) w → w = exA := by
        rintro w ⟨c, hc, ht⟩
        have hcw : copyWindow exA 0 (1 / 1000) = .ok w := by
          unfold copyWindow
          rw [hc]
          simp only [lift, bind, Except.bind, ht, call]
        rw [exA_window] at hcw
        cases hcw; rfl
      refine ⟨by unfold WithinRecord; decide +kernel, by unfold WithinRecord; decide +kernel, ?_⟩
      intro noise signal hn hs
      rw [hu _ hn, hu _ hs]
      exact ⟨_, q, hq⟩)
  exact ⟨r', h1, h2⟩

end Verif.Props
