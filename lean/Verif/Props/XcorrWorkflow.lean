import Verif.Props.SurveyRun
import Verif.Props.XCorrelate
import Verif.Spec.CrossCorrelation

/-!
# C151 — the cross-correlation workflow
-/

namespace Verif.Props
open Verif WT Spec Workflow

theorem lift_ok {α : Type} {x : Except PyErr α} {a : α} (h : Workflow.lift x = .ok a) : x = .ok a := by
  rcases x with e | b
  · cases h
  · cases h; rfl

theorem call_ok' {σ : Type} {o : Outcome σ} {s : σ} (h : call o = .ok s) : o = (s, .ok ()) := by
  rcases o with ⟨t, _ | ⟨⟩⟩
  · cases h
  · cases h; rfl

theorem readSignals_eq {fs : Fs} {ch : ℤ} (signal : String → Trace) : ∀ {src : List String},
    (∀ n ∈ src, ∃ ts, Arr.readFile fs n = .ok ts ∧ pyIndex ts ch = some (signal n)) →
    readSignals fs ch src = .ok (src.map fun n => ((signal n).data, (signal n).delta))
  | [], _ => rfl
  | n :: src, h => by
    obtain ⟨ts, h1, h2⟩ := h n List.mem_cons_self
    unfold readSignals
    rw [h1, readSignals_eq signal (src := src) fun m hm => h m (List.mem_cons_of_mem _ hm)]
    simp only [bind, Except.bind, h2, pure, Except.pure, List.map_cons]

/-- **C94** (from the files).  If the receiver files give an array and channel `ch` of every source file has `N` samples,
the array with source signal has these receivers, and its signal is, sample by sample, the mean of that channel over all
source files, with the position of the shot and the time step of the first source file. -/
theorem C94_from_files (env : Env) (f : Fnames) (n0 : String) (src : List String) (ch : ℤ) (signal : String → Trace) (N : ℕ)
    (hread : ∀ n ∈ n0 :: src, ∃ ts, Arr.readFile env.fs n = .ok ts ∧ pyIndex ts ch = some (signal n))
    (hlen : ∀ n ∈ n0 :: src, (signal n).data.length = N) (a b : Arr) (ha : fromFiles env f = .ok a)
    (hb : Arr.init a.sensors a.source = .ok b) :
    ∃ sig, fromFilesWithSource env f (n0 :: src) ch = .ok (b, sig) ∧ sig.src = b.source ∧ sig.dt = (signal n0).delta ∧
      sig.amp.length = N ∧
      ∀ i < N, sig.amp[i]? =
        some (((n0 :: src).map fun n => (signal n).data.getD i 0).sum / (n0 :: src).length) := by
  obtain ⟨out, h1, h2, h3⟩ := C94_source_signal_is_mean ((n0 :: src).map fun n => (signal n).data) N (by simp)
    (by simpa using hlen)
  refine ⟨⟨b.source, out, (signal n0).delta⟩, ?_, rfl, rfl, h2, ?_⟩
  · unfold fromFilesWithSource
    rw [ha, readSignals_eq signal hread]
    simp only [bind, Except.bind, Workflow.lift, pure, Except.pure, List.map_cons, List.map_map]
    rw [show ArrSrc.meanSignal ((signal n0).data :: src.map ((fun p : List ℚ × ℚ => p.1) ∘ fun n =>
      ((signal n).data, (signal n).delta))) = .ok out from h1, hb]
  · intro i hi
    rw [h3 i hi, List.map_map, List.length_map]
    rfl

/-- The order of the source files makes no difference to the signal. -/
theorem C94_file_order (env : Env) (f : Fnames) (n0 n1 : String) (src src' : List String) (ch : ℤ) (signal : String → Trace)
    (N : ℕ) (hread : ∀ n ∈ n0 :: src, ∃ ts, Arr.readFile env.fs n = .ok ts ∧ pyIndex ts ch = some (signal n))
    (hlen : ∀ n ∈ n0 :: src, (signal n).data.length = N) (hp : (n0 :: src).Perm (n1 :: src')) (a b : Arr)
    (ha : fromFiles env f = .ok a) (hb : Arr.init a.sensors a.source = .ok b) :
    ∃ sig sig', fromFilesWithSource env f (n0 :: src) ch = .ok (b, sig) ∧
      fromFilesWithSource env f (n1 :: src') ch = .ok (b, sig') ∧ sig.src = sig'.src ∧ sig.amp = sig'.amp := by
  obtain ⟨s, h1, h2, -, h4, h5⟩ := C94_from_files env f n0 src ch signal N hread hlen a b ha hb
  obtain ⟨s', g1, g2, -, g4, g5⟩ := C94_from_files env f n1 src' ch signal N (fun n hn => hread n (hp.mem_iff.2 hn))
    (fun n hn => hlen n (hp.mem_iff.2 hn)) a b ha hb
  refine ⟨s, s', h1, g1, by rw [h2, g2], List.ext_getElem? fun i => ?_⟩
  by_cases hi : i < N
  · rw [h5 i hi, g5 i hi, (hp.map _).sum_eq, hp.length_eq]
  · rw [List.getElem?_eq_none (by omega), List.getElem?_eq_none (by omega)]

/-- Two source files: the signal is the mean of their second channels. -/
example : ∃ sig, fromFilesWithSource exEnv (.one "a") ["a", "b"] 1 = .ok (exA, sig) ∧ sig.src = ⟨-5, 0, 0⟩ ∧
    sig.amp = [5, 2] ∧ sig.dt = 1 / 1000 := ⟨⟨⟨-5, 0, 0⟩, [5, 2], 1 / 1000⟩, by decide +kernel, rfl, rfl, rfl⟩

/-- **C151** (steps).  A run of the cross-correlation workflow which returns has done exactly this: the record was read
and cut at time zero and at its last sample; the source is not between the receivers; receivers were selected by offset,
detrended, trimmed, muted between the lines picked by the user, then correlated with the source signal, and only then
padded and transformed.  The noise window is taken from the detrended record before trimming and muting, the signal window
from the muted record; neither is correlated. -/
theorem C151_steps (env : Env) (set : Settings) (f : Fnames) (src : List String) (ch : ℤ) (r : Result)
    (h : xcorr env set f src ch = .ok r) :
    ∃ raw near level cut muted sig,
      RecordWithSignal env f src ch raw sig ∧ ¬ SourceBetween raw ∧
      Preprocessed env { set with padApply := false } none (r.final.signalStart, r.final.signalEnd)
        raw near level cut muted muted ∧
      Correlated set sig muted r.array ∧ IsTransformOf env set r.array r.transform ∧
      (set.snrPerform = false → r.snr = none) ∧
      (set.snrPerform = true → ∃ noise signal windows q,
        IsWindow level set.noiseBegin set.noiseEnd noise ∧ IsWindow muted set.signalBegin set.signalEnd signal ∧
        WT.snr signal noise set.fmin set.fmax set.snrPad set.snrDf = (windows, .ok q) ∧ r.snr = some q) := by
  unfold xcorr at h
  obtain ⟨⟨raw0, sig⟩, hread, h⟩ := bind_ok h
  simp only at h
  obtain ⟨tl, htl, h⟩ := bind_ok h
  obtain ⟨raw, hcut, h⟩ := bind_ok h
  by_cases hs : sig.amp = []
  · rw [if_pos hs] at h; cases h
  rw [if_neg hs] at h
  obtain ⟨⟨⟩, hcheck, h⟩ := bind_ok h
  obtain ⟨s1, h1, h⟩ := bind_ok h
  obtain ⟨s2, h2, h⟩ := bind_ok h
  obtain ⟨s3, h3, h⟩ := bind_ok h
  obtain ⟨s4, h4, h⟩ := bind_ok h
  obtain ⟨s5, h5, h⟩ := bind_ok h
  obtain ⟨⟨s6, q⟩, h6, h⟩ := bind_ok h
  simp only at h
  obtain ⟨x, hx, h⟩ := bind_ok h
  obtain ⟨s7, h7, h⟩ := bind_ok h
  obtain ⟨t, h8, h⟩ := bind_ok h
  cases h
  obtain ⟨near, e1, rfl⟩ := trimOffsets_ok h1
  obtain ⟨e2, n1, n2, n3⟩ := selectNoise_ok h2
  obtain ⟨cut, e3, rfl⟩ := trimTime_ok h3
  obtain ⟨muted, e4, e4', -⟩ := mute_ok_first h4 (by rw [e2]; rfl) (by rw [e2]; rfl)
  obtain ⟨e5, g1, g2, g3⟩ := selectSignal_ok h5
  obtain ⟨e6, k1, k2⟩ := calculateSnr_ok h6
  obtain ⟨padded, e7, rfl⟩ := pad_ok h7
  have a2 : s2.array = detrend env near := by rw [e2]
  have a4 : s4.array = muted := by rw [e4]
  have a5 : s5.array = muted := by rw [e5, a4]
  have a6 : s6.array = muted := by rw [e6, a5]
  have l1 : s6.signalStart = s4.signalStart := by rw [e6, e5]
  have l2 : s6.signalEnd = s4.signalEnd := by rw [e6, e5]
  have e4' : if set.muteApply then cut.mute (env.tukey none) s6.signalStart s6.signalEnd = (muted, .ok ()) else muted = cut := by
    rw [l1, l2]; exact e4'
  refine ⟨raw, near, detrend env near, cut, muted, sig, ?_, check_ok hcheck, ⟨e1, rfl, rfl, ?_, e4', ?_⟩, ?_, transform_ok h8, ?_, ?_⟩
  · unfold fromFilesWithSource at hread
    obtain ⟨a, ha, hread⟩ := bind_ok hread
    obtain ⟨signals, hsig, hread⟩ := bind_ok hread
    rcases signals with _ | ⟨⟨s0, dt⟩, rest⟩
    · cases hread
    simp only at hread
    obtain ⟨amp, hamp, hread⟩ := bind_ok hread
    obtain ⟨sorted, hsorted, hread⟩ := bind_ok hread
    cases hread
    unfold lastTime at htl
    rcases hss : raw0.sensors with _ | ⟨s, ss⟩
    · rw [hss] at htl; cases htl
    rw [hss] at htl
    simp only at htl
    rcases hm : Arr.maxList s.ts.time with _ | t
    · rw [hm] at htl; cases htl
    rw [hm] at htl
    cases htl
    exact ⟨a, raw0, (s0, dt) :: rest, s, _, ha, lift_ok hsorted, lift_ok hsig, lift_ok hamp, rfl, rfl, hs, by rw [hss]; rfl,
      hm, call_ok' hcut⟩
  · rw [a2] at e3; exact e3
  · rfl
  · rw [a6] at hx e7
    exact ⟨x, call_ok' hx, e7⟩
  · intro hf; exact (k1 hf).2
  · intro hp
    obtain ⟨noise, hn, hw⟩ := n1 hp rfl
    have hs4 : s4.signal = none := by rw [e4]; show s2.signal = none; rw [e2]; rfl
    obtain ⟨signal, hs, hw'⟩ := g1 hp hs4
    obtain ⟨signal', noise', sp, np, q', j1, j2, j3, j4, j5, j6⟩ := k2 hp
    rw [hs] at j1
    have hn5 : s5.noise = some noise := by
      rw [e5]; show s4.noise = _; rw [e4]; exact hn
    rw [hn5] at j2
    cases j1; cases j2
    exact ⟨noise, signal, (sp, np), q', hw, by rw [← a4]; exact hw', j3, j4⟩

/-- **C151** (completeness).  If these steps succeed one by one, the run returns exactly their results. -/
theorem C151_run_returns (env : Env) (set : Settings) (f : Fnames) (src : List String) (ch : ℤ)
    (raw near level cut muted result : Arr) (lines : Option Arr.Line × Option Arr.Line) (sig : SourceSig) (t : Transform)
    (hrec : RecordWithSignal env f src ch raw sig) (hne : raw.sensors ≠ []) (hsrc : ¬ SourceBetween raw)
    (hpre : Preprocessed env { set with padApply := false } none lines raw near level cut muted muted)
    (hmute : set.muteApply = true → set.muteMethod = "interactive" ∧
      Interact.interactiveMute (env.tukey none) cut "both" true env.user = some (muted, .ok lines))
    (hcorr : Correlated set sig muted result) (htr : IsTransformOf env set result t) (q : Option (List ℚ × List ℝ))
    (hno : set.snrPerform = false → q = none)
    (hsnr : set.snrPerform = true → ∃ noise signal windows q', q = some q' ∧
      IsWindow level set.noiseBegin set.noiseEnd noise ∧ IsWindow muted set.signalBegin set.signalEnd signal ∧
      WT.snr signal noise set.fmin set.fmax set.snrPad set.snrDf = (windows, .ok q')) :
    ∃ r, xcorr env set f src ch = .ok r ∧ r.array = result ∧ r.transform = t ∧ r.snr = q := by
  obtain ⟨p1, p2, p3, p4, p5, -⟩ := hpre
  obtain ⟨tr, ht1, ht2⟩ := htr
  obtain ⟨a, sorted, signals, s0, tl, r1, r2, r3, r4, r5, r6, r7, r8, r9, r10⟩ := hrec
  obtain ⟨x, x1, x2⟩ := hcorr
  simp only at p1 p4 p5
  have hread : fromFilesWithSource env f src ch = .ok (sorted, sig) := by
    unfold fromFilesWithSource
    rw [r1, r3]
    rcases signals with _ | ⟨⟨s, dt⟩, rest⟩
    · cases r5
    simp only [bind, Except.bind, Workflow.lift, pure, Except.pure]
    rw [show ArrSrc.meanSignal (s :: rest.map fun p => p.1) = .ok sig.amp from r4, r2]
    simp only []
    have hdt : dt = sig.dt := by simpa using r5
    rw [hdt, ← r6]
  have htime : lastTime sorted = .ok tl := by
    unfold lastTime
    rcases hss : sorted.sensors with _ | ⟨s, ss⟩
    · rw [hss] at r8; cases r8
    rw [hss] at r8
    cases r8
    simp only [r9]
  have hlevel : detrend env near = level := by
    obtain ⟨ls, lsrc⟩ := level
    simp only at p2 p3
    unfold detrend
    rw [p2, p3]
  have htrim : ∀ s : State, s.array = level → trimTime set s = .ok { s with array := cut } := by
    intro s hs
    unfold trimTime
    split_ifs with c
    · rw [if_pos c] at p4
      rw [hs, p4]; rfl
    · rw [if_neg c] at p4
      rw [p4, ← hs]; rfl
  have hpad : ∀ s : State, s.array = ⟨x.sensors, muted.source⟩ → Workflow.pad set s = .ok { s with array := result } := by
    intro s hs
    unfold Workflow.pad
    split_ifs with c
    · rw [if_pos c] at x2
      rw [hs, x2]; rfl
    · rw [if_neg c] at x2
      rw [x2, ← hs]; rfl
  have hmut : ∀ (noise : Option Arr), ∃ l1 l2, Workflow.mute env set ⟨cut, none, none, noise, none⟩ =
      .ok ⟨muted, l1, l2, noise, none⟩ := by
    intro noise
    unfold Workflow.mute
    by_cases c : set.muteApply = true
    · obtain ⟨m1, m2⟩ := hmute c
      refine ⟨lines.1, lines.2, ?_⟩
      simp only [c, if_true, Option.isNone_none, Bool.and_self, m1, interactive, m2]
    · rw [if_neg c] at p5
      refine ⟨none, none, ?_⟩
      rw [if_neg c, p5]; rfl
  have htf : Workflow.transform env set result = .ok t := by
    unfold Workflow.transform
    rw [ht1]
    simp only [Workflow.lift, bind, Except.bind, ht2]
  rcases hp : set.snrPerform
  · obtain rfl := hno hp
    obtain ⟨l1, l2, hm⟩ := hmut none
    refine ⟨⟨t, result, none, ⟨result, l1, l2, none, none⟩⟩, ?_, rfl, rfl, rfl⟩
    unfold xcorr
    rw [hread]
    simp only [bind, Except.bind, htime, r10, call, if_neg r7, check_not_between hne hsrc, Workflow.trimOffsets, State.new, p1,
      pure, Except.pure, hlevel, selectNoise, hp, Bool.false_and, Bool.false_eq_true, if_false, htrim, hm, selectSignal,
      calculateSnr, x1, hpad, htf]
  · obtain ⟨noise, signal, windows, q', rfl, ⟨cn, n1, n2⟩, ⟨cs, g1, g2⟩, hs⟩ := hsnr hp
    obtain ⟨l1, l2, hm⟩ := hmut (some noise)
    have hwn : copyWindow level set.noiseBegin set.noiseEnd = .ok noise := by
      unfold copyWindow
      rw [n1]
      simp only [Workflow.lift, bind, Except.bind, n2, call]
    have hws : copyWindow muted set.signalBegin set.signalEnd = .ok signal := by
      unfold copyWindow
      rw [g1]
      simp only [Workflow.lift, bind, Except.bind, g2, call]
    obtain ⟨w1, w2⟩ := windows
    refine ⟨⟨t, result, some q', ⟨result, l1, l2, some w2, some w1⟩⟩, ?_, rfl, rfl, rfl⟩
    unfold xcorr
    rw [hread]
    simp only [bind, Except.bind, htime, r10, call, if_neg r7, check_not_between hne hsrc, Workflow.trimOffsets, State.new, p1,
      pure, Except.pure, hlevel, selectNoise, hp, Bool.true_and, Option.isNone_none, if_true, hwn, htrim, hm, selectSignal,
      hws, calculateSnr, hs, x1, hpad, htf]

/-- The trace which `stream[ch]` is: number `ch` from the beginning, or number `-ch` from the end. -/
def ChannelIs (ts : List Trace) (ch : ℤ) (t : Trace) : Prop :=
  (∃ k : ℕ, ch = k ∧ ts[k]? = some t) ∨ ∃ k : ℕ, ch = -((k : ℤ) + 1) ∧ ts.reverse[k]? = some t

theorem pyIndex_iff {ts : List Trace} {ch : ℤ} {t : Trace} : pyIndex ts ch = some t ↔ ChannelIs ts ch t := by
  unfold pyIndex ChannelIs
  by_cases h0 : 0 ≤ ch
  · rw [if_pos h0]
    constructor
    · intro h; exact .inl ⟨ch.toNat, by omega, h⟩
    · rintro (⟨k, rfl, h⟩ | ⟨k, hk, -⟩)
      · exact h
      · omega
  · rw [if_neg h0]
    constructor
    · intro h
      split_ifs at h with h1
      refine .inr ⟨(-ch - 1).toNat, by omega, ?_⟩
      rw [List.getElem?_reverse (by omega), ← h]
      congr 1
      omega
    · rintro (⟨k, rfl, h⟩ | ⟨k, hk, h⟩)
      · omega
      · have hl := (List.getElem?_eq_some_iff.1 h).1
        rw [List.length_reverse] at hl
        rw [if_pos (by omega), ← h, List.getElem?_reverse hl]
        congr 1
        omega

/-- **C151** (source files).  The source signals are read exactly if every file can be read and has the channel; each is
the data of that channel with its sampling interval, in the order of the files. -/
theorem C151_source_files (fs : Fs) (ch : ℤ) (src : List String) (signals : List (List ℚ × ℚ)) :
    readSignals fs ch src = .ok signals ↔ List.Forall₂ (fun name p => ∃ ts t, Arr.readFile fs name = .ok ts ∧
      ChannelIs ts ch t ∧ p = (t.data, t.delta)) src signals := by
  induction src generalizing signals with
  | nil =>
    simp only [readSignals, Except.ok.injEq, List.forall₂_nil_left_iff]
    exact eq_comm
  | cons name src ih =>
    simp only [readSignals]
    rcases hf : Arr.readFile fs name with e | ts
    · simp only [bind, Except.bind]
      constructor
      · intro h; cases h
      · intro h
        cases h with
        | cons h1 _ =>
          obtain ⟨ts, t, h, -⟩ := h1
          rw [hf] at h; cases h
    simp only [bind, Except.bind]
    rcases hi : pyIndex ts ch with _ | t
    · simp only
      constructor
      · intro h; cases h
      · intro h
        cases h with
        | cons h1 _ =>
          obtain ⟨ts', t, h, h', -⟩ := h1
          rw [hf] at h; cases h
          rw [pyIndex_iff.2 h'] at hi; cases hi
    simp only
    constructor
    · intro h
      rcases hr : readSignals fs ch src with e | more
      · rw [hr] at h; cases h
      rw [hr] at h
      cases h
      exact .cons ⟨ts, t, hf, pyIndex_iff.1 hi, rfl⟩ ((ih more).1 hr)
    · intro h
      cases h with
      | @cons _ p _ more h1 h2 =>
        obtain ⟨ts', t', h, h', rfl⟩ := h1
        rw [hf] at h; cases h
        rw [pyIndex_iff.2 h'] at hi; cases hi
        rw [(ih more).2 h2]
        rfl

/-! ## A run -/

/-- The records of `pulseEnv`, and a file with the source signal: one sample. -/
noncomputable def sweepEnv : Env :=
  { pulseEnv with fs := fun n => if n = "s" then some [seg2 0 0 1 [1]] else pulseEnv.fs n }

/-- The records of `pulseEnv` between lag zero and the latest arrival. -/
def sweepLags : Arr :=
  { pulseArr with sensors := pulseArr.sensors.map fun s => { s with ts := { s.ts with amp := s.ts.amp.take 5 } } }

theorem sweep_record : RecordWithSignal sweepEnv (.one "a") ["s"] 0 pulseArr ⟨⟨0, 0, 0⟩, [1], 1 / 1000⟩ :=
  ⟨pulseArr, pulseArr, [([1], 1 / 1000)], ⟨⟨[0, 2, 0, 0, 0, 0, 0, 0], 1 / 1000, 1, 0, 1⟩, 2, 0, 0⟩, 7 / 1000,
    by decide +kernel, by decide +kernel, by decide +kernel, by decide +kernel, by decide +kernel, by decide +kernel,
    by decide +kernel, by decide +kernel, by decide +kernel, by decide +kernel⟩

theorem sweep_correlated (tr : String) : Correlated (pulseSet tr) ⟨⟨0, 0, 0⟩, [1], 1 / 1000⟩ pulseArr pulsePadded := by
  refine ⟨⟨sweepLags.sensors, ⟨⟨0, 0, 0⟩, [1], 1 / 1000⟩⟩, ?_, ?_⟩
  · show ArrSrc.xcorrelate ⟨pulseArr.sensors, ⟨⟨0, 0, 0⟩, [1], 1 / 1000⟩⟩ 2000 4000 = _
    decide +kernel
  · show (⟨sweepLags.sensors, ⟨0, 0, 0⟩⟩ : Arr).zeroPad (125 / 2) = _
    decide +kernel

/-- The run returns with each of the transforms. -/
theorem sweep_returns {tr : String} (h : tr = "phaseshift" ∨ tr = "fk" ∨ tr = "fdbf") :
    ∃ r, xcorr sweepEnv (pulseSet tr) (.one "a") ["s"] 0 = .ok r ∧ r.array = pulsePadded ∧
      r.transform.frequencies = [125 / 2, 125] ∧ r.transform.velocities = [2000, 4000] := by
  obtain ⟨t, ht, hf, hv⟩ := pulse_transform h
  have hpre : Preprocessed sweepEnv { pulseSet tr with padApply := false } none (none, none) pulseArr pulseArr pulseArr
      pulseArr pulseArr pulseArr := by
    refine ⟨?_, rfl, rfl, rfl, rfl, rfl⟩
    show trimOffsetsFl pulseArr 0 .pinf = _
    decide +kernel
  obtain ⟨r, hr, ea, et, -⟩ := C151_run_returns sweepEnv (pulseSet tr) (.one "a") ["s"] 0 pulseArr pulseArr pulseArr pulseArr
    pulseArr pulsePadded (none, none) ⟨⟨0, 0, 0⟩, [1], 1 / 1000⟩ t sweep_record (by decide) (by
      rintro ⟨p, q, h1, h2, h3, h4⟩
      cases h1
      exact absurd h3 (by decide +kernel)) hpre (by intro h; cases h) (sweep_correlated tr) ht none (fun _ => rfl)
    (by intro h; cases h)
  exact ⟨r, hr, ea, by rw [et, hf], by rw [et, hv]⟩

/-- The cross-correlation workflow in centimetres (`C150_cross_correlation`). -/
example : ∃ r, xcorr (inCoordinates 100 0 sweepEnv) (inLengths 100 (pulseSet "phaseshift")) (.one "a") ["s"] 0 = .ok r ∧
    r.array = moved 100 0 pulsePadded := by
  obtain ⟨r, hr, ha, -⟩ := sweep_returns (Or.inl rfl)
  have := C150_cross_correlation (fun _ => 0) (fun _ _ _ => []) (k := 100) 0 (by norm_num) sweepEnv (pulseSet "phaseshift") rfl rfl
    "a" ["s"] 0
  rw [hr] at this
  exact ⟨_, this, by simp [movedResult, ha]⟩

/-- The last channel of a file of two. -/
example : readSignals (fun _ => some [seg2 0 0 1 [1, 2], seg2 0 0 1 [3, 4]]) (-1) ["s", "t"] =
    .ok [([3, 4], 1 / 1000), ([3, 4], 1 / 1000)] := by decide +kernel

end Verif.Props
