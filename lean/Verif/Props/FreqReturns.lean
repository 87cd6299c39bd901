import Verif.Props.OneAxis

/-!
# C78: frequency-domain runs which return
-/

namespace Verif.Props
open Verif Workflow

theorem exampleArray_returns {env : Env} {set : Settings} {f : String} {raw ex : Arr}
    (hraw : fromFiles env (.one f) = .ok raw) (h : Spec.Reference env set raw ex) :
    exampleArray env set f = .ok ex := by
  obtain ⟨level, cut, h1, h2, h3, h4⟩ := h
  have hl : detrend env raw = level := by
    obtain ⟨ls, lsrc⟩ := level
    simp only at h1 h2
    unfold detrend
    rw [h1, h2]
  unfold exampleArray
  rw [hraw]
  simp only [bind, Except.bind, hl]
  by_cases c1 : set.trimApply = true <;> by_cases c2 : set.padApply = true
  · rw [if_pos c1] at h3
    rw [if_pos c2] at h4
    simp only [c1, c2, if_true, h3, call, h4]
  · rw [if_pos c1] at h3
    rw [if_neg c2] at h4
    simp only [c1, c2, if_true, h3, call, h4]
    rfl
  · rw [if_neg c1] at h3
    rw [if_pos c2] at h4
    simp only [c1, c2, if_true, ← h3, call, h4, pure, Except.pure]
    rfl
  · rw [if_neg c1] at h3
    rw [if_neg c2] at h4
    simp only [c1, c2, ← h3, h4, pure, Except.pure]
    rfl

/-- One file, with the mute outcome given. -/
theorem freqFile_returns {env : Env} {set : Settings} {ex : Arr} {st : Option State} {f : String} {kw : Option Kwargs}
    {lines : Option Arr.Line × Option Arr.Line} {raw near level cut muted padded : Arr} {t : Transform}
    (hraw : fromFiles env (.one f) = .ok raw) (hne : raw.sensors ≠ []) (hsrc : ¬ Spec.SourceBetween raw)
    (hsim : Spec.Compatible raw ex)
    (hpre : Spec.Preprocessed env set kw lines raw near level cut muted padded)
    (htr : Spec.IsTransformOf env set padded t)
    (l1 l2 : Option Arr.Line) (noise noise' signal signal' : Option Arr)
    (hst : (match st with
      | none => State.new raw
      | some s => { s with array := raw }) = ⟨raw, l1, l2, noise, signal⟩)
    (hn : selectNoise set ⟨level, l1, l2, noise, signal⟩ = .ok ⟨level, l1, l2, noise', signal⟩)
    (hm : Workflow.mute env set ⟨cut, l1, l2, noise', signal⟩ = .ok ⟨muted, lines.1, lines.2, noise', signal⟩)
    (hs : selectSignal set ⟨muted, lines.1, lines.2, noise', signal⟩ = .ok ⟨muted, lines.1, lines.2, noise', signal'⟩) :
    freqFile env set ex st f = .ok (⟨padded, lines.1, lines.2, noise', signal'⟩, t) := by
  obtain ⟨p1, p2, p3, p4, p5, p6⟩ := hpre
  obtain ⟨tr, ht1, ht2⟩ := htr
  have hlevel : detrend env near = level := by
    obtain ⟨ls, lsrc⟩ := level
    simp only at p2 p3
    unfold detrend
    rw [p2, p3]
  have htrim : ∀ s : State, s.array = level → trimTime set s = .ok { s with array := cut } := by
    intro s hs
    unfold trimTime
    split_ifs with c
    · rw [if_pos c] at p4
      rw [hs, p4]; rfl
    · rw [if_neg c] at p4
      rw [p4, ← hs]; rfl
  have hpad : ∀ s : State, s.array = muted → Workflow.pad set s = .ok { s with array := padded } := by
    intro s hs
    unfold Workflow.pad
    split_ifs with c
    · rw [if_pos c] at p6
      rw [hs, p6]; rfl
    · rw [if_neg c] at p6
      rw [p6, ← hs]; rfl
  have htf : Workflow.transform env set padded = .ok t := by
    unfold Workflow.transform
    rw [ht1]
    simp only [lift, bind, Except.bind, ht2]
  have hsim' : raw.isSimilar ex = true := (isSimilar_iff _ _).2 hsim
  unfold freqFile
  rw [hraw]
  rcases st with _ | ⟨s0, s1, s2, s3, s4⟩ <;> simp only [State.new, State.mk.injEq, true_and] at hst <;>
    obtain ⟨rfl, rfl, rfl, rfl⟩ := hst <;>
  simp only [bind, Except.bind, hsim', Bool.not_true, Bool.false_eq_true, if_false, check_not_between hne hsrc,
    State.new, Workflow.trimOffsets, p1, call, pure, Except.pure, hlevel, hn, htrim, hm, hs, hpad, htf]

theorem stack_returns {t T : Transform} {nvel nfrq : ℕ} (h1 : HasShape t.power nvel nfrq)
    (h2 : HasShape T.power nvel nfrq) :
    ∃ t', Workflow.stack t T = .ok t' ∧ HasShape t'.power nvel nfrq := by
  refine ⟨{ t with n := t.n + T.n, power := (WT.stack (⟨t.n, t.power⟩ : WT.Stackable ℂ) ⟨T.n, T.power⟩).power }, ?_,
    stack_shape (s := ⟨t.n, t.power⟩) (o := ⟨T.n, T.power⟩) h1 h2⟩
  unfold Workflow.stack
  rw [stackRows_eq _ _ _ _ nfrq h1.2 h2.2]
  rfl

/-- Further files, all of one shape. -/
theorem freqLoop_returns {env : Env} {set : Settings} {ex : Arr} {lines : Option Arr.Line × Option Arr.Line}
    {nvel nfrq : ℕ} (hm : set.muteApply = true → lines.1.isSome) (noise signal : Option Arr)
    (hp : set.snrPerform = true → noise.isSome ∧ signal.isSome) :
    ∀ (fs : List String) (a : Arr) (t0 : Transform), HasShape t0.power nvel nfrq →
    (∀ f ∈ fs, ∃ raw, fromFiles env (.one f) = .ok raw ∧ raw.sensors ≠ [] ∧ Spec.Compatible raw ex ∧
      ∃ level muted T, Spec.PerFile env set set.windowKwargs lines f level muted T ∧ HasShape T.power nvel nfrq) →
    ∃ a' t, freqLoop env set ex (some ⟨a, lines.1, lines.2, noise, signal⟩) t0 fs =
      .ok (some ⟨a', lines.1, lines.2, noise, signal⟩, t) := by
  intro fs
  induction fs with
  | nil => intro a t0 _ _; exact ⟨a, t0, rfl⟩
  | cons f fs ih =>
    intro a t0 ht0 hall
    obtain ⟨raw, hraw, hne, hsim, level, muted, T, ⟨raw', near, cut, padded, hraw', hsrc, hpre, htr⟩, hT⟩ :=
      hall f List.mem_cons_self
    rw [hraw] at hraw'
    cases hraw'
    have hn : ∀ b : Arr, selectNoise set ⟨b, lines.1, lines.2, noise, signal⟩ =
        .ok ⟨b, lines.1, lines.2, noise, signal⟩ := by
      intro b
      unfold selectNoise
      cases hb : set.snrPerform
      · rfl
      · obtain ⟨w, hw⟩ := Option.isSome_iff_exists.1 (hp hb).1
        rw [hw]; rfl
    have hs : ∀ b : Arr, selectSignal set ⟨b, lines.1, lines.2, noise, signal⟩ =
        .ok ⟨b, lines.1, lines.2, noise, signal⟩ := by
      intro b
      unfold selectSignal
      cases hb : set.snrPerform
      · rfl
      · obtain ⟨w, hw⟩ := Option.isSome_iff_exists.1 (hp hb).2
        rw [hw]; rfl
    have hmute : Workflow.mute env set ⟨cut, lines.1, lines.2, noise, signal⟩ =
        .ok ⟨muted, lines.1, lines.2, noise, signal⟩ := by
      have p5 := hpre.5
      unfold Workflow.mute
      by_cases c : set.muteApply = true
      · rw [if_pos c] at p5
        obtain ⟨w, hw⟩ := Option.isSome_iff_exists.1 (hm c)
        simp only [c, if_true, p5, call]
        rw [hw]
        rfl
      · rw [if_neg c] at p5
        rw [if_neg c, p5]; rfl
    have h1 := freqFile_returns (st := some ⟨a, lines.1, lines.2, noise, signal⟩) hraw hne hsrc hsim hpre htr
      lines.1 lines.2 noise noise signal signal rfl (hn level) hmute (hs muted)
    obtain ⟨t1, h2, h3⟩ := stack_returns ht0 hT
    obtain ⟨a', t, h4⟩ := ih padded t1 h3 fun g hg => hall g (List.mem_cons_of_mem _ hg)
    refine ⟨a', t, ?_⟩
    simp only [freqLoop, h1, bind, Except.bind, h2, lift]
    exact h4

/-- **C78** (completeness).  A frequency-domain run returns if every step it asks for succeeds: the first file gives a
frequency axis; every file has the channels and the source of the first, its source is not between the receivers, it can be
pre-processed with the mute lines picked on the first and be transformed, all transforms being of the shape of the
axis; and the windows of the first file (if asked for) have a ratio.  The lines picked on the first file stay. -/
theorem C78_run_returns (env : Env) (set : Settings) (f0 : String) (rest : List String)
    (raw near level cut muted padded ex : Arr) (lines : Option Arr.Line × Option Arr.Line) (t0 T0 : Transform)
    (hraw : fromFiles env (.one f0) = .ok raw) (hne : raw.sensors ≠ []) (hsrc : ¬ Spec.SourceBetween raw)
    (href : Spec.Reference env set raw ex) (hempty : Workflow.empty ex set = .ok t0)
    (hpre : Spec.Preprocessed env set none lines raw near level cut muted padded)
    (hmute : set.muteApply = true → set.muteMethod = "interactive" ∧
      Interact.interactiveMute (env.tukey none) cut "both" true env.user = some (muted, .ok lines))
    (hno : set.muteApply = false → lines = (none, none))
    (htr : Spec.IsTransformOf env set padded T0)
    (hT0 : HasShape T0.power set.nvel.toNat t0.frequencies.length)
    (hrest : ∀ f ∈ rest, ∃ raw', fromFiles env (.one f) = .ok raw' ∧ Spec.Compatible raw' raw ∧
      ∃ level muted T, Spec.PerFile env set set.windowKwargs lines f level muted T ∧
        HasShape T.power set.nvel.toNat t0.frequencies.length)
    (hsnr : set.snrPerform = true → ∃ noise signal windows q,
      Spec.IsWindow level set.noiseBegin set.noiseEnd noise ∧
      Spec.IsWindow muted set.signalBegin set.signalEnd signal ∧
      WT.snr signal noise set.fmin set.fmax set.snrPad set.snrDf = (windows, .ok q)) :
    ∃ r, frequencyDomain env set (.many (f0 :: rest)) = .ok r ∧ r.final.signalStart = lines.1 ∧
      r.final.signalEnd = lines.2 := by
  have hex := exampleArray_returns hraw href
  obtain ⟨raw', hraw', hce⟩ := exampleArray_ok hex
  rw [hraw] at hraw'
  cases hraw'
  have hlines : set.muteApply = true → lines.1.isSome := by
    intro c
    obtain ⟨m1, m2⟩ := hmute c
    have : Workflow.mute env set ⟨cut, none, none, none, none⟩ = .ok ⟨muted, lines.1, lines.2, none, none⟩ := by
      unfold Workflow.mute
      simp only [c, if_true, Option.isNone_none, Bool.and_self, m1, interactive, m2]
    exact ((mute_ok_first this rfl rfl).choose_spec.2.2 c).1
  have hm : ∀ noise : Option Arr, Workflow.mute env set ⟨cut, none, none, noise, none⟩ =
      .ok ⟨muted, lines.1, lines.2, noise, none⟩ := by
    intro noise
    have p5 := hpre.5
    unfold Workflow.mute
    by_cases c : set.muteApply = true
    · obtain ⟨m1, m2⟩ := hmute c
      simp only [c, if_true, Option.isNone_none, Bool.and_self, m1, interactive, m2]
    · rw [if_neg c] at p5
      rw [if_neg c, p5, hno (by simpa using c)]; rfl
  have hshape : HasShape t0.power set.nvel.toNat t0.frequencies.length := (empty_onAxis hempty).choose_spec.2.2
  have hcls : ∃ c, env.transforms.createClass set.transform = .ok c := ⟨_, htr.choose_spec.1⟩
  obtain ⟨c, hc⟩ := hcls
  have hall : ∀ f ∈ rest, ∃ raw', fromFiles env (.one f) = .ok raw' ∧ raw'.sensors ≠ [] ∧
      Spec.Compatible raw' ex ∧ ∃ level muted T, Spec.PerFile env set set.windowKwargs lines f level muted T ∧
        HasShape T.power set.nvel.toNat t0.frequencies.length := by
    intro f hf
    obtain ⟨raw', h1, h2, h3⟩ := hrest f hf
    refine ⟨raw', h1, ?_, ⟨h2.1.trans hce.1.symm, h2.2.trans hce.2.symm⟩, h3⟩
    intro h0
    have := h2.1
    rw [h0] at this
    exact hne (List.length_eq_zero_iff.1 this.symm)
  obtain ⟨t1, hs1, hs2⟩ := stack_returns hshape hT0
  have hsim : Spec.Compatible raw ex := ⟨hce.1.symm, hce.2.symm⟩
  rcases hp : set.snrPerform
  · have hf0 := freqFile_returns (st := none) hraw hne hsrc hsim hpre htr none none none none none none rfl
      (by simp [selectNoise, hp, pure, Except.pure]) (hm none) (by simp [selectSignal, hp, pure, Except.pure])
    obtain ⟨a', t, hl⟩ := freqLoop_returns (lines := lines) hlines none none (fun h => by rw [hp] at h; cases h) rest
      padded t1 hs2 hall
    refine ⟨⟨t, a', none, ⟨a', lines.1, lines.2, none, none⟩⟩, ?_, rfl, rfl⟩
    simp only [frequencyDomain, freqFiles, hex, hempty, hc, bind, Except.bind, lift, freqLoop, hf0, hs1, hl,
      calculateSnr, hp, Bool.false_eq_true, if_false, pure, Except.pure]
  · obtain ⟨noise, signal, windows, q, ⟨cn, n1, n2⟩, ⟨cs, g1, g2⟩, hs⟩ := hsnr hp
    have hwn : copyWindow level set.noiseBegin set.noiseEnd = .ok noise := by
      unfold copyWindow
      rw [n1]
      simp only [lift, bind, Except.bind, n2, call]
    have hws : copyWindow muted set.signalBegin set.signalEnd = .ok signal := by
      unfold copyWindow
      rw [g1]
      simp only [lift, bind, Except.bind, g2, call]
    have hf0 := freqFile_returns (st := none) hraw hne hsrc hsim hpre htr none none none (some noise) none (some signal)
      rfl (by simp [selectNoise, hp, hwn, bind, Except.bind, pure, Except.pure]) (hm (some noise))
      (by simp [selectSignal, hp, hws, bind, Except.bind, pure, Except.pure])
    obtain ⟨a', t, hl⟩ := freqLoop_returns (lines := lines) hlines (some noise) (some signal) (fun _ => ⟨rfl, rfl⟩) rest
      padded t1 hs2 hall
    obtain ⟨w1, w2⟩ := windows
    refine ⟨⟨t, a', some q, ⟨a', lines.1, lines.2, some w2, some w1⟩⟩, ?_, rfl, rfl⟩
    simp only [frequencyDomain, freqFiles, hex, hempty, hc, bind, Except.bind, lift, freqLoop, hf0, hs1, hl,
      calculateSnr, hp, if_true, hs, pure, Except.pure]

/-! ## A run over two files with the phase-shift transform -/

/-- The files of `exEnv` with the registered transforms. -/
noncomputable def exRegEnv : Env :=
  { exEnv with transforms := Builtin.transforms (fun _ => 1) fun a _ n => List.replicate n a }

/-- Phase shift at one velocity, without a ratio. -/
def exRegSet : Settings := { exSet with transform := "phaseshift", snrPerform := false }

theorem exReg_transform (a : Arr) (s : Sensor) (ss : List Sensor) (tm : List (List ℚ)) (x : List ℚ)
    (hf : a.flippedTseriesAndOffsets = .ok (tm, x)) (hs : a.sensors = s :: ss) (hn : s.ts.nsamples = 2)
    (hdf : s.ts.dfInternal = 500) (hm : s.ts.multiple = 1) :
    ∃ T, Builtin.phaseShift a exRegSet = .ok T ∧ T.frequencies = [0, 500] ∧ HasShape T.power 1 2 := by
  have e : WT.keepIds (WT.binFrequencies 2 (500 : ℚ)) 100 600 1 = .ok [0, 1] := by decide +kernel
  have eb : WT.binFrequencies 2 (500 : ℚ) = [0, 500] := by decide +kernel
  obtain ⟨v, hv⟩ : ∃ v, Builtin.velocities exRegSet = .ok v := by
    simp [Builtin.velocities, WT.createVector, exRegSet, exSet]
  have hr : WT.Record.ofArray a = .ok ⟨tm, x, 2, 500, 1⟩ := by
    unfold WT.Record.ofArray
    rw [hf]
    simp only [bind, Except.bind, hs, hn, hdf, hm]
    rfl
  have hk : (⟨tm, x, 2, 500, 1⟩ : WT.Record).keepIds ⟨exRegSet.fmin, exRegSet.fmax⟩ = .ok [0, 1] := e
  obtain ⟨T, hT, hfr⟩ : ∃ T, Builtin.phaseShift a exRegSet = .ok T ∧ T.frequencies = [0, 500] := by
    unfold Builtin.phaseShift
    rw [hv, hr]
    simp only [bind, Except.bind, WT.phaseShift, hk]
    exact ⟨_, rfl, by simp [eb]⟩
  obtain ⟨s', hs', ⟨-, h2⟩, -⟩ := phaseShift_onAxis hT
  refine ⟨T, hT, hfr, ?_⟩
  rw [hfr] at h2
  exact h2

theorem exReg_recorded : ∀ name ∈ ["a", "b"], RecordedAs exRegEnv 2 (1 / 1000) 0 name := by
  intro name hname raw hraw s hs
  simp only [List.mem_cons, List.not_mem_nil, or_false] at hname
  rcases hname with rfl | rfl
  · have e : fromFiles exRegEnv (.one "a") = .ok exA := exA_read
    rw [e] at hraw
    cases hraw
    simp only [exA, List.mem_cons, List.not_mem_nil, or_false] at hs
    rcases hs with rfl | rfl <;> exact ⟨rfl, rfl, rfl⟩
  · have e : fromFiles exRegEnv (.one "b") = .ok exB := exB_read
    rw [e] at hraw
    cases hraw
    simp only [exB, List.mem_cons, List.not_mem_nil, or_false] at hs
    rcases hs with rfl | rfl <;> exact ⟨rfl, rfl, rfl⟩

/-- The hypotheses of `C78_run_returns` are met by two files and the phase-shift transform. -/
theorem exReg_run : ∃ r, frequencyDomain exRegEnv exRegSet (.many ["a", "b"]) = .ok r := by
  obtain ⟨v, hv⟩ := exA_empty
  have hda : Workflow.detrend exEnv exA = exA := by decide +kernel
  have hdb : Workflow.detrend exEnv exB = exB := by decide +kernel
  obtain ⟨TA, ta1, ta2, ta3⟩ := exReg_transform exA _ _ [[1, 2], [3, 4]] [5, 7] (by decide +kernel) rfl rfl
    (by decide +kernel) rfl
  obtain ⟨TB, tb1, tb2, tb3⟩ := exReg_transform exB _ _ [[5, 6], [7, 0]] [5, 7] (by decide +kernel) rfl rfl
    (by decide +kernel) rfl
  have hc : exRegEnv.transforms.createClass exRegSet.transform = .ok Builtin.phaseShift := rfl
  suffices h : _ by
    obtain ⟨r, hr, -⟩ := C78_run_returns exRegEnv exRegSet "a" ["b"] exA exA exA exA exA exA exA (none, none) _ TA exA_read
      (by decide) (check_ok exA_check) ⟨exA, exA, rfl, (congrArg Arr.sensors hda).symm, rfl, rfl⟩ hv
      ⟨exA_near, rfl, (congrArg Arr.sensors hda).symm, rfl, rfl, rfl⟩
      (fun h => by cases h) (fun _ => rfl) ⟨_, hc, ta1⟩ ta3 h (fun h => by cases h)
    exact ⟨r, hr⟩
  · intro f hf
    simp only [List.mem_cons, List.not_mem_nil, or_false] at hf
    subst hf
    exact ⟨exB, exB_read, ⟨rfl, rfl⟩, exB, exB, TB, ⟨exB, exB, exB, exB, exB_read, check_ok exB_check,
      ⟨exB_near, rfl, (congrArg Arr.sensors hdb).symm, rfl, rfl, rfl⟩, _, hc, tb1⟩, tb3⟩

/-- The hypotheses of `C103_same_recording_partial` and `C78_registered_mean` are met by the same run. -/
example : ∃ (hankel : ℝ → ℂ) (geom : ℚ → ℚ → ℕ → List ℚ) (r : Result), (∀ a b n, (geom a b n).length = n) ∧
    exRegEnv.transforms = Builtin.transforms hankel geom ∧ (∀ l, (exRegEnv.detrend l).length = l.length) ∧
    (∀ name ∈ ["a", "b"], RecordedAs exRegEnv 2 (1 / 1000) 0 name) ∧ exRegSet.transform ≠ "empty" ∧
    frequencyDomain exRegEnv exRegSet (.many ["a", "b"]) = .ok r := by
  obtain ⟨r, hr⟩ := exReg_run
  exact ⟨fun _ => 1, fun a _ n => List.replicate n a, r, by simp, rfl, fun _ => rfl, exReg_recorded, by decide, hr⟩

end Verif.Props
