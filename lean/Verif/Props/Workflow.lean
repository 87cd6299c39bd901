import Verif.Lemmas.Workflow
import Verif.Props.Settings
import Verif.Props.Register
import Verif.Props.WorkflowExamples

/-!
# C76, C79, C80, C100, C101: workflows on one array, and dispatch
-/

namespace Verif.Props
open Verif Workflow

/-! ## C76 -/

/-- **C76** (refusal).  A source between the receivers is refused with `ValueError`, whatever the settings,
the user and the transforms are: the check comes before all processing. -/
theorem C76_source_inside_refused (env : Env) (set : Settings) (f : Fnames) (raw : Arr)
    (hraw : fromFiles env f = .ok raw) (hin : Spec.SourceBetween raw) :
    timeDomain env set f = .error (.raised .valueError) := by
  unfold timeDomain
  rw [hraw]
  simp only [bind, Except.bind, check_between hin]

/-- A file with the source between its receivers. -/
example : ∃ raw, Workflow.fromFiles { exEnv with fs := fun _ => some [seg2 0 1 1 [1, 2], seg2 2 1 1 [3, 4]] }
    (.one "a") = .ok raw ∧ Spec.SourceBetween raw := by
  refine ⟨⟨exA.sensors, ⟨1, 0, 0⟩⟩, by decide +kernel, 0, 2, ?_, ?_, ?_, ?_⟩ <;> decide +kernel

/-- The steps of a run which returns; the lines kept in its state are the ones it muted between. -/
theorem timeDomain_lines (env : Env) (set : Settings) (f : Fnames) (r : Result)
    (h : timeDomain env set f = .ok r) :
    ∃ raw near level cut muted,
      fromFiles env f = .ok raw ∧ ¬ Spec.SourceBetween raw ∧
      Spec.Preprocessed env set none (r.final.signalStart, r.final.signalEnd) raw near level cut muted r.array ∧
      Spec.IsTransformOf env set r.array r.transform ∧
      (set.snrPerform = false → r.snr = none) ∧
      (set.snrPerform = true → ∃ noise signal windows q,
        Spec.IsWindow level set.noiseBegin set.noiseEnd noise ∧
        Spec.IsWindow muted set.signalBegin set.signalEnd signal ∧
        WT.snr signal noise set.fmin set.fmax set.snrPad set.snrDf = (windows, .ok q) ∧
        r.snr = some q ∧ r.final.signal = some windows.1 ∧ r.final.noise = some windows.2) := by
  unfold timeDomain at h
  obtain ⟨raw, hraw, h⟩ := bind_ok h
  obtain ⟨⟨⟩, hcheck, h⟩ := bind_ok h
  obtain ⟨s1, h1, h⟩ := bind_ok h
  obtain ⟨s2, h2, h⟩ := bind_ok h
  obtain ⟨s3, h3, h⟩ := bind_ok h
  obtain ⟨s4, h4, h⟩ := bind_ok h
  obtain ⟨s5, h5, h⟩ := bind_ok h
  obtain ⟨⟨s6, q⟩, h6, h⟩ := bind_ok h
  simp only at h
  obtain ⟨s7, h7, h⟩ := bind_ok h
  obtain ⟨t, h8, h⟩ := bind_ok h
  cases h
  obtain ⟨near, e1, rfl⟩ := trimOffsets_ok h1
  obtain ⟨e2, n1, n2, n3⟩ := selectNoise_ok h2
  obtain ⟨cut, e3, rfl⟩ := trimTime_ok h3
  obtain ⟨muted, e4, e4', -⟩ := mute_ok_first h4 (by rw [e2]; rfl) (by rw [e2]; rfl)
  obtain ⟨e5, g1, g2, g3⟩ := selectSignal_ok h5
  obtain ⟨e6, k1, k2⟩ := calculateSnr_ok h6
  obtain ⟨padded, e7, rfl⟩ := pad_ok h7
  have a2 : s2.array = detrend env near := by rw [e2]
  have a4 : s4.array = muted := by rw [e4]
  have a5 : s5.array = muted := by rw [e5, a4]
  have a6 : s6.array = muted := by rw [e6, a5]
  have b1 : s6.signalStart = s4.signalStart := by rw [e6, e5]
  have b2 : s6.signalEnd = s4.signalEnd := by rw [e6, e5]
  refine ⟨raw, near, detrend env near, cut, muted, hraw, check_ok hcheck,
    ⟨e1, rfl, rfl, ?_, by simp only [b1, b2]; exact e4', ?_⟩, transform_ok h8, ?_, ?_⟩
  · rw [a2] at e3; exact e3
  · rw [a6] at e7; exact e7
  · intro hf; exact (k1 hf).2
  · intro hp
    obtain ⟨noise, hn, hw⟩ := n1 hp rfl
    have hs4 : s4.signal = none := by rw [e4]; show s2.signal = none; rw [e2]; rfl
    obtain ⟨signal, hs, hw'⟩ := g1 hp hs4
    obtain ⟨signal', noise', sp, np, q', j1, j2, j3, j4, j5, j6⟩ := k2 hp
    rw [hs] at j1
    have hn5 : s5.noise = some noise := by
      rw [e5]; show s4.noise = _; rw [e4]; exact hn
    rw [hn5] at j2
    cases j1; cases j2
    exact ⟨noise, signal, (sp, np), q', hw, by rw [← a4]; exact hw', j3, j4, j5, j6⟩

/-- **C76**.  A time-domain run which returns has done exactly this: the source is not between the
receivers; receivers were selected by offset, then detrended, trimmed, muted between the lines picked by the
user, padded, and the padded array was transformed.  The noise window is taken from the detrended array
before trimming and muting, the signal window from the muted array before padding. -/
theorem C76_steps (env : Env) (set : Settings) (f : Fnames) (r : Result)
    (h : timeDomain env set f = .ok r) :
    ∃ raw near level cut muted,
      fromFiles env f = .ok raw ∧ ¬ Spec.SourceBetween raw ∧
      Spec.Preprocessed env set none (r.final.signalStart, r.final.signalEnd) raw near level cut muted r.array ∧
      Spec.IsTransformOf env set r.array r.transform ∧
      (set.snrPerform = false → r.snr = none) ∧
      (set.snrPerform = true → ∃ noise signal windows q,
        Spec.IsWindow level set.noiseBegin set.noiseEnd noise ∧
        Spec.IsWindow muted set.signalBegin set.signalEnd signal ∧
        WT.snr signal noise set.fmin set.fmax set.snrPad set.snrDf = (windows, .ok q) ∧
        r.snr = some q ∧ r.final.signal = some windows.1 ∧ r.final.noise = some windows.2) := by
  obtain ⟨raw, near, level, cut, muted, rest⟩ := timeDomain_lines env set f r h
  exact ⟨raw, near, level, cut, muted, rest⟩

/-- A run which returns, with muting, padding and a signal-to-noise ratio. -/
example : ∃ r, timeDomain exEnv exMuteSet (.one "a") = .ok r ∧ exMuteSet.snrPerform = true := by
  obtain ⟨r, hr, -⟩ := exMuted
  exact ⟨r, hr, rfl⟩

/-- **C76** (noise first).  The noise window does not depend on trimming, muting, padding or the
processing settings: it is the same in two runs which differ in these only. -/
theorem C76_noise_independent (env : Env) (set set' : Settings) (f : Fnames) (r r' : Result)
    (ho : set'.minOffset = set.minOffset ∧ set'.maxOffset = set.maxOffset)
    (hn : set'.noiseBegin = set.noiseBegin ∧ set'.noiseEnd = set.noiseEnd)
    (hp : set.snrPerform = true ∧ set'.snrPerform = true)
    (hpad : set.snrPad = false ∧ set'.snrPad = false)
    (h : timeDomain env set f = .ok r) (h' : timeDomain env set' f = .ok r') :
    r'.final.noise = r.final.noise := by
  obtain ⟨raw, near, level, cut, muted, a1, -, a2, -, -, a3⟩ := C76_steps _ _ _ _ h
  obtain ⟨raw', near', level', cut', muted', b1, -, b2, -, -, b3⟩ := C76_steps _ _ _ _ h'
  rw [a1] at b1; cases b1
  obtain ⟨noise, signal, w, q, c1, -, c3, -, -, c6⟩ := a3 hp.1
  obtain ⟨noise', signal', w', q', d1, -, d3, -, -, d6⟩ := b3 hp.2
  have en : near' = near := by
    have := b2.offsets
    rw [ho.1, ho.2, a2.offsets] at this
    exact (Prod.mk.inj this).1.symm
  have el : level' = level := by
    rcases level with ⟨ls, lo⟩
    rcases level' with ⟨ls', lo'⟩
    have e1 := a2.source
    have e2 := b2.source
    have e3 := a2.detrended
    have e4 := b2.detrended
    rw [en] at e2 e4
    simp only at e1 e2 e3 e4
    rw [e1, e2, e3, e4]
  have ew : noise' = noise := by
    obtain ⟨c, x1, x2⟩ := c1
    obtain ⟨c', y1, y2⟩ := d1
    rw [el, x1] at y1; cases y1
    rw [hn.1, hn.2, x2] at y2
    exact (Prod.mk.inj y2).1.symm
  have u : ∀ (pad : Bool) (fmin fmax df : ℚ) (s n : Arr) (w : Arr × Arr) (q : List ℚ × List ℝ), pad = false →
      WT.snr s n fmin fmax pad df = (w, .ok q) → w.2 = n := by
    intro pad fmin fmax df s n w q hpd hq
    subst hpd
    simp only [WT.snr, WT.padIf] at hq
    simp only [Bool.false_eq_true, if_false, Prod.mk.injEq] at hq
    rw [← hq.1]
  rw [c6, d6, u _ _ _ _ _ _ _ _ hpad.1 c3, u _ _ _ _ _ _ _ _ hpad.2 d3, ew]

/-- Two such runs: without and with muting and padding. -/
example : (∃ r, timeDomain exEnv exSet (.one "a") = .ok r) ∧
    (∃ r, timeDomain exEnv exMuteSet (.one "a") = .ok r) ∧ exSet.snrPad = false := by
  obtain ⟨r, hr, -⟩ := exMuted
  obtain ⟨r', hr', -⟩ := exTimeDomain
  exact ⟨⟨r', hr'⟩, ⟨r, hr⟩, rfl⟩

/-! ## C101: the signal-to-noise ratio has no side effects -/

/-- Settings with another signal-to-noise part. -/
def withSnr (set : Settings) (perform : Bool) (nb ne sb se : ℚ) (pd : Bool) (d : ℚ) : Settings :=
  { set with
    snrPerform := perform, noiseBegin := nb, noiseEnd := ne, signalBegin := sb,
    signalEnd := se, snrPad := pd, snrDf := d }

theorem optional_unique {c : Bool} {x : Outcome Arr} {y a b : Arr}
    (h : if c then x = (a, .ok ()) else a = y) (h' : if c then x = (b, .ok ()) else b = y) : b = a := by
  cases c
  · simp at h h'; rw [h, h']
  · simp only [if_true] at h h'
    rw [h] at h'; exact (Prod.mk.inj h').1.symm

theorem mute_unique {env : Env} {set set' : Settings} {s s' t t' : State}
    (h : Workflow.mute env set s = .ok t) (h' : Workflow.mute env set' s' = .ok t')
    (hs : s.signalStart = none ∧ s.signalEnd = none) (hs' : s'.signalStart = none ∧ s'.signalEnd = none)
    (ha : s'.array = s.array) (hm : set'.muteApply = set.muteApply) : t'.array = t.array := by
  obtain ⟨sa, s1, s2, s3, s4⟩ := s
  obtain ⟨sa', s1', s2', s3', s4'⟩ := s'
  simp only at hs hs' ha
  obtain ⟨rfl, rfl⟩ := hs
  obtain ⟨rfl, rfl⟩ := hs'
  subst ha
  unfold Workflow.mute at h h'
  rw [hm] at h'
  rcases hc : set.muteApply
  · simp only [hc, Bool.false_eq_true, if_false] at h h'
    cases h; cases h'; rfl
  · simp only [hc, if_true, Option.isNone_none, Bool.and_self] at h h'
    split_ifs at h with m1
    split_ifs at h' with m2
    unfold interactive at h h'
    simp only at h h'
    rcases hi : Interact.interactiveMute (env.tukey none) sa' "both" true env.user with _ | ⟨b, e | l⟩
    · rw [hi] at h; cases h
    · rw [hi] at h; cases h
    · rw [hi] at h h'
      cases h; cases h'; rfl

/-- **C101**.  Whether and how the signal-to-noise ratio is computed does not change the result: two runs
with settings which differ only in the signal-to-noise part return the same array and transform, for
transforms which do not read that part. -/
theorem C101_snr_no_effect (env : Env) (set : Settings) (perform : Bool) (nb ne sb se : ℚ) (pd : Bool) (d : ℚ)
    (f : Fnames) (r r' : Result) (set' : Settings)
    (hset : set' = withSnr set perform nb ne sb se pd d)
    (htr : ∀ t, env.transforms.createClass set.transform = .ok t → ∀ a, t a set' = t a set)
    (h : timeDomain env set f = .ok r) (h' : timeDomain env set' f = .ok r') :
    r'.array = r.array ∧ r'.transform = r.transform := by
  have key : ∀ st st' x x', timeDomain env st f = .ok x → timeDomain env st' f = .ok x' →
      (∃ p a b c d e g, st' = withSnr st p a b c d e g) → x'.array = x.array := by
    intro st st' x x' h h' hst
    unfold timeDomain at h h'
    obtain ⟨raw, hraw, h⟩ := bind_ok h
    obtain ⟨⟨⟩, hcheck, h⟩ := bind_ok h
    obtain ⟨s1, h1, h⟩ := bind_ok h
    obtain ⟨s2, h2, h⟩ := bind_ok h
    obtain ⟨s3, h3, h⟩ := bind_ok h
    obtain ⟨s4, h4, h⟩ := bind_ok h
    obtain ⟨s5, h5, h⟩ := bind_ok h
    obtain ⟨⟨s6, q⟩, h6, h⟩ := bind_ok h
    simp only at h
    obtain ⟨s7, h7, h⟩ := bind_ok h
    obtain ⟨t, h8, h⟩ := bind_ok h
    cases h
    obtain ⟨near, e1, rfl⟩ := trimOffsets_ok h1
    obtain ⟨e2, -⟩ := selectNoise_ok h2
    obtain ⟨cut, e3, rfl⟩ := trimTime_ok h3
    obtain ⟨e5, -⟩ := selectSignal_ok h5
    obtain ⟨e6, -⟩ := calculateSnr_ok h6
    obtain ⟨padded, e7, rfl⟩ := pad_ok h7
    obtain ⟨raw', hraw', h'⟩ := bind_ok h'
    obtain ⟨⟨⟩, hcheck', h'⟩ := bind_ok h'
    obtain ⟨s1', h1', h'⟩ := bind_ok h'
    obtain ⟨s2', h2', h'⟩ := bind_ok h'
    obtain ⟨s3', h3', h'⟩ := bind_ok h'
    obtain ⟨s4', h4', h'⟩ := bind_ok h'
    obtain ⟨s5', h5', h'⟩ := bind_ok h'
    obtain ⟨⟨s6', q'⟩, h6', h'⟩ := bind_ok h'
    simp only at h'
    obtain ⟨s7', h7', h'⟩ := bind_ok h'
    obtain ⟨t', h8', h'⟩ := bind_ok h'
    cases h'
    obtain ⟨near', e1', rfl⟩ := trimOffsets_ok h1'
    obtain ⟨e2', -⟩ := selectNoise_ok h2'
    obtain ⟨cut', e3', rfl⟩ := trimTime_ok h3'
    obtain ⟨e5', -⟩ := selectSignal_ok h5'
    obtain ⟨e6', -⟩ := calculateSnr_ok h6'
    obtain ⟨padded', e7', rfl⟩ := pad_ok h7'
    obtain ⟨p, a, b, c, d, e, g, rfl⟩ := hst
    rw [hraw] at hraw'; cases hraw'
    simp only [State.new] at e1 e1'
    simp only [withSnr] at e1' e3' e7'
    rw [e1] at e1'
    cases (Prod.mk.inj e1').1
    have a2 : s2.array = s2'.array := by rw [e2, e2']
    rw [← a2] at e3'
    have ec : cut' = cut := optional_unique e3 e3'
    subst ec
    have hm : s4'.array = s4.array := by
      refine mute_unique h4 h4' ?_ ?_ rfl rfl
      · rw [e2]; exact ⟨rfl, rfl⟩
      · rw [e2']; exact ⟨rfl, rfl⟩
    have a6 : s6'.array = s6.array := by rw [e6, e6', e5, e5']; exact hm
    rw [a6] at e7'
    exact optional_unique e7 e7'
  have harr := key set set' r r' h h' ⟨perform, nb, ne, sb, se, pd, d, hset⟩
  refine ⟨harr, ?_⟩
  obtain ⟨_, _, _, _, _, _, _, _, ⟨t, a1, a2⟩, _⟩ := C76_steps _ _ _ _ h
  obtain ⟨_, _, _, _, _, _, _, _, ⟨t', b1, b2⟩, _⟩ := C76_steps _ _ _ _ h'
  have ht : set'.transform = set.transform := by rw [hset]; rfl
  rw [ht, a1] at b1
  cases b1
  rw [harr, htr t a1, a2] at b2
  exact (Except.ok.inj b2).symm

/-- The hypotheses are met: with and without a signal-to-noise ratio. -/
example : (∃ r, timeDomain exEnv exSet (.one "a") = .ok r) ∧ (∃ r', timeDomain exEnv
      (withSnr exSet false 0 0 0 0 false 1) (.one "a") = .ok r') ∧
    ∀ t, exEnv.transforms.createClass exSet.transform = .ok t →
      ∀ a, t a (withSnr exSet false 0 0 0 0 false 1) = t a exSet := by
  refine ⟨?_, ⟨⟨⟨1, [0, 500], [200], [[((1 : ℚ) : ℂ), ((2 : ℚ) : ℂ)]]⟩, exA, none,
    ⟨exA, none, none, none, none⟩⟩, ?_⟩, ?_⟩
  · obtain ⟨r, hr, -⟩ := exTimeDomain
    exact ⟨r, hr⟩
  · have hd : Workflow.detrend exEnv exA = exA := by decide +kernel
    unfold timeDomain
    rw [exA_read]
    simp only [bind, Except.bind, exA_check, Workflow.trimOffsets, State.new, withSnr, exSet, exA_near, call,
      pure, Except.pure, hd, selectNoise, Bool.false_and, trimTime,
      Bool.false_eq_true, if_false, Workflow.mute, selectSignal, calculateSnr, Workflow.pad,
      Workflow.transform]
    rfl
  · intro t ht a
    cases ht
    rfl

/-! ## C79: the single workflow -/

/-- **C79**.  The single workflow does to one name, to a list of one name and to the first name of a longer
list exactly what the time-domain workflow does to that name alone; an empty list raises `IndexError`. -/
theorem C79_first_file (env : Env) (set : Settings) (n : String) (rest : List String) :
    single env set (.one n) = timeDomain env set (.one n) ∧
    single env set (.many (n :: rest)) = timeDomain env set (.one n) ∧
    single env set (.many []) = .error (.raised .indexError) := by
  refine ⟨rfl, ?_, rfl⟩
  rcases rest with _ | ⟨m, rest⟩ <;> rfl

/-- **C79** (no other file is looked at).  What the single workflow returns depends on the file it processes
only: changing, adding or removing other files makes no difference. -/
theorem C79_other_files_irrelevant (env : Env) (fs' : Fs) (set : Settings) (n : String) (rest : List String)
    (h : fs' n = env.fs n) :
    single { env with fs := fs' } set (.many (n :: rest)) = single env set (.many (n :: rest)) := by
  rw [(C79_first_file env set n rest).2.1, (C79_first_file { env with fs := fs' } set n rest).2.1]
  have hread : Workflow.fromFiles { env with fs := fs' } (.one n) = Workflow.fromFiles env (.one n) := by
    have : Arr.readFile fs' n = Arr.readFile env.fs n := by unfold Arr.readFile; rw [h]
    simp only [Workflow.fromFiles, Arr.fromFiles, this, Arr.stackFiles]
  unfold timeDomain
  rw [hread]
  rfl

/-- Another file system with the same file "a". -/
example : (fun n => if n = "a" then exFs n else none : Fs) "a" = exEnv.fs "a" := by simp [exEnv]

/-! ## C80: dispatch -/

/-- **C80** (partial).  After any history of registrations, `Masw.run` with settings naming a workflow runs
the class registered last under that name on the given files, with the settings given; an unregistered name
raises `KeyError`.  Missing from the full statement: the built-in class for cross-correlation cannot be made
in this way, see `C80_xcorr_fails`. -/
theorem C80_dispatch_partial (ops : List (RegOp Class)) (env : Env) (a : SettingsArgs) (f : Fnames) :
    maswRun (Registries.run ops).workflows env (createSettingsDict a) f =
      (match lastWorkflow a.workflow ops, Settings.ofDict (createSettingsDict a) with
        | none, _ => .error (.raised .keyError)
        | some c, some set => c.viaFnames env set f
        | some _, none => .error (.raised .keyError)) := by
  have hw : (createSettingsDict a).str? ["workflow"] = some a.workflow := rfl
  unfold maswRun
  rw [hw]
  simp only
  rw [(C73_registries ops a.workflow).2]
  rcases lastWorkflow a.workflow ops with _ | c <;> simp only
  rw [ofDict_createSettingsDict]

/-- The registrations made by importing the package, then any others. -/
noncomputable def packageThen (ops : List (RegOp Class)) : Registry Class :=
  (Registries.run ((builtin.map fun p => RegOp.workflow p.1 p.2) ++ ops)).workflows

/-- **C80** (partial).  In the package as imported, the three names run the three workflows and every other
name but the cross-correlation raises `KeyError`. -/
theorem C80_builtin_partial (env : Env) (a : SettingsArgs) (f : Fnames) (set : Settings)
    (hset : Settings.ofDict (createSettingsDict a) = some set) :
    (a.workflow = "single" → maswRun (packageThen []) env (createSettingsDict a) f = single env set f) ∧
    (a.workflow = "time-domain" →
      maswRun (packageThen []) env (createSettingsDict a) f = timeDomain env set f) ∧
    (a.workflow = "frequency-domain" →
      maswRun (packageThen []) env (createSettingsDict a) f = frequencyDomain env set f) ∧
    (a.workflow ∉ ["single", "time-domain", "frequency-domain", "time-domain-xcorr"] →
      maswRun (packageThen []) env (createSettingsDict a) f = .error (.raised .keyError)) := by
  unfold packageThen
  simp only [C80_dispatch_partial, hset, List.append_nil, builtin, List.map_cons, List.map_nil]
  refine ⟨?_, ?_, ?_, ?_⟩ <;> intro h
  · rw [h]; simp [lastWorkflow]
  · rw [h]; simp [lastWorkflow]
  · rw [h]; simp [lastWorkflow]
  · simp only [List.mem_cons, List.not_mem_nil, or_false, not_or] at h
    obtain ⟨h1, h2, h3, h4⟩ := h
    simp [lastWorkflow, Ne.symm h1, Ne.symm h2, Ne.symm h3, Ne.symm h4]

/-- The hypothesis is met by any arguments. -/
example (a : SettingsArgs) : ∃ set, Settings.ofDict (createSettingsDict a) = some set :=
  ⟨_, ofDict_createSettingsDict a⟩

/-- **C80** fails for the fourth registered name: `Masw.run` with the workflow "time-domain-xcorr" raises
`TypeError` for all settings and files. -/
theorem C80_xcorr_fails (env : Env) (a : SettingsArgs) (f : Fnames) :
    maswRun (packageThen []) env (createSettingsDict { a with workflow := "time-domain-xcorr" }) f =
      .error (.raised .typeError) := by
  unfold packageThen
  rw [C80_dispatch_partial, ofDict_createSettingsDict]
  simp [builtin, lastWorkflow]

/-- **C80** (cross-correlation).  `MaswXcorr.run` runs the cross-correlation workflow on the receiver and
source files and raises `NotImplementedError` for every other workflow name, registered or not. -/
theorem C80_xcorr_run (ops : List (RegOp Class)) (env : Env) (a : SettingsArgs) (f : Fnames)
    (src : List String) (ch : ℤ) (set : Settings)
    (hset : Settings.ofDict (createSettingsDict a) = some set) :
    (a.workflow ≠ "time-domain-xcorr" →
      maswXcorrRun (Registries.run ops).workflows env (createSettingsDict a) f src ch =
        .error (.raised .notImplementedError)) ∧
    (a.workflow = "time-domain-xcorr" →
      maswXcorrRun (packageThen []) env (createSettingsDict a) f src ch = xcorr env set f src ch) := by
  have hw : (createSettingsDict a).str? ["workflow"] = some a.workflow := rfl
  constructor
  · intro h
    unfold maswXcorrRun
    rw [hw]
    simp [h]
  · intro h
    unfold maswXcorrRun packageThen
    rw [hw]
    simp only [h, ne_eq, not_true_eq_false, if_false]
    rw [(C73_registries _ _).2, hset]
    simp [builtin, lastWorkflow]

/-! ## C100: one name is a list of one name -/

/-- **C100** (partial).  For the single and the time-domain workflow, a file name and a list of this one
name give the same run.  Missing: the frequency-domain workflow, see below. -/
theorem C100_one_name_partial (env : Env) (set : Settings) (n : String) :
    timeDomain env set (.one n) = timeDomain env set (.many [n]) ∧
    single env set (.one n) = single env set (.many [n]) := ⟨rfl, rfl⟩

/-- **C100** fails for the frequency-domain workflow: the name is taken for a list of names of one character
each, so the run on a readable file fails unless there is a file named by its first character. -/
theorem C100_frequency_domain_fails :
    (∀ (env : Env) (set : Settings) (c : Char) (rest : List Char), env.fs (String.singleton c) = none →
      frequencyDomain env set (.one (String.ofList (c :: rest))) = .error (.raised .fileNotFoundError)) ∧
    ∃ (env : Env) (set : Settings) (r : Result), frequencyDomain env set (.many ["file"]) = .ok r ∧
      frequencyDomain env set (.one "file") = .error (.raised .fileNotFoundError) := by
  have gen : ∀ (env : Env) (set : Settings) (c : Char) (rest : List Char),
      env.fs (String.singleton c) = none →
      frequencyDomain env set (.one (String.ofList (c :: rest))) = .error (.raised .fileNotFoundError) := by
    intro env set c rest h
    have hr : Workflow.fromFiles env (.one (String.singleton c)) = .error (.raised .fileNotFoundError) := by
      simp [Workflow.fromFiles, Arr.fromFiles, Arr.readFile, h, lift]
    simp [frequencyDomain, freqFiles, exampleArray, hr, bind, Except.bind]
  obtain ⟨r, hr⟩ := exFrequencyDomain_one
  exact ⟨gen, exFileEnv, exSet, r, hr, gen exFileEnv exSet 'f' ['i', 'l', 'e'] (by decide)⟩

/-! ## C102: asking for the ratio does not break a run -/

/-- Settings for `exEnv`: keep the record from its second sample on; the windows are within the part kept
(signal) and within the record (noise). -/
def exLateSet (snr : Bool) : Settings :=
  { exSet with trimApply := true, trimBegin := 1 / 1000, trimEnd := 1 / 1000, snrPerform := snr,
               signalBegin := 1 / 1000, signalEnd := 1 / 1000 }

/-- **C102** fails: a run with a trim which starts after the trigger returns, and the same run with a
signal-to-noise ratio raises `ValueError`, although both windows are within the data they are taken from:
the copy made for the signal window refuses a record which starts after the trigger. -/
theorem C102_late_trim_fails :
    (∃ r, timeDomain exEnv (exLateSet false) (.one "a") = .ok r) ∧
    timeDomain exEnv (exLateSet true) (.one "a") = .error (.raised .valueError) := by
  have hd : Workflow.detrend exEnv exA = exA := by decide +kernel
  let late : Arr := ⟨[⟨⟨[2], 1 / 1000, 1, 1 / 1000, 1⟩, 0, 0, 0⟩, ⟨⟨[4], 1 / 1000, 1, 1 / 1000, 1⟩, 2, 0, 0⟩],
    ⟨-5, 0, 0⟩⟩
  have ht : exA.trim (1 / 1000) (1 / 1000) = (late, .ok ()) := by decide +kernel
  have hw : copyWindow late (1 / 1000) (1 / 1000) = .error (.raised .valueError) := by decide +kernel
  refine ⟨⟨⟨⟨1, [0, 500], [200], [[((2 : ℚ) : ℂ), ((4 : ℚ) : ℂ)]]⟩, late, none,
    ⟨late, none, none, none, none⟩⟩, ?_⟩, ?_⟩
  · unfold timeDomain
    rw [exA_read]
    simp only [bind, Except.bind, exA_check, Workflow.trimOffsets, State.new, exLateSet, exSet, exA_near, call,
      pure, Except.pure, hd, selectNoise, Bool.false_and, trimTime, if_true, ht,
      Bool.false_eq_true, if_false, Workflow.mute, selectSignal, calculateSnr, Workflow.pad,
      Workflow.transform]
    rfl
  · unfold timeDomain
    rw [exA_read]
    simp only [bind, Except.bind, exA_check, Workflow.trimOffsets, State.new, exLateSet, exSet, exA_near, call,
      pure, Except.pure, hd, selectNoise, Option.isNone_none, Bool.and_self, exA_window, trimTime, if_true,
      ht, Bool.false_eq_true, if_false, Workflow.mute, selectSignal, hw]

end Verif.Props
