import Verif.Props.Rerun
import Verif.Props.FrequencyDomain
import Verif.Props.XcorrWorkflow

/-!
# C162: frequency-domain and cross-correlation workflows which are run again
-/

namespace Verif.Props
open Verif Workflow

/-! ## What is meant -/

/-- A frequency-domain workflow object run `k` further times. -/
noncomputable def freqRunsAgain (env : Env) (set : Settings) (f : Fnames) : ℕ → Except Stop Result
  | 0 => frequencyDomain env set f
  | k + 1 => do
    let r ← freqRunsAgain env set f k
    frequencyDomainAgain env set r.final f

/-- A cross-correlation workflow object run `k` further times. -/
noncomputable def xcorrRunsAgain (env : Env) (set : Settings) (f : Fnames) (src : List String) (ch : ℤ) :
    ℕ → Except Stop Result
  | 0 => xcorr env set f src ch
  | k + 1 => do
    let r ← xcorrRunsAgain env set f src ch k
    xcorrAgain env set r.final f src ch

/-! ## Single steps from another state with the same array -/

theorem trimOffsets_from {set : Settings} {s s1 : State} (h : Workflow.trimOffsets set s = .ok s1) (s' : State)
    (ha : s'.array = s.array) : Workflow.trimOffsets set s' = .ok { s' with array := s1.array } := by
  obtain ⟨a, e, rfl⟩ := trimOffsets_ok h
  unfold Workflow.trimOffsets
  rw [ha, e]
  rfl

theorem trimTime_from {set : Settings} {s s1 : State} (h : trimTime set s = .ok s1) (s' : State)
    (ha : s'.array = s.array) : trimTime set s' = .ok { s' with array := s1.array } := by
  obtain ⟨a, e, rfl⟩ := trimTime_ok h
  unfold trimTime
  split_ifs at e ⊢ with c
  · rw [ha, e]; rfl
  · rw [e, ← ha]; rfl

theorem pad_from {set : Settings} {s s1 : State} (h : Workflow.pad set s = .ok s1) (s' : State)
    (ha : s'.array = s.array) : Workflow.pad set s' = .ok { s' with array := s1.array } := by
  obtain ⟨a, e, rfl⟩ := pad_ok h
  unfold Workflow.pad
  split_ifs at e ⊢ with c
  · rw [ha, e]; rfl
  · rw [e, ← ha]; rfl

/-- With lines in place. -/
theorem mute_with {env : Env} {set : Settings} {a b : Arr} {l : Option Arr.Line × Option Arr.Line}
    (hl : set.muteApply = true → l.1.isSome)
    (h : if set.muteApply then a.mute (env.tukey set.windowKwargs) l.1 l.2 = (b, .ok ()) else b = a)
    (n g : Option Arr) : Workflow.mute env set ⟨a, l.1, l.2, n, g⟩ = .ok ⟨b, l.1, l.2, n, g⟩ := by
  unfold Workflow.mute
  split_ifs at h ⊢ with c1 c2
  · have := hl c1
    simp only [Bool.and_eq_true, Option.isNone_iff_eq_none] at c2
    rw [c2.1] at this; cases this
  · have := hl c1
    simp only [Bool.and_eq_true, Option.isNone_iff_eq_none] at c2
    rw [c2.1] at this; cases this
  · simp only
    rw [h]
    rfl
  · rw [h]; rfl

theorem selectNoise_keeps {set : Settings} {s : State} (h : set.snrPerform = true → s.noise.isSome) :
    selectNoise set s = .ok s := by
  unfold selectNoise
  rw [if_neg]
  · rfl
  · simp only [Bool.and_eq_true, not_and, Option.isNone_iff_eq_none]
    intro hp hn
    have := h hp
    rw [hn] at this
    cases this

theorem selectSignal_keeps {set : Settings} {s : State} (h : set.snrPerform = true → s.signal.isSome) :
    selectSignal set s = .ok s := by
  unfold selectSignal
  rw [if_neg]
  · rfl
  · simp only [Bool.and_eq_true, not_and, Option.isNone_iff_eq_none]
    intro hp hn
    have := h hp
    rw [hn] at this
    cases this

/-- The records of the intermediate arrays have positive time steps, too. -/
theorem sampled_preprocessed {env : Env} {set : Settings} {kw : Option Kwargs} {lines : Option Arr.Line × Option Arr.Line}
    {raw near level cut muted padded : Arr} (h : Sampled raw)
    (hpre : Spec.Preprocessed env set kw lines raw near level cut muted padded) : Sampled level ∧ Sampled muted := by
  have hnear : Sampled near := fun s hs => h s ((trimOffsetsFl_sublist hpre.offsets).1.subset hs)
  have hlev : Sampled level := by
    intro s hs
    rw [hpre.detrended] at hs
    obtain ⟨s0, hs0, rfl⟩ := List.mem_map.1 hs
    exact hnear s0 hs0
  have hsc : Sampled cut := by
    have := hpre.trimmed
    split_ifs at this
    · exact sampled_trim hlev this
    · rw [this]; exact hlev
  refine ⟨hlev, ?_⟩
  have := hpre.windowed
  split_ifs at this
  · exact sampled_mute hsc this
  · rw [this]; exact hsc

/-! ## One file -/

/-- One file from another state with the same mute lines. -/
theorem freqFile_from {env : Env} {set : Settings} {ex : Arr} {st : Option State} {f : String} {s : State} {t : Transform}
    (h : freqFile env set ex st f = .ok (s, t))
    (hst : (st = none ∧ (set.muteApply = true → set.windowKwargs = none)) ∨
      ∃ s0, st = some s0 ∧ (set.muteApply = true → s0.signalStart.isSome))
    (b : Arr) (n g : Option Arr) (hp : set.snrPerform = true → n.isSome ∧ g.isSome) :
    freqFile env set ex (some ⟨b, s.signalStart, s.signalEnd, n, g⟩) f =
      .ok (⟨s.array, s.signalStart, s.signalEnd, n, g⟩, t) := by
  unfold freqFile at h
  obtain ⟨raw, hraw, h⟩ := bind_ok h
  simp only at h
  split_ifs at h with hsim
  · cases h
  obtain ⟨⟨⟩, hcheck, h⟩ := bind_ok h
  obtain ⟨s1, h1, h⟩ := bind_ok h
  obtain ⟨s2, h2, h⟩ := bind_ok h
  obtain ⟨s3, h3, h⟩ := bind_ok h
  obtain ⟨s4, h4, h⟩ := bind_ok h
  obtain ⟨s5, h5, h⟩ := bind_ok h
  obtain ⟨s6, h6, h⟩ := bind_ok h
  obtain ⟨t', h7, h⟩ := bind_ok h
  cases h
  have q1 : (match st with
      | none => State.new raw
      | some s => { s with array := raw }).array = raw := by rcases st with _ | s <;> rfl
  have f1 := trimOffsets_from h1 ⟨raw, s.signalStart, s.signalEnd, n, g⟩ q1.symm
  obtain ⟨e2, -⟩ := selectNoise_ok h2
  have a2 : s2.array = detrend env s1.array := by rw [e2]
  have f3 := trimTime_from h3 ⟨detrend env s1.array, s.signalStart, s.signalEnd, n, g⟩ a2.symm
  obtain ⟨cut, -, e3⟩ := trimTime_ok h3
  obtain ⟨e5, -⟩ := selectSignal_ok h5
  obtain ⟨padded, -, e6⟩ := pad_ok h6
  have l1 : s.signalStart = s4.signalStart := by rw [e6, e5]
  have l2 : s.signalEnd = s4.signalEnd := by rw [e6, e5]
  have a5 : s5.array = s4.array := by rw [e5]
  obtain ⟨near, -, e1⟩ := trimOffsets_ok h1
  have f4 : Workflow.mute env set ⟨s3.array, s.signalStart, s.signalEnd, n, g⟩ =
      .ok ⟨s4.array, s.signalStart, s.signalEnd, n, g⟩ := by
    rw [l1, l2]
    rcases hst with ⟨rfl, hk⟩ | ⟨s0, rfl, hm⟩
    · obtain ⟨muted, e4, e4', e4''⟩ := mute_ok_first h4 (by rw [e3, e2, e1]; rfl) (by rw [e3, e2, e1]; rfl)
      have a4 : s4.array = muted := by rw [e4]
      refine mute_with (l := (s4.signalStart, s4.signalEnd)) (fun hh => (e4'' hh).1) ?_ n g
      rw [a4]
      split_ifs at e4' ⊢ with c
      · rw [hk c]; exact e4'
      · exact e4'
    · have j1 : s3.signalStart = s0.signalStart := by rw [e3, e2, e1]
      obtain ⟨muted, e4, e4'⟩ := mute_ok_later h4 (by intro hh; rw [j1]; exact hm hh)
      have k1 : s4.signalStart = s3.signalStart := by rw [e4]
      have k2 : s4.signalEnd = s3.signalEnd := by rw [e4]
      have a4 : s4.array = muted := by rw [e4]
      refine mute_with (l := (s4.signalStart, s4.signalEnd)) (fun hh => by rw [k1, j1]; exact hm hh) ?_ n g
      rw [a4]
      simp only [k1, k2]
      exact e4'
  have f6 := pad_from h6 ⟨s4.array, s.signalStart, s.signalEnd, n, g⟩ a5.symm
  have f2 := selectNoise_keeps (set := set) (s := ⟨detrend env s1.array, s.signalStart, s.signalEnd, n, g⟩)
    (fun hh => (hp hh).1)
  have f5 := selectSignal_keeps (set := set) (s := ⟨s4.array, s.signalStart, s.signalEnd, n, g⟩)
    (fun hh => (hp hh).2)
  unfold freqFile
  rw [hraw]
  simp only [bind, Except.bind, if_neg hsim, hcheck, f1, f2, f3, f4, f5, f6, h7, pure, Except.pure]

/-! ## All files -/

/-- The loop of a later run: what it adds up, and the array it leaves, are those of the earlier loop. -/
theorem freqLoop_from {env : Env} {set : Settings} {ex : Arr} : ∀ (fs : List String) (s0 : State) (t0 : Transform)
    (sf : State) (t : Transform), freqLoop env set ex (some s0) t0 fs = .ok (some sf, t) →
    (set.muteApply = true → s0.signalStart.isSome) → (set.snrPerform = true → s0.noise.isSome ∧ s0.signal.isSome) →
    ∀ (n g : Option Arr), (set.snrPerform = true → n.isSome ∧ g.isSome) →
    freqLoop env set ex (some ⟨s0.array, s0.signalStart, s0.signalEnd, n, g⟩) t0 fs =
      .ok (some ⟨sf.array, s0.signalStart, s0.signalEnd, n, g⟩, t) := by
  intro fs
  induction fs with
  | nil =>
    intro s0 t0 sf t h _ _ n g _
    simp only [freqLoop, Except.ok.injEq, Prod.mk.injEq, Option.some.injEq] at h
    obtain ⟨rfl, rfl⟩ := h
    rfl
  | cons f fs ih =>
    intro s0 t0 sf t h hm hp0 n g hp
    simp only [freqLoop] at h ⊢
    obtain ⟨⟨s1, T⟩, h1, h⟩ := bind_ok h
    simp only at h
    obtain ⟨t1, h2, h⟩ := bind_ok h
    obtain ⟨-, r1, r2, r3, r4, -⟩ := freqFile_later hm hp0 h1
    have := freqFile_from h1 (Or.inr ⟨s0, rfl, hm⟩) s0.array n g hp
    rw [r1, r2] at this
    rw [this]
    simp only [bind, Except.bind, h2]
    have := ih s1 t1 sf t h (by intro hh; rw [r1]; exact hm hh) (by intro hh; rw [r3, r4]; exact hp0 hh) n g hp
    rw [r1, r2] at this
    exact this

/-- The loop does not look at the array left by the earlier run. -/
theorem freqLoop_array {env : Env} {set : Settings} {ex : Arr} (f : String) (fs : List String) (s : State) (b : Arr)
    (t0 : Transform) : freqLoop env set ex (some { s with array := b }) t0 (f :: fs) =
      freqLoop env set ex (some s) t0 (f :: fs) := rfl

/-- What the attributes hold after a frequency-domain run. -/
theorem freqFiles_final {env : Env} {set : Settings} {f0 : String} {rest : List String} {r : Result}
    (h : freqFiles env set (f0 :: rest) = .ok r) (hdt : ∀ raw, fromFiles env (.one f0) = .ok raw → Sampled raw) :
    (set.muteApply = true → r.final.signalStart.isSome) ∧
    (set.snrPerform = false → r.snr = none) ∧
    (set.snrPerform = true → ∃ signal noise q, r.final.signal = some signal ∧ r.final.noise = some noise ∧
      r.snr = some q ∧ WT.snr signal noise set.fmin set.fmax set.snrPad set.snrDf = ((signal, noise), .ok q)) ∧
    r.array = r.final.array ∧
    ((set.muteApply = true → set.windowKwargs = none) → ∃ ex t0, exampleArray env set f0 = .ok ex ∧
      Workflow.empty ex set = .ok t0 ∧
      freqLoop env set ex (some r.final) t0 (f0 :: rest) = .ok (some r.final, r.transform)) := by
  unfold freqFiles at h
  obtain ⟨ex, hex, h⟩ := bind_ok h
  obtain ⟨t0, ht0, h⟩ := bind_ok h
  obtain ⟨_, -, h⟩ := bind_ok h
  obtain ⟨⟨st, t⟩, hloop, h⟩ := bind_ok h
  simp only [freqLoop] at hloop
  obtain ⟨⟨s1, T0⟩, h1, hloop⟩ := bind_ok hloop
  simp only at hloop
  obtain ⟨t1, h2, hloop⟩ := bind_ok hloop
  obtain ⟨-, c2, level, muted, c3, c4, -⟩ := freqFile_first h1
  have hps : set.snrPerform = true → s1.noise.isSome ∧ s1.signal.isSome := by
    intro hp; obtain ⟨n, s, e1, e2, -⟩ := c4 hp; rw [e1, e2]; exact ⟨rfl, rfl⟩
  obtain ⟨sf, Ts, rfl, r2, r3, r4, r5, -⟩ := freqLoop_later rest s1 t1 st t c2 hps hloop
  simp only at h
  obtain ⟨⟨s', q⟩, hq, h⟩ := bind_ok h
  cases h
  obtain ⟨k0, k1, k2⟩ := calculateSnr_ok hq
  have b1 : s'.signalStart = s1.signalStart := by rw [k0]; exact r2
  have b2 : s'.signalEnd = s1.signalEnd := by rw [k0]; exact r3
  have b3 : s'.array = sf.array := by rw [k0]
  have hps' : set.snrPerform = true → s'.noise.isSome ∧ s'.signal.isSome := by
    intro hp
    obtain ⟨_, _, _, _, _, -, -, -, -, j5, j6⟩ := k2 hp
    rw [j5, j6]; exact ⟨rfl, rfl⟩
  refine ⟨fun hm => ?_, fun hf => (k1 hf).2, fun hp => ?_, rfl, fun hk => ⟨ex, t0, hex, lift_ok ht0, ?_⟩⟩
  · show s'.signalStart.isSome
    rw [b1]; exact c2 hm
  · obtain ⟨noise, signal, m1, m2, m3, m4⟩ := c4 hp
    obtain ⟨signal', noise', sp, np, q', j1, j2, j3, j4, j5, j6⟩ := k2 hp
    rw [r5, m2] at j1
    rw [r4, m1] at j2
    cases j1; cases j2
    obtain ⟨raw, near, cut, padded, hraw, -, hpre, -⟩ := c3
    obtain ⟨hl, hmu⟩ := sampled_preprocessed (hdt raw hraw) hpre
    exact ⟨sp, np, q', j5, j6, j4, snr_again (sampled_window hmu m4) (sampled_window hl m3) j3⟩
  · have g1 := freqFile_from h1 (Or.inl ⟨rfl, hk⟩) s'.array s'.noise s'.signal hps'
    have g2 := freqLoop_from rest s1 t1 sf t hloop c2 hps s'.noise s'.signal hps'
    have e1 : (⟨s'.array, s1.signalStart, s1.signalEnd, s'.noise, s'.signal⟩ : State) = s' := by rw [← b1, ← b2]
    have e2 : (⟨sf.array, s1.signalStart, s1.signalEnd, s'.noise, s'.signal⟩ : State) = s' := by rw [← b1, ← b2, ← b3]
    rw [e1] at g1
    rw [e2] at g2
    simp only [freqLoop, g1, bind, Except.bind, h2]
    exact g2

/-! ## C162 -/

/-- **C162** (frequency domain, what does hold).  With the same settings and list of files, and a mute window given by
the defaults (or no muting), running a frequency-domain workflow object again, any number of times, returns what the
first run returned.  Missing: muting with window settings, and other files or settings (refuted below). -/
theorem C162_frequency_same_again_partial (env : Env) (set : Settings) (names : List String) (r : Result)
    (h : frequencyDomain env set (.many names) = .ok r) (hk : set.muteApply = true → set.windowKwargs = none)
    (hdt : ∀ f ∈ names, ∀ raw, fromFiles env (.one f) = .ok raw → Sampled raw) (k : ℕ) :
    freqRunsAgain env set (.many names) k = .ok r := by
  have key : frequencyDomainAgain env set r.final (.many names) = .ok r := by
    rcases names with _ | ⟨f0, rest⟩
    · cases h
    have h' : freqFiles env set (f0 :: rest) = .ok r := h
    obtain ⟨-, c2, c3, c4, c5⟩ := freqFiles_final h' (hdt f0 List.mem_cons_self)
    obtain ⟨ex, t0, d1, d2, d3⟩ := c5 hk
    have hcc : ∃ c, Workflow.lift (env.transforms.createClass set.transform) = .ok c := by
      unfold freqFiles at h'
      obtain ⟨_, -, h'⟩ := bind_ok h'
      obtain ⟨_, -, h'⟩ := bind_ok h'
      obtain ⟨c, hc, -⟩ := bind_ok h'
      exact ⟨c, hc⟩
    obtain ⟨c, hc⟩ := hcc
    have hc := lift_ok hc
    have hq : calculateSnr set r.final = .ok (r.final, r.snr) := by
      unfold calculateSnr
      split_ifs with hp
      · obtain ⟨signal, noise, q, i1, i2, i3, i4⟩ := c3 hp
        simp only [i1, i2, i3, i4]
        rw [← i1, ← i2]
      · rw [c2 (by simpa using hp)]; rfl
    show freqFilesAgain env set r.final (f0 :: rest) = .ok r
    unfold freqFilesAgain
    simp only [d1, d2, d3, hc, hq, Workflow.lift, bind, Except.bind, pure, Except.pure]
    rw [← c4]
  induction k with
  | zero => exact h
  | succ k ih =>
    show (do let r ← freqRunsAgain env set (.many names) k; frequencyDomainAgain env set r.final (.many names)) = _
    rw [ih]
    exact key

/-- **C162** (frequency domain, what a second run does, on any files).  It mutes all files between the lines of the
first run with the window of the settings, also the first file (which the first run muted with the default window), and
reports the signal-to-noise ratio of the first run. -/
theorem C162_frequency_second_run_fails (env : Env) (set : Settings) (f0 : String) (rest names : List String) (r r' : Result)
    (h : frequencyDomain env set (.many (f0 :: rest)) = .ok r)
    (h' : frequencyDomainAgain env set r.final (.many names) = .ok r')
    (hdt : ∀ raw, fromFiles env (.one f0) = .ok raw → Sampled raw) :
    (∃ ex t0 Ts, names.head?.map (exampleArray env set) = some (.ok ex) ∧ Workflow.empty ex set = .ok t0 ∧
      (∀ f ∈ names, ∃ raw, fromFiles env (.one f) = .ok raw ∧ Spec.Compatible raw ex) ∧
      List.Forall₂ (fun f T => ∃ level muted,
        Spec.PerFile env set set.windowKwargs (r.final.signalStart, r.final.signalEnd) f level muted T) names Ts ∧
      Ts.foldlM Workflow.stack t0 = .ok r'.transform) ∧
    (set.snrPerform = true → r'.snr = r.snr) ∧ r'.final = { r.final with array := r'.array } := by
  obtain ⟨c1, -, c3, -⟩ := freqFiles_final (show freqFiles env set (f0 :: rest) = .ok r from h) hdt
  have hps : set.snrPerform = true → r.final.noise.isSome ∧ r.final.signal.isSome := by
    intro hp
    obtain ⟨_, _, _, i1, i2, -⟩ := c3 hp
    rw [i1, i2]; exact ⟨rfl, rfl⟩
  rcases names with _ | ⟨g0, more⟩
  · cases h'
  have h' : freqFilesAgain env set r.final (g0 :: more) = .ok r' := h'
  unfold freqFilesAgain at h'
  obtain ⟨ex, hex, h'⟩ := bind_ok h'
  obtain ⟨t0, ht0, h'⟩ := bind_ok h'
  obtain ⟨_, -, h'⟩ := bind_ok h'
  obtain ⟨⟨st, t⟩, hloop, h'⟩ := bind_ok h'
  obtain ⟨sf, Ts, rfl, r2, r3, r4, r5, r6, r7, r8, -⟩ := freqLoop_later (g0 :: more) r.final t0 st t c1 hps hloop
  simp only at h'
  obtain ⟨⟨s', q⟩, hq, h'⟩ := bind_ok h'
  cases h'
  obtain ⟨k0, k1, k2⟩ := calculateSnr_ok hq
  refine ⟨⟨ex, t0, Ts, by simp [hex], lift_ok ht0, r6, r7, r8⟩, ?_, ?_⟩
  · intro hp
    obtain ⟨signal, noise, sp, np, q', j1, j2, j3, j4, -, -⟩ := k2 hp
    obtain ⟨signal', noise', q0, i1, i2, i3, i4⟩ := c3 hp
    rw [r5, i1] at j1; rw [r4, i2] at j2
    cases j1; cases j2
    rw [i4] at j3
    simp only [Prod.mk.injEq, Except.ok.injEq] at j3
    rw [j4, i3, j3.2]
  · show s' = _
    by_cases hp : set.snrPerform = true
    · obtain ⟨signal, noise, sp, np, q', j1, j2, j3, j4, j5, j6⟩ := k2 hp
      obtain ⟨signal', noise', q0, i1, i2, i3, i4⟩ := c3 hp
      rw [r5, i1] at j1; rw [r4, i2] at j2
      cases j1; cases j2
      rw [i4] at j3
      simp only [Prod.mk.injEq, Except.ok.injEq] at j3
      obtain ⟨⟨rfl, rfl⟩, -⟩ := j3
      rw [k0, j5, j6, ← i1, ← i2, r2, r3]
    · have e := (k1 (by simpa using hp)).1
      subst e
      simp only [← r2, ← r3, ← r4, ← r5]

/-- **C162** (from the second run on).  Whatever the settings, further runs on the same files return what the second
run returned: for records stacked in the time domain and for files stacked in the frequency domain. -/
theorem C162_settles (env : Env) (set : Settings) (r r' : Result) :
    (∀ f f', timeDomain env set f = .ok r → (∀ raw, fromFiles env f = .ok raw → Sampled raw) →
      timeDomainAgain env set r.final f' = .ok r' → timeDomainAgain env set r'.final f' = .ok r') ∧
    (∀ f0 rest names, frequencyDomain env set (.many (f0 :: rest)) = .ok r →
      (∀ raw, fromFiles env (.one f0) = .ok raw → Sampled raw) →
      frequencyDomainAgain env set r.final (.many names) = .ok r' →
      frequencyDomainAgain env set r'.final (.many names) = .ok r') := by
  constructor
  · intro f f' h hdt h'
    obtain ⟨-, -, e⟩ := C162_second_run_fails env set f f' r r' h h' hdt
    rw [e]
    exact h'
  · intro f0 rest names h hdt h'
    obtain ⟨-, -, e⟩ := C162_frequency_second_run_fails env set f0 rest names r r' h h' hdt
    rw [e]
    rcases names with _ | ⟨g, names⟩
    · exact h'
    · exact h'

/-- **C162** (cross-correlation, what does hold).  As for the other workflows: with the same settings and files, and a
mute window given by the defaults (or no muting), every further run returns what the first run returned. -/
theorem C162_xcorr_same_again_partial (env : Env) (set : Settings) (f : Fnames) (src : List String) (ch : ℤ) (r : Result)
    (h : xcorr env set f src ch = .ok r) (hk : set.muteApply = true → set.windowKwargs = none)
    (hdt : ∀ raw, fromFiles env f = .ok raw → Sampled raw) (k : ℕ) :
    xcorrRunsAgain env set f src ch k = .ok r := by
  have key : xcorrAgain env set r.final f src ch = .ok r := by
    unfold xcorr at h
    obtain ⟨⟨raw0, sig⟩, hread, h⟩ := bind_ok h
    simp only at h
    obtain ⟨tl, htl, h⟩ := bind_ok h
    obtain ⟨raw, hcut, h⟩ := bind_ok h
    by_cases hsg : sig.amp = []
    · rw [if_pos hsg] at h; cases h
    rw [if_neg hsg] at h
    obtain ⟨⟨⟩, hcheck, h⟩ := bind_ok h
    obtain ⟨s1, h1, h⟩ := bind_ok h
    obtain ⟨s2, h2, h⟩ := bind_ok h
    obtain ⟨s3, h3, h⟩ := bind_ok h
    obtain ⟨s4, h4, h⟩ := bind_ok h
    obtain ⟨s5, h5, h⟩ := bind_ok h
    obtain ⟨⟨s6, q⟩, h6, h⟩ := bind_ok h
    simp only at h
    obtain ⟨x, hx, h⟩ := bind_ok h
    obtain ⟨s7, h7, h⟩ := bind_ok h
    obtain ⟨t, h8, h⟩ := bind_ok h
    cases h
    have hraw0 : Sampled raw0 := by
      unfold fromFilesWithSource at hread
      obtain ⟨a, ha, hread⟩ := bind_ok hread
      obtain ⟨signals, -, hread⟩ := bind_ok hread
      rcases signals with _ | ⟨⟨s0, dt⟩, rest⟩
      · cases hread
      simp only at hread
      obtain ⟨amp, -, hread⟩ := bind_ok hread
      obtain ⟨sorted, hsorted, hread⟩ := bind_ok hread
      cases hread
      intro s hs
      exact hdt a ha s ((Arr.init_consistent (lift_ok hsorted)).2.1.mem_iff.1 hs)
    have hraw : Sampled raw := sampled_trim hraw0 (call_ok' hcut)
    obtain ⟨near, e1, rfl⟩ := trimOffsets_ok h1
    obtain ⟨e2, n1, -, -⟩ := selectNoise_ok h2
    have h3' := h3
    obtain ⟨cut, e3, e3'⟩ := trimTime_ok h3
    obtain ⟨muted, e4, e4', e4''⟩ := mute_ok_first h4 (by rw [e3', e2]; rfl) (by rw [e3', e2]; rfl)
    obtain ⟨e5, g1, -, -⟩ := selectSignal_ok h5
    obtain ⟨e6, k1, k2⟩ := calculateSnr_ok h6
    have h7' := h7
    obtain ⟨padded, -, e7⟩ := pad_ok h7
    have a2 : s2.array = detrend env near := by rw [e2]
    have a3 : s3.array = cut := by rw [e3']
    have a4 : s4.array = muted := by rw [e4]
    have a6 : s6.array = muted := by rw [e6, e5, a4]
    have b1 : s7.signalStart = s4.signalStart := by rw [e7, e6, e5]
    have b2 : s7.signalEnd = s4.signalEnd := by rw [e7, e6, e5]
    have b3 : s7.noise = s6.noise := by rw [e7]
    have b4 : s7.signal = s6.signal := by rw [e7]
    rw [a3] at e4'
    have hpre : Spec.Preprocessed env { set with padApply := false } none (s4.signalStart, s4.signalEnd) raw near
        (detrend env near) cut muted muted := ⟨e1, rfl, rfl, by rw [a2] at e3; exact e3, e4', rfl⟩
    obtain ⟨hlev, hsm⟩ := sampled_preprocessed hraw hpre
    have hps : set.snrPerform = true → s6.noise.isSome ∧ s6.signal.isSome := by
      intro hp
      obtain ⟨_, _, _, _, _, -, -, -, -, j5, j6⟩ := k2 hp
      rw [j5, j6]; exact ⟨rfl, rfl⟩
    have f1 := trimOffsets_from h1 ⟨raw, s4.signalStart, s4.signalEnd, s6.noise, s6.signal⟩ rfl
    have f2 := selectNoise_keeps (set := set) (s := ⟨detrend env near, s4.signalStart, s4.signalEnd, s6.noise, s6.signal⟩)
      (fun hh => (hps hh).1)
    have f3 := trimTime_from h3' ⟨detrend env near, s4.signalStart, s4.signalEnd, s6.noise, s6.signal⟩ a2.symm
    have f4 := mute_with (env := env) (set := set) (a := cut) (b := muted) (l := (s4.signalStart, s4.signalEnd))
      (fun hh => (e4'' hh).1) (by
        split_ifs at e4' ⊢ with c
        · rw [hk c]; exact e4'
        · exact e4') s6.noise s6.signal
    have f5 := selectSignal_keeps (set := set) (s := ⟨muted, s4.signalStart, s4.signalEnd, s6.noise, s6.signal⟩)
      (fun hh => (hps hh).2)
    have f6 : calculateSnr set ⟨muted, s4.signalStart, s4.signalEnd, s6.noise, s6.signal⟩ =
        .ok (⟨muted, s4.signalStart, s4.signalEnd, s6.noise, s6.signal⟩, q) := by
      unfold calculateSnr
      split_ifs with hp
      · obtain ⟨signal, noise, sp, np, q', j1, j2, j3, j4, j5, j6⟩ := k2 hp
        obtain ⟨noise0, hn0, hw⟩ := n1 hp rfl
        have hs4 : s4.signal = none := by rw [e4, e3', e2]; rfl
        obtain ⟨signal0, hs0, hw'⟩ := g1 hp hs4
        rw [hs0] at j1
        have hn5 : s5.noise = some noise0 := by rw [e5, e4, e3']; exact hn0
        rw [hn5] at j2
        cases j1; cases j2
        rw [a4] at hw'
        have ha := snr_again (sampled_window hsm hw') (sampled_window hlev hw) j3
        simp only [j5, j6, ha, j4]
      · rw [(k1 (by simpa using hp)).2]; rfl
    have f7 := pad_from h7' ⟨{ muted with sensors := x.sensors }, s4.signalStart, s4.signalEnd, s6.noise, s6.signal⟩
      (by rw [a6])
    have hend : (⟨s7.array, s4.signalStart, s4.signalEnd, s6.noise, s6.signal⟩ : State) = s7 := by
      rw [← b1, ← b2, ← b3, ← b4]
    have hx := call_ok' hx
    have hcut := call_ok' hcut
    rw [a6] at hx
    unfold xcorrAgain
    rw [hread]
    rw [a3] at f3
    simp only [b1, b2, b3, b4, bind, Except.bind, htl, hcut, if_neg hsg, hcheck, f1, f2, f3, f4, f5, f6, hx, call, f7, h8,
      pure, Except.pure]
    rw [hend]
  induction k with
  | zero => exact h
  | succ k ih =>
    show (do let r ← xcorrRunsAgain env set f src ch k; xcorrAgain env set r.final f src ch) = _
    rw [ih]
    exact key

/-- The hypotheses: the run `sweep_returns`. -/
example : (∃ r, xcorr sweepEnv (pulseSet "phaseshift") (.one "a") ["s"] 0 = .ok r) ∧
    (pulseSet "phaseshift").windowKwargs = none ∧ ∀ raw, fromFiles sweepEnv (.one "a") = .ok raw → Sampled raw := by
  obtain ⟨r, hr, -⟩ := sweep_returns (tr := "phaseshift") (Or.inl rfl)
  refine ⟨⟨r, hr⟩, rfl, ?_⟩
  intro raw h
  rw [show fromFiles sweepEnv (.one "a") = .ok pulseArr by decide +kernel] at h
  cases h
  intro s hs
  simp only [pulseArr, List.mem_cons, List.not_mem_nil, or_false] at hs
  rcases hs with rfl | rfl | rfl <;> norm_num

/-- As `halfSet`, with any window settings. -/
def halfSetWith (kw : Option Kwargs) : Settings := { halfSet with windowKwargs := kw }

/-- The first run over the file "a": the user picks lines, the default window is used. -/
theorem half_first (kw : Option Kwargs) : ∃ t, frequencyDomain halfEnv (halfSetWith kw) (.many ["a"]) =
    .ok ⟨t, exM, none, ⟨exM, some ⟨0, 0, 2, 0⟩, some ⟨0, 1 / 1000, 2, 1 / 1000⟩, none, none⟩⟩ := by
  have hd : Workflow.detrend halfEnv exA = exA := by decide +kernel
  have hr : fromFiles halfEnv (.one "a") = .ok exA := by decide +kernel
  have hi : interactive halfEnv ⟨exA, none, none, none, none⟩ =
      .ok ⟨exM, some ⟨0, 0, 2, 0⟩, some ⟨0, 1 / 1000, 2, 1 / 1000⟩, none, none⟩ := by decide +kernel
  have hi' : Workflow.mute halfEnv (halfSetWith kw) ⟨exA, none, none, none, none⟩ =
      .ok ⟨exM, some ⟨0, 0, 2, 0⟩, some ⟨0, 1 / 1000, 2, 1 / 1000⟩, none, none⟩ := hi
  have ho : trimOffsetsFl exA (halfSetWith kw).minOffset (halfSetWith kw).maxOffset = (exA, .ok ()) := exA_near
  have hex : exampleArray halfEnv (halfSetWith kw) "a" = .ok exA := by
    unfold exampleArray
    rw [hr]
    simp only [bind, Except.bind, hd, show (halfSetWith kw).trimApply = false from rfl,
      show (halfSetWith kw).padApply = false from rfl, Bool.false_eq_true, if_false, pure, Except.pure]
  obtain ⟨v, hv⟩ := exA_empty
  have hv' : Workflow.empty exA (halfSetWith kw) = .ok ⟨0, [0, 500], v, [[0, 0]]⟩ := hv
  have hf : freqFile halfEnv (halfSetWith kw) exA none "a" =
      .ok (⟨exM, some ⟨0, 0, 2, 0⟩, some ⟨0, 1 / 1000, 2, 1 / 1000⟩, none, none⟩,
        ⟨1, [0, 500], [200], [[((1 : ℚ) : ℂ), ((0 : ℚ) : ℂ)]]⟩) := by
    unfold freqFile
    rw [hr]
    simp only [bind, Except.bind, exA_check, exA_similar, Workflow.trimOffsets, State.new, ho, call,
      pure, Except.pure, hd, selectNoise, show (halfSetWith kw).snrPerform = false from rfl, Bool.false_and, trimTime,
      show (halfSetWith kw).trimApply = false from rfl, Bool.false_eq_true, if_false, hi', selectSignal, Workflow.pad,
      show (halfSetWith kw).padApply = false from rfl, Workflow.transform, Bool.not_true]
    rfl
  obtain ⟨t', ht'⟩ : ∃ t', Workflow.stack ⟨0, [0, 500], v, [[0, 0]]⟩
      ⟨1, [0, 500], [200], [[((1 : ℚ) : ℂ), ((0 : ℚ) : ℂ)]]⟩ = .ok t' := ⟨_, rfl⟩
  refine ⟨t', ?_⟩
  show freqFiles halfEnv (halfSetWith kw) ["a"] = _
  unfold freqFiles
  simp only [hex, bind, Except.bind, hv', freqLoop, hf, ht', Workflow.lift, calculateSnr,
    show (halfSetWith kw).snrPerform = false from rfl, Bool.false_eq_true, if_false, pure, Except.pure]
  rfl

/-- The hypotheses of the statement about the frequency domain: a run with mute lines of the user, and one over two files
with a signal-to-noise ratio. -/
example : (∃ r, frequencyDomain halfEnv (halfSetWith none) (.many ["a"]) = .ok r ∧ r.final.signalStart.isSome ∧
      ∀ f ∈ ["a"], ∀ raw, fromFiles halfEnv (.one f) = .ok raw → Sampled raw) ∧
    (∃ r, frequencyDomain exEnv exSet (.many ["a", "b"]) = .ok r ∧
      ∀ f ∈ ["a", "b"], ∀ raw, fromFiles exEnv (.one f) = .ok raw → Sampled raw) := by
  have hA : Sampled exA := by
    intro s hs
    simp only [exA, List.mem_cons, List.not_mem_nil, or_false] at hs
    rcases hs with rfl | rfl <;> norm_num
  have hB : Sampled exB := by
    intro s hs
    simp only [exB, List.mem_cons, List.not_mem_nil, or_false] at hs
    rcases hs with rfl | rfl <;> norm_num
  constructor
  · obtain ⟨t, ht⟩ := half_first none
    refine ⟨_, ht, rfl, ?_⟩
    intro f hf raw h
    simp only [List.mem_cons, List.not_mem_nil, or_false] at hf
    subst hf
    rw [show fromFiles halfEnv (.one "a") = .ok exA by decide +kernel] at h
    cases h
    exact hA
  · obtain ⟨r, hr, -⟩ := exFrequencyDomain
    refine ⟨r, hr, ?_⟩
    intro f hf raw h
    simp only [List.mem_cons, List.not_mem_nil, or_false] at hf
    rcases hf with rfl | rfl
    · rw [exA_read] at h; cases h; exact hA
    · rw [exB_read] at h; cases h; exact hB

/-- **C162** fails in the frequency domain for muting with window settings: the second run on the same file returns half
the amplitudes. -/
theorem C162_frequency_window_counterexample : ∃ r r', frequencyDomain halfEnv halfSet (.many ["a"]) = .ok r ∧
    frequencyDomainAgain halfEnv halfSet r.final (.many ["a"]) = .ok r' ∧
    (r.array.sensors.map fun s => s.ts.amp) = [[1, 0], [3, 0]] ∧
    (r'.array.sensors.map fun s => s.ts.amp) = [[1 / 2, 0], [3 / 2, 0]] := by
  obtain ⟨t, ht⟩ := half_first (some [])
  have hd : Workflow.detrend halfEnv exA = exA := by decide +kernel
  have hr : fromFiles halfEnv (.one "a") = .ok exA := by decide +kernel
  let l1 : Arr.Line := ⟨0, 0, 2, 0⟩
  let l2 : Arr.Line := ⟨0, 1 / 1000, 2, 1 / 1000⟩
  let half : Arr := ⟨[⟨⟨[1 / 2, 0], 1 / 1000, 1, 0, 1⟩, 0, 0, 0⟩, ⟨⟨[3 / 2, 0], 1 / 1000, 1, 0, 1⟩, 2, 0, 0⟩], ⟨-5, 0, 0⟩⟩
  have hi' : Workflow.mute halfEnv halfSet ⟨exA, some l1, some l2, none, none⟩ =
      .ok ⟨half, some l1, some l2, none, none⟩ := by decide +kernel
  have ho : trimOffsetsFl exA halfSet.minOffset halfSet.maxOffset = (exA, .ok ()) := exA_near
  have hex : exampleArray halfEnv halfSet "a" = .ok exA := by decide +kernel
  obtain ⟨v, hv⟩ := exA_empty
  have hv' : Workflow.empty exA halfSet = .ok ⟨0, [0, 500], v, [[0, 0]]⟩ := hv
  have hf : freqFile halfEnv halfSet exA (some ⟨exM, some l1, some l2, none, none⟩) "a" =
      .ok (⟨half, some l1, some l2, none, none⟩, ⟨1, [0, 500], [200], [[((1 / 2 : ℚ) : ℂ), ((0 : ℚ) : ℂ)]]⟩) := by
    unfold freqFile
    rw [hr]
    simp only [bind, Except.bind, exA_check, exA_similar, Workflow.trimOffsets, ho, call,
      pure, Except.pure, hd, selectNoise, show halfSet.snrPerform = false from rfl, Bool.false_and, trimTime,
      show halfSet.trimApply = false from rfl, Bool.false_eq_true, if_false, hi', selectSignal, Workflow.pad,
      show halfSet.padApply = false from rfl, Workflow.transform, Bool.not_true]
    rfl
  obtain ⟨t', ht'⟩ : ∃ t', Workflow.stack ⟨0, [0, 500], v, [[0, 0]]⟩
      ⟨1, [0, 500], [200], [[((1 / 2 : ℚ) : ℂ), ((0 : ℚ) : ℂ)]]⟩ = .ok t' := ⟨_, rfl⟩
  refine ⟨_, ⟨t', half, none, ⟨half, some l1, some l2, none, none⟩⟩, ht, ?_, rfl, rfl⟩
  show freqFilesAgain halfEnv halfSet ⟨exM, some l1, some l2, none, none⟩ ["a"] = _
  unfold freqFilesAgain
  simp only [hex, bind, Except.bind, hv', freqLoop, hf, ht', Workflow.lift, calculateSnr,
    show halfSet.snrPerform = false from rfl, Bool.false_eq_true, if_false, pure, Except.pure]
  rfl

end Verif.Props
