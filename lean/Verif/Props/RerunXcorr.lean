import Verif.Props.RerunFreq

/-!
# C162 for the cross-correlation workflow: what a second run does, and that it settles
-/

namespace Verif.Props

open Verif Workflow Spec

/-- The record which is read, cut at the time zero, and the source signal. -/
theorem record_read {env : Env} {f : Fnames} {src : List String} {ch : ℤ} {raw0 raw : Arr} {sig : SourceSig} {tl : ℚ}
    (hread : fromFilesWithSource env f src ch = .ok (raw0, sig)) (htl : lastTime raw0 = .ok tl)
    (hcut : call (raw0.trim 0 tl) = .ok raw) (hs : sig.amp ≠ []) : RecordWithSignal env f src ch raw sig := by
  unfold fromFilesWithSource at hread
  obtain ⟨a, ha, hread⟩ := bind_ok hread
  obtain ⟨signals, hsig, hread⟩ := bind_ok hread
  rcases signals with _ | ⟨⟨s0, dt⟩, rest⟩
  · cases hread
  simp only at hread
  obtain ⟨amp, hamp, hread⟩ := bind_ok hread
  obtain ⟨sorted, hsorted, hread⟩ := bind_ok hread
  cases hread
  unfold lastTime at htl
  rcases hss : raw0.sensors with _ | ⟨s, ss⟩
  · rw [hss] at htl; cases htl
  rw [hss] at htl
  simp only at htl
  rcases hm : Arr.maxList s.ts.time with _ | t
  · rw [hm] at htl; cases htl
  rw [hm] at htl
  cases htl
  exact ⟨a, raw0, (s0, dt) :: rest, s, _, ha, lift_ok hsorted, lift_ok hsig, lift_ok hamp, rfl, rfl, hs, by rw [hss]; rfl,
    hm, call_ok' hcut⟩

/-- What the attributes hold after a run: lines, if it muted; padded windows which give the ratio once more. -/
theorem xcorr_final {env : Env} {set : Settings} {f : Fnames} {src : List String} {ch : ℤ} {r : Result}
    (h : xcorr env set f src ch = .ok r) (hdt : ∀ raw, fromFiles env f = .ok raw → Sampled raw) :
    (set.muteApply = true → r.final.signalStart.isSome) ∧
    (set.snrPerform = true → ∃ signal noise q, r.final.signal = some signal ∧ r.final.noise = some noise ∧
      r.snr = some q ∧ WT.snr signal noise set.fmin set.fmax set.snrPad set.snrDf = ((signal, noise), .ok q)) := by
  unfold xcorr at h
  obtain ⟨⟨raw0, sig⟩, hread, h⟩ := bind_ok h
  simp only at h
  obtain ⟨tl, htl, h⟩ := bind_ok h
  obtain ⟨raw, hcut, h⟩ := bind_ok h
  by_cases hsg : sig.amp = []
  · rw [if_pos hsg] at h; cases h
  rw [if_neg hsg] at h
  obtain ⟨⟨⟩, hcheck, h⟩ := bind_ok h
  obtain ⟨s1, h1, h⟩ := bind_ok h
  obtain ⟨s2, h2, h⟩ := bind_ok h
  obtain ⟨s3, h3, h⟩ := bind_ok h
  obtain ⟨s4, h4, h⟩ := bind_ok h
  obtain ⟨s5, h5, h⟩ := bind_ok h
  obtain ⟨⟨s6, q⟩, h6, h⟩ := bind_ok h
  simp only at h
  obtain ⟨x, hx, h⟩ := bind_ok h
  obtain ⟨s7, h7, h⟩ := bind_ok h
  obtain ⟨t, h8, h⟩ := bind_ok h
  cases h
  have hraw0 : Sampled raw0 := by
    unfold fromFilesWithSource at hread
    obtain ⟨a, ha, hread⟩ := bind_ok hread
    obtain ⟨signals, -, hread⟩ := bind_ok hread
    rcases signals with _ | ⟨⟨s0, dt⟩, rest⟩
    · cases hread
    simp only at hread
    obtain ⟨amp, -, hread⟩ := bind_ok hread
    obtain ⟨sorted, hsorted, hread⟩ := bind_ok hread
    cases hread
    intro s hs
    exact hdt a ha s ((Arr.init_consistent (lift_ok hsorted)).2.1.mem_iff.1 hs)
  have hraw : Sampled raw := sampled_trim hraw0 (call_ok' hcut)
  obtain ⟨near, e1, rfl⟩ := trimOffsets_ok h1
  obtain ⟨e2, n1, -, -⟩ := selectNoise_ok h2
  obtain ⟨cut, e3, e3'⟩ := trimTime_ok h3
  obtain ⟨muted, e4, e4', e4''⟩ := mute_ok_first h4 (by rw [e3', e2]; rfl) (by rw [e3', e2]; rfl)
  obtain ⟨e5, g1, -, -⟩ := selectSignal_ok h5
  obtain ⟨e6, k1, k2⟩ := calculateSnr_ok h6
  obtain ⟨padded, -, e7⟩ := pad_ok h7
  have a2 : s2.array = detrend env near := by rw [e2]
  have a3 : s3.array = cut := by rw [e3']
  have a4 : s4.array = muted := by rw [e4]
  rw [a3] at e4'
  have hpre : Spec.Preprocessed env { set with padApply := false } none (s4.signalStart, s4.signalEnd) raw near
      (detrend env near) cut muted muted := ⟨e1, rfl, rfl, by rw [a2] at e3; exact e3, e4', rfl⟩
  obtain ⟨hlev, hsm⟩ := sampled_preprocessed hraw hpre
  refine ⟨fun hm => ?_, fun hp => ?_⟩
  · show s7.signalStart.isSome
    rw [show s7.signalStart = s4.signalStart by rw [e7, e6, e5]]
    exact (e4'' hm).1
  · obtain ⟨signal, noise, sp, np, q', j1, j2, j3, j4, j5, j6⟩ := k2 hp
    obtain ⟨noise0, hn0, hw⟩ := n1 hp rfl
    have hs4 : s4.signal = none := by rw [e4, e3', e2]; rfl
    obtain ⟨signal0, hs0, hw'⟩ := g1 hp hs4
    rw [hs0] at j1
    have hn5 : s5.noise = some noise0 := by rw [e5, e4, e3']; exact hn0
    rw [hn5] at j2
    cases j1; cases j2
    rw [a4] at hw'
    refine ⟨sp, np, q', ?_, ?_, j4, snr_again (sampled_window hsm hw') (sampled_window hlev hw) j3⟩
    · show s7.signal = _; rw [e7]; exact j5
    · show s7.noise = _; rw [e7]; exact j6

/-- **C162** (cross-correlation, what a second run does, on any files).  The record is that of the files named now and is
correlated with the source signal named now, but it is muted between the lines of the first run with the window of the
settings, and the signal-to-noise ratio reported is that of the first run. -/
theorem C162_xcorr_second_run_fails (env : Env) (set : Settings) (f f' : Fnames) (src src' : List String) (ch ch' : ℤ)
    (r r' : Result) (h : xcorr env set f src ch = .ok r) (h' : xcorrAgain env set r.final f' src' ch' = .ok r')
    (hdt : ∀ raw, fromFiles env f = .ok raw → Sampled raw) :
    (∃ raw near level cut muted sig, RecordWithSignal env f' src' ch' raw sig ∧ ¬ Spec.SourceBetween raw ∧
      Spec.Preprocessed env { set with padApply := false } set.windowKwargs (r.final.signalStart, r.final.signalEnd)
        raw near level cut muted muted ∧
      Correlated set sig muted r'.array ∧ Spec.IsTransformOf env set r'.array r'.transform) ∧
    (set.snrPerform = true → r'.snr = r.snr) ∧ r'.final = { r.final with array := r'.array } := by
  obtain ⟨hl, hs⟩ := xcorr_final h hdt
  have hfin : set.snrPerform = true → r.final.noise.isSome ∧ r.final.signal.isSome := by
    intro hp
    obtain ⟨signal, noise, q, i1, i2, -⟩ := hs hp
    rw [i1, i2]
    exact ⟨rfl, rfl⟩
  unfold xcorrAgain at h'
  obtain ⟨⟨raw0, sig⟩, hread, h'⟩ := bind_ok h'
  simp only at h'
  obtain ⟨tl, htl, h'⟩ := bind_ok h'
  obtain ⟨raw, hcut, h'⟩ := bind_ok h'
  by_cases hsg : sig.amp = []
  · rw [if_pos hsg] at h'; cases h'
  rw [if_neg hsg] at h'
  obtain ⟨⟨⟩, hcheck, h'⟩ := bind_ok h'
  obtain ⟨s1, h1, h'⟩ := bind_ok h'
  obtain ⟨s2, h2, h'⟩ := bind_ok h'
  obtain ⟨s3, h3, h'⟩ := bind_ok h'
  obtain ⟨s4, h4, h'⟩ := bind_ok h'
  obtain ⟨s5, h5, h'⟩ := bind_ok h'
  obtain ⟨⟨s6, q⟩, h6, h'⟩ := bind_ok h'
  simp only at h'
  obtain ⟨x, hx, h'⟩ := bind_ok h'
  obtain ⟨s7, h7, h'⟩ := bind_ok h'
  obtain ⟨t, h8, h'⟩ := bind_ok h'
  cases h'
  obtain ⟨near, e1, rfl⟩ := trimOffsets_ok h1
  simp only at h2
  rw [selectNoise_keeps (by intro hp; exact (hfin hp).1)] at h2
  cases h2
  obtain ⟨cut, e3, rfl⟩ := trimTime_ok h3
  obtain ⟨muted, rfl, e4⟩ := mute_ok_later h4 hl
  rw [selectSignal_keeps (by intro hp; exact (hfin hp).2)] at h5
  cases h5
  have e6 : s6 = { r.final with array := muted } ∧ (set.snrPerform = true → q = r.snr) := by
    obtain ⟨-, k1, k2⟩ := calculateSnr_ok h6
    by_cases hp : set.snrPerform = true
    · obtain ⟨signal, noise, sp, np, q', j1, j2, j3, j4, j5, j6⟩ := k2 hp
      obtain ⟨signal', noise', q0, i1, i2, i3, i4⟩ := hs hp
      simp only at j1 j2
      rw [i1] at j1; rw [i2] at j2
      cases j1; cases j2
      rw [i4] at j3
      simp only [Prod.mk.injEq, Except.ok.injEq] at j3
      obtain ⟨⟨rfl, rfl⟩, rfl⟩ := j3
      refine ⟨?_, fun _ => by rw [j4, i3]⟩
      obtain ⟨e, -⟩ := calculateSnr_ok h6
      rw [e, j5, j6, ← i1, ← i2]
    · have hp' : set.snrPerform = false := by simpa using hp
      exact ⟨(k1 hp').1, fun h => absurd h hp⟩
  obtain ⟨rfl, e6⟩ := e6
  obtain ⟨padded, e7, rfl⟩ := pad_ok h7
  exact ⟨⟨raw, near, detrend env near, cut, muted, sig, record_read hread htl hcut hsg, check_ok hcheck,
    ⟨e1, rfl, rfl, e3, e4, rfl⟩, ⟨x, call_ok' hx, e7⟩, transform_ok h8⟩, e6, rfl⟩

/-- **C162** (cross-correlation, from the second run on).  Whatever the settings, further runs on the same files return
what the second run returned. -/
theorem C162_xcorr_settles (env : Env) (set : Settings) (f f' : Fnames) (src src' : List String) (ch ch' : ℤ)
    (r r' : Result) (h : xcorr env set f src ch = .ok r) (h' : xcorrAgain env set r.final f' src' ch' = .ok r')
    (hdt : ∀ raw, fromFiles env f = .ok raw → Sampled raw) : xcorrAgain env set r'.final f' src' ch' = .ok r' := by
  obtain ⟨-, -, e⟩ := C162_xcorr_second_run_fails env set f f' src src' ch ch' r r' h h' hdt
  rw [e]
  exact h'

/-- The hypotheses of both: two runs on the record `sweep_returns`. -/
example : ∃ r r', xcorr sweepEnv (pulseSet "phaseshift") (.one "a") ["s"] 0 = .ok r ∧
    xcorrAgain sweepEnv (pulseSet "phaseshift") r.final (.one "a") ["s"] 0 = .ok r' ∧
    ∀ raw, fromFiles sweepEnv (.one "a") = .ok raw → Sampled raw := by
  obtain ⟨r, hr, -⟩ := sweep_returns (tr := "phaseshift") (Or.inl rfl)
  have hdt : ∀ raw, fromFiles sweepEnv (.one "a") = .ok raw → Sampled raw := by
    intro raw h
    rw [show fromFiles sweepEnv (.one "a") = .ok pulseArr by decide +kernel] at h
    cases h
    intro s hs
    simp only [pulseArr, List.mem_cons, List.not_mem_nil, or_false] at hs
    rcases hs with rfl | rfl | rfl <;> norm_num
  have hk := C162_xcorr_same_again_partial _ _ _ _ _ r hr (fun _ => rfl) hdt 1
  refine ⟨r, r, hr, ?_, hdt⟩
  have : (do let r ← xcorr sweepEnv (pulseSet "phaseshift") (.one "a") ["s"] 0
             xcorrAgain sweepEnv (pulseSet "phaseshift") r.final (.one "a") ["s"] 0) = .ok r := hk
  rw [hr] at this
  exact this

end Verif.Props
