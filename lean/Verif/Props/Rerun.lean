import Verif.Props.Workflow
import Verif.Props.RunReturns
import Verif.Props.ZeroPad

/-!
# C162: a workflow object which is run again
-/

namespace Verif.Props
open Verif Workflow

/-! ## What is meant -/

/-- Every record has a positive time step. -/
def Sampled (a : Arr) : Prop := ∀ s ∈ a.sensors, 0 < s.ts.dt

/-- The same object run `k` further times. -/
noncomputable def runsAgain (env : Env) (set : Settings) (f : Fnames) : ℕ → Except Stop Result
  | 0 => timeDomain env set f
  | k + 1 => do
    let r ← runsAgain env set f k
    timeDomainAgain env set r.final f

/-! ## Time steps -/

theorem forSensors_dt {g : ATS → Outcome ATS} (hg : ∀ r, (g r).1.dt = r.dt) : ∀ ss : List Sensor,
    (∀ s ∈ ss, 0 < s.ts.dt) → ∀ s ∈ (Arr.forSensors g ss).1, 0 < s.ts.dt := by
  intro ss
  induction ss with
  | nil => intro _ s hs; cases hs
  | cons a ss ih =>
    intro h s hs
    unfold Arr.forSensors at hs
    have ha := hg a.ts
    rcases hga : g a.ts with ⟨r, e | ⟨⟨⟩⟩⟩
    · rw [hga] at hs ha
      rcases List.mem_cons.1 hs with rfl | hs
      · show 0 < r.dt
        rw [show r.dt = a.ts.dt from ha]
        exact h a List.mem_cons_self
      · exact h s (List.mem_cons_of_mem _ hs)
    · rw [hga] at hs ha
      rcases List.mem_cons.1 hs with rfl | hs
      · show 0 < r.dt
        rw [show r.dt = a.ts.dt from ha]
        exact h a List.mem_cons_self
      · exact ih (fun s hs => h s (List.mem_cons_of_mem _ hs)) s hs

theorem trim_dt (t0 t1 : ℚ) (r : ATS) : (r.trim t0 t1).1.dt = r.dt := by
  have h : (r.trimBase t0 t1).1.dt = r.dt := by
    unfold ATS.trimBase
    split
    · split_ifs <;> rfl
    · rfl
  unfold ATS.trim
  split
  · rename_i r' h1
    rw [h1] at h; exact h
  · rename_i r' e h1
    rw [h1] at h; exact h

theorem sampled_trim {a b : Arr} {t0 t1 : ℚ} (h : Sampled a) (hb : a.trim t0 t1 = (b, .ok ())) : Sampled b := by
  unfold Arr.trim at hb
  simp only [Prod.mk.injEq] at hb
  rw [← hb.1]
  exact forSensors_dt (trim_dt t0 t1) a.sensors h

theorem sampled_muteLoop (tukey : ℕ → List ℚ) (n : ℕ) : ∀ (ss : List Sensor) (idx : List (ℤ × ℤ)),
    (∀ s ∈ ss, 0 < s.ts.dt) → ∀ s ∈ (Arr.muteLoop tukey n ss idx).1, 0 < s.ts.dt := by
  intro ss
  induction ss with
  | nil => intro idx h s hs; simp [Arr.muteLoop] at hs
  | cons a ss ih =>
    intro idx h s hs
    rcases idx with _ | ⟨⟨i, j⟩, idx⟩
    · exact h s (by simpa [Arr.muteLoop] using hs)
    unfold Arr.muteLoop at hs
    split_ifs at hs
    · exact h s hs
    · split at hs
      · exact h s hs
      · rcases List.mem_cons.1 hs with rfl | hs
        · exact h a List.mem_cons_self
        · exact ih idx (fun s hs => h s (List.mem_cons_of_mem _ hs)) s hs

theorem sampled_mute {a b : Arr} {tukey : ℕ → List ℚ} {l l' : Option Arr.Line} (h : Sampled a)
    (hb : a.mute tukey l l' = (b, .ok ())) : Sampled b := by
  unfold Arr.mute at hb
  rcases hs : a.sensors with _ | ⟨s0, rest⟩
  · rw [hs] at hb; simp at hb
  rw [hs] at hb
  simp only at hb
  split at hb
  · simp at hb
  · simp at hb
  · simp only [Prod.mk.injEq] at hb
    rw [← hb.1]
    refine sampled_muteLoop _ _ _ _ ?_
    rw [← hs]
    exact h

theorem sampled_window {a w : Arr} {t0 t1 : ℚ} (h : Sampled a) (hw : Spec.IsWindow a t0 t1 w) : Sampled w := by
  obtain ⟨c, hc, hw⟩ := hw
  refine sampled_trim ?_ hw
  unfold Arr.fromArray at hc
  obtain ⟨ss, h1, h2⟩ := bind_ok hc
  have hss : ∀ (l l' : List Sensor), (∀ s ∈ l, 0 < s.ts.dt) → Arr.copySensors l = .ok l' → ∀ s ∈ l', 0 < s.ts.dt := by
    intro l
    induction l with
    | nil => intro l' _ h0 s hs; simp [Arr.copySensors] at h0; rw [h0] at hs; cases hs
    | cons x l ih =>
      intro l' hl h0
      unfold Arr.copySensors at h0
      obtain ⟨y, hy, h0⟩ := bind_ok h0
      obtain ⟨ys, hys, h0⟩ := bind_ok h0
      cases h0
      intro s hs
      rcases List.mem_cons.1 hs with rfl | hs
      · unfold Sensor.fromSensor Sensor.init at hy
        obtain ⟨r, hr, hy⟩ := bind_ok hy
        cases hy
        unfold ATS.init at hr
        rcases hcc : ATS.checkInput x.ts.nstacks x.ts.delay with e | ⟨n, d⟩
        · rw [hcc] at hr; cases hr
        · rw [hcc] at hr
          cases hr
          exact hl x List.mem_cons_self
      · exact ih ys (fun s hs => hl s (List.mem_cons_of_mem _ hs)) hys s hs
  intro s hs
  exact hss _ _ h h1 s ((Arr.init_consistent h2).2.1.mem_iff.1 hs)

/-! ## Padding again -/

/-- Repeating a request changes nothing, whatever the number of samples. -/
theorem zeroPad_again (r r' : ATS) (df : ℚ) (hdt : 0 < r.dt) (h : r.zeroPad df = (r', .ok ())) :
    r'.zeroPad df = (r', .ok ()) ∧ r'.dt = r.dt := by
  have hdf := ATS.zeroPad_ok_pos h
  obtain ⟨N, hN⟩ := ATS.targetSamples_nat hdf hdt
  rcases Nat.eq_zero_or_pos r.nsamples with h0 | h0
  · rw [ATS.zeroPad_nat r df N hdf hN] at h
    have hamp : r.amp = [] := List.length_eq_zero_iff.1 h0
    rcases Nat.eq_zero_or_pos N with rfl | hNp
    · rw [if_neg (by omega), if_neg (by omega)] at h
      cases h
      refine ⟨?_, rfl⟩
      rw [ATS.zeroPad_nat ⟨r.amp, r.dt, r.nstacks, r.delay, 1⟩ df 0 hdf hN, if_neg (by simp),
        if_neg (by show ¬ 0 < r.nsamples; omega)]
    · rw [if_pos (by omega)] at h
      cases h
      refine ⟨?_, rfl⟩
      have hl : (⟨r.amp ++ List.replicate (N - r.nsamples) 0, r.dt, r.nstacks, r.delay, 1⟩ : ATS).nsamples = N := by
        simp [ATS.nsamples, hamp]
      rw [ATS.zeroPad_nat ⟨r.amp ++ List.replicate (N - r.nsamples) 0, r.dt, r.nstacks, r.delay, 1⟩ df N hdf hN,
        if_neg (by rw [hl]; omega), if_neg (by rw [hl]; omega)]
  · refine ⟨C05_zero_pad_idempotent r r' df hdt h0 h, ?_⟩
    exact (ATS.zeroPad_ok h0 hdf hN h).2.2.2.1

theorem forSensors_again {g : ATS → Outcome ATS} : ∀ (ss ss' : List Sensor),
    (∀ s ∈ ss, ∀ r', g s.ts = (r', .ok ()) → g r' = (r', .ok ())) → Arr.forSensors g ss = (ss', .ok ()) →
    Arr.forSensors g ss' = (ss', .ok ()) := by
  intro ss
  induction ss with
  | nil => intro ss' _ h; simp [Arr.forSensors] at h; rw [h]; rfl
  | cons a ss ih =>
    intro ss' hg h
    unfold Arr.forSensors at h
    rcases hga : g a.ts with ⟨r, e | ⟨⟨⟩⟩⟩
    · rw [hga] at h; simp at h
    · rw [hga] at h
      rcases hr : Arr.forSensors g ss with ⟨ss1, o⟩
      simp only [hr, Prod.mk.injEq] at h
      obtain ⟨rfl, rfl⟩ := h
      have h1 := ih ss1 (fun s hs => hg s (List.mem_cons_of_mem _ hs)) hr
      simp only [Arr.forSensors, hg a List.mem_cons_self r hga, h1]

theorem padIf_again {a b : Arr} {p : Bool} {df : ℚ} (h : Sampled a) (hb : WT.padIf p a df = (b, .ok ())) :
    WT.padIf p b df = (b, .ok ()) := by
  unfold WT.padIf at hb ⊢
  rcases p with _ | _
  · rfl
  · simp only [if_true] at hb ⊢
    unfold Arr.zeroPad at hb ⊢
    rcases hf : Arr.forSensors (fun r => r.zeroPad df) a.sensors with ⟨ss, o⟩
    rw [hf] at hb
    simp only [Prod.mk.injEq] at hb
    obtain ⟨rfl, rfl⟩ := hb
    have := forSensors_again (g := fun r : ATS => r.zeroPad df) a.sensors ss
      (fun s hs r' hr => (zeroPad_again s.ts r' df (h s hs) hr).1) hf
    simp only [this]

/-- The ratio of windows already padded for it. -/
theorem snr_again {signal noise : Arr} {fmin fmax df : ℚ} {p : Bool} {w : Arr × Arr} {q : List ℚ × List ℝ}
    (hs : Sampled signal) (hn : Sampled noise) (h : WT.snr signal noise fmin fmax p df = (w, .ok q)) :
    WT.snr w.1 w.2 fmin fmax p df = (w, .ok q) := by
  unfold WT.snr at h
  split at h
  · simp at h
  · rename_i noise' h1
    split at h
    · simp at h
    · rename_i signal' h2
      simp only [Prod.mk.injEq] at h
      obtain ⟨rfl, h3⟩ := h
      unfold WT.snr
      simp only [padIf_again hn h1, padIf_again hs h2, h3]

/-! ## C162 -/

/-- **C162** (what does hold).  With the same settings and files, and a mute window given by the defaults (or no muting),
running a workflow object again, any number of times, returns what the first run returned.  Missing: muting with window
settings, and other files or settings (refuted below). -/
theorem C162_same_again_partial (env : Env) (set : Settings) (f : Fnames) (r : Result)
    (h : timeDomain env set f = .ok r) (hk : set.muteApply = true → set.windowKwargs = none)
    (hdt : ∀ raw, fromFiles env f = .ok raw → Sampled raw) (k : ℕ) :
    runsAgain env set f k = .ok r := by
  have key : timeDomainAgain env set r.final f = .ok r := by
    have h0 := h
    unfold timeDomain at h
    obtain ⟨raw, hraw, h⟩ := bind_ok h
    obtain ⟨⟨⟩, hcheck, h⟩ := bind_ok h
    obtain ⟨s1, h1, h⟩ := bind_ok h
    obtain ⟨s2, h2, h⟩ := bind_ok h
    obtain ⟨s3, h3, h⟩ := bind_ok h
    obtain ⟨s4, h4, h⟩ := bind_ok h
    obtain ⟨s5, h5, h⟩ := bind_ok h
    obtain ⟨⟨s6, q⟩, h6, h⟩ := bind_ok h
    simp only at h
    obtain ⟨s7, h7, h⟩ := bind_ok h
    obtain ⟨t, h8, h⟩ := bind_ok h
    cases h
    obtain ⟨near, e1, rfl⟩ := trimOffsets_ok h1
    obtain ⟨e2, n1, n2, n3⟩ := selectNoise_ok h2
    obtain ⟨cut, e3, rfl⟩ := trimTime_ok h3
    obtain ⟨muted, e4, e4', e4''⟩ := mute_ok_first h4 (by rw [e2]; rfl) (by rw [e2]; rfl)
    obtain ⟨e5, g1, g2, g3⟩ := selectSignal_ok h5
    obtain ⟨e6, k1, k2⟩ := calculateSnr_ok h6
    obtain ⟨padded, e7, rfl⟩ := pad_ok h7
    have a2 : s2.array = detrend env near := by rw [e2]
    have a4 : s4.array = muted := by rw [e4]
    have a5 : s5.array = muted := by rw [e5, a4]
    have a6 : s6.array = muted := by rw [e6, a5]
    have b1 : s6.signalStart = s4.signalStart := by rw [e6, e5]
    have b2 : s6.signalEnd = s4.signalEnd := by rw [e6, e5]
    have hcut : ∀ l l' no si, trimTime set ⟨detrend env near, l, l', no, si⟩ = .ok ⟨cut, l, l', no, si⟩ := by
      intro l l' no si
      rw [a2] at e3
      unfold trimTime
      split_ifs at e3 ⊢ with c
      · simp only [e3, call, bind, Except.bind, pure, Except.pure]
      · rw [e3]; rfl
    have hmute : ∀ no si, Workflow.mute env set ⟨cut, s4.signalStart, s4.signalEnd, no, si⟩ =
        .ok ⟨muted, s4.signalStart, s4.signalEnd, no, si⟩ := by
      intro no si
      unfold Workflow.mute
      split_ifs at e4' ⊢ with c1 c2
      · have := (e4'' c1).1
        simp only [Bool.and_eq_true, Option.isNone_iff_eq_none] at c2
        rw [c2.1] at this; cases this
      · have := (e4'' c1).1
        simp only [Bool.and_eq_true, Option.isNone_iff_eq_none] at c2
        rw [c2.1] at this; cases this
      · rw [hk c1]
        simp only at e4' ⊢
        rw [e4']
        rfl
      · simp only at e4'
        rw [e4']; rfl
    have hpad : ∀ l l' no si, Workflow.pad set ⟨muted, l, l', no, si⟩ = .ok ⟨padded, l, l', no, si⟩ := by
      intro l l' no si
      rw [a6] at e7
      unfold Workflow.pad
      split_ifs at e7 ⊢ with c
      · simp only [e7, call, bind, Except.bind, pure, Except.pure]
      · rw [e7]; rfl
    have hoff : ∀ l l' no si, Workflow.trimOffsets set ⟨raw, l, l', no, si⟩ = .ok ⟨near, l, l', no, si⟩ := by
      intro l l' no si
      unfold Workflow.trimOffsets
      simp only [show trimOffsetsFl raw set.minOffset set.maxOffset = (near, .ok ()) from e1]
      rfl
    have ht : Workflow.transform env set padded = .ok t := h8
    have hnear : Sampled near := by
      intro s hs
      exact hdt raw hraw s ((trimOffsetsFl_sublist e1).1.subset hs)
    have hlev : Sampled (detrend env near) := by
      intro s hs
      simp only [detrend, List.mem_map] at hs
      obtain ⟨s0, hs0, rfl⟩ := hs
      exact hnear s0 hs0
    have hsc : Sampled cut := by
      rw [a2] at e3
      split_ifs at e3
      · exact sampled_trim hlev e3
      · rw [e3]; exact hlev
    have hsm : Sampled muted := by
      simp only at e4'
      split_ifs at e4'
      · exact sampled_mute hsc e4'
      · rw [e4']; exact hsc
    simp only [b1, b2]
    unfold timeDomainAgain
    rw [hraw]
    by_cases hp : set.snrPerform = true
    · obtain ⟨signal, noise, sp, np, q', j1, j2, j3, j4, j5, j6⟩ := k2 hp
      obtain ⟨noise0, hn0, hw⟩ := n1 hp rfl
      have hs4 : s4.signal = none := by rw [e4]; show s2.signal = none; rw [e2]; rfl
      obtain ⟨signal0, hs0, hw'⟩ := g1 hp hs4
      rw [hs0] at j1
      have hn5 : s5.noise = some noise0 := by
        rw [e5]; show s4.noise = _; rw [e4]; exact hn0
      rw [hn5] at j2
      cases j1; cases j2
      have ha := snr_again (sampled_window (by rw [a4]; exact hsm) hw') (sampled_window hlev hw) j3
      simp only [bind, Except.bind, hcheck, hoff, j5, j6, selectNoise, hp, Option.isNone_some, Bool.and_false,
        Bool.false_eq_true, if_false, pure, Except.pure, hcut, hmute, selectSignal, calculateSnr, if_true, ha, hpad, ht, j4]
    · have hp' : set.snrPerform = false := by simpa using hp
      simp only [bind, Except.bind, hcheck, hoff, selectNoise, hp', Bool.false_and, Bool.false_eq_true, if_false, pure,
        Except.pure, hcut, hmute, selectSignal, calculateSnr, hpad, ht, (k1 hp').2]
  induction k with
  | zero => exact h
  | succ k ih =>
    show (do let r ← runsAgain env set f k; timeDomainAgain env set r.final f) = _
    rw [ih]
    exact key

/-- The hypotheses: the file "a", with mute lines of the user, padding and a signal-to-noise ratio. -/
example : (∃ r, timeDomain exEnv exMuteSet (.one "a") = .ok r ∧ r.array = exP ∧ r.snr.isSome) ∧
    exMuteSet.windowKwargs = none ∧ ∀ raw, fromFiles exEnv (.one "a") = .ok raw → Sampled raw := by
  refine ⟨exMuted, rfl, ?_⟩
  intro raw h
  rw [exA_read] at h
  cases h
  intro s hs
  simp only [exA, List.mem_cons, List.not_mem_nil, or_false] at hs
  rcases hs with rfl | rfl <;> norm_num

/-- What the attributes hold after a run: lines, if it muted; padded windows which give the ratio once more. -/
theorem timeDomain_final {env : Env} {set : Settings} {f : Fnames} {r : Result} (h : timeDomain env set f = .ok r)
    (hdt : ∀ raw, fromFiles env f = .ok raw → Sampled raw) :
    (set.muteApply = true → r.final.signalStart.isSome) ∧
    (set.snrPerform = true → ∃ signal noise q, r.final.signal = some signal ∧ r.final.noise = some noise ∧
      r.snr = some q ∧ WT.snr signal noise set.fmin set.fmax set.snrPad set.snrDf = ((signal, noise), .ok q)) := by
  constructor
  · intro hm
    unfold timeDomain at h
    obtain ⟨raw, hraw, h⟩ := bind_ok h
    obtain ⟨⟨⟩, hcheck, h⟩ := bind_ok h
    obtain ⟨s1, h1, h⟩ := bind_ok h
    obtain ⟨s2, h2, h⟩ := bind_ok h
    obtain ⟨s3, h3, h⟩ := bind_ok h
    obtain ⟨s4, h4, h⟩ := bind_ok h
    obtain ⟨s5, h5, h⟩ := bind_ok h
    obtain ⟨⟨s6, q⟩, h6, h⟩ := bind_ok h
    simp only at h
    obtain ⟨s7, h7, h⟩ := bind_ok h
    obtain ⟨t, h8, h⟩ := bind_ok h
    cases h
    obtain ⟨near, e1, rfl⟩ := trimOffsets_ok h1
    obtain ⟨e2, -⟩ := selectNoise_ok h2
    obtain ⟨cut, e3, rfl⟩ := trimTime_ok h3
    obtain ⟨muted, e4, e4', e4''⟩ := mute_ok_first h4 (by rw [e2]; rfl) (by rw [e2]; rfl)
    obtain ⟨e5, -⟩ := selectSignal_ok h5
    obtain ⟨e6, -⟩ := calculateSnr_ok h6
    obtain ⟨padded, e7, rfl⟩ := pad_ok h7
    show s6.signalStart.isSome
    rw [show s6.signalStart = s4.signalStart by rw [e6, e5]]
    exact (e4'' hm).1
  · intro hp
    obtain ⟨raw, near, level, cut, muted, hraw, -, hpre, -, -, hs⟩ := timeDomain_lines env set f r h
    obtain ⟨noise, signal, w, q, w1, w2, w3, w4, w5, w6⟩ := hs hp
    have hnear : Sampled near := fun s hs => hdt raw hraw s ((trimOffsetsFl_sublist hpre.offsets).1.subset hs)
    have hlev : Sampled level := by
      intro s hs
      rw [hpre.detrended] at hs
      obtain ⟨s0, hs0, rfl⟩ := List.mem_map.1 hs
      exact hnear s0 hs0
    have hsc : Sampled cut := by
      have := hpre.trimmed
      split_ifs at this
      · exact sampled_trim hlev this
      · rw [this]; exact hlev
    have hsm : Sampled muted := by
      have := hpre.windowed
      split_ifs at this
      · exact sampled_mute hsc this
      · rw [this]; exact hsc
    exact ⟨w.1, w.2, q, w5, w6, w4, snr_again (sampled_window hsm w2) (sampled_window hlev w1) w3⟩

/-- **C162** (what a second run does, on any file).  It mutes between the lines of the first run with the window of the
settings (the first run uses the default window), and reports the signal-to-noise ratio of the first run. -/
theorem C162_second_run_fails (env : Env) (set : Settings) (f f' : Fnames) (r r' : Result)
    (h : timeDomain env set f = .ok r) (h' : timeDomainAgain env set r.final f' = .ok r')
    (hdt : ∀ raw, fromFiles env f = .ok raw → Sampled raw) :
    (∃ raw near level cut muted, fromFiles env f' = .ok raw ∧ ¬ Spec.SourceBetween raw ∧
      Spec.Preprocessed env set set.windowKwargs (r.final.signalStart, r.final.signalEnd) raw near level cut muted r'.array ∧
      Spec.IsTransformOf env set r'.array r'.transform) ∧
    (set.snrPerform = true → r'.snr = r.snr) ∧ r'.final = { r.final with array := r'.array } := by
  obtain ⟨hl, hs⟩ := timeDomain_final h hdt
  have hfin : set.snrPerform = true → r.final.noise ≠ none ∧ r.final.signal ≠ none := by
    intro hp
    obtain ⟨signal, noise, q, i1, i2, -⟩ := hs hp
    rw [i1, i2]
    simp
  unfold timeDomainAgain at h'
  obtain ⟨raw, hraw, h'⟩ := bind_ok h'
  obtain ⟨⟨⟩, hcheck, h'⟩ := bind_ok h'
  obtain ⟨s1, h1, h'⟩ := bind_ok h'
  obtain ⟨s2, h2, h'⟩ := bind_ok h'
  obtain ⟨s3, h3, h'⟩ := bind_ok h'
  obtain ⟨s4, h4, h'⟩ := bind_ok h'
  obtain ⟨s5, h5, h'⟩ := bind_ok h'
  obtain ⟨⟨s6, q⟩, h6, h'⟩ := bind_ok h'
  simp only at h'
  obtain ⟨s7, h7, h'⟩ := bind_ok h'
  obtain ⟨t, h8, h'⟩ := bind_ok h'
  cases h'
  obtain ⟨near, e1, rfl⟩ := trimOffsets_ok h1
  have e2 : s2 = { r.final with array := detrend env near } := by
    unfold selectNoise at h2
    rw [if_neg] at h2
    · cases h2; rfl
    · simp only [Bool.and_eq_true, not_and]
      intro hp
      rcases hn : r.final.noise with _ | n
      · exact absurd hn (hfin hp).1
      · simp
  subst e2
  obtain ⟨cut, e3, rfl⟩ := trimTime_ok h3
  obtain ⟨muted, rfl, e4⟩ := mute_ok_later h4 hl
  have e5 : s5 = { r.final with array := muted } := by
    unfold selectSignal at h5
    rw [if_neg] at h5
    · cases h5; rfl
    · simp only [Bool.and_eq_true, not_and]
      intro hp
      rcases hn : r.final.signal with _ | n
      · exact absurd hn (hfin hp).2
      · simp
  subst e5
  have e6 : s6 = { r.final with array := muted } ∧ (set.snrPerform = true → q = r.snr) := by
    obtain ⟨-, k1, k2⟩ := calculateSnr_ok h6
    by_cases hp : set.snrPerform = true
    · obtain ⟨signal, noise, sp, np, q', j1, j2, j3, j4, j5, j6⟩ := k2 hp
      obtain ⟨signal', noise', q0, i1, i2, i3, i4⟩ := hs hp
      simp only at j1 j2
      rw [i1] at j1; rw [i2] at j2
      cases j1; cases j2
      rw [i4] at j3
      simp only [Prod.mk.injEq, Except.ok.injEq] at j3
      obtain ⟨⟨rfl, rfl⟩, rfl⟩ := j3
      refine ⟨?_, fun _ => by rw [j4, i3]⟩
      obtain ⟨e, -⟩ := calculateSnr_ok h6
      rw [e, j5, j6, ← i1, ← i2]
    · have hp' : set.snrPerform = false := by simpa using hp
      exact ⟨(k1 hp').1, fun h => absurd h hp⟩
  obtain ⟨rfl, e6⟩ := e6
  obtain ⟨padded, e7, rfl⟩ := pad_ok h7
  exact ⟨⟨raw, near, detrend env near, cut, muted, hraw, check_ok hcheck, ⟨e1, rfl, rfl, e3, e4, e7⟩, transform_ok h8⟩,
    e6, rfl⟩

/-- The window with settings has half the height of the default one. -/
noncomputable def halfEnv : Env :=
  { exEnv with tukey := fun kw n => List.replicate n (if kw.isNone then 1 else 1 / 2) }

/-- As `exMuteSet`, with window settings, without padding and ratio. -/
def halfSet : Settings := { exMuteSet with windowKwargs := some [], padApply := false, snrPerform := false }

/-- **C162** fails for muting with window settings: the second run on the same file returns half the amplitudes. -/
theorem C162_window_settings_counterexample : ∃ r r', timeDomain halfEnv halfSet (.one "a") = .ok r ∧
    timeDomainAgain halfEnv halfSet r.final (.one "a") = .ok r' ∧
    (r.array.sensors.map fun s => s.ts.amp) = [[1, 0], [3, 0]] ∧
    (r'.array.sensors.map fun s => s.ts.amp) = [[1 / 2, 0], [3 / 2, 0]] := by
  have hd : Workflow.detrend halfEnv exA = exA := by decide +kernel
  let l1 : Arr.Line := ⟨0, 0, 2, 0⟩
  let l2 : Arr.Line := ⟨0, 1 / 1000, 2, 1 / 1000⟩
  let half : Arr := ⟨[⟨⟨[1 / 2, 0], 1 / 1000, 1, 0, 1⟩, 0, 0, 0⟩, ⟨⟨[3 / 2, 0], 1 / 1000, 1, 0, 1⟩, 2, 0, 0⟩], ⟨-5, 0, 0⟩⟩
  have hr : fromFiles halfEnv (.one "a") = .ok exA := by decide +kernel
  have hi : Workflow.mute halfEnv halfSet ⟨exA, none, none, none, none⟩ =
      .ok ⟨exM, some l1, some l2, none, none⟩ := by decide +kernel
  have hi' : Workflow.mute halfEnv halfSet ⟨exA, some l1, some l2, none, none⟩ =
      .ok ⟨half, some l1, some l2, none, none⟩ := by decide +kernel
  have ho : trimOffsetsFl exA halfSet.minOffset halfSet.maxOffset = (exA, .ok ()) := exA_near
  refine ⟨⟨⟨1, [0, 500], [200], [[((1 : ℚ) : ℂ), ((0 : ℚ) : ℂ)]]⟩, exM, none, ⟨exM, some l1, some l2, none, none⟩⟩,
    ⟨⟨1, [0, 500], [200], [[((1 / 2 : ℚ) : ℂ), ((0 : ℚ) : ℂ)]]⟩, half, none, ⟨half, some l1, some l2, none, none⟩⟩,
    ?_, ?_, rfl, rfl⟩
  · unfold timeDomain
    rw [hr]
    simp only [bind, Except.bind, exA_check, Workflow.trimOffsets, State.new, ho, call,
      pure, Except.pure, hd, selectNoise, show halfSet.snrPerform = false from rfl, Bool.false_and, trimTime,
      show halfSet.trimApply = false from rfl, Bool.false_eq_true, if_false, hi, selectSignal, calculateSnr, Workflow.pad,
      show halfSet.padApply = false from rfl, Workflow.transform]
    rfl
  · unfold timeDomainAgain
    rw [hr]
    simp only [bind, Except.bind, exA_check, Workflow.trimOffsets, ho, call,
      pure, Except.pure, hd, selectNoise, show halfSet.snrPerform = false from rfl, Bool.false_and, trimTime,
      show halfSet.trimApply = false from rfl, Bool.false_eq_true, if_false, hi', selectSignal, calculateSnr, Workflow.pad,
      show halfSet.padApply = false from rfl, Workflow.transform]
    rfl

/-- The file "a", and a file "c" with half the time step. -/
def twoSteps : Fs := fun n =>
  if n = "c" then
    some [{ seg2 0 (-5) 1 [1, 2, 3] with delta := 1 / 2000 }, { seg2 2 (-5) 1 [3, 4, 5] with delta := 1 / 2000 }]
  else exFs n

/-- ... with the rest of the surroundings as in `exEnv`. -/
noncomputable def twoStepsEnv : Env := { exEnv with fs := twoSteps }

/-- The file "c" as an array. -/
def exC : Arr :=
  ⟨[⟨⟨[1, 2, 3], 1 / 2000, 1, 0, 1⟩, 0, 0, 0⟩, ⟨⟨[3, 4, 5], 1 / 2000, 1, 0, 1⟩, 2, 0, 0⟩], ⟨-5, 0, 0⟩⟩

/-- **C162** fails for another file: an object which has processed "a" reports for "c" a ratio at the frequencies of "a",
not at those a new object reports. -/
theorem C162_other_file_counterexample : ∃ r r' r0, timeDomain twoStepsEnv exSet (.one "a") = .ok r ∧
    timeDomainAgain twoStepsEnv exSet r.final (.one "c") = .ok r' ∧ timeDomain twoStepsEnv exSet (.one "c") = .ok r0 ∧
    r'.array = r0.array ∧ (r'.snr.map Prod.fst) = some [0, 500] ∧ (r0.snr.map Prod.fst) = some [0, 2000 / 3] := by
  have hd : Workflow.detrend twoStepsEnv exA = exA := by decide +kernel
  have hd' : Workflow.detrend twoStepsEnv exC = exC := by decide +kernel
  have hr : fromFiles twoStepsEnv (.one "a") = .ok exA := by decide +kernel
  have hr' : fromFiles twoStepsEnv (.one "c") = .ok exC := by decide +kernel
  have hc' : check exC = .ok () := by decide +kernel
  have ho' : trimOffsetsFl exC 0 .pinf = (exC, .ok ()) := by decide +kernel
  have hw' : copyWindow exC 0 (1 / 1000) = .ok exC := by decide +kernel
  obtain ⟨q, hq, hq1⟩ : ∃ q : List ℚ × List ℝ, WT.snr exA exA 100 600 false 1 = ((exA, exA), .ok q) ∧ q.1 = [0, 500] := by
    have e : WT.keepIds (WT.binFrequencies 2 (500 : ℚ)) 100 600 1 = .ok [0, 1] := by decide +kernel
    have ed : (⟨[1, 2], 1 / 1000, 1, 0, 1⟩ : ATS).df = 500 := by decide +kernel
    have h := snrCore_eq (signal := exA) (noise := exA) (fmin := 100) (fmax := 600) (ids := [0, 1]) rfl rfl rfl
      (by rw [ed]; exact e)
    exact ⟨_, congrArg (Prod.mk (exA, exA)) h, by decide +kernel⟩
  obtain ⟨q', hq', hq1'⟩ : ∃ q : List ℚ × List ℝ, WT.snr exC exC 100 600 false 1 = ((exC, exC), .ok q) ∧
      q.1 = [0, 2000 / 3] := by
    have e : WT.keepIds (WT.binFrequencies 3 (2000 / 3 : ℚ)) 100 600 1 = .ok [0, 1] := by decide +kernel
    have ed : (⟨[1, 2, 3], 1 / 2000, 1, 0, 1⟩ : ATS).df = 2000 / 3 := by decide +kernel
    have h := snrCore_eq (signal := exC) (noise := exC) (fmin := 100) (fmax := 600) (ids := [0, 1]) rfl rfl rfl
      (by rw [ed]; exact e)
    exact ⟨_, congrArg (Prod.mk (exC, exC)) h, by decide +kernel⟩
  refine ⟨⟨⟨1, [0, 500], [200], [[((1 : ℚ) : ℂ), ((2 : ℚ) : ℂ)]]⟩, exA, some q, ⟨exA, none, none, some exA, some exA⟩⟩,
    ⟨⟨1, [0, 500], [200], [[((1 : ℚ) : ℂ), ((2 : ℚ) : ℂ)]]⟩, exC, some q, ⟨exC, none, none, some exA, some exA⟩⟩,
    ⟨⟨1, [0, 500], [200], [[((1 : ℚ) : ℂ), ((2 : ℚ) : ℂ)]]⟩, exC, some q', ⟨exC, none, none, some exC, some exC⟩⟩,
    ?_, ?_, ?_, rfl, by simp [hq1], by simp [hq1']⟩
  · unfold timeDomain
    rw [hr]
    simp only [bind, Except.bind, exA_check, Workflow.trimOffsets, State.new, exSet, exA_near, call, pure,
      Except.pure, hd, selectNoise, exA_window, Option.isNone_none, Bool.and_self, if_true, trimTime,
      Bool.false_eq_true, if_false, Workflow.mute, selectSignal, calculateSnr, hq, Workflow.pad, Workflow.transform]
    rfl
  · unfold timeDomainAgain
    rw [hr']
    simp only [bind, Except.bind, hc', Workflow.trimOffsets, exSet, ho', call, pure,
      Except.pure, hd', selectNoise, Option.isNone_some, Bool.and_false, if_true, trimTime,
      Bool.false_eq_true, if_false, Workflow.mute, selectSignal, calculateSnr, hq, Workflow.pad, Workflow.transform]
    rfl
  · unfold timeDomain
    rw [hr']
    simp only [bind, Except.bind, hc', Workflow.trimOffsets, State.new, exSet, ho', call, pure,
      Except.pure, hd', selectNoise, hw', Option.isNone_none, Bool.and_self, if_true, trimTime,
      Bool.false_eq_true, if_false, Workflow.mute, selectSignal, calculateSnr, hq', Workflow.pad, Workflow.transform]
    rfl

end Verif.Props
