import Verif.Props.FreqVelocity
import Verif.Props.MutedWave

/-!
# C160: muted shots stacked in the frequency domain
-/

open Complex

namespace Verif.Props
open Verif WT Arr Spec Workflow

/-- A shot with other things than its wave in the records: when it comes to muting, every record is a pulse which crosses
the receivers, all on one side of the source, at the velocity `v` between the lines, past the tapers, plus anything off
the lines. -/
structure NoisyShot (env : Env) (set : Settings) (α : ℚ) (start stop : Line) (v dt : ℚ) (lead : ℤ) (pulse : List ℚ) (n : ℕ)
    (wave : Sensor → List ℚ) (raw : Arr) : Prop where
  oneSided : OneSided raw
  inside : ∀ s ∈ raw.sensors, LinesInside start stop (beforeMute env set s)
  separated : ∀ s ∈ raw.sensors, Separated α start stop (beforeMute env set s) (wave (beforeMute env set s))
  carries : CarriesPulse ⟨raw.sensors.map fun s => withSamples (beforeMute env set s) (wave (beforeMute env set s)),
    raw.source⟩ v dt lead pulse n

/-- Zero-padding leaves the receivers where they are. -/
theorem padded_places {set : Settings} {muted padded : Arr}
    (h : if set.padApply then muted.zeroPad set.padDf = (padded, .ok ()) else padded = muted) :
    padded.source = muted.source ∧ padded.sensors.map (fun s => s.x) = muted.sensors.map (fun s => s.x) := by
  split_ifs at h
  · unfold Arr.zeroPad at h
    rcases hf : Arr.forSensors (fun r => r.zeroPad set.padDf) muted.sensors with ⟨ss, o⟩
    rw [hf] at h
    simp only [Prod.mk.injEq] at h
    obtain ⟨rfl, rfl⟩ := h
    exact ⟨rfl, forSensors_xs hf⟩
  · rw [h]; exact ⟨rfl, rfl⟩

/-- **C160** (several shots).  A frequency-domain run with muting over files in which every record is a wave between the
two lines the run ends with, plus anything off the lines, each file with its own pulse, shot time, gains and noise: if the
run returns and the velocity `v` of the waves is one of its trial velocities, the peak of the stacked transform is at `v`
at every frequency at which all pulses have energy and in every file some two of the selected receivers are closer than the
shortest trial wavelength. -/
theorem C160_stack_recovers (env : Env) (hankel : ℝ → ℂ) (geom : ℚ → ℚ → ℕ → List ℚ) (hg : ∀ a b n, (geom a b n).length = n)
    (set : Settings) (henv : env.transforms = Builtin.transforms hankel geom) (hd : ∀ l, (env.detrend l).length = l.length)
    (α : ℚ) (hα : 0 ≤ α) (hw : TaperedBy α (env.tukey none) ∧ TaperedBy α (env.tukey set.windowKwargs))
    (htr : set.transform = "phaseshift" ∨ set.transform = "fk" ∨
      set.transform = "fdbf" ∧ (Builtin.specific set.fdbf).get "steering" ≠ some "cylindrical")
    (hmute : set.muteApply = true) (f0 : String) (rest : List String) (r : Result) (n : ℕ) (dt delay v : ℚ) (hdt : 0 < dt)
    (hrec : ∀ name ∈ f0 :: rest, RecordedAs env n dt delay name)
    (h : frequencyDomain env set (.many (f0 :: rest)) = .ok r)
    (start stop : Line) (h1 : r.final.signalStart = some start) (h2 : r.final.signalEnd = some stop)
    (hv1 : start.x1 ≠ start.x2) (hv2 : stop.x1 ≠ stop.x2)
    (lead : String → ℤ) (pulse : String → List ℚ) (len : String → ℕ) (wave : String → Sensor → List ℚ)
    (hshot : ∀ name ∈ f0 :: rest, ∀ raw, fromFiles env (.one name) = .ok raw →
      NoisyShot env set α start stop v dt (lead name) (pulse name) (len name) (wave name) raw)
    (hmem : (v : ℝ) ∈ r.transform.velocities) (hpos : ∀ w ∈ r.transform.velocities, 0 < w) :
    ∃ vs, Builtin.findPeakPower r.transform "frequency-maximum" = .ok vs ∧ vs.length = r.transform.frequencies.length ∧
      ∀ (j : ℕ) (f : ℚ), r.transform.frequencies[j]? = some f → 0 < f →
        (∀ name ∈ f0 :: rest, pulseSpectrum (pulse name) (f * dt) ≠ 0 ∧
          ∀ raw near, fromFiles env (.one name) = .ok raw →
            trimOffsetsFl raw set.minOffset set.maxOffset = (near, .ok ()) → ResolvesAway near f r.transform.velocities) →
        vs[j]? = some (v : ℝ) := by
  have htr' : set.transform = "phaseshift" ∨ set.transform = "fk" ∨ set.transform = "fdbf" :=
    htr.imp id (Or.imp id And.left)
  obtain ⟨vs, e1, e2, e3⟩ := (stack_standsOut hg henv hd htr' hrec h hmem
    (fun name f => 0 < f ∧ pulseSpectrum (pulse name) (f * dt) ≠ 0 ∧
      ∀ raw near, fromFiles env (.one name) = .ok raw →
        trimOffsetsFl raw set.minOffset set.maxOffset = (near, .ok ()) → ResolvesAway near f r.transform.velocities) (by
    intro name hname kw level muted T hkw hT hTv
    obtain ⟨raw, near, cut, padded, hraw, -, hpre, hit⟩ := hT
    rw [h1, h2] at hpre
    obtain ⟨s1, s2, s3, s4⟩ := hshot name hname raw hraw
    obtain ⟨c1, c2, c3, c4, c5⟩ := preprocessed_muted hα hpre hd (by rcases hkw with rfl | rfl; exacts [hw.1, hw.2]) hmute
      (fromFile_consistent hraw) s1 hv1 hv2 hdt s2 s3 s4
    obtain ⟨g1, g2, g3, g4⟩ := transform_standsOut env hankel geom set muted padded T henv htr v dt (lead name) (pulse name)
      (len name) hdt c1 c2 c3 hpre.zeroPadded hit (by rw [hTv]; exact hmem) (by rw [hTv]; exact hpos)
    refine ⟨g1, g2, g3, fun j f hj ⟨hf, hS, hres⟩ => g4 j f hj ⟨hf, hS, ?_⟩⟩
    obtain ⟨q1, q2⟩ := padded_places hpre.zeroPadded
    rw [hTv]
    exact resolvesAway_places (q1.trans c4) (q2.trans c5) (hres raw near hraw hpre.offsets))).picked
  exact ⟨vs, e1, e2, fun j f a1 a2 a3 => e3 j f a1 fun name hname => ⟨a2, (a3 name hname).1, (a3 name hname).2⟩⟩

/-! ## Two noisy shots -/

/-- Two files with noise off the lines of `noisyEnv`, the second with other gains and other noise. -/
noncomputable def noisyShots : Env :=
  { noisyEnv with
    fs := fun name => if name = "a" then noisyEnv.fs "a"
      else some [seg2 2 0 1 [0, 6, 0, 0, 0, 5, 5, 5], seg2 4 0 1 [8, 0, 1, 0, 0, 0, 3, 3], seg2 8 0 1 [2, 2, 0, 0, 4, 0, 0, 9]]
    transforms := Builtin.transforms (fun _ => 0) fun a _ n => List.replicate n a }

/-- Phase shift at two trial velocities without padding, with muting. -/
def noisyShotsSet : Settings := { shotsSet with muteApply := true }

def noisyB : Arr :=
  ⟨[⟨⟨[0, 6, 0, 0, 0, 5, 5, 5], 1 / 1000, 1, 0, 1⟩, 2, 0, 0⟩, ⟨⟨[8, 0, 1, 0, 0, 0, 3, 3], 1 / 1000, 1, 0, 1⟩, 4, 0, 0⟩,
    ⟨⟨[2, 2, 0, 0, 4, 0, 0, 9], 1 / 1000, 1, 0, 1⟩, 8, 0, 0⟩], ⟨0, 0, 0⟩⟩

def noisyWaveB (s : Sensor) : List ℚ :=
  if s.x = 2 then [0, 6, 0, 0, 0, 0, 0, 0] else if s.x = 4 then [0, 0, 1, 0, 0, 0, 0, 0] else [0, 0, 0, 0, 4, 0, 0, 0]

/-- The second file muted. -/
def mutedB : Arr := ⟨noisyB.sensors.map fun s => withSamples s (noisyWaveB s), noisyB.source⟩

theorem noisyB_separated : ∀ s ∈ noisyB.sensors, LinesInside noisyStart noisyStop s ∧
    Separated (1 / 5) noisyStart noisyStop s (noisyWaveB s) := by
  unfold LinesInside Separated PastTapers OffLines sampleTime lineTime
  decide +kernel

/-- The run over the two files and what is needed of it. -/
theorem noisy_stack : ∃ r, frequencyDomain noisyShots noisyShotsSet (.many ["a", "b"]) = .ok r ∧
    r.final.signalStart = some noisyStart ∧ r.final.signalEnd = some noisyStop ∧
    r.transform.velocities = [2000, 4000] ∧ r.transform.frequencies = [125] ∧
    (∀ name ∈ ["a", "b"], RecordedAs noisyShots 8 (1 / 1000) 0 name) ∧
    (∀ name ∈ ["a", "b"], ∀ raw, fromFiles noisyShots (.one name) = .ok raw →
      NoisyShot noisyShots noisyShotsSet (1 / 5) noisyStart noisyStop 2000 (1 / 1000) 0 [1] 8
        (if name = "a" then noisyWave else noisyWaveB) raw) ∧
    ∀ name ∈ ["a", "b"], pulseSpectrum [1] ((125 : ℚ) * (1 / 1000 : ℚ)) ≠ 0 ∧ ∀ raw near,
      fromFiles noisyShots (.one name) = .ok raw →
        trimOffsetsFl raw noisyShotsSet.minOffset noisyShotsSet.maxOffset = (near, .ok ()) →
          ResolvesAway near 125 r.transform.velocities := by
  have hv : Builtin.velocities noisyShotsSet = .ok [2000, 4000] := pulse_velocities "phaseshift"
  have ra : fromFiles noisyShots (.one "a") = .ok noisyArr := by decide +kernel
  have rb : fromFiles noisyShots (.one "b") = .ok noisyB := by decide +kernel
  obtain ⟨TA, ta1, ta2⟩ := shots_transform pulseArr (pulseArr.sensors.map fun s => s.ts.amp) (by decide +kernel)
  obtain ⟨TB, tb1, tb2⟩ := shots_transform mutedB (mutedB.sensors.map fun s => s.ts.amp) (by decide +kernel)
  have hc : noisyShots.transforms.createClass noisyShotsSet.transform = .ok Builtin.phaseShift := rfl
  have na : trimOffsetsFl noisyArr 0 .pinf = (noisyArr, .ok ()) := by decide +kernel
  have nb : trimOffsetsFl noisyB 0 .pinf = (noisyB, .ok ()) := by decide +kernel
  have ma : noisyArr.mute taperWindow (some noisyStart) (some noisyStop) = (pulseArr, .ok ()) := by decide +kernel
  have mb : noisyB.mute taperWindow (some noisyStart) (some noisyStop) = (mutedB, .ok ()) :=
    C160_mute_leaves_wave taperWindow (1 / 5) (by norm_num) taperWindow_tapered noisyB
      (by unfold Consistent SameMeta; decide +kernel) noisyStart noisyStop (by decide +kernel) (by decide +kernel) noisyWaveB
      (by decide +kernel) (fun s hs => (noisyB_separated s hs).1) (fun s hs => (noisyB_separated s hs).2)
  have outA : ¬ SourceBetween noisyArr := by
    rintro ⟨p, q, h1, h2, h3, h4⟩
    cases h1
    exact absurd h3 (by decide +kernel)
  have outB : ¬ SourceBetween noisyB := by
    rintro ⟨p, q, h1, h2, h3, h4⟩
    cases h1
    exact absurd h3 (by decide +kernel)
  obtain ⟨t0, ht0, hf0⟩ : ∃ t0, Workflow.empty noisyArr noisyShotsSet = .ok t0 ∧ t0.frequencies = [125] := by
    have hk : WT.keepIds (WT.binFrequencies 8 (125 : ℚ)) 100 130 1 = .ok [1] := by decide +kernel
    have hk' : ([1] : List ℕ).map (fun k => (WT.binFrequencies 8 (125 : ℚ)).getD k 0) = [125] := by decide +kernel
    have hd : (noisyArr.sensors.headD ⟨⟨[], 1, 1, 0, 1⟩, 0, 0, 0⟩).ts.dfInternal = 125 := by decide +kernel
    unfold Workflow.empty
    simp only [noisyArr, List.headD_cons] at hd
    simp only [noisyArr, hd, ATS.nsamples, List.length_cons, List.length_nil]
    show ∃ t0, (WT.keepIds (WT.binFrequencies 8 (125 : ℚ)) 100 130 1 >>= _) = Except.ok t0 ∧ _
    rw [hk]
    unfold Builtin.velocities at hv
    simp only [bind, Except.bind, hv]
    exact ⟨_, rfl, hk'⟩
  obtain ⟨r, hr, l1, l2⟩ := C78_run_returns noisyShots noisyShotsSet "a" ["b"] noisyArr noisyArr noisyArr noisyArr pulseArr
    pulseArr noisyArr (some noisyStart, some noisyStop) t0 TA ra (by decide) outA ⟨noisyArr, noisyArr, rfl, rfl, rfl, rfl⟩ ht0
    ⟨na, rfl, rfl, rfl, ma, rfl⟩ (fun _ => ⟨rfl, by
        show Interact.interactiveMute taperWindow noisyArr "both" true _ = _
        decide +kernel⟩) (fun h => by cases h) ⟨_, hc, ta1⟩ (by rw [hf0]; exact ta2) (by
      intro f hf
      simp only [List.mem_cons, List.not_mem_nil, or_false] at hf
      subst hf
      exact ⟨noisyB, rb, ⟨rfl, rfl⟩, noisyB, mutedB, TB, ⟨noisyB, noisyB, noisyB, mutedB, rb, outB,
        ⟨nb, rfl, rfl, rfl, mb, rfl⟩, _, hc, tb1⟩, by rw [hf0]; exact tb2⟩) (fun h => by cases h)
  have hrec : ∀ name ∈ ["a", "b"], RecordedAs noisyShots 8 (1 / 1000) 0 name := by
    intro name hname raw hraw
    simp only [List.mem_cons, List.not_mem_nil, or_false] at hname
    rcases hname with rfl | rfl
    · rw [ra] at hraw; cases hraw; decide +kernel
    · rw [rb] at hraw; cases hraw; decide +kernel
  have hg : ∀ (a b : ℚ) (n : ℕ), ((fun a _ n => List.replicate n a : ℚ → ℚ → ℕ → List ℚ) a b n).length = n := by simp
  obtain ⟨e1, e2⟩ := freq_shape hr (by
    intro name hname level muted kw lines t ht
    have h1 := (perFile_axis hg rfl (fun _ => rfl) 8 (1 / 1000) 0 (hrec name hname) ht).1.2
    rwa [C103_same_recording_partial noisyShots noisyShotsSet (fun _ => 0) _ hg rfl (fun _ => rfl) "a" ["b"] r 8 (1 / 1000) 0
      hrec hr name hname kw lines level muted t ht] at h1)
  rw [hv] at e1
  have e1' := (Except.ok.inj e1).symm
  have hfr : r.transform.frequencies = [125] := by
    obtain ⟨ex, t0', -, -, T0, Ts, -, -, h1, h2, -, -, -, -, h7, -⟩ := freqFiles_ok hr
    have : ex = noisyArr := by
      have : exampleArray noisyShots noisyShotsSet "a" = .ok noisyArr :=
        exampleArray_returns ra ⟨noisyArr, noisyArr, rfl, rfl, rfl, rfl⟩
      rw [this] at h1
      exact (Except.ok.inj h1).symm
    subst this
    rw [ht0] at h2
    cases h2
    rw [foldlM_frequencies _ _ _ h7, hf0]
  have hbefore : ∀ s, beforeMute noisyShots noisyShotsSet s = s := fun s => rfl
  refine ⟨r, hr, l1, l2, e1', hfr, hrec, ?_, ?_⟩
  · intro name hname raw hraw
    simp only [List.mem_cons, List.not_mem_nil, or_false] at hname
    rcases hname with rfl | rfl
    · rw [ra] at hraw
      cases hraw
      refine ⟨.inl (by decide +kernel), fun s hs => (noisy_separated s hs).1, fun s hs => (noisy_separated s hs).2, ?_⟩
      simp only [hbefore, if_true]
      have : (⟨noisyArr.sensors.map fun s => withSamples s (noisyWave s), noisyArr.source⟩ : Arr) = pulseArr := by
        decide +kernel
      rw [this]
      exact pulse_carried
    · rw [rb] at hraw
      cases hraw
      refine ⟨.inl (by decide +kernel), fun s hs => (noisyB_separated s hs).1, fun s hs => (noisyB_separated s hs).2, ?_⟩
      simp only [hbefore, show ("b" : String) ≠ "a" by decide, if_false]
      intro s hs
      have hs' : s ∈ mutedB.sensors := hs
      simp only [mutedB, noisyB, List.map_cons, List.map_nil, List.mem_cons, List.not_mem_nil, or_false] at hs'
      rcases hs' with rfl | rfl | rfl
      · exact ⟨rfl, 1, 6, 6, by decide +kernel⟩
      · exact ⟨rfl, 2, 5, 1, by decide +kernel⟩
      · exact ⟨rfl, 4, 3, 4, by decide +kernel⟩
  · intro name hname
    simp only [List.mem_cons, List.not_mem_nil, or_false] at hname
    have res : ∀ a : Arr, a.source.x = 0 → a.sensors.map (fun s => s.x) = [2, 4, 8] →
        ResolvesAway a 125 r.transform.velocities := by
      intro a h0 hx
      obtain ⟨s, hs, ex⟩ := List.mem_map.1 (show (2 : ℚ) ∈ a.sensors.map (fun s => s.x) by rw [hx]; simp)
      obtain ⟨s', hs', ex'⟩ := List.mem_map.1 (show (4 : ℚ) ∈ a.sensors.map (fun s => s.x) by rw [hx]; simp)
      refine ⟨s, hs, s', hs', by rw [ex, ex']; norm_num, by rw [ex, h0]; norm_num, by rw [ex', h0]; norm_num, ?_⟩
      rw [e1', ex, ex']
      intro w hw
      simp only [List.mem_cons, List.not_mem_nil, or_false] at hw
      rcases hw with rfl | rfl <;> norm_num
    refine ⟨by simp [pulseSpectrum], fun raw near hraw hnear => ?_⟩
    rcases hname with rfl | rfl
    · rw [ra] at hraw
      cases hraw
      have hnear' : (noisyArr, Except.ok ()) = (near, Except.ok ()) := na.symm.trans hnear
      cases hnear'
      exact res _ rfl (by decide +kernel)
    · rw [rb] at hraw
      cases hraw
      have hnear' : (noisyB, Except.ok ()) = (near, Except.ok ()) := nb.symm.trans hnear
      cases hnear'
      exact res _ rfl (by decide +kernel)

/-- The run over the two files returns, and 2000 m/s is picked at its one frequency. -/
example : ∃ r, frequencyDomain noisyShots noisyShotsSet (.many ["a", "b"]) = .ok r ∧
    Builtin.findPeakPower r.transform "frequency-maximum" = .ok [2000] := by
  obtain ⟨r, hr, l1, l2, e1', hfr, hrec, hshots, hband⟩ := noisy_stack
  refine ⟨r, hr, ?_⟩
  obtain ⟨vs, h1, h2, h3⟩ := C160_stack_recovers noisyShots (fun _ => 0) _ (by simp) noisyShotsSet rfl (fun _ => rfl) (1 / 5)
    (by norm_num) ⟨taperWindow_tapered, taperWindow_tapered⟩ (.inl rfl) rfl "a" ["b"] r 8
    (1 / 1000) 0 2000 (by norm_num) hrec hr noisyStart noisyStop l1 l2 (by decide +kernel) (by decide +kernel)
    (fun _ => 0) (fun _ => [1]) (fun _ => 8) (fun name => if name = "a" then noisyWave else noisyWaveB) hshots
    (by rw [e1']; simp) (by rw [e1']; intro w hw; simp at hw; rcases hw with rfl | rfl <;> norm_num)
  rw [h1]
  rw [hfr] at h2 h3
  have e0 := h3 0 125 rfl (by norm_num) hband
  rcases vs with _ | ⟨a, _ | ⟨c, vs⟩⟩ <;> simp at h2
  simp at e0
  rw [e0]

end Verif.Props
