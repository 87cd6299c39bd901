import Verif.Props.SurveyStats
import Verif.Props.FreqMuted
import Verif.Props.SweepVelocity

/-!
# C166 for every workflow: shots of a survey processed by different workflows
-/

namespace Verif.Props
open Verif WT Spec Workflow Mat

/-- The transform is one of those which find the velocity of a plane wave. -/
def PlainTransform (set : Settings) : Prop :=
  set.transform = "phaseshift" ∨ set.transform = "fk" ∨
    set.transform = "fdbf" ∧ (Builtin.specific set.fdbf).get "steering" ≠ some "cylindrical"

/-- A shot with noise before and after the wave, processed by a time-domain run with interactive muting: the wave lies
between the lines `start` and `stop` picked in the run. -/
structure MutedShot (env : Env) (num : ℝ → ℚ) (v lo hi : ℚ) (p : Peaks) (set : Settings) (f : Fnames) (raw : Arr) (r : Result)
    (dt : ℚ) (lead : ℤ) (pulse : List ℚ) (n : ℕ) (start stop : Arr.Line) (wave : Sensor → List ℚ) : Prop where
  transform : PlainTransform set
  muted : set.muteApply = true
  recorded : fromFiles env f = .ok raw
  consistent : Consistent raw
  outside : (∀ s ∈ raw.sensors, raw.source.x ≤ s.x) ∨ (∀ s ∈ raw.sensors, s.x < raw.source.x)
  step : 0 < dt
  run : timeDomain env set f = .ok r
  lines : r.final.signalStart = some start ∧ r.final.signalEnd = some stop
  slanted : start.x1 ≠ start.x2 ∧ stop.x1 ≠ stop.x2
  inside : ∀ s ∈ raw.sensors, LinesInside start stop (beforeMute env set s)
  separated : ∀ s ∈ raw.sensors, Separated (1 / 5) start stop (beforeMute env set s) (wave (beforeMute env set s))
  carried : CarriesPulse ⟨raw.sensors.map fun s => withSamples (beforeMute env set s) (wave (beforeMute env set s)),
    raw.source⟩ v dt lead pulse n
  tried : (v : ℝ) ∈ r.transform.velocities
  positive : ∀ w ∈ r.transform.velocities, 0 < w
  band : ∀ x ∈ r.transform.frequencies, lo ≤ x → x ≤ hi →
    pulseSpectrum pulse (x * dt) ≠ 0 ∧ ResolvesAway r.array x r.transform.velocities
  picked : PicksOf num r.transform p

/-- Several shots stacked in the frequency domain, without muting. -/
structure StackedShots (env : Env) (num : ℝ → ℚ) (v lo hi : ℚ) (p : Peaks) (set : Settings) (f0 : String) (rest : List String)
    (r : Result) (n : ℕ) (dt delay : ℚ) (lead : String → ℤ) (pulse : String → List ℚ) : Prop where
  transform : PlainTransform set
  unmuted : set.muteApply = false
  step : 0 < dt
  alike : ∀ name ∈ f0 :: rest, RecordedAs env n dt delay name
  shots : ∀ name ∈ f0 :: rest, ∀ raw, fromFiles env (.one name) = .ok raw →
    ShotOf env set v dt n (lead name) (pulse name) raw
  run : frequencyDomain env set (.many (f0 :: rest)) = .ok r
  tried : (v : ℝ) ∈ r.transform.velocities
  positive : ∀ w ∈ r.transform.velocities, 0 < w
  band : ∀ x ∈ r.transform.frequencies, lo ≤ x → x ≤ hi → ∀ name ∈ f0 :: rest, pulseSpectrum (pulse name) (x * dt) ≠ 0 ∧
    ∀ raw near, fromFiles env (.one name) = .ok raw →
      trimOffsetsFl raw set.minOffset set.maxOffset = (near, .ok ()) → ResolvesAway near x r.transform.velocities
  picked : PicksOf num r.transform p

/-- Several shots with noise, stacked in the frequency domain and muted between the lines picked in the run. -/
structure StackedMutedShots (env : Env) (num : ℝ → ℚ) (v lo hi : ℚ) (p : Peaks) (set : Settings) (f0 : String)
    (rest : List String) (r : Result) (n : ℕ) (dt delay α : ℚ) (lead : String → ℤ) (pulse : String → List ℚ)
    (start stop : Arr.Line) (len : String → ℕ) (wave : String → Sensor → List ℚ) : Prop where
  transform : PlainTransform set
  muted : set.muteApply = true
  step : 0 < dt
  window : 0 ≤ α ∧ TaperedBy α (env.tukey none) ∧ TaperedBy α (env.tukey set.windowKwargs)
  alike : ∀ name ∈ f0 :: rest, RecordedAs env n dt delay name
  run : frequencyDomain env set (.many (f0 :: rest)) = .ok r
  lines : r.final.signalStart = some start ∧ r.final.signalEnd = some stop
  slanted : start.x1 ≠ start.x2 ∧ stop.x1 ≠ stop.x2
  shots : ∀ name ∈ f0 :: rest, ∀ raw, fromFiles env (.one name) = .ok raw →
    NoisyShot env set α start stop v dt (lead name) (pulse name) (len name) (wave name) raw
  tried : (v : ℝ) ∈ r.transform.velocities
  positive : ∀ w ∈ r.transform.velocities, 0 < w
  band : ∀ x ∈ r.transform.frequencies, lo ≤ x → x ≤ hi → ∀ name ∈ f0 :: rest, pulseSpectrum (pulse name) (x * dt) ≠ 0 ∧
    ∀ raw near, fromFiles env (.one name) = .ok raw →
      trimOffsetsFl raw set.minOffset set.maxOffset = (near, .ok ()) → ResolvesAway near x r.transform.velocities
  picked : PicksOf num r.transform p

/-- A sweep processed by the workflow with cross-correlation. -/
structure SweptShot (env : Env) (num : ℝ → ℚ) (v lo hi : ℚ) (p : Peaks) (set : Settings) (f : Fnames) (src : List String)
    (ch : ℤ) (raw : Arr) (sig : SourceSig) (r : Result) (dt : ℚ) (lead : ℤ) (sweep core : List ℚ) (n skip rest : ℕ) : Prop where
  transform : PlainTransform set
  plain : set.trimApply = false ∧ set.muteApply = false
  recorded : RecordWithSignal env f src ch raw sig
  outside : (∀ s ∈ raw.sensors, raw.source.x ≤ s.x) ∨ (∀ s ∈ raw.sensors, s.x < raw.source.x)
  step : 0 < dt
  wave : sweep ≠ []
  carried : CarriesPulse ⟨raw.sensors.map fun s => { s with ts := { s.ts with amp := env.detrend s.ts.amp } }, raw.source⟩
    v dt lead sweep n
  wavelet : wavelet sweep sig.amp = List.replicate skip 0 ++ core ++ List.replicate rest 0
  run : xcorr env set f src ch = .ok r
  lags : LagsHold r.array sig set.vmin set.vmax v dt lead (n + sig.amp.length - 1) skip core.length
  tried : (v : ℝ) ∈ r.transform.velocities
  positive : ∀ w ∈ r.transform.velocities, 0 < w
  band : ∀ x ∈ r.transform.frequencies, lo ≤ x → x ≤ hi → pulseSpectrum sweep (x * dt) ≠ 0 ∧
    pulseSpectrum sig.amp (x * dt) ≠ 0 ∧ ResolvesAway r.array x r.transform.velocities
  picked : PicksOf num r.transform p

/-- The peaks `p` were picked from the result `r` of one of the workflows. -/
def Processed (env : Env) (num : ℝ → ℚ) (v lo hi : ℚ) (p : Peaks) (r : Result) : Prop :=
  (∃ set f raw dt lead pulse n, CleanShot env num v lo hi p set f raw r dt lead pulse n) ∨
  (∃ set f raw dt lead pulse n start stop wave, MutedShot env num v lo hi p set f raw r dt lead pulse n start stop wave) ∨
  (∃ set f0 rest n dt delay lead pulse, StackedShots env num v lo hi p set f0 rest r n dt delay lead pulse) ∨
  (∃ set f0 rest n dt delay α lead pulse start stop len wave,
    StackedMutedShots env num v lo hi p set f0 rest r n dt delay α lead pulse start stop len wave) ∨
  ∃ set f src ch raw sig dt lead sweep core n skip rest,
    SweptShot env num v lo hi p set f src ch raw sig r dt lead sweep core n skip rest

theorem PlainTransform.ne {set : Settings} (h : PlainTransform set) : set.transform ≠ "slantstack" := by
  rcases h with e | e | e <;> simp [e]

/-- What a run of any workflow over such ground returns. -/
theorem processed_shows {env : Env} {hankel : ℝ → ℂ} {geom : ℚ → ℚ → ℕ → List ℚ} (hg : ∀ a b n, (geom a b n).length = n)
    (henv : env.transforms = Builtin.transforms hankel geom) (hd : ∀ l, (env.detrend l).length = l.length)
    (hw : TaperedBy (1 / 5) (env.tukey none)) {num : ℝ → ℚ} {v lo hi : ℚ} (hlo : 0 < lo) {p : Peaks} {r : Result}
    (h : Processed env num v lo hi p r) :
    PicksOf num r.transform p ∧ ShowsBetween r.transform v lo hi ∧
      (r.transform.frequencies.filter fun f => decide (lo ≤ f ∧ f ≤ hi)).Nodup := by
  have htime : ∀ {set f}, PlainTransform set → timeDomain env set f = .ok r →
      (r.transform.frequencies.filter fun f => decide (lo ≤ f ∧ f ≤ hi)).Nodup := by
    intro set f hp hrun
    obtain ⟨_, _, _, _, _, -, -, -, ⟨tr, ht1, ht2⟩, -⟩ := C76_steps _ _ _ _ hrun
    rw [henv] at ht1
    obtain ⟨ρ, -, hax⟩ := plain_onAxis hp.ne ⟨tr, ht1, ht2⟩
    exact frequencies_nodup hax.1 hlo
  rcases h with ⟨set, f, raw, dt, lead, pulse, n, hc⟩ | ⟨set, f, raw, dt, lead, pulse, n, start, stop, wave, hc⟩ |
    ⟨set, f0, rest, n, dt, delay, lead, pulse, hc⟩ | ⟨set, f0, rest, n, dt, delay, α, lead, pulse, start, stop, len, wave, hc⟩ |
    ⟨set, f, src, ch, raw, sig, dt, lead, sweep, core, n, skip, rest, hc⟩
  · refine ⟨hc.picked, ?_, htime hc.transform hc.run⟩
    obtain ⟨vs, h1, h2, h4⟩ := C114_run_recovers env hankel geom set f raw r henv hd hc.transform hc.unmuted hc.recorded
      hc.consistent hc.outside v dt lead pulse n hc.step hc.wave hc.carried hc.kept hc.run hc.tried hc.positive
    refine ⟨vs, h1, h2, fun j x hj hx hx' => ?_⟩
    obtain ⟨b1, b2⟩ := hc.band x (List.mem_of_getElem? hj) hx hx'
    exact h4 j x hj (lt_of_lt_of_le hlo hx) b1 b2
  · refine ⟨hc.picked, ?_, htime hc.transform hc.run⟩
    obtain ⟨vs, h1, h2, h4⟩ := C160_run_recovers env hankel geom set f raw r henv hd hw hc.transform hc.muted hc.recorded
      hc.consistent hc.outside hc.run start stop hc.lines.1 hc.lines.2 hc.slanted.1 hc.slanted.2 wave v dt lead pulse n hc.step
      hc.inside hc.separated hc.carried hc.tried hc.positive
    refine ⟨vs, h1, h2, fun j x hj hx hx' => ?_⟩
    obtain ⟨b1, b2⟩ := hc.band x (List.mem_of_getElem? hj) hx hx'
    exact h4 j x hj (lt_of_lt_of_le hlo hx) b1 b2
  · refine ⟨hc.picked, ?_, frequencies_nodup (freq_axis hd n dt delay (hc.alike f0 List.mem_cons_self) hc.run) hlo⟩
    obtain ⟨vs, h1, h2, h4⟩ := C157_stack_recovers env hankel geom hg set henv hd hc.transform hc.unmuted f0 rest r n dt delay v
      hc.step hc.alike lead pulse hc.shots hc.run hc.tried hc.positive
    exact ⟨vs, h1, h2, fun j x hj hx hx' =>
      h4 j x hj (lt_of_lt_of_le hlo hx) (hc.band x (List.mem_of_getElem? hj) hx hx')⟩
  · refine ⟨hc.picked, ?_, frequencies_nodup (freq_axis hd n dt delay (hc.alike f0 List.mem_cons_self) hc.run) hlo⟩
    obtain ⟨vs, h1, h2, h4⟩ := C160_stack_recovers env hankel geom hg set henv hd α hc.window.1 hc.window.2 hc.transform hc.muted
      f0 rest r n dt delay v hc.step hc.alike hc.run start stop hc.lines.1 hc.lines.2 hc.slanted.1 hc.slanted.2 lead pulse len wave
      hc.shots hc.tried hc.positive
    exact ⟨vs, h1, h2, fun j x hj hx hx' =>
      h4 j x hj (lt_of_lt_of_le hlo hx) (hc.band x (List.mem_of_getElem? hj) hx hx')⟩
  · refine ⟨hc.picked, ?_, ?_⟩
    · obtain ⟨vs, h1, h2, h4⟩ := C152_run_recovers env hankel geom set f src ch raw sig r henv hd hc.transform hc.plain hc.recorded
        hc.outside v dt lead sweep core n skip rest hc.step hc.wave hc.carried hc.wavelet hc.run hc.lags hc.tried hc.positive
      refine ⟨vs, h1, h2, fun j x hj hx hx' => ?_⟩
      obtain ⟨b1, b2, b3⟩ := hc.band x (List.mem_of_getElem? hj) hx hx'
      exact h4 j x hj (lt_of_lt_of_le hlo hx) b1 b2 b3
    · obtain ⟨_, _, _, _, _, _, -, -, -, -, ⟨tr, ht1, ht2⟩, -⟩ := C151_steps _ _ _ _ _ _ hc.run
      rw [henv] at ht1
      obtain ⟨ρ, -, hax⟩ := plain_onAxis hc.transform.ne ⟨tr, ht1, ht2⟩
      exact frequencies_nodup hax.1 hlo

/-- **C166** (any workflow).  Three or more results over ground of velocity `v`, each from a workflow and settings of its
own - single shots, shots muted interactively, stacks in the frequency domain with and without muting, sweeps with
cross-correlation; their picks collected in a suite and limited to the frequencies from `lo` to `hi`: at every location
inside the frequencies of each result, `statistics` gives the mean `v` and the standard deviation zero. -/
theorem C166_any_workflow (env : Env) (hankel : ℝ → ℂ) (geom : ℚ → ℚ → ℕ → List ℚ) (hg : ∀ a b n, (geom a b n).length = n)
    (henv : env.transforms = Builtin.transforms hankel geom) (hd : ∀ l, (env.detrend l).length = l.length)
    (hw : TaperedBy (1 / 5) (env.tukey none)) (num : ℝ → ℚ) (v lo hi : ℚ) (hnum : num v = v) (hlo : 0 < lo) (ps : List Peaks)
    (s : Suite) (hs : Suite.fromPeaks ps = .ok s) (h3 : 3 ≤ ps.length) (xx : List ℚ) (count : ℕ) (hcount : count ≤ ps.length)
    (hshots : ∀ p ∈ ps, ∃ r, Processed env num v lo hi p r ∧ ∀ x ∈ xx, Covers r.transform lo hi x) :
    ∃ s', s.rejectLimits "frequency" (some (.fin lo)) (some (.fin hi)) = (s', .ok ()) ∧
      s'.statistics "frequency" "velocity" xx count = .ok (xx, xx.map fun _ => some v, xx.map fun _ => some 0) := by
  refine C166_picks num v lo hi hnum ps s hs h3 xx count hcount fun p hp => ?_
  obtain ⟨r, hr, hcov⟩ := hshots p hp
  obtain ⟨h1, h2, h4⟩ := processed_shows hg henv hd hw hlo hr
  exact ⟨r.transform, h1, h2, h4, hcov⟩

/-! ## A survey -/

/-- A single file with noise muted in a run with a given transform, next to the stack of `noisy_stack`. -/
theorem noisy_single (tr : String) (h : tr = "phaseshift" ∨ tr = "fk" ∨ tr = "fdbf") :
    ∃ r, timeDomain noisyShots (noisySet tr) (.one "a") = .ok r ∧ r.array = pulsePadded ∧
      r.transform.frequencies = [125 / 2, 125] ∧ r.transform.velocities = [2000, 4000] ∧
      r.final.signalStart = some noisyStart ∧ r.final.signalEnd = some noisyStop := by
  obtain ⟨t, ht, hf, hv⟩ := pulse_transform h
  have ht' : IsTransformOf noisyShots (noisySet tr) pulsePadded t := by
    obtain ⟨g, g1, g2⟩ := ht
    refine ⟨g, ?_, ?_⟩
    · rcases h with rfl | rfl | rfl <;> exact g1
    · rcases h with rfl | rfl | rfl <;> cases g1 <;> exact g2
  have hraw : fromFiles noisyShots (.one "a") = .ok noisyArr := by decide +kernel
  have hm : noisyArr.mute taperWindow (some noisyStart) (some noisyStop) = (pulseArr, .ok ()) := by decide +kernel
  have hpre : Preprocessed noisyShots (noisySet tr) none (some noisyStart, some noisyStop) noisyArr noisyArr noisyArr noisyArr
      pulseArr pulsePadded := by
    refine ⟨?_, rfl, rfl, rfl, ?_, ?_⟩
    · show trimOffsetsFl noisyArr 0 .pinf = _
      decide +kernel
    · show Arr.mute taperWindow noisyArr (some noisyStart) (some noisyStop) = _
      exact hm
    · show Arr.zeroPad pulseArr (125 / 2) = _
      decide +kernel
  obtain ⟨r, hr, ea, et, -, hlines⟩ := C76_run_returns noisyShots (noisySet tr) (.one "a") noisyArr noisyArr noisyArr noisyArr
    pulseArr pulsePadded (some noisyStart, some noisyStop) t hraw (by decide) (by
      rintro ⟨p, q, h1, h2, h3, h4⟩
      cases h1
      exact absurd h3 (by decide +kernel)) hpre (fun _ => ⟨rfl, by
        show Interact.interactiveMute taperWindow noisyArr "both" true _ = _
        decide +kernel⟩) ht' none (fun _ => rfl) (by intro h; cases h)
  exact ⟨r, hr, ea, by rw [et, hf], by rw [et, hv], hlines rfl⟩

/-- The picks of a transform with one velocity per frequency. -/
theorem picks_exist (t : Transform) (id : String) (vs : List ℝ) (h : Builtin.findPeakPower t "frequency-maximum" = .ok vs)
    (hl : vs.length = t.frequencies.length) : ∃ p, p.identifier = id ∧ PicksOf wholeNumber t p :=
  ⟨⟨id, ⟨[t.frequencies.length], t.frequencies.map Fl.fin⟩, ⟨[vs.length], vs.map fun x => .fin (wholeNumber x)⟩, [],
    ⟨[vs.length], (vs.map fun x => Fl.fin (wholeNumber x)).map fun v => !v.isNan⟩⟩, rfl, vs, id, h, by
      simp [Peaks.init, hl, Nd.map]⟩

/-- A survey of a stack of two shots by phase shift and two single shots by other transforms, all muted: 2000 m/s without
scatter at 125 Hz. -/
example : ∃ ps s s', Suite.fromPeaks ps = .ok s ∧ ps.length = 3 ∧
    (∀ p ∈ ps, ∃ r, Processed noisyShots wholeNumber 2000 60 130 p r) ∧
    s.rejectLimits "frequency" (some (.fin 60)) (some (.fin 130)) = (s', .ok ()) ∧
    s'.statistics "frequency" "velocity" [125] 3 = .ok ([125], [some 2000], [some 0]) := by
  have hpos : ∀ w ∈ [(2000 : ℝ), 4000], 0 < w := by
    intro w hw; simp at hw; rcases hw with rfl | rfl <;> norm_num
  have hstack : ∃ p r, p.identifier = "stack" ∧ Processed noisyShots wholeNumber 2000 60 130 p r ∧
      ∀ x ∈ [(125 : ℚ)], Covers r.transform 60 130 x := by
    obtain ⟨r, hr, l1, l2, e1, hfr, hrec, hshots, hband⟩ := noisy_stack
    obtain ⟨vs, h1, h2, -⟩ := C160_stack_recovers noisyShots (fun _ => 0) _ (by simp) noisyShotsSet rfl (fun _ => rfl) (1 / 5)
      (by norm_num) ⟨taperWindow_tapered, taperWindow_tapered⟩ (.inl rfl) rfl "a" ["b"] r 8
      (1 / 1000) 0 2000 (by norm_num) hrec hr noisyStart noisyStop l1 l2 (by decide +kernel) (by decide +kernel)
      (fun _ => 0) (fun _ => [1]) (fun _ => 8) (fun name => if name = "a" then noisyWave else noisyWaveB) hshots
      (by rw [e1]; simp) (by rw [e1]; exact hpos)
    obtain ⟨p, hid, hp⟩ := picks_exist r.transform "stack" vs h1 h2
    refine ⟨p, r, hid, .inr (.inr (.inr (.inl ⟨noisyShotsSet, "a", ["b"], 8, 1 / 1000, 0, 1 / 5, fun _ => 0, fun _ => [1],
      noisyStart, noisyStop, fun _ => 8, fun name => if name = "a" then noisyWave else noisyWaveB,
      .inl rfl, rfl, by norm_num, ⟨by norm_num, taperWindow_tapered, taperWindow_tapered⟩, hrec, hr, ⟨l1, l2⟩,
      ⟨by decide +kernel, by decide +kernel⟩, hshots, by rw [e1]; simp, by rw [e1]; exact hpos, ?_, hp⟩))), ?_⟩
    · intro x hx _ _
      rw [hfr] at hx
      obtain rfl : x = 125 := by simpa using hx
      exact hband
    · intro x hx
      obtain rfl : x = 125 := by simpa using hx
      unfold Covers
      rw [hfr]
      norm_num
  have hsingle : ∀ id tr, tr = "phaseshift" ∨ tr = "fk" ∨ tr = "fdbf" → ∃ p r, p.identifier = id ∧
      Processed noisyShots wholeNumber 2000 60 130 p r ∧ ∀ x ∈ [(125 : ℚ)], Covers r.transform 60 130 x := by
    intro id tr h
    obtain ⟨r, hr, ea, hf, hv, l1, l2⟩ := noisy_single tr h
    have hraw : fromFiles noisyShots (.one "a") = .ok noisyArr := by decide +kernel
    have htr : PlainTransform (noisySet tr) := by
      rcases h with rfl | rfl | rfl
      · exact .inl rfl
      · exact .inr (.inl rfl)
      · exact .inr (.inr ⟨rfl, by decide⟩)
    have hcons : Consistent noisyArr := by unfold Consistent SameMeta; decide +kernel
    have hcar : CarriesPulse ⟨noisyArr.sensors.map fun s => withSamples (beforeMute noisyShots (noisySet tr) s)
        (noisyWave (beforeMute noisyShots (noisySet tr) s)), noisyArr.source⟩ 2000 (1 / 1000) 0 [1] 8 := by
      have hbefore : ∀ s, beforeMute noisyShots (noisySet tr) s = s := fun s => rfl
      simp only [hbefore]
      have : (⟨noisyArr.sensors.map fun s => withSamples s (noisyWave s), noisyArr.source⟩ : Arr) = pulseArr := by
        decide +kernel
      rw [this]
      exact pulse_carried
    obtain ⟨vs, h1, h2, -⟩ := C160_run_recovers noisyShots (fun _ => 0) (fun a _ n => List.replicate n a) (noisySet tr) (.one "a")
      noisyArr r rfl (fun _ => rfl) taperWindow_tapered htr rfl hraw hcons (.inl (by decide +kernel)) hr noisyStart noisyStop
      l1 l2 (by decide +kernel) (by decide +kernel) noisyWave 2000 (1 / 1000) 0 [1] 8 (by norm_num)
      (fun s hs => (noisy_separated s hs).1) (fun s hs => (noisy_separated s hs).2) hcar (by rw [hv]; simp) (by rw [hv]; exact hpos)
    obtain ⟨p, hid, hp⟩ := picks_exist r.transform id vs h1 h2
    refine ⟨p, r, hid, .inr (.inl ⟨noisySet tr, .one "a", noisyArr, 1 / 1000, 0, [1], 8, noisyStart, noisyStop, noisyWave,
      htr, rfl, hraw, hcons, .inl (by decide +kernel), by norm_num, hr, ⟨l1, l2⟩, ⟨by decide +kernel, by decide +kernel⟩,
      fun s hs => (noisy_separated s hs).1, fun s hs => (noisy_separated s hs).2, hcar, by rw [hv]; simp,
      by rw [hv]; exact hpos, ?_, hp⟩), ?_⟩
    · intro x hx _ _
      refine ⟨by simp [pulseSpectrum], ?_⟩
      rw [hf] at hx
      have hx1 : x ≤ 125 := by
        simp only [List.mem_cons, List.not_mem_nil, or_false] at hx
        rcases hx with rfl | rfl <;> norm_num
      rw [ea, hv]
      refine ⟨_, List.mem_cons_self, _, List.mem_cons_of_mem _ List.mem_cons_self, by decide +kernel, by decide +kernel,
        by decide +kernel, ?_⟩
      have hf1 : (x : ℝ) ≤ 125 := by exact_mod_cast hx1
      intro w hw
      simp only [List.mem_cons, List.not_mem_nil, or_false] at hw
      simp only
      rcases hw with rfl | rfl <;> norm_num <;> linarith
    · intro x hx
      obtain rfl : x = 125 := by simpa using hx
      unfold Covers
      rw [hf]
      norm_num
  obtain ⟨p1, r1, i1, h1, c1⟩ := hstack
  obtain ⟨p2, r2, i2, h2, c2⟩ := hsingle "fk" "fk" (by simp)
  obtain ⟨p3, r3, i3, h3, c3⟩ := hsingle "fdbf" "fdbf" (by simp)
  have hall : ∀ p ∈ [p1, p2, p3], ∃ r, Processed noisyShots wholeNumber 2000 60 130 p r ∧
      ∀ x ∈ [(125 : ℚ)], Covers r.transform 60 130 x := by
    intro p hp
    simp only [List.mem_cons, List.not_mem_nil, or_false] at hp
    rcases hp with rfl | rfl | rfl
    · exact ⟨r1, h1, c1⟩
    · exact ⟨r2, h2, c2⟩
    · exact ⟨r3, h3, c3⟩
  have hs : Suite.fromPeaks [p1, p2, p3] = .ok _ := (C45_from_peaks _).2.1 (by simp) (by simp [i1, i2, i3])
  obtain ⟨s', e1, e2⟩ := C166_any_workflow noisyShots (fun _ => 0) (fun a _ n => List.replicate n a) (by simp) rfl (fun _ => rfl)
    taperWindow_tapered wholeNumber 2000 60 130 (by simp [wholeNumber]) (by norm_num) _ _ hs (by simp) [125] 3 (by simp) hall
  exact ⟨_, _, s', hs, rfl, fun p hp => (hall p hp).imp fun r h => h.1, e1, e2⟩

end Verif.Props
