import Verif.Model.Builtin
import Verif.Props.FrequencyDomain
import Verif.Props.RunReturns

/-!
# C78, C103: the registered transforms in the frequency-domain workflow

Files recorded with one number of samples, time step and delay are transformed at the frequencies of the result,
whatever is trimmed, muted or padded on the way.
-/

namespace Verif.Props
open Verif Workflow

/-- What the frequency axis depends on. -/
def clock (r : ATS) : ℕ × ℚ × ℚ × ℕ := (r.amp.length, r.dt, r.delay, r.multiple)

theorem clock_eq {r s : ATS} (h : clock r = clock s) :
    r.amp.length = s.amp.length ∧ r.dt = s.dt ∧ r.delay = s.delay ∧ r.multiple = s.multiple := by
  simpa [clock] using h

theorem clock_time {r s : ATS} (h : clock r = clock s) : r.time = s.time := by
  obtain ⟨h1, h2, h3, -⟩ := clock_eq h
  simp [ATS.time, ATS.nsamples, h1, h2, h3]

theorem clock_trim {r s : ATS} (h : clock r = clock s) (t0 t1 : ℚ) :
    clock (r.trim t0 t1).1 = clock (s.trim t0 t1).1 := by
  obtain ⟨h1, h2, h3, h4⟩ := clock_eq h
  have hl : ∀ i j : ℤ, (pySlice r.amp i j).length = (pySlice s.amp i j).length := fun i j =>
    ATS.pySlice_length _ _ h1 i j
  unfold ATS.trim ATS.trimBase
  rw [clock_time h]
  rcases argmin (s.time.map fun t => |t - t0|) with _ | i
  · exact h
  rcases argmin (s.time.map fun t => |t - t1|) with _ | j
  · exact h
  rcases s.time.head? with _ | a
  · exact h
  rcases s.time.getLast? with _ | b
  · exact h
  simp only
  by_cases hc : (decide (t0 < a) || decide (t0 > t1) || decide (t1 > b)) = true
  · simp only [hc, if_true]
    exact h
  · simp only [hc]
    simp [clock, hl, h2, h4]

theorem clock_zeroPad {r s : ATS} (h : clock r = clock s) (df : ℚ) :
    clock (r.zeroPad df).1 = clock (s.zeroPad df).1 := by
  obtain ⟨h1, h2, h3, h4⟩ := clock_eq h
  unfold ATS.zeroPad
  simp only [ATS.nsamples, h1, h2]
  by_cases c1 : df ≤ 0
  · simp [clock, c1, h1, h3]
  by_cases c2 : ATS.targetSamples df s.dt > s.amp.length
  · simp only [c1, c2, if_true, if_false, clock, List.length_append, List.length_replicate, h1, h3]
  by_cases c3 : ATS.targetSamples df s.dt < s.amp.length
  · by_cases c4 : ATS.targetSamples df s.dt = 0
    · simp only [if_neg c1, if_neg c2, if_pos c3, if_pos c4, clock, h1, h3]
    by_cases c5 : (s.amp.length : ℤ) % ATS.targetSamples df s.dt = 0
    · simp only [c1, c2, c3, c4, c5, if_true, if_false, clock, h1, h3]
    · simp only [c1, c2, c3, c4, c5, if_true, if_false, clock, List.length_append, List.length_replicate, h1, h3]
  · simp only [c1, c2, c3, if_false, clock, h1, h3]

/-- Every sensor of the array keeps the time of `ρ`. -/
def AllClock (ρ : ATS) (a : Arr) : Prop := ∀ s ∈ a.sensors, clock s.ts = clock ρ

theorem forSensors_mem {f : ATS → Outcome ATS} : ∀ {l l' : List Sensor},
    Arr.forSensors f l = (l', .ok ()) → ∀ s' ∈ l', ∃ s ∈ l, s'.ts = (f s.ts).1 := by
  intro l
  induction l with
  | nil => intro l' h; simp only [Arr.forSensors, Prod.mk.injEq] at h; rw [← h.1]; simp
  | cons s l ih =>
    intro l' h s' hs'
    unfold Arr.forSensors at h
    rcases hf : f s.ts with ⟨r, e | ⟨⟨⟩⟩⟩
    · simp [hf] at h
    · simp only [hf] at h
      rcases hr : Arr.forSensors f l with ⟨rest', o⟩
      rw [hr] at h
      simp only [Prod.mk.injEq] at h
      obtain ⟨rfl, rfl⟩ := h
      rcases List.mem_cons.1 hs' with rfl | hs'
      · exact ⟨s, List.mem_cons_self, by simp [hf]⟩
      · obtain ⟨x, hx, e⟩ := ih hr s' hs'
        exact ⟨x, List.mem_cons_of_mem _ hx, e⟩

theorem AllClock.trim {ρ : ATS} {a b : Arr} {t0 t1 : ℚ} (h : AllClock ρ a) (hb : a.trim t0 t1 = (b, .ok ())) :
    AllClock (ρ.trim t0 t1).1 b := by
  unfold Arr.trim at hb
  rcases hf : Arr.forSensors (fun r => r.trim t0 t1) a.sensors with ⟨ss, o⟩
  rw [hf] at hb
  simp only [Prod.mk.injEq] at hb
  obtain ⟨rfl, rfl⟩ := hb
  intro s' hs'
  obtain ⟨s, hs, e⟩ := forSensors_mem hf s' hs'
  rw [e]
  exact clock_trim (h s hs) t0 t1

theorem AllClock.zeroPad {ρ : ATS} {a b : Arr} {df : ℚ} (h : AllClock ρ a) (hb : a.zeroPad df = (b, .ok ())) :
    AllClock (ρ.zeroPad df).1 b := by
  unfold Arr.zeroPad at hb
  rcases hf : Arr.forSensors (fun r => r.zeroPad df) a.sensors with ⟨ss, o⟩
  rw [hf] at hb
  simp only [Prod.mk.injEq] at hb
  obtain ⟨rfl, rfl⟩ := hb
  intro s' hs'
  obtain ⟨s, hs, e⟩ := forSensors_mem hf s' hs'
  rw [e]
  exact clock_zeroPad (h s hs) df

theorem AllClock.detrended {ρ : ATS} {d : List ℚ → List ℚ} (hd : ∀ l, (d l).length = l.length) {a b : Arr}
    (h : AllClock ρ a)
    (hb : b.sensors = a.sensors.map fun s => { s with ts := { s.ts with amp := d s.ts.amp } }) : AllClock ρ b := by
  intro s hs
  rw [hb] at hs
  obtain ⟨s0, hs0, rfl⟩ := List.mem_map.1 hs
  rw [← h s0 hs0]
  simp [clock, hd]

theorem AllClock.mute {ρ : ATS} {a b : Arr} {w : ℕ → List ℚ} {l1 l2 : Option Arr.Line} (h : AllClock ρ a)
    (hb : a.mute w l1 l2 = (b, .ok ())) : AllClock ρ b := by
  rcases Arr.mute_cases w a l1 l2 with ⟨e, he⟩ | ⟨s0, rest, idx, hs0, -, he⟩
  · rw [he] at hb; simp at hb
  · rw [he] at hb
    simp only [Prod.mk.injEq] at hb
    have hn : ∀ s ∈ a.sensors, s.ts.amp.length = s0.ts.nsamples := by
      intro s hs
      have e1 := (clock_eq (h s hs)).1
      have e2 := (clock_eq (h s0 (by rw [hs0]; exact List.mem_cons_self))).1
      show _ = s0.ts.amp.length
      rw [e1, e2]
    have hf := Arr.muteLoop_frame w s0.ts.nsamples a.sensors idx hn
    intro s' hs'
    rw [← hb.1] at hs'
    obtain ⟨s, hs, -, -, -, ⟨m1, -, m3, m4⟩, m5⟩ := forall₂_mem_right hf hs'
    rw [← h s hs]
    simp [clock, m1, m3, m4, m5]

/-- The record `ρ` after the time trim and the padding of the settings. -/
def afterSteps (set : Settings) (ρ : ATS) : ATS :=
  if set.padApply then ((if set.trimApply then (ρ.trim set.trimBegin set.trimEnd).1 else ρ).zeroPad set.padDf).1
  else if set.trimApply then (ρ.trim set.trimBegin set.trimEnd).1 else ρ

theorem AllClock.preprocessed {env : Env} {set : Settings} {kw : Option Kwargs}
    {lines : Option Arr.Line × Option Arr.Line} {raw near level cut muted padded : Arr} {ρ : ATS}
    (hd : ∀ l, (env.detrend l).length = l.length) (hr : AllClock ρ raw)
    (h : Spec.Preprocessed env set kw lines raw near level cut muted padded) :
    AllClock (afterSteps set ρ) padded := by
  obtain ⟨p1, p2, p3, p4, p5, p6⟩ := h
  have hn : AllClock ρ near := fun s hs => hr s ((trimOffsetsFl_sublist p1).1.subset hs)
  have hl := hn.detrended hd p3
  have hc : AllClock (if set.trimApply then (ρ.trim set.trimBegin set.trimEnd).1 else ρ) cut := by
    split_ifs at p4 ⊢
    · exact hl.trim p4
    · rw [p4]; exact hl
  have hm : AllClock (if set.trimApply then (ρ.trim set.trimBegin set.trimEnd).1 else ρ) muted := by
    split_ifs at p5 with c
    · exact hc.mute p5
    · rw [p5]; exact hc
  unfold afterSteps
  by_cases c : set.padApply = true
  · rw [if_pos c] at p6 ⊢; exact hm.zeroPad p6
  · rw [if_neg c] at p6 ⊢; rw [p6]; exact hm

theorem AllClock.exampleArray {env : Env} {set : Settings} {f : String} {ex raw : Arr} {ρ : ATS}
    (hd : ∀ l, (env.detrend l).length = l.length) (hf : fromFiles env (.one f) = .ok raw) (hr : AllClock ρ raw)
    (h : Workflow.exampleArray env set f = .ok ex) : AllClock (afterSteps set ρ) ex := by
  unfold Workflow.exampleArray at h
  rw [hf] at h
  obtain ⟨raw', hraw, h⟩ := bind_ok h
  cases hraw
  have hl : AllClock ρ (Workflow.detrend env raw) := hr.detrended hd rfl
  unfold afterSteps
  simp only at h
  split_ifs at h with c1 c2 c2
  · obtain ⟨a, ha, h⟩ := bind_ok h
    rw [if_pos c2, if_pos c1]
    exact (hl.trim (call_ok ha)).zeroPad (call_ok h)
  · obtain ⟨a, ha, h⟩ := bind_ok h
    cases h
    rw [if_neg c2, if_pos c1]
    exact hl.trim (call_ok ha)
  · rw [if_pos c2, if_neg c1]
    exact hl.zeroPad (call_ok h)
  · cases h
    rw [if_neg c2, if_neg c1]
    exact hl

theorem stackTraces_multiple : ∀ {ss : List Sensor} {ts : List Trace} {ss' : List Sensor},
    (∀ s ∈ ss, s.ts.multiple = 1) → Arr.stackTraces ss ts = .ok ss' → ∀ s ∈ ss', s.ts.multiple = 1 := by
  intro ss
  induction ss with
  | nil =>
    intro ts ss' _ h
    simp only [Arr.stackTraces, Except.ok.injEq] at h
    subst h
    simp
  | cons s ss ih =>
    intro ts ss' hp h
    rcases ts with _ | ⟨t, ts⟩
    · simp only [Arr.stackTraces, Except.ok.injEq] at h
      subst h
      exact hp
    unfold Arr.stackTraces at h
    rcases hn : Sensor.fromTrace t {} with e | n
    · rw [hn] at h; simp at h
    rw [hn] at h
    rcases hs : s.stackAppend n with ⟨s1, e | ⟨⟨⟩⟩⟩
    · simp [hs] at h
    simp only [hs] at h
    rcases hr : Arr.stackTraces ss ts with e | ss1
    · rw [hr] at h; simp at h
    rw [hr, Except.ok.injEq] at h
    subst h
    have h1 := ih (fun s hs => hp s (List.mem_cons_of_mem _ hs)) hr
    intro x hx
    rcases List.mem_cons.1 hx with rfl | hx
    · have hs0 := hp s List.mem_cons_self
      obtain ⟨-, -, -, -, -, -, ha⟩ := (Sensor.stackAppend_ok_iff s n x).1 hs
      unfold ATS.stackAppend at ha
      split_ifs at ha
      · simp at ha
      · simp only [Prod.mk.injEq, and_true] at ha
        rw [← ha]
        exact hs0
    · exact h1 x hx

/-- Every sensor of an array read from files has the multiple 1. -/
theorem fromFiles_multiple {env : Env} {f : Fnames} {raw : Arr} (h : fromFiles env f = .ok raw) :
    ∀ s ∈ raw.sensors, s.ts.multiple = 1 := by
  have key : ∀ names, Arr.fromFiles env.fs names env.mapX env.mapY = .ok raw →
      ∀ s ∈ raw.sensors, s.ts.multiple = 1 := by
    intro names h
    rcases names with _ | ⟨f0, rest⟩
    · simp [Arr.fromFiles] at h
    obtain ⟨traces, sensors, t, format, obj, -, hf, -, -, -, hi, hst⟩ := Arr.fromFiles_ok h
    have hobj : ∀ s ∈ obj.sensors, s.ts.multiple = 1 := by
      intro s hs
      obtain ⟨tr, -, h1⟩ := forall₂_mem_right hf ((Arr.init_consistent hi).2.1.mem_iff.1 hs)
      exact (Sensor.fromTrace_pos rfl h1).2.2
    have hloop : ∀ (fs : List String) (ss ss' : List Sensor), (∀ s ∈ ss, s.ts.multiple = 1) →
        Arr.stackFiles env.fs format env.mapX env.mapY raw.source ss fs = .ok ss' →
        ∀ s ∈ ss', s.ts.multiple = 1 := by
      intro fs
      induction fs with
      | nil =>
        intro ss ss' hp h
        simp only [Arr.stackFiles, Except.ok.injEq] at h
        subst h; exact hp
      | cons f fs ih =>
        intro ss ss' hp h
        unfold Arr.stackFiles at h
        split at h
        · simp at h
        · simp at h
        · split at h
          · simp at h
          · split_ifs at h
            split at h
            · simp at h
            · rename_i ss1 h1
              exact ih ss1 ss' (stackTraces_multiple hp h1) h
    exact hloop rest _ _ hobj hst
  exact key _ (lift_ok h)

/-! ## The frequency axis and the shape of the registered transforms -/

/-- The frequencies selected for the record `ρ`. -/
def axisOf (ρ : ATS) (set : Settings) : Except PyErr (List ℚ) :=
  (WT.keepIds (WT.binFrequencies ρ.nsamples ρ.dfInternal) set.fmin set.fmax ρ.multiple).map fun ids =>
    ids.map fun k => (WT.binFrequencies ρ.nsamples ρ.dfInternal).getD k 0

theorem axisOf_clock {r s : ATS} (h : clock r = clock s) (set : Settings) : axisOf r set = axisOf s set := by
  obtain ⟨h1, h2, -, h4⟩ := clock_eq h
  simp [axisOf, ATS.nsamples, ATS.dfInternal, h1, h2, h4]

/-- A transform on the frequency axis of the record `ρ` with `nvel` trial velocities. -/
def OnAxis (ρ : ATS) (set : Settings) (t : Transform) : Prop :=
  axisOf ρ set = .ok t.frequencies ∧ HasShape t.power set.nvel.toNat t.frequencies.length

theorem createVector_length {a b : ℝ} {n : ℤ} {sp : String} {v : List ℝ}
    (h : WT.createVector a b n sp = .ok v) : v.length = n.toNat := by
  unfold WT.createVector at h
  split_ifs at h <;> cases h <;> simp

theorem ofArray_ok {a : Arr} {r : WT.Record} (h : WT.Record.ofArray a = .ok r) :
    ∃ s ss, a.sensors = s :: ss ∧ r.nsamples = s.ts.nsamples ∧ r.step = s.ts.dfInternal ∧
      r.multiple = s.ts.multiple := by
  unfold WT.Record.ofArray at h
  obtain ⟨⟨tm, offsets⟩, -, h⟩ := bind_ok h
  rcases hs : a.sensors with _ | ⟨s, ss⟩
  · rw [hs] at h; cases h
  · rw [hs] at h
    cases h
    exact ⟨s, ss, rfl, rfl, rfl, rfl⟩

theorem keepIds_axis {r : WT.Record} {s : ATS} {set : Settings} {ids : List ℕ} (h1 : r.nsamples = s.nsamples)
    (h2 : r.step = s.dfInternal) (h3 : r.multiple = s.multiple) (h : r.keepIds ⟨set.fmin, set.fmax⟩ = .ok ids) :
    axisOf s set = .ok (ids.map fun k => (WT.binFrequencies r.nsamples r.step).getD k 0) := by
  unfold WT.Record.keepIds at h
  simp only [h1, h2, h3] at h
  unfold axisOf
  rw [h, h1, h2]
  rfl

theorem phaseShift_onAxis {a : Arr} {set : Settings} {t : Transform} (h : Builtin.phaseShift a set = .ok t) :
    ∃ s ∈ a.sensors, OnAxis s.ts set t ∧ t.n = 1 := by
  unfold Builtin.phaseShift at h
  obtain ⟨vels, hv, h⟩ := bind_ok h
  obtain ⟨r, hr, h⟩ := bind_ok h
  obtain ⟨⟨frqs, powr⟩, hp, h⟩ := bind_ok h
  cases h
  obtain ⟨s, ss, hs, e1, e2, e3⟩ := ofArray_ok hr
  refine ⟨s, by rw [hs]; exact List.mem_cons_self, ?_, rfl⟩
  unfold WT.phaseShift at hp
  split at hp
  · cases hp
  · rename_i ids hids
    cases hp
    refine ⟨keepIds_axis e1 e2 e3 hids, ?_, ?_⟩
    · simp [createVector_length hv]
    · intro row hrow
      simp only [List.map_map, List.mem_map] at hrow
      obtain ⟨v, -, rfl⟩ := hrow
      simp

theorem fdbf_onAxis {hankel : ℝ → ℂ} {r : WT.Record} {s : ATS} {vels : List ℝ} {set : Settings}
    {d : WT.FdbfSpecific} {frqs : List ℚ} {powr : List (List ℂ)} (h1 : r.nsamples = s.nsamples)
    (h2 : r.step = s.dfInternal) (h3 : r.multiple = s.multiple) (hv : vels.length = set.nvel.toNat)
    (h : WT.fdbf hankel r vels ⟨set.fmin, set.fmax⟩ d = .ok (frqs, powr)) (v : List ℝ) :
    OnAxis s set ⟨1, frqs, v, powr⟩ := by
  unfold WT.fdbf at h
  split at h
  · cases h
  · rename_i ids hids
    cases h
    refine ⟨keepIds_axis h1 h2 h3 hids, ?_, ?_⟩
    · simp [hv]
    · intro row hrow
      simp only [List.mem_map] at hrow
      obtain ⟨v, -, rfl⟩ := hrow
      simp

theorem slantRows_length {tm : List (List ℚ)} {pos : List ℚ} {dt : ℚ} {n : ℕ} : ∀ {vs : List ℚ} {c : WT.Carry}
    {rows : List (List ℚ)}, WT.slantRows tm pos dt n c vs = .ok rows → rows.length = vs.length := by
  intro vs
  induction vs with
  | nil => intro c rows h; cases h; rfl
  | cons v vs ih =>
    intro c rows h
    unfold WT.slantRows at h
    obtain ⟨⟨c', row⟩, -, h⟩ := bind_ok h
    obtain ⟨rest, hr, h⟩ := bind_ok h
    cases h
    simp [ih hr]

theorem slantStackOfArray_length {a : Arr} {vs : List ℚ} {rows : List (List ℚ)}
    (h : WT.slantStackOfArray a vs = .ok rows) : rows.length = vs.length := by
  unfold WT.slantStackOfArray at h
  obtain ⟨⟨tm, offsets⟩, -, h⟩ := bind_ok h
  simp only at h
  split at h
  · cases h
  · unfold WT.slantStack at h
    split at h
    · cases h
    · cases h
    · simp only at h
      split_ifs at h
      exact slantRows_length h

theorem slantStack_onAxis {geom : ℚ → ℚ → ℕ → List ℚ} (hg : ∀ a b n, (geom a b n).length = n) {a : Arr}
    {set : Settings} {t : Transform} (h : Builtin.slantStack geom a set = .ok t) :
    ∃ s ∈ a.sensors, OnAxis s.ts set t ∧ t.n = 1 := by
  unfold Builtin.slantStack at h
  obtain ⟨vels, hv, h⟩ := bind_ok h
  obtain ⟨stack, hst, h⟩ := bind_ok h
  split at h
  · cases h
  · rename_i s ss hs
    obtain ⟨ids, hids, h⟩ := bind_ok h
    cases h
    refine ⟨s, by rw [hs]; exact List.mem_cons_self, ⟨?_, ?_, ?_⟩, rfl⟩
    · unfold axisOf; rw [hids]; rfl
    · simp only [List.length_map]
      rw [slantStackOfArray_length hst]
      unfold Builtin.velocitiesQ at hv
      split_ifs at hv <;> cases hv <;> simp [hg]
    · intro row hrow
      simp only [List.mem_map] at hrow
      obtain ⟨v, -, rfl⟩ := hrow
      simp

theorem empty_onAxis {a : Arr} {set : Settings} {t : Transform} (h : Workflow.empty a set = .ok t) :
    ∃ s ∈ a.sensors, OnAxis s.ts set t := by
  unfold Workflow.empty at h
  split at h
  · cases h
  · rename_i s ss hs
    obtain ⟨ids, hids, h⟩ := bind_ok h
    obtain ⟨vels, hv, h⟩ := bind_ok h
    cases h
    refine ⟨s, by rw [hs]; exact List.mem_cons_self, ?_, ?_, ?_⟩
    · unfold axisOf; rw [hids]; rfl
    · simp
    · intro row hrow
      rw [(List.mem_replicate.1 hrow).2]
      simp

theorem builtin_onAxis {hankel : ℝ → ℂ} {geom : ℚ → ℚ → ℕ → List ℚ} (hg : ∀ a b n, (geom a b n).length = n)
    {a : Arr} {set : Settings} {t : Transform} {tr : Arr → Settings → Except PyErr Transform}
    (hc : (Builtin.transforms hankel geom).createClass set.transform = .ok tr) (h : tr a set = .ok t) :
    ∃ s ∈ a.sensors, OnAxis s.ts set t ∧ (set.transform ≠ "empty" → t.n = 1) := by
  simp only [Registry.createClass, Builtin.transforms, List.lookup] at hc
  rcases h1 : (set.transform == "empty") with _ | _
  · have hne : set.transform ≠ "empty" := by simpa using h1
    rw [h1] at hc
    suffices hh : ∃ s ∈ a.sensors, OnAxis s.ts set t ∧ t.n = 1 by
      obtain ⟨s, hs, e1, e2⟩ := hh
      exact ⟨s, hs, e1, fun _ => e2⟩
    rcases h2 : (set.transform == "slantstack") with _ | _
    · rw [h2] at hc
      rcases h3 : (set.transform == "phaseshift") with _ | _
      · rw [h3] at hc
        rcases h4 : (set.transform == "fdbf") with _ | _
        · rw [h4] at hc
          rcases h5 : (set.transform == "fk") with _ | _
          · rw [h5] at hc; cases hc
          · rw [h5] at hc
            cases hc
            unfold Builtin.fk at h
            split at h
            · cases h
            · obtain ⟨vels, hv, h⟩ := bind_ok h
              obtain ⟨r, hr, h⟩ := bind_ok h
              obtain ⟨⟨frqs, powr⟩, hp, h⟩ := bind_ok h
              cases h
              obtain ⟨s, ss, hs, e1, e2, e3⟩ := ofArray_ok hr
              exact ⟨s, by rw [hs]; exact List.mem_cons_self,
                fdbf_onAxis e1 e2 e3 (createVector_length hv) hp _, rfl⟩
        · rw [h4] at hc
          cases hc
          unfold Builtin.fdbf at h
          obtain ⟨vels, hv, h⟩ := bind_ok h
          obtain ⟨r, hr, h⟩ := bind_ok h
          obtain ⟨⟨frqs, powr⟩, hp, h⟩ := bind_ok h
          cases h
          obtain ⟨s, ss, hs, e1, e2, e3⟩ := ofArray_ok hr
          exact ⟨s, by rw [hs]; exact List.mem_cons_self,
            fdbf_onAxis e1 e2 e3 (createVector_length hv) hp _, rfl⟩
      · rw [h3] at hc
        cases hc
        exact phaseShift_onAxis h
    · rw [h2] at hc
      cases hc
      exact slantStack_onAxis hg h
  · rw [h1] at hc
    cases hc
    obtain ⟨s, hs, e⟩ := empty_onAxis h
    exact ⟨s, hs, e, fun hne => absurd (by simpa using h1) hne⟩

/-! ## The workflow -/

/-- All channels of the file have `n` samples `dt` apart, the first one `delay` after the trigger. -/
def RecordedAs (env : Env) (n : ℕ) (dt delay : ℚ) (name : String) : Prop :=
  ∀ raw, fromFiles env (.one name) = .ok raw →
    ∀ s ∈ raw.sensors, s.ts.amp.length = n ∧ s.ts.dt = dt ∧ s.ts.delay = delay

theorem RecordedAs.allClock {env : Env} {n : ℕ} {dt delay : ℚ} {name : String} (h : RecordedAs env n dt delay name)
    {raw : Arr} (hr : fromFiles env (.one name) = .ok raw) :
    AllClock ⟨List.replicate n 0, dt, 1, delay, 1⟩ raw := by
  intro s hs
  obtain ⟨h1, h2, h3⟩ := h raw hr s hs
  simp [clock, h1, h2, h3, fromFiles_multiple hr s hs]

theorem foldlM_frequencies : ∀ (Ts : List Transform) (t t' : Transform), Ts.foldlM Workflow.stack t = .ok t' →
    t'.frequencies = t.frequencies := by
  intro Ts
  induction Ts with
  | nil => intro t t' h; cases h; rfl
  | cons T Ts ih =>
    intro t t' h
    rw [List.foldlM_cons] at h
    obtain ⟨t1, h1, h⟩ := bind_ok h
    rw [ih t1 t' h]
    unfold Workflow.stack at h1
    obtain ⟨p, -, h1⟩ := bind_ok h1
    cases h1
    rfl

theorem freq_axis {env : Env} {set : Settings} {f0 : String} {rest : List String} {r : Result}
    (hd : ∀ l, (env.detrend l).length = l.length) (n : ℕ) (dt delay : ℚ)
    (h0 : RecordedAs env n dt delay f0)
    (h : frequencyDomain env set (.many (f0 :: rest)) = .ok r) :
    axisOf (afterSteps set ⟨List.replicate n 0, dt, 1, delay, 1⟩) set = .ok r.transform.frequencies := by
  obtain ⟨ex, t0, -, -, T0, Ts, -, -, h1, h2, -, h4, -, -, h7, -⟩ := freqFiles_ok h
  obtain ⟨raw, hraw, -⟩ := exampleArray_ok h1
  obtain ⟨s, hs, hax, -⟩ := empty_onAxis h2
  have hcl := (h0.allClock hraw).exampleArray hd hraw h1 s hs
  rw [foldlM_frequencies _ _ _ h7, ← axisOf_clock hcl]
  exact hax

theorem perFile_axis {env : Env} {hankel : ℝ → ℂ} {geom : ℚ → ℚ → ℕ → List ℚ}
    (hg : ∀ a b n, (geom a b n).length = n) (hb : env.transforms = Builtin.transforms hankel geom)
    {set : Settings} (hd : ∀ l, (env.detrend l).length = l.length) (n : ℕ) (dt delay : ℚ) {name : String}
    (hn : RecordedAs env n dt delay name) {kw : Option Kwargs} {lines : Option Arr.Line × Option Arr.Line}
    {level muted : Arr} {t : Transform} (h : Spec.PerFile env set kw lines name level muted t) :
    OnAxis (afterSteps set ⟨List.replicate n 0, dt, 1, delay, 1⟩) set t ∧ (set.transform ≠ "empty" → t.n = 1) := by
  obtain ⟨raw, near, cut, padded, hraw, -, hpre, tr, ht1, ht2⟩ := h
  rw [hb] at ht1
  obtain ⟨s, hs, ⟨o1, o2⟩, o3⟩ := builtin_onAxis hg ht1 ht2
  have hcl := (hn.allClock hraw).preprocessed hd hpre s hs
  exact ⟨⟨by rw [← axisOf_clock hcl]; exact o1, o2⟩, o3⟩

/-- **C103** (partial).  In a run of the frequency-domain workflow with a registered transform over files recorded
with one number of samples, time step and delay, every file is transformed at the frequencies of the result, whatever
is trimmed, muted or padded.  Missing: files recorded differently, which the workflow does not refuse
(`C103_mixed_frequencies_fails`). -/
theorem C103_same_recording_partial (env : Env) (set : Settings) (hankel : ℝ → ℂ) (geom : ℚ → ℚ → ℕ → List ℚ)
    (hg : ∀ a b n, (geom a b n).length = n) (hb : env.transforms = Builtin.transforms hankel geom)
    (hd : ∀ l, (env.detrend l).length = l.length) (f0 : String) (rest : List String) (r : Result)
    (n : ℕ) (dt delay : ℚ) (hrec : ∀ name ∈ f0 :: rest, RecordedAs env n dt delay name)
    (h : frequencyDomain env set (.many (f0 :: rest)) = .ok r) :
    ∀ name ∈ f0 :: rest, ∀ kw lines level muted t, Spec.PerFile env set kw lines name level muted t →
      t.frequencies = r.transform.frequencies := by
  intro name hname kw lines level muted t ht
  have h1 := freq_axis hd n dt delay (hrec f0 List.mem_cons_self) h
  have h2 := (perFile_axis hg hb hd n dt delay (hrec name hname) ht).1.1
  rw [h1] at h2
  exact (Except.ok.inj h2).symm

/-- **C78** (mean, registered transforms).  The result of a frequency-domain run with a registered transform over
files recorded with one number of samples, time step and delay is, at every trial velocity and frequency, the mean of
the transforms of the single files. -/
theorem C78_registered_mean (env : Env) (set : Settings) (hankel : ℝ → ℂ) (geom : ℚ → ℚ → ℕ → List ℚ)
    (hg : ∀ a b n, (geom a b n).length = n) (hb : env.transforms = Builtin.transforms hankel geom)
    (hd : ∀ l, (env.detrend l).length = l.length) (f0 : String) (rest : List String) (r : Result)
    (n : ℕ) (dt delay : ℚ) (hrec : ∀ name ∈ f0 :: rest, RecordedAs env n dt delay name)
    (hne : set.transform ≠ "empty")
    (h : frequencyDomain env set (.many (f0 :: rest)) = .ok r) :
    ∃ T0 Ts level muted, Spec.PerFile env set none (r.final.signalStart, r.final.signalEnd) f0 level muted T0 ∧
      List.Forall₂ (fun f T => ∃ level muted,
        Spec.PerFile env set set.windowKwargs (r.final.signalStart, r.final.signalEnd) f level muted T) rest Ts ∧
      (∀ T ∈ T0 :: Ts, T.frequencies = r.transform.frequencies) ∧
      ∀ v c, v < set.nvel.toNat → c < r.transform.frequencies.length →
        cell r.transform.power v c =
          some (((T0 :: Ts).map fun T => (cell T.power v c).getD 0).sum / ((rest.length : ℂ) + 1)) := by
  have hax := C103_same_recording_partial env set hankel geom hg hb hd f0 rest r n dt delay hrec h
  obtain ⟨T0, Ts, level, muted, h1, h2, h3⟩ := C78_mean env set f0 rest r h (by
    intro name hname level muted kw lines t ht
    obtain ⟨⟨-, h2⟩, h3⟩ := perFile_axis hg hb hd n dt delay (hrec name hname) ht
    rw [hax name hname kw lines level muted t ht] at h2
    exact ⟨h2, h3 hne⟩)
  refine ⟨T0, Ts, level, muted, h1, h2, ?_, h3⟩
  intro T hT
  rcases List.mem_cons.1 hT with rfl | hT
  · exact hax _ List.mem_cons_self _ _ _ _ _ h1
  · obtain ⟨f, hf, l, m, hp⟩ := forall₂_mem_right h2 hT
    exact hax _ (List.mem_cons_of_mem _ hf) _ _ _ _ _ hp

end Verif.Props
