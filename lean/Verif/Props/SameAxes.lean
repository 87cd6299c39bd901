import Verif.Props.OneAxis
import Verif.Props.RunReturns
import Verif.Props.SlantMeanRun

/-! # C171: the axes of the image do not depend on the transform -/

namespace Verif.Props
open Verif WT Workflow

/-- Trial velocities `n` steps from `lo` to `hi`, equally spaced. -/
noncomputable def evenly (lo hi : ℝ) (n : ℤ) : List ℝ :=
  (List.range n.toNat).map fun (k : ℕ) => lo + k * ((hi - lo) / (n - 1))

/-- The frequencies of the first sensor, and the trial velocities. -/
structure FirstAxes (a : Arr) (set : Settings) (t : Transform) : Prop where
  axis : ∃ s ss, a.sensors = s :: ss ∧ OnAxis s.ts set t
  even : set.vspace = "linear" ∨ set.vspace = "lin" → t.velocities = evenly set.vmin set.vmax set.nvel
  real : set.transform ≠ "slantstack" → WT.createVector set.vmin set.vmax set.nvel set.vspace = .ok t.velocities

theorem createVector_even {set : Settings} {v : List ℝ}
    (h : WT.createVector set.vmin set.vmax set.nvel set.vspace = .ok v) (hs : set.vspace = "linear" ∨ set.vspace = "lin") :
    v = evenly set.vmin set.vmax set.nvel := by
  unfold WT.createVector at h
  rw [if_pos hs] at h
  split_ifs at h
  exact (Except.ok.inj h).symm

theorem registered_axes {hankel : ℝ → ℂ} {geom : ℚ → ℚ → ℕ → List ℚ} (hg : ∀ a b n, (geom a b n).length = n)
    {a : Arr} {set : Settings} {t : Transform} {tr : Arr → Settings → Except PyErr Transform}
    (hc : (Builtin.transforms hankel geom).createClass set.transform = .ok tr) (h : tr a set = .ok t) :
    FirstAxes a set t := by
  simp only [Registry.createClass, Builtin.transforms, List.lookup] at hc
  rcases h1 : (set.transform == "empty") with _ | _
  · rw [h1] at hc
    rcases h2 : (set.transform == "slantstack") with _ | _
    · rw [h2] at hc
      rcases h3 : (set.transform == "phaseshift") with _ | _
      · rw [h3] at hc
        rcases h4 : (set.transform == "fdbf") with _ | _
        · rw [h4] at hc
          rcases h5 : (set.transform == "fk") with _ | _
          · rw [h5] at hc; cases hc
          · rw [h5] at hc
            cases hc
            unfold Builtin.fk at h
            split at h
            · cases h
            · obtain ⟨vels, hv, h⟩ := bind_ok h
              obtain ⟨r, hr, h⟩ := bind_ok h
              obtain ⟨⟨frqs, powr⟩, hp, h⟩ := bind_ok h
              cases h
              obtain ⟨s, ss, hs, e1, e2, e3⟩ := ofArray_ok hr
              exact ⟨⟨s, ss, hs, fdbf_onAxis e1 e2 e3 (createVector_length hv) hp _⟩,
                fun hl => createVector_even hv hl, fun _ => hv⟩
        · rw [h4] at hc
          cases hc
          unfold Builtin.fdbf at h
          obtain ⟨vels, hv, h⟩ := bind_ok h
          obtain ⟨r, hr, h⟩ := bind_ok h
          obtain ⟨⟨frqs, powr⟩, hp, h⟩ := bind_ok h
          cases h
          obtain ⟨s, ss, hs, e1, e2, e3⟩ := ofArray_ok hr
          exact ⟨⟨s, ss, hs, fdbf_onAxis e1 e2 e3 (createVector_length hv) hp _⟩,
            fun hl => createVector_even hv hl, fun _ => hv⟩
      · rw [h3] at hc
        cases hc
        unfold Builtin.phaseShift at h
        obtain ⟨vels, hv, h⟩ := bind_ok h
        obtain ⟨r, hr, h⟩ := bind_ok h
        obtain ⟨⟨frqs, powr⟩, hp, h⟩ := bind_ok h
        cases h
        obtain ⟨s, ss, hs, e1, e2, e3⟩ := ofArray_ok hr
        refine ⟨⟨s, ss, hs, ?_⟩, fun hl => createVector_even hv hl, fun _ => hv⟩
        unfold WT.phaseShift at hp
        split at hp
        · cases hp
        · rename_i ids hids
          cases hp
          refine ⟨keepIds_axis e1 e2 e3 hids, ?_, ?_⟩
          · simp [createVector_length hv]
          · intro row hrow
            simp only [List.map_map, List.mem_map] at hrow
            obtain ⟨v, -, rfl⟩ := hrow
            simp
    · rw [h2] at hc
      cases hc
      unfold Builtin.slantStack at h
      obtain ⟨vels, hv, h⟩ := bind_ok h
      obtain ⟨stack, hst, h⟩ := bind_ok h
      split at h
      · cases h
      · rename_i s ss hs
        obtain ⟨ids, hids, h⟩ := bind_ok h
        cases h
        refine ⟨⟨s, ss, hs, ?_, ?_, ?_⟩, ?_, fun hne => absurd (by simpa using h2) hne⟩
        · unfold axisOf; rw [hids]; rfl
        · simp only [List.length_map]
          rw [slantStackOfArray_length hst]
          unfold Builtin.velocitiesQ at hv
          split_ifs at hv <;> cases hv <;> simp [hg]
        · intro row hrow
          simp only [List.mem_map] at hrow
          obtain ⟨v, -, rfl⟩ := hrow
          simp
        · intro hl
          unfold Builtin.velocitiesQ at hv
          rw [if_pos hl] at hv
          split_ifs at hv
          cases hv
          simp only [evenly, List.map_map]
          apply List.map_congr_left
          intro k _
          simp only [Function.comp]
          push_cast
          ring
  · rw [h1] at hc
    cases hc
    unfold Workflow.empty at h
    split at h
    · cases h
    · rename_i s ss hs
      obtain ⟨ids, hids, h⟩ := bind_ok h
      obtain ⟨vels, hv, h⟩ := bind_ok h
      cases h
      refine ⟨⟨s, ss, hs, ?_, ?_, ?_⟩, fun hl => createVector_even hv hl, fun _ => hv⟩
      · unfold axisOf; rw [hids]; rfl
      · simp
      · intro row hrow
        rw [(List.mem_replicate.1 hrow).2]
        simp

/-- The settings which state the frequency range and the trial velocities. -/
def SameGrid (p q : Settings) : Prop :=
  p.fmin = q.fmin ∧ p.fmax = q.fmax ∧ p.vmin = q.vmin ∧ p.vmax = q.vmax ∧ p.nvel = q.nvel ∧ p.vspace = q.vspace

/-- **C171**.  Two registered transforms of one array with the same frequency range and trial velocities give images on
the same frequencies, with `nvel` rows and one column per frequency.  The trial velocities are the same as well: for
linear spacing they are the equally spaced ones; for other spacings this is stated for all transforms but the slant
stack. -/
theorem C171_axes (hankel : ℝ → ℂ) (geom : ℚ → ℚ → ℕ → List ℚ) (hg : ∀ a b n, (geom a b n).length = n) (a : Arr)
    (p q : Settings) (hpq : SameGrid p q) (tr tr' : Arr → Settings → Except PyErr Transform)
    (hc : (Builtin.transforms hankel geom).createClass p.transform = .ok tr)
    (hc' : (Builtin.transforms hankel geom).createClass q.transform = .ok tr') (t t' : Transform)
    (h : tr a p = .ok t) (h' : tr' a q = .ok t') :
    t.frequencies = t'.frequencies ∧
    HasShape t.power p.nvel.toNat t.frequencies.length ∧ HasShape t'.power p.nvel.toNat t.frequencies.length ∧
    (p.vspace = "linear" ∨ p.vspace = "lin" →
      t.velocities = evenly p.vmin p.vmax p.nvel ∧ t'.velocities = evenly p.vmin p.vmax p.nvel) ∧
    (p.transform ≠ "slantstack" → q.transform ≠ "slantstack" → t.velocities = t'.velocities) := by
  obtain ⟨⟨s, ss, hs, o1, o2⟩, v1, v2⟩ := registered_axes hg hc h
  obtain ⟨⟨s', ss', hs', o1', o2'⟩, v1', v2'⟩ := registered_axes hg hc' h'
  obtain ⟨g1, g2, g3, g4, g5, g6⟩ := hpq
  rw [hs] at hs'
  obtain ⟨rfl, rfl⟩ := List.cons.inj hs'
  have hax : axisOf s.ts p = axisOf s.ts q := by unfold axisOf; rw [g1, g2]
  have hf : t.frequencies = t'.frequencies := by
    rw [hax, o1'] at o1
    exact (Except.ok.inj o1).symm
  refine ⟨hf, o2, by rw [hf, g5]; exact o2', fun hl => ⟨v1 hl, ?_⟩, fun hn hn' => ?_⟩
  · rw [v1' (by rw [← g6]; exact hl), g3, g4, g5]
  · have e1 := v2 hn
    have e2 := v2' hn'
    rw [g3, g4, g5, g6, e2] at e1
    exact (Except.ok.inj e1).symm

/-- **C171** (workflow).  Two time-domain runs over the same files which differ in the transform, its specific settings
and nothing else give images of the same pre-processed array on the same frequencies and (linear spacing) the same trial
velocities, with the same signal-to-noise ratio. -/
theorem C171_workflow (env : Env) (hankel : ℝ → ℂ) (geom : ℚ → ℚ → ℕ → List ℚ) (hg : ∀ a b n, (geom a b n).length = n)
    (hb : env.transforms = Builtin.transforms hankel geom) (set : Settings) (name : String) (d : Option Kwargs)
    (f : Fnames) (r r' : Result) (h : timeDomain env set f = .ok r)
    (h' : timeDomain env { set with transform := name, fdbf := d } f = .ok r') :
    r.array = r'.array ∧ r.snr = r'.snr ∧ r.transform.frequencies = r'.transform.frequencies ∧
    HasShape r.transform.power set.nvel.toNat r.transform.frequencies.length ∧
    HasShape r'.transform.power set.nvel.toNat r.transform.frequencies.length ∧
    (set.vspace = "linear" ∨ set.vspace = "lin" → r.transform.velocities = r'.transform.velocities) := by
  unfold timeDomain at h h'
  obtain ⟨raw, hraw, h⟩ := bind_ok h
  obtain ⟨⟨⟩, hcheck, h⟩ := bind_ok h
  obtain ⟨s1, h1, h⟩ := bind_ok h
  obtain ⟨s2, h2, h⟩ := bind_ok h
  obtain ⟨s3, h3, h⟩ := bind_ok h
  obtain ⟨s4, h4, h⟩ := bind_ok h
  obtain ⟨s5, h5, h⟩ := bind_ok h
  obtain ⟨⟨s6, q⟩, h6, h⟩ := bind_ok h
  simp only at h
  obtain ⟨s7, h7, h⟩ := bind_ok h
  obtain ⟨t, h8, h⟩ := bind_ok h
  cases h
  obtain ⟨raw', hraw', h'⟩ := bind_ok h'
  obtain rfl := Except.ok.inj (hraw.symm.trans hraw')
  obtain ⟨⟨⟩, hcheck', h'⟩ := bind_ok h'
  obtain ⟨s1', h1', h'⟩ := bind_ok h'
  obtain rfl := Except.ok.inj (h1.symm.trans h1')
  obtain ⟨s2', h2', h'⟩ := bind_ok h'
  obtain rfl := Except.ok.inj (h2.symm.trans h2')
  obtain ⟨s3', h3', h'⟩ := bind_ok h'
  obtain rfl := Except.ok.inj (h3.symm.trans h3')
  obtain ⟨s4', h4', h'⟩ := bind_ok h'
  obtain rfl := Except.ok.inj (h4.symm.trans h4')
  obtain ⟨s5', h5', h'⟩ := bind_ok h'
  obtain rfl := Except.ok.inj (h5.symm.trans h5')
  obtain ⟨⟨s6', q'⟩, h6', h'⟩ := bind_ok h'
  obtain ⟨rfl, rfl⟩ := Prod.mk.inj (Except.ok.inj (h6.symm.trans h6'))
  simp only at h'
  obtain ⟨s7', h7', h'⟩ := bind_ok h'
  obtain rfl := Except.ok.inj (h7.symm.trans h7')
  obtain ⟨t', h8', h'⟩ := bind_ok h'
  cases h'
  obtain ⟨tr, k1, k2⟩ := transform_ok h8
  obtain ⟨tr', k1', k2'⟩ := transform_ok h8'
  rw [hb] at k1 k1'
  obtain ⟨c1, c2, c3, c4, -⟩ := C171_axes hankel geom hg s7.array set { set with transform := name, fdbf := d }
    ⟨rfl, rfl, rfl, rfl, rfl, rfl⟩ tr tr' k1 k1' t t' k2 k2'
  exact ⟨rfl, rfl, c1, c2, c3, fun hl => by rw [(c4 hl).1, (c4 hl).2]⟩

/-- The hypotheses are met by the slant stack and the phase-shift transform of the file "first". -/
example : ∃ r r', timeDomain slantShots slantSet (.one "first") = .ok r ∧
    timeDomain slantShots { slantSet with transform := "phaseshift", fdbf := none } (.one "first") = .ok r' ∧
    r'.transform.frequencies = [0, 250, 500] ∧ r'.transform.velocities = [2000, 4000] := by
  obtain ⟨r, h1, h2, -⟩ := slant_time _ _ _ _ _ _ _ [[2, 2], [3 / 2, 5 / 2]] slant_first (by decide +kernel)
    (by decide +kernel)
  obtain ⟨T, hT⟩ : ∃ T, Builtin.phaseShift (slantRecord 1 [1, 2, 3, 4] [0, 1, 0, 2])
      { slantSet with transform := "phaseshift", fdbf := none } = .ok T := by
    obtain ⟨v, hv⟩ : ∃ v, Builtin.velocities { slantSet with transform := "phaseshift", fdbf := none } = .ok v := by
      simp [Builtin.velocities, WT.createVector, slantSet, exSet]
    have hf : (slantRecord 1 [1, 2, 3, 4] [0, 1, 0, 2]).flippedTseriesAndOffsets =
        .ok ([[1, 2, 3, 4], [0, 1, 0, 2]], [5, 7]) := by decide +kernel
    have hdf : (⟨[1, 2, 3, 4], 1 / 1000, 1, 0, 1⟩ : ATS).dfInternal = 250 := by decide +kernel
    have hr : WT.Record.ofArray (slantRecord 1 [1, 2, 3, 4] [0, 1, 0, 2]) =
        .ok ⟨[[1, 2, 3, 4], [0, 1, 0, 2]], [5, 7], 4, 250, 1⟩ := by
      unfold WT.Record.ofArray
      rw [hf]
      simp only [bind, Except.bind, slantRecord, hdf]
      rfl
    have hk : (⟨[[1, 2, 3, 4], [0, 1, 0, 2]], [5, 7], 4, 250, 1⟩ : WT.Record).keepIds ⟨100, 600⟩ = .ok [0, 1, 2] := by
      decide +kernel
    unfold Builtin.phaseShift
    rw [hv, hr]
    have hset : slantSet.fmin = 100 ∧ slantSet.fmax = 600 := ⟨rfl, rfl⟩
    simp only [bind, Except.bind, WT.phaseShift, hset.1, hset.2, hk]
    exact ⟨_, rfl⟩
  obtain ⟨r', hr', -⟩ := C76_run_returns slantShots { slantSet with transform := "phaseshift", fdbf := none } (.one "first") _
    (slantRecord 1 [1, 2, 3, 4] [0, 1, 0, 2]) _ _ _ _ (none, none) T slant_first (by simp [slantRecord]) (slantRecord_outside _ _ _)
    ⟨by decide +kernel, rfl, rfl, rfl, rfl, rfl⟩ (fun h => by cases h) ⟨_, rfl, hT⟩ none (fun _ => rfl)
    (fun h => by cases h)
  obtain ⟨-, -, c1, -⟩ := C171_workflow slantShots (fun _ => 1) (fun a _ n => List.replicate n a) (by simp) rfl slantSet
    "phaseshift" none (.one "first") r r' h1 hr'
  refine ⟨r, r', h1, hr', by rw [← c1, h2], ?_⟩
  obtain ⟨raw, near, level, cut, muted, -, -, -, ⟨tr, k1, k2⟩, -⟩ := C76_steps _ _ _ _ hr'
  rw [(registered_axes (hankel := fun _ => 1) (geom := fun a _ n => List.replicate n a) (by simp) k1 k2).even (.inl rfl)]
  norm_num [evenly, slantSet, exSet, List.range_succ, show Int.toNat 2 = 2 from rfl]

end Verif.Props
