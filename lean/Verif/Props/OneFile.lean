import Verif.Props.SameAxes
import Verif.Props.FreqReturns

/-!
# C182: with one file all workflows give the same
-/

namespace Verif.Props
open Verif Workflow

namespace OneFile

/-- The steps the workflows have in common. -/
def prepared (env : Env) (set : Settings) (raw : Arr) : Except Stop State := do
  let s ← trimOffsets set (State.new raw)
  let s := { s with array := detrend env s.array }
  let s ← selectNoise set s
  let s ← trimTime set s
  let s ← mute env set s
  selectSignal set s

theorem swap {set : Settings} {s s2 : State} {q : Option (List ℚ × List ℝ)} :
    (∃ s1, calculateSnr set s = .ok (s1, q) ∧ pad set s1 = .ok s2) ↔
      ∃ p, pad set s = .ok p ∧ calculateSnr set p = .ok (s2, q) := by
  obtain ⟨a, l1, l2, n, g⟩ := s
  by_cases c : set.padApply = true
  · unfold pad
    simp only [c, if_true, bind, Except.bind]
    rcases hz : a.zeroPad set.padDf with ⟨b, e | ⟨⟨⟩⟩⟩
    · constructor
      · rintro ⟨s1, h1, h2⟩
        obtain ⟨e1, -, -⟩ := calculateSnr_ok h1
        rw [e1] at h2
        simp only [hz, call] at h2
        cases h2
      · rintro ⟨p, h1, -⟩
        simp only [call] at h1
        cases h1
    · constructor
      · rintro ⟨s1, h1, h2⟩
        have e1 := (calculateSnr_ok h1).1
        rw [e1] at h2
        simp only [hz, call, pure, Except.pure, Except.ok.injEq] at h2
        refine ⟨_, rfl, ?_⟩
        unfold calculateSnr at h1 ⊢
        split_ifs at h1 ⊢ with cs
        · rcases g with _ | g
          · cases h1
          rcases n with _ | n
          · cases h1
          simp only at h1 ⊢
          rcases hw : WT.snr g n set.fmin set.fmax set.snrPad set.snrDf with ⟨⟨x, y⟩, e | r⟩
          · rw [hw] at h1; cases h1
          · rw [hw] at h1
            cases h1
            subst h2
            rfl
        · cases h1
          subst h2
          rfl
      · rintro ⟨p, h1, h2⟩
        simp only [call, pure, Except.pure, Except.ok.injEq] at h1
        subst h1
        unfold calculateSnr at h2 ⊢
        split_ifs at h2 ⊢ with cs
        · rcases g with _ | g
          · cases h2
          rcases n with _ | n
          · cases h2
          simp only at h2 ⊢
          rcases hw : WT.snr g n set.fmin set.fmax set.snrPad set.snrDf with ⟨⟨x, y⟩, e | r⟩
          · rw [hw] at h2; cases h2
          · rw [hw] at h2
            cases h2
            refine ⟨_, rfl, ?_⟩
            simp only [hz, call, pure, Except.pure]
        · cases h2
          refine ⟨_, rfl, ?_⟩
          simp only [hz, call, pure, Except.pure]
  · unfold pad
    simp [c, pure, Except.pure]

theorem snr_array {set : Settings} {p s : State} {q : Option (List ℚ × List ℝ)} (h : calculateSnr set p = .ok (s, q)) :
    s.array = p.array := by
  have := (calculateSnr_ok h).1
  rw [this]

theorem timeDomain_iff {env : Env} {set : Settings} {f : Fnames} {r : Result} :
    timeDomain env set f = .ok r ↔ ∃ raw s p s' q t, fromFiles env f = .ok raw ∧ check raw = .ok () ∧
      prepared env set raw = .ok s ∧ pad set s = .ok p ∧ calculateSnr set p = .ok (s', q) ∧
      transform env set p.array = .ok t ∧ r = ⟨t, s'.array, q, s'⟩ := by
  constructor
  · intro h
    unfold timeDomain at h
    obtain ⟨raw, h1, h⟩ := bind_ok h
    obtain ⟨u, h2, h⟩ := bind_ok h
    obtain ⟨s1, h3, h⟩ := bind_ok h
    obtain ⟨s2, h4, h⟩ := bind_ok h
    obtain ⟨s3, h5, h⟩ := bind_ok h
    obtain ⟨s4, h6, h⟩ := bind_ok h
    obtain ⟨s5, h7, h⟩ := bind_ok h
    obtain ⟨⟨s6, q⟩, h8, h⟩ := bind_ok h
    obtain ⟨s7, h9, h⟩ := bind_ok h
    obtain ⟨t, h10, h⟩ := bind_ok h
    cases h
    obtain ⟨p, k1, k2⟩ := swap.1 ⟨s6, h8, h9⟩
    refine ⟨raw, s5, p, s7, q, t, h1, h2, ?_, k1, k2, ?_, rfl⟩
    · simp only [prepared, h3, bind, Except.bind, h4, h5, h6, h7]
    · rw [← snr_array k2]; exact h10
  · rintro ⟨raw, s, p, s', q, t, h1, h2, h3, h4, h5, h6, rfl⟩
    obtain ⟨s6, k1, k2⟩ := swap.2 ⟨p, h4, h5⟩
    unfold prepared at h3
    obtain ⟨s1, g1, h3⟩ := bind_ok h3
    obtain ⟨s2, g2, h3⟩ := bind_ok h3
    obtain ⟨s3, g3, h3⟩ := bind_ok h3
    obtain ⟨s4, g4, h3⟩ := bind_ok h3
    unfold timeDomain
    rw [← snr_array h5] at h6
    simp only [h1, h2, g1, g2, g3, g4, h3, k1, k2, h6, bind, Except.bind, pure, Except.pure]

theorem freqFile_iff {env : Env} {set : Settings} {ex : Arr} {f : String} {p : State} {t : Transform} :
    freqFile env set ex none f = .ok (p, t) ↔ ∃ raw s, fromFiles env (.one f) = .ok raw ∧ raw.isSimilar ex = true ∧
      check raw = .ok () ∧ prepared env set raw = .ok s ∧ pad set s = .ok p ∧ transform env set p.array = .ok t := by
  constructor
  · intro h
    unfold freqFile at h
    obtain ⟨raw, h1, h⟩ := bind_ok h
    by_cases hs : raw.isSimilar ex = true
    · simp only [hs, Bool.not_true, Bool.false_eq_true, if_false] at h
      obtain ⟨u, h2, h⟩ := bind_ok h
      obtain ⟨s1, h3, h⟩ := bind_ok h
      obtain ⟨s2, h4, h⟩ := bind_ok h
      obtain ⟨s3, h5, h⟩ := bind_ok h
      obtain ⟨s4, h6, h⟩ := bind_ok h
      obtain ⟨s5, h7, h⟩ := bind_ok h
      obtain ⟨s6, h8, h⟩ := bind_ok h
      obtain ⟨t', h9, h⟩ := bind_ok h
      cases h
      refine ⟨raw, s5, h1, hs, h2, ?_, h8, h9⟩
      simp only [prepared, h3, bind, Except.bind, h4, h5, h6, h7]
    · rw [Bool.not_eq_true] at hs
      simp only [hs, Bool.not_false, if_true, bind, Except.bind, throw, throwThe, MonadExceptOf.throw] at h
      cases h
  · rintro ⟨raw, s, h1, h2, h3, h4, h5, h6⟩
    unfold prepared at h4
    obtain ⟨s1, g1, h4⟩ := bind_ok h4
    obtain ⟨s2, g2, h4⟩ := bind_ok h4
    obtain ⟨s3, g3, h4⟩ := bind_ok h4
    obtain ⟨s4, g4, h4⟩ := bind_ok h4
    unfold freqFile
    simp only [h1, h2, h3, g1, g2, g3, g4, h4, h5, h6, bind, Except.bind, pure, Except.pure, Bool.not_true,
      Bool.false_eq_true, if_false]

theorem frequencyDomain_iff {env : Env} {set : Settings} {f : String} {r : Result} :
    frequencyDomain env set (.many [f]) = .ok r ↔ ∃ ex t0 cls p t T s' q, exampleArray env set f = .ok ex ∧
      Workflow.empty ex set = .ok t0 ∧ env.transforms.createClass set.transform = .ok cls ∧
      freqFile env set ex none f = .ok (p, t) ∧ stack t0 t = .ok T ∧ calculateSnr set p = .ok (s', q) ∧
      r = ⟨T, s'.array, q, s'⟩ := by
  constructor
  · intro h
    simp only [frequencyDomain, freqFiles] at h
    obtain ⟨ex, h1, h⟩ := bind_ok h
    obtain ⟨t0, h2, h⟩ := bind_ok h
    obtain ⟨cls, h3, h⟩ := bind_ok h
    obtain ⟨⟨st, T⟩, h4, h⟩ := bind_ok h
    simp only [freqLoop] at h4
    obtain ⟨⟨p, t⟩, h5, h4⟩ := bind_ok h4
    obtain ⟨T', h6, h4⟩ := bind_ok h4
    cases h4
    obtain ⟨⟨s', q⟩, h7, h⟩ := bind_ok h
    cases h
    exact ⟨ex, t0, cls, p, t, T, s', q, h1, lift_ok h2, lift_ok h3, h5, lift_ok h6, h7, rfl⟩
  · rintro ⟨ex, t0, cls, p, t, T, s', q, h1, h2, h3, h4, h5, h6, rfl⟩
    simp only [frequencyDomain, freqFiles, h1, h2, h3, freqLoop, h4, h5, h6, bind, Except.bind, lift, pure, Except.pure]

/-- Stacking one transform onto an empty one gives its power. -/
theorem stack_one {t0 t : Transform} {nvel nfrq : ℕ} (h0 : t0.n = 0) (h1 : t.n = 1) (hs0 : HasShape t0.power nvel nfrq)
    (hs : HasShape t.power nvel nfrq) : stack t0 t = .ok { t0 with n := 1, power := t.power } := by
  unfold stack
  rw [stackRows_eq _ _ _ _ nfrq hs0.2 hs.2]
  have hp : (WT.stack (⟨t0.n, t0.power⟩ : WT.Stackable ℂ) ⟨t.n, t.power⟩).power = t.power := by
    have hsh := stack_shape (s := ⟨t0.n, t0.power⟩) (o := ⟨t.n, t.power⟩) hs0 hs
    apply List.ext_getElem (by rw [hsh.1, hs.1])
    intro i hi hi'
    have hr := hsh.2 _ (List.getElem_mem hi)
    have hr' := hs.2 _ (List.getElem_mem hi')
    apply List.ext_getElem (by rw [hr, hr'])
    intro j hj hj'
    obtain ⟨x, hx⟩ := hs0.cell (r := i) (c := j) (by rw [← hs.1]; exact hi') (by rw [← hr']; exact hj')
    have hy : cell t.power i j = some t.power[i][j] := by
      simp [cell, List.getElem?_eq_getElem hi', List.getElem?_eq_getElem hj']
    have hc := stack_cell (s := ⟨t0.n, t0.power⟩) (o := ⟨t.n, t.power⟩) hx hy
    have hz : cell (WT.stack (⟨t0.n, t0.power⟩ : WT.Stackable ℂ) ⟨t.n, t.power⟩).power i j =
        some (WT.stack (⟨t0.n, t0.power⟩ : WT.Stackable ℂ) ⟨t.n, t.power⟩).power[i][j] := by
      simp only [cell, List.getElem?_eq_getElem hi, Option.bind_some, List.getElem?_eq_getElem hj]
    rw [hz, Option.some.injEq] at hc
    rw [hc, h0, h1]
    simp
  rw [hp]
  simp [bind, Except.bind, pure, Except.pure, h0, h1]

theorem clock_trim_ok {r s : ATS} (h : clock r = clock s) (t0 t1 : ℚ) : (r.trim t0 t1).2 = (s.trim t0 t1).2 := by
  unfold ATS.trim ATS.trimBase
  rw [clock_time h]
  rcases argmin (s.time.map fun t => |t - t0|) with _ | i
  · rfl
  rcases argmin (s.time.map fun t => |t - t1|) with _ | j
  · rfl
  rcases s.time.head? with _ | a
  · rfl
  rcases s.time.getLast? with _ | b
  · rfl
  simp only
  by_cases hc : (decide (t0 < a) || decide (t0 > t1) || decide (t1 > b)) = true
  · simp only [hc, if_true]
  · simp only [hc]
    simp

theorem clock_zeroPad_ok {r s : ATS} (h : clock r = clock s) (df : ℚ) : (r.zeroPad df).2 = (s.zeroPad df).2 := by
  obtain ⟨h1, h2, h3, h4⟩ := clock_eq h
  unfold ATS.zeroPad
  simp only [ATS.nsamples, h1, h2]
  by_cases c1 : df ≤ 0
  · simp only [c1, if_true, if_false]
  by_cases c2 : ATS.targetSamples df s.dt > s.amp.length
  · simp only [c1, c2, if_true, if_false]
  by_cases c3 : ATS.targetSamples df s.dt < s.amp.length
  · by_cases c4 : ATS.targetSamples df s.dt = 0
    · simp only [if_neg c1, if_neg c2, if_pos c3, if_pos c4]
    by_cases c5 : (s.amp.length : ℤ) % ATS.targetSamples df s.dt = 0
    · simp only [c1, c2, c3, c4, c5, if_true, if_false]
    · simp only [c1, c2, c3, c4, c5, if_true, if_false]
  · simp only [c1, c2, c3, if_true, if_false]

theorem forSensors_all {f : ATS → Outcome ATS} : ∀ {l : List Sensor}, (∃ l', Arr.forSensors f l = (l', .ok ())) ↔
    ∀ s ∈ l, (f s.ts).2 = .ok ()
  | [] => by simp [Arr.forSensors]
  | s :: l => by
    have ih := @forSensors_all f l
    unfold Arr.forSensors
    rcases hf : f s.ts with ⟨r, e | ⟨⟨⟩⟩⟩
    · simp [hf]
    · rcases hr : Arr.forSensors f l with ⟨l', o⟩
      simp only [hr, Prod.mk.injEq, exists_and_right] at ih
      simp only [Prod.mk.injEq, exists_and_right, List.mem_cons, forall_eq_or_imp, hf, true_and]
      simpa using ih

/-- The record of reference can be made if one receiver can be treated. -/
theorem example_returns {env : Env} {set : Settings} {raw : Arr} {f : String} {ρ : ATS}
    (hd : ∀ l, (env.detrend l).length = l.length) (hraw : fromFiles env (.one f) = .ok raw) (hr : AllClock ρ raw)
    (h1 : set.trimApply = true → (ρ.trim set.trimBegin set.trimEnd).2 = .ok ())
    (h2 : set.padApply = true →
      ((if set.trimApply then (ρ.trim set.trimBegin set.trimEnd).1 else ρ).zeroPad set.padDf).2 = .ok ()) :
    ∃ ex, exampleArray env set f = .ok ex := by
  have hl : AllClock ρ (detrend env raw) := hr.detrended hd rfl
  have k1 : ∃ cut, (if set.trimApply then call ((detrend env raw).trim set.trimBegin set.trimEnd)
      else (pure (detrend env raw) : Except Stop Arr)) = .ok cut ∧
      AllClock (if set.trimApply then (ρ.trim set.trimBegin set.trimEnd).1 else ρ) cut := by
    by_cases c : set.trimApply = true
    · obtain ⟨l', hl'⟩ := (forSensors_all (f := fun r => r.trim set.trimBegin set.trimEnd)).2
        (fun s hs => (clock_trim_ok (hl s hs) _ _).trans (h1 c))
      have he : (detrend env raw).trim set.trimBegin set.trimEnd = ({ detrend env raw with sensors := l' }, .ok ()) := by
        unfold Arr.trim; rw [hl']
      rw [if_pos c, if_pos c, he]
      exact ⟨_, rfl, hl.trim he⟩
    · rw [if_neg c, if_neg c]
      exact ⟨_, rfl, hl⟩
  obtain ⟨cut, k2, k3⟩ := k1
  have k4 : ∃ ex, (if set.padApply then call (cut.zeroPad set.padDf) else (pure cut : Except Stop Arr)) = .ok ex := by
    by_cases c : set.padApply = true
    · obtain ⟨l', hl'⟩ := (forSensors_all (f := fun r => r.zeroPad set.padDf)).2
        (fun s hs => (clock_zeroPad_ok (k3 s hs) _).trans (h2 c))
      have he : cut.zeroPad set.padDf = ({ cut with sensors := l' }, .ok ()) := by
        unfold Arr.zeroPad; rw [hl']
      rw [if_pos c, he]
      exact ⟨_, rfl⟩
    · rw [if_neg c]
      exact ⟨_, rfl⟩
  obtain ⟨ex, k5⟩ := k4
  refine ⟨ex, ?_⟩
  unfold exampleArray
  rw [hraw]
  by_cases c1 : set.trimApply = true
  · rw [if_pos c1] at k2
    by_cases c2 : set.padApply = true
    · rw [if_pos c2] at k5
      simp only [bind, Except.bind, c1, c2, if_true, k2, k5]
    · rw [if_neg c2] at k5
      simp only [bind, Except.bind, c1, if_true, k2]
      rw [if_neg c2]
      exact k5
  · rw [if_neg c1] at k2
    cases k2
    by_cases c2 : set.padApply = true
    · rw [if_pos c2] at k5
      simp only [bind, Except.bind, pure, Except.pure]
      rw [if_neg c1, if_pos c2]
      exact k5
    · rw [if_neg c2] at k5
      simp only [bind, Except.bind, pure, Except.pure]
      rw [if_neg c1, if_neg c2]
      exact k5

theorem raw_clock {env : Env} {f : String} {raw : Arr} (h : fromFiles env (.one f) = .ok raw) :
    ∃ ρ, AllClock ρ raw ∧ raw.sensors ≠ [] := by
  obtain ⟨traces, sensors, t, format, obj, -, -, -, -, -, hi, hst⟩ := Arr.fromFiles_ok (lift_ok h)
  simp only [Arr.stackFiles, Except.ok.injEq] at hst
  obtain ⟨⟨c1, -, c3⟩, -, -⟩ := Arr.init_consistent hi
  rw [hst] at c1 c3
  have hm := fromFiles_multiple h
  obtain ⟨s0, ss, hs⟩ := List.exists_cons_of_ne_nil c1
  have h0 : s0 ∈ raw.sensors := by rw [hs]; simp
  refine ⟨s0.ts, fun s hs => ?_, c1⟩
  obtain ⟨e1, -, e3, e4⟩ := c3 s hs s0 h0
  simp [clock, e1, e3, e4, hm s hs, hm s0 h0]

theorem velocities_returns {hankel : ℝ → ℂ} {geom : ℚ → ℚ → ℕ → List ℚ} {a : Arr} {set : Settings} {t : Transform}
    (hg : ∀ a b n, (geom a b n).length = n) {tr : Arr → Settings → Except PyErr Transform}
    (hc : (Builtin.transforms hankel geom).createClass set.transform = .ok tr) (h : tr a set = .ok t) :
    ∃ v, WT.createVector set.vmin set.vmax set.nvel set.vspace = .ok v := by
  by_cases hs : set.transform = "slantstack"
  · have htr : tr = Builtin.slantStack geom := by
      simp only [Registry.createClass, Builtin.transforms, hs] at hc
      exact (Except.ok.inj hc).symm
    rw [htr] at h
    unfold Builtin.slantStack at h
    obtain ⟨vels, hv, -⟩ := bind_ok h
    unfold Builtin.velocitiesQ at hv
    unfold WT.createVector
    split_ifs at hv ⊢ with c1 c2 c3 c4 c5
    · exact ⟨_, rfl⟩
    · exfalso
      apply c5
      rcases c4 with c4 | c4 | c4
      · exact .inl c4
      · exact .inr (.inl (by exact_mod_cast c4))
      · exact .inr (.inr (by exact_mod_cast c4))
    · exact ⟨_, rfl⟩
  · exact ⟨_, (registered_axes hg hc h).real hs⟩

end OneFile

/-- Two runs with the same result: the same image, at the same frequencies, the same record and the same signal-to-noise
ratio; for linear spacing, and for all transforms but the slant stack, also the same trial velocities (for the slant stack
with logarithmic spacing the model has them from another procedure, see `Builtin.velocitiesQ`). -/
structure SameRun (set : Settings) (r r' : Result) : Prop where
  power : r'.transform.power = r.transform.power
  frequencies : r'.transform.frequencies = r.transform.frequencies
  velocities : set.vspace = "linear" ∨ set.vspace = "lin" ∨ set.transform ≠ "slantstack" →
    r'.transform.velocities = r.transform.velocities
  weight : r'.transform.n = r.transform.n
  array : r'.array = r.array
  snr : r'.snr = r.snr
  final : r'.final = r.final

open OneFile in
theorem oneFile_same {env : Env} {set : Settings} {hankel : ℝ → ℂ} {geom : ℚ → ℚ → ℕ → List ℚ}
    (hg : ∀ a b n, (geom a b n).length = n) (hb : env.transforms = Builtin.transforms hankel geom)
    (hne : set.transform ≠ "empty") (hd : ∀ l, (env.detrend l).length = l.length) {f : String} {raw ex : Arr} {ρ : ATS} {p s' : State}
    {q : Option (List ℚ × List ℝ)} {t t0 : Transform} (hraw : fromFiles env (.one f) = .ok raw)
    (hex : exampleArray env set f = .ok ex) (h0 : Workflow.empty ex set = .ok t0)
    (hpre : AllClock (afterSteps set ρ) p.array) (hρ : AllClock ρ raw) (ht : transform env set p.array = .ok t) :
    stack t0 t = .ok { t0 with n := 1, power := t.power } ∧
      SameRun set ⟨t, s'.array, q, s'⟩ ⟨{ t0 with n := 1, power := t.power }, s'.array, q, s'⟩ := by
  obtain ⟨tr, ht1, ht2⟩ := transform_ok ht
  rw [hb] at ht1
  obtain ⟨s1, hs1, ⟨o1, o2⟩, o3⟩ := builtin_onAxis hg ht1 ht2
  have hfa := registered_axes hg ht1 ht2
  have hn := o3 hne
  obtain ⟨s2, hs2, o4, o5⟩ := empty_onAxis h0
  have hc2 := hρ.exampleArray hd hraw hex s2 hs2
  have hc1 := hpre s1 hs1
  rw [axisOf_clock hc1] at o1
  rw [axisOf_clock hc2, o1] at o4
  have hfr : t.frequencies = t0.frequencies := Except.ok.inj o4
  rw [← hfr] at o5
  have hz : t0.n = 0 := by
    unfold Workflow.empty at h0
    split at h0
    · cases h0
    · obtain ⟨ids, -, h0⟩ := bind_ok h0
      obtain ⟨vels, -, h0⟩ := bind_ok h0
      cases h0
      rfl
  have hv0 : WT.createVector set.vmin set.vmax set.nvel set.vspace = .ok t0.velocities := by
    unfold Workflow.empty at h0
    split at h0
    · cases h0
    · obtain ⟨ids, -, h0⟩ := bind_ok h0
      obtain ⟨vels, hv, h0⟩ := bind_ok h0
      cases h0
      exact hv
  refine ⟨stack_one hz hn o5 o2, rfl, hfr.symm, ?_, hn.symm, rfl, rfl, rfl⟩
  intro hv
  show t0.velocities = t.velocities
  rcases hv with hv | hv | hv
  · rw [hfa.even (.inl hv), createVector_even hv0 (.inl hv)]
  · rw [hfa.even (.inr hv), createVector_even hv0 (.inr hv)]
  · exact Except.ok.inj (hv0.symm.trans (hfa.real hv))

open OneFile in
/-- **C182**.  With one file, the time-domain workflow and the frequency-domain workflow either both return or neither does,
and if they return the results are the same: image, frequencies, trial velocities, record, signal-to-noise ratio and mute
lines, for every registered transform (but the empty one).  (Trial velocities of a slant stack in logarithmic spacing are
not compared: there the model keeps the two workflows' velocities as rational and as real numbers.)  The single workflow gives what the time-domain workflow gives, by
`C79_first_file`.  `scipy.signal.detrend` keeps the number of samples. -/
theorem C182_one_file (env : Env) (set : Settings) (hankel : ℝ → ℂ) (geom : ℚ → ℚ → ℕ → List ℚ)
    (hg : ∀ a b n, (geom a b n).length = n) (hb : env.transforms = Builtin.transforms hankel geom)
    (hd : ∀ l, (env.detrend l).length = l.length) (hne : set.transform ≠ "empty") (f : String) :
    (∀ r, timeDomain env set (.many [f]) = .ok r → ∃ r', frequencyDomain env set (.many [f]) = .ok r' ∧ SameRun set r r') ∧
    (∀ r', frequencyDomain env set (.many [f]) = .ok r' → ∃ r, timeDomain env set (.many [f]) = .ok r ∧ SameRun set r r') ∧
    ∀ rest, single env set (.many (f :: rest)) = timeDomain env set (.many [f]) := by
  have hfile : fromFiles env (.many [f]) = fromFiles env (.one f) := rfl
  refine ⟨?_, ?_, fun rest => by cases rest <;> rfl⟩
  · intro r h
    obtain ⟨raw, near, level, cut, muted, g1, -, hpre, -, -⟩ := C76_steps env set _ r h
    rw [hfile] at g1
    obtain ⟨ρ, hρ, -⟩ := raw_clock g1
    have hpad := hρ.preprocessed hd hpre
    obtain ⟨raw', s, p, s', q, t, k1, k2, k3, k4, k5, k6, rfl⟩ := timeDomain_iff.1 h
    rw [hfile, g1] at k1
    cases k1
    have hpa : AllClock (afterSteps set ρ) p.array := by rw [← snr_array k5]; exact hpad
    have hn : AllClock ρ near := fun s hs => hρ s ((trimOffsetsFl_sublist hpre.1).1.subset hs)
    have hl := hn.detrended hd hpre.3
    obtain ⟨n0, nn, hn0⟩ := List.exists_cons_of_ne_nil (trimOffsetsFl_sublist hpre.1).2
    have hcut : AllClock (if set.trimApply then (ρ.trim set.trimBegin set.trimEnd).1 else ρ) cut := by
      have p4 := hpre.4
      split_ifs at p4 ⊢
      · exact hl.trim p4
      · rw [p4]; exact hl
    have hm : AllClock (if set.trimApply then (ρ.trim set.trimBegin set.trimEnd).1 else ρ) muted := by
      have p5 := hpre.5
      split_ifs at p5 with c
      · exact hcut.mute p5
      · rw [p5]; exact hcut
    have e1 : set.trimApply = true → (ρ.trim set.trimBegin set.trimEnd).2 = .ok () := by
      intro c
      have p4 := hpre.4
      rw [if_pos c] at p4
      unfold Arr.trim at p4
      rcases hf : Arr.forSensors (fun r => r.trim set.trimBegin set.trimEnd) level.sensors with ⟨ss, o⟩
      rw [hf] at p4
      simp only [Prod.mk.injEq] at p4
      obtain ⟨-, rfl⟩ := p4
      have hx : ∃ x, x ∈ level.sensors := by rw [hpre.3, hn0]; exact ⟨_, List.mem_cons_self⟩
      obtain ⟨x, hx⟩ := hx
      rw [← clock_trim_ok (hl x hx)]
      exact forSensors_all.1 ⟨ss, hf⟩ x hx
    obtain ⟨tr, ht1, ht2⟩ := transform_ok k6
    rw [hb] at ht1
    obtain ⟨⟨s1, ss1, hs1, o1, o2⟩, -, -⟩ := registered_axes hg ht1 ht2
    have e2 : set.padApply = true →
        ((if set.trimApply then (ρ.trim set.trimBegin set.trimEnd).1 else ρ).zeroPad set.padDf).2 = .ok () := by
      intro c
      have p6 := hpre.6
      rw [if_pos c] at p6
      unfold Arr.zeroPad at p6
      rcases hf : Arr.forSensors (fun r => r.zeroPad set.padDf) muted.sensors with ⟨ss, o⟩
      rw [hf] at p6
      simp only [Prod.mk.injEq] at p6
      obtain ⟨p6, rfl⟩ := p6
      have hx : ∃ x, x ∈ muted.sensors := by
        have : s1 ∈ ss := by
          have h1 : s'.array.sensors = ss := by rw [← p6]
          rw [← h1, snr_array k5, hs1]; simp
        obtain ⟨x, hx, -⟩ := forSensors_mem hf s1 this
        exact ⟨x, hx⟩
      obtain ⟨x, hx⟩ := hx
      rw [← clock_zeroPad_ok (hm x hx)]
      exact forSensors_all.1 ⟨ss, hf⟩ x hx
    obtain ⟨ex, hex⟩ := example_returns hd g1 hρ e1 e2
    obtain ⟨raw'', hr'', hce⟩ := exampleArray_ok hex
    rw [g1] at hr''
    cases hr''
    have hexc := hρ.exampleArray hd g1 hex
    have hexne : ex.sensors ≠ [] := by
      intro he
      have := hce.1
      rw [he] at this
      exact (raw_clock g1).choose_spec.2 (List.length_eq_zero_iff.1 this.symm)
    obtain ⟨x, xs, hx⟩ := List.exists_cons_of_ne_nil hexne
    have hax : axisOf x.ts set = .ok t.frequencies := by
      rw [axisOf_clock (hexc x (by rw [hx]; simp)), ← axisOf_clock (hpa s1 (by rw [hs1]; simp))]
      exact o1
    obtain ⟨v, hv⟩ := velocities_returns hg ht1 ht2
    obtain ⟨t0, h0⟩ : ∃ t0, Workflow.empty ex set = .ok t0 := by
      unfold Workflow.empty
      rw [hx]
      unfold axisOf at hax
      rcases hk : WT.keepIds (WT.binFrequencies x.ts.nsamples x.ts.dfInternal) set.fmin set.fmax x.ts.multiple with e | ids
      · rw [hk] at hax; cases hax
      · simp only [hk, hv, bind, Except.bind, pure, Except.pure]
        exact ⟨_, rfl⟩
    obtain ⟨m1, m2⟩ := oneFile_same (q := q) (s' := s') hg hb hne hd g1 hex h0 hpa hρ k6
    refine ⟨_, frequencyDomain_iff.2 ⟨ex, t0, tr, p, t, _, s', q, hex, h0, by rw [hb]; exact ht1, ?_, m1, k5, rfl⟩, m2⟩
    exact freqFile_iff.2 ⟨raw, s, g1, (isSimilar_iff _ _).2 ⟨hce.1.symm, hce.2.symm⟩, k2, k3, k4, k6⟩
  · intro r' h
    obtain ⟨ex, t0, cls, p, t, T, s', q, h1, h2, h3, h4, h5, h6, rfl⟩ := frequencyDomain_iff.1 h
    obtain ⟨raw, s, g1, g2, g3, g4, g5, g6⟩ := freqFile_iff.1 h4
    have htime : timeDomain env set (.many [f]) = .ok ⟨t, s'.array, q, s'⟩ :=
      timeDomain_iff.2 ⟨raw, s, p, s', q, t, g1, g3, g4, g5, h6, g6, rfl⟩
    refine ⟨_, htime, ?_⟩
    obtain ⟨raw', near, level, cut, muted, k1, -, hpre, -, -⟩ := C76_steps env set _ _ htime
    rw [hfile, g1] at k1
    cases k1
    obtain ⟨ρ, hρ, -⟩ := raw_clock g1
    have hpa : AllClock (afterSteps set ρ) p.array := by
      rw [← snr_array h6]; exact hρ.preprocessed hd hpre
    obtain ⟨m1, m2⟩ := oneFile_same (q := q) (s' := s') hg hb hne hd g1 h1 h2 hpa hρ g6
    rw [m1] at h5
    cases h5
    exact m2

/-- The hypotheses are met by the slant stack of the file "first", and so the frequency-domain workflow returns too. -/
example : ∃ r r', timeDomain slantShots slantSet (.many ["first"]) = .ok r ∧
    frequencyDomain slantShots slantSet (.many ["first"]) = .ok r' ∧ SameRun slantSet r r' ∧
    r'.transform.frequencies = [0, 250, 500] ∧ cell r'.transform.power 0 0 = some 4 := by
  obtain ⟨r, h1, h2, h3⟩ := slant_time (.many ["first"]) _ _ _ _ _ _ [[2, 2], [3 / 2, 5 / 2]] slant_first (by decide +kernel)
    (by decide +kernel)
  obtain ⟨r', g1, g2⟩ := (C182_one_file slantShots slantSet _ (fun a _ n => List.replicate n a) (by simp) rfl (fun _ => rfl)
    (by decide) "first").1 r h1
  refine ⟨r, r', h1, g1, g2, by rw [g2.frequencies, h2], ?_⟩
  rw [g2.power, h3]
  norm_num [cell, Builtin.fftPadded, WT.fftBin, Finset.sum_range_succ]

end Verif.Props
