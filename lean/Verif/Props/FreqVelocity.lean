import Verif.Props.Recovery
import Verif.Props.FreqReturns

/-!
# C157: the velocity of a wave from several shots stacked in the frequency domain
-/

open Complex

namespace Verif.Props
open Verif WT Spec Workflow

/-- A shot: after the trend has been removed a pulse crosses the receivers, all on one side of the source, at the velocity
`v`; a trimming of the settings keeps the pulse. -/
structure ShotOf (env : Env) (set : Settings) (v dt : ℚ) (n : ℕ) (lead : ℤ) (pulse : List ℚ) (raw : Arr) : Prop where
  oneSided : OneSided raw
  nonempty : pulse ≠ []
  carries : CarriesPulse ⟨raw.sensors.map fun s => { s with ts := { s.ts with amp := env.detrend s.ts.amp } }, raw.source⟩
    v dt lead pulse n
  kept : set.trimApply = true → ∀ s ∈ raw.sensors, PulseWithin raw.source v lead pulse set.trimBegin set.trimEnd s

/-- What is read from one file is a valid array. -/
theorem fromFile_consistent {env : Env} {name : String} {raw : Arr} (h : fromFiles env (.one name) = .ok raw) :
    Consistent raw := by
  unfold fromFiles Workflow.lift at h
  split at h
  · cases h
  · rename_i hf
    cases h
    obtain ⟨_, _, _, _, obj, _, _, _, _, _, hi, hst⟩ := Arr.fromFiles_ok hf
    have hc := (Arr.init_consistent hi).1
    simp only [Arr.stackFiles, Except.ok.injEq] at hst
    unfold Consistent at hc ⊢
    rw [← hst]
    exact hc

theorem forSensors_xs {f : ATS → Outcome ATS} : ∀ {l l' : List Sensor}, Arr.forSensors f l = (l', .ok ()) →
    l'.map (fun s => s.x) = l.map (fun s => s.x) := by
  intro l
  induction l with
  | nil => intro l' h; simp only [Arr.forSensors, Prod.mk.injEq] at h; rw [← h.1]
  | cons s l ih =>
    intro l' h
    unfold Arr.forSensors at h
    rcases hf : f s.ts with ⟨r, e | ⟨⟨⟩⟩⟩
    · simp [hf] at h
    · simp only [hf] at h
      rcases hr : Arr.forSensors f l with ⟨rest', o⟩
      rw [hr] at h
      simp only [Prod.mk.injEq] at h
      obtain ⟨rfl, rfl⟩ := h
      simp [ih hr]

/-- Pre-processing without muting leaves the selected receivers where they are. -/
theorem preprocessed_places {env : Env} {set : Settings} {kw : Option Kwargs} {lines : Option Arr.Line × Option Arr.Line}
    {raw near level cut muted padded : Arr} (hpre : Preprocessed env set kw lines raw near level cut muted padded)
    (hno : set.muteApply = false) :
    padded.source = near.source ∧ padded.sensors.map (fun s => s.x) = near.sensors.map (fun s => s.x) := by
  obtain ⟨-, p2, p3, p4, p5, p6⟩ := hpre
  rw [hno] at p5
  simp only [Bool.false_eq_true, if_false] at p5
  subst p5
  have h1 : muted.source = level.source ∧ muted.sensors.map (fun s => s.x) = level.sensors.map (fun s => s.x) := by
    split_ifs at p4
    · unfold Arr.trim at p4
      rcases hf : Arr.forSensors (fun r => r.trim set.trimBegin set.trimEnd) level.sensors with ⟨ss, o⟩
      rw [hf] at p4
      simp only [Prod.mk.injEq] at p4
      obtain ⟨rfl, rfl⟩ := p4
      exact ⟨rfl, forSensors_xs hf⟩
    · rw [p4]; exact ⟨rfl, rfl⟩
  have h2 : padded.source = muted.source ∧ padded.sensors.map (fun s => s.x) = muted.sensors.map (fun s => s.x) := by
    split_ifs at p6
    · unfold Arr.zeroPad at p6
      rcases hf : Arr.forSensors (fun r => r.zeroPad set.padDf) muted.sensors with ⟨ss, o⟩
      rw [hf] at p6
      simp only [Prod.mk.injEq] at p6
      obtain ⟨rfl, rfl⟩ := p6
      exact ⟨rfl, forSensors_xs hf⟩
    · rw [p6]; exact ⟨rfl, rfl⟩
  refine ⟨by rw [h2.1, h1.1, p2], by rw [h2.2, h1.2, p3, List.map_map]; rfl⟩

theorem resolvesAway_places {a b : Arr} {f : ℚ} {vels : List ℝ} (h1 : b.source = a.source)
    (h2 : b.sensors.map (fun s => s.x) = a.sensors.map (fun s => s.x)) (h : ResolvesAway a f vels) :
    ResolvesAway b f vels := by
  obtain ⟨s, hs, s', hs', a1, a2, a3, a4⟩ := h
  have : ∀ y ∈ a.sensors, ∃ z ∈ b.sensors, z.x = y.x := by
    intro y hy
    have : y.x ∈ b.sensors.map (fun s => s.x) := by rw [h2]; exact List.mem_map.2 ⟨y, hy, rfl⟩
    obtain ⟨z, hz, e⟩ := List.mem_map.1 this
    exact ⟨z, hz, e⟩
  obtain ⟨z, hz, e⟩ := this s hs
  obtain ⟨z', hz', e'⟩ := this s' hs'
  exact ⟨z, hz, z', hz', by rw [e, e']; exact a1, by rw [e, h1]; exact a2, by rw [e', h1]; exact a3,
    by rw [e, e']; exact a4⟩

theorem shots_velocities {env : Env} {hankel : ℝ → ℂ} {geom : ℚ → ℚ → ℕ → List ℚ} {set : Settings} {a : Arr}
    {t : Transform} (henv : env.transforms = Builtin.transforms hankel geom)
    (htr : set.transform = "phaseshift" ∨ set.transform = "fk" ∨ set.transform = "fdbf")
    (ht : IsTransformOf env set a t) : Builtin.velocities set = .ok t.velocities := by
  obtain ⟨tr, htr1, htr2⟩ := ht
  rw [henv] at htr1
  rcases htr with e | e | e
  · rw [e] at htr1
    have : Builtin.phaseShift = tr := Except.ok.inj htr1
    subst this
    unfold Builtin.phaseShift at htr2
    obtain ⟨vels, h1, htr2⟩ := bind_ok htr2
    obtain ⟨r, -, htr2⟩ := bind_ok htr2
    obtain ⟨p, -, htr2⟩ := bind_ok htr2
    cases htr2
    exact h1
  · rw [e] at htr1
    have : Builtin.fk hankel = tr := Except.ok.inj htr1
    subst this
    unfold Builtin.fk at htr2
    split at htr2
    · cases htr2
    obtain ⟨vels, h1, htr2⟩ := bind_ok htr2
    obtain ⟨r, -, htr2⟩ := bind_ok htr2
    obtain ⟨p, -, htr2⟩ := bind_ok htr2
    cases htr2
    exact h1
  · rw [e] at htr1
    have : Builtin.fdbf hankel = tr := Except.ok.inj htr1
    subst this
    unfold Builtin.fdbf at htr2
    obtain ⟨vels, h1, htr2⟩ := bind_ok htr2
    obtain ⟨r, -, htr2⟩ := bind_ok htr2
    obtain ⟨p, -, htr2⟩ := bind_ok htr2
    cases htr2
    exact h1

theorem empty_velocities {ex : Arr} {set : Settings} {t : Transform} (h : Workflow.empty ex set = .ok t) :
    Builtin.velocities set = .ok t.velocities := by
  unfold Workflow.empty at h
  rcases hs : ex.sensors with _ | ⟨s, ss⟩
  · rw [hs] at h; cases h
  rw [hs] at h
  simp only at h
  obtain ⟨ids, _, h⟩ := bind_ok h
  obtain ⟨vels, h1, h⟩ := bind_ok h
  cases h
  exact h1

/-- The shape of the result of a frequency-domain run. -/
theorem freq_shape {env : Env} {set : Settings} {f0 : String} {rest : List String} {r : Result}
    (h : frequencyDomain env set (.many (f0 :: rest)) = .ok r)
    (hshape : ∀ name ∈ f0 :: rest, ∀ level muted kw lines t, Spec.PerFile env set kw lines name level muted t →
      HasShape t.power set.nvel.toNat r.transform.frequencies.length) :
    Builtin.velocities set = .ok r.transform.velocities ∧
      HasShape r.transform.power set.nvel.toNat r.transform.frequencies.length := by
  obtain ⟨ex, t0, sf, lines, T0, Ts, level, muted, -, h2, -, -, h5, h6, h7, -⟩ := freqFiles_ok h
  have hT : ∀ T ∈ T0 :: Ts, HasShape T.power set.nvel.toNat r.transform.frequencies.length := by
    intro T hT
    rcases List.mem_cons.1 hT with rfl | hT
    · exact hshape _ List.mem_cons_self _ _ _ _ _ h5
    · obtain ⟨f, hf, l, m, hp⟩ := forall₂_mem_right h6 hT
      exact hshape _ (List.mem_cons_of_mem _ hf) _ _ _ _ _ hp
  have hf := foldlM_frequencies _ _ _ h7
  have he := empty_ok h2
  rw [← hf] at he
  have hs0 : HasShape t0.power set.nvel.toNat r.transform.frequencies.length := by
    have : t0.power = (WT.emptyTransform ℂ set.nvel.toNat r.transform.frequencies.length).power :=
      congrArg WT.Stackable.power he
    rw [this]
    refine ⟨by simp [WT.emptyTransform], ?_⟩
    intro row hrow
    have := (List.mem_replicate.1 hrow).2
    simp [this]
  obtain ⟨-, g2, g3⟩ := foldlM_stack _ _ _ _ _ hs0 hT h7
  refine ⟨by rw [g2]; exact empty_velocities h2, ?_⟩
  have key : ∀ (l : List (WT.Stackable ℂ)) (s : WT.Stackable ℂ),
      HasShape s.power set.nvel.toNat r.transform.frequencies.length →
      (∀ x ∈ l, HasShape x.power set.nvel.toNat r.transform.frequencies.length) →
      HasShape (l.foldl WT.stack s).power set.nvel.toNat r.transform.frequencies.length := by
    intro l
    induction l with
    | nil => intro s h _; exact h
    | cons x l ih =>
      intro s h hx
      exact ih _ (stack_shape h (hx x List.mem_cons_self)) (fun y hy => hx y (List.mem_cons_of_mem _ hy))
  have := key ((T0 :: Ts).map fun T => (⟨T.n, T.power⟩ : WT.Stackable ℂ)) ⟨t0.n, t0.power⟩ hs0 (by
    intro x hx
    obtain ⟨T, hT1, rfl⟩ := List.mem_map.1 hx
    exact hT T hT1)
  rw [← g3] at this
  exact this

theorem sum_re_lt : ∀ (l : List Transform) (a b : Transform → ℂ), l ≠ [] → (∀ T ∈ l, (a T).re < (b T).re) →
    ((l.map a).sum).re < ((l.map b).sum).re := by
  intro l a b
  induction l with
  | nil => intro h; exact absurd rfl h
  | cons T l ih =>
    intro _ h
    rw [List.map_cons, List.map_cons, List.sum_cons, List.sum_cons, Complex.add_re, Complex.add_re]
    have h1 := h T List.mem_cons_self
    rcases l with _ | ⟨T', l⟩
    · simpa using h1
    · have := ih (by simp) (fun x hx => h x (List.mem_cons_of_mem _ hx))
      linarith

/-- Where the transform of every file by itself stands out at `v`, the stack does. -/
theorem stack_standsOut {env : Env} {hankel : ℝ → ℂ} {geom : ℚ → ℚ → ℕ → List ℚ} (hg : ∀ a b n, (geom a b n).length = n)
    {set : Settings} (henv : env.transforms = Builtin.transforms hankel geom) (hd : ∀ l, (env.detrend l).length = l.length)
    (htr : set.transform = "phaseshift" ∨ set.transform = "fk" ∨ set.transform = "fdbf")
    {f0 : String} {rest : List String} {r : Result} {n : ℕ} {dt delay : ℚ} {v : ℝ}
    (hrec : ∀ name ∈ f0 :: rest, RecordedAs env n dt delay name)
    (h : frequencyDomain env set (.many (f0 :: rest)) = .ok r) (hmem : v ∈ r.transform.velocities)
    (P : String → ℚ → Prop)
    (hfile : ∀ name ∈ f0 :: rest, ∀ kw level muted T, kw = none ∨ kw = set.windowKwargs →
      Spec.PerFile env set kw (r.final.signalStart, r.final.signalEnd) name level muted T →
      T.velocities = r.transform.velocities → StandsOut T v (P name)) :
    StandsOut r.transform v fun f => ∀ name ∈ f0 :: rest, P name f := by
  have hne : set.transform ≠ "empty" := by rcases htr with e | e | e <;> rw [e] <;> decide
  have hax := C103_same_recording_partial env set hankel geom hg henv hd f0 rest r n dt delay hrec h
  obtain ⟨T0, Ts, level, muted, h1, h2, -, h4⟩ :=
    C78_registered_mean env set hankel geom hg henv hd f0 rest r n dt delay hrec hne h
  obtain ⟨hvel, hsh⟩ := freq_shape h (by
    intro name hname level muted kw lines t ht
    have := (perFile_axis hg henv hd n dt delay (hrec name hname) ht).1.2
    rwa [hax name hname kw lines level muted t ht] at this)
  have hlen : r.transform.velocities.length = set.nvel.toNat := createVector_length hvel
  have hall : ∀ T ∈ T0 :: Ts, ∃ name ∈ f0 :: rest, T.frequencies = r.transform.frequencies ∧
      T.velocities = r.transform.velocities ∧ StandsOut T v (P name) := by
    have one : ∀ name ∈ f0 :: rest, ∀ kw level muted T, kw = none ∨ kw = set.windowKwargs →
        Spec.PerFile env set kw (r.final.signalStart, r.final.signalEnd) name level muted T →
        ∃ name ∈ f0 :: rest, T.frequencies = r.transform.frequencies ∧
          T.velocities = r.transform.velocities ∧ StandsOut T v (P name) := by
      intro name hname kw level muted T hkw hT
      have hTv : T.velocities = r.transform.velocities := by
        obtain ⟨raw, near, cut, padded, hraw, -, hpre, hit⟩ := hT
        have := shots_velocities henv htr hit
        rw [hvel] at this
        exact (Except.ok.inj this).symm
      exact ⟨name, hname, hax name hname kw _ level muted T hT, hTv, hfile name hname kw level muted T hkw hT hTv⟩
    intro T hT
    rcases List.mem_cons.1 hT with rfl | hT
    · exact one _ List.mem_cons_self _ _ _ _ (.inl rfl) h1
    · obtain ⟨f, hf, l, m, hp⟩ := forall₂_mem_right h2 hT
      exact one f (List.mem_cons_of_mem _ hf) _ _ _ _ (.inr rfl) hp
  refine ⟨hmem, by rw [hlen]; exact hsh.1, hsh.2, ?_⟩
  intro j f hj hcond i hi
  have hjl : j < r.transform.frequencies.length := (List.getElem?_eq_some_iff.1 hj).1
  have hil : i < set.nvel.toNat := by rw [← hlen]; exact (List.getElem?_eq_some_iff.1 hi).1
  refine ⟨_, h4 i j hil hjl, ?_⟩
  intro i' v' q hv' hne' hq
  have hil' : i' < set.nvel.toNat := by rw [← hlen]; exact (List.getElem?_eq_some_iff.1 hv').1
  have hq' := h4 i' j hil' hjl
  unfold cell at hq'
  rw [hq] at hq'
  rw [Option.some.inj hq']
  have hN : (0 : ℝ) < (rest.length : ℝ) + 1 := by positivity
  have hcast : ((rest.length : ℂ) + 1) = (((rest.length : ℝ) + 1 : ℝ) : ℂ) := by push_cast; rfl
  rw [hcast, Complex.div_ofReal_re, Complex.div_ofReal_re]
  refine div_lt_div_of_pos_right ?_ hN
  refine sum_re_lt (T0 :: Ts) (fun T => (cell T.power i' j).getD 0) (fun T => (cell T.power i j).getD 0) (by simp) ?_
  intro T hT
  obtain ⟨name, hname, f1, f2, -, f3, f4, f5⟩ := hall T hT
  rw [f1] at f4 f5
  rw [f2] at f3
  obtain ⟨p, e2, e3⟩ := f5 j f hj (hcond name hname) i (by rw [f2]; exact hi)
  rw [f2] at e3
  have hml : i' < T.power.length := by rw [f3, hlen]; exact hil'
  have hl := f4 _ (List.getElem_mem hml)
  have hy : cell T.power i' j = some ((T.power[i'])[j]'(by omega)) := by
    unfold cell
    rw [List.getElem?_eq_getElem hml, Option.bind_some, List.getElem?_eq_getElem]
  have hx : cell T.power i j = some p := e2
  simp only [hx, hy, Option.getD_some]
  exact e3 i' v' _ hv' hne' hy

/-- **C157**.  Several shots stacked in the frequency domain: in every file a pulse crosses the receivers at the velocity
`v`, each file with its own pulse, shot time, gains and side of the source.  If the run returns and `v` is one of its
trial velocities, then the peak of the stacked transform is at `v` at every frequency at which all pulses have energy and
in every file some two of the receivers left are closer than the shortest trial wavelength. -/
theorem C157_stack_recovers (env : Env) (hankel : ℝ → ℂ) (geom : ℚ → ℚ → ℕ → List ℚ) (hg : ∀ a b n, (geom a b n).length = n)
    (set : Settings) (henv : env.transforms = Builtin.transforms hankel geom) (hd : ∀ l, (env.detrend l).length = l.length)
    (htr : set.transform = "phaseshift" ∨ set.transform = "fk" ∨
      set.transform = "fdbf" ∧ (Builtin.specific set.fdbf).get "steering" ≠ some "cylindrical")
    (hno : set.muteApply = false) (f0 : String) (rest : List String) (r : Result) (n : ℕ) (dt delay v : ℚ) (hdt : 0 < dt)
    (hrec : ∀ name ∈ f0 :: rest, RecordedAs env n dt delay name) (lead : String → ℤ) (pulse : String → List ℚ)
    (hshot : ∀ name ∈ f0 :: rest, ∀ raw, fromFiles env (.one name) = .ok raw →
      ShotOf env set v dt n (lead name) (pulse name) raw)
    (h : frequencyDomain env set (.many (f0 :: rest)) = .ok r)
    (hmem : (v : ℝ) ∈ r.transform.velocities) (hpos : ∀ w ∈ r.transform.velocities, 0 < w) :
    ∃ vs, Builtin.findPeakPower r.transform "frequency-maximum" = .ok vs ∧ vs.length = r.transform.frequencies.length ∧
      ∀ (j : ℕ) (f : ℚ), r.transform.frequencies[j]? = some f → 0 < f →
        (∀ name ∈ f0 :: rest, pulseSpectrum (pulse name) (f * dt) ≠ 0 ∧
          ∀ raw near, fromFiles env (.one name) = .ok raw →
            trimOffsetsFl raw set.minOffset set.maxOffset = (near, .ok ()) → ResolvesAway near f r.transform.velocities) →
        vs[j]? = some (v : ℝ) := by
  have htr' : set.transform = "phaseshift" ∨ set.transform = "fk" ∨ set.transform = "fdbf" :=
    htr.imp id (Or.imp id And.left)
  have hv0 : v ≠ 0 := by
    have := hpos _ hmem
    rintro rfl
    simp at this
  obtain ⟨vs, e1, e2, e3⟩ := (stack_standsOut hg henv hd htr' hrec h hmem
    (fun name f => 0 < f ∧ pulseSpectrum (pulse name) (f * dt) ≠ 0 ∧
      ∀ raw near, fromFiles env (.one name) = .ok raw →
        trimOffsetsFl raw set.minOffset set.maxOffset = (near, .ok ()) → ResolvesAway near f r.transform.velocities) (by
    intro name hname kw level muted T _ hT hTv
    obtain ⟨raw, near, cut, padded, hraw, -, hpre, hit⟩ := hT
    obtain ⟨s2, s3, s4, s5⟩ := hshot name hname raw hraw
    obtain ⟨c1, c2, -, lead', n', c3, -⟩ := preprocessed_carries hpre hd hno (fromFile_consistent hraw) s2 hdt hv0 s3 s5 s4
    obtain ⟨g1, g2, g3, g4⟩ := transform_standsOut env hankel geom set muted padded T henv htr v dt lead' (pulse name) n' hdt
      c1 c3 c2 hpre.zeroPadded hit (by rw [hTv]; exact hmem) (by rw [hTv]; exact hpos)
    refine ⟨g1, g2, g3, fun j f hj ⟨hf, hS, hres⟩ => g4 j f hj ⟨hf, hS, ?_⟩⟩
    obtain ⟨q1, q2⟩ := preprocessed_places hpre hno
    rw [hTv]
    exact resolvesAway_places q1 q2 (hres raw near hraw hpre.offsets))).picked
  exact ⟨vs, e1, e2, fun j f a1 a2 a3 => e3 j f a1 fun name hname => ⟨a2, (a3 name hname).1, (a3 name hname).2⟩⟩

/-! ## Two shots -/

/-- Two files with receivers at 2 m, 4 m and 8 m: a spike, and a longer pulse a sample later with other gains, both at
2000 m/s. -/
noncomputable def shotsEnv : Env :=
  { pulseEnv with
    fs := fun name => if name = "a" then
        some [seg2 2 0 1 [0, 2, 0, 0, 0, 0, 0, 0], seg2 4 0 1 [0, 0, 3, 0, 0, 0, 0, 0], seg2 8 0 1 [0, 0, 0, 0, 7, 0, 0, 0]]
      else some [seg2 2 0 1 [0, 0, 2, 1, 0, 0, 0, 0], seg2 4 0 1 [0, 0, 0, 6, 3, 0, 0, 0],
        seg2 8 0 1 [0, 0, 0, 0, 0, 4, 2, 0]]
    transforms := Builtin.transforms (fun _ => 0) fun a _ n => List.replicate n a }

/-- Phase shift at two trial velocities without padding. -/
def shotsSet : Settings := { pulseSet "phaseshift" with padApply := false, fmin := 100 }

/-- The second file as an array. -/
def shotB : Arr :=
  ⟨[⟨⟨[0, 0, 2, 1, 0, 0, 0, 0], 1 / 1000, 1, 0, 1⟩, 2, 0, 0⟩, ⟨⟨[0, 0, 0, 6, 3, 0, 0, 0], 1 / 1000, 1, 0, 1⟩, 4, 0, 0⟩,
    ⟨⟨[0, 0, 0, 0, 0, 4, 2, 0], 1 / 1000, 1, 0, 1⟩, 8, 0, 0⟩], ⟨0, 0, 0⟩⟩

theorem shots_transform (a : Arr) (tm : List (List ℚ)) (hr : Record.ofArray a = .ok ⟨tm, [2, 4, 8], 8, 125, 1⟩) :
    ∃ T, Builtin.phaseShift a shotsSet = .ok T ∧ HasShape T.power 2 1 := by
  have hv : Builtin.velocities shotsSet = .ok [2000, 4000] := pulse_velocities "phaseshift"
  have hk : (⟨tm, [2, 4, 8], 8, 125, 1⟩ : Record).keepIds ⟨shotsSet.fmin, shotsSet.fmax⟩ = .ok [1] := by
    show WT.keepIds (WT.binFrequencies 8 (125 : ℚ)) 100 130 1 = _
    decide +kernel
  obtain ⟨T, hT, hfr⟩ : ∃ T, Builtin.phaseShift a shotsSet = .ok T ∧ T.frequencies.length = 1 := by
    unfold Builtin.phaseShift
    rw [hv, hr]
    simp only [bind, Except.bind, WT.phaseShift, hk]
    exact ⟨_, rfl, by simp⟩
  obtain ⟨s', hs', ⟨-, h2⟩, -⟩ := phaseShift_onAxis hT
  refine ⟨T, hT, ?_⟩
  rw [hfr] at h2
  exact h2

/-- The run over the two files returns, and 2000 m/s is picked at its one frequency. -/
example : ∃ r, frequencyDomain shotsEnv shotsSet (.many ["a", "b"]) = .ok r ∧
    Builtin.findPeakPower r.transform "frequency-maximum" = .ok [2000] := by
  have hv : Builtin.velocities shotsSet = .ok [2000, 4000] := pulse_velocities "phaseshift"
  have ra : fromFiles shotsEnv (.one "a") = .ok pulseArr := by decide +kernel
  have rb : fromFiles shotsEnv (.one "b") = .ok shotB := by decide +kernel
  obtain ⟨TA, ta1, ta2⟩ := shots_transform pulseArr (pulseArr.sensors.map fun s => s.ts.amp) (by decide +kernel)
  obtain ⟨TB, tb1, tb2⟩ := shots_transform shotB (shotB.sensors.map fun s => s.ts.amp) (by decide +kernel)
  have hc : shotsEnv.transforms.createClass shotsSet.transform = .ok Builtin.phaseShift := rfl
  have na : trimOffsetsFl pulseArr 0 .pinf = (pulseArr, .ok ()) := by decide +kernel
  have nb : trimOffsetsFl shotB 0 .pinf = (shotB, .ok ()) := by decide +kernel
  have outA : ¬ SourceBetween pulseArr := by
    rintro ⟨p, q, h1, h2, h3, h4⟩
    cases h1
    exact absurd h3 (by decide +kernel)
  have outB : ¬ SourceBetween shotB := by
    rintro ⟨p, q, h1, h2, h3, h4⟩
    cases h1
    exact absurd h3 (by decide +kernel)
  obtain ⟨t0, ht0, hf0⟩ : ∃ t0, Workflow.empty pulseArr shotsSet = .ok t0 ∧ t0.frequencies = [125] := by
    have hk : WT.keepIds (WT.binFrequencies 8 (125 : ℚ)) 100 130 1 = .ok [1] := by decide +kernel
    have hk' : ([1] : List ℕ).map (fun k => (WT.binFrequencies 8 (125 : ℚ)).getD k 0) = [125] := by decide +kernel
    have hd : (pulseArr.sensors.headD ⟨⟨[], 1, 1, 0, 1⟩, 0, 0, 0⟩).ts.dfInternal = 125 := by decide +kernel
    unfold Workflow.empty
    simp only [pulseArr, List.headD_cons] at hd
    simp only [pulseArr, hd, ATS.nsamples, List.length_cons, List.length_nil]
    show ∃ t0, (WT.keepIds (WT.binFrequencies 8 (125 : ℚ)) 100 130 1 >>= _) = Except.ok t0 ∧ _
    rw [hk]
    unfold Builtin.velocities at hv
    simp only [bind, Except.bind, hv]
    exact ⟨_, rfl, hk'⟩
  obtain ⟨r, hr, -⟩ := C78_run_returns shotsEnv shotsSet "a" ["b"] pulseArr pulseArr pulseArr pulseArr pulseArr pulseArr
    pulseArr (none, none) t0 TA ra (by decide) outA ⟨pulseArr, pulseArr, rfl, rfl, rfl, rfl⟩ ht0
    ⟨na, rfl, rfl, rfl, rfl, rfl⟩ (fun h => by cases h) (fun _ => rfl) ⟨_, hc, ta1⟩ (by rw [hf0]; exact ta2) (by
      intro f hf
      simp only [List.mem_cons, List.not_mem_nil, or_false] at hf
      subst hf
      exact ⟨shotB, rb, ⟨rfl, rfl⟩, shotB, shotB, TB, ⟨shotB, shotB, shotB, shotB, rb, outB,
        ⟨nb, rfl, rfl, rfl, rfl, rfl⟩, _, hc, tb1⟩, by rw [hf0]; exact tb2⟩) (fun h => by cases h)
  refine ⟨r, hr, ?_⟩
  have hrec : ∀ name ∈ ["a", "b"], RecordedAs shotsEnv 8 (1 / 1000) 0 name := by
    intro name hname raw hraw
    simp only [List.mem_cons, List.not_mem_nil, or_false] at hname
    rcases hname with rfl | rfl
    · rw [ra] at hraw; cases hraw; decide +kernel
    · rw [rb] at hraw; cases hraw; decide +kernel
  have hg : ∀ (a b : ℚ) (n : ℕ), ((fun a _ n => List.replicate n a : ℚ → ℚ → ℕ → List ℚ) a b n).length = n := by simp
  obtain ⟨e1, e2⟩ := freq_shape hr (by
    intro name hname level muted kw lines t ht
    have h1 := (perFile_axis hg rfl (fun _ => rfl) 8 (1 / 1000) 0 (hrec name hname) ht).1.2
    rwa [C103_same_recording_partial shotsEnv shotsSet (fun _ => 0) _ hg rfl (fun _ => rfl) "a" ["b"] r 8 (1 / 1000) 0 hrec hr
      name hname kw lines level muted t ht] at h1)
  rw [hv] at e1
  have e1' := (Except.ok.inj e1).symm
  have hfr : r.transform.frequencies = [125] := by
    obtain ⟨ex, t0', -, -, T0, Ts, -, -, h1, h2, -, -, -, -, h7, -⟩ := freqFiles_ok hr
    have : ex = pulseArr := by
      have : exampleArray shotsEnv shotsSet "a" = .ok pulseArr := exampleArray_returns ra ⟨pulseArr, pulseArr, rfl, rfl, rfl, rfl⟩
      rw [this] at h1
      exact (Except.ok.inj h1).symm
    subst this
    rw [ht0] at h2
    cases h2
    rw [foldlM_frequencies _ _ _ h7, hf0]
  obtain ⟨vs, h1, h2, h3⟩ := C157_stack_recovers shotsEnv (fun _ => 0) _ hg shotsSet rfl (fun _ => rfl) (.inl rfl) rfl "a" ["b"] r 8
    (1 / 1000) 0 2000 (by norm_num) hrec (fun name => if name = "a" then 0 else 1) (fun name => if name = "a" then [1] else [2, 1])
    (by
      intro name hname raw hraw
      simp only [List.mem_cons, List.not_mem_nil, or_false] at hname
      rcases hname with rfl | rfl
      · rw [ra] at hraw
        cases hraw
        exact ⟨.inl (by decide +kernel), by decide, pulse_carried, fun h => by cases h⟩
      · rw [rb] at hraw
        cases hraw
        refine ⟨.inl (by decide +kernel), by decide, ?_, fun h => by cases h⟩
        intro s hs
        simp only [shotB, List.map_cons, List.map_nil, List.mem_cons, List.not_mem_nil, or_false] at hs
        rcases hs with rfl | rfl | rfl
        · exact ⟨rfl, 2, 4, 1, by decide +kernel⟩
        · exact ⟨rfl, 3, 3, 3, by decide +kernel⟩
        · exact ⟨rfl, 5, 1, 2, by decide +kernel⟩)
    hr (by rw [e1']; simp) (by rw [e1']; intro w hw; simp at hw; rcases hw with rfl | rfl <;> norm_num)
  rw [h1]
  rw [hfr] at h2 h3
  have e0 := h3 0 125 rfl (by norm_num) (by
    intro name hname
    simp only [List.mem_cons, List.not_mem_nil, or_false] at hname
    have res : ∀ a : Arr, a.source.x = 0 → a.sensors.map (fun s => s.x) = [2, 4, 8] →
        ResolvesAway a 125 r.transform.velocities := by
      intro a h0 hx
      obtain ⟨s, hs, ex⟩ := List.mem_map.1 (show (2 : ℚ) ∈ a.sensors.map (fun s => s.x) by rw [hx]; simp)
      obtain ⟨s', hs', ex'⟩ := List.mem_map.1 (show (4 : ℚ) ∈ a.sensors.map (fun s => s.x) by rw [hx]; simp)
      refine ⟨s, hs, s', hs', by rw [ex, ex']; norm_num, by rw [ex, h0]; norm_num, by rw [ex', h0]; norm_num, ?_⟩
      rw [e1', ex, ex']
      intro w hw
      simp only [List.mem_cons, List.not_mem_nil, or_false] at hw
      rcases hw with rfl | rfl <;> norm_num
    rcases hname with rfl | rfl
    · refine ⟨by simp [pulseSpectrum], fun raw near hraw hnear => ?_⟩
      rw [ra] at hraw
      cases hraw
      have hnear' : (pulseArr, Except.ok ()) = (near, Except.ok ()) := na.symm.trans hnear
      cases hnear'
      exact res _ rfl (by decide +kernel)
    · refine ⟨?_, fun raw near hraw hnear => ?_⟩
      · simp only [show ("b" : String) ≠ "a" by decide, if_false, pulseSpectrum, List.length_cons, List.length_nil, zero_add,
          Nat.reduceAdd, Finset.sum_range_succ, Finset.sum_range_zero]
        intro h0
        have := congrArg norm (eq_neg_of_add_eq_zero_left h0)
        simp [Complex.norm_exp] at this
      · rw [rb] at hraw
        cases hraw
        have hnear' : (shotB, Except.ok ()) = (near, Except.ok ()) := nb.symm.trans hnear
        cases hnear'
        exact res _ rfl (by decide +kernel))
  rcases vs with _ | ⟨a, _ | ⟨c, vs⟩⟩ <;> simp at h2
  simp at e0
  rw [e0]

end Verif.Props
