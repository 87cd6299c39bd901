import Verif.Lemmas.Workflow
import Verif.Lemmas.Array
import Verif.Props.StackTransform
import Verif.Props.WorkflowExamples

/-!
# C78: the frequency-domain workflow
-/

namespace Verif.Props
open Verif Workflow

theorem source_eq_iff (a b : Source) : a.eq b = true ↔ a = b := by
  rcases a with ⟨x, y, z⟩
  rcases b with ⟨x', y', z'⟩
  simp [Source.eq, and_assoc]

theorem isSimilar_iff (a b : Arr) : a.isSimilar b = true ↔ Spec.Compatible a b := by
  unfold Arr.isSimilar
  rw [Bool.and_eq_true, decide_eq_true_iff, source_eq_iff]
  rfl

theorem trim_compatible {a b : Arr} {t0 t1 : ℚ} {o : Except PyErr Unit} (h : a.trim t0 t1 = (b, o)) :
    Spec.Compatible b a := by
  unfold Arr.trim at h
  have hx := Arr.forSensors_x (fun r => r.trim t0 t1) a.sensors
  have hl := congrArg List.length hx
  simp only [List.length_map] at hl
  cases h
  exact ⟨hl, rfl⟩

theorem zeroPad_compatible {a b : Arr} {df : ℚ} {o : Except PyErr Unit} (h : a.zeroPad df = (b, o)) :
    Spec.Compatible b a := by
  unfold Arr.zeroPad at h
  have hx := Arr.forSensors_x (fun r => r.zeroPad df) a.sensors
  have hl := congrArg List.length hx
  simp only [List.length_map] at hl
  cases h
  exact ⟨hl, rfl⟩

theorem detrend_compatible (env : Env) (a : Arr) : Spec.Compatible (Workflow.detrend env a) a :=
  ⟨by simp [Workflow.detrend], rfl⟩

theorem exampleArray_ok {env : Env} {set : Settings} {f : String} {ex : Arr}
    (h : exampleArray env set f = .ok ex) :
    ∃ raw, fromFiles env (.one f) = .ok raw ∧ Spec.Compatible ex raw := by
  unfold exampleArray at h
  obtain ⟨raw, hraw, h⟩ := bind_ok h
  refine ⟨raw, hraw, ?_⟩
  have hd := detrend_compatible env raw
  have trans : ∀ {a b c : Arr}, Spec.Compatible a b → Spec.Compatible b c → Spec.Compatible a c :=
    fun h h' => ⟨h.1.trans h'.1, h.2.trans h'.2⟩
  simp only at h
  split_ifs at h
  · obtain ⟨a, ha, h⟩ := bind_ok h
    exact trans (zeroPad_compatible (call_ok h)) (trans (trim_compatible (call_ok ha)) hd)
  · obtain ⟨a, ha, h⟩ := bind_ok h
    cases h
    exact trans (trim_compatible (call_ok ha)) hd
  · exact trans (zeroPad_compatible (call_ok h)) hd
  · cases h; exact hd

/-- The first file. -/
theorem freqFile_first {env : Env} {set : Settings} {ex : Arr} {f : String} {s : State} {t : Transform}
    (h : freqFile env set ex none f = .ok (s, t)) :
    (∃ raw, fromFiles env (.one f) = .ok raw ∧ Spec.Compatible raw ex) ∧
    (set.muteApply = true → s.signalStart.isSome) ∧
    ∃ level muted, Spec.PerFile env set none (s.signalStart, s.signalEnd) f level muted t ∧
      (set.snrPerform = true → ∃ noise signal, s.noise = some noise ∧ s.signal = some signal ∧
        Spec.IsWindow level set.noiseBegin set.noiseEnd noise ∧
        Spec.IsWindow muted set.signalBegin set.signalEnd signal) ∧
      (∃ padded, s.array = padded ∧ Spec.IsTransformOf env set padded t) := by
  unfold freqFile at h
  obtain ⟨raw, hraw, h⟩ := bind_ok h
  simp only at h
  split_ifs at h with hsim
  · cases h
  simp only [Bool.not_eq_true, Bool.not_eq_false'] at hsim
  have hsim' : raw.isSimilar ex = true := by simpa using hsim
  obtain ⟨⟨⟩, hcheck, h⟩ := bind_ok h
  obtain ⟨s1, h1, h⟩ := bind_ok h
  obtain ⟨s2, h2, h⟩ := bind_ok h
  obtain ⟨s3, h3, h⟩ := bind_ok h
  obtain ⟨s4, h4, h⟩ := bind_ok h
  obtain ⟨s5, h5, h⟩ := bind_ok h
  obtain ⟨s6, h6, h⟩ := bind_ok h
  obtain ⟨t', h7, h⟩ := bind_ok h
  cases h
  obtain ⟨near, e1, rfl⟩ := trimOffsets_ok h1
  obtain ⟨e2, n1, -, -⟩ := selectNoise_ok h2
  obtain ⟨cut, e3, rfl⟩ := trimTime_ok h3
  obtain ⟨muted, e4, e4', e4''⟩ := mute_ok_first h4 (by rw [e2]; rfl) (by rw [e2]; rfl)
  obtain ⟨e5, g1, -, -⟩ := selectSignal_ok h5
  obtain ⟨padded, e6, rfl⟩ := pad_ok h6
  have a2 : s2.array = Workflow.detrend env near := by rw [e2]
  have a4 : s4.array = muted := by rw [e4]
  have a5 : s5.array = muted := by rw [e5, a4]
  have l1 : s5.signalStart = s4.signalStart := by rw [e5]
  have l2 : s5.signalEnd = s4.signalEnd := by rw [e5]
  refine ⟨⟨raw, hraw, (isSimilar_iff _ _).1 hsim'⟩, ?_, Workflow.detrend env near, muted,
    ⟨raw, near, cut, padded, hraw, check_ok hcheck, ⟨e1, rfl, rfl, ?_, ?_, ?_⟩, transform_ok h7⟩, ?_,
    padded, rfl, transform_ok h7⟩
  · intro hm; show s5.signalStart.isSome; rw [l1]; exact (e4'' hm).1
  · rw [a2] at e3; exact e3
  · show if set.muteApply then cut.mute (env.tukey none) s5.signalStart s5.signalEnd = _ else _
    rw [l1, l2]; exact e4'
  · rw [a5] at e6; exact e6
  · intro hp
    obtain ⟨noise, hn, hw⟩ := n1 hp rfl
    have hs4 : s4.signal = none := by rw [e4]; show s2.signal = none; rw [e2]; rfl
    obtain ⟨signal, hs, hw'⟩ := g1 hp hs4
    have hn5 : s5.noise = some noise := by
      rw [e5]; show s4.noise = _; rw [e4]; exact hn
    exact ⟨noise, signal, hn5, hs, hw, by rw [← a4]; exact hw'⟩

/-- Any further file. -/
theorem freqFile_later {env : Env} {set : Settings} {ex : Arr} {f : String} {s0 s : State} {t : Transform}
    (hm : set.muteApply = true → s0.signalStart.isSome)
    (hp : set.snrPerform = true → s0.noise.isSome ∧ s0.signal.isSome)
    (h : freqFile env set ex (some s0) f = .ok (s, t)) :
    (∃ raw, fromFiles env (.one f) = .ok raw ∧ Spec.Compatible raw ex) ∧
    s.signalStart = s0.signalStart ∧ s.signalEnd = s0.signalEnd ∧ s.noise = s0.noise ∧
    s.signal = s0.signal ∧
    (∃ level muted, Spec.PerFile env set set.windowKwargs (s0.signalStart, s0.signalEnd) f level muted t) ∧
    Spec.IsTransformOf env set s.array t := by
  unfold freqFile at h
  obtain ⟨raw, hraw, h⟩ := bind_ok h
  simp only at h
  split_ifs at h with hsim
  · cases h
  simp only [Bool.not_eq_true, Bool.not_eq_false'] at hsim
  have hsim' : raw.isSimilar ex = true := by simpa using hsim
  obtain ⟨⟨⟩, hcheck, h⟩ := bind_ok h
  obtain ⟨s1, h1, h⟩ := bind_ok h
  obtain ⟨s2, h2, h⟩ := bind_ok h
  obtain ⟨s3, h3, h⟩ := bind_ok h
  obtain ⟨s4, h4, h⟩ := bind_ok h
  obtain ⟨s5, h5, h⟩ := bind_ok h
  obtain ⟨s6, h6, h⟩ := bind_ok h
  obtain ⟨t', h7, h⟩ := bind_ok h
  cases h
  obtain ⟨near, e1, rfl⟩ := trimOffsets_ok h1
  obtain ⟨e2, -, n2, n3⟩ := selectNoise_ok h2
  obtain ⟨cut, e3, rfl⟩ := trimTime_ok h3
  have hst : s2.signalStart = s0.signalStart := by rw [e2]
  have hen : s2.signalEnd = s0.signalEnd := by rw [e2]
  obtain ⟨muted, e4, e4'⟩ := mute_ok_later h4 (by intro hh; rw [hst]; exact hm hh)
  obtain ⟨e5, -, g2, g3⟩ := selectSignal_ok h5
  obtain ⟨padded, e6, rfl⟩ := pad_ok h6
  have a2 : s2.array = Workflow.detrend env near := by rw [e2]
  have a4 : s4.array = muted := by rw [e4]
  have a5 : s5.array = muted := by rw [e5, a4]
  have l1 : s5.signalStart = s0.signalStart := by rw [e5, e4]; exact hst
  have l2 : s5.signalEnd = s0.signalEnd := by rw [e5, e4]; exact hen
  have hsig : s4.signal = s0.signal := by rw [e4]; show s2.signal = _; rw [e2]
  have hn : s2.noise = s0.noise := by
    cases hb : set.snrPerform
    · exact n2 hb
    · obtain ⟨w, hw⟩ := Option.isSome_iff_exists.1 (hp hb).1
      rw [n3 w hw, hw]
  have hs : s5.signal = s0.signal := by
    cases hb : set.snrPerform
    · rw [g2 hb, hsig]
    · obtain ⟨w, hw⟩ := Option.isSome_iff_exists.1 (hp hb).2
      rw [g3 w (by rw [hsig, hw]), hw]
  refine ⟨⟨raw, hraw, (isSimilar_iff _ _).1 hsim'⟩, l1, l2, ?_, hs, ⟨Workflow.detrend env near, muted,
    raw, near, cut, padded, hraw, check_ok hcheck, ⟨e1, rfl, rfl, ?_, ?_, ?_⟩, transform_ok h7⟩,
    transform_ok h7⟩
  · show s5.noise = _
    rw [e5]; show s4.noise = _; rw [e4]; exact hn
  · rw [a2] at e3; exact e3
  · show if set.muteApply then cut.mute _ s0.signalStart s0.signalEnd = _ else _
    rw [← hst, ← hen]; exact e4'
  · rw [a5] at e6; exact e6

/-- All further files. -/
theorem freqLoop_later {env : Env} {set : Settings} {ex : Arr} (fs : List String) :
    ∀ (s0 : State) (t0 : Transform) (s : Option State) (t : Transform),
    (set.muteApply = true → s0.signalStart.isSome) →
    (set.snrPerform = true → s0.noise.isSome ∧ s0.signal.isSome) →
    freqLoop env set ex (some s0) t0 fs = .ok (s, t) →
    ∃ sf Ts, s = some sf ∧ sf.signalStart = s0.signalStart ∧ sf.signalEnd = s0.signalEnd ∧
      sf.noise = s0.noise ∧ sf.signal = s0.signal ∧
      (∀ f ∈ fs, ∃ raw, fromFiles env (.one f) = .ok raw ∧ Spec.Compatible raw ex) ∧
      List.Forall₂ (fun f T => ∃ level muted,
        Spec.PerFile env set set.windowKwargs (s0.signalStart, s0.signalEnd) f level muted T) fs Ts ∧
      Ts.foldlM Workflow.stack t0 = .ok t ∧
      (Ts = [] → sf = s0) := by
  induction fs with
  | nil =>
    intro s0 t0 s t hm hp h
    cases h
    exact ⟨s0, [], rfl, rfl, rfl, rfl, rfl, by simp, .nil, rfl, fun _ => rfl⟩
  | cons f fs ih =>
    intro s0 t0 s t hm hp h
    simp only [freqLoop] at h
    obtain ⟨⟨s1, t1⟩, h1, h⟩ := bind_ok h
    simp only at h
    obtain ⟨t2, h2, h⟩ := bind_ok h
    obtain ⟨c1, c2, c3, c4, c5, c6, -⟩ := freqFile_later hm hp h1
    obtain ⟨sf, Ts, r1, r2, r3, r4, r5, r6, r7, r8, -⟩ := ih s1 t2 s t (by rw [c2]; exact hm)
      (by rw [c4, c5]; exact hp) h
    refine ⟨sf, t1 :: Ts, r1, r2.trans c2, r3.trans c3, r4.trans c4, r5.trans c5, ?_, ?_, ?_, by simp⟩
    · intro g hg
      rcases List.mem_cons.1 hg with rfl | hg
      · exact c1
      · exact r6 g hg
    · rw [c2, c3] at r7
      exact .cons c6 r7
    · rw [List.foldlM_cons, lift_ok h2]; exact r8

/-- A run over a list of files, taken apart. -/
theorem freqFiles_ok {env : Env} {set : Settings} {f0 : String} {rest : List String} {r : Result}
    (h : freqFiles env set (f0 :: rest) = .ok r) :
    ∃ ex t0 sf lines T0 Ts level muted,
      exampleArray env set f0 = .ok ex ∧ Workflow.empty ex set = .ok t0 ∧
      (freqLoop env set ex none t0 (f0 :: rest) = .ok (some sf, r.transform) ∧
        lines = (r.final.signalStart, r.final.signalEnd)) ∧
      (∀ f ∈ f0 :: rest, ∃ raw, fromFiles env (.one f) = .ok raw ∧ Spec.Compatible raw ex) ∧
      Spec.PerFile env set none lines f0 level muted T0 ∧
      List.Forall₂ (fun f T => ∃ level muted, Spec.PerFile env set set.windowKwargs lines f level muted T)
        rest Ts ∧
      (T0 :: Ts).foldlM Workflow.stack t0 = .ok r.transform ∧
      (set.snrPerform = false → r.snr = none) ∧
      (set.snrPerform = true → ∃ noise signal windows q,
        Spec.IsWindow level set.noiseBegin set.noiseEnd noise ∧
        Spec.IsWindow muted set.signalBegin set.signalEnd signal ∧
        WT.snr signal noise set.fmin set.fmax set.snrPad set.snrDf = (windows, .ok q) ∧ r.snr = some q) := by
  unfold freqFiles at h
  obtain ⟨ex, hex, h⟩ := bind_ok h
  obtain ⟨t0, ht0, h⟩ := bind_ok h
  obtain ⟨_, -, h⟩ := bind_ok h
  obtain ⟨⟨st, t⟩, hloop, h⟩ := bind_ok h
  have hloop' := hloop
  simp only [freqLoop] at hloop
  obtain ⟨⟨s1, T0⟩, h1, hloop⟩ := bind_ok hloop
  simp only at hloop
  obtain ⟨t1, h2, hloop⟩ := bind_ok hloop
  obtain ⟨c1, c2, level, muted, c3, c4, -⟩ := freqFile_first h1
  obtain ⟨sf, Ts, rfl, r2, r3, r4, r5, r6, r7, r8, -⟩ := freqLoop_later rest s1 t1 st t c2
    (by intro hp; obtain ⟨n, s, e1, e2, -⟩ := c4 hp; rw [e1, e2]; exact ⟨rfl, rfl⟩) hloop
  simp only at h
  obtain ⟨⟨s', q⟩, hq, h⟩ := bind_ok h
  cases h
  obtain ⟨k0, k1, k2⟩ := calculateSnr_ok hq
  refine ⟨ex, t0, sf, (s1.signalStart, s1.signalEnd), T0, Ts, level, muted, hex, lift_ok ht0, ⟨hloop', ?_⟩, ?_, c3,
    r7, ?_, fun hf => (k1 hf).2, ?_⟩
  · show _ = (s'.signalStart, s'.signalEnd)
    rw [k0, ← r2, ← r3]
  · intro g hg
    rcases List.mem_cons.1 hg with rfl | hg
    · exact c1
    · exact r6 g hg
  · rw [List.foldlM_cons, lift_ok h2]; exact r8
  · intro hp
    obtain ⟨noise, signal, m1, m2, m3, m4⟩ := c4 hp
    obtain ⟨signal', noise', sp, np, q', j1, j2, j3, j4, -, -⟩ := k2 hp
    rw [r5, m2] at j1
    rw [r4, m1] at j2
    cases j1; cases j2
    exact ⟨noise, signal, (sp, np), q', m3, m4, j3, j4⟩

theorem stackRows_eq (n m : ℕ) : ∀ (p p' : List (List ℂ)) (nfrq : ℕ),
    (∀ row ∈ p, row.length = nfrq) → (∀ row ∈ p', row.length = nfrq) →
    stackRows n m p p' = .ok (WT.stack (⟨n, p⟩ : WT.Stackable ℂ) ⟨m, p'⟩).power := by
  intro p
  induction p with
  | nil => intro p' nfrq _ _; rfl
  | cons r p ih =>
    intro p' nfrq h1 h2
    rcases p' with _ | ⟨r', p'⟩
    · rfl
    · have hl : r.length = r'.length := by
        rw [h1 r List.mem_cons_self, h2 r' List.mem_cons_self]
      have := ih p' nfrq (fun x hx => h1 x (List.mem_cons_of_mem _ hx))
        (fun x hx => h2 x (List.mem_cons_of_mem _ hx))
      simp only [stackRows, broadcast, hl, if_true, this]
      rfl

theorem foldlM_stack (nvel nfrq : ℕ) (Ts : List Transform) : ∀ (t t' : Transform),
    HasShape t.power nvel nfrq → (∀ T ∈ Ts, HasShape T.power nvel nfrq) →
    Ts.foldlM Workflow.stack t = .ok t' →
    t'.frequencies = t.frequencies ∧ t'.velocities = t.velocities ∧
    (⟨t'.n, t'.power⟩ : WT.Stackable ℂ) =
      (Ts.map fun T => (⟨T.n, T.power⟩ : WT.Stackable ℂ)).foldl WT.stack ⟨t.n, t.power⟩ := by
  induction Ts with
  | nil => intro t t' _ _ h; cases h; exact ⟨rfl, rfl, rfl⟩
  | cons T Ts ih =>
    intro t t' ht hT h
    have hT0 := hT T List.mem_cons_self
    rw [List.foldlM_cons] at h
    obtain ⟨t1, h1, h⟩ := bind_ok h
    unfold Workflow.stack at h1
    rw [stackRows_eq _ _ _ _ nfrq ht.2 hT0.2] at h1
    cases h1
    obtain ⟨g1, g2, g3⟩ := ih _ t' (stack_shape (s := ⟨t.n, t.power⟩) (o := ⟨T.n, T.power⟩) ht hT0)
      (fun x hx => hT x (List.mem_cons_of_mem _ hx)) h
    exact ⟨g1, g2, g3⟩

theorem empty_ok {ex : Arr} {set : Settings} {t : Transform} (h : Workflow.empty ex set = .ok t) :
    (⟨t.n, t.power⟩ : WT.Stackable ℂ) = WT.emptyTransform ℂ set.nvel.toNat t.frequencies.length := by
  unfold Workflow.empty at h
  rcases hs : ex.sensors with _ | ⟨s, ss⟩
  · rw [hs] at h; cases h
  rw [hs] at h
  simp only at h
  obtain ⟨ids, _, h⟩ := bind_ok h
  obtain ⟨vels, _, h⟩ := bind_ok h
  cases h
  simp [WT.emptyTransform]

/-- **C78** (mean).  The result of a frequency-domain run over a list of files is, at every trial velocity
and frequency, the mean of the transforms of the single files, all muted between the lines which the run leaves.  The
per-file transforms are of the shape of the result (as they are for files of one length and time step) and
count as one each. -/
theorem C78_mean (env : Env) (set : Settings) (f0 : String) (rest : List String) (r : Result)
    (h : frequencyDomain env set (.many (f0 :: rest)) = .ok r)
    (hshape : ∀ name ∈ f0 :: rest, ∀ level muted kw lines t, Spec.PerFile env set kw lines name level muted t →
      HasShape t.power set.nvel.toNat r.transform.frequencies.length ∧ t.n = 1) :
    ∃ T0 Ts level muted, Spec.PerFile env set none (r.final.signalStart, r.final.signalEnd) f0 level muted T0 ∧
      List.Forall₂ (fun f T => ∃ level muted,
        Spec.PerFile env set set.windowKwargs (r.final.signalStart, r.final.signalEnd) f level muted T) rest Ts ∧
      ∀ v c, v < set.nvel.toNat → c < r.transform.frequencies.length →
        cell r.transform.power v c =
          some (((T0 :: Ts).map fun T => (cell T.power v c).getD 0).sum / ((rest.length : ℂ) + 1)) := by
  obtain ⟨ex, t0, sf, _, T0, Ts, level, muted, -, h2, ⟨-, rfl⟩, -, h5, h6, h7, -⟩ := freqFiles_ok h
  refine ⟨T0, Ts, level, muted, h5, h6, ?_⟩
  have hT : ∀ T ∈ T0 :: Ts, HasShape T.power set.nvel.toNat r.transform.frequencies.length ∧ T.n = 1 := by
    intro T hT
    rcases List.mem_cons.1 hT with rfl | hT
    · exact hshape _ List.mem_cons_self _ _ _ _ _ h5
    · obtain ⟨i, hi, rfl⟩ := List.mem_iff_getElem.1 hT
      have hl := h6.length_eq
      obtain ⟨l, m, hp⟩ := (List.forall₂_iff_get.1 h6).2 i (by omega) hi
      exact hshape _ (List.mem_cons_of_mem _ (List.getElem_mem _)) _ _ _ _ _ hp
  have he := empty_ok h2
  -- the frequencies of the running stack are those of the result
  have hfreq : ∀ (Ts : List Transform) (t t' : Transform), Ts.foldlM Workflow.stack t = .ok t' →
      t'.frequencies = t.frequencies := by
    intro Ts
    induction Ts with
    | nil => intro t t' h; cases h; rfl
    | cons T Ts ih =>
      intro t t' h
      rw [List.foldlM_cons] at h
      obtain ⟨t1, h1, h⟩ := bind_ok h
      rw [ih t1 t' h]
      unfold Workflow.stack at h1
      obtain ⟨p, -, h1⟩ := bind_ok h1
      cases h1
      rfl
  have hf := hfreq _ _ _ h7
  rw [← hf] at he
  have hs0 : HasShape t0.power set.nvel.toNat r.transform.frequencies.length := by
    have : t0.power = (WT.emptyTransform ℂ set.nvel.toNat r.transform.frequencies.length).power :=
      congrArg WT.Stackable.power he
    rw [this]
    refine ⟨by simp [WT.emptyTransform], ?_⟩
    intro row hrow
    have := (List.mem_replicate.1 hrow).2
    simp [this]
  obtain ⟨-, -, h9⟩ := foldlM_stack _ _ _ _ _ hs0 (fun T hT' => (hT T hT').1) h7
  rw [he] at h9
  intro v c hv hc
  have := C64_plain_mean ℂ set.nvel.toNat r.transform.frequencies.length
    ((T0 :: Ts).map fun T => (⟨T.n, T.power⟩ : WT.Stackable ℂ)) (by simp)
    (by
      intro t ht
      obtain ⟨T, hT1, rfl⟩ := List.mem_map.1 ht
      exact hT T hT1) v c hv hc
  rw [← h9] at this
  rw [this, List.map_map]
  have hl := h6.length_eq
  simp only [List.length_map, List.length_cons, Nat.cast_add, Nat.cast_one, hl]
  rfl

/-- The hypotheses are met by a run over two files. -/
example : ∃ r, frequencyDomain exEnv exSet (.many ["a", "b"]) = .ok r ∧
    ∀ name ∈ ["a", "b"], ∀ level muted kw lines t, Spec.PerFile exEnv exSet kw lines name level muted t →
      HasShape t.power exSet.nvel.toNat r.transform.frequencies.length ∧ t.n = 1 := by
  obtain ⟨r, hr, hf, -⟩ := exFrequencyDomain
  refine ⟨r, hr, ?_⟩
  rintro name - level muted kw lines t ⟨raw, near, cut, padded, -, -, -, tr, htr, ht⟩
  have h1 : exEnv.transforms.createClass exSet.transform = .ok firstSample := rfl
  rw [h1] at htr
  cases htr
  cases ht
  rw [hf]
  exact ⟨⟨rfl, by simp⟩, rfl⟩

/-- **C78** (windows).  The signal-to-noise ratio of a frequency-domain run is that of the noise and signal
windows of the first file. -/
theorem C78_first_windows (env : Env) (set : Settings) (f0 : String) (rest : List String) (r : Result)
    (h : frequencyDomain env set (.many (f0 :: rest)) = .ok r) (hp : set.snrPerform = true) :
    ∃ T0 level muted noise signal windows q,
      Spec.PerFile env set none (r.final.signalStart, r.final.signalEnd) f0 level muted T0 ∧
      Spec.IsWindow level set.noiseBegin set.noiseEnd noise ∧
      Spec.IsWindow muted set.signalBegin set.signalEnd signal ∧
      WT.snr signal noise set.fmin set.fmax set.snrPad set.snrDf = (windows, .ok q) ∧ r.snr = some q := by
  obtain ⟨ex, t0, sf, _, T0, Ts, level, muted, -, -, ⟨-, rfl⟩, -, h5, -, -, -, h9⟩ := freqFiles_ok h
  obtain ⟨noise, signal, w, q, a, b, c, d⟩ := h9 hp
  exact ⟨T0, level, muted, noise, signal, w, q, h5, a, b, c, d⟩

theorem freqLoop_append (env : Env) (set : Settings) (ex : Arr) (g : List String) (fs : List String) :
    ∀ (st : Option State) (t : Transform), freqLoop env set ex st t (fs ++ g) =
      freqLoop env set ex st t fs >>= fun p => freqLoop env set ex p.1 p.2 g := by
  induction fs with
  | nil => intro st t; rfl
  | cons f fs ih =>
    intro st t
    simp only [List.cons_append, freqLoop]
    rcases freqFile env set ex st f with e | ⟨s, t1⟩
    · rfl
    · simp only [bind, Except.bind] at ih ⊢
      rcases lift (Workflow.stack t t1) with e | t2
      · rfl
      · exact ih (some s) t2

/-- **C78** (dissimilar file).  A successful run over some files, continued with a file of another number
of channels or another source position than the first, raises `ValueError`. -/
theorem C78_dissimilar_refused (env : Env) (set : Settings) (f0 : String) (before after : List String)
    (f : String) (r : Result) (raw0 raw : Arr)
    (h : frequencyDomain env set (.many (f0 :: before)) = .ok r)
    (h0 : fromFiles env (.one f0) = .ok raw0) (hf : fromFiles env (.one f) = .ok raw)
    (hne : raw.sensors.length ≠ raw0.sensors.length ∨ raw.source ≠ raw0.source) :
    frequencyDomain env set (.many (f0 :: before ++ f :: after)) = .error (.raised .valueError) := by
  obtain ⟨ex, t0, sf, -, -, -, -, -, h1, h2, ⟨h3, -⟩, -⟩ := freqFiles_ok h
  obtain ⟨raw0', e0, hc⟩ := exampleArray_ok h1
  rw [h0] at e0; cases e0
  have hnot : raw.isSimilar ex = false := by
    by_contra hcon
    have := (isSimilar_iff _ _).1 (by simpa using hcon)
    rcases hne with hl | hs
    · exact hl (this.1.trans hc.1)
    · exact hs (this.2.trans hc.2)
  have hreg : ∃ c, env.transforms.createClass set.transform = .ok c := by
    have hh : freqFiles env set (f0 :: before) = .ok r := h
    unfold freqFiles at hh
    obtain ⟨_, _, hh⟩ := bind_ok hh
    obtain ⟨_, _, hh⟩ := bind_ok hh
    obtain ⟨c, hc, hh⟩ := bind_ok hh
    exact ⟨c, lift_ok hc⟩
  obtain ⟨c, hc'⟩ := hreg
  have hfile : freqFile env set ex (some sf) f = .error (.raised .valueError) := by
    unfold freqFile
    rw [hf]
    simp only [bind, Except.bind, hnot, Bool.not_false, if_true]
    rfl
  show freqFiles env set (f0 :: (before ++ f :: after)) = _
  have hloop : freqLoop env set ex none t0 (f0 :: (before ++ f :: after)) = .error (.raised .valueError) := by
    rw [← List.cons_append, freqLoop_append, h3]
    simp only [bind, Except.bind, freqLoop, hfile]
  simp only [freqFiles, h1, h2, hc', bind, Except.bind, lift, hloop]

/-- The hypotheses are met: a file with a third channel, and a file with another source. -/
example : (∃ r, frequencyDomain exEnv exSet (.many ["a", "b"]) = .ok r) ∧
    (∃ raw0 raw raw', fromFiles exEnv (.one "a") = .ok raw0 ∧
      fromFiles exEnv (.one "three channels") = .ok raw ∧ raw.sensors.length ≠ raw0.sensors.length ∧
      fromFiles exEnv (.one "other source") = .ok raw' ∧ raw'.source ≠ raw0.source) := by
  obtain ⟨r, hr, -⟩ := exFrequencyDomain
  refine ⟨⟨r, hr⟩, exA, ⟨exA.sensors ++ [⟨⟨[3, 4], 1 / 1000, 1, 0, 1⟩, 4, 0, 0⟩], exA.source⟩,
    ⟨[⟨⟨[5, 6], 1 / 1000, 1, 0, 1⟩, 0, 0, 0⟩, ⟨⟨[7, 0], 1 / 1000, 1, 0, 1⟩, 2, 0, 0⟩], ⟨-6, 0, 0⟩⟩,
    exA_read, ?_, ?_, ?_, ?_⟩ <;> decide +kernel

/-- **C78** (only similar files).  Every file of a run which returns has the number of channels and the
source position of the first. -/
theorem C78_all_similar (env : Env) (set : Settings) (f0 : String) (rest : List String) (r : Result)
    (h : frequencyDomain env set (.many (f0 :: rest)) = .ok r) :
    ∃ raw0, fromFiles env (.one f0) = .ok raw0 ∧ ∀ f ∈ rest, ∃ raw, fromFiles env (.one f) = .ok raw ∧
      raw.sensors.length = raw0.sensors.length ∧ raw.source = raw0.source := by
  obtain ⟨ex, t0, sf, -, -, -, -, -, h1, -, -, h4, -⟩ := freqFiles_ok h
  obtain ⟨raw0, e0, hc⟩ := exampleArray_ok h1
  refine ⟨raw0, e0, fun f hf => ?_⟩
  obtain ⟨raw, hr, hs⟩ := h4 f (List.mem_cons_of_mem _ hf)
  exact ⟨raw, hr, hs.1.trans hc.1, hs.2.trans hc.2⟩

/-! ## C103: one frequency axis -/

/-- The files "a" and "slow"; the latter has a time step twice as long. -/
def exSlowFs : Fs := fun n =>
  match n with
  | "a" => exFs "a"
  | "slow" => some [{ seg2 0 (-5) 1 [5, 6] with delta := 2 / 1000 },
      { seg2 2 (-5) 1 [7, 0] with delta := 2 / 1000 }]
  | _ => none

/-- A transform of two frequencies: the first two samples, at the frequencies of the record. -/
noncomputable def firstSampleAt : Arr → Settings → Except PyErr Transform :=
  fun a _ => .ok ⟨1, (a.sensors.take 1).flatMap fun s => WT.binFrequencies 2 s.ts.dfInternal, [200],
    [[(((a.sensors.flatMap fun s => s.ts.amp).getD 0 0 : ℚ) : ℂ),
      (((a.sensors.flatMap fun s => s.ts.amp).getD 1 0 : ℚ) : ℂ)]]⟩

/-- **C103** fails: files with different time steps count as similar, and the frequency-domain workflow
averages their transforms column by column although the columns belong to different frequencies.  The file
"slow" alone is transformed at 0 and 250 Hz; in the run over both files its second column is averaged into
the value reported at 500 Hz: (2 + 6) / 2. -/
theorem C103_mixed_frequencies_fails :
    ∃ (env : Env) (set : Settings) (r : Result) (t : Transform) (level muted : Arr),
      frequencyDomain env set (.many ["a", "slow"]) = .ok r ∧
      r.transform.frequencies = [0, 500] ∧ r.transform.power = [[3, 4]] ∧
      Spec.PerFile env set none (none, none) "slow" level muted t ∧ t.frequencies = [0, 250] ∧
      t.power = [[5, 6]] := by
  let env : Env := { exEnv with fs := exSlowFs, transforms := [("first", firstSampleAt)] }
  let set : Settings := { exSet with snrPerform := false }
  let slow : Arr := ⟨[⟨⟨[5, 6], 2 / 1000, 1, 0, 1⟩, 0, 0, 0⟩, ⟨⟨[7, 0], 2 / 1000, 1, 0, 1⟩, 2, 0, 0⟩],
    ⟨-5, 0, 0⟩⟩
  obtain ⟨v, hv⟩ := exA_empty
  have hv' : Workflow.empty exA set = .ok ⟨0, [0, 500], v, [[0, 0]]⟩ := hv
  have ra : Workflow.fromFiles env (.one "a") = .ok exA := by decide +kernel
  have rs : Workflow.fromFiles env (.one "slow") = .ok slow := by decide +kernel
  have hex : exampleArray env set "a" = .ok exA := by decide +kernel
  have hda : Workflow.detrend env exA = exA := by decide +kernel
  have hds : Workflow.detrend env slow = slow := by decide +kernel
  have cs : check slow = .ok () := by decide +kernel
  have ns : trimOffsetsFl slow 0 .pinf = (slow, .ok ()) := by decide +kernel
  have ss : slow.isSimilar exA = true := by decide +kernel
  have ba : WT.binFrequencies 2 (⟨[1, 2], 1 / 1000, 1, 0, 1⟩ : ATS).dfInternal = [0, 500] := by decide +kernel
  have bs : WT.binFrequencies 2 (⟨[5, 6], 2 / 1000, 1, 0, 1⟩ : ATS).dfInternal = [0, 250] := by decide +kernel
  have ta : firstSampleAt exA set = .ok ⟨1, [0, 500], [200], [[((1 : ℚ) : ℂ), ((2 : ℚ) : ℂ)]]⟩ := by
    rw [← ba]; rfl
  have ts : firstSampleAt slow set = .ok ⟨1, [0, 250], [200], [[((5 : ℚ) : ℂ), ((6 : ℚ) : ℂ)]]⟩ := by
    rw [← bs]; rfl
  have hc : env.transforms.createClass set.transform = .ok firstSampleAt := rfl
  have fa : freqFile env set exA none "a" = .ok (⟨exA, none, none, none, none⟩,
      ⟨1, [0, 500], [200], [[((1 : ℚ) : ℂ), ((2 : ℚ) : ℂ)]]⟩) := by
    unfold freqFile
    rw [ra]
    simp only [bind, Except.bind, exA_check, exA_similar, Workflow.trimOffsets, State.new, set, exSet, exA_near,
      call, pure, Except.pure, hda, selectNoise, Bool.false_and, if_true, trimTime, Bool.false_eq_true,
      if_false, Workflow.mute, selectSignal, Workflow.pad, Bool.not_true]
    have : Workflow.transform env set exA = lift (firstSampleAt exA set) := by
      unfold Workflow.transform
      rw [hc]
      rfl
    rw [ta] at this
    simp only [set, exSet] at this
    rw [this]
    rfl
  have fb : freqFile env set exA (some ⟨exA, none, none, none, none⟩) "slow" =
      .ok (⟨slow, none, none, none, none⟩,
        ⟨1, [0, 250], [200], [[((5 : ℚ) : ℂ), ((6 : ℚ) : ℂ)]]⟩) := by
    unfold freqFile
    rw [rs]
    simp only [bind, Except.bind, cs, ss, Workflow.trimOffsets, set, exSet, ns,
      call, pure, Except.pure, hds, selectNoise, Bool.false_and, if_true, trimTime, Bool.false_eq_true,
      if_false, Workflow.mute, selectSignal, Workflow.pad, Bool.not_true]
    have : Workflow.transform env set slow = lift (firstSampleAt slow set) := by
      unfold Workflow.transform
      rw [hc]
      rfl
    rw [ts] at this
    simp only [set, exSet] at this
    rw [this]
    rfl
  have s1 : Workflow.stack ⟨0, [0, 500], v, [[0, 0]]⟩
      ⟨1, [0, 500], [200], [[((1 : ℚ) : ℂ), ((2 : ℚ) : ℂ)]]⟩ = .ok ⟨1, [0, 500], v, [[1, 2]]⟩ := by
    simp [Workflow.stack, stackRows, broadcast, bind, Except.bind, pure, Except.pure]
  have s2 : Workflow.stack ⟨1, [0, 500], v, [[1, 2]]⟩
      ⟨1, [0, 250], [200], [[((5 : ℚ) : ℂ), ((6 : ℚ) : ℂ)]]⟩ = .ok ⟨2, [0, 500], v, [[3, 4]]⟩ := by
    simp [Workflow.stack, stackRows, broadcast, bind, Except.bind, pure, Except.pure]
    norm_num
  have hl : freqLoop env set exA none ⟨0, [0, 500], v, [[0, 0]]⟩ ["a", "slow"] =
      .ok (some ⟨slow, none, none, none, none⟩, ⟨2, [0, 500], v, [[3, 4]]⟩) := by
    simp only [freqLoop, fa, fb, bind, Except.bind, s1, s2, lift]
  refine ⟨env, set, ⟨⟨2, [0, 500], v, [[3, 4]]⟩, slow, none, ⟨slow, none, none, none, none⟩⟩,
    ⟨1, [0, 250], [200], [[((5 : ℚ) : ℂ), ((6 : ℚ) : ℂ)]]⟩, slow, slow, ?_, rfl, rfl,
    ⟨slow, slow, slow, slow, rs, check_ok cs, ⟨ns, rfl, ?_, ?_, ?_, ?_⟩, firstSampleAt, hc, ts⟩, rfl, ?_⟩
  · simp only [frequencyDomain, freqFiles, hex, hv', hc, bind, Except.bind, lift, hl]
    unfold calculateSnr
    simp only [set, Bool.false_eq_true, if_false]
    rfl
  · decide +kernel
  · simp [set, exSet]
  · simp [set, exSet]
  · simp [set, exSet]
  · norm_num

end Verif.Props
