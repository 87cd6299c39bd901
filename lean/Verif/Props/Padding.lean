import Verif.Props.Power
import Verif.Props.ZeroPad
import Verif.Props.FreqVelocity
import Verif.Props.Noise
import Verif.Props.SameAxes

/-!
# C175: zero padding adds frequencies and changes no power
-/

open Complex

namespace Verif.Props
open Verif WT Spec Workflow

/-- `b` is the array `a` with zeros after the samples of each record; the interval between the samples, the positions and
the source are the same. -/
def ZerosAfter (a b : Arr) : Prop :=
  b.source = a.source ∧ List.Forall₂ (fun s t => (∃ k, t.ts.amp = s.ts.amp ++ List.replicate k 0) ∧ t.ts.dt = s.ts.dt ∧
    t.x = s.x) a.sensors b.sensors

/-- `t` holds the same recording as `s` from the same place, up to zeros at the end. -/
def SameButZeros (s t : Sensor) : Prop :=
  (∃ (u : List ℚ) (k l : ℕ), s.ts.amp = u ++ List.replicate k 0 ∧ t.ts.amp = u ++ List.replicate l 0) ∧
    t.ts.dt = s.ts.dt ∧ t.x = s.x

theorem sameButZeros_spectrum {s t : Sensor} (h : SameButZeros s t) (f : ℝ) : spectrumAt f t = spectrumAt f s := by
  obtain ⟨⟨u, k, l, h1, h2⟩, h3, -⟩ := h
  unfold spectrumAt
  rw [h1, h2, h3, component_append_zeros, component_append_zeros]

theorem zerosAfter_same {a b b' : Arr} (h : ZerosAfter a b) (h' : ZerosAfter a b') :
    b'.source = b.source ∧ List.Forall₂ SameButZeros b.sensors b'.sensors := by
  refine ⟨by rw [h'.1, h.1], ?_⟩
  have key : ∀ l m m' : List Sensor,
      List.Forall₂ (fun s t : Sensor => (∃ k, t.ts.amp = s.ts.amp ++ List.replicate k 0) ∧ t.ts.dt = s.ts.dt ∧ t.x = s.x) l m →
      List.Forall₂ (fun s t : Sensor => (∃ k, t.ts.amp = s.ts.amp ++ List.replicate k 0) ∧ t.ts.dt = s.ts.dt ∧ t.x = s.x) l m' →
      List.Forall₂ SameButZeros m m' := by
    intro l
    induction l with
    | nil => intro m m' h1 h2; cases h1; cases h2; exact .nil
    | cons s l ih =>
      intro m m' h1 h2
      cases h1 with
      | cons a1 r1 =>
        cases h2 with
        | cons a2 r2 =>
          obtain ⟨⟨k, e1⟩, e2, e3⟩ := a1
          obtain ⟨⟨k', e1'⟩, e2', e3'⟩ := a2
          exact .cons ⟨⟨_, _, _, e1, e1'⟩, by rw [e2, e2'], by rw [e3, e3']⟩ (ih _ _ r1 r2)
  exact key _ _ _ h.2 h'.2

/-- Successful zero padding of an array. -/
theorem zeroPad_zerosAfter {a b : Arr} {df : ℚ} (h : a.zeroPad df = (b, .ok ()))
    (hs : ∀ s ∈ a.sensors, 0 < s.ts.dt ∧ 0 < s.ts.nsamples) : ZerosAfter a b := by
  have key : ∀ l l' : List Sensor, Arr.forSensors (fun r => r.zeroPad df) l = (l', .ok ()) →
      (∀ s ∈ l, 0 < s.ts.dt ∧ 0 < s.ts.nsamples) →
      List.Forall₂ (fun s t : Sensor => (∃ k, t.ts.amp = s.ts.amp ++ List.replicate k 0) ∧ t.ts.dt = s.ts.dt ∧ t.x = s.x) l l' := by
    intro l
    induction l with
    | nil => intro l' h _; cases h; exact .nil
    | cons s l ih =>
      intro l' h hs
      unfold Arr.forSensors at h
      rcases hz : s.ts.zeroPad df with ⟨r, e | ⟨⟨⟩⟩⟩
      · rw [hz] at h; cases h
      rw [hz] at h
      simp only at h
      rcases hr : Arr.forSensors (fun r => r.zeroPad df) l with ⟨m, o⟩
      rw [hr] at h
      cases h
      obtain ⟨h1, h2⟩ := hs s (by simp)
      obtain ⟨-, N, -, -, ⟨k, hk, -⟩, -, -, hdt, -⟩ := C03_zero_pad_reaches_step s.ts r df h1 h2 hz
      exact .cons ⟨⟨k, hk⟩, hdt, rfl⟩ (ih _ hr fun s' hs' => hs s' (by simp [hs']))
  unfold Arr.zeroPad at h
  rcases hr : Arr.forSensors (fun r => r.zeroPad df) a.sensors with ⟨m, o⟩
  rw [hr] at h
  cases h
  exact ⟨rfl, key _ _ hr hs⟩

theorem forall2_sum {g g' : Sensor → ℂ} {l m : List Sensor} (h : List.Forall₂ SameButZeros l m)
    (hg : ∀ s t, SameButZeros s t → g' t = g s) : (m.map g').sum = (l.map g).sum := by
  induction h with
  | nil => rfl
  | cons h _ ih => simp only [List.map_cons, List.sum_cons, ih, hg _ _ h]

/-- The sensors from near to far correspond. -/
theorem nearToFar_same {a b : Arr} {ss : List Sensor} (hs : b.source = a.source)
    (h : List.Forall₂ SameButZeros a.sensors b.sensors) (hn : NearToFar a ss) :
    ∃ tt, NearToFar b tt ∧ List.Forall₂ SameButZeros ss tt := by
  obtain ⟨hp, ho⟩ := hn
  obtain ⟨tt, h1, h2⟩ := List.perm_comp_forall₂ hp h
  refine ⟨tt, ⟨h2, ?_⟩, h1⟩
  have e : tt.map (offset b.source) = ss.map (offset a.source) := by
    clear hp ho h2
    induction h1 with
    | nil => rfl
    | cons h _ ih => rw [List.map_cons, List.map_cons, ih, offset, offset, hs, h.2.2]
  have := (List.pairwise_map (f := offset a.source) (R := (· < ·))).2 ho
  rw [← e] at this
  exact List.pairwise_map.1 this

theorem phaseShiftPower_same {a b : Arr} {ss tt : List Sensor} (hs : b.source = a.source)
    (h : List.Forall₂ SameButZeros ss tt) (f v : ℝ) :
    phaseShiftPower b.source tt f v = phaseShiftPower a.source ss f v := by
  unfold phaseShiftPower
  congr 2
  induction h with
  | nil => rfl
  | @cons s t _ _ h _ ih =>
    have e : offset b.source t = offset a.source s := by rw [offset, offset, hs, h.2.2]
    rw [List.map_cons, List.map_cons, ih, e, sameButZeros_spectrum h f]

theorem beamformingPower_same {a b : Arr} (hs : b.source = a.source) (h : List.Forall₂ SameButZeros a.sensors b.sensors)
    (weighting : Option String) (lag : ℝ → ℝ) (f v : ℝ) :
    beamformingPower b (weightOf b.source weighting f) lag f v = beamformingPower a (weightOf a.source weighting f) lag f v := by
  unfold beamformingPower
  congr 2
  refine forall2_sum h fun s t hst => ?_
  unfold weightOf
  rw [sameButZeros_spectrum hst f, hs]
  simp only [offset, hst.2.2]

/-- The powers of two images agree at common velocities and frequencies for which `P` holds. -/
def SamePowers (P : ℚ → Prop) (t t' : Transform) : Prop :=
  ∀ (i i' j j' : ℕ) (v : ℝ) (f : ℚ), t.velocities[i]? = some v → t'.velocities[i']? = some v →
    t.frequencies[j]? = some f → t'.frequencies[j']? = some f → P f →
    ∃ p, (t.power[i]?.bind fun row => row[j]?) = some p ∧ (t'.power[i']?.bind fun row => row[j']?) = some p

theorem forall2_right {R : Sensor → Sensor → Prop} {l m : List Sensor} (h : List.Forall₂ R l m) :
    ∀ t ∈ m, ∃ s ∈ l, R s t := by
  induction h with
  | nil => intro t ht; cases ht
  | cons h _ ih =>
    intro t ht
    rcases List.mem_cons.1 ht with rfl | ht
    · exact ⟨_, by simp, h⟩
    · obtain ⟨s, hs, hr⟩ := ih t ht
      exact ⟨s, by simp [hs], hr⟩

/-- **C175** (phase shift). -/
theorem C175_phase_shift (base a b : Arr) (ha : ZerosAfter base a) (hb : ZerosAfter base b) (p q : Settings)
    (t t' : Transform) (ht : Builtin.phaseShift a p = .ok t) (ht' : Builtin.phaseShift b q = .ok t')
    (hca : Consistent a) (hcb : Consistent b) (hdt : ∀ s ∈ a.sensors, 0 < s.ts.dt)
    (hout : (∀ s ∈ a.sensors, a.source.x ≤ s.x) ∨ (∀ s ∈ a.sensors, s.x < a.source.x)) :
    SamePowers (fun f => ∀ s ∈ a.sensors, spectrumAt f s ≠ 0) t t' := by
  obtain ⟨hs, hf⟩ := zerosAfter_same ha hb
  have hr := forall2_right hf
  have hdt' : ∀ s ∈ b.sensors, 0 < s.ts.dt := fun s hs' => by
    obtain ⟨s0, h0, -, e, -⟩ := hr s hs'
    rw [e]; exact hdt s0 h0
  have hout' : (∀ s ∈ b.sensors, b.source.x ≤ s.x) ∨ (∀ s ∈ b.sensors, s.x < b.source.x) := by
    refine hout.imp (fun h s hs' => ?_) (fun h s hs' => ?_)
    all_goals
      obtain ⟨s0, h0, -, -, e⟩ := hr s hs'
      rw [e, hs]; exact h s0 h0
  obtain ⟨ss, n1, -, -, h1⟩ := C117_phase_shift a p t ht hca hdt hout
  obtain ⟨tt, n2, -, -, h2⟩ := C117_phase_shift b q t' ht' hcb hdt' hout'
  obtain ⟨tt', n3, hf'⟩ := nearToFar_same hs hf n1
  obtain rfl := nearToFar_unique n2 n3
  intro i i' j j' v f hi hi' hj hj' hne
  refine ⟨_, h1 i j v f hi hj hne, ?_⟩
  rw [h2 i' j' v f hi' hj' fun s hs' => ?_, phaseShiftPower_same hs hf']
  obtain ⟨s0, h0, e⟩ := hr s hs'
  rw [sameButZeros_spectrum e]
  exact hne s0 h0

/-- **C175** (beamforming).  With the weights of the inverse amplitude no spectrum must vanish. -/
theorem C175_beamforming (hankel : ℝ → ℂ) (base a b : Arr) (ha : ZerosAfter base a) (hb : ZerosAfter base b)
    (p q : Settings) (hpq : p.fdbf = q.fdbf) (t t' : Transform) (ht : Builtin.fdbf hankel a p = .ok t)
    (ht' : Builtin.fdbf hankel b q = .ok t') (hca : Consistent a) (hcb : Consistent b)
    (hdt : ∀ s ∈ a.sensors, 0 < s.ts.dt) :
    SamePowers (fun f => (Builtin.specific p.fdbf).get "weighting" = some "invamp" →
      ∀ s ∈ a.sensors, spectrumAt f s ≠ 0) t t' := by
  obtain ⟨hs, hf⟩ := zerosAfter_same ha hb
  have hr := forall2_right hf
  have hdt' : ∀ s ∈ b.sensors, 0 < s.ts.dt := fun s hs' => by
    obtain ⟨s0, h0, -, e, -⟩ := hr s hs'
    rw [e]; exact hdt s0 h0
  obtain ⟨-, -, h1⟩ := C117_beamforming hankel a p t ht hca hdt
  obtain ⟨-, -, h2⟩ := C117_beamforming hankel b q t' ht' hcb hdt'
  intro i i' j j' v f hi hi' hj hj' hne
  refine ⟨_, h1 i j v f hi hj hne, ?_⟩
  rw [h2 i' j' v f hi' hj' fun hw s hs' => ?_, ← hpq, beamformingPower_same hs hf]
  obtain ⟨s0, h0, e⟩ := hr s hs'
  rw [sameButZeros_spectrum e]
  rw [← hpq] at hw
  exact hne hw s0 h0

/-- **C175** (frequency-wavenumber). -/
theorem C175_fk (hankel : ℝ → ℂ) (base a b : Arr) (ha : ZerosAfter base a) (hb : ZerosAfter base b) (p : Settings)
    (t t' : Transform) (ht : Builtin.fk hankel a p = .ok t) (ht' : Builtin.fk hankel b p = .ok t')
    (hca : Consistent a) (hcb : Consistent b) (hdt : ∀ s ∈ a.sensors, 0 < s.ts.dt) :
    SamePowers (fun _ => True) t t' := by
  obtain ⟨d, d1, d2, hd⟩ := fk_eq_fdbf hankel a p t ht
  rw [hd] at ht ht'
  have := C175_beamforming hankel base a b ha hb _ _ rfl t t' ht ht' hca hcb hdt
  intro i i' j j' v f hi hi' hj hj' _
  refine this i i' j j' v f hi hi' hj hj' fun hw => ?_
  have hw' : (Builtin.specific (some d)).get "weighting" = some "invamp" := hw
  rw [d1] at hw'
  exact absurd hw' (by decide)

/-- **C175** (workflow).  Two time-domain runs over the same files, the second with zero padding and otherwise with the
same settings: the array of the second is that of the first with zeros after the samples, the signal-to-noise ratios and
the trial velocities are the same, and wherever the two images have a column at the same frequency the powers are the
same, for all transforms but the slant stack (and "empty", whose powers are all zero). -/
theorem C175_workflow_partial (env : Env) (hankel : ℝ → ℂ) (geom : ℚ → ℚ → ℕ → List ℚ)
    (hg : ∀ a b n, (geom a b n).length = n) (hb : env.transforms = Builtin.transforms hankel geom) (set : Settings) (hoff : set.padApply = false) (df : ℚ)
    (f : Fnames) (r r' : Result) (h : timeDomain env set f = .ok r)
    (h' : timeDomain env { set with padApply := true, padDf := df } f = .ok r')
    (hc : Consistent r.array) (hs : ∀ s ∈ r.array.sensors, 0 < s.ts.dt ∧ 0 < s.ts.nsamples)
    (hout : (∀ s ∈ r.array.sensors, r.array.source.x ≤ s.x) ∨ (∀ s ∈ r.array.sensors, s.x < r.array.source.x)) :
    ZerosAfter r.array r'.array ∧ r'.snr = r.snr ∧
    (set.transform ∈ ["phaseshift", "fdbf", "fk"] → r'.transform.velocities = r.transform.velocities ∧
      SamePowers (fun f => ∀ s ∈ r.array.sensors, spectrumAt f s ≠ 0) r.transform r'.transform) ∧
    (set.transform = "fk" → SamePowers (fun _ => True) r.transform r'.transform) := by
  unfold timeDomain at h h'
  obtain ⟨raw, hraw, h⟩ := bind_ok h
  obtain ⟨⟨⟩, hcheck, h⟩ := bind_ok h
  obtain ⟨s1, h1, h⟩ := bind_ok h
  obtain ⟨s2, h2, h⟩ := bind_ok h
  obtain ⟨s3, h3, h⟩ := bind_ok h
  obtain ⟨s4, h4, h⟩ := bind_ok h
  obtain ⟨s5, h5, h⟩ := bind_ok h
  obtain ⟨⟨s6, q⟩, h6, h⟩ := bind_ok h
  simp only at h
  obtain ⟨s7, h7, h⟩ := bind_ok h
  obtain ⟨t, h8, h⟩ := bind_ok h
  cases h
  obtain ⟨raw', hraw', h'⟩ := bind_ok h'
  obtain rfl := Except.ok.inj (hraw.symm.trans hraw')
  obtain ⟨⟨⟩, hcheck', h'⟩ := bind_ok h'
  obtain ⟨s1', h1', h'⟩ := bind_ok h'
  obtain rfl := Except.ok.inj (h1.symm.trans h1')
  obtain ⟨s2', h2', h'⟩ := bind_ok h'
  obtain rfl := Except.ok.inj (h2.symm.trans h2')
  obtain ⟨s3', h3', h'⟩ := bind_ok h'
  obtain rfl := Except.ok.inj (h3.symm.trans h3')
  obtain ⟨s4', h4', h'⟩ := bind_ok h'
  obtain rfl := Except.ok.inj (h4.symm.trans h4')
  obtain ⟨s5', h5', h'⟩ := bind_ok h'
  obtain rfl := Except.ok.inj (h5.symm.trans h5')
  obtain ⟨⟨s6', q'⟩, h6', h'⟩ := bind_ok h'
  obtain ⟨rfl, rfl⟩ := Prod.mk.inj (Except.ok.inj (h6.symm.trans h6'))
  simp only at h'
  obtain ⟨s7', h7', h'⟩ := bind_ok h'
  obtain ⟨t', h8', h'⟩ := bind_ok h'
  cases h'
  obtain ⟨a7, p7, e7⟩ := pad_ok h7
  obtain ⟨b7, p7', e7'⟩ := pad_ok h7'
  rw [hoff] at p7
  simp only [Bool.false_eq_true, if_false] at p7
  simp only [if_true] at p7'
  subst e7 e7' p7
  simp only at hc hs hout h8 h8' ⊢
  have hz := zeroPad_zerosAfter p7' hs
  have h0 : ZerosAfter s6.array s6.array := by
    refine ⟨rfl, ?_⟩
    generalize s6.array.sensors = l
    induction l with
    | nil => exact .nil
    | cons s l ih => exact .cons ⟨⟨0, by simp⟩, rfl, rfl⟩ ih
  have hcb : Consistent b7 := by
    have := ArrOp.run_consistent s6.array (.zeroPad df) hc
    simpa only [ArrOp.run, p7'] using this
  have hdt : ∀ s ∈ s6.array.sensors, 0 < s.ts.dt := fun s hs' => (hs s hs').1
  obtain ⟨tr, k1, k2⟩ := transform_ok h8
  obtain ⟨tr', k1', k2'⟩ := transform_ok h8'
  rw [hb] at k1 k1'
  obtain rfl := Except.ok.inj (k1.symm.trans k1')
  have hall : set.transform = "fk" → SamePowers (fun _ => True) t t' := by
    intro hn
    rw [hn] at k1
    have : Builtin.fk hankel = tr := Except.ok.inj k1
    subst this
    exact C175_fk hankel s6.array _ _ h0 hz set t t' k2 k2' hc hcb hdt
  refine ⟨hz, trivial, ?_, hall⟩
  intro hn
  have hvel : t'.velocities = t.velocities := by
    have hns : set.transform ≠ "slantstack" := by
      intro e
      rw [e] at hn
      exact absurd hn (by decide)
    have e1 := (registered_axes hg k1 k2).real hns
    have e2 := (registered_axes hg k1' k2').real hns
    exact Except.ok.inj (e2.symm.trans e1)
  refine ⟨hvel, ?_⟩
  simp only [List.mem_cons, List.not_mem_nil, or_false] at hn
  rcases hn with hn | hn | hn
  · rw [hn] at k1
    have : Builtin.phaseShift = tr := Except.ok.inj k1
    subst this
    exact C175_phase_shift s6.array _ _ h0 hz _ _ t t' k2 k2' hc hcb hdt hout
  · rw [hn] at k1
    have : Builtin.fdbf hankel = tr := Except.ok.inj k1
    subst this
    intro i i' j j' v f hi hi' hj hj' hne
    exact C175_beamforming hankel s6.array _ _ h0 hz _ _ rfl t t' k2 k2' hc hcb hdt i i' j j' v f hi hi' hj hj' fun _ => hne
  · intro i i' j j' v f hi hi' hj hj' hne
    exact hall hn i i' j j' v f hi hi' hj hj' trivial

/-! ## The slant stack -/

/-- The settings of `slantSet` from 0 Hz. -/
def slantFrom0 : Settings := { slantSet with fmin := 0 }

/-- The slant stack of four or eight samples from 0 Hz. -/
theorem slantFrom0_transform (set : Settings) (n : ℕ) (df : ℚ) (u v : List ℚ) (rows : List (List ℚ)) (ids : List ℕ) (frqs : List ℚ)
    (hset : set.fmin = 0 ∧ set.fmax = 600 ∧ set.vmin = 2000 ∧ set.vmax = 4000 ∧ set.nvel = 2 ∧ set.vspace = "linear")
    (h : slantStackOfArray (slantRecord 1 u v) [2000, 4000] = .ok rows) (hn : u.length = n)
    (hdf : (⟨u, 1 / 1000, 1, 0, 1⟩ : ATS).dfInternal = df)
    (hids : keepIds (binFrequencies n df) 0 600 1 = .ok ids)
    (hf : ids.map (fun k => (binFrequencies n df).getD k 0) = frqs) :
    ∃ T, Builtin.slantStack (fun a _ n => List.replicate n a) (slantRecord 1 u v) set = .ok T ∧
      T.frequencies = frqs ∧ T.velocities = [2000, 4000] ∧
      T.power = rows.map fun row => ids.map fun k => Builtin.fftPadded row n k := by
  obtain ⟨g1, g2, g3, g4, g5, g6⟩ := hset
  have hv : Builtin.velocitiesQ (fun a _ n => List.replicate n a) set = .ok [2000, 4000] := by
    simp only [Builtin.velocitiesQ, g3, g4, g5, g6]
    norm_num [List.range_succ, show Int.toNat 2 = 2 from rfl]
  refine ⟨⟨1, frqs, [2000, 4000].map fun (v : ℚ) => (v : ℝ), _⟩, ?_, rfl, by simp, rfl⟩
  unfold slantRecord at h
  unfold Builtin.slantStack
  have hn' : (⟨u, 1 / 1000, 1, 0, 1⟩ : ATS).nsamples = n := hn
  simp only [hv, bind, Except.bind, slantRecord, hdf, h, hn', g1, g2, hids, hf, pure, Except.pure]

/-- **C175** fails for the slant stack.  Of two receivers 2 m apart the four samples at 1 kHz are stacked at 2000 m/s.
Without padding two delays are stacked, with padding to 125 Hz six, and the two images, which both have a column at 0 Hz,
have the values 4 and 13 in it. -/
theorem C175_slant_stack_fails :
    ∃ (env : Env) (hankel : ℝ → ℂ) (geom : ℚ → ℚ → ℕ → List ℚ) (set : Settings) (df : ℚ) (f : Fnames) (r r' : Result),
      env.transforms = Builtin.transforms hankel geom ∧ set.transform = "slantstack" ∧ set.padApply = false ∧
      timeDomain env set f = .ok r ∧ timeDomain env { set with padApply := true, padDf := df } f = .ok r' ∧
      ZerosAfter r.array r'.array ∧ r.transform.velocities = r'.transform.velocities ∧
      r.transform.frequencies.head? = some 0 ∧ r'.transform.frequencies.head? = some 0 ∧
      (r.transform.power[0]?.bind fun row => row[0]?) = some 4 ∧
      (r'.transform.power[0]?.bind fun row => row[0]?) = some 13 := by
  obtain ⟨T, hT, h1, h2, h3⟩ := slantFrom0_transform slantFrom0 4 250 [1, 2, 3, 4] [0, 1, 0, 2] [[2, 2], [3 / 2, 5 / 2]]
    [0, 1, 2] [0, 250, 500] ⟨rfl, rfl, rfl, rfl, rfl, rfl⟩ (by decide +kernel) rfl (by decide +kernel) (by decide +kernel)
    (by decide +kernel)
  obtain ⟨T', hT', h1', h2', h3'⟩ := slantFrom0_transform { slantFrom0 with padApply := true, padDf := 125 } 8 125
    [1, 2, 3, 4, 0, 0, 0, 0] [0, 1, 0, 2, 0, 0, 0, 0] [[2, 2, 5, 4, 0, 0], [3 / 2, 5 / 2, 4, 5, 0, 0]]
    [0, 1, 2, 3, 4, 5] [0, 125, 250, 375, 500, 625] ⟨rfl, rfl, rfl, rfl, rfl, rfl⟩ (by decide +kernel) rfl
    (by decide +kernel) (by decide +kernel) (by decide +kernel)
  obtain ⟨r, hr, a1, e1, -⟩ := C76_run_returns slantShots slantFrom0 (.one "first") _ _ _ _ _ _ (none, none) T slant_first
    (by simp [slantRecord]) (slantRecord_outside _ _ _) ⟨by decide +kernel, rfl, rfl, rfl, rfl, rfl⟩ (fun h => by cases h)
    ⟨_, rfl, hT⟩ none (fun _ => rfl) (fun h => by cases h)
  obtain ⟨r', hr', a1', e1', -⟩ := C76_run_returns slantShots { slantFrom0 with padApply := true, padDf := 125 } (.one "first") _
    (slantRecord 1 [1, 2, 3, 4] [0, 1, 0, 2]) (slantRecord 1 [1, 2, 3, 4] [0, 1, 0, 2]) (slantRecord 1 [1, 2, 3, 4] [0, 1, 0, 2])
    (slantRecord 1 [1, 2, 3, 4] [0, 1, 0, 2])
    (slantRecord 1 [1, 2, 3, 4, 0, 0, 0, 0] [0, 1, 0, 2, 0, 0, 0, 0]) (none, none) T' slant_first (by simp [slantRecord])
    (slantRecord_outside _ _ _) ⟨by decide +kernel, rfl, rfl, rfl, rfl, by decide +kernel⟩ (fun h => by cases h) ⟨_, rfl, hT'⟩ none
    (fun _ => rfl) (fun h => by cases h)
  refine ⟨slantShots, _, _, slantFrom0, 125, .one "first", r, r', rfl, rfl, rfl, hr, hr', ?_, ?_, ?_, ?_, ?_, ?_⟩
  · rw [a1, a1']
    exact ⟨rfl, .cons ⟨⟨4, rfl⟩, rfl, rfl⟩ (.cons ⟨⟨4, rfl⟩, rfl, rfl⟩ .nil)⟩
  · rw [e1, e1', h2, h2']
  · rw [e1, h1]; rfl
  · rw [e1', h1']; decide +kernel
  · rw [e1, h3]
    norm_num [Builtin.fftPadded, WT.fftBin, Finset.sum_range_succ]
  · rw [e1', h3']
    norm_num [Builtin.fftPadded, WT.fftBin, Finset.sum_range_succ]

/-- The phase-shift transform of such a record returns. -/
theorem phaseRecord_transform (set : Settings) (n : ℕ) (df : ℚ) (u v : List ℚ) (ids : List ℕ) (frqs : List ℚ)
    (hset : set.fmin = 0 ∧ set.fmax = 600 ∧ set.nvel = 2 ∧ set.vspace = "linear") (hn : u.length = n)
    (hdf : (⟨u, 1 / 1000, 1, 0, 1⟩ : ATS).dfInternal = df)
    (hids : (⟨[u, v], [5, 7], n, df, 1⟩ : WT.Record).keepIds ⟨0, 600⟩ = .ok ids)
    (hf : ids.map (fun k => (binFrequencies n df).getD k 0) = frqs)
    (hr : (slantRecord 1 u v).flippedTseriesAndOffsets = .ok ([u, v], [5, 7])) :
    ∃ T, Builtin.phaseShift (slantRecord 1 u v) set = .ok T ∧ T.frequencies = frqs := by
  obtain ⟨g1, g2, g3, g4⟩ := hset
  obtain ⟨w, hv⟩ : ∃ w, Builtin.velocities set = .ok w := by
    simp [Builtin.velocities, WT.createVector, g3, g4]
  have hr' : WT.Record.ofArray (slantRecord 1 u v) = .ok ⟨[u, v], [5, 7], n, df, 1⟩ := by
    unfold WT.Record.ofArray
    rw [hr]
    have hn' : (⟨u, 1 / 1000, 1, 0, 1⟩ : ATS).nsamples = n := hn
    simp only [bind, Except.bind, slantRecord, hdf, hn']
    rfl
  unfold Builtin.phaseShift
  rw [hv, hr']
  simp only [bind, Except.bind, WT.phaseShift, g1, g2, hids]
  exact ⟨_, rfl, hf⟩

/-- The hypotheses of `C175_workflow_partial` are met by the phase-shift transform of the file "first", without padding and
with padding to 125 Hz.  Both images have a column at 0 Hz, where no spectrum vanishes, and the powers in it are equal. -/
example : ∃ r r', timeDomain slantShots { slantFrom0 with transform := "phaseshift" } (.one "first") = .ok r ∧
    timeDomain slantShots { slantFrom0 with transform := "phaseshift", padApply := true, padDf := 125 } (.one "first") = .ok r' ∧
    r.transform.frequencies = [0, 250, 500] ∧ r'.transform.frequencies = [0, 125, 250, 375, 500, 625] ∧
    ∃ p, (r.transform.power[0]?.bind fun row => row[0]?) = some p ∧
      (r'.transform.power[0]?.bind fun row => row[0]?) = some p := by
  obtain ⟨T, hT, h1⟩ := phaseRecord_transform { slantFrom0 with transform := "phaseshift" } 4 250 [1, 2, 3, 4] [0, 1, 0, 2]
    [0, 1, 2] [0, 250, 500] ⟨rfl, rfl, rfl, rfl⟩ rfl (by decide +kernel) (by decide +kernel) (by decide +kernel)
    (by decide +kernel)
  obtain ⟨T', hT', h1'⟩ := phaseRecord_transform
    { slantFrom0 with transform := "phaseshift", padApply := true, padDf := 125 } 8 125
    [1, 2, 3, 4, 0, 0, 0, 0] [0, 1, 0, 2, 0, 0, 0, 0] [0, 1, 2, 3, 4, 5] [0, 125, 250, 375, 500, 625]
    ⟨rfl, rfl, rfl, rfl⟩ rfl (by decide +kernel) (by decide +kernel) (by decide +kernel) (by decide +kernel)
  obtain ⟨r, hr, a1, e1, -⟩ := C76_run_returns slantShots { slantFrom0 with transform := "phaseshift" } (.one "first")
    _ _ _ _ _ _ (none, none) T slant_first
    (by simp [slantRecord]) (slantRecord_outside _ _ _) ⟨by decide +kernel, rfl, rfl, rfl, rfl, rfl⟩ (fun h => by cases h)
    ⟨_, rfl, hT⟩ none (fun _ => rfl) (fun h => by cases h)
  obtain ⟨r', hr', a1', e1', -⟩ := C76_run_returns slantShots
    { slantFrom0 with transform := "phaseshift", padApply := true, padDf := 125 } (.one "first") _
    (slantRecord 1 [1, 2, 3, 4] [0, 1, 0, 2]) (slantRecord 1 [1, 2, 3, 4] [0, 1, 0, 2]) (slantRecord 1 [1, 2, 3, 4] [0, 1, 0, 2])
    (slantRecord 1 [1, 2, 3, 4] [0, 1, 0, 2])
    (slantRecord 1 [1, 2, 3, 4, 0, 0, 0, 0] [0, 1, 0, 2, 0, 0, 0, 0]) (none, none) T' slant_first (by simp [slantRecord])
    (slantRecord_outside _ _ _) ⟨by decide +kernel, rfl, rfl, rfl, rfl, by decide +kernel⟩ (fun h => by cases h) ⟨_, rfl, hT'⟩ none
    (fun _ => rfl) (fun h => by cases h)
  have hc : Consistent r.array := by
    rw [a1]
    exact fromFile_consistent slant_first
  have hcase := C175_workflow_partial slantShots (fun _ => 1) (fun a _ n => List.replicate n a) (by simp) rfl
    { slantFrom0 with transform := "phaseshift" } rfl 125 (.one "first") r r' hr hr' hc
    (by rw [a1]; decide +kernel) (.inl (by rw [a1]; decide +kernel))
  obtain ⟨-, -, hg, -⟩ := hcase
  obtain ⟨hv, hag⟩ := hg (by simp)
  refine ⟨r, r', hr, hr', by rw [e1, h1], by rw [e1', h1'], ?_⟩
  obtain ⟨tr, k1, k2⟩ : IsTransformOf slantShots { slantFrom0 with transform := "phaseshift" } r.array r.transform := by
    rw [a1, e1]; exact ⟨_, rfl, hT⟩
  have hvel : r.transform.velocities = [2000, 4000] := by
    rw [(registered_axes (hankel := fun _ => 1) (geom := fun a _ n => List.replicate n a) (by simp) k1 k2).even (.inl rfl)]
    norm_num [evenly, slantFrom0, slantSet, exSet, List.range_succ, show Int.toNat 2 = 2 from rfl]
  refine hag 0 0 0 0 2000 0 (by rw [hvel]; rfl) (by rw [hv, hvel]; rfl) (by rw [e1, h1]; rfl) (by rw [e1', h1']; rfl) ?_
  rw [a1]
  intro s hs
  simp only [slantRecord, List.mem_cons, List.not_mem_nil, or_false] at hs
  rcases hs with rfl | rfl <;> norm_num [spectrumAt, component, Finset.sum_range_succ]

end Verif.Props
