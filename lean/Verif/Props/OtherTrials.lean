import Verif.Props.Padding
import Verif.Props.Alias

/-!
# C179: other trial velocities and frequencies
-/

open Complex

namespace Verif.Props
open Verif WT Spec Workflow

/-- The settings with the frequency range and the trial velocities of other settings. -/
def withTrials (set q : Settings) : Settings :=
  { set with fmin := q.fmin, fmax := q.fmax, vmin := q.vmin, vmax := q.vmax, nvel := q.nvel, vspace := q.vspace }

theorem zerosAfter_refl (a : Arr) : ZerosAfter a a := by
  refine ⟨rfl, ?_⟩
  generalize a.sensors = l
  induction l with
  | nil => exact .nil
  | cons s l ih => exact .cons ⟨⟨0, by simp⟩, rfl, rfl⟩ ih

/-- **C179** (phase shift).  What is shown at a velocity and a frequency does not depend on which other velocities and
frequencies are shown. -/
theorem C179_phase_shift (a : Arr) (p q : Settings) (t t' : Transform) (ht : Builtin.phaseShift a p = .ok t)
    (ht' : Builtin.phaseShift a q = .ok t') (hc : Consistent a) (hdt : ∀ s ∈ a.sensors, 0 < s.ts.dt)
    (hout : (∀ s ∈ a.sensors, a.source.x ≤ s.x) ∨ (∀ s ∈ a.sensors, s.x < a.source.x)) :
    SamePowers (fun f => ∀ s ∈ a.sensors, spectrumAt f s ≠ 0) t t' :=
  C175_phase_shift a a a (zerosAfter_refl a) (zerosAfter_refl a) p q t t' ht ht' hc hc hdt hout

/-- **C179** (beamforming). -/
theorem C179_beamforming (hankel : ℝ → ℂ) (a : Arr) (p q : Settings) (hpq : p.fdbf = q.fdbf) (t t' : Transform)
    (ht : Builtin.fdbf hankel a p = .ok t) (ht' : Builtin.fdbf hankel a q = .ok t') (hc : Consistent a)
    (hdt : ∀ s ∈ a.sensors, 0 < s.ts.dt) :
    SamePowers (fun f => (Builtin.specific p.fdbf).get "weighting" = some "invamp" →
      ∀ s ∈ a.sensors, spectrumAt f s ≠ 0) t t' :=
  C175_beamforming hankel a a a (zerosAfter_refl a) (zerosAfter_refl a) p q hpq t t' ht ht' hc hc hdt

/-- **C179** (frequency-wavenumber). -/
theorem C179_fk (hankel : ℝ → ℂ) (a : Arr) (p q : Settings) (t t' : Transform)
    (ht : Builtin.fk hankel a p = .ok t) (ht' : Builtin.fk hankel a q = .ok t') (hc : Consistent a)
    (hdt : ∀ s ∈ a.sensors, 0 < s.ts.dt) : SamePowers (fun _ => True) t t' := by
  obtain ⟨d, d1, d2, hd⟩ := fk_eq_fdbf hankel a p t ht
  obtain ⟨e, e1, e2, he⟩ := fk_eq_fdbf hankel a q t' ht'
  rw [hd] at ht
  rw [he] at ht'
  obtain ⟨-, -, h1⟩ := C117_beamforming hankel a _ t ht hc hdt
  obtain ⟨-, -, h2⟩ := C117_beamforming hankel a _ t' ht' hc hdt
  simp only [d1, d2] at h1
  simp only [e1, e2] at h2
  intro i i' j j' v f hi hi' hj hj' _
  exact ⟨_, h1 i j v f hi hj (fun h => absurd h (by decide)), h2 i' j' v f hi' hj' (fun h => absurd h (by decide))⟩

/-- **C179** (slant stack; partial: only if the slowest trial velocities are equal). -/
theorem C179_slant_stack_partial (geom : ℚ → ℚ → ℕ → List ℚ) (a : Arr) (p q : Settings) (t t' : Transform)
    (ht : Builtin.slantStack geom a p = .ok t) (ht' : Builtin.slantStack geom a q = .ok t') (hc : Consistent a)
    (hdt : ∀ s ∈ a.sensors, 0 < s.ts.dt)
    (hout : (∀ s ∈ a.sensors, a.source.x ≤ s.x) ∨ (∀ s ∈ a.sensors, s.x < a.source.x)) (slowest : ℝ) (hpos : 0 < slowest)
    (h : slowest ∈ t.velocities ∧ ∀ v ∈ t.velocities, slowest ≤ v)
    (h' : slowest ∈ t'.velocities ∧ ∀ v ∈ t'.velocities, slowest ≤ v) : SamePowers (fun _ => True) t t' := by
  obtain ⟨vels, ss, s0, nt, n1, n2, n3, n4, ⟨s1, m1, v1, m2, n5⟩, -, -, n6⟩ := C117_slant_stack geom a p t ht hc hdt hout
    (fun w hw => lt_of_lt_of_le hpos (h.2 w hw))
  obtain ⟨vels', ss', s0', nt', k1, k2, k3, k4, ⟨s1', m1', v1', m2', k5⟩, -, -, k6⟩ := C117_slant_stack geom a q t' ht' hc hdt
    hout (fun w hw => lt_of_lt_of_le hpos (h'.2 w hw))
  obtain rfl := nearToFar_unique k1 n1
  obtain rfl : s0' = s0 := Option.some.inj (k2.symm.trans n2)
  have hs0 : 0 < s0'.ts.dt := hdt _ (k1.1.subset (List.mem_of_mem_head? n2))
  have hmin : ∀ s ∈ ss, offset a.source s0' ≤ offset a.source s := by
    intro s hs
    rcases ss with _ | ⟨x, xs⟩
    · cases hs
    · cases k2
      rcases List.mem_cons.1 hs with rfl | hs
      · exact le_rfl
      · exact le_of_lt ((List.pairwise_cons.1 k1.2).1 s hs)
  obtain ⟨w, hw, hwe⟩ := List.mem_map.1 (n3 ▸ h.1)
  obtain ⟨w', hw', hwe'⟩ := List.mem_map.1 (k3 ▸ h'.1)
  obtain rfl : w' = w := by
    have : (w' : ℝ) = w := by rw [hwe, hwe']
    exact_mod_cast this
  have hwpos : 0 < w' := by
    have : (0 : ℝ) < w' := by rw [hwe']; exact hpos
    exact_mod_cast this
  have hge : ∀ v ∈ vels, w' ≤ v := by
    intro v hv
    have := h.2 v (by rw [n3]; exact List.mem_map.2 ⟨v, hv, rfl⟩)
    rw [← hwe] at this
    exact_mod_cast this
  have hge' : ∀ v ∈ vels', w' ≤ v := by
    intro v hv
    have := h'.2 v (by rw [k3]; exact List.mem_map.2 ⟨v, hv, rfl⟩)
    rw [← hwe] at this
    exact_mod_cast this
  have floors : ∀ s ∈ ss, ∀ v, w' ≤ v → ⌊(offset a.source s - offset a.source s0') / v / s0'.ts.dt⌋ ≤
      ⌊(offset a.source s - offset a.source s0') / w' / s0'.ts.dt⌋ := by
    intro s hs v hv
    refine Int.floor_le_floor ?_
    have := sub_nonneg.2 (hmin s hs)
    gcongr
  have hnt : nt' = nt := by
    have a1 := k4 s1 m1 w' hw'
    have a2 := n4 s1' m1' w' hw
    have a3 := floors s1 m1 v1 (hge v1 m2)
    have a4 := floors s1' m1' v1' (hge' v1' m2')
    omega
  subst hnt
  intro i i' j j' v f hi hi' hj hj' _
  rw [n3, List.getElem?_map, Option.map_eq_some_iff] at hi
  rw [k3, List.getElem?_map, Option.map_eq_some_iff] at hi'
  obtain ⟨x, hx, hxv⟩ := hi
  obtain ⟨y, hy, hyv⟩ := hi'
  obtain rfl : y = x := by
    have : (y : ℝ) = x := by rw [hxv, hyv]
    exact_mod_cast this
  exact ⟨_, n6 i j y f hx hj, k6 i' j' y f hy hj'⟩

/-- **C179** (workflow; partial: the slant stack is left out).  Two time-domain runs over the same files with settings which
differ in the frequency range and the trial velocities: the same array is transformed, and wherever the two images have the
same velocity and the same frequency they have the same power.  The signal-to-noise ratio is the same if the frequency range
is. -/
theorem C179_workflow_partial (env : Env) (hankel : ℝ → ℂ) (geom : ℚ → ℚ → ℕ → List ℚ)
    (hb : env.transforms = Builtin.transforms hankel geom) (set q : Settings) (f : Fnames) (r r' : Result)
    (h : timeDomain env set f = .ok r) (h' : timeDomain env (withTrials set q) f = .ok r')
    (hc : Consistent r.array) (hdt : ∀ s ∈ r.array.sensors, 0 < s.ts.dt)
    (hout : (∀ s ∈ r.array.sensors, r.array.source.x ≤ s.x) ∨ (∀ s ∈ r.array.sensors, s.x < r.array.source.x)) :
    r'.array = r.array ∧ (q.fmin = set.fmin → q.fmax = set.fmax → r'.snr = r.snr) ∧
    (set.transform ∈ ["phaseshift", "fdbf", "fk"] →
      SamePowers (fun f => ∀ s ∈ r.array.sensors, spectrumAt f s ≠ 0) r.transform r'.transform) ∧
    (set.transform = "fk" → SamePowers (fun _ => True) r.transform r'.transform) := by
  unfold timeDomain at h h'
  obtain ⟨raw, hraw, h⟩ := bind_ok h
  obtain ⟨⟨⟩, hcheck, h⟩ := bind_ok h
  obtain ⟨s1, h1, h⟩ := bind_ok h
  obtain ⟨s2, h2, h⟩ := bind_ok h
  obtain ⟨s3, h3, h⟩ := bind_ok h
  obtain ⟨s4, h4, h⟩ := bind_ok h
  obtain ⟨s5, h5, h⟩ := bind_ok h
  obtain ⟨⟨s6, o⟩, h6, h⟩ := bind_ok h
  simp only at h
  obtain ⟨s7, h7, h⟩ := bind_ok h
  obtain ⟨t, h8, h⟩ := bind_ok h
  cases h
  obtain ⟨raw', hraw', h'⟩ := bind_ok h'
  obtain rfl := Except.ok.inj (hraw.symm.trans hraw')
  obtain ⟨⟨⟩, hcheck', h'⟩ := bind_ok h'
  obtain ⟨s1', h1', h'⟩ := bind_ok h'
  obtain rfl := Except.ok.inj (h1.symm.trans h1')
  obtain ⟨s2', h2', h'⟩ := bind_ok h'
  obtain rfl := Except.ok.inj (h2.symm.trans h2')
  obtain ⟨s3', h3', h'⟩ := bind_ok h'
  obtain rfl := Except.ok.inj (h3.symm.trans h3')
  obtain ⟨s4', h4', h'⟩ := bind_ok h'
  obtain rfl := Except.ok.inj (h4.symm.trans h4')
  obtain ⟨s5', h5', h'⟩ := bind_ok h'
  obtain rfl := Except.ok.inj (h5.symm.trans h5')
  obtain ⟨⟨s6', o'⟩, h6', h'⟩ := bind_ok h'
  simp only at h'
  obtain ⟨s7', h7', h'⟩ := bind_ok h'
  obtain ⟨t', h8', h'⟩ := bind_ok h'
  cases h'
  have e6 : s6.array = s5.array := by rw [(calculateSnr_ok h6).1]
  have e6' : s6'.array = s5.array := by rw [(calculateSnr_ok h6').1]
  obtain ⟨a7, p7, e7⟩ := pad_ok h7
  obtain ⟨b7, p7', e7'⟩ := pad_ok h7'
  have hab : b7 = a7 := by
    rw [e6] at p7
    rw [e6'] at p7'
    by_cases hp : set.padApply = true
    · rw [if_pos hp] at p7
      rw [if_pos (show (withTrials set q).padApply = true from hp)] at p7'
      exact (Prod.mk.inj (p7'.symm.trans p7)).1
    · rw [if_neg hp] at p7
      rw [if_neg (show ¬ (withTrials set q).padApply = true from hp)] at p7'
      rw [p7, p7']
  subst hab e7 e7'
  simp only at hc hdt hout h8 h8' ⊢
  obtain ⟨tr, k1, k2⟩ := transform_ok h8
  obtain ⟨tr', k1', k2'⟩ := transform_ok h8'
  rw [hb] at k1 k1'
  obtain rfl := Except.ok.inj (k1.symm.trans k1')
  have hall : set.transform = "fk" → SamePowers (fun _ => True) t t' := by
    intro hn
    rw [hn] at k1
    have : Builtin.fk hankel = tr := Except.ok.inj k1
    subst this
    exact C179_fk hankel _ _ _ t t' k2 k2' hc hdt
  refine ⟨trivial, ?_, ?_, hall⟩
  · intro g1 g2
    have : calculateSnr (withTrials set q) s5 = calculateSnr set s5 := by
      unfold calculateSnr withTrials
      simp only [g1, g2]
    rw [this, h6] at h6'
    cases h6'
    rfl
  · intro hn
    simp only [List.mem_cons, List.not_mem_nil, or_false] at hn
    rcases hn with hn | hn | hn
    · rw [hn] at k1
      have : Builtin.phaseShift = tr := Except.ok.inj k1
      subst this
      exact C179_phase_shift _ _ _ t t' k2 k2' hc hdt hout
    · rw [hn] at k1
      have : Builtin.fdbf hankel = tr := Except.ok.inj k1
      subst this
      intro i i' j j' v f hi hi' hj hj' hne
      exact C179_beamforming hankel _ set (withTrials set q) rfl t t' k2 k2' hc hdt i i' j j' v f hi hi' hj hj' fun _ => hne
    · intro i i' j j' v f hi hi' hj hj' hne
      exact hall hn i i' j j' v f hi hi' hj hj' trivial

/-- No velocity has a larger power than the one picked. -/
theorem findPeak_largest (t : Transform) (hne : t.velocities ≠ [])
    (hrows : t.power.length = t.velocities.length) (hcols : ∀ row ∈ t.power, row.length = t.frequencies.length) :
    ∃ vs, Builtin.findPeakPower t "frequency-maximum" = .ok vs ∧ vs.length = t.frequencies.length ∧
      ∀ (j : ℕ) (v : ℝ), vs[j]? = some v → ∃ (i : ℕ) (z : ℂ), t.velocities[i]? = some v ∧
        (t.power[i]?.bind fun row : List ℂ => row[j]?) = some z ∧
        ∀ (i' : ℕ) (w : ℂ), (t.power[i']?.bind fun row : List ℂ => row[j]?) = some w → Builtin.complexLt z w = false := by
  have hpne : t.power ≠ [] := by
    intro h; rw [h] at hrows; exact hne (List.length_eq_zero_iff.1 hrows.symm)
  have hcol : ∀ c, ∃ i, argmaxBy Builtin.complexLt (t.power.map fun row => row.getD c 0) = some i ∧
      ∃ hi : i < t.power.length, ∀ (i' : ℕ) (h' : i' < t.power.length),
        Builtin.complexLt ((t.power[i]).getD c 0) ((t.power[i']).getD c 0) = false := by
    intro c
    obtain ⟨i, hi, hil, h0, -⟩ := argmaxBy_spec complexLt_rankOrder (t.power.map fun row => row.getD c 0)
      (by simpa using hpne)
    have hil' : i < t.power.length := by simpa using hil
    refine ⟨i, hi, hil', ?_⟩
    intro i' h'
    have := h0 i' (by simpa using h')
    simpa using this
  choose f hf1 hf2 hf3 using hcol
  have hnf : (t.power.headD []).length = t.frequencies.length := by
    obtain ⟨r, rs, hr⟩ := List.exists_cons_of_ne_nil hpne
    rw [hr]
    exact hcols r (by rw [hr]; exact List.mem_cons_self)
  refine ⟨(List.range t.frequencies.length).map fun c => t.velocities.getD (f c) 0, ?_, by simp, ?_⟩
  · unfold Builtin.findPeakPower findPeakBy
    rw [if_pos rfl, hnf]
    refine mapM_ok_of _ _ _ ?_
    intro c _
    have := hf2 c
    rw [hrows] at this
    rw [hf1 c]
    simp [List.getD_eq_getElem?_getD, this]
  · intro j v hv
    have hj : j < t.frequencies.length := by
      have := (List.getElem?_eq_some_iff.1 hv).1
      simpa using this
    have hfj := hf2 j
    have hfj' := hfj
    rw [hrows] at hfj'
    have hget : ((List.range t.frequencies.length).map fun c => t.velocities.getD (f c) 0)[j]? =
        some (t.velocities[f j]'hfj') := by
      rw [List.getElem?_map, List.getElem?_range hj]
      simp [List.getD_eq_getElem?_getD, hfj']
    rw [hget] at hv
    cases hv
    have hl : j < (t.power[f j]).length := by rw [hcols _ (List.getElem_mem hfj)]; exact hj
    refine ⟨f j, (t.power[f j])[j], List.getElem?_eq_getElem hfj', by simp [hfj, hl], ?_⟩
    intro i' w hw
    obtain ⟨row, hrow, hjw⟩ := Option.bind_eq_some_iff.1 hw
    obtain ⟨hi', rfl⟩ := List.getElem?_eq_some_iff.1 hrow
    have := hf3 j i' hi'
    simpa [List.getD_eq_getElem?_getD, hjw, hl] using this

theorem complexLt_antisymm {z w : ℂ} (h : Builtin.complexLt z w = false) (h' : Builtin.complexLt w z = false) : z = w := by
  simp only [Builtin.complexLt, Bool.or_eq_false_iff, Bool.and_eq_false_iff, decide_eq_false_iff_not, not_lt] at h h'
  have hre : z.re = w.re := le_antisymm h'.1 h.1
  refine Complex.ext hre ?_
  rcases h.2 with h2 | h2
  · exact absurd hre h2
  rcases h'.2 with h3 | h3
  · exact absurd hre.symm h3
  exact le_antisymm h3 h2

/-- **C179** (picks).  Of two images which agree where they overlap, the second with more trial velocities: if the second
picks a velocity which is also in the first, then the first picks a velocity with the same power. -/
theorem C179_picks (P : ℚ → Prop) (t t' : Transform) (hs : SamePowers P t t') (hsub : ∀ v ∈ t.velocities, v ∈ t'.velocities)
    (hne : t.velocities ≠ []) (hrows : t.power.length = t.velocities.length)
    (hcols : ∀ row ∈ t.power, row.length = t.frequencies.length) (hrows' : t'.power.length = t'.velocities.length)
    (hcols' : ∀ row ∈ t'.power, row.length = t'.frequencies.length) :
    ∃ vs vs', Builtin.findPeakPower t "frequency-maximum" = .ok vs ∧ Builtin.findPeakPower t' "frequency-maximum" = .ok vs' ∧
      ∀ (j j' : ℕ) (f : ℚ) (v v' : ℝ), t.frequencies[j]? = some f → t'.frequencies[j']? = some f → P f →
        vs[j]? = some v → vs'[j']? = some v' → v' ∈ t.velocities →
        ∃ (i i' : ℕ) (z : ℂ), t.velocities[i]? = some v ∧ t'.velocities[i']? = some v' ∧
          (t.power[i]?.bind fun row => row[j]?) = some z ∧ (t'.power[i']?.bind fun row => row[j']?) = some z := by
  have hne' : t'.velocities ≠ [] := by
    obtain ⟨v, hv⟩ := List.exists_mem_of_ne_nil _ hne
    exact List.ne_nil_of_mem (hsub v hv)
  obtain ⟨vs, h1, -, h2⟩ := findPeak_largest t hne hrows hcols
  obtain ⟨vs', h1', -, h2'⟩ := findPeak_largest t' hne' hrows' hcols'
  refine ⟨vs, vs', h1, h1', ?_⟩
  intro j j' f v v' hj hj' hP hv hv' hmem
  obtain ⟨i, z, a1, a2, a3⟩ := h2 j v hv
  obtain ⟨i', z', b1, b2, b3⟩ := h2' j' v' hv'
  obtain ⟨k, hk⟩ := List.getElem?_of_mem hmem
  obtain ⟨k', hk'⟩ := List.getElem?_of_mem (hsub v (List.mem_of_getElem? a1))
  obtain ⟨x, x1, x2⟩ := hs i k' j j' v f a1 hk' hj hj' hP
  obtain ⟨y, y1, y2⟩ := hs k i' j j' v' f hk b1 hj hj' hP
  obtain rfl : x = z := Option.some.inj (x1.symm.trans a2)
  obtain rfl : y = z' := Option.some.inj (y2.symm.trans b2)
  obtain rfl := complexLt_antisymm (a3 k y y1) (b3 k' x x2)
  exact ⟨i, i', x, a1, b1, x1, y2⟩

/-! ## The slant stack -/

/-- The slant stack of four samples from 0 Hz, two trial velocities. -/
theorem slantTrials_transform (set : Settings) (w1 w2 : ℚ) (rows : List (List ℚ))
    (hset : set.fmin = 0 ∧ set.fmax = 600 ∧ set.vmin = w1 ∧ set.vmax = w2 ∧ set.nvel = 2 ∧ set.vspace = "linear")
    (h : slantStackOfArray (slantRecord 1 [1, 2, 3, 4] [0, 1, 0, 2]) [w1, w2] = .ok rows) :
    ∃ T, Builtin.slantStack (fun a _ n => List.replicate n a) (slantRecord 1 [1, 2, 3, 4] [0, 1, 0, 2]) set = .ok T ∧
      T.frequencies = [0, 250, 500] ∧ T.velocities = [(w1 : ℝ), (w2 : ℝ)] ∧
      T.power = rows.map fun row => [0, 1, 2].map fun k => Builtin.fftPadded row 4 k := by
  obtain ⟨g1, g2, g3, g4, g5, g6⟩ := hset
  have hv : Builtin.velocitiesQ (fun a _ n => List.replicate n a) set = .ok [w1, w2] := by
    simp only [Builtin.velocitiesQ, g3, g4, g5, g6]
    norm_num [List.range_succ, show Int.toNat 2 = 2 from rfl]
  have hids : keepIds (binFrequencies 4 250) 0 600 1 = .ok [0, 1, 2] := by decide +kernel
  have hf : ([0, 1, 2] : List ℕ).map (fun k => (binFrequencies 4 250).getD k 0) = [0, 250, 500] := by decide +kernel
  have hdf : (⟨[1, 2, 3, 4], 1 / 1000, 1, 0, 1⟩ : ATS).dfInternal = 250 := by decide +kernel
  refine ⟨⟨1, [0, 250, 500], [w1, w2].map fun (v : ℚ) => (v : ℝ), _⟩, ?_, rfl, by simp, rfl⟩
  unfold slantRecord at h
  unfold Builtin.slantStack
  have hn' : (⟨[1, 2, 3, 4], 1 / 1000, 1, 0, 1⟩ : ATS).nsamples = 4 := rfl
  simp only [hv, bind, Except.bind, slantRecord, hdf, h, hn', g1, g2, hids, hf, pure, Except.pure]

/-- **C179** fails for the slant stack.  The same file, first with the trial velocities 2000 m/s and 4000 m/s, then with
4000 m/s and 8000 m/s: the number of delays stacked depends on the slowest trial velocity, and the two images have the values
4 and 8 at 4000 m/s and 0 Hz. -/
theorem C179_slant_stack_fails :
    ∃ (env : Env) (hankel : ℝ → ℂ) (geom : ℚ → ℚ → ℕ → List ℚ) (set q : Settings) (f : Fnames) (r r' : Result),
      env.transforms = Builtin.transforms hankel geom ∧ set.transform = "slantstack" ∧
      timeDomain env set f = .ok r ∧ timeDomain env (withTrials set q) f = .ok r' ∧
      r.transform.velocities = [2000, 4000] ∧ r'.transform.velocities = [4000, 8000] ∧
      r.transform.frequencies.head? = some 0 ∧ r'.transform.frequencies.head? = some 0 ∧
      (r.transform.power[1]?.bind fun row => row[0]?) = some 4 ∧
      (r'.transform.power[0]?.bind fun row => row[0]?) = some 8 := by
  obtain ⟨T, hT, h1, h2, h3⟩ := slantTrials_transform slantFrom0 2000 4000 [[2, 2], [3 / 2, 5 / 2]]
    ⟨rfl, rfl, rfl, rfl, rfl, rfl⟩ (by decide +kernel)
  obtain ⟨T', hT', h1', h2', h3'⟩ := slantTrials_transform
    (withTrials slantFrom0 { slantFrom0 with vmin := 4000, vmax := 8000 }) 4000 8000 [[3 / 2, 5 / 2, 4], [5 / 4, 11 / 4, 7 / 2]]
    ⟨rfl, rfl, rfl, rfl, rfl, rfl⟩ (by decide +kernel)
  obtain ⟨r, hr, a1, e1, -⟩ := C76_run_returns slantShots slantFrom0 (.one "first") _ _ _ _ _ _ (none, none) T slant_first
    (by simp [slantRecord]) (slantRecord_outside _ _ _) ⟨by decide +kernel, rfl, rfl, rfl, rfl, rfl⟩ (fun h => by cases h)
    ⟨_, rfl, hT⟩ none (fun _ => rfl) (fun h => by cases h)
  obtain ⟨r', hr', a1', e1', -⟩ := C76_run_returns slantShots
    (withTrials slantFrom0 { slantFrom0 with vmin := 4000, vmax := 8000 }) (.one "first") _ _ _ _ _ _ (none, none) T' slant_first
    (by simp [slantRecord]) (slantRecord_outside _ _ _) ⟨by decide +kernel, rfl, rfl, rfl, rfl, rfl⟩ (fun h => by cases h)
    ⟨_, rfl, hT'⟩ none (fun _ => rfl) (fun h => by cases h)
  refine ⟨slantShots, _, _, slantFrom0, { slantFrom0 with vmin := 4000, vmax := 8000 }, .one "first", r, r', rfl, rfl, hr, hr',
    ?_, ?_, ?_, ?_, ?_, ?_⟩
  · rw [e1, h2]; norm_num
  · rw [e1', h2']; norm_num
  · rw [e1, h1]; rfl
  · rw [e1', h1']; rfl
  · rw [e1, h3]
    norm_num [Builtin.fftPadded, WT.fftBin, Finset.sum_range_succ]
  · rw [e1', h3']
    norm_num [Builtin.fftPadded, WT.fftBin, Finset.sum_range_succ]

/-- The hypotheses of `C179_slant_stack_partial` are met with 2000 m/s and 4000 m/s, and with 2000 m/s and 8000 m/s. -/
example : ∃ T T', Builtin.slantStack (fun a _ n => List.replicate n a) (slantRecord 1 [1, 2, 3, 4] [0, 1, 0, 2]) slantFrom0 = .ok T ∧
    Builtin.slantStack (fun a _ n => List.replicate n a) (slantRecord 1 [1, 2, 3, 4] [0, 1, 0, 2])
      { slantFrom0 with vmax := 8000 } = .ok T' ∧
    T.velocities = [2000, 4000] ∧ T'.velocities = [2000, 8000] ∧ T.frequencies = [0, 250, 500] ∧
    T'.frequencies = [0, 250, 500] ∧ SamePowers (fun _ => True) T T' := by
  obtain ⟨T, hT, h1, h2, h3⟩ := slantTrials_transform slantFrom0 2000 4000 [[2, 2], [3 / 2, 5 / 2]]
    ⟨rfl, rfl, rfl, rfl, rfl, rfl⟩ (by decide +kernel)
  obtain ⟨T', hT', h1', h2', h3'⟩ := slantTrials_transform { slantFrom0 with vmax := 8000 } 2000 8000
    [[2, 2], [5 / 4, 11 / 4]] ⟨rfl, rfl, rfl, rfl, rfl, rfl⟩ (by decide +kernel)
  have e : T.velocities = [2000, 4000] := by rw [h2]; norm_num
  have e' : T'.velocities = [2000, 8000] := by rw [h2']; norm_num
  refine ⟨T, T', hT, hT', e, e', h1, h1', ?_⟩
  exact C179_slant_stack_partial _ _ _ _ T T' hT hT' (fromFile_consistent slant_first) (by decide +kernel)
    (.inl (by decide +kernel)) 2000 (by norm_num) (by rw [e]; norm_num) (by rw [e']; norm_num)

/-- The hypotheses of `C179_workflow_partial` are met by the phase-shift transform of the file "first" with two pairs of trial
velocities: the powers at 4000 m/s and 0 Hz are equal. -/
example : ∃ r r', timeDomain slantShots { slantFrom0 with transform := "phaseshift" } (.one "first") = .ok r ∧
    timeDomain slantShots (withTrials { slantFrom0 with transform := "phaseshift" }
      { slantFrom0 with vmin := 4000, vmax := 8000 }) (.one "first") = .ok r' ∧
    r.transform.velocities = [2000, 4000] ∧ r'.transform.velocities = [4000, 8000] ∧
    ∃ p, (r.transform.power[1]?.bind fun row => row[0]?) = some p ∧
      (r'.transform.power[0]?.bind fun row => row[0]?) = some p := by
  obtain ⟨T, hT, h1⟩ := phaseRecord_transform { slantFrom0 with transform := "phaseshift" } 4 250 [1, 2, 3, 4] [0, 1, 0, 2]
    [0, 1, 2] [0, 250, 500] ⟨rfl, rfl, rfl, rfl⟩ rfl (by decide +kernel) (by decide +kernel) (by decide +kernel)
    (by decide +kernel)
  obtain ⟨T', hT', h1'⟩ := phaseRecord_transform (withTrials { slantFrom0 with transform := "phaseshift" }
      { slantFrom0 with vmin := 4000, vmax := 8000 }) 4 250 [1, 2, 3, 4] [0, 1, 0, 2]
    [0, 1, 2] [0, 250, 500] ⟨rfl, rfl, rfl, rfl⟩ rfl (by decide +kernel) (by decide +kernel) (by decide +kernel)
    (by decide +kernel)
  obtain ⟨r, hr, a1, e1, -⟩ := C76_run_returns slantShots { slantFrom0 with transform := "phaseshift" } (.one "first")
    _ _ _ _ _ _ (none, none) T slant_first
    (by simp [slantRecord]) (slantRecord_outside _ _ _) ⟨by decide +kernel, rfl, rfl, rfl, rfl, rfl⟩ (fun h => by cases h)
    ⟨_, rfl, hT⟩ none (fun _ => rfl) (fun h => by cases h)
  obtain ⟨r', hr', a1', e1', -⟩ := C76_run_returns slantShots (withTrials { slantFrom0 with transform := "phaseshift" }
      { slantFrom0 with vmin := 4000, vmax := 8000 }) (.one "first") _ _ _ _ _ _ (none, none) T' slant_first
    (by simp [slantRecord]) (slantRecord_outside _ _ _) ⟨by decide +kernel, rfl, rfl, rfl, rfl, rfl⟩ (fun h => by cases h)
    ⟨_, rfl, hT'⟩ none (fun _ => rfl) (fun h => by cases h)
  obtain ⟨-, -, hg, -⟩ := C179_workflow_partial slantShots (fun _ => 1) (fun a _ n => List.replicate n a) rfl
    { slantFrom0 with transform := "phaseshift" } { slantFrom0 with vmin := 4000, vmax := 8000 } (.one "first") r r' hr hr'
    (by rw [a1]; exact fromFile_consistent slant_first) (by rw [a1]; decide +kernel) (.inl (by rw [a1]; decide +kernel))
  obtain ⟨tr, k1, k2⟩ : IsTransformOf slantShots { slantFrom0 with transform := "phaseshift" } r.array r.transform := by
    rw [a1, e1]; exact ⟨_, rfl, hT⟩
  obtain ⟨tr', k1', k2'⟩ : IsTransformOf slantShots (withTrials { slantFrom0 with transform := "phaseshift" }
      { slantFrom0 with vmin := 4000, vmax := 8000 }) r'.array r'.transform := by
    rw [a1', e1']; exact ⟨_, rfl, hT'⟩
  have hvel : r.transform.velocities = [2000, 4000] := by
    rw [(registered_axes (hankel := fun _ => 1) (geom := fun a _ n => List.replicate n a) (by simp) k1 k2).even (.inl rfl)]
    norm_num [evenly, slantFrom0, slantSet, exSet, List.range_succ, show Int.toNat 2 = 2 from rfl]
  have hvel' : r'.transform.velocities = [4000, 8000] := by
    rw [(registered_axes (hankel := fun _ => 1) (geom := fun a _ n => List.replicate n a) (by simp) k1' k2').even (.inl rfl)]
    norm_num [evenly, withTrials, slantFrom0, slantSet, exSet, List.range_succ, show Int.toNat 2 = 2 from rfl]
  refine ⟨r, r', hr, hr', hvel, hvel', ?_⟩
  refine hg (by simp) 1 0 0 0 4000 0 (by rw [hvel]; rfl) (by rw [hvel']; rfl) (by rw [e1, h1]; rfl) (by rw [e1', h1']; rfl) ?_
  rw [a1]
  intro s hs
  simp only [slantRecord, List.mem_cons, List.not_mem_nil, or_false] at hs
  rcases hs with rfl | rfl <;> norm_num [spectrumAt, component, Finset.sum_range_succ]

end Verif.Props
