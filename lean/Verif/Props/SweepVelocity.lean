import Verif.Props.XcorrWorkflow
import Verif.Props.XCorrelate

/-!
# C152: velocity from a sweep, by the cross-correlation workflow
-/

open Complex

namespace Verif.Props
open Verif WT Spec Workflow

/-! ## Correlating a delayed pulse -/

theorem correlation_eq (a b : List ℚ) (s : ℤ) :
    correlation a b s = ∑ i ∈ Finset.range a.length, a.getD i 0 * shiftedSample b s i := by
  unfold correlation
  rw [← List.sum_toFinset _ List.nodup_range, List.toFinset_range]

theorem correlation_before {a b : List ℚ} {s : ℤ} (h : s ≤ -(b.length : ℤ)) : correlation a b s = 0 := by
  rw [correlation_eq]
  refine Finset.sum_eq_zero fun i _ => ?_
  unfold shiftedSample
  rw [if_neg (by omega), mul_zero]

theorem correlation_after {a b : List ℚ} {s : ℤ} (h : (a.length : ℤ) ≤ s) : correlation a b s = 0 := by
  rw [correlation_eq]
  refine Finset.sum_eq_zero fun i hi => ?_
  have := Finset.mem_range.1 hi
  unfold shiftedSample
  rw [if_neg (by omega), mul_zero]

theorem correlation_padded (p b : List ℚ) (before after : ℕ) (g : ℚ) (s : ℤ) :
    correlation (List.replicate before 0 ++ p.map (fun x => g * x) ++ List.replicate after 0) b s =
      g * correlation p b (s - before) := by
  rw [correlation_eq, correlation_eq, Finset.mul_sum]
  simp only [List.length_append, List.length_replicate, List.length_map]
  rw [Finset.sum_range_add, Finset.sum_range_add]
  have h1 : ∑ x ∈ Finset.range before, (List.replicate before 0 ++ p.map (fun x => g * x) ++ List.replicate after 0).getD x 0 *
      shiftedSample b s x = 0 := by
    refine Finset.sum_eq_zero fun i hi => ?_
    have := Finset.mem_range.1 hi
    rw [List.append_assoc, List.getD_append _ _ _ _ (by simpa using this)]
    simp [List.getD_eq_getElem?_getD, this]
  have h2 : ∑ x ∈ Finset.range after, (List.replicate before 0 ++ p.map (fun x => g * x) ++ List.replicate after 0).getD
      (before + p.length + x) 0 * shiftedSample b s ((before + p.length + x : ℕ)) = 0 := by
    refine Finset.sum_eq_zero fun i hi => ?_
    have := Finset.mem_range.1 hi
    rw [List.getD_append_right _ _ _ _ (by simp)]
    simp [List.getD_eq_getElem?_getD, this]
  rw [h1, h2, zero_add, add_zero]
  refine Finset.sum_congr rfl fun i hi => ?_
  have := Finset.mem_range.1 hi
  rw [List.append_assoc, List.getD_append_right _ _ _ _ (by simp), List.getD_append _ _ _ _ (by simpa using this)]
  have e : shiftedSample b s (before + i) = shiftedSample b (s - before) i := by
    unfold shiftedSample
    rw [show ((before + i : ℕ) : ℤ) - s = (i : ℤ) - (s - before) by push_cast; ring]
  rw [e]
  simp [List.getD_eq_getElem?_getD, this, mul_assoc]

/-- Correlating a record with one pulse in it: as long before it, the correlation of the pulse, as long after it. -/
theorem correlate_padded (p b : List ℚ) (hb : b ≠ []) (before after : ℕ) (g : ℚ) :
    ATS.correlate (List.replicate before 0 ++ p.map (fun x => g * x) ++ List.replicate after 0) b =
      List.replicate before 0 ++ (ATS.correlate p b).map (fun x => g * x) ++ List.replicate after 0 := by
  have hl : 0 < b.length := List.length_pos_iff.2 hb
  refine List.ext_getElem ?_ ?_
  · simp only [List.length_append, List.length_replicate, List.length_map, ATS.correlate_length]
    omega
  intro k h1 h2
  rw [ATS.correlate_getElem, correlation_padded]
  simp only [List.length_append, List.length_replicate, List.length_map, ATS.correlate_length] at h1 h2
  by_cases c1 : k < before
  · rw [List.getElem_append_left (by simp; omega), List.getElem_append_left (by simpa using c1), correlation_before (by omega)]
    simp
  · by_cases c2 : k < before + (ATS.correlate p b).length
    · rw [List.getElem_append_left (by simpa using c2), List.getElem_append_right (by simpa using not_lt.1 c1), List.getElem_map,
        ATS.correlate_getElem]
      simp only [List.length_replicate]
      congr 2
      push_cast [Nat.cast_sub (not_lt.1 c1)]
      ring
    · rw [List.getElem_append_right (by simpa using not_lt.1 c2), List.getElem_replicate]
      rw [ATS.correlate_length] at c2
      rw [correlation_after (by omega), mul_zero]

/-! ## The spectrum of a correlation -/

theorem pulseSpectrum_append (l m : List ℚ) (c : ℝ) :
    pulseSpectrum (l ++ m) c = pulseSpectrum l c + exp (-(2 * Real.pi * c * l.length : ℝ) * I) * pulseSpectrum m c := by
  unfold pulseSpectrum
  rw [List.length_append, Finset.sum_range_add, Finset.mul_sum]
  congr 1
  · refine Finset.sum_congr rfl fun i hi => ?_
    rw [List.getD_append _ _ _ _ (Finset.mem_range.1 hi)]
  · refine Finset.sum_congr rfl fun i hi => ?_
    rw [List.getD_append_right _ _ _ _ (by omega), mul_left_comm, ← Complex.exp_add]
    congr 2
    · congr 2; omega
    · push_cast; ring_nf

theorem pulseSpectrum_zeros (n : ℕ) (c : ℝ) : pulseSpectrum (List.replicate n 0) c = 0 := by
  refine Finset.sum_eq_zero fun i _ => ?_
  by_cases h : i < n <;> simp [List.getD_eq_getElem?_getD, h]

/-- The spectrum of the correlation is the spectrum of the pulse times the conjugate spectrum of the signal, up to a delay. -/
theorem pulseSpectrum_correlate (p b : List ℚ) (hb : b ≠ []) (c : ℝ) :
    pulseSpectrum (ATS.correlate p b) c = exp (-(2 * Real.pi * c * (b.length - 1) : ℝ) * I) *
      (pulseSpectrum p c * (starRingEnd ℂ) (pulseSpectrum b c)) := by
  have hl : 0 < b.length := List.length_pos_iff.2 hb
  have key : ∀ l < p.length, ∑ k ∈ Finset.range (p.length + b.length - 1),
      ((shiftedSample b ((k : ℤ) - ((b.length : ℤ) - 1)) l : ℚ) : ℂ) * exp (-(2 * Real.pi * c * k : ℝ) * I) =
      ∑ m ∈ Finset.range b.length, ((b.getD m 0 : ℚ) : ℂ) * exp (-(2 * Real.pi * c * (l + (b.length - 1) - m) : ℝ) * I) := by
    intro l hlp
    symm
    refine Finset.sum_bij_ne_zero (fun m _ _ => l + (b.length - 1) - m) ?_ ?_ ?_ ?_
    · intro m hm _
      have := Finset.mem_range.1 hm
      exact Finset.mem_range.2 (by omega)
    · intro m hm _ m' hm' _ h
      have := Finset.mem_range.1 hm
      have := Finset.mem_range.1 hm'
      omega
    · intro k hk hne
      have := Finset.mem_range.1 hk
      have hs : 0 ≤ (l : ℤ) - ((k : ℤ) - ((b.length : ℤ) - 1)) ∧ (l : ℤ) - ((k : ℤ) - ((b.length : ℤ) - 1)) < b.length := by
        by_contra h
        apply hne
        unfold shiftedSample
        rw [if_neg h]; simp
      have hm : l + (b.length - 1) - k < b.length := by omega
      refine ⟨l + (b.length - 1) - k, Finset.mem_range.2 hm, ?_, by omega⟩
      have hD : shiftedSample b ((k : ℤ) - ((b.length : ℤ) - 1)) l = b.getD (l + (b.length - 1) - k) 0 := by
        unfold shiftedSample
        rw [if_pos hs]
        congr 1
        omega
      rw [hD] at hne
      refine mul_ne_zero (left_ne_zero_of_mul hne) (exp_ne_zero _)
    · intro m hm _
      have := Finset.mem_range.1 hm
      have hD : shiftedSample b (((l + (b.length - 1) - m : ℕ) : ℤ) - ((b.length : ℤ) - 1)) l = b.getD m 0 := by
        unfold shiftedSample
        rw [if_pos (by omega)]
        congr 1
        omega
      rw [hD]
      congr 2
      rw [Nat.cast_sub (by omega)]
      push_cast [Nat.cast_sub hl]
      ring
  unfold pulseSpectrum
  rw [ATS.correlate_length]
  have h1 : ∀ k ∈ Finset.range (p.length + b.length - 1), (((ATS.correlate p b).getD k 0 : ℚ) : ℂ) *
      exp (-(2 * Real.pi * c * k : ℝ) * I) = ∑ l ∈ Finset.range p.length, ((p.getD l 0 : ℚ) : ℂ) *
        (((shiftedSample b ((k : ℤ) - ((b.length : ℤ) - 1)) l : ℚ) : ℂ) * exp (-(2 * Real.pi * c * k : ℝ) * I)) := by
    intro k hk
    have hk' : k < (ATS.correlate p b).length := by rw [ATS.correlate_length]; exact Finset.mem_range.1 hk
    rw [List.getD_eq_getElem _ _ hk', ATS.correlate_getElem, correlation_eq]
    push_cast
    rw [Finset.sum_mul]
    exact Finset.sum_congr rfl fun l _ => by ring
  rw [Finset.sum_congr rfl h1, Finset.sum_comm]
  rw [map_sum, Finset.sum_mul, Finset.mul_sum]
  refine Finset.sum_congr rfl fun l hl' => ?_
  rw [← Finset.mul_sum, key l (Finset.mem_range.1 hl'), Finset.mul_sum, Finset.mul_sum, Finset.mul_sum]
  refine Finset.sum_congr rfl fun m _ => ?_
  rw [map_mul, ← Complex.exp_conj]
  simp only [map_mul, map_neg, Complex.conj_I, Complex.conj_ofReal, map_ratCast]
  rw [show (-(2 * Real.pi * c * (l + (b.length - 1) - m) : ℝ) * I : ℂ) = -(2 * Real.pi * c * (b.length - 1) : ℝ) * I +
    -(2 * Real.pi * c * l : ℝ) * I + -((2 * Real.pi * c * m : ℝ) : ℂ) * -I by push_cast; ring, Complex.exp_add, Complex.exp_add]
  ring

theorem wavelet_eq (p b : List ℚ) : wavelet p b = ATS.correlate p b := by
  refine List.ext_getElem (by simp [wavelet, ATS.correlate_length]) ?_
  intro k h1 h2
  rw [ATS.correlate_getElem]
  simp [wavelet]

/-- The kept part of the wavelet has energy where the pulse and the source signal have. -/
theorem core_spectrum {pulse sig core : List ℚ} {skip rest : ℕ} (hsig : sig ≠ [])
    (h : wavelet pulse sig = List.replicate skip 0 ++ core ++ List.replicate rest 0) {c : ℝ}
    (h1 : pulseSpectrum pulse c ≠ 0) (h2 : pulseSpectrum sig c ≠ 0) : pulseSpectrum core c ≠ 0 := by
  have e := pulseSpectrum_correlate pulse sig hsig c
  rw [← wavelet_eq, h, pulseSpectrum_append, pulseSpectrum_append, pulseSpectrum_zeros, pulseSpectrum_zeros, mul_zero, add_zero,
    zero_add] at e
  intro h0
  rw [h0, mul_zero] at e
  exact mul_ne_zero (exp_ne_zero _) (mul_ne_zero h1 (by simpa using h2)) e.symm

/-! ## The correlated array -/

theorem keptLags_bounds {ss : List Sensor} {src : Source} {sig : SourceSig} {vmin vmax : ℚ} {first last : ℤ} {b : ℤ × ℤ}
    (hs : sig.src = src) (h : KeptLags ⟨ss, src⟩ sig vmin vmax first last)
    (hb : ArrSrc.sliceBounds ⟨ss, sig⟩ vmin vmax = .ok b) : b = (first, last) := by
  obtain ⟨near, far, ⟨h1, h2⟩, ⟨h3, h4⟩, rfl, rfl⟩ := h
  unfold ArrSrc.sliceBounds at hb
  subst hs
  dsimp only at hb
  rcases hmn : Arr.minList (ss.map fun s => |sig.src.x - s.x|) with _ | mn
  · rw [hmn] at hb; cases hb
  rcases hmx : Arr.maxList (ss.map fun s => |sig.src.x - s.x|) with _ | mx
  · rw [hmn, hmx] at hb; cases hb
  rw [hmn, hmx] at hb
  simp only at hb
  split_ifs at hb with c
  cases hb
  obtain ⟨m1, m2⟩ := minList_spec hmn
  obtain ⟨m3, m4⟩ := maxList_spec hmx
  obtain ⟨s1, hs1, rfl⟩ := List.mem_map.1 m1
  obtain ⟨s2, hs2, rfl⟩ := List.mem_map.1 m3
  obtain ⟨s3, hs3, rfl⟩ := h1
  obtain ⟨s4, hs4, rfl⟩ := h3
  have e1 : offset sig.src s3 = |sig.src.x - s1.x| :=
    le_antisymm (h2 ⟨s1, hs1, rfl⟩) (m2 _ (List.mem_map.2 ⟨s3, hs3, rfl⟩))
  have e2 : offset sig.src s4 = |sig.src.x - s2.x| :=
    le_antisymm (m4 _ (List.mem_map.2 ⟨s4, hs4, rfl⟩)) (h4 ⟨s2, hs2, rfl⟩)
  rw [← e1, ← e2, pyInt_eq_cut, pyInt_eq_cut]

/-- Every receiver after the correlation. -/
theorem xcorrelate_each {ss : List Sensor} {sig : SourceSig} {vmin vmax : ℚ} {x : ArrSrc}
    (h : ArrSrc.xcorrelate ⟨ss, sig⟩ vmin vmax = (x, .ok ())) :
    ∃ b, ArrSrc.sliceBounds ⟨ss, sig⟩ vmin vmax = .ok b ∧ x.sensors = ss.map fun s =>
      ⟨⟨pySlice (ATS.correlate s.ts.amp sig.amp) b.1 b.2, s.ts.dt, s.ts.nstacks, 0, 1⟩, s.x, s.y, s.z⟩ := by
  unfold ArrSrc.xcorrelate at h
  rcases hb : ArrSrc.sliceBounds ⟨ss, sig⟩ vmin vmax with e | b
  · rw [hb] at h; simp at h
  rw [hb] at h
  simp only at h
  rcases hl : ArrSrc.xcorrLoop ⟨ss, sig⟩ b ss with e | ss'
  · simp [hl] at h
  simp only [hl, Prod.mk.injEq, and_true] at h
  subst h
  refine ⟨b, rfl, ?_⟩
  have hF := xcorrLoop_ok ⟨ss, sig⟩ b _ _ hl
  have hF' := hF.imp fun s s' hs => (Sensor.init_ok hs).1
  rw [← List.forall₂_eq_eq_eq, List.forall₂_map_right_iff]
  exact hF'.flip

theorem correlated_carries {a : Arr} {sig : SourceSig} {vmin vmax : ℚ} {x : ArrSrc} (hsrc : sig.src = a.source)
    (hx : ArrSrc.xcorrelate ⟨a.sensors, sig⟩ vmin vmax = (x, .ok ())) (cl : Consistent a) (ol : OneSided a)
    {v dt : ℚ} {lead : ℤ} {pulse core : List ℚ} {n skip rest : ℕ} (hdt : 0 < dt) (hv : v ≠ 0)
    (pl : CarriesPulse a v dt lead pulse n) (hsig : sig.amp ≠ [])
    (hw : wavelet pulse sig.amp = List.replicate skip 0 ++ core ++ List.replicate rest 0)
    (hk : LagsHold a sig vmin vmax v dt lead (n + sig.amp.length - 1) skip core.length) :
    Consistent ⟨x.sensors, a.source⟩ ∧ OneSided ⟨x.sensors, a.source⟩ ∧ x.sensors.map Sensor.x = a.sensors.map Sensor.x ∧
      ∃ lead' n', CarriesPulse ⟨x.sensors, a.source⟩ v dt lead' core n' := by
  obtain ⟨b, hb, hxs⟩ := xcorrelate_each hx
  obtain ⟨first, last, hkl, h0, hin⟩ := hk
  obtain rfl := keptLags_bounds hsrc hkl hb
  have hl : 0 < sig.amp.length := List.length_pos_iff.2 hsig
  have hlen : ∀ s ∈ a.sensors, s.ts.amp.length = n := by
    intro s hs
    obtain ⟨-, before, after, gain, -, -, hn, hamp⟩ := pl s hs
    rw [hamp]; simp only [List.length_append, List.length_replicate, List.length_map]; omega
  refine ⟨⟨?_, ?_, ?_⟩, ?_, by rw [hxs, List.map_map]; rfl,
    lead + skip - sliceIdx (n + sig.amp.length - 1) first,
    min last.toNat (n + sig.amp.length - 1) - sliceIdx (n + sig.amp.length - 1) first, ?_⟩
  · simp only [hxs]
    exact fun h => cl.1 (List.map_eq_nil_iff.1 h)
  · simp only [hxs]
    exact List.pairwise_map.2 cl.2.1
  · simp only [hxs]
    intro s' hs' t' ht'
    obtain ⟨s, hs, rfl⟩ := List.mem_map.1 hs'
    obtain ⟨t, ht, rfl⟩ := List.mem_map.1 ht'
    obtain ⟨m1, m2, m3, m4⟩ := cl.2.2 s hs t ht
    exact ⟨m1, m2, rfl, ATS.pySlice_length _ _ (by rw [ATS.correlate_length, ATS.correlate_length, m4]) _ _⟩
  · unfold OneSided
    simp only [hxs]
    refine ol.imp ?_ ?_ <;>
    · intro ho s' hs'
      obtain ⟨s, hs, rfl⟩ := List.mem_map.1 hs'
      exact ho s hs
  · intro s' hs'
    simp only [hxs] at hs' ⊢
    obtain ⟨s, hs, rfl⟩ := List.mem_map.1 hs'
    obtain ⟨hsdt, before, after, gain, hg, ho, hn, hamp⟩ := pl s hs
    have hplace : (lead : ℚ) + offset a.source s / (v * dt) + skip = ((before + skip : ℕ) : ℚ) := by
      unfold offset
      rw [ho]
      push_cast
      field_simp
      ring
    obtain ⟨w1, w2⟩ := hin s hs
    rw [hplace] at w1 w2
    have w1' : first ≤ ((before + skip : ℕ) : ℤ) := by exact_mod_cast w1
    have w2' : ((before + skip : ℕ) : ℤ) + core.length ≤ last := by exact_mod_cast w2
    have hcl : pulse.length + sig.amp.length - 1 = skip + core.length + rest := by
      have := congrArg List.length hw
      rw [wavelet_eq, ATS.correlate_length] at this
      simpa [add_assoc] using this
    have hN : (ATS.correlate s.ts.amp sig.amp).length = n + sig.amp.length - 1 := by
      rw [ATS.correlate_length, hlen s hs]
    have hi : sliceIdx (n + sig.amp.length - 1) first ≤ before + skip := by
      unfold sliceIdx
      split_ifs <;> omega
    refine ⟨hsdt, before + skip - sliceIdx (n + sig.amp.length - 1) first,
      min last.toNat (n + sig.amp.length - 1) - (before + skip + core.length), gain, hg, ?_, ?_, ?_⟩
    · simp only
      rw [ho, Nat.cast_sub (by omega)]
      push_cast
      ring
    · omega
    · simp only
      have hj : sliceIdx (n + sig.amp.length - 1) last = min last.toNat (n + sig.amp.length - 1) := by
        unfold sliceIdx
        rw [if_neg (by omega)]
      unfold pySlice
      rw [hN, hj, hamp, correlate_padded _ _ hsig, ← wavelet_eq, hw]
      have e : List.replicate before (0 : ℚ) ++ (List.replicate skip 0 ++ core ++ List.replicate rest 0).map (fun x => gain * x) ++
          List.replicate after 0 = List.replicate (before + skip) 0 ++ core.map (fun x => gain * x) ++
            List.replicate (rest + after) 0 := by
        simp only [List.map_append, List.map_replicate, mul_zero, List.append_assoc, List.replicate_append_replicate]
        rw [← List.append_assoc (List.replicate before 0), List.replicate_append_replicate]
      rw [e, pulse_window _ _ _ _ _ (by omega) (by rw [List.length_map]; omega) (by rw [List.length_map]; omega), List.length_map]

/-! ## The run -/

theorem recordWithSignal_unique {env : Env} {f : Fnames} {src : List String} {ch : ℤ} {raw raw' : Arr} {sig sig' : SourceSig}
    (h : RecordWithSignal env f src ch raw sig) (h' : RecordWithSignal env f src ch raw' sig') : raw = raw' ∧ sig = sig' := by
  obtain ⟨a, b, l, s, t, h1, h2, h3, h4, h5, h6, h7, h8, h9, h10⟩ := h
  obtain ⟨a', b', l', s', t', g1, g2, g3, g4, g5, g6, g7, g8, g9, g10⟩ := h'
  rw [h1] at g1; cases g1
  rw [h2] at g2; cases g2
  rw [h3] at g3; cases g3
  rw [h4] at g4
  rw [h5] at g5
  rw [h8] at g8; cases g8
  rw [h9] at g9; cases g9
  rw [h10] at g10; cases g10
  obtain ⟨s1, s2, s3⟩ := sig
  obtain ⟨s1', s2', s3'⟩ := sig'
  simp only [Except.ok.injEq, Option.some.injEq] at g4 g5 h6 g6
  exact ⟨rfl, by rw [h6, g6, g4, g5]⟩

theorem recordWithSignal_consistent {env : Env} {f : Fnames} {src : List String} {ch : ℤ} {raw : Arr} {sig : SourceSig}
    (h : RecordWithSignal env f src ch raw sig) : Consistent raw ∧ sig.src = raw.source := by
  obtain ⟨a, b, l, s, t, h1, h2, h3, h4, h5, h6, h7, h8, h9, h10⟩ := h
  have hc := ArrOp.run_consistent b (.trim 0 t) (Arr.init_consistent h2).1
  simp only [ArrOp.run, h10] at hc
  refine ⟨hc, ?_⟩
  rw [h6]
  unfold Arr.trim at h10
  generalize Arr.forSensors (fun r => r.trim 0 t) b.sensors = o at h10
  obtain ⟨ss, o⟩ := o
  cases h10
  rfl

theorem lagsHold_positions {a b : Arr} {sig : SourceSig} {vmin vmax v dt : ℚ} {lead : ℤ} {total skip len : ℕ}
    (hx : b.sensors.map Sensor.x = a.sensors.map Sensor.x) (hs : b.source = a.source)
    (h : LagsHold b sig vmin vmax v dt lead total skip len) : LagsHold a sig vmin vmax v dt lead total skip len := by
  have key : ∀ (P : ℚ → Prop), (∀ s ∈ b.sensors, P (offset b.source s)) → ∀ s ∈ a.sensors, P (offset a.source s) := by
    intro P hP s hs'
    have : s.x ∈ b.sensors.map Sensor.x := by rw [hx]; exact List.mem_map_of_mem hs'
    obtain ⟨s0, h0, e⟩ := List.mem_map.1 this
    have := hP s0 h0
    unfold offset at this ⊢
    rwa [hs, e] at this
  have key' : ∀ (P : ℚ → Prop), (∀ s ∈ a.sensors, P (offset a.source s)) → ∀ s ∈ b.sensors, P (offset b.source s) := by
    intro P hP s hs'
    have : s.x ∈ a.sensors.map Sensor.x := by rw [← hx]; exact List.mem_map_of_mem hs'
    obtain ⟨s0, h0, e⟩ := List.mem_map.1 this
    have := hP s0 h0
    unfold offset at this ⊢
    rwa [← hs, e] at this
  have hset : {o | ∃ s ∈ b.sensors, o = offset b.source s} = {o | ∃ s ∈ a.sensors, o = offset a.source s} := by
    ext o
    constructor
    · rintro ⟨s, hs, rfl⟩
      exact key' (fun o => ∃ s ∈ a.sensors, o = offset a.source s) (fun s hs => ⟨s, hs, rfl⟩) s hs
    · rintro ⟨s, hs, rfl⟩
      exact key (fun o => ∃ s ∈ b.sensors, o = offset b.source s) (fun s hs => ⟨s, hs, rfl⟩) s hs
  obtain ⟨first, last, ⟨near, far, h1, h2, h3, h4⟩, h5, h6⟩ := h
  rw [hset] at h1 h2
  exact ⟨first, last, ⟨near, far, h1, h2, h3, h4⟩, h5, key (fun o => (first : ℚ) ≤ lead + o / (v * dt) + skip ∧
    lead + o / (v * dt) + skip + len ≤ (last : ℚ)) h6⟩

/-- **C152**.  A run of the cross-correlation workflow without trimming and muting, with or without padding and receiver
selection, with any of the three frequency-domain transforms, on records in which a sweep crosses the array at velocity `v`
(after the trend has been removed).  Correlated with the source signal the sweep is a wavelet; apart from zeros it has the
samples `core`, and the lags kept by the workflow hold these samples at every receiver.  If the run returns and `v` is one
of its trial velocities, then the peak of the returned transform is at `v` at every frequency at which the recorded sweep
and the source signal have energy and some two of the receivers left are closer than the shortest trial wavelength. -/
theorem C152_run_recovers (env : Env) (hankel : ℝ → ℂ) (geom : ℚ → ℚ → ℕ → List ℚ) (set : Settings) (f : Fnames)
    (src : List String) (ch : ℤ) (raw : Arr) (sig : SourceSig) (r : Result)
    (henv : env.transforms = Builtin.transforms hankel geom) (hd : ∀ l, (env.detrend l).length = l.length)
    (htr : set.transform = "phaseshift" ∨ set.transform = "fk" ∨
      set.transform = "fdbf" ∧ (Builtin.specific set.fdbf).get "steering" ≠ some "cylindrical")
    (hno : set.trimApply = false ∧ set.muteApply = false) (hraw : RecordWithSignal env f src ch raw sig)
    (hout : (∀ s ∈ raw.sensors, raw.source.x ≤ s.x) ∨ (∀ s ∈ raw.sensors, s.x < raw.source.x))
    (v dt : ℚ) (lead : ℤ) (sweep core : List ℚ) (n skip rest : ℕ) (hdt : 0 < dt) (hsweep : sweep ≠ [])
    (hp : CarriesPulse ⟨raw.sensors.map fun s => { s with ts := { s.ts with amp := env.detrend s.ts.amp } }, raw.source⟩
      v dt lead sweep n)
    (hw : wavelet sweep sig.amp = List.replicate skip 0 ++ core ++ List.replicate rest 0)
    (h : xcorr env set f src ch = .ok r)
    (hk : LagsHold r.array sig set.vmin set.vmax v dt lead (n + sig.amp.length - 1) skip core.length)
    (hmem : (v : ℝ) ∈ r.transform.velocities) (hpos : ∀ w ∈ r.transform.velocities, 0 < w) :
    ∃ vs, Builtin.findPeakPower r.transform "frequency-maximum" = .ok vs ∧ vs.length = r.transform.frequencies.length ∧
      ∀ (j : ℕ) (f : ℚ), r.transform.frequencies[j]? = some f → 0 < f →
        pulseSpectrum sweep (f * dt) ≠ 0 → pulseSpectrum sig.amp (f * dt) ≠ 0 →
        ResolvesAway r.array f r.transform.velocities → vs[j]? = some (v : ℝ) := by
  obtain ⟨raw', near, level, cut, muted, sig', hraw', -, hpre, ⟨x, hx, hpad⟩, ht, -⟩ := C151_steps _ _ _ _ _ _ h
  obtain ⟨rfl, rfl⟩ := recordWithSignal_unique hraw hraw'
  obtain ⟨hc, hss⟩ := recordWithSignal_consistent hraw
  have hsig : sig.amp ≠ [] := by
    obtain ⟨-, -, -, -, -, -, -, -, -, -, -, h7, -⟩ := hraw
    exact h7
  have hv0 : v ≠ 0 := by
    have := hpos _ hmem
    rintro rfl
    simp at this
  obtain ⟨c1, c2, c4, lead', n', c3, c5⟩ := preprocessed_carries hpre hd hno.2 hc hout hdt hv0 hsweep
    (by intro h; simp only [hno.1] at h; cases h) hp
  obtain ⟨rfl, rfl⟩ := c5 hno.1
  have hpos' : r.array.sensors.map Sensor.x = x.sensors.map Sensor.x ∧ r.array.source = muted.source := by
    split_ifs at hpad with c
    · unfold Arr.zeroPad at hpad
      have := Arr.forSensors_x (fun r => r.zeroPad set.padDf) x.sensors
      rcases hf : Arr.forSensors (fun r => r.zeroPad set.padDf) x.sensors with ⟨ss, o⟩
      rw [hf] at this
      simp only [hf, Prod.mk.injEq] at hpad
      rw [← hpad.1]
      exact ⟨this, rfl⟩
    · rw [hpad]; exact ⟨rfl, rfl⟩
  have hxpos : x.sensors.map Sensor.x = muted.sensors.map Sensor.x := by
    obtain ⟨b, -, hxs⟩ := xcorrelate_each hx
    rw [hxs, List.map_map]; rfl
  obtain ⟨d1, d2, -, lead'', n'', d3⟩ := correlated_carries (hss.trans c4.symm) hx c1 c2 hdt hv0 c3 hsig hw
    (lagsHold_positions (hpos'.1.trans hxpos) hpos'.2 hk)
  obtain ⟨vs, h1, h2, h3⟩ := transform_recovers env hankel geom set _ r.array r.transform henv htr v dt lead'' core n'' hdt d1 d3 d2
    hpad ht hmem hpos
  exact ⟨vs, h1, h2, fun j f e1 e2 e3 e4 e5 => h3 j f e1 e2 (core_spectrum hsig hw e3 e4) e5⟩

/-- The hypotheses are met by the run `sweep_returns`, for which the velocity is found at both frequencies. -/
example (tr : String) (h : tr = "phaseshift" ∨ tr = "fk" ∨ tr = "fdbf") :
    ∃ r, xcorr sweepEnv (pulseSet tr) (.one "a") ["s"] 0 = .ok r ∧
      Builtin.findPeakPower r.transform "frequency-maximum" = .ok [2000, 2000] := by
  obtain ⟨r, hr, ea, hf, hv⟩ := sweep_returns h
  refine ⟨r, hr, ?_⟩
  have hk : LagsHold r.array ⟨⟨0, 0, 0⟩, [1], 1 / 1000⟩ (pulseSet tr).vmin (pulseSet tr).vmax 2000 (1 / 1000) 0 8 0 1 := by
    rw [ea]
    refine ⟨-498, 5, ⟨2, 8, ⟨⟨_, List.mem_cons_self, by decide +kernel⟩, ?_⟩,
      ⟨⟨_, List.mem_cons_of_mem _ (List.mem_cons_of_mem _ List.mem_cons_self), by decide +kernel⟩, ?_⟩, ?_, ?_⟩, by decide, ?_⟩
    · rintro o ⟨s, hs, rfl⟩
      revert s
      unfold offset
      decide +kernel
    · rintro o ⟨s, hs, rfl⟩
      revert s
      unfold offset
      decide +kernel
    · show (-498 : ℤ) = ((1 : ℕ) : ℤ) + cut ((2 / 4000 - 1 / 2) / (1 / 1000))
      decide +kernel
    · show (5 : ℤ) = ((1 : ℕ) : ℤ) + cut (8 / 2000 / (1 / 1000))
      decide +kernel
    · unfold offset
      decide +kernel
  obtain ⟨vs, h1, h2, h3⟩ := C152_run_recovers sweepEnv (fun _ => 0) (fun _ _ _ => []) (pulseSet tr) (.one "a") ["s"] 0 pulseArr
    ⟨⟨0, 0, 0⟩, [1], 1 / 1000⟩ r rfl (fun _ => rfl) (by
      rcases h with rfl | rfl | rfl
      · exact .inl rfl
      · exact .inr (.inl rfl)
      · exact .inr (.inr ⟨rfl, by decide⟩)) ⟨rfl, rfl⟩ sweep_record
    (.inl (by decide +kernel)) 2000 (1 / 1000) 0 [1] [1] 8 0 0 (by norm_num)
    (by decide) pulse_carried (by decide +kernel) hr hk (by rw [hv]; simp)
    (by rw [hv]; intro w hw; simp at hw; rcases hw with rfl | rfl <;> norm_num)
  have key : ∀ f : ℚ, 0 < f → f ≤ 125 → pulseSpectrum [1] (f * (1 / 1000 : ℚ)) ≠ 0 ∧ ResolvesAway r.array f r.transform.velocities := by
    intro f h0 h1
    constructor
    · simp [pulseSpectrum]
    · rw [ea, hv]
      refine ⟨_, List.mem_cons_self, _, List.mem_cons_of_mem _ List.mem_cons_self, by decide +kernel, by decide +kernel,
        by decide +kernel, ?_⟩
      have hf1 : (f : ℝ) ≤ 125 := by exact_mod_cast h1
      intro w hw
      simp only [List.mem_cons, List.not_mem_nil, or_false] at hw
      simp only
      rcases hw with rfl | rfl <;> norm_num <;> linarith
  rw [h1]
  rw [hf] at h2 h3
  obtain ⟨k1, k2⟩ := key (125 / 2) (by norm_num) (by norm_num)
  obtain ⟨k3, k4⟩ := key 125 (by norm_num) (by norm_num)
  have e0 := h3 0 (125 / 2) rfl (by norm_num) k1 k1 k2
  have e1 := h3 1 125 rfl (by norm_num) k3 k3 k4
  rcases vs with _ | ⟨a, _ | ⟨b, _ | ⟨c, vs⟩⟩⟩ <;> simp at h2
  simp at e0 e1
  rw [e0, e1]

/-- A sweep of two samples becomes a wavelet of three, with the same lags of the receivers. -/
example : wavelet [1, -1] [1, -1] = [-1, 2, -1] ∧
    ATS.correlate [0, 0, 3, -3, 0] [1, -1] = [0, 0, -3, 6, -3, 0] := by
  decide +kernel

end Verif.Props
