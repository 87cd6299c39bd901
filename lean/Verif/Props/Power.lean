import Verif.Spec.Power
import Verif.Props.Snr
import Verif.Props.Recovery
import Verif.Props.SlantStack

/-!
# C117: the power at a velocity and a frequency
-/

open Complex

namespace Verif.Props
open Verif WT Spec Workflow

/-- The discrete Fourier sum at a bin is the component at the bin's frequency. -/
theorem fftBin_spectrum {s s0 : Sensor} {k : ℕ} (hm : SameMeta s.ts s0.ts) (hdt : 0 < s0.ts.dt) :
    fftBin s.ts.amp k = spectrumAt ((k * s0.ts.dfInternal : ℚ) : ℝ) s := by
  rw [fftBin_component, spectrumAt, hm.1]
  refine (component_bin (n := s0.ts.nsamples) hm.2.2.2 hdt ?_).symm
  simp [physicalFrequency, ATS.dfInternal, div_eq_mul_inv]

theorem phaseSum_integral : ∀ pts : List (ℝ × ℂ), phaseSum (pts.map Prod.fst) (pts.map Prod.snd) = integral pts
  | [] => rfl
  | [_] => rfl
  | p :: q :: rest => by
    have ih := phaseSum_integral (q :: rest)
    simp only [List.map_cons] at ih
    simp only [List.map_cons, phaseSum, integral, ih]
    congr 3
    ring

theorem phasePower_eq (src : Source) (ss : List Sensor) (f v : ℝ) (U : Sensor → ℂ)
    (hU : ∀ s ∈ ss, U s = spectrumAt f s) :
    phasePower ((ss.map (offset src)).map fun (x : ℚ) => (x : ℝ)) (ss.map U) v f = phaseShiftPower src ss f v := by
  unfold phasePower phaseShiftPower
  rw [← phaseSum_integral]
  congr 2
  · simp [Function.comp_def]
  · rw [List.map_map, List.map_map, List.zipWith_map_left, List.zipWith_map_right, List.zipWith_self]
    refine List.map_congr_left fun s hs => ?_
    simp only [Function.comp, phaseInner, hU s hs, mul_div_assoc]
    congr 3
    push_cast
    ring

/-- **C117** (phase shift).  Every power reported by the phase-shift transform of an array with the source on one side
is, at its trial velocity and its frequency in Hz, the magnitude of the integral over offset of the phase of the
spectrum at that frequency advanced by the travel time. -/
theorem C117_phase_shift (a : Arr) (set : Settings) (t : Transform) (ht : Builtin.phaseShift a set = .ok t)
    (hc : Consistent a) (hdt : ∀ s ∈ a.sensors, 0 < s.ts.dt)
    (hout : (∀ s ∈ a.sensors, a.source.x ≤ s.x) ∨ (∀ s ∈ a.sensors, s.x < a.source.x)) :
    ∃ ss, NearToFar a ss ∧ t.power.length = t.velocities.length ∧
      (∀ row ∈ t.power, row.length = t.frequencies.length) ∧
      ∀ (i j : ℕ) (v : ℝ) (f : ℚ), t.velocities[i]? = some v → t.frequencies[j]? = some f →
        (∀ s ∈ a.sensors, spectrumAt f s ≠ 0) →
        (t.power[i]?.bind fun row => row[j]?) = some ((phaseShiftPower a.source ss f v : ℝ) : ℂ) := by
  obtain ⟨ss, s0, hperm, hs0, hsorted, hrec⟩ := record_of_outside hc hout
  refine ⟨ss, ⟨hperm, hsorted⟩, ?_⟩
  unfold Builtin.phaseShift at ht
  rcases hvel : Builtin.velocities set with e | vels
  · rw [hvel] at ht; cases ht
  rw [hvel, hrec] at ht
  set r : Record := ⟨ss.map (fun s => s.ts.amp), ss.map (offset a.source), s0.ts.nsamples, s0.ts.dfInternal,
        s0.ts.multiple⟩ with hr
  rcases hids : r.keepIds ⟨set.fmin, set.fmax⟩ with e | ids
  · simp [bind, Except.bind, WT.phaseShift, hids] at ht
  simp only [bind, Except.bind, WT.phaseShift, hids, pure, Except.pure, Except.ok.injEq] at ht
  subst ht
  refine ⟨by simp, ?_, ?_⟩
  · intro row hrow
    simp only [List.map_map, List.mem_map] at hrow
    obtain ⟨w, -, rfl⟩ := hrow
    simp
  intro i j v f hi hj _
  simp only at hi hj
  obtain ⟨k, hk, rfl⟩ := createVector_ids hids hj
  have hkN := record_bins hids k (List.mem_of_getElem? hk)
  have hfr : (binFrequencies r.nsamples r.step).getD k 0 = binFrequency r k := by
    simp [binFrequencies, binFrequency, List.getD_eq_getElem?_getD, hkN]
  simp only [List.map_map, List.getElem?_map, hi, Option.map_some, Option.bind_some, hk, Function.comp,
    Option.some.injEq, Complex.ofReal_inj]
  rw [hfr, hr]
  simp only [List.map_map, Function.comp_def]
  have := phasePower_eq a.source ss (binFrequency r k : ℝ) v (fun s => fftBin s.ts.amp k) fun s hs =>
    fftBin_spectrum (hc.2.2 _ (hperm.mem_iff.1 hs) _ hs0) (hdt _ hs0)
  simpa only [List.map_map, Function.comp_def] using this

theorem sum_range_getD {α : Type} (g : α → ℂ) (d : α) : ∀ l : List α,
    ∑ i ∈ Finset.range l.length, g (l.getD i d) = (l.map g).sum
  | [] => by simp
  | x :: l => by
    rw [List.length_cons, Finset.sum_range_succ', List.map_cons, List.sum_cons]
    simp only [List.getD_cons_succ, List.getD_cons_zero]
    rw [sum_range_getD g d l, add_comm]

/-- Beamforming of one recording, on sensors in any order. -/
theorem fdbfPower_eq (hankel : ℝ → ℂ) (weighting steering : Option String) (a : Arr) (ss : List Sensor)
    (hperm : ss.Perm a.sensors) (f v : ℝ) (U : Sensor → ℂ) (hU : ∀ s ∈ ss, U s = spectrumAt f s)
    (x : ℕ → ℝ) (hx : ∀ i (h : i < ss.length), x i = ((offset a.source ss[i] : ℚ) : ℝ))
    (z : ℕ → ℂ) (hz : ∀ i (h : i < ss.length), z i = U ss[i]) :
    fdbfPower hankel weighting steering ss.length x [z] v f =
      ((beamformingPower a (weightOf a.source weighting f) (lagOf hankel steering) f v : ℝ) : ℂ) := by
  unfold fdbfPower beamformingPower
  rw [beamPower_sscm]
  have hone : (weightedBlocks weighting [z]) =
      [fun i => (if weighting = some "invamp" then ((1 / ‖z i‖ : ℝ) : ℂ) else 1) * z i] := by
    unfold weightedBlocks invamp
    split_ifs <;> simp [mul_comm]
  rw [hone]
  simp only [List.map_cons, List.map_nil, List.sum_cons, List.sum_nil, add_zero, List.length_cons, List.length_nil,
    zero_add, Nat.cast_one, div_one, Complex.ofReal_inj, Complex.normSq_eq_norm_sq]
  congr 2
  rw [← (hperm.map _).sum_eq]
  rcases ss with _ | ⟨s0, rest⟩
  · simp
  rw [← sum_range_getD _ s0]
  refine Finset.sum_congr rfl fun i hi => ?_
  have hi' := Finset.mem_range.1 hi
  have hget : (s0 :: rest).getD i s0 = (s0 :: rest)[i] := by
    rw [List.getD_eq_getElem?_getD, List.getElem?_eq_getElem hi', Option.getD_some]
  rw [hget, hx i hi', hz i hi', hU _ (List.getElem_mem hi')]
  rw [steer_eq]
  have e : (starRingEnd ℂ) (exp (-(lagOf hankel steering (2 * Real.pi * f / v * (offset a.source (s0 :: rest)[i] : ℚ)) : ℝ) * I)) =
      exp ((lagOf hankel steering (2 * Real.pi * f / v * (offset a.source (s0 :: rest)[i] : ℚ)) : ℝ) * I) := by
    rw [← Complex.exp_conj]
    simp
  rw [e]
  congr 1
  unfold channelWeight weightOf
  by_cases h1 : weighting = some "sqrt"
  · simp [h1, hx i hi']
  · by_cases h2 : weighting = some "invamp"
    · simp [h2]
    · simp [h1, h2]

/-- **C117** (beamforming).  Every power reported by FDBF is, at its trial velocity and its frequency in Hz, the
squared magnitude of the sum over all receivers of the weighted spectrum at that frequency, advanced by the phase lag
of the chosen wavefront: wherever the source, and whatever the order of the traces. -/
theorem C117_beamforming (hankel : ℝ → ℂ) (a : Arr) (set : Settings) (t : Transform)
    (ht : Builtin.fdbf hankel a set = .ok t) (hc : Consistent a) (hdt : ∀ s ∈ a.sensors, 0 < s.ts.dt) :
    t.power.length = t.velocities.length ∧ (∀ row ∈ t.power, row.length = t.frequencies.length) ∧
      ∀ (i j : ℕ) (v : ℝ) (f : ℚ), t.velocities[i]? = some v → t.frequencies[j]? = some f →
        ((Builtin.specific set.fdbf).get "weighting" = some "invamp" → ∀ s ∈ a.sensors, spectrumAt f s ≠ 0) →
        (t.power[i]?.bind fun row => row[j]?) =
          some ((beamformingPower a (weightOf a.source ((Builtin.specific set.fdbf).get "weighting") f)
            (lagOf hankel ((Builtin.specific set.fdbf).get "steering")) f v : ℝ) : ℂ) := by
  unfold Builtin.fdbf at ht
  rcases hvel : Builtin.velocities set with e | vels
  · rw [hvel] at ht; cases ht
  rcases hflip : a.flippedTseriesAndOffsets with e | ⟨tm, offs⟩
  · simp [bind, Except.bind, hvel, Record.ofArray, hflip] at ht
  obtain ⟨ss, hperm, htm, hoffs⟩ := C20_traces_keep_their_offsets a tm offs hflip
  rcases hs : a.sensors with _ | ⟨s0, rest⟩
  · exact absurd hs hc.1
  have hs0 : s0 ∈ a.sensors := by simp [hs]
  have hrec : Record.ofArray a = .ok ⟨tm, offs, s0.ts.nsamples, s0.ts.dfInternal, s0.ts.multiple⟩ := by
    simp [Record.ofArray, hflip, hs, bind, Except.bind, pure, Except.pure]
  rw [hvel, hrec] at ht
  set r : Record := ⟨tm, offs, s0.ts.nsamples, s0.ts.dfInternal, s0.ts.multiple⟩ with hr
  rcases hids : r.keepIds ⟨set.fmin, set.fmax⟩ with e | ids
  · simp [bind, Except.bind, WT.fdbf, hids] at ht
  simp only [bind, Except.bind, WT.fdbf, hids, pure, Except.pure, Except.ok.injEq] at ht
  subst ht
  refine ⟨by simp, ?_, ?_⟩
  · intro row hrow
    simp only [List.mem_map] at hrow
    obtain ⟨w, -, rfl⟩ := hrow
    simp
  intro i j v f hi hj _
  simp only at hi hj
  obtain ⟨k, hk, rfl⟩ := createVector_ids hids hj
  have hkN := record_bins hids k (List.mem_of_getElem? hk)
  have hfr : (binFrequencies r.nsamples r.step).getD k 0 = binFrequency r k := by
    simp [binFrequencies, binFrequency, List.getD_eq_getElem?_getD, hkN]
  simp only [List.getElem?_map, hi, Option.map_some, Option.bind_some, hk, Option.some.injEq]
  rw [hfr]
  have hlen : r.tm.length = ss.length := by simp [hr, htm]
  rw [hlen]
  refine fdbfPower_eq hankel _ _ a ss hperm _ v (fun s => fftBin s.ts.amp k) ?_ _ ?_ _ ?_
  · exact fun s hs => fftBin_spectrum (hc.2.2 _ (hperm.mem_iff.1 hs) _ hs0) (hdt _ hs0)
  · intro i h
    simp [hr, hoffs, List.getD_eq_getElem?_getD, h]
  · intro i h
    simp [hr, htm, List.getD_eq_getElem?_getD, h]

/-- Zeros after the samples do not change a component. -/
theorem component_append_zeros (f dt : ℝ) (u : List ℚ) (m : ℕ) :
    component f dt (u ++ List.replicate m 0) = component f dt u := by
  unfold component
  rw [List.length_append, List.length_replicate, Finset.sum_range_add]
  have h2 : ∀ i ∈ Finset.range m, (((u ++ List.replicate m 0).getD (u.length + i) 0 : ℚ) : ℂ) *
      exp (-(2 * Real.pi * f * ((u.length + i : ℕ) * dt) : ℝ) * I) = 0 := by
    intro i hi
    simp [List.getD_eq_getElem?_getD, Finset.mem_range.1 hi]
  rw [Finset.sum_eq_zero h2, add_zero]
  refine Finset.sum_congr rfl fun i hi => ?_
  have := Finset.mem_range.1 hi
  simp [List.getD_eq_getElem?_getD, List.getElem?_append_left this]

theorem fftPadded_component (row : List ℚ) (n k : ℕ) (dt f : ℚ) (hrow : row.length ≤ n) (hdt : 0 < dt)
    (hf : f = physicalFrequency n dt k) : Builtin.fftPadded row n k = component f dt row := by
  unfold Builtin.fftPadded
  have hlen : (row ++ List.replicate (n - row.length) (0 : ℚ)).length = n := by simp; omega
  rw [List.take_of_length_le hlen.le, fftBin_component, ← component_bin hlen hdt hf, component_append_zeros]

/-- **C117** (slant stack).  Every value reported by the slant-stack transform of an array with the source on one side
is, at its trial velocity and its frequency in Hz, the Fourier component at that frequency of the slant stack at that
velocity: of the integral over offset of the traces delayed by the travel time from the nearest receiver, over all
delays for which the traces are recorded. -/
theorem C117_slant_stack (geom : ℚ → ℚ → ℕ → List ℚ) (a : Arr) (set : Settings) (t : Transform)
    (ht : Builtin.slantStack geom a set = .ok t) (hc : Consistent a) (hdt : ∀ s ∈ a.sensors, 0 < s.ts.dt)
    (hout : (∀ s ∈ a.sensors, a.source.x ≤ s.x) ∨ (∀ s ∈ a.sensors, s.x < a.source.x))
    (hpos : ∀ w ∈ t.velocities, 0 < w) :
    ∃ (vels : List ℚ) (ss : List Sensor) (s0 : Sensor) (nt : ℕ), NearToFar a ss ∧ ss.head? = some s0 ∧
      t.velocities = vels.map (fun (v : ℚ) => (v : ℝ)) ∧
      (∀ s ∈ ss, ∀ v ∈ vels, nt + ⌊(offset a.source s - offset a.source s0) / v / s0.ts.dt⌋ + 1 ≤ s0.ts.amp.length) ∧
      (∃ s ∈ ss, ∃ v ∈ vels, nt + ⌊(offset a.source s - offset a.source s0) / v / s0.ts.dt⌋ + 1 = s0.ts.amp.length) ∧
      t.power.length = vels.length ∧ (∀ row ∈ t.power, row.length = t.frequencies.length) ∧
      ∀ (i j : ℕ) (v f : ℚ), vels[i]? = some v → t.frequencies[j]? = some f →
        (t.power[i]?.bind fun row => row[j]?) = some (component f s0.ts.dt ((List.range nt).map fun (m : ℕ) =>
          slantSpec (ss.map fun s => s.ts.amp) (ss.map (offset a.source)) (offset a.source s0) s0.ts.dt v
            (m * s0.ts.dt))) := by
  obtain ⟨ss, hperm, hsorted, hflip⟩ := C20_near_to_far_partial a hc hout
  have hne : ss ≠ [] := fun h => hc.1 (List.nil_perm.1 (h ▸ hperm))
  obtain ⟨s0, srest, hss⟩ := List.exists_cons_of_ne_nil hne
  have hs0 : s0 ∈ a.sensors := hperm.mem_iff.1 (by simp [hss])
  rcases hs : a.sensors with _ | ⟨s1, rest⟩
  · exact absurd hs hc.1
  have hs1 : s1 ∈ a.sensors := by simp [hs]
  have hm := hc.2.2 s1 hs1 s0 hs0
  unfold Builtin.slantStack at ht
  rcases hvel : Builtin.velocitiesQ geom set with e | vels
  · rw [hvel] at ht; cases ht
  simp only [hvel, bind, Except.bind, slantStackOfArray, hflip, hs] at ht
  rcases hst : slantStack (ss.map fun s => s.ts.amp) (ss.map (offset a.source)) s1.ts.dt vels with e | stack
  · rw [hst] at ht; cases ht
  rw [hst] at ht
  simp only at ht
  rcases hids : keepIds (binFrequencies s1.ts.nsamples s1.ts.dfInternal) set.fmin set.fmax s1.ts.multiple with e | ids
  · rw [hids] at ht; cases ht
  rw [hids] at ht
  simp only [pure, Except.pure, Except.ok.injEq] at ht
  subst ht
  simp only at hpos
  have hvne : vels ≠ [] := by
    rintro rfl
    rw [hss] at hst
    simp [slantStack, Arr.minList] at hst
  have hin : SlantInput (ss.map fun s => s.ts.amp) (ss.map (offset a.source)) s1.ts.dt vels s0.ts.amp.length := by
    refine ⟨by simp [hss], by simp, ?_, hdt _ hs1, hvne, ?_⟩
    · intro u hu
      obtain ⟨s, hs, rfl⟩ := List.mem_map.1 hu
      exact (hc.2.2 s (hperm.mem_iff.1 hs) s0 hs0).2.2.2
    · intro v hv
      have := hpos _ (List.mem_map_of_mem (f := fun (v : ℚ) => (v : ℝ)) hv)
      exact_mod_cast this
  rcases C67_slant_stack _ _ _ _ _ hin with he | ⟨xmin, nt, ⟨hx1, hx2⟩, hle, heq, hok⟩
  · rw [hst] at he; cases he
  rw [hst] at hok
  have hxmin : xmin = offset a.source s0 := by
    refine le_antisymm (hx2 _ (by simp [hss])) ?_
    obtain ⟨s, hs, rfl⟩ := List.mem_map.1 hx1
    rw [hss] at hs hsorted
    rcases List.mem_cons.1 hs with rfl | hs
    · exact le_rfl
    · exact ((List.pairwise_cons.1 hsorted).1 s hs).le
  subst hxmin
  rw [hm.1] at hle heq hok
  refine ⟨vels, ss, s0, nt, ⟨hperm, hsorted⟩, by simp [hss], rfl, ?_, ?_, ?_, ?_, ?_⟩
  · exact fun s hs v hv => hle _ (List.mem_map_of_mem hs) v hv
  · obtain ⟨x, hx, v, hv, e⟩ := heq
    obtain ⟨s, hs, rfl⟩ := List.mem_map.1 hx
    exact ⟨s, hs, v, hv, e⟩
  · rw [Except.ok.inj hok]; simp
  · intro row hrow
    obtain ⟨w, -, rfl⟩ := List.mem_map.1 hrow
    simp
  · intro i j v f hi hj
    rw [List.getElem?_map] at hj
    obtain ⟨k, hk, rfl⟩ := Option.map_eq_some_iff.1 hj
    have hkN : k < s1.ts.nsamples := by
      simpa [binFrequencies] using keepIds_valid hids k (List.mem_of_getElem? hk)
    simp only [Except.ok.inj hok, List.map_map, List.getElem?_map, hi, hk, Option.map_some, Option.bind_some,
      Function.comp, Option.some.injEq]
    rw [← hm.1]
    refine fftPadded_component _ _ _ _ _ ?_ (hdt _ hs1) ?_
    · simp only [List.length_map, List.length_range]
      have := hle (offset a.source s0) (List.mem_map_of_mem (by simp [hss])) v (List.mem_of_getElem? hi)
      simp only [sub_self, zero_div, Int.floor_zero] at this
      have h2 : s1.ts.nsamples = s0.ts.amp.length := hm.2.2.2
      omega
    · simp [binFrequencies, List.getD_eq_getElem?_getD, hkN, physicalFrequency, ATS.dfInternal, div_eq_mul_inv]

/-! ## Examples -/

/-- The padded record of a pulse crossing three receivers meets the conditions, and each transform returns. -/
example : Consistent pulsePadded ∧ (∀ s ∈ pulsePadded.sensors, 0 < s.ts.dt) ∧
    (∀ s ∈ pulsePadded.sensors, pulsePadded.source.x ≤ s.x) := by
  refine ⟨⟨by decide +kernel, by decide +kernel, ?_⟩, by decide +kernel, by decide +kernel⟩
  simp only [SameMeta]
  decide +kernel

example : ∃ t, Builtin.phaseShift pulsePadded (pulseSet "phaseshift") = .ok t ∧ t.frequencies = [125 / 2, 125] ∧
    t.velocities = [2000, 4000] := by
  obtain ⟨t, ⟨T, hT, ht⟩, h⟩ := pulse_transform (tr := "phaseshift") (Or.inl rfl)
  cases hT
  exact ⟨t, ht, h⟩

example : ∃ t, Builtin.fdbf (fun _ => 0) pulsePadded (pulseSet "fdbf") = .ok t ∧ t.frequencies = [125 / 2, 125] ∧
    t.velocities = [2000, 4000] := by
  obtain ⟨t, ⟨T, hT, ht⟩, h⟩ := pulse_transform (tr := "fdbf") (Or.inr (Or.inr rfl))
  cases hT
  exact ⟨t, ht, h⟩

/-- The spectrum of a single sample `g` after `b` zeros. -/
theorem spectrum_pulse (f : ℝ) (b : ℕ) (g : ℚ) (m : ℕ) (s : Sensor)
    (h : s.ts.amp = List.replicate b 0 ++ g :: List.replicate m 0) :
    spectrumAt f s = (g : ℂ) * exp (-(2 * Real.pi * f * (b * s.ts.dt) : ℝ) * I) := by
  unfold spectrumAt component
  rw [h, Finset.sum_eq_single b]
  · simp [List.getD_eq_getElem?_getD]
  · intro i hi hne
    have : (List.replicate b (0 : ℚ) ++ g :: List.replicate m 0).getD i 0 = 0 := by
      rw [List.getD_eq_getElem?_getD]
      rcases Nat.lt_or_gt_of_ne hne with h1 | h1
      · simp [List.getElem?_append_left, h1]
      · obtain ⟨j, rfl⟩ : ∃ j, i = b + (j + 1) := ⟨i - b - 1, by omega⟩
        rw [List.getElem?_append_right (by simp)]
        simp only [List.length_replicate, Nat.add_sub_cancel_left, List.getElem?_cons_succ]
        by_cases hj : j < m <;> simp [hj]
    rw [this]; simp
  · intro hb
    simp at hb

/-- Its spectra vanish at no frequency. -/
example (f : ℝ) : ∀ s ∈ pulsePadded.sensors, spectrumAt f s ≠ 0 := by
  have key : ∀ (b : ℕ) (g : ℚ) (m : ℕ) (s : Sensor), g ≠ 0 → s.ts.amp = List.replicate b 0 ++ g :: List.replicate m 0 →
      spectrumAt f s ≠ 0 := by
    intro b g m s hg h
    rw [spectrum_pulse f b g m s h]
    exact mul_ne_zero (by exact_mod_cast hg) (exp_ne_zero _)
  intro s hs
  simp only [pulsePadded, pulseArr, List.map_cons, List.map_nil, List.mem_cons, List.not_mem_nil, or_false] at hs
  rcases hs with rfl | rfl | rfl
  · exact key 1 2 14 _ (by norm_num) (by decide +kernel)
  · exact key 2 3 13 _ (by norm_num) (by decide +kernel)
  · exact key 4 7 11 _ (by norm_num) (by decide +kernel)

/-- The slant stack of the same record: three receivers 2 m, 4 m and 8 m away, 16 samples, 12 delays. -/
example (geom : ℚ → ℚ → ℕ → List ℚ) : ∃ t, Builtin.slantStack geom pulsePadded (pulseSet "slantstack") = .ok t ∧
    t.frequencies = [125 / 2, 125] ∧ t.velocities = [2000, 4000] := by
  have hv : Builtin.velocitiesQ geom (pulseSet "slantstack") = .ok [2000, 4000] := by
    simp only [Builtin.velocitiesQ, pulseSet]
    norm_num [List.range_succ, show Int.toNat 2 = 2 from rfl]
  have hstack : ∃ stack, slantStackOfArray pulsePadded [2000, 4000] = .ok stack := by
    have h : (slantStackOfArray pulsePadded [2000, 4000]).isOk = true := by decide +kernel
    rcases hx : slantStackOfArray pulsePadded [2000, 4000] with e | x
    · rw [hx] at h; cases h
    · exact ⟨x, rfl⟩
  obtain ⟨stack, hst⟩ := hstack
  have hids : keepIds (binFrequencies 16 (125 / 2 : ℚ)) 60 130 1 = .ok [1, 2] := by decide +kernel
  have hf : ([1, 2] : List ℕ).map (fun k => (binFrequencies 16 (125 / 2 : ℚ)).getD k 0) = [125 / 2, 125] := by
    decide +kernel
  refine ⟨⟨1, [125 / 2, 125], [2000, 4000], stack.map fun row => [1, 2].map fun k => Builtin.fftPadded row 16 k⟩, ?_, rfl,
    rfl⟩
  have hd : ∀ s ∈ pulsePadded.sensors.head?, s.ts.nsamples = 16 ∧ s.ts.dfInternal = 125 / 2 ∧ s.ts.multiple = 1 := by
    decide +kernel
  unfold Builtin.slantStack
  rcases hs : pulsePadded.sensors with _ | ⟨s, rest⟩
  · exact absurd hs (by decide +kernel)
  obtain ⟨h1, h2, h3⟩ := hd s (by simp [hs])
  simp only [hv, hst, bind, Except.bind, h1, h2, h3]
  have hset : (pulseSet "slantstack").fmin = 60 ∧ (pulseSet "slantstack").fmax = 130 := ⟨rfl, rfl⟩
  rw [hset.1, hset.2, hids]
  simp only [hf, pure, Except.pure, Except.ok.injEq]
  norm_num

end Verif.Props
