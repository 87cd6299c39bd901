import Verif.Props.TrueVelocity
import Verif.Props.ArrayOffsets
import Verif.Props.ArrayStructure
import Verif.Props.RunReturns
import Verif.Props.OneAxis

/-!
# C114: picked peaks are at the velocity of the wave
-/

open Complex

namespace Verif.Props
open Verif WT Spec Workflow

/-! ## From recorded pulses to spectra -/

theorem pulse_fft (pulse : List ℚ) (m k : ℕ) (c : ℝ) (hc : c = (k : ℝ) / ((pulse.length + m : ℕ) : ℝ)) :
    fftBin (pulse ++ List.replicate m 0) k = pulseSpectrum pulse c := by
  unfold fftBin pulseSpectrum
  rw [List.length_append, List.length_replicate, Finset.sum_range_add]
  have h0 : ∑ x ∈ Finset.range m, (((pulse ++ List.replicate m 0).getD (pulse.length + x) 0 : ℚ) : ℂ) *
      exp (-(2 * Real.pi * k * ((pulse.length + x : ℕ) : ℝ) / ((pulse.length + m : ℕ) : ℝ) : ℝ) * I) = 0 := by
    refine Finset.sum_eq_zero fun x hx => ?_
    have : (pulse ++ List.replicate m 0).getD (pulse.length + x) 0 = (0 : ℚ) := by
      rw [List.getD_eq_getElem?_getD, List.getElem?_append_right (by omega), List.getElem?_replicate]
      split_ifs <;> rfl
    rw [this]
    simp
  rw [h0, add_zero]
  refine Finset.sum_congr rfl fun x hx => ?_
  have hx' := Finset.mem_range.1 hx
  congr 2
  · rw [List.getD_eq_getElem?_getD, List.getElem?_append_left hx', ← List.getD_eq_getElem?_getD]
  · rw [hc]
    congr 3
    ring

theorem pulse_trace (pulse : List ℚ) (before after k : ℕ) (gain : ℚ) :
    fftBin (List.replicate before 0 ++ pulse.map (fun x => gain * x) ++ List.replicate after 0) k =
      (gain : ℂ) * (fftBin (pulse ++ List.replicate (after + before) 0) k *
        exp (-(2 * Real.pi * k * before / ((pulse.length + (after + before) : ℕ) : ℝ) : ℝ) * I)) := by
  have hrot : (List.replicate before 0 ++ pulse.map (fun x => gain * x) ++ List.replicate after 0).rotate before =
      (pulse ++ List.replicate (after + before) 0).map fun x => gain * x := by
    have := List.rotate_append_length_eq (List.replicate before (0 : ℚ))
      (pulse.map (fun x => gain * x) ++ List.replicate after 0)
    rw [List.length_replicate] at this
    rw [List.append_assoc, this, List.append_assoc, List.replicate_append_replicate, List.map_append,
      List.map_replicate, mul_zero]
  have h := fftBin_rotate (List.replicate before 0 ++ pulse.map (fun x => gain * x) ++ List.replicate after 0) k before
  rw [hrot, fftBin_gain, ← omega_pow] at h
  rw [← h]
  have hl : (List.replicate before (0 : ℚ) ++ pulse.map (fun x => gain * x) ++ List.replicate after 0).length =
      pulse.length + (after + before) := by
    simp only [List.length_append, List.length_replicate, List.length_map]; omega
  rw [hl]
  ring

/-- The array's traces, from near to far, are a plane wave at every bin where the pulse has energy. -/
theorem carriesPulse_wave {a : Arr} {v dt : ℚ} {lead : ℤ} {pulse : List ℚ} {n : ℕ} (hv : 0 < v) (hdt : 0 < dt)
    (hp : CarriesPulse a v dt lead pulse n) {r : Record} (hr : Record.ofArray a = .ok r) (hn : 0 < n) (k : ℕ) :
    WaveAt id r (v : ℝ) k (exp (-(2 * Real.pi * k * lead / n : ℝ) * I) * pulseSpectrum pulse ((binFrequency r k : ℝ) * dt)) := by
  unfold Record.ofArray at hr
  rcases hfl : a.flippedTseriesAndOffsets with e | ⟨tm, offs⟩
  · rw [hfl] at hr; cases hr
  rw [hfl] at hr
  rcases hs : a.sensors with _ | ⟨s0, rest⟩
  · simp [hs, bind, Except.bind] at hr
  simp only [hs, bind, Except.bind, pure, Except.pure, Except.ok.injEq] at hr
  subst hr
  obtain ⟨ss, hperm, htm, hoffs⟩ := C20_traces_keep_their_offsets a tm offs hfl
  obtain ⟨hdt0, b0, a0, g0, hg0, -, hn0, hamp0⟩ := hp s0 (by rw [hs]; exact List.mem_cons_self)
  have hns : s0.ts.nsamples = n := by
    unfold ATS.nsamples
    rw [hamp0]; simp only [List.length_append, List.length_replicate, List.length_map]; omega
  intro i hi
  simp only at hi ⊢
  have hi' : i < ss.length := by rw [htm] at hi; simpa using hi
  have hmem : ss[i] ∈ a.sensors := hperm.subset (List.getElem_mem hi')
  obtain ⟨-, before, after, gain, hgain, hoff, hlen, hamp⟩ := hp _ hmem
  refine ⟨(gain : ℝ), by exact_mod_cast hgain, ?_⟩
  have h1 : tm.getD i [] = ss[i].ts.amp := by
    rw [htm, List.getD_eq_getElem?_getD, List.getElem?_map, List.getElem?_eq_getElem hi']; rfl
  have h2 : offs.getD i 0 = v * (((before : ℚ) - lead) * dt) := by
    rw [hoffs, List.getD_eq_getElem?_getD, List.getElem?_map, List.getElem?_eq_getElem hi']
    exact hoff
  have hN : pulse.length + (after + before) = n := by omega
  have hnR : (n : ℝ) ≠ 0 := by exact_mod_cast hn.ne'
  have hvR : (v : ℝ) ≠ 0 := by exact_mod_cast hv.ne'
  have hdtR : (dt : ℝ) ≠ 0 := by exact_mod_cast hdt.ne'
  have hfreq : (binFrequency ⟨tm, offs, s0.ts.nsamples, s0.ts.dfInternal, s0.ts.multiple⟩ k : ℝ) = k / (n * dt) := by
    unfold binFrequency ATS.dfInternal
    rw [hns, hdt0]
    push_cast
    ring
  rw [h1, hamp, pulse_trace, hN, hfreq, h2]
  rw [pulse_fft pulse (after + before) k ((k / (n * dt) : ℝ) * dt) (by rw [hN]; field_simp)]
  have e : (2 * Real.pi * ((k : ℝ) / (n * dt)) / v * ((v * (((before : ℚ) - lead) * dt) : ℚ) : ℝ) : ℝ) =
      2 * Real.pi * k * before / n - 2 * Real.pi * k * lead / n := by
    push_cast
    field_simp
  have e2 : exp (-(2 * Real.pi * k * before / n : ℝ) * I) =
      exp (-(2 * Real.pi * k * lead / n : ℝ) * I) * exp (-(2 * Real.pi * k * before / n - 2 * Real.pi * k * lead / n : ℝ) * I) := by
    rw [← Complex.exp_add]
    congr 1
    push_cast
    ring
  simp only [id, e]
  rw [e2]
  push_cast
  ring

/-! ## Picking -/

theorem complexLt_rankOrder : RankOrder Builtin.complexLt where
  irrefl a := by simp [Builtin.complexLt]
  asymm := by
    intro a b
    simp only [Builtin.complexLt, Bool.or_eq_true, Bool.and_eq_true, decide_eq_true_eq, Bool.or_eq_false_iff,
      decide_eq_false_iff_not, Bool.and_eq_false_iff]
    rintro (h | ⟨h1, h2⟩)
    · exact ⟨by linarith, Or.inl (by intro h'; linarith)⟩
    · exact ⟨by linarith, Or.inr (by linarith)⟩
  trans := by
    intro a b c
    simp only [Builtin.complexLt, Bool.or_eq_true, Bool.and_eq_true, decide_eq_true_eq, Bool.or_eq_false_iff,
      decide_eq_false_iff_not, Bool.and_eq_false_iff]
    rintro (h | ⟨h1, h2⟩) ⟨h3, h4⟩
    · left; linarith
    · rcases h4 with h4 | h4
      · left; rcases lt_trichotomy a.re c.re with h | h | h
        · exact absurd h h3
        · exact absurd h h4
        · linarith
      · rcases lt_trichotomy a.re c.re with h | h | h
        · exact absurd h h3
        · right; exact ⟨by linarith, by linarith⟩
        · left; linarith

/-- Picking on a matrix with one row per velocity and one column per frequency: where one velocity has the largest real
part of all, it is picked. -/
theorem findPeak_of_strict (t : Workflow.Transform) (hne : t.velocities ≠ [])
    (hrows : t.power.length = t.velocities.length) (hcols : ∀ row ∈ t.power, row.length = t.frequencies.length) :
    ∃ vs, Builtin.findPeakPower t "frequency-maximum" = .ok vs ∧ vs.length = t.frequencies.length ∧
      ∀ (j : ℕ) (v : ℝ) (i : ℕ) (p : ℂ), j < t.frequencies.length → t.velocities[i]? = some v →
        (t.power[i]?.bind fun row => row[j]?) = some p →
        (∀ (i' : ℕ) (v' : ℝ) (q : ℂ), t.velocities[i']? = some v' → v' ≠ v →
          (t.power[i']?.bind fun row => row[j]?) = some q → q.re < p.re) → vs[j]? = some v := by
  have hpne : t.power ≠ [] := by
    intro h; rw [h] at hrows; exact hne (List.length_eq_zero_iff.1 hrows.symm)
  have hcol : ∀ c, ∃ i, argmaxBy Builtin.complexLt (t.power.map fun row => row.getD c 0) = some i ∧
      i < t.velocities.length ∧
      ∀ (j : ℕ) (x y : ℂ), (t.power[i]?.map fun row => row.getD c 0) = some x →
        (t.power[j]?.map fun row => row.getD c 0) = some y → Builtin.complexLt x y = false := by
    intro c
    obtain ⟨i, hi, hil, h1, -⟩ := argmaxBy_spec complexLt_rankOrder (t.power.map fun row => row.getD c 0)
      (by simpa using hpne)
    refine ⟨i, hi, by simpa [hrows] using hil, ?_⟩
    intro j x y hx hy
    rw [← List.getElem?_map] at hx hy
    obtain ⟨hi', rfl⟩ := List.getElem?_eq_some_iff.1 hx
    obtain ⟨hj', rfl⟩ := List.getElem?_eq_some_iff.1 hy
    exact h1 j hj'
  choose f hf1 hf2 hf3 using hcol
  have hnf : (t.power.headD []).length = t.frequencies.length := by
    obtain ⟨r, rs, hr⟩ := List.exists_cons_of_ne_nil hpne
    rw [hr]
    exact hcols r (by rw [hr]; exact List.mem_cons_self)
  refine ⟨(List.range t.frequencies.length).map fun c => t.velocities.getD (f c) 0, ?_, by simp, ?_⟩
  · unfold Builtin.findPeakPower findPeakBy
    rw [if_pos rfl, hnf]
    refine mapM_ok_of _ _ _ ?_
    intro c _
    rw [hf1 c]
    simp [List.getD_eq_getElem?_getD, hf2 c]
  · intro j v i p hj hv hp hmax
    have hfj := hf2 j
    have hget : ((List.range t.frequencies.length).map fun c => t.velocities.getD (f c) 0)[j]? =
        some (t.velocities[f j]'hfj) := by
      rw [List.getElem?_map, List.getElem?_range hj]
      simp [List.getD_eq_getElem?_getD, hfj]
    rw [hget]
    by_contra hvne
    have hfr : f j < t.power.length := by omega
    have hlen := hcols _ (List.getElem_mem hfr)
    obtain ⟨row, hrow, hrow2⟩ := Option.bind_eq_some_iff.1 hp
    have hq := hmax (f j) (t.velocities[f j]'hfj) (t.power[f j][j]'(by omega)) (List.getElem?_eq_getElem hfj)
      (fun he => hvne (by rw [he]))
      (by rw [List.getElem?_eq_getElem hfr, Option.bind_some, List.getElem?_eq_getElem])
    have := hf3 j i (t.power[f j][j]'(by omega)) p
      (by rw [List.getElem?_eq_getElem hfr]; simp [List.getD_eq_getElem?_getD, hlen, hj])
      (by rw [hrow]; simp [List.getD_eq_getElem?_getD, hrow2])
    simp only [Builtin.complexLt, Bool.or_eq_false_iff, decide_eq_false_iff_not] at this
    exact this.1 hq

/-- At frequency number `j` the power at the velocity `v` is larger than at every other trial velocity. -/
def LargestAt (t : Workflow.Transform) (v : ℝ) (j : ℕ) : Prop :=
  ∀ i : ℕ, t.velocities[i]? = some v → ∃ p : ℂ, (t.power[i]?.bind fun row => row[j]?) = some p ∧
    ∀ (i' : ℕ) (v' : ℝ) (q : ℂ), t.velocities[i']? = some v' → v' ≠ v →
      (t.power[i']?.bind fun row => row[j]?) = some q → q.re < p.re

/-- The power has a row for every velocity and a column for every frequency, and is largest at `v` at every frequency
where `cond` holds. -/
def StandsOut (t : Workflow.Transform) (v : ℝ) (cond : ℚ → Prop) : Prop :=
  v ∈ t.velocities ∧ t.power.length = t.velocities.length ∧ (∀ row ∈ t.power, row.length = t.frequencies.length) ∧
    ∀ (j : ℕ) (f : ℚ), t.frequencies[j]? = some f → cond f → LargestAt t v j

theorem StandsOut.picked {t : Workflow.Transform} {v : ℝ} {cond : ℚ → Prop} (h : StandsOut t v cond) :
    ∃ vs, Builtin.findPeakPower t "frequency-maximum" = .ok vs ∧ vs.length = t.frequencies.length ∧
      ∀ (j : ℕ) (f : ℚ), t.frequencies[j]? = some f → cond f → vs[j]? = some v := by
  obtain ⟨h1, h2, h3, h4⟩ := h
  obtain ⟨vs, e1, e2, e3⟩ := findPeak_of_strict t (List.ne_nil_of_mem h1) h2 h3
  refine ⟨vs, e1, e2, fun j f hj hc => ?_⟩
  obtain ⟨i, g1⟩ := List.mem_iff_getElem?.1 h1
  obtain ⟨p, g2, g3⟩ := h4 j f hj hc i g1
  exact e3 j v i p (List.getElem?_eq_some_iff.1 hj).1 g1 g2 g3

/-! ## From an array to picked peaks -/

/-- Two receivers on the array, `near` and `far`, closer together than the wavelengths of all trial velocities at
frequency `f`. -/
def Resolves (a : Arr) (f : ℚ) (velocities : List ℝ) : Prop :=
  ∃ s ∈ a.sensors, ∃ s' ∈ a.sensors, s.x < s'.x ∧ ∀ w ∈ velocities, (f : ℝ) * (s'.x - s.x) < w

/-- As `Resolves`, with receivers away from the source. -/
def ResolvesAway (a : Arr) (f : ℚ) (velocities : List ℝ) : Prop :=
  ∃ s ∈ a.sensors, ∃ s' ∈ a.sensors, s.x < s'.x ∧ s.x ≠ a.source.x ∧ s'.x ≠ a.source.x ∧
    ∀ w ∈ velocities, (f : ℝ) * (s'.x - s.x) < w

theorem record_of_outside {a : Arr} (hc : Consistent a)
    (hout : (∀ s ∈ a.sensors, a.source.x ≤ s.x) ∨ (∀ s ∈ a.sensors, s.x < a.source.x)) :
    ∃ (ss : List Sensor) (s0 : Sensor), ss.Perm a.sensors ∧ s0 ∈ a.sensors ∧
      ss.Pairwise (fun s t => offset a.source s < offset a.source t) ∧
      Record.ofArray a = .ok ⟨ss.map (fun s => s.ts.amp), ss.map (offset a.source), s0.ts.nsamples, s0.ts.dfInternal,
        s0.ts.multiple⟩ := by
  obtain ⟨ss, h1, h2, h3⟩ := C20_near_to_far_partial a hc hout
  rcases hs : a.sensors with _ | ⟨s0, rest⟩
  · exact absurd hs hc.1
  refine ⟨ss, s0, hs ▸ h1, by simp, h2, ?_⟩
  unfold Record.ofArray
  rw [h3, hs]
  rfl

/-- Two receivers on one side of the source have offsets which differ by their distance. -/
theorem offsets_of_pair {a : Arr}
    (hout : (∀ s ∈ a.sensors, a.source.x ≤ s.x) ∨ (∀ s ∈ a.sensors, s.x < a.source.x)) {s s' : Sensor}
    (hs : s ∈ a.sensors) (hs' : s' ∈ a.sensors) (h : s.x < s'.x) :
    ∃ near ∈ [s, s'], ∃ far ∈ [s, s'], offset a.source near < offset a.source far ∧
      offset a.source far - offset a.source near = s'.x - s.x := by
  unfold offset
  rcases hout with ho | ho
  · refine ⟨s, by simp, s', by simp, ?_⟩
    rw [abs_sub_comm, abs_of_nonneg (by linarith [ho s hs]), abs_sub_comm, abs_of_nonneg (by linarith [ho s' hs'])]
    constructor <;> linarith
  · refine ⟨s', by simp, s, by simp, ?_⟩
    rw [abs_of_pos (by linarith [ho s' hs']), abs_of_pos (by linarith [ho s hs])]
    constructor <;> linarith

theorem createVector_ids {r : Record} {set : FreqSettings} {ids : List ℕ} (hids : r.keepIds set = .ok ids)
    {j : ℕ} {f : ℚ} (hj : (ids.map fun k => (binFrequencies r.nsamples r.step).getD k 0)[j]? = some f) :
    ∃ k, ids[j]? = some k ∧ f = binFrequency r k := by
  rw [List.getElem?_map] at hj
  obtain ⟨k, hk, rfl⟩ := Option.map_eq_some_iff.1 hj
  refine ⟨k, hk, ?_⟩
  have hkN := record_bins hids k (List.mem_of_getElem? hk)
  simp [binFrequencies, binFrequency, List.getD_eq_getElem?_getD, hkN]

/-- The power of the phase-shift transform of a pulse crossing an array with the source on one side. -/
theorem phase_shift_standsOut (a : Arr) (set : Settings) (t : Workflow.Transform)
    (ht : Builtin.phaseShift a set = .ok t) (hc : Consistent a)
    (hout : (∀ s ∈ a.sensors, a.source.x ≤ s.x) ∨ (∀ s ∈ a.sensors, s.x < a.source.x))
    (v dt : ℚ) (lead : ℤ) (pulse : List ℚ) (n : ℕ) (hdt : 0 < dt) (hp : CarriesPulse a v dt lead pulse n)
    (hmem : (v : ℝ) ∈ t.velocities) (hpos : ∀ w ∈ t.velocities, 0 < w) :
    StandsOut t v fun f => 0 < f ∧ pulseSpectrum pulse (f * dt) ≠ 0 ∧ Resolves a f t.velocities := by
  obtain ⟨ss, s0, hperm, hs0, hsorted, hrec⟩ := record_of_outside hc hout
  unfold Builtin.phaseShift at ht
  rcases hvel : Builtin.velocities set with e | vels
  · rw [hvel] at ht; cases ht
  rw [hvel, hrec] at ht
  set r : Record := ⟨ss.map (fun s => s.ts.amp), ss.map (offset a.source), s0.ts.nsamples, s0.ts.dfInternal,
        s0.ts.multiple⟩ with hr
  rcases htr : WT.phaseShift r vels ⟨set.fmin, set.fmax⟩ with e | ⟨frqs, power⟩
  · simp [bind, Except.bind, htr] at ht
  simp only [bind, Except.bind, htr, pure, Except.pure, Except.ok.injEq] at ht
  subst ht
  simp only at hmem hpos ⊢
  have htr' := htr
  unfold WT.phaseShift at htr
  rcases hids : r.keepIds ⟨set.fmin, set.fmax⟩ with e | ids
  · rw [hids] at htr; cases htr
  rw [hids] at htr
  simp only [Except.ok.injEq, Prod.mk.injEq] at htr
  obtain ⟨hfr, hpw⟩ := htr
  refine ⟨hmem, by simp [← hpw], ?_, ?_⟩
  · intro row hrow
    simp only [List.mem_map] at hrow
    obtain ⟨row', hrow', rfl⟩ := hrow
    rw [← hpw] at hrow'
    obtain ⟨w, -, rfl⟩ := List.mem_map.1 hrow'
    simp [← hfr]
  intro j f hj ⟨hf, hS, s, hs, s', hs', hlt, hres⟩ i hi
  simp only at hj
  have hjl : j < frqs.length := (List.getElem?_eq_some_iff.1 hj).1
  rw [← hfr] at hj
  obtain ⟨k, hk, rfl⟩ := createVector_ids hids hj
  obtain ⟨hdt0, b0, a0, g0, hg0, -, hn0, hamp0⟩ := hp s0 hs0
  have hn : 0 < n := by
    have := record_bins hids k (List.mem_of_getElem? hk)
    have h2 : r.nsamples = n := by
      rw [hr]; unfold ATS.nsamples; rw [hamp0]
      simp only [List.length_append, List.length_replicate, List.length_map]; omega
    omega
  have hv0 : 0 < v := by exact_mod_cast hpos _ hmem
  have hw := carriesPulse_wave hv0 hdt hp hrec hn k
  have hx : r.offsets.Pairwise (· < ·) := by rw [hr]; exact List.pairwise_map.2 hsorted
  obtain ⟨near, hnear, far, hfar, hlt2, hdist⟩ := offsets_of_pair hout hs hs' hlt
  have hmem2 : ∀ y ∈ [s, s'], offset a.source y ∈ r.offsets := by
    intro y hy
    refine List.mem_map_of_mem (hperm.mem_iff.2 ?_)
    simp only [List.mem_cons, List.not_mem_nil, or_false] at hy
    rcases hy with rfl | rfl <;> assumption
  have hdist' : ((offset a.source far : ℚ) : ℝ) - (offset a.source near : ℚ) = (s'.x : ℝ) - s.x := by exact_mod_cast hdist
  have cast : ∀ (m : ℕ) (x : ℝ), (power[m]?.bind fun row => row[j]?) = some x →
      ((power.map fun row => row.map fun (x : ℝ) => (x : ℂ))[m]?.bind fun row => row[j]?) = some (x : ℂ) := by
    intro m x hx
    obtain ⟨row, h1, h2⟩ := Option.bind_eq_some_iff.1 hx
    rw [List.getElem?_map, h1]
    simp [h2]
  obtain ⟨p, hp1, -, hp2⟩ := C114_phase_shift_maximum_iff r vels ⟨set.fmin, set.fmax⟩ frqs power htr' hx
    (List.ne_nil_of_mem (hmem2 s (by simp))) (by simp [hr]) ids hids v v i j k hi hk _ (mul_ne_zero (exp_ne_zero _) hS) hw
  have hpe := hp2.2 fun xa _ xb _ => ⟨0, by simp⟩
  refine ⟨p, cast i p hp1, ?_⟩
  intro i' v' q hv' hne hq
  obtain ⟨p1, q1, e1, e2, e3, e4⟩ := C114_phase_shift_unique r vels ⟨set.fmin, set.fmax⟩ frqs power htr' hx (by simp [hr])
    ids hids v v' (hpos _ hmem) (hpos _ (List.mem_of_getElem? hv')) hne i i' j k hi hv' hk _ (mul_ne_zero (exp_ne_zero _) hS) hw hf
    (offset a.source near) (offset a.source far) (hmem2 _ hnear) (hmem2 _ hfar) hlt2
    (by rw [hdist']; exact hres _ hmem) (by rw [hdist']; exact hres _ (List.mem_of_getElem? hv'))
  rw [cast i' q1 e2] at hq
  cases hq
  rw [e3, ← hpe] at e4
  simpa using e4

/-- **C114** (phase shift on an array).  A pulse crossing an array with the source on one side, whatever the gains of
the receivers: if its velocity `v` is a trial velocity, the phase-shift transform's peak is at `v` at every selected
frequency at which the pulse has energy and some two receivers are closer than the shortest trial wavelength. -/
theorem C114_phase_shift_recovers (a : Arr) (set : Settings) (t : Workflow.Transform)
    (ht : Builtin.phaseShift a set = .ok t) (hc : Consistent a)
    (hout : (∀ s ∈ a.sensors, a.source.x ≤ s.x) ∨ (∀ s ∈ a.sensors, s.x < a.source.x))
    (v dt : ℚ) (lead : ℤ) (pulse : List ℚ) (n : ℕ) (hdt : 0 < dt) (hp : CarriesPulse a v dt lead pulse n)
    (hmem : (v : ℝ) ∈ t.velocities) (hpos : ∀ w ∈ t.velocities, 0 < w) :
    ∃ vs, Builtin.findPeakPower t "frequency-maximum" = .ok vs ∧ vs.length = t.frequencies.length ∧
      ∀ (j : ℕ) (f : ℚ), t.frequencies[j]? = some f → 0 < f → pulseSpectrum pulse (f * dt) ≠ 0 →
        Resolves a f t.velocities → vs[j]? = some (v : ℝ) := by
  obtain ⟨vs, h1, h2, h3⟩ := (phase_shift_standsOut a set t ht hc hout v dt lead pulse n hdt hp hmem hpos).picked
  exact ⟨vs, h1, h2, fun j f a1 a2 a3 a4 => h3 j f a1 ⟨a2, a3, a4⟩⟩

/-- The power of a beamforming run is a matrix, one row per trial velocity, one column per selected frequency. -/
theorem fdbf_shape {hankel : ℝ → ℂ} {r : Record} {vels : List ℝ} {set : FreqSettings} {sp : FdbfSpecific}
    {frqs : List ℚ} {power : List (List ℂ)} (h : WT.fdbf hankel r vels set sp = .ok (frqs, power)) :
    power.length = vels.length ∧ (∀ row ∈ power, row.length = frqs.length) ∧
      ∃ ids, r.keepIds set = .ok ids ∧ frqs = ids.map fun k => (binFrequencies r.nsamples r.step).getD k 0 := by
  unfold WT.fdbf at h
  rcases hids : r.keepIds set with e | ids
  · rw [hids] at h; cases h
  rw [hids] at h
  simp only [Except.ok.injEq, Prod.mk.injEq] at h
  obtain ⟨rfl, rfl⟩ := h
  refine ⟨by simp, ?_, ids, rfl, rfl⟩
  intro row hrow
  obtain ⟨w, -, rfl⟩ := List.mem_map.1 hrow
  simp

/-- The power of beamforming with plane steering on an array, for whichever way the settings were made up. -/
theorem beamforming_standsOut (hankel : ℝ → ℂ) (a : Arr) (vels : List ℝ) (set : FreqSettings) (sp : FdbfSpecific)
    (r : Record) (hrec : Record.ofArray a = .ok r) (frqs : List ℚ) (power : List (List ℂ))
    (htr : WT.fdbf hankel r vels set sp = .ok (frqs, power))
    (hplane : sp.get "steering" ≠ some "cylindrical") (hc : Consistent a)
    (hout : (∀ s ∈ a.sensors, a.source.x ≤ s.x) ∨ (∀ s ∈ a.sensors, s.x < a.source.x))
    (v dt : ℚ) (lead : ℤ) (pulse : List ℚ) (n : ℕ) (hdt : 0 < dt) (hp : CarriesPulse a v dt lead pulse n)
    (hmem : (v : ℝ) ∈ vels) (hpos : ∀ w ∈ vels, 0 < w) :
    StandsOut ⟨1, frqs, vels, power⟩ v fun f => 0 < f ∧ pulseSpectrum pulse (f * dt) ≠ 0 ∧ ResolvesAway a f vels := by
  obtain ⟨ss, s0, hperm, hs0, hsorted, hrec'⟩ := record_of_outside hc hout
  obtain ⟨hrows, hcols, ids, hids, hfr⟩ := fdbf_shape htr
  rw [hrec] at hrec'
  have hr := Except.ok.inj hrec'
  refine ⟨hmem, hrows, hcols, ?_⟩
  intro j f hj ⟨hf, hS, s, hs, s', hs', hlt, hne1, hne2, hres⟩ i hi
  simp only at hj
  have hjl : j < frqs.length := (List.getElem?_eq_some_iff.1 hj).1
  rw [hfr] at hj
  obtain ⟨k, hk, rfl⟩ := createVector_ids hids hj
  obtain ⟨hdt0, b0, a0, g0, hg0, -, hn0, hamp0⟩ := hp s0 hs0
  have hn : 0 < n := by
    have := record_bins hids k (List.mem_of_getElem? hk)
    have h2 : r.nsamples = n := by
      rw [hr]; unfold ATS.nsamples; rw [hamp0]
      simp only [List.length_append, List.length_replicate, List.length_map]; omega
    omega
  have hv0 : 0 < v := by exact_mod_cast hpos _ hmem
  have hw := carriesPulse_wave hv0 hdt hp hrec hn k
  have hx : ∀ x ∈ r.offsets, 0 ≤ x := by
    rw [hr]; intro x hx
    obtain ⟨y, -, rfl⟩ := List.mem_map.1 hx
    exact abs_nonneg _
  obtain ⟨near, hnear, far, hfar, hlt2, hdist⟩ := offsets_of_pair hout hs hs' hlt
  have hmem2 : ∀ y ∈ [s, s'], offset a.source y ∈ r.offsets ∧ 0 < offset a.source y := by
    intro y hy
    simp only [List.mem_cons, List.not_mem_nil, or_false] at hy
    constructor
    · rw [hr]
      refine List.mem_map_of_mem (hperm.mem_iff.2 ?_)
      rcases hy with rfl | rfl <;> assumption
    · unfold offset
      rcases hy with rfl | rfl
      · exact abs_pos.2 (sub_ne_zero.2 hne1.symm)
      · exact abs_pos.2 (sub_ne_zero.2 hne2.symm)
  have hdist' : ((offset a.source far : ℚ) : ℝ) - (offset a.source near : ℚ) = (s'.x : ℝ) - s.x := by exact_mod_cast hdist
  have hother : ∀ (i' : ℕ) (v' : ℝ), vels[i']? = some v' → v' ≠ v → ∃ p q : ℝ,
      (power[i]?.bind fun row => row[j]?) = some (p : ℂ) ∧ (power[i']?.bind fun row => row[j]?) = some (q : ℂ) ∧
        0 ≤ q ∧ q < p := fun i' v' hv' hne =>
    C114_beamforming_unique hankel r vels set sp frqs power htr hplane (by simp [hr]) hx ids hids v v'
      (hpos _ hmem) (hpos _ (List.mem_of_getElem? hv')) hne i i' j k hi hv' hk _ (mul_ne_zero (exp_ne_zero _) hS) hw hf
      (offset a.source near) (offset a.source far) (hmem2 _ hnear).1 (hmem2 _ hfar).1 hlt2 (fun _ => (hmem2 _ hnear).2)
      (by rw [hdist']; exact hres _ hmem) (by rw [hdist']; exact hres _ (List.mem_of_getElem? hv'))
  have hil : i < power.length := by rw [hrows]; exact (List.getElem?_eq_some_iff.1 hi).1
  have hjl2 : j < (power[i]).length := by rw [hcols _ (List.getElem_mem hil)]; exact hjl
  have hp0 : (power[i]?.bind fun row => row[j]?) = some (power[i])[j] := by
    rw [List.getElem?_eq_getElem hil]; simp [List.getElem?_eq_getElem hjl2]
  refine ⟨_, hp0, ?_⟩
  intro i' v' q hv' hne hq
  obtain ⟨p1, q1, e1, e2, -, e4⟩ := hother i' v' hv' hne
  rw [hp0] at e1
  rw [e2] at hq
  rw [Option.some.inj e1, ← Option.some.inj hq]
  simpa using e4

/-- The power of frequency-domain beamforming with plane steering and any weighting. -/
theorem fdbf_standsOut (hankel : ℝ → ℂ) (a : Arr) (set : Settings) (t : Workflow.Transform)
    (ht : Builtin.fdbf hankel a set = .ok t) (hplane : (Builtin.specific set.fdbf).get "steering" ≠ some "cylindrical")
    (hc : Consistent a)
    (hout : (∀ s ∈ a.sensors, a.source.x ≤ s.x) ∨ (∀ s ∈ a.sensors, s.x < a.source.x))
    (v dt : ℚ) (lead : ℤ) (pulse : List ℚ) (n : ℕ) (hdt : 0 < dt) (hp : CarriesPulse a v dt lead pulse n)
    (hmem : (v : ℝ) ∈ t.velocities) (hpos : ∀ w ∈ t.velocities, 0 < w) :
    StandsOut t v fun f => 0 < f ∧ pulseSpectrum pulse (f * dt) ≠ 0 ∧ ResolvesAway a f t.velocities := by
  unfold Builtin.fdbf at ht
  rcases hvel : Builtin.velocities set with e | vels
  · rw [hvel] at ht; cases ht
  rw [hvel] at ht
  rcases hrec : Record.ofArray a with e | r
  · simp [hrec, bind, Except.bind] at ht
  rw [hrec] at ht
  rcases htr : WT.fdbf hankel r vels ⟨set.fmin, set.fmax⟩ (Builtin.specific set.fdbf) with e | ⟨frqs, power⟩
  · simp [bind, Except.bind, htr] at ht
  simp only [bind, Except.bind, htr, pure, Except.pure, Except.ok.injEq] at ht
  subst ht
  exact beamforming_standsOut hankel a vels _ _ r hrec frqs power htr hplane hc hout v dt lead pulse n hdt hp hmem hpos

/-- **C114** (beamforming on an array).  The same for frequency-domain beamforming with plane steering and any weighting,
where the two receivers are away from the source. -/
theorem C114_beamforming_recovers (hankel : ℝ → ℂ) (a : Arr) (set : Settings) (t : Workflow.Transform)
    (ht : Builtin.fdbf hankel a set = .ok t) (hplane : (Builtin.specific set.fdbf).get "steering" ≠ some "cylindrical")
    (hc : Consistent a)
    (hout : (∀ s ∈ a.sensors, a.source.x ≤ s.x) ∨ (∀ s ∈ a.sensors, s.x < a.source.x))
    (v dt : ℚ) (lead : ℤ) (pulse : List ℚ) (n : ℕ) (hdt : 0 < dt) (hp : CarriesPulse a v dt lead pulse n)
    (hmem : (v : ℝ) ∈ t.velocities) (hpos : ∀ w ∈ t.velocities, 0 < w) :
    ∃ vs, Builtin.findPeakPower t "frequency-maximum" = .ok vs ∧ vs.length = t.frequencies.length ∧
      ∀ (j : ℕ) (f : ℚ), t.frequencies[j]? = some f → 0 < f → pulseSpectrum pulse (f * dt) ≠ 0 →
        ResolvesAway a f t.velocities → vs[j]? = some (v : ℝ) := by
  obtain ⟨vs, h1, h2, h3⟩ := (fdbf_standsOut hankel a set t ht hplane hc hout v dt lead pulse n hdt hp hmem hpos).picked
  exact ⟨vs, h1, h2, fun j f a1 a2 a3 a4 => h3 j f a1 ⟨a2, a3, a4⟩⟩

theorem dictSet_get (d : List (String × String)) (key value key' : String) :
    (dictSet d key value).lookup key' = if key' = key then some value else d.lookup key' := by
  unfold dictSet
  split_ifs with h1 h2 h2
  · subst h2
    induction d with
    | nil => simp at h1
    | cons p d ih =>
      obtain ⟨a, b⟩ := p
      by_cases e : a = key'
      · subst e; simp
      · have e' : (key' == a) = false := by simpa using fun h : key' = a => e h.symm
        rw [List.lookup_cons, e'] at h1
        simp only [List.map_cons, if_neg e, List.lookup_cons, e']
        exact ih h1
  · clear h1
    induction d with
    | nil => rfl
    | cons p d ih =>
      obtain ⟨a, b⟩ := p
      by_cases e : a = key
      · subst e
        have e' : (key' == a) = false := by simpa using h2
        simp only [List.map_cons, if_true, List.lookup_cons, e']
        exact ih
      · simp only [List.map_cons, if_neg e, List.lookup_cons]
        split
        · rfl
        · exact ih
  · subst h2
    rw [List.lookup_append]
    simp only [Option.not_isSome_iff_eq_none] at h1
    rw [h1]
    simp
  · rw [List.lookup_append]
    have e' : (key' == key) = false := by simpa using h2
    simp [List.lookup_cons, e']

/-- The power of the FK transform. -/
theorem fk_standsOut (hankel : ℝ → ℂ) (a : Arr) (set : Settings) (t : Workflow.Transform)
    (ht : Builtin.fk hankel a set = .ok t) (hc : Consistent a)
    (hout : (∀ s ∈ a.sensors, a.source.x ≤ s.x) ∨ (∀ s ∈ a.sensors, s.x < a.source.x))
    (v dt : ℚ) (lead : ℤ) (pulse : List ℚ) (n : ℕ) (hdt : 0 < dt) (hp : CarriesPulse a v dt lead pulse n)
    (hmem : (v : ℝ) ∈ t.velocities) (hpos : ∀ w ∈ t.velocities, 0 < w) :
    StandsOut t v fun f => 0 < f ∧ pulseSpectrum pulse (f * dt) ≠ 0 ∧ ResolvesAway a f t.velocities := by
  unfold Builtin.fk at ht
  split at ht
  · cases ht
  rename_i d hd
  rcases hvel : Builtin.velocities set with e | vels
  · rw [hvel] at ht; cases ht
  rw [hvel] at ht
  rcases hrec : Record.ofArray a with e | r
  · simp [hrec, bind, Except.bind] at ht
  rw [hrec] at ht
  rcases htr : (WT.fk hankel r vels ⟨set.fmin, set.fmax⟩ (some d)).2 with e | ⟨frqs, power⟩
  · simp [bind, Except.bind, htr] at ht
  simp only [bind, Except.bind, htr, pure, Except.pure, Except.ok.injEq] at ht
  subst ht
  refine beamforming_standsOut hankel a vels _ _ r hrec frqs power htr ?_ hc hout v dt lead pulse n hdt hp hmem hpos
  simp [FdbfSpecific.get, dictSet_get]

/-! ## Through a whole run -/

/-- **C114** (frequency-wavenumber on an array).  The same for the frequency-wavenumber transform, whatever steering and
weighting the settings ask for. -/
theorem C114_fk_recovers (hankel : ℝ → ℂ) (a : Arr) (set : Settings) (t : Workflow.Transform)
    (ht : Builtin.fk hankel a set = .ok t) (hc : Consistent a)
    (hout : (∀ s ∈ a.sensors, a.source.x ≤ s.x) ∨ (∀ s ∈ a.sensors, s.x < a.source.x))
    (v dt : ℚ) (lead : ℤ) (pulse : List ℚ) (n : ℕ) (hdt : 0 < dt) (hp : CarriesPulse a v dt lead pulse n)
    (hmem : (v : ℝ) ∈ t.velocities) (hpos : ∀ w ∈ t.velocities, 0 < w) :
    ∃ vs, Builtin.findPeakPower t "frequency-maximum" = .ok vs ∧ vs.length = t.frequencies.length ∧
      ∀ (j : ℕ) (f : ℚ), t.frequencies[j]? = some f → 0 < f → pulseSpectrum pulse (f * dt) ≠ 0 →
        ResolvesAway a f t.velocities → vs[j]? = some (v : ℝ) := by
  obtain ⟨vs, h1, h2, h3⟩ := (fk_standsOut hankel a set t ht hc hout v dt lead pulse n hdt hp hmem hpos).picked
  exact ⟨vs, h1, h2, fun j f a1 a2 a3 a4 => h3 j f a1 ⟨a2, a3, a4⟩⟩

/-- Padding puts zeros after a record, equally many for records of one length. -/
theorem zeroPad_append (df dt : ℚ) (n : ℕ) : ∃ m, ∀ r : ATS, r.dt = dt → r.nsamples = n →
    (r.zeroPad df).1.amp = r.amp ++ List.replicate m 0 ∧ (r.zeroPad df).1.dt = dt := by
  unfold ATS.zeroPad
  by_cases c1 : df ≤ 0
  · refine ⟨0, fun r h1 _ => ?_⟩
    simp [c1, h1]
  by_cases c2 : ATS.targetSamples df dt > n
  · refine ⟨(ATS.targetSamples df dt - n).toNat, fun r h1 h2 => ?_⟩
    simp only [if_neg c1, h1, h2, if_pos c2, and_self]
  by_cases c3 : ATS.targetSamples df dt < n
  · by_cases c4 : ATS.targetSamples df dt = 0
    · refine ⟨0, fun r h1 h2 => ?_⟩
      simp only [if_neg c1, h1, h2, if_neg c2, if_pos c3, if_pos c4]
      simp
    by_cases c5 : (n : ℤ) % ATS.targetSamples df dt = 0
    · refine ⟨0, fun r h1 h2 => ?_⟩
      simp only [if_neg c1, h1, h2, if_neg c2, if_pos c3, if_neg c4, if_pos c5]
      simp
    · refine ⟨(ATS.targetSamples df dt - n % ATS.targetSamples df dt).toNat, fun r h1 h2 => ?_⟩
      simp only [if_neg c1, h1, h2, if_neg c2, if_pos c3, if_neg c4, if_neg c5, and_self]
  · refine ⟨0, fun r h1 h2 => ?_⟩
    simp only [if_neg c1, h1, h2, if_neg c2, if_neg c3]
    simp

theorem forSensors_each {f : ATS → Outcome ATS} : ∀ {l l' : List Sensor}, Arr.forSensors f l = (l', .ok ()) →
    ∀ s' ∈ l', ∃ s ∈ l, s'.x = s.x ∧ s'.ts = (f s.ts).1 := by
  intro l
  induction l with
  | nil => intro l' h; simp only [Arr.forSensors, Prod.mk.injEq] at h; rw [← h.1]; simp
  | cons s l ih =>
    intro l' h s' hs'
    unfold Arr.forSensors at h
    rcases hf : f s.ts with ⟨r, e | ⟨⟨⟩⟩⟩
    · simp [hf] at h
    · simp only [hf] at h
      rcases hr : Arr.forSensors f l with ⟨rest', o⟩
      rw [hr] at h
      simp only [Prod.mk.injEq] at h
      obtain ⟨rfl, rfl⟩ := h
      rcases List.mem_cons.1 hs' with rfl | hs'
      · exact ⟨s, List.mem_cons_self, by simp [hf]⟩
      · obtain ⟨x, hx, e⟩ := ih hr s' hs'
        exact ⟨x, List.mem_cons_of_mem _ hx, e⟩

theorem carriesPulse_zeroPad {a b : Arr} {v dt df : ℚ} {lead : ℤ} {pulse : List ℚ} {n : ℕ} (h : CarriesPulse a v dt lead pulse n)
    (hb : a.zeroPad df = (b, .ok ())) : ∃ n', CarriesPulse b v dt lead pulse n' := by
  obtain ⟨m, hm⟩ := zeroPad_append df dt n
  unfold Arr.zeroPad at hb
  rcases hf : Arr.forSensors (fun r => r.zeroPad df) a.sensors with ⟨ss, o⟩
  rw [hf] at hb
  simp only [Prod.mk.injEq] at hb
  obtain ⟨rfl, rfl⟩ := hb
  refine ⟨n + m, ?_⟩
  intro s' hs'
  obtain ⟨s, hs, hx, hts⟩ := forSensors_each hf s' hs'
  obtain ⟨hdt, before, after, gain, hg, ho, hn, hamp⟩ := h s hs
  have hns : s.ts.nsamples = n := by
    unfold ATS.nsamples
    rw [hamp]; simp only [List.length_append, List.length_replicate, List.length_map]; omega
  obtain ⟨h1, h2⟩ := hm s.ts hdt hns
  rw [hts]
  refine ⟨h2, before, after + m, gain, hg, by rw [hx]; exact ho, by omega, ?_⟩
  rw [h1, hamp, List.append_assoc _ _ (List.replicate m 0), List.replicate_append_replicate]

theorem carriesPulse_sublist {a b : Arr} {v dt : ℚ} {lead : ℤ} {pulse : List ℚ} {n : ℕ} (h : CarriesPulse a v dt lead pulse n)
    (hb : ∀ s ∈ b.sensors, s ∈ a.sensors) (hs : b.source = a.source) : CarriesPulse b v dt lead pulse n := by
  intro s hs'
  rw [hs]
  exact h s (hb s hs')

theorem trimOffsetsFl_source {a b : Arr} {mn : ℚ} {mx : Fl} {o : Except PyErr Unit} (h : trimOffsetsFl a mn mx = (b, o)) :
    b.source = a.source := by
  unfold trimOffsetsFl Arr.trimOffsets at h
  split at h
  · split at h <;> (cases h; rfl)
  · split at h <;> (cases h; rfl)
  · cases h; rfl

theorem pulse_window (before after i j : ℕ) (l : List ℚ) (hi : i ≤ before) (hj : before + l.length ≤ j)
    (hj' : j ≤ before + l.length + after) :
    ((List.replicate before 0 ++ l ++ List.replicate after 0).take j).drop i =
      List.replicate (before - i) 0 ++ l ++ List.replicate (j - (before + l.length)) 0 := by
  rw [List.take_append, List.drop_append, List.take_of_length_le (by simpa using hj), List.drop_append]
  simp only [List.length_append, List.length_replicate, List.drop_replicate, List.take_replicate]
  rw [show i - before = 0 by omega, show i - (before + l.length) = 0 by omega, List.drop_zero]
  congr 2
  omega

/-- `trim` keeps the samples between two indices which depend only on the times. -/
theorem trim_indices {r r' : ATS} {s e : ℚ} (h : r.trim s e = (r', .ok ())) :
    ∃ i j, argmin (r.time.map fun t => |t - s|) = some i ∧ argmin (r.time.map fun t => |t - e|) = some j ∧
      r' = { r with amp := pySlice r.amp i (j + 1), delay := s } := by
  unfold ATS.trim ATS.trimBase at h
  rcases hi : argmin (r.time.map fun t => |t - s|) with _ | i
  · simp [hi] at h
  rcases hj : argmin (r.time.map fun t => |t - e|) with _ | j
  · simp [hi, hj] at h
  rcases h0 : r.time.head? with _ | t0
  · simp [hi, hj, h0] at h
  rcases h1 : r.time.getLast? with _ | t1
  · simp [hi, hj, h0, h1] at h
  simp only [hi, hj, h0, h1] at h
  by_cases hc : (s < t0 || s > e || e > t1) = true
  · simp [hc] at h
  · simp only [hc] at h
    simp only [Prod.mk.injEq, and_true, Bool.false_eq_true, if_false] at h
    exact ⟨i, j, rfl, rfl, h.symm⟩

/-- The sample nearest a time which is not after sample `m` is not after sample `m`. -/
theorem nearest_le {r : ATS} {s : ℚ} {i m : ℕ} (hdt : 0 < r.dt) (h : argmin (r.time.map fun t => |t - s|) = some i)
    (hm : m < r.nsamples) (hs : s ≤ m * r.dt + r.delay) : i ≤ m := by
  obtain ⟨i1, i2, i3⟩ := argmin_spec h
  simp only [List.length_map, ATS.time_length] at i1
  simp only [List.length_map, ATS.time_length, List.getElem_map, ATS.time_getElem] at i2 i3
  by_contra hlt
  have h1 := i2 m hm
  have h2 : (m : ℚ) * r.dt < i * r.dt := mul_lt_mul_of_pos_right (by exact_mod_cast not_le.1 hlt) hdt
  rw [abs_of_nonneg (by linarith), abs_of_nonneg (by linarith)] at h1
  linarith

/-- The sample nearest a time which is not before sample `m` is not before sample `m`. -/
theorem le_nearest {r : ATS} {s : ℚ} {i m : ℕ} (hdt : 0 < r.dt) (h : argmin (r.time.map fun t => |t - s|) = some i)
    (hm : m < r.nsamples) (hs : m * r.dt + r.delay ≤ s) : m ≤ i := by
  obtain ⟨i1, i2, i3⟩ := argmin_spec h
  simp only [List.length_map, ATS.time_length] at i1
  simp only [List.length_map, ATS.time_length, List.getElem_map, ATS.time_getElem] at i2 i3
  by_contra hlt
  have h1 := i2 m hm
  have h2 : (i : ℚ) * r.dt < m * r.dt := mul_lt_mul_of_pos_right (by exact_mod_cast not_le.1 hlt) hdt
  rw [abs_of_nonpos (by linarith), abs_of_nonpos (by linarith)] at h1
  linarith

theorem forSensors_all_ok {f : ATS → Outcome ATS} : ∀ {l l' : List Sensor}, Arr.forSensors f l = (l', .ok ()) →
    ∀ s ∈ l, (f s.ts).2 = .ok () := by
  intro l
  induction l with
  | nil => intro l' _ s hs; cases hs
  | cons s l ih =>
    intro l' h s' hs'
    unfold Arr.forSensors at h
    rcases hf : f s.ts with ⟨r, e | ⟨⟨⟩⟩⟩
    · simp [hf] at h
    · simp only [hf] at h
      rcases hr : Arr.forSensors f l with ⟨rest', o⟩
      rw [hr] at h
      simp only [Prod.mk.injEq] at h
      obtain ⟨rfl, rfl⟩ := h
      rcases List.mem_cons.1 hs' with rfl | hs'
      · rw [hf]
      · exact ih hr s' hs'

/-- Trimming to a time window which holds the pulses of all receivers leaves them there. -/
theorem carriesPulse_trim {a b : Arr} {v dt start stop : ℚ} {lead : ℤ} {pulse : List ℚ} {n : ℕ} (hdt : 0 < dt) (hv : v ≠ 0)
    (hpulse : pulse ≠ []) (h : CarriesPulse a v dt lead pulse n) (hc : Consistent a) (hb : a.trim start stop = (b, .ok ()))
    (hw : ∀ s ∈ a.sensors, PulseWithin a.source v lead pulse start stop s) :
    ∃ lead' n', CarriesPulse b v dt lead' pulse n' := by
  unfold Arr.trim at hb
  rcases hf : Arr.forSensors (fun r => r.trim start stop) a.sensors with ⟨ss, o⟩
  rw [hf] at hb
  simp only [Prod.mk.injEq] at hb
  obtain ⟨rfl, rfl⟩ := hb
  have hok := forSensors_all_ok hf
  rcases hss : a.sensors with _ | ⟨s0, rest⟩
  · exact absurd hss hc.1
  have hs0 : s0 ∈ a.sensors := by simp [hss]
  obtain ⟨i, j, hi, hj, -⟩ := trim_indices (Prod.ext rfl (hok s0 hs0) : s0.ts.trim start stop = ((s0.ts.trim start stop).1, .ok ()))
  have hpl : 0 < pulse.length := List.length_pos_iff.2 hpulse
  refine ⟨lead - i, j + 1 - i, ?_⟩
  intro s' hs'
  obtain ⟨s, hs, hx, hts⟩ := forSensors_each hf s' hs'
  obtain ⟨hsdt, before, after, gain, hg, ho, hn, hamp⟩ := h s hs
  obtain ⟨m1, m2, m3, m4⟩ := hc.2.2 s hs s0 hs0
  have htime : s.ts.time = s0.ts.time := by
    unfold ATS.time ATS.nsamples
    rw [m1, m3, m4]
  rw [← htime] at hi hj
  obtain ⟨i', j', hi', hj', hr⟩ := trim_indices (Prod.ext rfl (hok s hs) : s.ts.trim start stop = ((s.ts.trim start stop).1, .ok ()))
  rw [hi] at hi'; rw [hj] at hj'
  cases hi'; cases hj'
  have hns : s.ts.nsamples = n := by
    unfold ATS.nsamples
    rw [hamp]; simp only [List.length_append, List.length_replicate, List.length_map]; omega
  obtain ⟨w1, w2⟩ := hw s hs
  have hb : |a.source.x - s.x| / v = ((before : ℚ) - lead) * dt := by
    rw [ho]; field_simp
  unfold Spec.arrival at w1 w2
  rw [hb, hsdt] at w1 w2
  have hib : i ≤ before := by
    refine nearest_le (by rw [hsdt]; exact hdt) hi (by omega) ?_
    rw [hsdt]; linarith
  have hjb : before + pulse.length - 1 ≤ j := by
    refine le_nearest (by rw [hsdt]; exact hdt) hj (by omega) ?_
    rw [hsdt, Nat.cast_sub (by omega)]; push_cast; linarith
  have hjn : j < n := by
    obtain ⟨j1, -⟩ := argmin_spec hj
    simp only [List.length_map, ATS.time_length] at j1
    omega
  have hal : s.ts.amp.length = n := hns
  rw [hts, hr]
  refine ⟨hsdt, before - i, j + 1 - (before + pulse.length), gain, hg, ?_, by omega, ?_⟩
  · rw [hx, ho, Nat.cast_sub hib]; push_cast; ring
  · simp only
    rw [show ((j : ℤ) + 1) = ((j + 1 : ℕ) : ℤ) by push_cast; rfl, ATS.pySlice_nat _ _ _ (by omega) (by omega), hamp,
      pulse_window _ _ _ _ _ hib (by rw [List.length_map]; omega) (by rw [List.length_map]; omega), List.length_map]

/-- The receivers of the array are all on one side of the source. -/
def OneSided (a : Arr) : Prop :=
  (∀ s ∈ a.sensors, a.source.x ≤ s.x) ∨ (∀ s ∈ a.sensors, s.x < a.source.x)

/-- The peaks of a transform are at the velocity `v`, at every frequency at which `energy` holds and some two receivers
are closer than the shortest trial wavelength. -/
def PeaksAt (a : Arr) (t : Transform) (v : ℚ) (energy : ℚ → Prop) : Prop :=
  ∃ vs, Builtin.findPeakPower t "frequency-maximum" = .ok vs ∧ vs.length = t.frequencies.length ∧
    ∀ (j : ℕ) (f : ℚ), t.frequencies[j]? = some f → 0 < f → energy f →
      ResolvesAway a f t.velocities → vs[j]? = some (v : ℝ)

theorem oneSided_each {f : ATS → Outcome ATS} {a : Arr} {ss : List Sensor} (ho : OneSided a)
    (h : Arr.forSensors f a.sensors = (ss, .ok ())) : OneSided { a with sensors := ss } := by
  refine ho.imp ?_ ?_ <;>
  · intro ho s' hs'
    obtain ⟨s, hs, hx, -⟩ := forSensors_each h s' hs'
    rw [hx]
    exact ho s hs

/-- The end of a run: padding (if asked) and transforming an array which carries a pulse. -/
theorem transform_standsOut (env : Env) (hankel : ℝ → ℂ) (geom : ℚ → ℚ → ℕ → List ℚ) (set : Settings) (muted result : Arr)
    (t : Transform) (henv : env.transforms = Builtin.transforms hankel geom)
    (htr : set.transform = "phaseshift" ∨ set.transform = "fk" ∨
      set.transform = "fdbf" ∧ (Builtin.specific set.fdbf).get "steering" ≠ some "cylindrical")
    (v dt : ℚ) (lead : ℤ) (pulse : List ℚ) (n : ℕ) (hdt : 0 < dt) (cl : Consistent muted)
    (pl : CarriesPulse muted v dt lead pulse n) (ol : OneSided muted)
    (p6 : if set.padApply then muted.zeroPad set.padDf = (result, .ok ()) else result = muted)
    (ht : IsTransformOf env set result t) (hmem : (v : ℝ) ∈ t.velocities) (hpos : ∀ w ∈ t.velocities, 0 < w) :
    StandsOut t v fun f => 0 < f ∧ pulseSpectrum pulse (f * dt) ≠ 0 ∧ ResolvesAway result f t.velocities := by
  obtain ⟨tr, htr1, htr2⟩ := ht
  obtain ⟨n', ca, pa, oa⟩ : ∃ n', Consistent result ∧ CarriesPulse result v dt lead pulse n' ∧ OneSided result := by
    split_ifs at p6 with hpad
    · obtain ⟨n', hn'⟩ := carriesPulse_zeroPad pl p6
      have hc' := ArrOp.run_consistent muted (.zeroPad set.padDf) cl
      simp only [ArrOp.run, p6] at hc'
      refine ⟨n', hc', hn', ?_⟩
      unfold Arr.zeroPad at p6
      rcases hf : Arr.forSensors (fun r => r.zeroPad set.padDf) muted.sensors with ⟨ss, o⟩
      rw [hf] at p6
      simp only [Prod.mk.injEq] at p6
      obtain ⟨rfl, rfl⟩ := p6
      exact oneSided_each ol hf
    · rw [p6]
      exact ⟨n, cl, pl, ol⟩
  rw [henv] at htr1
  rcases htr with e | e | ⟨e, hplane⟩
  · rw [e] at htr1
    have : Builtin.phaseShift = tr := Except.ok.inj htr1
    subst this
    obtain ⟨h1, h2, h3, h4⟩ := phase_shift_standsOut result set t htr2 ca oa v dt lead pulse n' hdt pa hmem hpos
    exact ⟨h1, h2, h3, fun j f a1 ⟨a2, a3, s, hs, s', hs', a4, _, _, a5⟩ => h4 j f a1 ⟨a2, a3, s, hs, s', hs', a4, a5⟩⟩
  · rw [e] at htr1
    have : Builtin.fk hankel = tr := Except.ok.inj htr1
    subst this
    exact fk_standsOut hankel result set t htr2 ca oa v dt lead pulse n' hdt pa hmem hpos
  · rw [e] at htr1
    have : Builtin.fdbf hankel = tr := Except.ok.inj htr1
    subst this
    exact fdbf_standsOut hankel result set t htr2 hplane ca oa v dt lead pulse n' hdt pa hmem hpos

/-- ... and the peaks picked from it. -/
theorem transform_recovers (env : Env) (hankel : ℝ → ℂ) (geom : ℚ → ℚ → ℕ → List ℚ) (set : Settings) (muted result : Arr)
    (t : Transform) (henv : env.transforms = Builtin.transforms hankel geom)
    (htr : set.transform = "phaseshift" ∨ set.transform = "fk" ∨
      set.transform = "fdbf" ∧ (Builtin.specific set.fdbf).get "steering" ≠ some "cylindrical")
    (v dt : ℚ) (lead : ℤ) (pulse : List ℚ) (n : ℕ) (hdt : 0 < dt) (cl : Consistent muted)
    (pl : CarriesPulse muted v dt lead pulse n) (ol : OneSided muted)
    (p6 : if set.padApply then muted.zeroPad set.padDf = (result, .ok ()) else result = muted)
    (ht : IsTransformOf env set result t) (hmem : (v : ℝ) ∈ t.velocities) (hpos : ∀ w ∈ t.velocities, 0 < w) :
    PeaksAt result t v fun f => pulseSpectrum pulse (f * dt) ≠ 0 := by
  obtain ⟨vs, h1, h2, h3⟩ := (transform_standsOut env hankel geom set muted result t henv htr v dt lead pulse n hdt cl pl ol p6
    ht hmem hpos).picked
  exact ⟨vs, h1, h2, fun j f a1 a2 a3 a4 => h3 j f a1 ⟨a2, a3, a4⟩⟩

/-- Selection of receivers, detrending and trimming to a window which holds the pulses. -/
theorem preprocessed_carries {env : Env} {set : Settings} {kw : Option Kwargs} {lines : Option Arr.Line × Option Arr.Line}
    {raw near level cut muted padded : Arr} (hpre : Preprocessed env set kw lines raw near level cut muted padded)
    (hd : ∀ l, (env.detrend l).length = l.length) (hno : set.muteApply = false) (hc : Consistent raw) (hout : OneSided raw)
    {v dt : ℚ} {lead : ℤ} {pulse : List ℚ} {n : ℕ} (hdt : 0 < dt) (hv : v ≠ 0) (hpulse : pulse ≠ [])
    (htrim : set.trimApply = true → ∀ s ∈ raw.sensors, PulseWithin raw.source v lead pulse set.trimBegin set.trimEnd s)
    (hp : CarriesPulse ⟨raw.sensors.map fun s => { s with ts := { s.ts with amp := env.detrend s.ts.amp } }, raw.source⟩
      v dt lead pulse n) :
    Consistent muted ∧ OneSided muted ∧ muted.source = raw.source ∧ ∃ lead' n', CarriesPulse muted v dt lead' pulse n' ∧
      (set.trimApply = false → lead' = lead ∧ n' = n) := by
  obtain ⟨p1, p2, p3, p4, p5, -⟩ := hpre
  rw [hno] at p5
  simp only [Bool.false_eq_true, if_false] at p5
  subst p5
  obtain ⟨n1, n2⟩ := trimOffsetsFl_sublist p1
  have hsrc := trimOffsetsFl_source p1
  have cl : Consistent level := by
    refine Arr.consistent_of_frame (Arr.consistent_of_sublist hc n1 n2) ?_
    rw [p3, List.forall₂_map_right_iff]
    exact List.forall₂_same.2 fun s _ => ⟨rfl, rfl, rfl, rfl, (hd _).symm⟩
  have pl : CarriesPulse level v dt lead pulse n := by
    refine carriesPulse_sublist hp ?_ (p2.trans hsrc)
    intro s hs
    rw [p3] at hs
    obtain ⟨s0, hs0, rfl⟩ := List.mem_map.1 hs
    exact List.mem_map.2 ⟨s0, n1.subset hs0, rfl⟩
  have ol : OneSided level := by
    unfold OneSided
    rw [p2, hsrc, p3]
    refine hout.imp ?_ ?_ <;>
    · intro ho s hs
      obtain ⟨s0, hs0, rfl⟩ := List.mem_map.1 hs
      exact ho s0 (n1.subset hs0)
  split_ifs at p4 with c
  · obtain ⟨lead', n', hp'⟩ := carriesPulse_trim hdt hv hpulse pl cl p4 (by
      intro s hs
      rw [p3] at hs
      obtain ⟨s0, hs0, rfl⟩ := List.mem_map.1 hs
      rw [p2, hsrc]
      exact htrim c s0 (n1.subset hs0))
    have hc' := ArrOp.run_consistent level (.trim set.trimBegin set.trimEnd) cl
    simp only [ArrOp.run, p4] at hc'
    unfold Arr.trim at p4
    rcases hf : Arr.forSensors (fun r => r.trim set.trimBegin set.trimEnd) level.sensors with ⟨ss, o⟩
    rw [hf] at p4
    simp only [Prod.mk.injEq] at p4
    obtain ⟨rfl, rfl⟩ := p4
    exact ⟨hc', oneSided_each ol hf, p2.trans hsrc, lead', n', hp', fun h => by rw [h] at c; cases c⟩
  · subst p4
    exact ⟨cl, ol, p2.trans hsrc, lead, n, pl, fun _ => ⟨rfl, rfl⟩⟩

/-- **C114** (a whole run).  A time-domain run without muting, with or without trimming, padding and receiver
selection, with any of the three frequency-domain transforms, on files in which a pulse crosses the array at velocity
`v` (after the trend has been removed from the records) inside the time window kept by the trimming: if the run returns
and `v` is one of its trial velocities, then the peak of the returned transform is at `v` at every frequency at which
the pulse has energy and some two of the receivers left are closer than the shortest trial wavelength. -/
theorem C114_run_recovers (env : Env) (hankel : ℝ → ℂ) (geom : ℚ → ℚ → ℕ → List ℚ) (set : Settings) (f : Fnames)
    (raw : Arr) (r : Result) (henv : env.transforms = Builtin.transforms hankel geom)
    (hd : ∀ l, (env.detrend l).length = l.length)
    (htr : set.transform = "phaseshift" ∨ set.transform = "fk" ∨
      set.transform = "fdbf" ∧ (Builtin.specific set.fdbf).get "steering" ≠ some "cylindrical")
    (hno : set.muteApply = false) (hraw : fromFiles env f = .ok raw) (hc : Consistent raw)
    (hout : (∀ s ∈ raw.sensors, raw.source.x ≤ s.x) ∨ (∀ s ∈ raw.sensors, s.x < raw.source.x))
    (v dt : ℚ) (lead : ℤ) (pulse : List ℚ) (n : ℕ) (hdt : 0 < dt) (hpulse : pulse ≠ [])
    (hp : CarriesPulse ⟨raw.sensors.map fun s => { s with ts := { s.ts with amp := env.detrend s.ts.amp } }, raw.source⟩
      v dt lead pulse n)
    (htrim : set.trimApply = true → ∀ s ∈ raw.sensors, PulseWithin raw.source v lead pulse set.trimBegin set.trimEnd s)
    (h : timeDomain env set f = .ok r)
    (hmem : (v : ℝ) ∈ r.transform.velocities) (hpos : ∀ w ∈ r.transform.velocities, 0 < w) :
    ∃ vs, Builtin.findPeakPower r.transform "frequency-maximum" = .ok vs ∧ vs.length = r.transform.frequencies.length ∧
      ∀ (j : ℕ) (f : ℚ), r.transform.frequencies[j]? = some f → 0 < f → pulseSpectrum pulse (f * dt) ≠ 0 →
        ResolvesAway r.array f r.transform.velocities → vs[j]? = some (v : ℝ) := by
  obtain ⟨raw', near, level, cut, muted, hraw', -, hpre, ht, -⟩ := C76_steps _ _ _ _ h
  rw [hraw] at hraw'
  cases hraw'
  have hv0 : v ≠ 0 := by
    have := hpos _ hmem
    rintro rfl
    simp at this
  obtain ⟨c1, c2, -, lead', n', c3, -⟩ := preprocessed_carries hpre hd hno hc hout hdt hv0 hpulse htrim hp
  exact transform_recovers env hankel geom set muted r.array r.transform henv htr v dt lead' pulse n' hdt c1 c3 c2
    hpre.zeroPadded ht hmem hpos

/-! ## A run -/

/-- A file: a pulse crosses receivers at 2 m, 4 m and 8 m from the source at 2000 m/s and is recorded with different
gains. -/
noncomputable def pulseEnv : Env :=
  { exEnv with
    fs := fun _ => some [seg2 2 0 1 [0, 2, 0, 0, 0, 0, 0, 0], seg2 4 0 1 [0, 0, 3, 0, 0, 0, 0, 0],
      seg2 8 0 1 [0, 0, 0, 0, 7, 0, 0, 0]]
    transforms := Builtin.transforms (fun _ => 0) (fun _ _ _ => []) }

/-- Settings for it: padding to 16 samples, two trial velocities, a transform. -/
def pulseSet (tr : String) : Settings :=
  ⟨false, 0, 1, false, "interactive", none, true, 125 / 2, 0, .pinf, tr, 60, 130, 2000, 4000, 2, "linear",
    some [], false, 0, 1 / 1000, 0, 1 / 1000, false, 1⟩

/-- The file as an array. -/
def pulseArr : Arr :=
  ⟨[⟨⟨[0, 2, 0, 0, 0, 0, 0, 0], 1 / 1000, 1, 0, 1⟩, 2, 0, 0⟩, ⟨⟨[0, 0, 3, 0, 0, 0, 0, 0], 1 / 1000, 1, 0, 1⟩, 4, 0, 0⟩,
    ⟨⟨[0, 0, 0, 0, 7, 0, 0, 0], 1 / 1000, 1, 0, 1⟩, 8, 0, 0⟩], ⟨0, 0, 0⟩⟩

/-- ... and padded. -/
def pulsePadded : Arr :=
  { pulseArr with sensors := pulseArr.sensors.map fun s =>
      { s with ts := { s.ts with amp := s.ts.amp ++ List.replicate 8 0 } } }

theorem pulse_velocities (tr : String) : Builtin.velocities (pulseSet tr) = .ok [2000, 4000] := by
  simp only [Builtin.velocities, createVector, pulseSet]
  norm_num [List.range_succ, show Int.toNat 2 = 2 from rfl]

theorem pulse_record : Record.ofArray pulsePadded = .ok ⟨pulsePadded.sensors.map (fun s => s.ts.amp), [2, 4, 8], 16, 125 / 2, 1⟩ := by
  decide +kernel

theorem pulse_carried : CarriesPulse pulseArr 2000 (1 / 1000) 0 [1] 8 := by
  intro s hs
  simp only [pulseArr, List.mem_cons, List.not_mem_nil, or_false] at hs
  rcases hs with rfl | rfl | rfl
  · exact ⟨rfl, 1, 6, 2, by decide +kernel⟩
  · exact ⟨rfl, 2, 5, 3, by decide +kernel⟩
  · exact ⟨rfl, 4, 3, 7, by decide +kernel⟩

theorem pulse_keepIds : Record.keepIds ⟨pulsePadded.sensors.map (fun s => s.ts.amp), [2, 4, 8], 16, 125 / 2, 1⟩ ⟨60, 130⟩ =
    .ok [1, 2] := by decide +kernel

/-- Each of the three transforms gives a matrix for the padded record. -/
theorem pulse_transform {tr : String} (h : tr = "phaseshift" ∨ tr = "fk" ∨ tr = "fdbf") :
    ∃ t, Spec.IsTransformOf pulseEnv (pulseSet tr) pulsePadded t ∧ t.frequencies = [125 / 2, 125] ∧
      t.velocities = [2000, 4000] := by
  have hv := pulse_velocities tr
  have hf : ([1, 2] : List ℕ).map (fun k => (binFrequencies 16 (125 / 2 : ℚ)).getD k 0) = [125 / 2, 125] := by
    decide +kernel
  have key : ∀ x : Except PyErr (List ℚ × List (List ℂ)), (∃ power, x = .ok ([125 / 2, 125], power)) →
      ∃ t : Transform, (x.bind fun p => .ok (⟨1, p.1, [2000, 4000], p.2⟩ : Transform)) = .ok t ∧
        t.frequencies = [125 / 2, 125] ∧ t.velocities = [2000, 4000] := by
    rintro x ⟨power, rfl⟩
    exact ⟨_, rfl, rfl, rfl⟩
  have beam : ∀ sp, ∃ power, WT.fdbf (fun _ => 0) ⟨pulsePadded.sensors.map (fun s => s.ts.amp), [2, 4, 8], 16, 125 / 2, 1⟩
      [2000, 4000] ⟨60, 130⟩ sp = .ok ([125 / 2, 125], power) := by
    intro sp
    unfold WT.fdbf
    rw [pulse_keepIds, ← hf]
    exact ⟨_, rfl⟩
  rcases h with rfl | rfl | rfl
  · obtain ⟨power, hp⟩ : ∃ power, WT.phaseShift ⟨pulsePadded.sensors.map (fun s => s.ts.amp), [2, 4, 8], 16, 125 / 2, 1⟩
        [2000, 4000] ⟨60, 130⟩ = .ok ([125 / 2, 125], power) := by
      unfold WT.phaseShift
      rw [pulse_keepIds, ← hf]
      exact ⟨_, rfl⟩
    obtain ⟨t, h1, h2⟩ := key (.ok ([125 / 2, 125], power.map fun row => row.map fun (x : ℝ) => (x : ℂ))) ⟨_, rfl⟩
    refine ⟨t, ⟨Builtin.phaseShift, rfl, ?_⟩, h2⟩
    unfold Builtin.phaseShift
    rw [hv, pulse_record]
    simp only [bind, Except.bind, pulseSet, hp]
    exact h1
  · obtain ⟨t, h1, h2⟩ := key _ (beam (some (dictSet (dictSet [] "weighting" "none") "steering" "plane")))
    exact ⟨t, ⟨Builtin.fk (fun _ => 0), rfl, by
      unfold Builtin.fk
      rw [hv, pulse_record]
      exact h1⟩, h2⟩
  · obtain ⟨t, h1, h2⟩ := key _ (beam (Builtin.specific (some [])))
    exact ⟨t, ⟨Builtin.fdbf (fun _ => 0), rfl, by
      unfold Builtin.fdbf
      rw [hv, pulse_record]
      exact h1⟩, h2⟩

/-- The run returns with each of the transforms, and 2000 m/s is picked at both of its frequencies. -/
theorem pulse_run (tr : String) (h : tr = "phaseshift" ∨ tr = "fk" ∨ tr = "fdbf") :
    ∃ r, timeDomain pulseEnv (pulseSet tr) (.one "a") = .ok r ∧
      Builtin.findPeakPower r.transform "frequency-maximum" = .ok [2000, 2000] := by
  obtain ⟨t, ht, hf, hv⟩ := pulse_transform h
  have hraw : fromFiles pulseEnv (.one "a") = .ok pulseArr := by decide +kernel
  have hpre : Spec.Preprocessed pulseEnv (pulseSet tr) none (none, none) pulseArr pulseArr pulseArr pulseArr pulseArr
      pulsePadded := by
    refine ⟨?_, rfl, rfl, rfl, rfl, ?_⟩
    · show trimOffsetsFl pulseArr 0 .pinf = _
      decide +kernel
    · show Arr.zeroPad pulseArr (125 / 2) = _
      decide +kernel
  have hout : ∀ s ∈ pulseArr.sensors, pulseArr.source.x ≤ s.x := by decide +kernel
  obtain ⟨r, hr, ea, et, -⟩ := C76_run_returns pulseEnv (pulseSet tr) (.one "a") pulseArr pulseArr pulseArr pulseArr
    pulseArr pulsePadded (none, none) t hraw (by decide) (by
      rintro ⟨p, q, h1, h2, h3, h4⟩
      cases h1
      exact absurd h3 (by decide +kernel)) hpre (by intro h; cases h) ht none (fun _ => rfl) (by intro h; cases h)
  refine ⟨r, hr, ?_⟩
  obtain ⟨vs, h1, h2, h3⟩ := C114_run_recovers pulseEnv (fun _ => 0) (fun _ _ _ => []) (pulseSet tr) (.one "a") pulseArr r
    rfl (fun _ => rfl) (by
      rcases h with rfl | rfl | rfl
      · exact .inl rfl
      · exact .inr (.inl rfl)
      · exact .inr (.inr ⟨rfl, by decide⟩)) rfl hraw
    (by unfold Consistent SameMeta; decide +kernel) (.inl hout) 2000 (1 / 1000) 0 [1] 8 (by norm_num)
    (by decide) pulse_carried (by intro h; cases h) hr (by rw [et, hv]; simp) (by rw [et, hv]; intro w hw; simp at hw; rcases hw with rfl | rfl <;> norm_num)
  have key : ∀ f : ℚ, 0 < f → f ≤ 125 → pulseSpectrum [1] (f * (1 / 1000 : ℚ)) ≠ 0 ∧ ResolvesAway r.array f r.transform.velocities := by
    intro f h0 h1
    constructor
    · simp [pulseSpectrum]
    · rw [ea, et, hv]
      refine ⟨_, List.mem_cons_self, _, List.mem_cons_of_mem _ List.mem_cons_self, by decide +kernel, by decide +kernel,
        by decide +kernel, ?_⟩
      have hf1 : (f : ℝ) ≤ 125 := by exact_mod_cast h1
      intro w hw
      simp only [List.mem_cons, List.not_mem_nil, or_false] at hw
      simp only
      rcases hw with rfl | rfl <;> norm_num <;> linarith
  rw [h1]
  rw [et, hf] at h2 h3
  obtain ⟨k1, k2⟩ := key (125 / 2) (by norm_num) (by norm_num)
  obtain ⟨k3, k4⟩ := key 125 (by norm_num) (by norm_num)
  rw [et] at k2 k4
  have e0 := h3 0 (125 / 2) rfl (by norm_num) k1 k2
  have e1 := h3 1 125 rfl (by norm_num) k3 k4
  rcases vs with _ | ⟨a, _ | ⟨b, _ | ⟨c, vs⟩⟩⟩ <;> simp at h2
  simp at e0 e1
  rw [e0, e1]

/-- The pulses are inside the window from 1 ms to 6 ms, and there after trimming to it, one sample earlier. -/
example : (∀ s ∈ pulseArr.sensors, PulseWithin pulseArr.source 2000 0 [1] (1 / 1000) (6 / 1000) s) ∧
    (pulseArr.trim (1 / 1000) (6 / 1000)).1.sensors.map (fun s => s.ts.amp) =
      [[2, 0, 0, 0, 0, 0], [0, 3, 0, 0, 0, 0], [0, 0, 0, 7, 0, 0]] := by
  unfold PulseWithin arrival
  decide +kernel

end Verif.Props
