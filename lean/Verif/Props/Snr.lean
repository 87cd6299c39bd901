import Verif.Lemmas.Spectral
import Verif.Lemmas.ZeroPad
import Verif.Props.Selection
import Verif.Spec.Spectrum

/-!
# C74, C75, C99: signal-to-noise ratio
-/

namespace Verif.Props
open Verif WT Spec

/-- The physical frequency of bin `k` of a record of `nsamples` samples at interval `dt`. -/
def physicalFrequency (nsamples : ℕ) (dt : ℚ) (k : ℕ) : ℚ := k / (nsamples * dt)

theorem fftBin_component (u : List ℚ) (k : ℕ) : fftBin u k = component (k / u.length) 1 u := by
  unfold fftBin component
  refine Finset.sum_congr rfl fun n _ => ?_
  congr 3
  push_cast
  ring

theorem meanSpectrum_eq (a : Arr) (k : ℕ) :
    meanSpectrum a k = (a.sensors.map fun s => ‖fftBin s.ts.amp k‖).sum / a.sensors.length := by
  simp only [meanSpectrum, fftBin_component]

theorem meanMagnitude_eq (a : Arr) (k : ℕ) : meanMagnitude a.timeseriesmatrix k = meanSpectrum a k := by
  rw [meanSpectrum_eq]
  unfold meanMagnitude Arr.timeseriesmatrix
  simp [Function.comp_def]

/-- Taking a successful call apart. -/
theorem snr_ok {signal noise signal' noise' : Arr} {fmin fmax : ℚ} {pad : Bool} {df : ℚ}
    {frqs : List ℚ} {ratios : List ℝ}
    (h : snr signal noise fmin fmax pad df = ((signal', noise'), .ok (frqs, ratios))) :
    padIf pad noise df = (noise', .ok ()) ∧ padIf pad signal df = (signal', .ok ()) ∧
      snrCore signal' noise' fmin fmax = .ok (frqs, ratios) := by
  unfold snr at h
  rcases h1 : padIf pad noise df with ⟨n', _ | _⟩
  · rw [h1] at h; simp at h
  · rw [h1] at h
    simp only at h
    rcases h2 : padIf pad signal df with ⟨s', _ | _⟩
    · rw [h2] at h; simp at h
    · rw [h2] at h
      simp only [Prod.mk.injEq] at h
      obtain ⟨⟨rfl, rfl⟩, h⟩ := h
      exact ⟨rfl, rfl, h⟩

theorem snrCore_ok {signal noise : Arr} {fmin fmax : ℚ} {frqs : List ℚ} {ratios : List ℝ}
    (h : snrCore signal noise fmin fmax = .ok (frqs, ratios)) :
    ∃ ns nrest ss srest ids, noise.sensors = ns :: nrest ∧ signal.sensors = ss :: srest ∧
      ns.ts.nsamples = ss.ts.nsamples ∧
      keepIds (binFrequencies ns.ts.nsamples ns.ts.df) fmin fmax ns.ts.multiple = .ok ids ∧
      frqs = ids.map (fun k => (binFrequencies ns.ts.nsamples ns.ts.df).getD k 0) ∧
      ratios = ids.map (fun k => meanSpectrum signal k / meanSpectrum noise k) := by
  unfold snrCore at h
  rcases hn : noise.sensors with _ | ⟨ns, nrest⟩
  · rw [hn] at h; simp at h
  rcases hs : signal.sensors with _ | ⟨ss, srest⟩
  · rw [hn, hs] at h; simp at h
  rw [hn, hs] at h
  simp only at h
  split_ifs at h with hl
  rcases hk : keepIds (binFrequencies ns.ts.nsamples ns.ts.df) fmin fmax ns.ts.multiple with e | ids
  · rw [hk] at h; simp at h
  rw [hk] at h
  simp only [Except.ok.injEq, Prod.mk.injEq] at h
  refine ⟨ns, nrest, ss, srest, ids, rfl, rfl, not_not.1 hl, hk, h.1.symm, ?_⟩
  rw [← h.2]
  exact List.map_congr_left fun k _ => by rw [meanMagnitude_eq, meanMagnitude_eq]

theorem snrCore_eq {signal noise : Arr} {fmin fmax : ℚ} {ns ss : Sensor} {nrest srest : List Sensor}
    {ids : List ℕ} (h1 : noise.sensors = ns :: nrest) (h2 : signal.sensors = ss :: srest)
    (h3 : ns.ts.nsamples = ss.ts.nsamples)
    (h4 : keepIds (binFrequencies ns.ts.nsamples ns.ts.df) fmin fmax ns.ts.multiple = .ok ids) :
    snrCore signal noise fmin fmax =
      .ok (ids.map (fun k => (binFrequencies ns.ts.nsamples ns.ts.df).getD k 0),
        ids.map (fun k => meanSpectrum signal k / meanSpectrum noise k)) := by
  unfold snrCore
  rw [h1, h2]
  simp only
  rw [if_neg (not_not.2 h3), h4]
  simp only [meanMagnitude_eq]

/-- **C74** (without a multiple).  When the padding multiple of the noise window is one, every reported
ratio is the ratio of the mean spectral magnitudes at the bin whose physical frequency is the reported
one. -/
theorem C74_right_frequency_partial (signal noise signal' noise' : Arr) (fmin fmax : ℚ) (pad : Bool)
    (df : ℚ) (frqs : List ℚ) (ratios : List ℝ)
    (h : snr signal noise fmin fmax pad df = ((signal', noise'), .ok (frqs, ratios)))
    (ns : Sensor) (rest : List Sensor) (hns : noise'.sensors = ns :: rest)
    (hmul : ns.ts.multiple = 1) :
    frqs.length = ratios.length ∧ ∀ (m : ℕ) (f : ℚ) (q : ℝ), frqs[m]? = some f → ratios[m]? = some q →
      ∃ k, k < ns.ts.nsamples ∧ f = physicalFrequency ns.ts.nsamples ns.ts.dt k ∧
        q = meanSpectrum signal' k / meanSpectrum noise' k := by
  obtain ⟨_, _, hc⟩ := snr_ok h
  obtain ⟨ns', nrest, ss, srest, ids, h1, h2, h3, h4, rfl, rfl⟩ := snrCore_ok hc
  rw [hns] at h1
  cases h1
  refine ⟨by simp, ?_⟩
  intro m f q hf hq
  rw [List.getElem?_map] at hf hq
  rcases hk : ids[m]? with _ | k
  · rw [hk] at hf; cases hf
  rw [hk] at hf hq
  have hlt := keepIds_valid h4 k (List.mem_of_getElem? hk)
  have hlt' : k < ns.ts.nsamples := by simpa [binFrequencies] using hlt
  simp only [Option.map_some, Option.some.injEq] at hf hq
  refine ⟨k, hlt', ?_, hq.symm⟩
  rw [← hf]
  simp only [binFrequencies, List.getD_eq_getElem?_getD, List.getElem?_map,
    List.getElem?_range hlt', Option.map_some, Option.getD_some]
  simp [ATS.df, ATS.dfInternal, hmul, physicalFrequency, div_eq_mul_inv, mul_comm, mul_left_comm]

theorem component_bin {u : List ℚ} {n k : ℕ} {dt f : ℚ} (hu : u.length = n) (hdt : 0 < dt)
    (hf : f = physicalFrequency n dt k) :
    component (f : ℝ) (dt : ℝ) u = component (k / u.length) 1 u := by
  unfold component
  refine Finset.sum_congr rfl fun m hm => ?_
  have hn : (n : ℝ) ≠ 0 := by
    have := Finset.mem_range.1 hm
    have : 0 < n := by omega
    exact_mod_cast this.ne'
  have hd : (dt : ℝ) ≠ 0 := by exact_mod_cast hdt.ne'
  have e : (2 * Real.pi * (f : ℝ) * (m * (dt : ℝ)) : ℝ) = 2 * Real.pi * (k / u.length) * (m * 1) := by
    rw [hf, physicalFrequency, hu]
    push_cast
    field_simp
  rw [e]

/-- **C74** (spectra, without a multiple).  If all channels of both windows are sampled alike and the padding multiple is
one, the ratio reported at a frequency is the mean magnitude of the Fourier component of the signal at exactly this
frequency, in Hz, over that of the noise.  Missing: a multiple larger than one (`C74_multiple_fails`) and windows with
different sampling intervals (`C74_different_interval_fails`). -/
theorem C74_physical_spectrum_partial (signal noise signal' noise' : Arr) (fmin fmax : ℚ) (pad : Bool)
    (df : ℚ) (frqs : List ℚ) (ratios : List ℝ)
    (h : snr signal noise fmin fmax pad df = ((signal', noise'), .ok (frqs, ratios)))
    (n : ℕ) (dt : ℚ) (hdt : 0 < dt)
    (hs : ∀ s ∈ signal'.sensors, s.ts.amp.length = n ∧ s.ts.dt = dt)
    (hn : ∀ s ∈ noise'.sensors, s.ts.amp.length = n ∧ s.ts.dt = dt ∧ s.ts.multiple = 1) :
    ratios = frqs.map fun (f : ℚ) => meanComponent (f : ℝ) signal' / meanComponent (f : ℝ) noise' := by
  obtain ⟨_, _, hc⟩ := snr_ok h
  obtain ⟨ns, rest, _, _, _, hns, _⟩ := snrCore_ok hc
  obtain ⟨h1, h2⟩ := C74_right_frequency_partial signal noise signal' noise' fmin fmax pad df frqs ratios h ns rest hns
    (hn ns (by simp [hns])).2.2
  refine List.ext_getElem? fun m => ?_
  rw [List.getElem?_map]
  rcases hf : frqs[m]? with _ | f
  · rw [List.getElem?_eq_none_iff] at hf
    simp [hf, ← h1]
  have hm : m < ratios.length := by rw [← h1]; exact (List.getElem?_eq_some_iff.1 hf).1
  obtain ⟨k, hk, hfk, hq⟩ := h2 m f _ hf (List.getElem?_eq_getElem hm)
  rw [List.getElem?_eq_getElem hm, hq, Option.map_some]
  have hn0 := hn ns (by simp [hns])
  rw [ATS.nsamples, hn0.1, hn0.2.1] at hfk
  have key : ∀ a : Arr, (∀ s ∈ a.sensors, s.ts.amp.length = n ∧ s.ts.dt = dt) → meanSpectrum a k = meanComponent f a := by
    intro a ha
    unfold meanSpectrum meanComponent
    congr 2
    refine List.map_congr_left fun s hs => ?_
    rw [(ha s hs).2, component_bin (ha s hs).1 hdt hfk]
  rw [key _ hs, key _ fun s hs => ⟨(hn s hs).1, (hn s hs).2.1⟩]

/-- One receiver with four samples at 1 s. -/
def shortWindow (amp : List ℚ) : Arr := ⟨[⟨⟨amp, 1, 1, 0, 1⟩, 0, 0, 0⟩], ⟨-5, 0, 0⟩⟩

/-- The hypotheses of the partial theorem are met by a padded window. -/
example : ∃ signal' noise' out ns, snr (shortWindow [1, 2, 3, 4]) (shortWindow [1, 0, 0, 1]) (1 / 4) (1 / 2)
    true (1 / 8) = ((signal', noise'), .ok out) ∧ noise'.sensors = [ns] ∧ ns.ts.multiple = 1 ∧
    ns.ts.nsamples = 8 := by
  have e1 : padIf true (shortWindow [1, 0, 0, 1]) (1 / 8) =
      (shortWindow [1, 0, 0, 1, 0, 0, 0, 0], .ok ()) := by decide +kernel
  have e2 : padIf true (shortWindow [1, 2, 3, 4]) (1 / 8) =
      (shortWindow [1, 2, 3, 4, 0, 0, 0, 0], .ok ()) := by decide +kernel
  have e3 : keepIds (binFrequencies 8 (1 / 8)) (1 / 4) (1 / 2) 1 = .ok [2, 3, 4] := by decide +kernel
  have e4 : ATS.df ⟨[1, 0, 0, 1, 0, 0, 0, 0], 1, 1, 0, 1⟩ = 1 / 8 := by decide +kernel
  have := snrCore_eq (signal := shortWindow [1, 2, 3, 4, 0, 0, 0, 0])
    (noise := shortWindow [1, 0, 0, 1, 0, 0, 0, 0]) (fmin := 1 / 4) (fmax := 1 / 2) (ids := [2, 3, 4])
    rfl rfl rfl (by rw [e4]; exact e3)
  refine ⟨shortWindow [1, 2, 3, 4, 0, 0, 0, 0], shortWindow [1, 0, 0, 1, 0, 0, 0, 0], ?out,
    ⟨⟨[1, 0, 0, 1, 0, 0, 0, 0], 1, 1, 0, 1⟩, 0, 0, 0⟩, ?_, rfl, rfl, rfl⟩
  rotate_left
  · unfold snr
    rw [e1, e2]
    simp only
    rw [this]

/-- The hypotheses of `C74_physical_spectrum_partial` are met by windows of four samples. -/
example : ∃ ratios, snr (shortWindow [1, 2, 3, 4]) (shortWindow [1, 0, 0, 0]) (1 / 4) (1 / 2) false 1 =
      ((shortWindow [1, 2, 3, 4], shortWindow [1, 0, 0, 0]), .ok ([1 / 4, 1 / 2], ratios)) ∧
    ratios = ([1 / 4, 1 / 2] : List ℚ).map fun (f : ℚ) =>
      meanComponent (f : ℝ) (shortWindow [1, 2, 3, 4]) / meanComponent (f : ℝ) (shortWindow [1, 0, 0, 0]) := by
  have e3 : keepIds (binFrequencies 4 (1 / 4)) (1 / 4) (1 / 2) 1 = .ok [1, 2] := by decide +kernel
  have e4 : ATS.df ⟨[1, 0, 0, 0], 1, 1, 0, 1⟩ = 1 / 4 := by decide +kernel
  have e5 : [1, 2].map (fun k => (binFrequencies 4 (1 / 4)).getD k 0) = [1 / 4, 1 / 2] := by decide +kernel
  have := snrCore_eq (signal := shortWindow [1, 2, 3, 4]) (noise := shortWindow [1, 0, 0, 0]) (fmin := 1 / 4)
    (fmax := 1 / 2) (ids := [1, 2]) rfl rfl rfl (by rw [e4]; exact e3)
  have h : snr (shortWindow [1, 2, 3, 4]) (shortWindow [1, 0, 0, 0]) (1 / 4) (1 / 2) false 1 =
      ((shortWindow [1, 2, 3, 4], shortWindow [1, 0, 0, 0]), .ok ([1 / 4, 1 / 2],
        [1, 2].map fun k => meanSpectrum (shortWindow [1, 2, 3, 4]) k / meanSpectrum (shortWindow [1, 0, 0, 0]) k)) := by
    unfold snr padIf
    simp only [Bool.false_eq_true, if_false]
    rw [this, ← e5, e4]
    rfl
  exact ⟨_, h, C74_physical_spectrum_partial _ _ _ _ _ _ _ _ _ _ h 4 1 one_pos (by simp [shortWindow])
    (by simp [shortWindow])⟩

/-- **C74** fails once the windows are padded by a multiple: asking for a 1/2 Hz step on four samples
at 1 s reports a ratio at 3/2 Hz, which is not the physical frequency of any bin (they are 0, 1/4, 1/2
and 3/4 Hz). -/
theorem C74_multiple_fails :
    ∃ (signal noise signal' noise' : Arr) (fmin fmax df : ℚ) (frqs : List ℚ) (ratios : List ℝ)
      (ns : Sensor),
      snr signal noise fmin fmax true df = ((signal', noise'), .ok (frqs, ratios)) ∧
      noise'.sensors = [ns] ∧
      ∃ f ∈ frqs, ∀ k, k < ns.ts.nsamples → f ≠ physicalFrequency ns.ts.nsamples ns.ts.dt k := by
  have e1 : padIf true (shortWindow [1, 0, 0, 1]) (1 / 2) =
      (⟨[⟨⟨[1, 0, 0, 1], 1, 1, 0, 2⟩, 0, 0, 0⟩], ⟨-5, 0, 0⟩⟩, .ok ()) := by decide +kernel
  have e2 : padIf true (shortWindow [1, 2, 3, 4]) (1 / 2) =
      (⟨[⟨⟨[1, 2, 3, 4], 1, 1, 0, 2⟩, 0, 0, 0⟩], ⟨-5, 0, 0⟩⟩, .ok ()) := by decide +kernel
  have e3 : keepIds (binFrequencies 4 (1 / 2)) (1 / 2) (3 / 2) 2 = .ok [1, 3] := by decide +kernel
  have e4 : ATS.df ⟨[1, 0, 0, 1], 1, 1, 0, 2⟩ = 1 / 2 := by decide +kernel
  have := snrCore_eq (signal := ⟨[⟨⟨[1, 2, 3, 4], 1, 1, 0, 2⟩, 0, 0, 0⟩], ⟨-5, 0, 0⟩⟩)
    (noise := ⟨[⟨⟨[1, 0, 0, 1], 1, 1, 0, 2⟩, 0, 0, 0⟩], ⟨-5, 0, 0⟩⟩) (fmin := 1 / 2) (fmax := 3 / 2)
    (ids := [1, 3]) rfl rfl rfl (by rw [e4]; exact e3)
  refine ⟨shortWindow [1, 2, 3, 4], shortWindow [1, 0, 0, 1],
    ⟨[⟨⟨[1, 2, 3, 4], 1, 1, 0, 2⟩, 0, 0, 0⟩], ⟨-5, 0, 0⟩⟩,
    ⟨[⟨⟨[1, 0, 0, 1], 1, 1, 0, 2⟩, 0, 0, 0⟩], ⟨-5, 0, 0⟩⟩, 1 / 2, 3 / 2, 1 / 2, ?_, ?_,
    ⟨⟨[1, 0, 0, 1], 1, 1, 0, 2⟩, 0, 0, 0⟩, ?h, rfl, 3 / 2, ?_, ?_⟩
  case h =>
    unfold snr
    rw [e1, e2]
    simp only
    rw [this]
  · decide +kernel
  · intro k hk
    have : k = 0 ∨ k = 1 ∨ k = 2 ∨ k = 3 := by simp [ATS.nsamples] at hk; omega
    rcases this with rfl | rfl | rfl | rfl <;> norm_num [physicalFrequency, ATS.nsamples]

/-- **C74** fails for windows with different sampling intervals: the signal is taken to be sampled like the noise.  Here
a signal sampled every 2 s has nothing at 1/4 Hz, but the ratio reported at 1/4 Hz is not zero. -/
theorem C74_different_interval_fails :
    ∃ (signal noise : Arr) (q : ℝ), snr signal noise (1 / 4) (1 / 4) false 1 = ((signal, noise), .ok ([1 / 4], [q])) ∧
      q ≠ 0 ∧ meanComponent ((1 / 4 : ℚ) : ℝ) signal = 0 := by
  have e3 : keepIds (binFrequencies 4 (1 / 4)) (1 / 4) (1 / 4) 1 = .ok [1] := by decide +kernel
  have e4 : ATS.df ⟨[1, 0, 0, 0], 1, 1, 0, 1⟩ = 1 / 4 := by decide +kernel
  have := snrCore_eq (signal := ⟨[⟨⟨[1, 1, 0, 0], 2, 1, 0, 1⟩, 0, 0, 0⟩], ⟨-5, 0, 0⟩⟩)
    (noise := shortWindow [1, 0, 0, 0]) (fmin := 1 / 4) (fmax := 1 / 4) (ids := [1]) rfl rfl rfl (by rw [e4]; exact e3)
  refine ⟨⟨[⟨⟨[1, 1, 0, 0], 2, 1, 0, 1⟩, 0, 0, 0⟩], ⟨-5, 0, 0⟩⟩, shortWindow [1, 0, 0, 0],
    meanSpectrum ⟨[⟨⟨[1, 1, 0, 0], 2, 1, 0, 1⟩, 0, 0, 0⟩], ⟨-5, 0, 0⟩⟩ 1 / meanSpectrum (shortWindow [1, 0, 0, 0]) 1, ?_, ?_, ?_⟩
  · unfold snr padIf
    simp only [Bool.false_eq_true, if_false]
    rw [this]
    have e5 : (binFrequencies 4 (1 / 4)).getD 1 0 = 1 / 4 := by decide +kernel
    simp only [List.map_cons, List.map_nil]
    rw [show (binFrequencies (ATS.nsamples ⟨[1, 0, 0, 0], 1, 1, 0, 1⟩) (ATS.df ⟨[1, 0, 0, 0], 1, 1, 0, 1⟩)).getD 1 0 = 1 / 4 by
      rw [e4]; exact e5]
  · have h1 : meanSpectrum (shortWindow [1, 0, 0, 0]) 1 = 1 := by
      simp [meanSpectrum, component, shortWindow, Finset.sum_range_succ]
    rw [h1, div_one]
    have e : component (((1 : ℕ) : ℝ) / ((([1, 1, 0, 0] : List ℚ).length : ℕ) : ℝ)) 1 [1, 1, 0, 0] = 1 - Complex.I := by
      have e : Complex.exp (-((2 * Real.pi * (((1 : ℕ) : ℝ) / ((([1, 1, 0, 0] : List ℚ).length : ℕ) : ℝ)) *
          (((1 : ℕ) : ℝ) * 1) : ℝ) : ℂ) * Complex.I) = -Complex.I := by
        rw [← Complex.exp_neg_pi_div_two_mul_I]
        congr 1
        norm_num
        ring_nf
      simp only [component, List.length_cons, List.length_nil, zero_add, Nat.reduceAdd, Finset.sum_range_succ,
        Finset.sum_range_zero] at e ⊢
      rw [e]
      norm_num
      ring
    simp only [meanSpectrum, List.map_cons, List.map_nil, e]
    have : (1 - Complex.I : ℂ) ≠ 0 := fun h => by simpa using congrArg Complex.re h
    simpa using this
  · have e : component ((1 / 4 : ℚ) : ℝ) ((2 : ℚ) : ℝ) [1, 1, 0, 0] = 0 := by
      have e : Complex.exp (-((2 * Real.pi * ((1 / 4 : ℚ) : ℝ) * (((1 : ℕ) : ℝ) * ((2 : ℚ) : ℝ)) : ℝ) : ℂ) * Complex.I) = -1 := by
        rw [← Complex.exp_neg_pi_mul_I]
        congr 1
        norm_num
        ring_nf
      simp only [component, List.length_cons, List.length_nil, zero_add, Nat.reduceAdd, Finset.sum_range_succ,
        Finset.sum_range_zero] at e ⊢
      rw [e]
      norm_num
    simp only [meanComponent, List.map_cons, List.map_nil, e]
    simp

/-! ## C75 -/

/-- **C75** (unequal windows).  Windows which, after the optional padding, have different numbers of
samples raise `IndexError`. -/
theorem C75_unequal_windows (signal noise signal' noise' : Arr) (fmin fmax : ℚ) (pad : Bool) (df : ℚ)
    (hn : padIf pad noise df = (noise', .ok ())) (hs : padIf pad signal df = (signal', .ok ()))
    (ns ss : Sensor) (nrest srest : List Sensor) (h1 : noise'.sensors = ns :: nrest)
    (h2 : signal'.sensors = ss :: srest) (hne : ns.ts.nsamples ≠ ss.ts.nsamples) :
    snr signal noise fmin fmax pad df = ((signal', noise'), .error .indexError) := by
  unfold snr
  rw [hn, hs]
  simp only [snrCore, h1, h2, if_pos hne]

/-- **C75** (ratio).  A successful call reports, in order, the frequencies of some bins of the noise window, and at each
of them the ratio of the mean spectral magnitudes of signal and noise at this bin. -/
theorem C75_ratio (signal noise signal' noise' : Arr) (fmin fmax : ℚ) (pad : Bool) (df : ℚ)
    (frqs : List ℚ) (ratios : List ℝ)
    (h : snr signal noise fmin fmax pad df = ((signal', noise'), .ok (frqs, ratios))) :
    ∃ (ns : Sensor) (ids : List ℕ), noise'.sensors.head? = some ns ∧ (∀ k ∈ ids, k < ns.ts.nsamples) ∧
      frqs = ids.map (fun (k : ℕ) => (k : ℚ) * ns.ts.df) ∧
      ratios = ids.map fun k => meanSpectrum signal' k / meanSpectrum noise' k := by
  obtain ⟨_, _, hc⟩ := snr_ok h
  obtain ⟨ns, nrest, _, _, ids, h1, _, _, h4, h5, h6⟩ := snrCore_ok hc
  have hlt : ∀ k ∈ ids, k < ns.ts.nsamples := fun k hk => by simpa [binFrequencies] using keepIds_valid h4 k hk
  refine ⟨ns, ids, by rw [h1]; rfl, hlt, ?_, h6⟩
  rw [h5]
  refine List.map_congr_left fun k hk => ?_
  simp [binFrequencies, List.getD_eq_getElem?_getD, List.getElem?_range (hlt k hk)]

/-- **C75** (equal windows).  With the same window as signal and noise every ratio is 1, provided the
noise spectrum does not vanish at any bin. -/
theorem C75_equal_windows (a signal' noise' : Arr) (fmin fmax : ℚ) (pad : Bool) (df : ℚ)
    (frqs : List ℚ) (ratios : List ℝ)
    (h : snr a a fmin fmax pad df = ((signal', noise'), .ok (frqs, ratios)))
    (hnz : ∀ k, meanSpectrum noise' k ≠ 0) : ∀ q ∈ ratios, q = 1 := by
  obtain ⟨hn, hs, _⟩ := snr_ok h
  have : signal' = noise' := by
    rw [hs] at hn; exact (Prod.mk.inj hn).1
  obtain ⟨_, ids, -, -, -, rfl⟩ := C75_ratio _ _ _ _ _ _ _ _ _ _ h
  subst this
  intro q hq
  obtain ⟨k, _, rfl⟩ := List.mem_map.1 hq
  exact div_self (hnz k)

/-- The non-vanishing hypothesis is met: the spectrum of a unit pulse has magnitude one at every bin. -/
example : ∀ k, meanSpectrum (shortWindow [1, 0, 0, 0]) k ≠ 0 := by
  intro k
  have : meanSpectrum (shortWindow [1, 0, 0, 0]) k = 1 := by
    simp [meanSpectrum_eq, shortWindow, fftBin, Finset.sum_range_succ]
  rw [this]; exact one_ne_zero

/-- The padding hypotheses of `C75_unequal_windows` are met without padding by windows of 4 and 3
samples. -/
example : (snr (shortWindow [1, 2, 3, 4]) (shortWindow [1, 2, 3]) 0 1 false 1).2 = .error .indexError := by
  rw [C75_unequal_windows _ _ _ _ 0 1 false 1 rfl rfl _ _ [] [] rfl rfl (by decide)]

/-- Multiply every sample of a window by `c`. -/
def scaleArr (c : ℚ) (a : Arr) : Arr :=
  { a with sensors := a.sensors.map fun s => { s with ts := { s.ts with amp := s.ts.amp.map fun x => c * x } } }

def scaleTs (c : ℚ) (r : ATS) : ATS := { r with amp := r.amp.map fun x => c * x }

theorem zeroPad_scale (c : ℚ) (r : ATS) (df : ℚ) :
    (scaleTs c r).zeroPad df = (scaleTs c (r.zeroPad df).1, (r.zeroPad df).2) := by
  have hn : (scaleTs c r).nsamples = r.nsamples := by simp [ATS.nsamples, scaleTs]
  simp only [ATS.zeroPad]
  rw [hn]
  have hdt : (scaleTs c r).dt = r.dt := rfl
  rw [hdt]
  split_ifs <;> simp [scaleTs]

theorem forSensors_scale (c : ℚ) (df : ℚ) (ss : List Sensor) :
    Arr.forSensors (fun r => r.zeroPad df) (ss.map fun s => { s with ts := scaleTs c s.ts }) =
      ((Arr.forSensors (fun r => r.zeroPad df) ss).1.map fun s => { s with ts := scaleTs c s.ts },
        (Arr.forSensors (fun r => r.zeroPad df) ss).2) := by
  induction ss with
  | nil => rfl
  | cons s ss ih =>
    simp only [List.map_cons, Arr.forSensors, zeroPad_scale]
    rcases h : s.ts.zeroPad df with ⟨r, _ | _⟩
    · simp
    · simp [ih]

theorem padIf_scale (c : ℚ) (pad : Bool) (a : Arr) (df : ℚ) :
    padIf pad (scaleArr c a) df = (scaleArr c (padIf pad a df).1, (padIf pad a df).2) := by
  unfold padIf
  split_ifs
  · unfold Arr.zeroPad
    have e : (scaleArr c a).sensors = a.sensors.map fun s => { s with ts := scaleTs c s.ts } := rfl
    rw [e, forSensors_scale]
    rfl
  · rfl

theorem meanSpectrum_scale (c : ℚ) (a : Arr) (k : ℕ) :
    meanSpectrum (scaleArr c a) k = |(c : ℝ)| * meanSpectrum a k := by
  have hc : ∀ z : ℂ, ‖(c : ℂ) * z‖ = |(c : ℝ)| * ‖z‖ := by
    intro z
    rw [norm_mul]
    congr 1
    have : ((c : ℚ) : ℂ) = (((c : ℚ) : ℝ) : ℂ) := by push_cast; rfl
    rw [this, Complex.norm_real, Real.norm_eq_abs]
  have hs : ∀ ss : List Sensor, ((ss.map fun s => ({ s with ts := { s.ts with amp := s.ts.amp.map fun x => c * x } } : Sensor)).map
      fun s => ‖fftBin s.ts.amp k‖).sum = |(c : ℝ)| * (ss.map fun s => ‖fftBin s.ts.amp k‖).sum := by
    intro ss
    induction ss with
    | nil => simp
    | cons s ss ih =>
      simp only [List.map_cons, List.sum_cons, ih, fftBin_gain, hc]
      ring
  rw [meanSpectrum_eq, meanSpectrum_eq]
  unfold scaleArr
  simp only [hs, List.length_map]
  ring

/-- **C75** (scaling).  Multiplying every sample of the signal window by `c` multiplies every reported
ratio by `|c|` and leaves the frequencies unchanged, with or without padding. -/
theorem C75_scaling (signal noise signal' noise' : Arr) (c fmin fmax : ℚ) (pad : Bool) (df : ℚ)
    (frqs : List ℚ) (ratios : List ℝ)
    (h : snr signal noise fmin fmax pad df = ((signal', noise'), .ok (frqs, ratios))) :
    snr (scaleArr c signal) noise fmin fmax pad df =
      ((scaleArr c signal', noise'), .ok (frqs, ratios.map fun q => |(c : ℝ)| * q)) := by
  obtain ⟨hn, hs, hcore⟩ := snr_ok h
  obtain ⟨ns, nrest, ss, srest, ids, h1, h2, h3, h4, rfl, rfl⟩ := snrCore_ok hcore
  have e : (scaleArr c signal').sensors =
      { ss with ts := scaleTs c ss.ts } :: srest.map fun s => { s with ts := scaleTs c s.ts } := by
    unfold scaleArr; rw [h2]; rfl
  have := snrCore_eq (signal := scaleArr c signal') (fmin := fmin) (fmax := fmax) (ids := ids) h1 e
    (by rw [h3]; simp [ATS.nsamples, scaleTs]) h4
  unfold snr
  rw [hn, padIf_scale, hs]
  simp only
  rw [this, List.map_map]
  refine congrArg _ (congrArg _ (congrArg _ (List.map_congr_left fun k _ => ?_)))
  simp only [Function.comp, meanSpectrum_scale]
  ring

/-! ## C99 -/

theorem forSensors_head {f : ATS → Outcome ATS} {s : Sensor} {rest ss : List Sensor}
    (h : Arr.forSensors f (s :: rest) = (ss, .ok ())) :
    ∃ r tl, f s.ts = (r, .ok ()) ∧ ss = { s with ts := r } :: tl := by
  simp only [Arr.forSensors] at h
  rcases hf : f s.ts with ⟨r, e | u⟩
  · rw [hf] at h; simp at h
  · rw [hf] at h
    simp only [Prod.mk.injEq] at h
    exact ⟨r, _, rfl, h.1.symm⟩

/-- **C99** (what holds).  With `pad_snr=True`, windows recorded at one sampling interval, each at most
as long as the padded length `1/(df*dt)`, never raise the `IndexError` about unequal windows. -/
theorem C99_padding_equalizes_partial (signal noise : Arr) (fmin fmax df : ℚ) (ns ss : Sensor)
    (nrest srest : List Sensor) (h1 : noise.sensors = ns :: nrest) (h2 : signal.sensors = ss :: srest)
    (hdt : ns.ts.dt = ss.ts.dt) (hn : 0 < ns.ts.nsamples) (hs : 0 < ss.ts.nsamples)
    (N : ℕ) (hN : 1 / (df * ns.ts.dt) = N) (hnN : ns.ts.nsamples ≤ N) (hsN : ss.ts.nsamples ≤ N) :
    (snr signal noise fmin fmax true df).2 ≠ .error .indexError := by
  intro hcon
  have hT : ATS.targetSamples df ns.ts.dt = N := by
    unfold ATS.targetSamples; rw [hN]; exact_mod_cast pyRound_intCast (N : ℤ)
  have hpad : ∀ (a a' : Arr) (s : Sensor) (rest : List Sensor), a.sensors = s :: rest →
      s.ts.dt = ns.ts.dt → 0 < s.ts.nsamples → s.ts.nsamples ≤ N →
      padIf true a df = (a', .ok ()) → ∃ s' tl, a'.sensors = s' :: tl ∧ s'.ts.nsamples = N := by
    intro a a' s rest ha hd hpos hle hp
    simp only [padIf, if_true, Arr.zeroPad, ha] at hp
    rcases hf : Arr.forSensors (fun r => r.zeroPad df) (s :: rest) with ⟨ss', o⟩
    rw [hf] at hp
    simp only [Prod.mk.injEq] at hp
    obtain ⟨rfl, rfl⟩ := hp
    obtain ⟨r, tl, hr, rfl⟩ := forSensors_head hf
    have hdf := ATS.zeroPad_ok_pos hr
    obtain ⟨g1, g2, g3, _, _, _, k, g4, g5, g6, g7⟩ := ATS.zeroPad_ok hpos hdf (hd ▸ hT) hr
    refine ⟨_, tl, rfl, ?_⟩
    rcases Nat.lt_or_ge s.ts.nsamples N with hlt | hge
    · exact g6 hlt
    · have hEq : s.ts.nsamples = N := le_antisymm hle hge
      have hkN := g7 hge
      show r.nsamples = N
      -- a multiple of N between N and 2N
      have hm : r.multiple = 1 := by
        rcases Nat.lt_or_ge r.multiple 2 with h | h
        · omega
        · have : 2 * N ≤ r.multiple * N := Nat.mul_le_mul_right _ h
          omega
      rw [g3, hm, one_mul]
  unfold snr at hcon
  rcases e1 : padIf true noise df with ⟨noise', o1⟩
  have hforErr : ∀ (ss : List Sensor) (ss' : List Sensor),
      Arr.forSensors (fun r => r.zeroPad df) ss ≠ (ss', .error .indexError) := by
    intro ss
    induction ss with
    | nil => intro ss' h; simp [Arr.forSensors] at h
    | cons s ss ih =>
      intro ss' h
      simp only [Arr.forSensors] at h
      rcases hz : s.ts.zeroPad df with ⟨r, e | u⟩
      · rw [hz] at h
        simp only [Prod.mk.injEq] at h
        have he := h.2
        simp only [ATS.zeroPad] at hz
        split_ifs at hz <;> simp_all
      · rw [hz] at h
        simp only at h
        rcases hrec : Arr.forSensors (fun r => r.zeroPad df) ss with ⟨tl, o⟩
        rw [hrec] at h
        simp only [Prod.mk.injEq] at h
        exact ih tl (by rw [hrec, h.2])
  have hpadErr : ∀ a a' : Arr, padIf true a df ≠ (a', .error .indexError) := by
    intro a a' h
    simp only [padIf, if_true, Arr.zeroPad] at h
    rcases hf : Arr.forSensors (fun r => r.zeroPad df) a.sensors with ⟨ss', o⟩
    rw [hf] at h
    simp only [Prod.mk.injEq] at h
    exact hforErr _ ss' (by rw [hf, h.2])
  rcases o1 with e | u
  · rw [e1] at hcon
    simp only [Except.error.injEq] at hcon
    subst hcon
    exact hpadErr _ _ e1
  rw [e1] at hcon
  simp only at hcon
  rcases e2 : padIf true signal df with ⟨signal', o2⟩
  rcases o2 with e | u'
  · rw [e2] at hcon
    simp only [Except.error.injEq] at hcon
    subst hcon
    exact hpadErr _ _ e2
  rw [e2] at hcon
  simp only at hcon
  obtain ⟨n', ntl, hn', hnl⟩ := hpad noise noise' ns nrest h1 rfl hn hnN e1
  obtain ⟨s', stl, hs', hsl⟩ := hpad signal signal' ss srest h2 hdt.symm hs hsN e2
  unfold snrCore at hcon
  rw [hn', hs'] at hcon
  simp only at hcon
  rw [if_neg (by rw [hnl, hsl]; simp)] at hcon
  unfold keepIds at hcon
  split at hcon
  · rename_i heq
    split at heq
    · split_ifs at heq
      cases heq; cases hcon
    · cases heq; cases hcon
  · cases hcon

/-- The hypotheses are met by windows of 5 and 8 samples padded to 10. -/
example : (snr (shortWindow [1, 2, 3, 4, 5]) (shortWindow (List.replicate 8 1)) (1 / 10) (1 / 5) true
    (1 / 10)).2 ≠ .error .indexError :=
  C99_padding_equalizes_partial _ _ _ _ _ _ _ [] [] rfl rfl rfl (by decide) (by decide) 10
    (by norm_num) (by decide) (by decide)

theorem zeroPad_length {r r' : ATS} {df : ℚ} {N : ℕ} (hn : 0 < r.nsamples)
    (hN : ATS.targetSamples df r.dt = N) (h : r.zeroPad df = (r', .ok ())) :
    r'.nsamples = ⌈(r.nsamples : ℚ) / N⌉₊ * N := by
  obtain ⟨g1, g2, g3, _, _, _, k, _, g5, g6, g7⟩ := ATS.zeroPad_ok hn (ATS.zeroPad_ok_pos h) hN h
  have hN0 : (0 : ℚ) < N := by exact_mod_cast g1
  have hm : ⌈(r.nsamples : ℚ) / N⌉₊ = r'.multiple := by
    rw [Nat.ceil_eq_iff (by omega)]
    rw [lt_div_iff₀ hN0, div_le_iff₀ hN0]
    have hlt : (r'.multiple - 1) * N < r.nsamples := by
      rw [Nat.sub_mul, one_mul, ← g3]
      rcases Nat.lt_or_ge r.nsamples N with hl | hl
      · rw [g6 hl]; omega
      · have := g7 hl; omega
    constructor
    · exact_mod_cast hlt
    · have : r.nsamples ≤ r'.multiple * N := by omega
      exact_mod_cast this
  rw [hm, g3]

theorem zeroPad_accepts {r : ATS} {df : ℚ} {N : ℕ} (hdf : 0 < df) (hN0 : 0 < N)
    (hN : ATS.targetSamples df r.dt = N) : ∃ r', r.zeroPad df = (r', .ok ()) := by
  rw [ATS.zeroPad_nat r df N hdf hN]
  split_ifs
  · exact ⟨_, rfl⟩
  · omega
  · exact ⟨_, rfl⟩
  · exact ⟨_, rfl⟩
  · exact ⟨_, rfl⟩

theorem forSensors_accepts {f : ATS → Outcome ATS} : ∀ {ss : List Sensor},
    (∀ s ∈ ss, ∃ r, f s.ts = (r, .ok ())) → ∃ ss', Arr.forSensors f ss = (ss', .ok ())
  | [], _ => ⟨[], rfl⟩
  | s :: ss, h => by
    obtain ⟨r, hr⟩ := h s (by simp)
    obtain ⟨ss', hss⟩ := forSensors_accepts (ss := ss) fun t ht => h t (by simp [ht])
    exact ⟨{ s with ts := r } :: ss', by simp only [Arr.forSensors, hr, hss]⟩

/-- **C99** (exactly).  With `pad_snr=True`, windows of `n` and `s` samples recorded at one sampling interval are padded
to the next multiples of the requested length `N`, and the call raises the `IndexError` about unequal windows exactly
if these multiples differ. -/
theorem C99_padding_exactly_partial (signal noise : Arr) (fmin fmax df : ℚ) (ns ss : Sensor)
    (nrest srest : List Sensor) (h1 : noise.sensors = ns :: nrest) (h2 : signal.sensors = ss :: srest)
    (hdt : ∀ t ∈ noise.sensors ++ signal.sensors, t.ts.dt = ns.ts.dt)
    (hn : 0 < ns.ts.nsamples) (hs : 0 < ss.ts.nsamples) (hdf : 0 < df)
    (N : ℕ) (hN0 : 0 < N) (hN : pyRound (1 / (df * ns.ts.dt)) = N) :
    (snr signal noise fmin fmax true df).2 = .error .indexError ↔
      ⌈(ns.ts.nsamples : ℚ) / N⌉₊ ≠ ⌈(ss.ts.nsamples : ℚ) / N⌉₊ := by
  have hpad : ∀ (a : Arr) (s : Sensor) (rest : List Sensor), a.sensors = s :: rest →
      (∀ t ∈ a.sensors, t.ts.dt = ns.ts.dt) → 0 < s.ts.nsamples →
      ∃ a', padIf true a df = (a', .ok ()) ∧
        ∃ s' tl, a'.sensors = s' :: tl ∧ s'.ts.nsamples = ⌈(s.ts.nsamples : ℚ) / N⌉₊ * N := by
    intro a s rest ha hd hpos
    have hT : ∀ t ∈ a.sensors, ATS.targetSamples df t.ts.dt = N := by
      intro t ht; unfold ATS.targetSamples; rw [hd t ht]; exact hN
    obtain ⟨ss', hss⟩ := forSensors_accepts (f := fun r => r.zeroPad df) (ss := a.sensors)
      fun t ht => zeroPad_accepts hdf hN0 (hT t ht)
    refine ⟨{ a with sensors := ss' }, by simp only [padIf, if_true, Arr.zeroPad, hss], ?_⟩
    rw [ha] at hss
    obtain ⟨r, tl, hr, rfl⟩ := forSensors_head hss
    exact ⟨_, tl, rfl, zeroPad_length hpos (hT s (by rw [ha]; simp)) hr⟩
  obtain ⟨noise', e1, n', ntl, hn', hnl⟩ := hpad noise ns nrest h1 (fun t ht => hdt t (by simp [ht])) hn
  obtain ⟨signal', e2, s', stl, hs', hsl⟩ := hpad signal ss srest h2 (fun t ht => hdt t (by simp [ht])) hs
  unfold snr
  rw [e1, e2]
  simp only
  unfold snrCore
  rw [hn', hs']
  simp only
  rw [hnl, hsl]
  have hiff : ⌈(ns.ts.nsamples : ℚ) / N⌉₊ * N ≠ ⌈(ss.ts.nsamples : ℚ) / N⌉₊ * N ↔
      ⌈(ns.ts.nsamples : ℚ) / N⌉₊ ≠ ⌈(ss.ts.nsamples : ℚ) / N⌉₊ := by
    rw [Ne, Nat.mul_right_cancel_iff hN0]
  rw [← hiff]
  constructor
  · intro h
    split_ifs at h with c
    · exact c
    · exfalso
      unfold keepIds at h
      split at h
      · rename_i heq
        split at heq
        · split_ifs at heq
          cases heq; cases h
        · cases heq; cases h
      · cases h
  · intro h
    rw [if_pos h]

/-- Windows of 12 and 18 samples are both padded to 20, windows of 8 and 15 samples to 10 and 20. -/
example : (snr (shortWindow (List.replicate 12 1)) (shortWindow (List.replicate 18 1)) 1 2 true (1 / 10)).2 ≠
      .error .indexError ∧
    (snr (shortWindow (List.replicate 15 1)) (shortWindow (List.replicate 8 1)) 1 2 true (1 / 10)).2 =
      .error .indexError := by
  constructor
  · rw [Ne, C99_padding_exactly_partial _ _ 1 2 (1 / 10) _ _ [] [] rfl rfl (by simp [shortWindow]) (by decide)
      (by decide) (by norm_num) 10 (by decide) (by decide +kernel), not_not]
    rw [(Nat.ceil_eq_iff (n := 2) (by decide)).2 (by norm_num [shortWindow, ATS.nsamples]),
      (Nat.ceil_eq_iff (n := 2) (by decide)).2 (by norm_num [shortWindow, ATS.nsamples])]
  · rw [C99_padding_exactly_partial _ _ 1 2 (1 / 10) _ _ [] [] rfl rfl (by simp [shortWindow]) (by decide)
      (by decide) (by norm_num) 10 (by decide) (by decide +kernel)]
    rw [(Nat.ceil_eq_iff (n := 1) (by decide)).2 (by norm_num [shortWindow, ATS.nsamples]),
      (Nat.ceil_eq_iff (n := 2) (by decide)).2 (by norm_num [shortWindow, ATS.nsamples])]
    decide

/-- **C99** fails for longer windows: with a requested step of 1/10 Hz at 1 s sampling, a noise window
of 8 samples is padded to 10 and a signal window of 15 samples to 20, and the call still raises
`IndexError`, advising to set `pad_snr=True`. -/
theorem C99_padding_fails :
    ∃ (signal noise : Arr) (fmin fmax df : ℚ),
      (∃ a b, signal.sensors.map (fun s => s.ts.nsamples) = [a] ∧
        noise.sensors.map (fun s => s.ts.nsamples) = [b] ∧ a = 15 ∧ b = 8) ∧
      (snr signal noise fmin fmax true df).2 = .error .indexError := by
  refine ⟨shortWindow (List.replicate 15 1), shortWindow (List.replicate 8 1), 1, 2, 1 / 10,
    ⟨15, 8, by decide +kernel, by decide +kernel, rfl, rfl⟩, ?_⟩
  have := C75_unequal_windows (shortWindow (List.replicate 15 1)) (shortWindow (List.replicate 8 1))
    ⟨[⟨⟨List.replicate 15 1 ++ List.replicate 5 0, 1, 1, 0, 2⟩, 0, 0, 0⟩], ⟨-5, 0, 0⟩⟩
    ⟨[⟨⟨List.replicate 8 1 ++ List.replicate 2 0, 1, 1, 0, 1⟩, 0, 0, 0⟩], ⟨-5, 0, 0⟩⟩
    1 2 true (1 / 10) (by decide +kernel) (by decide +kernel) _ _ [] [] rfl rfl (by decide +kernel)
  rw [this]

end Verif.Props
