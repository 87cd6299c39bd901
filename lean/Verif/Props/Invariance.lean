import Verif.Props.Power
import Verif.Props.ArrayOffsets

/-!
# C118, C119: weighting by offset; common delays, common gains and mirror images
-/

open Complex

namespace Verif.Props
open Verif WT Spec Workflow

/-! ## C118 -/

/-- At the wave's own velocity the beamforming power is the square of the sum of the weighted gains. -/
theorem beamformingPower_wave {a : Arr} {lag : ℝ → ℝ} {gain weight : Sensor → ℝ} {f v : ℝ} {S : ℂ}
    (h : WaveOver a lag gain f v S) :
    beamformingPower a weight lag f v = ((a.sensors.map fun s => weight s * gain s).sum * ‖S‖) ^ 2 := by
  unfold beamformingPower
  have e : (a.sensors.map fun s => exp ((lag (2 * Real.pi * f / v * (offset a.source s : ℚ)) : ℝ) * I) *
      (weight s * spectrumAt f s)) = a.sensors.map fun s => ((weight s * gain s : ℝ) : ℂ) * S := by
    refine List.map_congr_left fun s hs => ?_
    rw [h s hs]
    have : exp ((lag (2 * Real.pi * f / v * (offset a.source s : ℚ)) : ℝ) * I) *
        exp (-(lag (2 * Real.pi * f / v * (offset a.source s : ℚ)) : ℝ) * I) = 1 := by
      rw [← Complex.exp_add]; simp
    push_cast
    linear_combination (weight s * gain s * S : ℂ) * this
  have hsum : ∀ l : List Sensor, (l.map fun s => ((weight s * gain s : ℝ) : ℂ) * S).sum =
      (((l.map fun s => weight s * gain s).sum : ℝ) : ℂ) * S := by
    intro l
    induction l with
    | nil => simp
    | cons s l ih => simp only [List.map_cons, List.sum_cons, ih]; push_cast; ring
  rw [e, hsum, norm_mul, Complex.norm_real, Real.norm_eq_abs, mul_pow, mul_pow, sq_abs]

/-- **C118**, partial: with `weighting="sqrt"` the receivers of a wave whose amplitude decreases with the inverse of the
offset contribute equally: the power at its velocity is the square of the number of receivers times the source
amplitude.  Missing: decrease with the inverse square root of the offset, that of a surface wave
(`C118_surface_wave_fails`). -/
theorem C118_inverse_offset_partial (hankel : ℝ → ℂ) (a : Arr) (set : Settings) (t : Transform)
    (ht : Builtin.fdbf hankel a set = .ok t) (hc : Consistent a) (hdt : ∀ s ∈ a.sensors, 0 < s.ts.dt)
    (hw : (Builtin.specific set.fdbf).get "weighting" = some "sqrt") (haway : ∀ s ∈ a.sensors, s.x ≠ a.source.x)
    (i j : ℕ) (v : ℝ) (f : ℚ) (hi : t.velocities[i]? = some v) (hj : t.frequencies[j]? = some f) (S : ℂ)
    (hwave : WaveOver a (lagOf hankel ((Builtin.specific set.fdbf).get "steering"))
      (fun s => 1 / (offset a.source s : ℚ)) f v S) :
    (t.power[i]?.bind fun row => row[j]?) = some (((a.sensors.length * ‖S‖) ^ 2 : ℝ) : ℂ) := by
  obtain ⟨-, -, h⟩ := C117_beamforming hankel a set t ht hc hdt
  rw [h i j v f hi hj (by rw [hw]; exact fun h => absurd h (by decide)), beamformingPower_wave hwave, hw]
  have : (a.sensors.map fun s => weightOf a.source (some "sqrt") f s * (1 / ((offset a.source s : ℚ) : ℝ))) =
      a.sensors.map fun _ => (1 : ℝ) := by
    refine List.map_congr_left fun s hs => ?_
    have : ((offset a.source s : ℚ) : ℝ) ≠ 0 := by
      have := abs_pos.2 (sub_ne_zero.2 (haway s hs).symm)
      exact_mod_cast this.ne'
    simp [weightOf, this]
  rw [this]
  simp

/-- **C118** (surface wave).  Of a wave whose amplitude decreases with the inverse square root of the offset, each
receiver contributes with the square root of its offset: far receivers outweigh near ones. -/
theorem C118_surface_wave_power (hankel : ℝ → ℂ) (a : Arr) (set : Settings) (t : Transform)
    (ht : Builtin.fdbf hankel a set = .ok t) (hc : Consistent a) (hdt : ∀ s ∈ a.sensors, 0 < s.ts.dt)
    (hw : (Builtin.specific set.fdbf).get "weighting" = some "sqrt")
    (i j : ℕ) (v : ℝ) (f : ℚ) (hi : t.velocities[i]? = some v) (hj : t.frequencies[j]? = some f) (S : ℂ)
    (hwave : WaveOver a (lagOf hankel ((Builtin.specific set.fdbf).get "steering"))
      (fun s => 1 / Real.sqrt (offset a.source s : ℚ)) f v S) :
    (t.power[i]?.bind fun row => row[j]?) =
      some ((((a.sensors.map fun s => Real.sqrt (offset a.source s : ℚ)).sum * ‖S‖) ^ 2 : ℝ) : ℂ) := by
  obtain ⟨-, -, h⟩ := C117_beamforming hankel a set t ht hc hdt
  rw [h i j v f hi hj (by rw [hw]; exact fun h => absurd h (by decide)), beamformingPower_wave hwave, hw]
  have : (a.sensors.map fun s => weightOf a.source (some "sqrt") f s * (1 / Real.sqrt ((offset a.source s : ℚ) : ℝ))) =
      a.sensors.map fun s => Real.sqrt ((offset a.source s : ℚ) : ℝ) := by
    refine List.map_congr_left fun s _ => ?_
    simp [weightOf, Real.div_sqrt, ← div_eq_mul_inv]
  rw [this]

/-- A pulse crossing two receivers, 1 m and 4 m from the source, at 1000 m/s, with these amplitudes. -/
def spreadArr (g1 g2 : ℚ) : Arr :=
  ⟨[⟨⟨[0, g1, 0, 0, 0, 0, 0, 0], 1 / 1000, 1, 0, 1⟩, 1, 0, 0⟩, ⟨⟨[0, 0, 0, 0, g2, 0, 0, 0], 1 / 1000, 1, 0, 1⟩, 4, 0, 0⟩],
    ⟨0, 0, 0⟩⟩

/-- Beamforming at 125 Hz with `weighting="sqrt"` and plane steering. -/
def spreadSet : Settings :=
  { pulseSet "fdbf" with fmin := 120, fmax := 130, vmin := 1000, vmax := 2000, fdbf := some [("weighting", .str "sqrt")] }

theorem spread_weighting : (Builtin.specific spreadSet.fdbf).get "weighting" = some "sqrt" ∧
    (Builtin.specific spreadSet.fdbf).get "steering" = none := by decide +kernel

theorem spread_consistent (g1 g2 : ℚ) : Consistent (spreadArr g1 g2) ∧
    (∀ s ∈ (spreadArr g1 g2).sensors, 0 < s.ts.dt) ∧
    (∀ s ∈ (spreadArr g1 g2).sensors, s.x ≠ (spreadArr g1 g2).source.x) := by
  refine ⟨⟨by simp [spreadArr], by simp [spreadArr], by simp [spreadArr, SameMeta]⟩, by simp [spreadArr], by simp [spreadArr]⟩

theorem spread_transform (g1 g2 : ℚ) : ∃ t, Builtin.fdbf (fun _ => 0) (spreadArr g1 g2) spreadSet = .ok t ∧
    t.frequencies = [125] ∧ t.velocities = [1000, 2000] := by
  have hv : Builtin.velocities spreadSet = .ok [1000, 2000] := by
    simp only [Builtin.velocities, createVector, spreadSet, pulseSet]
    norm_num [List.range_succ, show Int.toNat 2 = 2 from rfl]
  have hrec : Record.ofArray (spreadArr g1 g2) =
      .ok ⟨[[0, g1, 0, 0, 0, 0, 0, 0], [0, 0, 0, 0, g2, 0, 0, 0]], [1, 4], 8, 125, 1⟩ := by
    have h : (spreadArr g1 g2).sensors.getLast? =
        some ⟨⟨[0, 0, 0, 0, g2, 0, 0, 0], 1 / 1000, 1, 0, 1⟩, 4, 0, 0⟩ := rfl
    unfold Record.ofArray
    rw [flipped_eq _ _ h, offsets_eq]
    norm_num [spreadArr, bind, Except.bind, pure, Except.pure, Arr.timeseriesmatrix, offset, ATS.nsamples,
      ATS.dfInternal]
  have hids : keepIds (binFrequencies 8 (125 : ℚ)) 120 130 1 = .ok [1] := by decide +kernel
  have hf : ([1] : List ℕ).map (fun k => (binFrequencies 8 (125 : ℚ)).getD k 0) = [125] := by decide +kernel
  have hset : spreadSet.fmin = 120 ∧ spreadSet.fmax = 130 := ⟨rfl, rfl⟩
  unfold Builtin.fdbf
  rw [hv, hrec]
  simp only [bind, Except.bind, WT.fdbf, Record.keepIds, hset.1, hset.2, hids, pure, Except.pure]
  exact ⟨_, rfl, hf, rfl⟩

theorem spread_wave (g1 g2 : ℚ) (gain : Sensor → ℝ)
    (h1 : gain ⟨⟨[0, g1, 0, 0, 0, 0, 0, 0], 1 / 1000, 1, 0, 1⟩, 1, 0, 0⟩ = g1)
    (h2 : gain ⟨⟨[0, 0, 0, 0, g2, 0, 0, 0], 1 / 1000, 1, 0, 1⟩, 4, 0, 0⟩ = g2) :
    WaveOver (spreadArr g1 g2) (lagOf (fun _ => 0) ((Builtin.specific spreadSet.fdbf).get "steering")) gain
      ((125 : ℚ) : ℝ) 1000 1 := by
  rw [spread_weighting.2]
  intro s hs
  simp only [spreadArr, List.mem_cons, List.not_mem_nil, or_false] at hs
  rcases hs with rfl | rfl
  · rw [spectrum_pulse _ 1 g1 6 _ rfl, h1]
    have hn : (none : Option String) ≠ some "cylindrical" := by decide
    simp only [lagOf, if_neg hn, offset, spreadArr]
    norm_num
    left; congr 1; ring
  · rw [spectrum_pulse _ 4 g2 3 _ rfl, h2]
    have hn : (none : Option String) ≠ some "cylindrical" := by decide
    simp only [lagOf, if_neg hn, offset, spreadArr]
    norm_num
    left; congr 1; ring

/-- Amplitudes 1 and 1/4, in inverse proportion to the offsets 1 m and 4 m, meet `C118_inverse_offset_partial`. -/
example : WaveOver (spreadArr 1 (1 / 4)) (lagOf (fun _ => 0) ((Builtin.specific spreadSet.fdbf).get "steering"))
    (fun s => 1 / (offset (spreadArr 1 (1 / 4)).source s : ℚ)) ((125 : ℚ) : ℝ) 1000 1 :=
  spread_wave 1 (1 / 4) _ (by norm_num [offset, spreadArr]) (by norm_num [offset, spreadArr])

/-- **C118** is violated: a surface wave of unit amplitude, with amplitudes 1 and 1/2 at 1 m and 4 m, has power 9 at its
velocity.  Two receivers in balance would give 4. -/
theorem C118_surface_wave_fails : ∃ t, Builtin.fdbf (fun _ => 0) (spreadArr 1 (1 / 2)) spreadSet = .ok t ∧
    t.frequencies[0]? = some 125 ∧ t.velocities[0]? = some 1000 ∧
    WaveOver (spreadArr 1 (1 / 2)) (lagOf (fun _ => 0) none)
      (fun s => 1 / Real.sqrt (offset (spreadArr 1 (1 / 2)).source s : ℚ)) 125 1000 1 ∧
    (t.power[0]?.bind fun row => row[0]?) = some 9 := by
  obtain ⟨t, ht, hf, hv⟩ := spread_transform 1 (1 / 2)
  have h4 : Real.sqrt 4 = 2 := by rw [show (4 : ℝ) = 2 ^ 2 by norm_num]; exact Real.sqrt_sq (by norm_num)
  have hw := spread_wave 1 (1 / 2) (fun s => 1 / Real.sqrt (offset (spreadArr 1 (1 / 2)).source s : ℚ))
    (by norm_num [offset, spreadArr]) (by norm_num [offset, spreadArr, h4])
  obtain ⟨hc, hdt, -⟩ := spread_consistent 1 (1 / 2)
  have hf0 : t.frequencies[0]? = some 125 := by rw [hf]; rfl
  have hv0 : t.velocities[0]? = some 1000 := by rw [hv]; rfl
  refine ⟨t, ht, hf0, hv0, ?_, ?_⟩
  · rw [spread_weighting.2] at hw
    exact_mod_cast hw
  · rw [C118_surface_wave_power _ _ _ t ht hc hdt spread_weighting.1 0 0 1000 125 hv0 hf0 1 hw]
    norm_num [spreadArr, offset, h4]

/-! ## C119 -/

theorem phaseSum_scale (c : ℂ) : ∀ (x : List ℝ) (z : List ℂ), phaseSum x (z.map fun a => c * a) = c * phaseSum x z
  | [], _ => by simp [phaseSum]
  | [_], _ => by simp [phaseSum]
  | _ :: _ :: _, [] => by simp [phaseSum]
  | _ :: _ :: _, [_] => by simp [phaseSum]
  | x :: x' :: xs, a :: b :: z => by
    have ih := phaseSum_scale c (x' :: xs) (b :: z)
    simp only [List.map_cons] at ih
    simp only [List.map_cons, phaseSum, ih]
    ring

theorem phasePower_scale (c : ℂ) (hc : c ≠ 0) (x : List ℝ) (U : List ℂ) (v f : ℝ) :
    phasePower x (U.map fun u => c * u) v f = phasePower x U v f := by
  unfold phasePower
  have e : List.zipWith (phaseInner v f) x (U.map fun u => c * u) =
      (List.zipWith (phaseInner v f) x U).map fun z => c / (‖c‖ : ℝ) * z := by
    rw [List.zipWith_map_right, List.map_zipWith]
    congr 1
    funext y u
    unfold phaseInner
    rw [norm_mul]
    push_cast
    rw [mul_left_comm, mul_div_mul_comm]
  rw [e, phaseSum_scale, norm_mul]
  have : ‖c / (‖c‖ : ℝ)‖ = 1 := by
    rw [norm_div, Complex.norm_real, norm_norm, div_self (norm_ne_zero_iff.2 hc)]
  rw [this, one_mul]

/-- What a common factor of the spectra does to the beamforming power. -/
noncomputable def beamFactor (weighting : Option String) (c : ℂ) : ℝ :=
  if weighting = some "invamp" then 1 else ‖c‖ ^ 2

theorem fdbfPower_scale (hankel : ℝ → ℂ) (weighting steering : Option String) (n : ℕ) (x : ℕ → ℝ) (z : ℕ → ℂ) (c : ℂ)
    (hc : c ≠ 0) (v f : ℝ) :
    fdbfPower hankel weighting steering n x [fun a => c * z a] v f =
      beamFactor weighting c * fdbfPower hankel weighting steering n x [z] v f := by
  unfold fdbfPower
  have hs : sscm weighting [fun a => c * z a] = fun a b => (beamFactor weighting c : ℂ) * sscm weighting [z] a b := by
    funext a b
    have hn : ((‖c‖ : ℝ) : ℂ) ≠ 0 := by exact_mod_cast norm_ne_zero_iff.2 hc
    have hcc : c * (starRingEnd ℂ) c = ((‖c‖ : ℝ) : ℂ) ^ 2 := Complex.mul_conj' c
    unfold sscm beamFactor
    by_cases h : weighting = some "invamp"
    · simp only [h, if_true, List.map_cons, List.map_nil, invamp, List.sum_cons, List.sum_nil, add_zero, List.length_cons,
        List.length_nil, zero_add, Nat.cast_one, div_one, norm_mul, map_mul, Complex.conj_ofReal, Complex.ofReal_one,
        one_mul]
      push_cast
      by_cases ha : ((‖z a‖ : ℝ) : ℂ) = 0
      · simp [ha]
      by_cases hb : ((‖z b‖ : ℝ) : ℂ) = 0
      · simp [hb]
      field_simp
      linear_combination (z a * (starRingEnd ℂ) (z b)) * hcc
    · simp only [h, if_false, List.map_cons, List.map_nil, List.sum_cons, List.sum_nil, add_zero, List.length_cons,
        List.length_nil, zero_add, Nat.cast_one, div_one, map_mul]
      push_cast
      linear_combination (z a * (starRingEnd ℂ) (z b)) * hcc
  rw [hs]
  unfold beamPower
  rw [Finset.mul_sum]
  refine Finset.sum_congr rfl fun b _ => ?_
  rw [← mul_assoc, Finset.mul_sum]
  congr 1
  exact Finset.sum_congr rfl fun a _ => by ring

/-- All records of an array replaced by a function of their samples. -/
def mapAmp (g : List ℚ → List ℚ) (a : Arr) : Arr :=
  { a with sensors := a.sensors.map fun s => { s with ts := { s.ts with amp := g s.ts.amp } } }

theorem record_mapAmp (g : List ℚ → List ℚ) (hg : ∀ u, (g u).length = u.length) (a : Arr) :
    Record.ofArray (mapAmp g a) = (Record.ofArray a).map fun r => { r with tm := r.tm.map g } := by
  unfold Record.ofArray
  have hflip : (mapAmp g a).flippedTseriesAndOffsets =
      (a.flippedTseriesAndOffsets).map fun p => (p.1.map g, p.2) := by
    unfold Arr.flippedTseriesAndOffsets Arr.flipRequired Arr.position Arr.timeseriesmatrix Arr.offsets Arr.position mapAmp
    simp only [List.map_map, Function.comp_def]
    rcases (a.sensors.map Sensor.x).getLast? with _ | p
    · rfl
    · by_cases h : a.source.x > p
      · simp [bind, Except.bind, h, pure, Except.pure, Except.map, Function.comp_def]
      · simp [bind, Except.bind, h, pure, Except.pure, Except.map, Function.comp_def]
  rw [hflip]
  rcases a.flippedTseriesAndOffsets with e | ⟨tm, offs⟩
  · rfl
  · rcases hs : a.sensors with _ | ⟨s, rest⟩
    · simp [mapAmp, hs, Except.map, bind, Except.bind]
    · simp [mapAmp, hs, Except.map, bind, Except.bind, pure, Except.pure, ATS.nsamples, ATS.dfInternal, hg]

theorem record_fft {g : List ℚ → List ℚ} {a : Arr} {r : Record} {c : ℕ → ℂ} (hrec : Record.ofArray a = .ok r)
    (hfft : ∀ s ∈ a.sensors, ∀ k, fftBin (g s.ts.amp) k = c k * fftBin s.ts.amp k) :
    ∀ u ∈ r.tm, ∀ k, fftBin (g u) k = c k * fftBin u k := by
  unfold Record.ofArray at hrec
  rcases hf : a.flippedTseriesAndOffsets with e | ⟨tm, offs⟩
  · rw [hf] at hrec; cases hrec
  obtain ⟨ss, hperm, htm, -⟩ := C20_traces_keep_their_offsets a tm offs hf
  rcases hs : a.sensors with _ | ⟨s0, rest⟩
  · simp [hf, hs, bind, Except.bind] at hrec
  simp only [hf, hs, bind, Except.bind, pure, Except.pure, Except.ok.injEq] at hrec
  subst hrec
  intro u hu
  simp only [htm] at hu
  obtain ⟨s, hs', rfl⟩ := List.mem_map.1 hu
  exact hfft s (hperm.mem_iff.1 hs')

/-- The phase-shift power of an array after a change of the samples which multiplies all spectra by a common factor. -/
theorem phaseShift_mapAmp (g : List ℚ → List ℚ) (hg : ∀ u, (g u).length = u.length) (a : Arr) (c : ℕ → ℂ)
    (hc : ∀ k, c k ≠ 0) (hfft : ∀ s ∈ a.sensors, ∀ k, fftBin (g s.ts.amp) k = c k * fftBin s.ts.amp k) (set : Settings) :
    Builtin.phaseShift (mapAmp g a) set = Builtin.phaseShift a set := by
  unfold Builtin.phaseShift
  rcases Builtin.velocities set with e | vels
  · rfl
  rw [record_mapAmp g hg]
  rcases hrec : Record.ofArray a with e | r
  · rfl
  have htm := record_fft hrec hfft
  simp only [Except.map, bind, Except.bind, WT.phaseShift, Record.keepIds]
  rcases WT.keepIds (binFrequencies r.nsamples r.step) set.fmin set.fmax r.multiple with e | ids
  · rfl
  have : ∀ k v f, phasePower (r.offsets.map fun (x : ℚ) => (x : ℝ)) ((r.tm.map g).map fun u => fftBin u k) v f =
      phasePower (r.offsets.map fun (x : ℚ) => (x : ℝ)) (r.tm.map fun u => fftBin u k) v f := by
    intro k v f
    rw [← phasePower_scale (c k) (hc k) _ (r.tm.map fun u => fftBin u k)]
    congr 1
    rw [List.map_map, List.map_map]
    exact List.map_congr_left fun u hu => htm u hu k
  simp only [this]

/-- The beamforming power of an array after such a change. -/
theorem fdbf_mapAmp (hankel : ℝ → ℂ) (g : List ℚ → List ℚ) (hg : ∀ u, (g u).length = u.length) (a : Arr) (c : ℕ → ℂ)
    (hc : ∀ k, c k ≠ 0) (hfft : ∀ s ∈ a.sensors, ∀ k, fftBin (g s.ts.amp) k = c k * fftBin s.ts.amp k) (F : ℝ)
    (set : Settings) (hF : ∀ k, beamFactor ((Builtin.specific set.fdbf).get "weighting") (c k) = F) :
    Builtin.fdbf hankel (mapAmp g a) set = (Builtin.fdbf hankel a set).map fun t =>
      { t with power := t.power.map fun row => row.map fun p => (F : ℂ) * p } := by
  unfold Builtin.fdbf
  rcases Builtin.velocities set with e | vels
  · rfl
  rw [record_mapAmp g hg]
  rcases hrec : Record.ofArray a with e | r
  · rfl
  have htm := record_fft hrec hfft
  simp only [Except.map, bind, Except.bind, WT.fdbf, Record.keepIds]
  rcases WT.keepIds (binFrequencies r.nsamples r.step) set.fmin set.fmax r.multiple with e | ids
  · rfl
  have hz : ∀ k, (fun i => fftBin ((r.tm.map g).getD i []) k) = fun i => c k * fftBin (r.tm.getD i []) k := by
    intro k
    funext i
    rw [List.getD_eq_getElem?_getD, List.getD_eq_getElem?_getD, List.getElem?_map]
    rcases h : r.tm[i]? with _ | u
    · simp [fftBin]
    · exact htm u (List.mem_of_getElem? h) k
  have : ∀ k v f, fdbfPower hankel ((Builtin.specific set.fdbf).get "weighting")
      ((Builtin.specific set.fdbf).get "steering") (r.tm.map g).length (fun i => ((r.offsets.getD i 0 : ℚ) : ℝ))
      [fun i => fftBin ((r.tm.map g).getD i []) k] v f =
      F * fdbfPower hankel ((Builtin.specific set.fdbf).get "weighting") ((Builtin.specific set.fdbf).get "steering")
        r.tm.length (fun i => ((r.offsets.getD i 0 : ℚ) : ℝ)) [fun i => fftBin (r.tm.getD i []) k] v f := by
    intro k v f
    rw [hz, fdbfPower_scale _ _ _ _ _ _ _ (hc k), hF, List.length_map]
  simp only [this, pure, Except.pure, List.map_map, Function.comp_def]

/-- **C119** (gain).  Multiplying all records by a common factor, of either sign, changes nothing of the phase-shift
transform. -/
theorem C119_gain_phase_shift (a : Arr) (q : ℚ) (hq : q ≠ 0) (set : Settings) :
    Builtin.phaseShift (amplified q a) set = Builtin.phaseShift a set :=
  phaseShift_mapAmp (fun u => u.map fun x => q * x) (by simp) a (fun _ => (q : ℂ)) (fun _ => by exact_mod_cast hq)
    (fun s _ k => fftBin_gain q s.ts.amp k) set

/-- **C119** (gain).  ... and multiplies all powers of the beamformer by the square of the factor; with
`weighting="invamp"` by nothing. -/
theorem C119_gain_beamforming (hankel : ℝ → ℂ) (a : Arr) (q : ℚ) (hq : q ≠ 0) (set : Settings) :
    Builtin.fdbf hankel (amplified q a) set = (Builtin.fdbf hankel a set).map fun t =>
      { t with power := t.power.map fun row => row.map fun p =>
          (if (Builtin.specific set.fdbf).get "weighting" = some "invamp" then 1 else (q : ℂ) ^ 2) * p } := by
  have h := fdbf_mapAmp hankel (fun u => u.map fun x => q * x) (by simp) a (fun _ => (q : ℂ))
    (fun _ => by exact_mod_cast hq) (fun s _ k => fftBin_gain q s.ts.amp k) _ set (fun _ => rfl)
  have e : ((beamFactor ((Builtin.specific set.fdbf).get "weighting") (q : ℂ) : ℝ) : ℂ) =
      if (Builtin.specific set.fdbf).get "weighting" = some "invamp" then 1 else (q : ℂ) ^ 2 := by
    unfold beamFactor
    split_ifs
    · simp
    · have : ‖(q : ℂ)‖ = |(q : ℝ)| := by
        rw [show (q : ℂ) = ((q : ℝ) : ℂ) by simp, Complex.norm_real, Real.norm_eq_abs]
      rw [this, sq_abs]
      simp
  rw [e] at h
  exact h

theorem startedEarlier_eq {d : ℕ} {a b : Arr} (h : StartedEarlier d a b) :
    b = mapAmp (fun u => u.rotate (u.length - d)) a := by
  obtain ⟨hsrc, hall⟩ := h
  have key : ∀ l m : List Sensor, List.Forall₂ (fun s t => ∃ u, s.ts.amp = u ++ List.replicate d 0 ∧
      t = { s with ts := { s.ts with amp := List.replicate d 0 ++ u } }) l m →
      m = l.map fun s => { s with ts := { s.ts with amp := s.ts.amp.rotate (s.ts.amp.length - d) } } := by
    intro l m h
    induction h with
    | nil => rfl
    | @cons s t ss ts hst _ ih =>
      obtain ⟨u, hu, rfl⟩ := hst
      rw [List.map_cons, ← ih, hu]
      congr 3
      simp
  have := key _ _ hall
  cases a; cases b
  simp only [mapAmp] at this hsrc ⊢
  rw [this, hsrc]

theorem startedEarlier_fft {a : Arr} (hc : Consistent a) (d : ℕ) : ∃ c : ℕ → ℂ, (∀ k, ‖c k‖ = 1) ∧
    ∀ s ∈ a.sensors, ∀ k, fftBin (s.ts.amp.rotate (s.ts.amp.length - d)) k = c k * fftBin s.ts.amp k := by
  rcases hs : a.sensors with _ | ⟨s0, rest⟩
  · exact absurd hs hc.1
  have hs0 : s0 ∈ a.sensors := by simp [hs]
  have hn : ∀ k, ‖omega s0.ts.amp.length k ^ (s0.ts.amp.length - d)‖ = 1 := by
    intro k
    rw [← omega_pow]
    exact norm_exp_neg_real_I _
  refine ⟨fun k => (omega s0.ts.amp.length k ^ (s0.ts.amp.length - d))⁻¹, fun k => by rw [norm_inv, hn, inv_one], ?_⟩
  rw [← hs]
  intro s hs' k
  have hl : s.ts.amp.length = s0.ts.amp.length := (hc.2.2 s hs' s0 hs0).2.2.2
  have h := fftBin_rotate s.ts.amp k (s.ts.amp.length - d)
  rw [hl] at h ⊢
  have hne : omega s0.ts.amp.length k ^ (s0.ts.amp.length - d) ≠ 0 := norm_ne_zero_iff.1 (by rw [hn]; exact one_ne_zero)
  rw [← h, inv_mul_cancel_left₀ hne]

/-- **C119** (trigger).  Recording the same arrivals later, by a common number of samples, changes nothing of the
phase-shift transform and of the beamformer: they do not depend on when the recording was triggered. -/
theorem C119_common_delay (hankel : ℝ → ℂ) (a b : Arr) (d : ℕ) (hc : Consistent a) (h : StartedEarlier d a b)
    (set : Settings) :
    Builtin.phaseShift b set = Builtin.phaseShift a set ∧ Builtin.fdbf hankel b set = Builtin.fdbf hankel a set := by
  obtain ⟨c, hn, hfft⟩ := startedEarlier_fft hc d
  have hc0 : ∀ k, c k ≠ 0 := fun k => norm_ne_zero_iff.1 (by rw [hn]; exact one_ne_zero)
  rw [startedEarlier_eq h]
  have hl : ∀ u : List ℚ, (u.rotate (u.length - d)).length = u.length := fun u => List.length_rotate ..
  refine ⟨phaseShift_mapAmp (fun u => u.rotate (u.length - d)) hl a c hc0 hfft set, ?_⟩
  have h1 : ∀ k, beamFactor ((Builtin.specific set.fdbf).get "weighting") (c k) = 1 := by
    intro k
    unfold beamFactor
    rw [hn k, one_pow, ite_self]
  rw [fdbf_mapAmp hankel (fun u => u.rotate (u.length - d)) hl a c hc0 hfft 1 set h1]
  rcases Builtin.fdbf hankel a set with e | t
  · rfl
  · simp [Except.map]

/-- **C119** (side).  An array and its source seen in a mirror give the same transforms: a shot off the far end is treated
as one off the near end. -/
theorem C119_mirror (hankel : ℝ → ℂ) (a : Arr) (c : ℚ) (hc : Consistent a)
    (hmult : ∀ s ∈ a.sensors, ∀ t ∈ a.sensors, s.ts.multiple = t.ts.multiple)
    (hout : (∀ s ∈ a.sensors, a.source.x < s.x) ∨ (∀ s ∈ a.sensors, s.x < a.source.x)) (set : Settings) :
    ∃ b, Arr.init (a.sensors.map (mirrorS c)) (mirrorSrc c a.source) = .ok b ∧
      Builtin.phaseShift b set = Builtin.phaseShift a set ∧ Builtin.fdbf hankel b set = Builtin.fdbf hankel a set := by
  obtain ⟨b, hb, hflip⟩ := C21_mirror_symmetry a c hc hout
  have hperm := ((C16_construction_iff (a.sensors.map (mirrorS c)) (mirrorSrc c a.source)
    (by simpa using hc.1)).2.1 b hb).1
  have hmem : ∀ s ∈ b.sensors, ∃ s' ∈ a.sensors, s = mirrorS c s' := by
    intro s hs
    obtain ⟨s', hs', e⟩ := List.mem_map.1 (hperm.mem_iff.1 hs)
    exact ⟨s', hs', e.symm⟩
  have hrec : Record.ofArray b = Record.ofArray a := by
    unfold Record.ofArray
    rw [hflip]
    rcases hsa : a.sensors with _ | ⟨s, rest⟩
    · exact absurd hsa hc.1
    rcases hsb : b.sensors with _ | ⟨t, rest'⟩
    · have := hperm.length_eq
      simp [hsa, hsb] at this
    obtain ⟨t', ht', rfl⟩ := hmem t (by simp [hsb])
    have hm := hc.2.2 t' ht' s (by simp [hsa])
    have h3 := hmult t' ht' s (by simp [hsa])
    simp [mirrorS, ATS.nsamples, ATS.dfInternal, hm.1, hm.2.2.2, h3]
  exact ⟨b, hb, by unfold Builtin.phaseShift; rw [hrec], by unfold Builtin.fdbf; rw [hrec]⟩

/-! ## Examples -/

/-- The padded record of three receivers, triggered 5 samples earlier. -/
example : ∃ b, StartedEarlier 5 pulsePadded b ∧ b ≠ pulsePadded := by
  refine ⟨⟨[⟨⟨[0, 0, 0, 0, 0, 0, 2, 0, 0, 0, 0, 0, 0, 0, 0, 0], 1 / 1000, 1, 0, 1⟩, 2, 0, 0⟩,
    ⟨⟨[0, 0, 0, 0, 0, 0, 0, 3, 0, 0, 0, 0, 0, 0, 0, 0], 1 / 1000, 1, 0, 1⟩, 4, 0, 0⟩,
    ⟨⟨[0, 0, 0, 0, 0, 0, 0, 0, 0, 7, 0, 0, 0, 0, 0, 0], 1 / 1000, 1, 0, 1⟩, 8, 0, 0⟩], ⟨0, 0, 0⟩⟩, ⟨rfl, ?_⟩, by decide +kernel⟩
  refine .cons ⟨[0, 2, 0, 0, 0, 0, 0, 0, 0, 0, 0], by decide +kernel, by decide +kernel⟩
    (.cons ⟨[0, 0, 3, 0, 0, 0, 0, 0, 0, 0, 0], by decide +kernel, by decide +kernel⟩
      (.cons ⟨[0, 0, 0, 0, 7, 0, 0, 0, 0, 0, 0], by decide +kernel, by decide +kernel⟩ .nil))

/-- It can be mirrored, and reversing its polarity changes it. -/
example : (∀ s ∈ pulsePadded.sensors, ∀ t ∈ pulsePadded.sensors, s.ts.multiple = t.ts.multiple) ∧
    (∀ s ∈ pulsePadded.sensors, pulsePadded.source.x < s.x) ∧ amplified (-1) pulsePadded ≠ pulsePadded := by
  decide +kernel

end Verif.Props
