import Verif.Props.Lengths

/-!
# C146: another unit of time
-/

open Complex

namespace Verif.Props
open Verif WT Spec Workflow

variable {k : ℚ}

theorem argminFrom_slowed (hk : 0 < k) : ∀ (l : List ℚ) (i b : ℕ) (v : ℚ),
    argminFrom (l.map fun (x : ℚ) => k * x) i b (k * v) = argminFrom l i b v
  | [], _, _, _ => rfl
  | x :: xs, i, b, v => by
    simp only [List.map_cons, argminFrom, mul_lt_mul_iff_right₀ hk]
    split_ifs
    · exact argminFrom_slowed hk xs _ _ _
    · exact argminFrom_slowed hk xs _ _ _

theorem argmin_slowed (hk : 0 < k) (l : List ℚ) : argmin (l.map fun (x : ℚ) => k * x) = argmin l := by
  cases l with
  | nil => rfl
  | cons x xs => simp only [List.map_cons, argmin, argminFrom_slowed hk]

theorem nearest_slowed (hk : 0 < k) (l : List ℚ) (t : ℚ) :
    argmin ((l.map fun (x : ℚ) => k * x).map fun (x : ℚ) => |x - k * t|) = argmin (l.map fun (x : ℚ) => |x - t|) := by
  rw [← argmin_slowed hk (l.map fun (x : ℚ) => |x - t|)]
  simp only [List.map_map, Function.comp_def, ← mul_sub, abs_mul, abs_of_pos hk]

theorem time_slowed (r : ATS) : (slowRecord k r).time = r.time.map fun (t : ℚ) => k * t := by
  unfold ATS.time slowRecord ATS.nsamples
  simp only [List.map_map, Function.comp_def]
  refine List.map_congr_left fun i _ => ?_
  ring

/-! ## Records -/

/-- **C146** (trim).  With all times multiplied by `k`, `trim` keeps the same samples, and refuses in the same cases. -/
theorem C146_trim (hk : 0 < k) (r : ATS) (start stop : ℚ) :
    (slowRecord k r).trim (k * start) (k * stop) = (slowRecord k (r.trim start stop).1, (r.trim start stop).2) := by
  have h : (slowRecord k r).trimBase (k * start) (k * stop) =
      (slowRecord k (r.trimBase start stop).1, (r.trimBase start stop).2) := by
    unfold ATS.trimBase
    rw [time_slowed, nearest_slowed hk, nearest_slowed hk, List.head?_map, List.getLast?_map]
    rcases argmin (r.time.map fun t => |t - start|) with _ | i
    · rfl
    rcases argmin (r.time.map fun t => |t - stop|) with _ | j
    · rfl
    rcases r.time.head? with _ | t0
    · rfl
    rcases r.time.getLast? with _ | t1
    · rfl
    simp only [Option.map_some, gt_iff_lt, mul_lt_mul_iff_right₀ hk]
    split_ifs <;> rfl
  unfold ATS.trim
  rw [h]
  generalize r.trimBase start stop = o
  rcases o with ⟨r', e | ⟨⟩⟩ <;> rfl

/-- **C146** (zero padding).  … `zero_pad` adds as many zeros for a frequency step divided by `k`. -/
theorem C146_zero_pad (hk : 0 < k) (r : ATS) (df : ℚ) :
    (slowRecord k r).zeroPad (df / k) = (slowRecord k (r.zeroPad df).1, (r.zeroPad df).2) := by
  have ht : ATS.targetSamples (df / k) (k * r.dt) = ATS.targetSamples df r.dt := by
    unfold ATS.targetSamples
    rw [show df / k * (k * r.dt) = df * r.dt by field_simp]
  have hdf : df / k ≤ 0 ↔ df ≤ 0 := by rw [div_le_iff₀ hk, zero_mul]
  have hG : ∀ o : Outcome ATS, o = r.zeroPad df → (slowRecord k r).zeroPad (df / k) = (slowRecord k o.1, o.2) := by
    intro o ho
    unfold ATS.zeroPad at ho ⊢
    have hd : (slowRecord k r).dt = k * r.dt ∧ (slowRecord k r).nsamples = r.nsamples ∧ (slowRecord k r).amp = r.amp :=
      ⟨rfl, rfl, rfl⟩
    simp only [hdf, hd.1, hd.2.1, hd.2.2, ht]
    dsimp only at ho
    split_ifs at ho ⊢ <;> subst ho <;> rfl
  exact hG _ rfl

theorem isSimilar_slowed (hk : 0 < k) (r t : ATS) (e : Excl) :
    (slowRecord k r).isSimilar (slowRecord k t) e = r.isSimilar t e := by
  unfold ATS.isSimilar slowRecord ATS.nsamples
  simp only [mul_right_inj' hk.ne']

/-- **C146** (stacking).  … and records are stacked alike. -/
theorem C146_stack (hk : 0 < k) (r t : ATS) :
    (slowRecord k r).stackAppend (slowRecord k t) = (slowRecord k (r.stackAppend t).1, (r.stackAppend t).2) := by
  unfold ATS.stackAppend
  rw [isSimilar_slowed hk]
  split_ifs
  · rfl
  · rfl

/-! ## Arrays -/

theorem forSensors_slowed (f g : ATS → Outcome ATS) (h : ∀ r, g (slowRecord k r) = (slowRecord k (f r).1, (f r).2)) :
    ∀ ss : List Sensor, Arr.forSensors g (ss.map fun s => { s with ts := slowRecord k s.ts }) =
      ((Arr.forSensors f ss).1.map (fun s => { s with ts := slowRecord k s.ts }), (Arr.forSensors f ss).2)
  | [] => rfl
  | s :: rest => by
    have ih := forSensors_slowed f g h rest
    simp only [List.map_cons, Arr.forSensors, h]
    rcases f s.ts with ⟨r, e | ⟨⟩⟩
    · rfl
    · rw [ih]
      rfl

/-- **C146** (arrays, trim). -/
theorem C146_array_trim (hk : 0 < k) (a : Arr) (start stop : ℚ) :
    (slowed k a).trim (k * start) (k * stop) = (slowed k (a.trim start stop).1, (a.trim start stop).2) := by
  unfold Arr.trim slowed
  rw [forSensors_slowed (fun r => r.trim start stop) _ (fun r => C146_trim hk r start stop)]

/-- **C146** (arrays, zero padding). -/
theorem C146_array_zero_pad (hk : 0 < k) (a : Arr) (df : ℚ) :
    (slowed k a).zeroPad (df / k) = (slowed k (a.zeroPad df).1, (a.zeroPad df).2) := by
  unfold Arr.zeroPad slowed
  rw [forSensors_slowed (fun r => r.zeroPad df) _ (fun r => C146_zero_pad hk r df)]

theorem position_slowed (a : Arr) : (slowed k a).position = a.position := by
  simp [Arr.position, slowed, Function.comp_def]

theorem lineIndices_slowed (hk : 0 < k) (l : Arr.Line) (dt d : ℚ) (ps : List ℚ) :
    Arr.lineIndices (laterLine k l) (k * dt) d ps = Arr.lineIndices l dt d ps := by
  unfold Arr.lineIndices laterLine
  by_cases h : l.x2 - l.x1 = 0
  · simp only [h, if_true]
  · simp only [h, if_false]
    have e : ∀ p : ℚ, (k * l.t1 + (k * l.t2 - k * l.t1) / (l.x2 - l.x1) * (p - l.x1)) / (k * dt) =
        (l.t1 + (l.t2 - l.t1) / (l.x2 - l.x1) * (p - l.x1)) / dt := by
      intro p
      rw [show k * l.t1 + (k * l.t2 - k * l.t1) / (l.x2 - l.x1) * (p - l.x1) =
        k * (l.t1 + (l.t2 - l.t1) / (l.x2 - l.x1) * (p - l.x1)) by ring]
      exact mul_div_mul_left _ _ hk.ne'
    simp only [e]

theorem muteLoop_slowed (tukey : ℕ → List ℚ) (n : ℕ) : ∀ (ss : List Sensor) (idx : List (ℤ × ℤ)),
    Arr.muteLoop tukey n (ss.map fun s => { s with ts := slowRecord k s.ts }) idx =
      ((Arr.muteLoop tukey n ss idx).1.map (fun s => { s with ts := slowRecord k s.ts }), (Arr.muteLoop tukey n ss idx).2)
  | [], _ => rfl
  | s :: rest, [] => rfl
  | s :: rest, (i, j) :: idx => by
    have ih := muteLoop_slowed tukey n rest idx
    simp only [List.map_cons, Arr.muteLoop, ih]
    by_cases h : j - i < 0
    · rw [if_pos h, if_pos h]; rfl
    · rw [if_neg h, if_neg h]
      rcases Arr.assignSlice n i j (tukey (j - i).toNat) with e | w
      · rfl
      · rfl

/-- **C146** (muting).  … `mute` silences the same samples between lines whose times are multiplied by `k`. -/
theorem C146_mute (hk : 0 < k) (tukey : ℕ → List ℚ) (a : Arr) (start stop : Option Arr.Line) :
    (slowed k a).mute tukey (start.map (laterLine k)) (stop.map (laterLine k)) =
      (slowed k (a.mute tukey start stop).1, (a.mute tukey start stop).2) := by
  unfold Arr.mute
  rw [position_slowed]
  rcases hs : a.sensors with _ | ⟨s0, rest⟩
  · simp [slowed, hs]
  have hs' : (slowed k a).sensors = { s0 with ts := slowRecord k s0.ts } ::
      rest.map fun s => { s with ts := slowRecord k s.ts } := by simp [slowed, hs]
  have hd : |k * s0.ts.delay / (k * s0.ts.dt)| = |s0.ts.delay / s0.ts.dt| := by rw [mul_div_mul_left _ _ hk.ne']
  have hm := fun idx => muteLoop_slowed (k := k) tukey s0.ts.nsamples (s0 :: rest) idx
  have hr : (slowRecord k s0.ts).dt = k * s0.ts.dt ∧ (slowRecord k s0.ts).delay = k * s0.ts.delay ∧
      (slowRecord k s0.ts).nsamples = s0.ts.nsamples := ⟨rfl, rfl, rfl⟩
  simp only [List.map_cons] at hm
  rw [hs']
  simp only [hr.1, hr.2.1, hr.2.2, hd, hm]
  rcases start with _ | l <;> rcases stop with _ | l' <;>
    simp only [Option.map_some, Option.map_none, lineIndices_slowed hk]
  · rfl
  · rcases Arr.lineIndices l' s0.ts.dt |s0.ts.delay / s0.ts.dt| a.position with e | j <;> rfl
  · rcases Arr.lineIndices l s0.ts.dt |s0.ts.delay / s0.ts.dt| a.position with e | j <;> rfl
  · rcases Arr.lineIndices l s0.ts.dt |s0.ts.delay / s0.ts.dt| a.position with e | j
    · rfl
    rcases Arr.lineIndices l' s0.ts.dt |s0.ts.delay / s0.ts.dt| a.position with e | j <;> rfl

theorem amps_slowed (a : Arr) (detrend : List ℚ → List ℚ) (n : Arr.Normalize) :
    (slowed k a).timeseriesmatrixFl detrend n = a.timeseriesmatrixFl detrend n := by
  simp only [Arr.timeseriesmatrixFl, slowed, slowRecord, List.map_map, Function.comp_def]

theorem pickLoop_slowed (threshold : ℚ) (time : List ℚ) : ∀ tm : List (List Fl),
    Arr.pickLoop threshold (time.map fun (t : ℚ) => k * t) tm =
      (Arr.pickLoop threshold time tm).map fun ts => ts.map fun (t : ℚ) => k * t
  | [] => rfl
  | trace :: rest => by
    simp only [Arr.pickLoop, pickLoop_slowed threshold time rest]
    rcases Arr.firstExceeding threshold trace with e | i
    · rfl
    simp only [List.getElem?_map]
    rcases time[i]? with _ | t
    · rfl
    rcases Arr.pickLoop threshold time rest with e | ts
    · rfl
    rfl

/-- **C146** (first arrivals).  … the first arrivals are picked at times multiplied by `k`. -/
theorem C146_first_arrivals (a : Arr) (detrend : List ℚ → List ℚ) (threshold : ℚ) :
    (slowed k a).pickOnThreshold detrend threshold =
      (a.pickOnThreshold detrend threshold).map fun p => (p.1, p.2.map fun (t : ℚ) => k * t) := by
  unfold Arr.pickOnThreshold
  rw [position_slowed, amps_slowed]
  rcases hs : a.sensors with _ | ⟨s0, rest⟩
  · simp [slowed, hs, Except.map]
  have hs' : (slowed k a).sensors = { s0 with ts := slowRecord k s0.ts } ::
      rest.map fun s => { s with ts := slowRecord k s.ts } := by simp [slowed, hs]
  simp only [hs', time_slowed, pickLoop_slowed]
  rcases Arr.pickLoop threshold s0.ts.time (a.timeseriesmatrixFl detrend .each) with e | ts
  · rfl
  · rfl

/-! ## Images -/

theorem record_slowed (a : Arr) : (slowed k a).flippedTseriesAndOffsets = a.flippedTseriesAndOffsets := by
  unfold Arr.flippedTseriesAndOffsets Arr.flipRequired Arr.offsets Arr.timeseriesmatrix
  rw [position_slowed]
  simp [slowed, slowRecord, Function.comp_def]

theorem dfInternal_slowed (r : ATS) : (slowRecord k r).dfInternal = r.dfInternal / k := by
  unfold ATS.dfInternal slowRecord ATS.nsamples
  rw [div_div]
  congr 1
  ring

theorem ofArray_slowed (a : Arr) :
    Record.ofArray (slowed k a) = (Record.ofArray a).map fun r => { r with step := r.step / k } := by
  unfold Record.ofArray
  rw [record_slowed]
  rcases a.flippedTseriesAndOffsets with e | ⟨tm, offs⟩
  · rfl
  · rcases hs : a.sensors with _ | ⟨s, rest⟩
    · simp [slowed, hs, Except.map, bind, Except.bind]
    · simp only [slowed, hs, List.map_cons, dfInternal_slowed, Except.map, bind, Except.bind, pure, Except.pure]
      rfl

theorem binFrequencies_slowed (n : ℕ) (step : ℚ) :
    binFrequencies n (step / k) = (binFrequencies n step).map fun (f : ℚ) => k⁻¹ * f := by
  unfold binFrequencies
  simp only [List.map_map, Function.comp_def]
  refine List.map_congr_left fun i _ => ?_
  rw [div_eq_mul_inv]
  ring

theorem keepIds_slowed (hk : 0 < k) (n : ℕ) (step fmin fmax : ℚ) (m : ℕ) :
    WT.keepIds (binFrequencies n (step / k)) (fmin / k) (fmax / k) m = WT.keepIds (binFrequencies n step) fmin fmax m := by
  unfold WT.keepIds
  rw [binFrequencies_slowed, div_eq_inv_mul, div_eq_inv_mul, nearest_slowed (inv_pos.2 hk), nearest_slowed (inv_pos.2 hk)]

theorem getD_slowed (l : List ℚ) (c : ℚ) (i : ℕ) : (l.map fun (f : ℚ) => c * f).getD i 0 = c * l.getD i 0 := by
  simp only [List.getD_eq_getElem?_getD, List.getElem?_map]
  cases l[i]? <;> simp

theorem velocities_slower (hk : 0 < k) (set : Settings) :
    Builtin.velocities (slower k set) = (Builtin.velocities set).map fun v => v.map fun (x : ℝ) => ((k⁻¹ : ℚ) : ℝ) * x := by
  rw [← velocities_faster (inv_pos.2 hk)]
  unfold Builtin.velocities slower faster
  simp only [div_eq_inv_mul]

/-- A dispersion image with frequencies and velocities divided by `k`. -/
noncomputable def slowedImage (k : ℚ) (t : Transform) : Transform :=
  { t with
    frequencies := t.frequencies.map fun (f : ℚ) => k⁻¹ * f
    velocities := t.velocities.map fun (v : ℝ) => ((k⁻¹ : ℚ) : ℝ) * v }

theorem phasePower_slowed {c : ℝ} (hc : c ≠ 0) (offsets : List ℝ) (spectra : List ℂ) (v f : ℝ) :
    phasePower offsets spectra (c * v) (c * f) = phasePower offsets spectra v f := by
  unfold phasePower
  congr 3
  funext x U
  unfold phaseInner
  have e : 2 * Real.pi / (c * v) * x * (c * f) = 2 * Real.pi / v * x * f := by
    by_cases hv : v = 0
    · simp [hv]
    · field_simp
  rw [e]

/-- **C146** (phase shift).  With all times multiplied by `k`, and frequencies and velocities divided by it, the image is
the same. -/
theorem C146_phase_shift (hk : 0 < k) (a : Arr) (set : Settings) :
    Builtin.phaseShift (slowed k a) (slower k set) = (Builtin.phaseShift a set).map (slowedImage k) := by
  have hc : ((k⁻¹ : ℚ) : ℝ) ≠ 0 := by exact_mod_cast (inv_pos.2 hk).ne'
  unfold Builtin.phaseShift
  rw [velocities_slower hk, ofArray_slowed]
  rcases Builtin.velocities set with e | vels
  · rfl
  rcases Record.ofArray a with e | r
  · rfl
  simp only [Except.map, bind, Except.bind, WT.phaseShift, Record.keepIds]
  have hs : (slower k set).fmin = set.fmin / k ∧ (slower k set).fmax = set.fmax / k := ⟨rfl, rfl⟩
  rw [hs.1, hs.2, keepIds_slowed hk]
  rcases WT.keepIds (binFrequencies r.nsamples r.step) set.fmin set.fmax r.multiple with e | ids
  · rfl
  simp only [pure, Except.pure, slowedImage, binFrequencies_slowed, getD_slowed, List.map_map, Function.comp_def,
    Rat.cast_mul, phasePower_slowed hc]

theorem fdbfPower_slowed (hankel : ℝ → ℂ) (weighting steering : Option String) (n : ℕ) {c : ℝ} (hc : c ≠ 0) (x : ℕ → ℝ)
    (blocks : List (ℕ → ℂ)) (v f : ℝ) :
    fdbfPower hankel weighting steering n x blocks (c * v) (c * f) = fdbfPower hankel weighting steering n x blocks v f := by
  unfold fdbfPower
  have e : ∀ y : ℝ, 2 * Real.pi * (c * f) / (c * v) * y = 2 * Real.pi * f / v * y := by
    intro y
    by_cases hv : v = 0
    · simp [hv]
    · field_simp
  simp only [e]

/-- **C146** (beamforming).  … and the same for the beamformer. -/
theorem C146_beamforming (hankel : ℝ → ℂ) (hk : 0 < k) (a : Arr) (set : Settings) :
    Builtin.fdbf hankel (slowed k a) (slower k set) = (Builtin.fdbf hankel a set).map (slowedImage k) := by
  have hc : ((k⁻¹ : ℚ) : ℝ) ≠ 0 := by exact_mod_cast (inv_pos.2 hk).ne'
  unfold Builtin.fdbf
  rw [velocities_slower hk, ofArray_slowed]
  rcases Builtin.velocities set with e | vels
  · rfl
  rcases Record.ofArray a with e | r
  · rfl
  simp only [Except.map, bind, Except.bind, WT.fdbf, Record.keepIds]
  have hs : (slower k set).fmin = set.fmin / k ∧ (slower k set).fmax = set.fmax / k ∧ (slower k set).fdbf = set.fdbf :=
    ⟨rfl, rfl, rfl⟩
  rw [hs.1, hs.2.1, hs.2.2, keepIds_slowed hk]
  rcases WT.keepIds (binFrequencies r.nsamples r.step) set.fmin set.fmax r.multiple with e | ids
  · rfl
  simp only [pure, Except.pure, slowedImage, binFrequencies_slowed, getD_slowed, List.map_map, Function.comp_def,
    Rat.cast_mul, fdbfPower_slowed hankel _ _ _ hc]

/-! ## Slant stack -/

theorem lag_slowed (hk : 0 < k) (p dt v : ℚ) : p / (k * dt) / (k⁻¹ * v) = p / dt / v := by
  by_cases hd : dt = 0
  · simp [hd]
  by_cases hv : v = 0
  · simp [hv]
  field_simp

theorem ntaus_slowed (hk : 0 < k) (n : ℕ) (pos vels : List ℚ) (dt : ℚ) :
    ntaus n pos (vels.map fun (v : ℚ) => k⁻¹ * v) (k * dt) = ntaus n pos vels dt := by
  unfold ntaus
  have hv : ((vels.map fun (v : ℚ) => k⁻¹ * v).map fun (v : ℚ) => 1 / v) =
      (vels.map fun (v : ℚ) => 1 / v).map fun (x : ℚ) => k * x := by
    simp only [List.map_map, Function.comp_def]
    refine List.map_congr_left fun v _ => ?_
    rw [one_div, one_div, mul_inv, inv_inv]
  rw [hv, maxList_enlarged hk]
  rcases Arr.maxList (vels.map fun (v : ℚ) => 1 / v) with _ | q
  · simp
  simp only [Option.map_some, Option.getD_some]
  rw [show (Arr.maxList pos).getD 0 * (k * q) = k * ((Arr.maxList pos).getD 0 * q) by ring, mul_div_mul_left _ _ hk.ne']

theorem slantRow_slowed (hk : 0 < k) (tm : List (List ℚ)) (pos : List ℚ) (dt : ℚ) (nt : ℕ) (carry : Carry) (v : ℚ) :
    slantRow tm pos (k * dt) nt carry (k⁻¹ * v) = slantRow tm pos dt nt carry v := by
  unfold slantRow
  have hu : ∀ p c, updateCols p (k * dt) (k⁻¹ * v) c = updateCols p dt v c := by
    intro p c
    unfold updateCols
    rw [lag_slowed hk]
  simp only [hu, lag_slowed hk]

theorem slantRows_slowed (hk : 0 < k) (tm : List (List ℚ)) (pos : List ℚ) (dt : ℚ) (nt : ℕ) (vels : List ℚ) (carry : Carry) :
    slantRows tm pos (k * dt) nt carry (vels.map fun (v : ℚ) => k⁻¹ * v) = slantRows tm pos dt nt carry vels := by
  induction vels generalizing carry with
  | nil => rfl
  | cons v vs ih =>
    rw [List.map_cons, slantRows, slantRows, slantRow_slowed hk]
    generalize slantRow tm pos dt nt carry v = o
    rcases o with e | ⟨carry', row⟩
    · simp only [bind, Except.bind]
    · simp only [bind, Except.bind, ih carry']

theorem slantStack_slowed (hk : 0 < k) (tm : List (List ℚ)) (offsets : List ℚ) (dt : ℚ) (vels : List ℚ) :
    WT.slantStack tm offsets (k * dt) (vels.map fun (v : ℚ) => k⁻¹ * v) = WT.slantStack tm offsets dt vels := by
  unfold WT.slantStack
  rcases Arr.minList offsets with _ | m
  · cases vels <;> rfl
  rcases vels with _ | ⟨v, vs⟩
  · rfl
  have hn := ntaus_slowed hk (tm.headD []).length (offsets.map fun (x : ℚ) => x - m) (v :: vs) dt
  have hr := fun nt carry => slantRows_slowed hk tm (offsets.map fun (x : ℚ) => x - m) dt nt (v :: vs) carry
  simp only [List.map_cons] at hn hr
  simp only [List.map_cons, hn, hr]

/-- **C146** (slant stack).  … and the same for the slant stack.  With logarithmically spaced velocities this asks that
`np.geomspace` divides its values by `k` when both limits are (`geom`, not specified). -/
theorem C146_slant_stack (geom : ℚ → ℚ → ℕ → List ℚ) (hk : 0 < k) (a : Arr) (set : Settings)
    (hg : geom (set.vmin / k) (set.vmax / k) set.nvel.toNat = (geom set.vmin set.vmax set.nvel.toNat).map fun (v : ℚ) => v / k) :
    Builtin.slantStack geom (slowed k a) (slower k set) = (Builtin.slantStack geom a set).map (slowedImage k) := by
  have hv : Builtin.velocitiesQ geom (slower k set) =
      (Builtin.velocitiesQ geom set).map fun v => v.map fun (x : ℚ) => k⁻¹ * x := by
    rw [← velocitiesQ_faster geom (inv_pos.2 hk) set (by simpa only [div_eq_inv_mul] using hg)]
    unfold Builtin.velocitiesQ slower faster
    simp only [div_eq_inv_mul]
  unfold Builtin.slantStack slantStackOfArray
  rw [hv, record_slowed]
  rcases Builtin.velocitiesQ geom set with e | vels
  · rfl
  rcases a.flippedTseriesAndOffsets with e | ⟨tm, offs⟩
  · rfl
  rcases hs : a.sensors with _ | ⟨s, rest⟩
  · simp [slowed, hs, Except.map, bind, Except.bind]
  have hs' : (slowed k a).sensors = { s with ts := slowRecord k s.ts } ::
      rest.map fun s => { s with ts := slowRecord k s.ts } := by simp [slowed, hs]
  have hd : (slowRecord k s.ts).dt = k * s.ts.dt ∧ (slowRecord k s.ts).nsamples = s.ts.nsamples ∧
      (slowRecord k s.ts).multiple = s.ts.multiple := ⟨rfl, rfl, rfl⟩
  simp only [hs', Except.map, bind, Except.bind, hd.1, hd.2.1, hd.2.2, slantStack_slowed hk, dfInternal_slowed]
  rcases WT.slantStack tm offs s.ts.dt vels with e | stack
  · rfl
  have hf : (slower k set).fmin = set.fmin / k ∧ (slower k set).fmax = set.fmax / k := ⟨rfl, rfl⟩
  simp only [hf.1, hf.2, keepIds_slowed hk]
  rcases WT.keepIds (binFrequencies s.ts.nsamples s.ts.dfInternal) set.fmin set.fmax s.ts.multiple with e | ids
  · rfl
  simp only [pure, Except.pure, slowedImage, List.map_map, Function.comp_def, binFrequencies_slowed, getD_slowed, Rat.cast_mul]

/-! ## Picked velocities -/

theorem picked_slowed (t : Transform) (how : String) :
    Builtin.findPeakPower (slowedImage k t) how =
      (Builtin.findPeakPower t how).map fun vs => vs.map fun (v : ℝ) => ((k⁻¹ : ℚ) : ℝ) * v := by
  have h := C144_picked one_pos ((k⁻¹ : ℚ) : ℝ) t how
  rw [← h]
  unfold Builtin.findPeakPower slowedImage enlargedImage
  simp

/-- **C146**.  With times in another unit, and frequencies and trial velocities accordingly, every one of the transforms
gives the same image at the same frequencies and velocities in that unit, and the same velocities are picked. -/
theorem C146_dispersion_curve (hankel : ℝ → ℂ) (geom : ℚ → ℚ → ℕ → List ℚ) (hk : 0 < k) (a : Arr) (set : Settings)
    (hg : geom (set.vmin / k) (set.vmax / k) set.nvel.toNat = (geom set.vmin set.vmax set.nvel.toNat).map fun (v : ℚ) => v / k)
    (transform : Arr → Settings → Except PyErr Transform)
    (htr : transform = Builtin.phaseShift ∨ transform = Builtin.fdbf hankel ∨ transform = Builtin.slantStack geom)
    (t : Transform) (ht : transform a set = .ok t) :
    ∃ t', transform (slowed k a) (slower k set) = .ok t' ∧ t'.power = t.power ∧
      t'.frequencies = t.frequencies.map (fun (f : ℚ) => f / k) ∧ t'.velocities = t.velocities.map (fun (v : ℝ) => v / k) ∧
      ∀ how vs, Builtin.findPeakPower t how = .ok vs →
        Builtin.findPeakPower t' how = .ok (vs.map fun (v : ℝ) => v / k) := by
  have hv : (fun (v : ℝ) => ((k⁻¹ : ℚ) : ℝ) * v) = fun (v : ℝ) => v / k := by
    funext v
    rw [Rat.cast_inv, div_eq_inv_mul]
  have hf : (fun (f : ℚ) => k⁻¹ * f) = fun (f : ℚ) => f / k := by
    funext f
    rw [div_eq_inv_mul]
  have key : transform (slowed k a) (slower k set) = (transform a set).map (slowedImage k) →
      ∃ t', transform (slowed k a) (slower k set) = .ok t' ∧ t'.power = t.power ∧
        t'.frequencies = t.frequencies.map (fun (f : ℚ) => f / k) ∧ t'.velocities = t.velocities.map (fun (v : ℝ) => v / k) ∧
        ∀ how vs, Builtin.findPeakPower t how = .ok vs →
          Builtin.findPeakPower t' how = .ok (vs.map fun (v : ℝ) => v / k) := by
    intro h
    rw [ht] at h
    refine ⟨_, h, rfl, by rw [← hf]; rfl, by rw [← hv]; rfl, fun how vs hvs => ?_⟩
    rw [picked_slowed, hvs, hv]
    rfl
  rcases htr with rfl | rfl | rfl
  · exact key (C146_phase_shift hk a set)
  · exact key (C146_beamforming hankel hk a set)
  · exact key (C146_slant_stack geom hk a set hg)

/-- Seconds and milliseconds. -/
example : ((slowed 1000 pulsePadded).sensors.map fun s => s.ts.dt) = [1, 1, 1] ∧
    (∃ t, Builtin.phaseShift pulsePadded (pulseSet "phaseshift") = .ok t) ∧
    ∃ t', Builtin.phaseShift (slowed 1000 pulsePadded) (slower 1000 (pulseSet "phaseshift")) = .ok t' := by
  refine ⟨by decide +kernel, ?_⟩
  obtain ⟨t, ht⟩ : ∃ t, Builtin.phaseShift pulsePadded (pulseSet "phaseshift") = .ok t := by
    obtain ⟨t, ⟨T, hT, ht⟩, -⟩ := pulse_transform (tr := "phaseshift") (Or.inl rfl)
    cases hT
    exact ⟨t, ht⟩
  refine ⟨⟨t, ht⟩, ?_⟩
  obtain ⟨t', h, -⟩ := C146_dispersion_curve (fun _ => 0) (fun _ _ _ => []) (k := 1000) (by norm_num) pulsePadded
    (pulseSet "phaseshift") (by simp) Builtin.phaseShift (Or.inl rfl) t ht
  exact ⟨t', h⟩

/-- A record of four samples 2 ms apart, cut and padded in seconds and in milliseconds. -/
example : (slowRecord 1000 ⟨[1, 2, 3, 4], 1 / 500, 1, -1 / 500, 1⟩ : ATS).time = [-2, 0, 2, 4] ∧
    (⟨[1, 2, 3, 4], 1 / 500, 1, -1 / 500, 1⟩ : ATS).trim 0 (1 / 250) = (⟨[2, 3, 4], 1 / 500, 1, 0, 1⟩, .ok ()) ∧
    (⟨[1, 2, 3, 4], 2, 1, -2, 1⟩ : ATS).trim 0 4 = (⟨[2, 3, 4], 2, 1, 0, 1⟩, .ok ()) ∧
    (⟨[2, 3, 4], 1 / 500, 1, 0, 1⟩ : ATS).zeroPad 100 = (⟨[2, 3, 4, 0, 0], 1 / 500, 1, 0, 1⟩, .ok ()) ∧
    (⟨[2, 3, 4], 2, 1, 0, 1⟩ : ATS).zeroPad (100 / 1000) = (⟨[2, 3, 4, 0, 0], 2, 1, 0, 1⟩, .ok ()) := by decide +kernel

end Verif.Props
