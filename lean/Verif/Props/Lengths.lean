import Verif.Props.Invariance
import Verif.Spec.Units

/-!
# C144: another unit of length
-/

open Complex

namespace Verif.Props
open Verif WT Spec Workflow

theorem record_enlarged {k : ℚ} (hk : 0 < k) (a : Arr) :
    (enlarged k a).flippedTseriesAndOffsets =
      (a.flippedTseriesAndOffsets).map fun p => (p.1, p.2.map fun (x : ℚ) => k * x) := by
  unfold Arr.flippedTseriesAndOffsets Arr.flipRequired Arr.position Arr.timeseriesmatrix Arr.offsets Arr.position enlarged
  simp only [List.map_map, Function.comp_def]
  have hl : (a.sensors.map fun s => k * s.x).getLast? = (a.sensors.map Sensor.x).getLast?.map fun (x : ℚ) => k * x := by
    rw [← List.getLast?_map, List.map_map]
    rfl
  have ho : (fun s : Sensor => |k * a.source.x - k * s.x|) = fun s : Sensor => k * |a.source.x - s.x| := by
    funext s
    rw [← mul_sub, abs_mul, abs_of_pos hk]
  rw [hl, ho]
  rcases (a.sensors.map Sensor.x).getLast? with _ | p
  · rfl
  · simp only [Option.map_some]
    have e : (k * a.source.x > k * p) ↔ a.source.x > p := mul_lt_mul_iff_right₀ hk
    by_cases h : a.source.x > p
    · simp [bind, Except.bind, h, e.2 h, pure, Except.pure, Except.map, Function.comp_def]
    · simp [bind, Except.bind, h, mt e.1 h, pure, Except.pure, Except.map, Function.comp_def]

theorem ofArray_enlarged {k : ℚ} (hk : 0 < k) (a : Arr) :
    Record.ofArray (enlarged k a) = (Record.ofArray a).map fun r => { r with offsets := r.offsets.map fun (x : ℚ) => k * x } := by
  unfold Record.ofArray
  rw [record_enlarged hk]
  rcases a.flippedTseriesAndOffsets with e | ⟨tm, offs⟩
  · rfl
  · rcases hs : a.sensors with _ | ⟨s, rest⟩
    · simp [enlarged, hs, Except.map, bind, Except.bind]
    · simp [enlarged, hs, Except.map, bind, Except.bind, pure, Except.pure]

theorem velocities_faster {k : ℚ} (hk : 0 < k) (set : Settings) :
    Builtin.velocities (faster k set) = (Builtin.velocities set).map fun v => v.map fun (x : ℝ) => (k : ℝ) * x := by
  have hk' : (k : ℝ) ≠ 0 := by exact_mod_cast hk.ne'
  unfold Builtin.velocities WT.createVector faster
  simp only [Rat.cast_mul, mul_eq_zero, hk', false_or]
  split_ifs
  · rfl
  · simp only [Except.map, List.map_map]
    congr 1
    refine List.map_congr_left fun j _ => ?_
    simp only [Function.comp]
    ring
  · rfl
  · simp only [Except.map, List.map_map]
    congr 1
    refine List.map_congr_left fun j _ => ?_
    simp only [Function.comp]
    rw [mul_div_mul_left _ _ hk', mul_assoc]
  · rfl

/-! ## Phase shift -/

theorem phaseInner_enlarged {k : ℝ} (hk : k ≠ 0) (v f x : ℝ) (U : ℂ) :
    phaseInner (k * v) f (k * x) U = phaseInner v f x U := by
  unfold phaseInner
  have e : 2 * Real.pi / (k * v) * (k * x) * f = 2 * Real.pi / v * x * f := by
    by_cases hv : v = 0
    · simp [hv]
    · field_simp
  rw [e]

theorem phaseSum_enlarged (k : ℝ) : ∀ (xs : List ℝ) (zs : List ℂ),
    phaseSum (xs.map fun x => k * x) zs = (k : ℂ) * phaseSum xs zs
  | [], _ => by simp [phaseSum]
  | [x], _ => by simp [phaseSum]
  | x :: x' :: xs, [] => by simp [phaseSum]
  | x :: x' :: xs, [a] => by simp [phaseSum]
  | x :: x' :: xs, a :: b :: rest => by
    have ih := phaseSum_enlarged k (x' :: xs) (b :: rest)
    simp only [List.map_cons] at ih
    simp only [List.map_cons, phaseSum, ih]
    push_cast
    ring

theorem phasePower_enlarged {k : ℝ} (hk : 0 < k) (offsets : List ℝ) (spectra : List ℂ) (v f : ℝ) :
    phasePower (offsets.map fun x => k * x) spectra (k * v) f = k * phasePower offsets spectra v f := by
  unfold phasePower
  rw [phaseSum_enlarged, List.zipWith_map_left]
  simp only [phaseInner_enlarged hk.ne']
  rw [norm_mul, Complex.norm_real, Real.norm_of_nonneg hk.le]

/-- A dispersion image with velocities multiplied by `k` and powers by `F`. -/
noncomputable def enlargedImage (k F : ℝ) (t : Transform) : Transform :=
  { t with
    velocities := t.velocities.map fun (v : ℝ) => k * v
    power := t.power.map fun row => row.map fun z => (F : ℂ) * z }

/-- **C144** (phase shift).  With all lengths and all trial velocities multiplied by `k` the image is the same, its powers
multiplied by `k`. -/
theorem C144_phase_shift {k : ℚ} (hk : 0 < k) (a : Arr) (set : Settings) :
    Builtin.phaseShift (enlarged k a) (faster k set) = (Builtin.phaseShift a set).map (enlargedImage k k) := by
  have hk' : (0 : ℝ) < k := by exact_mod_cast hk
  unfold Builtin.phaseShift
  rw [velocities_faster hk, ofArray_enlarged hk]
  rcases Builtin.velocities set with e | vels
  · rfl
  rcases Record.ofArray a with e | r
  · rfl
  simp only [Except.map, bind, Except.bind, WT.phaseShift, Record.keepIds]
  have hs : (faster k set).fmin = set.fmin ∧ (faster k set).fmax = set.fmax := ⟨rfl, rfl⟩
  rw [hs.1, hs.2]
  rcases WT.keepIds (binFrequencies r.nsamples r.step) set.fmin set.fmax r.multiple with e | ids
  · rfl
  have hp : ∀ (zs : List ℂ) (v f : ℝ), phasePower (r.offsets.map fun (x : ℚ) => ((k * x : ℚ) : ℝ)) zs (k * v) f =
      k * phasePower (r.offsets.map fun (x : ℚ) => (x : ℝ)) zs v f := by
    intro zs v f
    rw [← phasePower_enlarged hk']
    congr 1
    simp only [List.map_map, Function.comp_def, Rat.cast_mul]
  simp only [pure, Except.pure, Function.comp_def, hp, enlargedImage, List.map_map, Complex.ofReal_mul]

/-! ## Beamforming -/

/-- What the weighting by the offsets multiplies the power by. -/
noncomputable def weightFactor (k : ℝ) (weighting : Option String) : ℝ := if weighting = some "sqrt" then k ^ 2 else 1

theorem weightFactor_pos {k : ℝ} (hk : 0 < k) (weighting : Option String) : 0 < weightFactor k weighting := by
  unfold weightFactor
  split_ifs <;> positivity

theorem fdbfPower_enlarged (hankel : ℝ → ℂ) (weighting steering : Option String) (n : ℕ) {k : ℝ} (hk : 0 < k) (x : ℕ → ℝ)
    (blocks : List (ℕ → ℂ)) (v f : ℝ) :
    fdbfPower hankel weighting steering n (fun i => k * x i) blocks (k * v) f =
      (weightFactor k weighting : ℂ) * fdbfPower hankel weighting steering n x blocks v f := by
  unfold fdbfPower
  have e : ∀ y : ℝ, 2 * Real.pi * f / (k * v) * (k * y) = 2 * Real.pi * f / v * y := by
    intro y
    by_cases hv : v = 0
    · simp [hv]
    · field_simp
  simp only [e]
  have hw : ∀ i j, spatialWeight weighting (fun i => k * x i) i j = weightFactor k weighting * spatialWeight weighting x i j := by
    intro i j
    unfold spatialWeight weightFactor
    split_ifs <;> ring
  unfold beamPower
  rw [Finset.mul_sum]
  refine Finset.sum_congr rfl fun b _ => ?_
  rw [← mul_assoc, Finset.mul_sum]
  congr 1
  refine Finset.sum_congr rfl fun a _ => ?_
  rw [hw]
  push_cast
  ring

/-- **C144** (beamforming).  … and the same for the beamformer, whose powers are multiplied by `k²` if they are weighted by
the offsets, and else by nothing. -/
theorem C144_beamforming (hankel : ℝ → ℂ) {k : ℚ} (hk : 0 < k) (a : Arr) (set : Settings) :
    Builtin.fdbf hankel (enlarged k a) (faster k set) = (Builtin.fdbf hankel a set).map
      (enlargedImage k (if (Builtin.specific set.fdbf).get "weighting" = some "sqrt" then (k : ℝ) ^ 2 else 1)) := by
  have hk' : (0 : ℝ) < k := by exact_mod_cast hk
  unfold Builtin.fdbf
  rw [velocities_faster hk, ofArray_enlarged hk]
  rcases Builtin.velocities set with e | vels
  · rfl
  rcases Record.ofArray a with e | r
  · rfl
  simp only [Except.map, bind, Except.bind, WT.fdbf, Record.keepIds]
  have hs : (faster k set).fmin = set.fmin ∧ (faster k set).fmax = set.fmax ∧ (faster k set).fdbf = set.fdbf :=
    ⟨rfl, rfl, rfl⟩
  rw [hs.1, hs.2.1, hs.2.2]
  rcases WT.keepIds (binFrequencies r.nsamples r.step) set.fmin set.fmax r.multiple with e | ids
  · rfl
  have ho : (fun i => (((r.offsets.map fun (x : ℚ) => k * x).getD i 0 : ℚ) : ℝ)) =
      fun i => (k : ℝ) * ((r.offsets.getD i 0 : ℚ) : ℝ) := by
    funext i
    simp only [List.getD_eq_getElem?_getD, List.getElem?_map]
    cases r.offsets[i]? <;> simp
  simp only [pure, Except.pure, ho, enlargedImage, List.map_map, Function.comp_def, fdbfPower_enlarged hankel _ _ _ hk', weightFactor]

/-! ## Slant stack -/

theorem minList_enlarged {k : ℚ} (hk : 0 < k) : ∀ xs : List ℚ,
    Arr.minList (xs.map fun (x : ℚ) => k * x) = (Arr.minList xs).map fun (x : ℚ) => k * x
  | [] => rfl
  | x :: xs => by
    simp only [List.map_cons, Arr.minList, Option.map_some, Option.some.injEq]
    induction xs generalizing x with
    | nil => rfl
    | cons y ys ih =>
      simp only [List.map_cons, List.foldl_cons]
      rw [← mul_min_of_nonneg _ _ hk.le, ih]

theorem maxList_enlarged {k : ℚ} (hk : 0 < k) : ∀ xs : List ℚ,
    Arr.maxList (xs.map fun (x : ℚ) => k * x) = (Arr.maxList xs).map fun (x : ℚ) => k * x
  | [] => rfl
  | x :: xs => by
    simp only [List.map_cons, Arr.maxList, Option.map_some, Option.some.injEq]
    induction xs generalizing x with
    | nil => rfl
    | cons y ys ih =>
      simp only [List.map_cons, List.foldl_cons]
      rw [← mul_max_of_nonneg _ _ hk.le, ih]

theorem ntaus_enlarged {k : ℚ} (hk : 0 < k) (n : ℕ) (pos vels : List ℚ) (dt : ℚ) :
    ntaus n (pos.map fun (x : ℚ) => k * x) (vels.map fun (v : ℚ) => k * v) dt = ntaus n pos vels dt := by
  unfold ntaus
  have hv : ((vels.map fun (v : ℚ) => k * v).map fun (v : ℚ) => 1 / v) =
      (vels.map fun (v : ℚ) => 1 / v).map fun (x : ℚ) => k⁻¹ * x := by
    simp only [List.map_map, Function.comp_def]
    refine List.map_congr_left fun v _ => ?_
    rw [one_div, one_div, mul_inv]
  rw [hv, maxList_enlarged hk, maxList_enlarged (inv_pos.2 hk)]
  rcases Arr.maxList pos with _ | p
  · simp
  rcases Arr.maxList (vels.map fun (v : ℚ) => 1 / v) with _ | q
  · simp
  simp only [Option.map_some, Option.getD_some]
  rw [show k * p * (k⁻¹ * q) = p * q by field_simp]

theorem diff_enlarged (k : ℚ) : ∀ xs : List ℚ, Arr.diff (xs.map fun (x : ℚ) => k * x) = (Arr.diff xs).map fun (x : ℚ) => k * x
  | [] => rfl
  | [x] => rfl
  | x :: y :: rest => by
    have ih := diff_enlarged k (y :: rest)
    simp only [List.map_cons] at ih
    simp only [List.map_cons, Arr.diff, ih, List.cons.injEq, and_true]
    ring

theorem trapezoid_enlarged (k : ℚ) : ∀ ds xs : List ℚ,
    trapezoid (ds.map fun (x : ℚ) => k * x) xs = k * trapezoid ds xs
  | [], _ => by simp [trapezoid]
  | d :: ds, [] => by simp [trapezoid]
  | d :: ds, [x] => by simp [trapezoid]
  | d :: ds, x :: y :: rest => by
    simp only [List.map_cons, trapezoid, trapezoid_enlarged k ds (y :: rest)]
    ring

theorem lag_enlarged {k : ℚ} (hk : 0 < k) (p dt v : ℚ) : k * p / dt / (k * v) = p / dt / v := by
  by_cases hd : dt = 0
  · simp [hd]
  by_cases hv : v = 0
  · simp [hv]
  field_simp

theorem slantRow_enlarged {k : ℚ} (hk : 0 < k) (tm : List (List ℚ)) (pos : List ℚ) (dt : ℚ) (nt : ℕ) (carry : Carry) (v : ℚ) :
    slantRow tm (pos.map fun (x : ℚ) => k * x) dt nt carry (k * v) =
      (slantRow tm pos dt nt carry v).map fun r => (r.1, r.2.map fun (x : ℚ) => k * x) := by
  unfold slantRow
  have hu : ∀ p c, updateCols (k * p) dt (k * v) c = updateCols p dt v c := by
    intro p c
    unfold updateCols
    rw [lag_enlarged hk]
  simp only [List.zipWith_map_left, hu]
  rw [List.zip_map_left, List.zip_map_right, List.mapM_map]
  simp only [Function.comp_def, Prod.map, id, lag_enlarged hk, diff_enlarged]
  generalize List.mapM (m := Except PyErr) _ (tm.zip _) = w
  rcases w with e | amps
  · rfl
  · simp only [bind, Except.bind, pure, Except.pure, Except.map, List.map_map,
      Function.comp_def, trapezoid_enlarged]

theorem slantRows_enlarged {k : ℚ} (hk : 0 < k) (tm : List (List ℚ)) (pos : List ℚ) (dt : ℚ) (nt : ℕ) :
    ∀ (vels : List ℚ) (carry : Carry),
    slantRows tm (pos.map fun (x : ℚ) => k * x) dt nt carry (vels.map fun (v : ℚ) => k * v) =
      (slantRows tm pos dt nt carry vels).map fun rows => rows.map fun row => row.map fun (x : ℚ) => k * x
  | [], _ => rfl
  | v :: vs, carry => by
    simp only [List.map_cons, slantRows, slantRow_enlarged hk]
    rcases slantRow tm pos dt nt carry v with e | ⟨carry', row⟩
    · rfl
    simp only [Except.map, bind, Except.bind, slantRows_enlarged hk tm pos dt nt vs carry']
    rcases slantRows tm pos dt nt carry' vs with e | rest
    · rfl
    rfl

theorem slantStack_enlarged {k : ℚ} (hk : 0 < k) (tm : List (List ℚ)) (offsets : List ℚ) (dt : ℚ) (vels : List ℚ) :
    WT.slantStack tm (offsets.map fun (x : ℚ) => k * x) dt (vels.map fun (v : ℚ) => k * v) =
      (WT.slantStack tm offsets dt vels).map fun rows => rows.map fun row => row.map fun (x : ℚ) => k * x := by
  unfold WT.slantStack
  rw [minList_enlarged hk]
  rcases Arr.minList offsets with _ | m
  · rfl
  rcases vels with _ | ⟨v, vs⟩
  · rfl
  have hp : ((offsets.map fun (x : ℚ) => k * x).map fun (x : ℚ) => x - k * m) =
      (offsets.map fun (x : ℚ) => x - m).map fun (x : ℚ) => k * x := by
    simp only [List.map_map, Function.comp_def, mul_sub]
  have hn := ntaus_enlarged hk (tm.headD []).length (offsets.map fun (x : ℚ) => x - m) (v :: vs) dt
  have hr := fun nt carry => slantRows_enlarged hk tm (offsets.map fun (x : ℚ) => x - m) dt nt (v :: vs) carry
  simp only [List.map_cons] at hn hr
  simp only [Option.map_some, List.map_cons, hp, hn]
  by_cases hneg : ntaus (tm.headD []).length (offsets.map fun (x : ℚ) => x - m) (v :: vs) dt < 0
  · rw [if_pos hneg, if_pos hneg]; rfl
  · rw [if_neg hneg, if_neg hneg, hr]
    simp only [List.map_map, Function.comp_def]

theorem velocitiesQ_faster (geom : ℚ → ℚ → ℕ → List ℚ) {k : ℚ} (hk : 0 < k) (set : Settings)
    (hg : geom (k * set.vmin) (k * set.vmax) set.nvel.toNat = (geom set.vmin set.vmax set.nvel.toNat).map fun (v : ℚ) => k * v) :
    Builtin.velocitiesQ geom (faster k set) = (Builtin.velocitiesQ geom set).map fun v => v.map fun (x : ℚ) => k * x := by
  unfold Builtin.velocitiesQ faster
  simp only [mul_eq_zero, hk.ne', false_or]
  split_ifs
  · rfl
  · simp only [Except.map, List.map_map]
    congr 1
    refine List.map_congr_left fun j _ => ?_
    simp only [Function.comp]
    ring
  · rfl
  · rw [hg]; rfl
  · rfl

/-- **C144** (slant stack).  … and the same for the slant stack, whose powers are multiplied by `k`.  With logarithmically
spaced velocities this asks that `np.geomspace` multiplies its values by `k` when both limits are (`geom`, not specified). -/
theorem C144_slant_stack (geom : ℚ → ℚ → ℕ → List ℚ) {k : ℚ} (hk : 0 < k) (a : Arr) (set : Settings)
    (hg : geom (k * set.vmin) (k * set.vmax) set.nvel.toNat = (geom set.vmin set.vmax set.nvel.toNat).map fun (v : ℚ) => k * v) :
    Builtin.slantStack geom (enlarged k a) (faster k set) = (Builtin.slantStack geom a set).map (enlargedImage k k) := by
  unfold Builtin.slantStack slantStackOfArray
  rw [velocitiesQ_faster geom hk set hg, record_enlarged hk]
  rcases Builtin.velocitiesQ geom set with e | vels
  · rfl
  rcases a.flippedTseriesAndOffsets with e | ⟨tm, offs⟩
  · rfl
  rcases hs : a.sensors with _ | ⟨s, rest⟩
  · simp [enlarged, hs, Except.map, bind, Except.bind]
  have hs' : (enlarged k a).sensors = { s with x := k * s.x, y := k * s.y, z := k * s.z } ::
      rest.map fun s => { s with x := k * s.x, y := k * s.y, z := k * s.z } := by simp [enlarged, hs]
  simp only [hs', Except.map, bind, Except.bind, slantStack_enlarged hk]
  rcases WT.slantStack tm offs s.ts.dt vels with e | stack
  · rfl
  have hf : (faster k set).fmin = set.fmin ∧ (faster k set).fmax = set.fmax := ⟨rfl, rfl⟩
  simp only [hf.1, hf.2]
  rcases WT.keepIds (binFrequencies s.ts.nsamples s.ts.dfInternal) set.fmin set.fmax s.ts.multiple with e | ids
  · rfl
  have hfft : ∀ (u : List ℚ) (n j : ℕ), Builtin.fftPadded (u.map fun (x : ℚ) => k * x) n j = (k : ℂ) * Builtin.fftPadded u n j := by
    intro u n j
    unfold Builtin.fftPadded
    rw [← fftBin_gain, List.map_take, List.map_append, List.map_replicate, mul_zero, List.length_map]
  simp only [pure, Except.pure, enlargedImage, List.map_map, Function.comp_def, hfft, Rat.cast_mul, Complex.ofReal_ratCast]

/-! ## Picked velocities -/

theorem complexLt_scaled {F : ℝ} (hF : 0 < F) (z w : ℂ) :
    Builtin.complexLt ((F : ℂ) * z) ((F : ℂ) * w) = Builtin.complexLt z w := by
  unfold Builtin.complexLt
  simp [hF, hF.ne']

theorem argmaxFrom_scaled {F : ℝ} (hF : 0 < F) : ∀ (l : List ℂ) (i b : ℕ) (v : ℂ),
    argmaxFrom Builtin.complexLt (l.map fun z => (F : ℂ) * z) i b ((F : ℂ) * v) = argmaxFrom Builtin.complexLt l i b v
  | [], _, _, _ => rfl
  | x :: xs, i, b, v => by
    simp only [List.map_cons, argmaxFrom, complexLt_scaled hF]
    split_ifs
    · exact argmaxFrom_scaled hF xs _ _ _
    · exact argmaxFrom_scaled hF xs _ _ _

theorem argmaxBy_scaled {F : ℝ} (hF : 0 < F) (l : List ℂ) :
    argmaxBy Builtin.complexLt (l.map fun z => (F : ℂ) * z) = argmaxBy Builtin.complexLt l := by
  cases l with
  | nil => rfl
  | cons x xs => simp only [List.map_cons, argmaxBy, argmaxFrom_scaled hF]

theorem mapM_map_result {α β γ : Type} (f : α → Except PyErr β) (g : β → γ) (l : List α) :
    (l.mapM fun a => (f a).map g) = (l.mapM f).map fun bs => bs.map g := by
  induction l with
  | nil => rfl
  | cons a l ih =>
    simp only [List.mapM_cons, ih]
    rcases f a with e | b
    · rfl
    rcases l.mapM f with e | bs
    · rfl
    rfl

/-- **C144** (picked velocities).  From such an image the same velocities are picked, multiplied by `k`. -/
theorem C144_picked {F : ℝ} (hF : 0 < F) (k : ℝ) (t : Transform) (how : String) :
    Builtin.findPeakPower (enlargedImage k F t) how =
      (Builtin.findPeakPower t how).map fun vs => vs.map fun (v : ℝ) => k * v := by
  unfold Builtin.findPeakPower findPeakBy
  by_cases h : how = "frequency-maximum"
  · rw [if_pos h, if_pos h, ← mapM_map_result]
    have hl : ((enlargedImage k F t).power.headD []).length = (t.power.headD []).length := by
      unfold enlargedImage
      cases t.power <;> simp
    rw [hl]
    congr 1
    funext c
    have hc : ((enlargedImage k F t).power.map fun row => row.getD c 0) =
        (t.power.map fun row => row.getD c 0).map fun z => (F : ℂ) * z := by
      unfold enlargedImage
      simp only [List.map_map]
      refine List.map_congr_left fun row _ => ?_
      simp only [Function.comp, List.getD_eq_getElem?_getD, List.getElem?_map]
      cases row[c]? <;> simp
    rw [hc, argmaxBy_scaled hF]
    generalize argmaxBy Builtin.complexLt _ = o
    rcases o with _ | i
    · rfl
    · simp only [enlargedImage, List.getElem?_map]
      generalize t.velocities[i]? = o
      rcases o with _ | v
      · rfl
      · rfl
  · rw [if_neg h, if_neg h]; rfl

/-- **C144**.  With lengths and trial velocities in another unit, every one of the transforms gives an image at the same
frequencies, from which the same velocities are picked, in that unit. -/
theorem C144_dispersion_curve (hankel : ℝ → ℂ) (geom : ℚ → ℚ → ℕ → List ℚ) {k : ℚ} (hk : 0 < k) (a : Arr) (set : Settings)
    (hg : geom (k * set.vmin) (k * set.vmax) set.nvel.toNat = (geom set.vmin set.vmax set.nvel.toNat).map fun (v : ℚ) => k * v)
    (transform : Arr → Settings → Except PyErr Transform)
    (htr : transform = Builtin.phaseShift ∨ transform = Builtin.fdbf hankel ∨ transform = Builtin.slantStack geom)
    (t : Transform) (ht : transform a set = .ok t) :
    ∃ t', transform (enlarged k a) (faster k set) = .ok t' ∧ t'.frequencies = t.frequencies ∧
      t'.velocities = t.velocities.map (fun (v : ℝ) => k * v) ∧
      ∀ how vs, Builtin.findPeakPower t how = .ok vs →
        Builtin.findPeakPower t' how = .ok (vs.map fun (v : ℝ) => k * v) := by
  have hk' : (0 : ℝ) < k := by exact_mod_cast hk
  have key : ∀ F : ℝ, 0 < F → transform (enlarged k a) (faster k set) = (transform a set).map (enlargedImage k F) →
      ∃ t', transform (enlarged k a) (faster k set) = .ok t' ∧ t'.frequencies = t.frequencies ∧
        t'.velocities = t.velocities.map (fun (v : ℝ) => k * v) ∧
        ∀ how vs, Builtin.findPeakPower t how = .ok vs →
          Builtin.findPeakPower t' how = .ok (vs.map fun (v : ℝ) => k * v) := by
    intro F hF h
    rw [ht] at h
    refine ⟨_, h, rfl, rfl, fun how vs hvs => ?_⟩
    rw [C144_picked hF, hvs]
    rfl
  rcases htr with rfl | rfl | rfl
  · exact key k hk' (C144_phase_shift hk a set)
  · refine key _ ?_ (C144_beamforming hankel hk a set)
    split_ifs <;> positivity
  · exact key k hk' (C144_slant_stack geom hk a set hg)

/-- Metres and centimetres. -/
example : (enlarged 100 pulsePadded).position = [200, 400, 800] ∧ (∃ t, Builtin.phaseShift pulsePadded (pulseSet "phaseshift") = .ok t) ∧
    ∃ t', Builtin.phaseShift (enlarged 100 pulsePadded) (faster 100 (pulseSet "phaseshift")) = .ok t' := by
  refine ⟨by decide +kernel, ?_⟩
  obtain ⟨t, ht⟩ : ∃ t, Builtin.phaseShift pulsePadded (pulseSet "phaseshift") = .ok t := by
    obtain ⟨t, ⟨T, hT, ht⟩, -⟩ := pulse_transform (tr := "phaseshift") (Or.inl rfl)
    cases hT
    exact ⟨t, ht⟩
  refine ⟨⟨t, ht⟩, ?_⟩
  obtain ⟨t', h, -⟩ := C144_dispersion_curve (fun _ => 0) (fun _ _ _ => []) (k := 100) (by norm_num) pulsePadded
    (pulseSet "phaseshift") rfl Builtin.phaseShift (Or.inl rfl) t ht
  exact ⟨t', h⟩

end Verif.Props
