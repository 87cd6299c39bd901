import Verif.Spec.Noise
import Verif.Props.Invariance

/-!
# C163: noise which is small against the signal does not change the picked velocities
-/

open Complex

namespace Verif.Props
open Verif WT Spec Workflow

/-! ## Spectra -/

/-- Noise changes a Fourier component by at most the sum of its absolute values. -/
theorem component_close (f dt : ℝ) : ∀ (x y : List ℚ), x.length = y.length →
    ‖component f dt y - component f dt x‖ ≤ (totalNoise x y : ℝ) := by
  intro x y hl
  unfold component totalNoise
  rw [← hl, ← Finset.sum_sub_distrib]
  have h1 : ∀ n ∈ Finset.range x.length, ‖((y.getD n 0 : ℚ) : ℂ) * exp (-(2 * Real.pi * f * (n * dt) : ℝ) * I) -
      ((x.getD n 0 : ℚ) : ℂ) * exp (-(2 * Real.pi * f * (n * dt) : ℝ) * I)‖ ≤ ((|y.getD n 0 - x.getD n 0| : ℚ) : ℝ) := by
    intro n _
    rw [← sub_mul, norm_mul, norm_exp_neg_real_I, mul_one]
    rw [show ((y.getD n 0 : ℚ) : ℂ) - ((x.getD n 0 : ℚ) : ℂ) = (((y.getD n 0 - x.getD n 0 : ℚ) : ℝ) : ℂ) by push_cast; rfl,
      Complex.norm_real, Real.norm_eq_abs]
    push_cast
    exact le_rfl
  refine le_trans (norm_sum_le_of_le _ h1) (le_of_eq ?_)
  clear h1
  induction x generalizing y with
  | nil => simp
  | cons p x ih =>
    rcases y with _ | ⟨q, y⟩
    · simp at hl
    rw [List.length_cons, Finset.sum_range_succ']
    simp only [List.getD_cons_succ, List.getD_cons_zero, List.zipWith_cons_cons, List.sum_cons]
    rw [ih y (by simpa using hl)]
    push_cast
    ring

theorem unit_close {u w : ℂ} (hu : u ≠ 0) (hw : w ≠ 0) :
    ‖u / (‖u‖ : ℝ) - w / (‖w‖ : ℝ)‖ ≤ 2 * (‖u - w‖ / ‖w‖) := by
  have hu' := norm_pos_iff.2 hu
  have hw' := norm_pos_iff.2 hw
  have huc : ((‖u‖ : ℝ) : ℂ) ≠ 0 := by exact_mod_cast hu'.ne'
  have hwc : ((‖w‖ : ℝ) : ℂ) ≠ 0 := by exact_mod_cast hw'.ne'
  have e : u / (‖u‖ : ℝ) - w / (‖w‖ : ℝ) = (u - w) / (‖w‖ : ℝ) + u / (‖u‖ : ℝ) * (((‖w‖ - ‖u‖ : ℝ) : ℂ) / (‖w‖ : ℝ)) := by
    push_cast
    field_simp
    ring
  rw [e]
  refine le_trans (norm_add_le _ _) ?_
  rw [norm_mul, norm_div, norm_div, norm_div]
  simp only [Complex.norm_real, norm_norm, div_self hu'.ne', one_mul]
  have : ‖‖w‖ - ‖u‖‖ ≤ ‖u - w‖ := by
    rw [Real.norm_eq_abs, norm_sub_rev]
    exact abs_norm_sub_norm_le w u
  have := div_le_div_of_nonneg_right this hw'.le
  linarith

/-! ## Integrals -/

theorem integral_le {α : Type} (x : α → ℝ) (z : α → ℂ) (δ : ℝ) : ∀ (s : α) (l : List α),
    (s :: l).Pairwise (fun s t => x s ≤ x t) → (∀ t ∈ s :: l, ‖z t‖ ≤ δ) →
    ‖integral ((s :: l).map fun t => (x t, z t))‖ ≤ δ * (x ((s :: l).getLast (by simp)) - x s)
  | s, [], _, _ => by simp [integral]
  | s, t :: l, hx, hz => by
    have hx' := List.pairwise_cons.1 hx
    have ih := integral_le x z δ t l hx'.2 fun r hr => hz r (List.mem_cons_of_mem _ hr)
    have hst := hx'.1 t List.mem_cons_self
    have h1 := hz s List.mem_cons_self
    have h2 := hz t (List.mem_cons_of_mem _ List.mem_cons_self)
    simp only [List.map_cons, integral] at ih ⊢
    refine le_trans (norm_add_le _ _) ?_
    rw [List.getLast_cons (by simp)]
    have h3 : ‖(((x t - x s) / 2 : ℝ) : ℂ) * (z s + z t)‖ ≤ δ * (x t - x s) := by
      rw [norm_mul, Complex.norm_real, Real.norm_eq_abs, abs_of_nonneg (by linarith)]
      have := norm_add_le (z s) (z t)
      nlinarith
    calc _ ≤ δ * (x t - x s) + δ * (x ((t :: l).getLast (by simp)) - x t) := add_le_add h3 ih
      _ = _ := by ring

theorem integral_sub {α : Type} (x : α → ℝ) (z w : α → ℂ) : ∀ l : List α,
    integral (l.map fun t => (x t, z t)) - integral (l.map fun t => (x t, w t)) =
      integral (l.map fun t => (x t, z t - w t))
  | [] => by simp [integral]
  | [s] => by simp [integral]
  | s :: t :: l => by
    have ih := integral_sub x z w (t :: l)
    simp only [List.map_cons, integral] at ih ⊢
    rw [← ih]
    ring

/-- Two quantities which differ by at most `δ` at every sensor have integrals over offset which differ by at most `δ` times
the length of the array. -/
theorem integral_close {a : Arr} {ss : List Sensor} (hss : NearToFar a ss)
    (hout : (∀ s ∈ a.sensors, a.source.x ≤ s.x) ∨ (∀ s ∈ a.sensors, s.x < a.source.x)) (L : ℝ) (hL : NotLongerThan a L)
    (z w : Sensor → ℂ) (δ : ℝ) (hδ : ∀ s ∈ ss, ‖z s - w s‖ ≤ δ) (h0 : 0 ≤ δ) (hne : ss ≠ []) :
    |‖integral (ss.map fun s => (((offset a.source s : ℚ) : ℝ), z s))‖ -
      ‖integral (ss.map fun s => (((offset a.source s : ℚ) : ℝ), w s))‖| ≤ δ * L := by
  refine le_trans (abs_norm_sub_norm_le _ _) ?_
  rw [integral_sub]
  obtain ⟨s, l, rfl⟩ := List.exists_cons_of_ne_nil hne
  refine le_trans (integral_le _ _ δ s l (hss.2.imp fun h => by exact_mod_cast h.le) hδ) ?_
  refine mul_le_mul_of_nonneg_left ?_ h0
  have m1 : s ∈ a.sensors := hss.1.mem_iff.1 List.mem_cons_self
  have m2 : (s :: l).getLast (by simp) ∈ a.sensors := hss.1.mem_iff.1 (List.getLast_mem _)
  rcases hout with ho | ho
  · refine le_trans (le_of_eq ?_) (hL s m1 _ m2)
    unfold offset
    rw [abs_sub_comm, abs_of_nonneg (by linarith [ho _ m2]), abs_sub_comm, abs_of_nonneg (by linarith [ho _ m1])]
    push_cast
    ring
  · refine le_trans (le_of_eq ?_) (hL _ m2 s m1)
    unfold offset
    rw [abs_of_pos (by linarith [ho _ m2]), abs_of_pos (by linarith [ho _ m1])]
    push_cast
    ring

/-! ## Recordings with other samples -/

theorem withSamples_spectrum (u : Sensor → List ℚ) (f : ℝ) (s : Sensor) :
    spectrumAt f { s with ts := { s.ts with amp := u s } } = component f s.ts.dt (u s) := rfl

theorem withSamples_consistent {u : Sensor → List ℚ} {a : Arr} (hc : Consistent a)
    (hu : ∀ s ∈ a.sensors, (u s).length = s.ts.amp.length) : Consistent (withSamples u a) := by
  refine ⟨by simpa [withSamples] using hc.1, ?_, ?_⟩
  · simp only [withSamples, List.pairwise_map]
    exact hc.2.1
  · intro s hs t ht
    simp only [withSamples, List.mem_map] at hs ht
    obtain ⟨s, hs, rfl⟩ := hs
    obtain ⟨t, ht, rfl⟩ := ht
    obtain ⟨h1, h2, h3, h4⟩ := hc.2.2 s hs t ht
    exact ⟨h1, h2, h3, by simp only [hu s hs, hu t ht, h4]⟩

/-- Other samples change nothing of a record but its traces. -/
theorem record_withSamples {u : Sensor → List ℚ} {a : Arr} (hu : ∀ s ∈ a.sensors, (u s).length = s.ts.amp.length)
    {r : Record} (hr : Record.ofArray a = .ok r) :
    ∃ tm, Record.ofArray (withSamples u a) = .ok { r with tm := tm } := by
  unfold Record.ofArray at hr ⊢
  have hflip : ∀ tm offs, a.flippedTseriesAndOffsets = .ok (tm, offs) →
      ∃ tm', (withSamples u a).flippedTseriesAndOffsets = .ok (tm', offs) := by
    unfold Arr.flippedTseriesAndOffsets Arr.flipRequired Arr.position Arr.timeseriesmatrix Arr.offsets Arr.position withSamples
    simp only [List.map_map, Function.comp_def]
    rcases (a.sensors.map Sensor.x).getLast? with _ | p
    · intro tm offs h; cases h
    · intro tm offs h
      by_cases h' : a.source.x > p
      · simp only [bind, Except.bind, h', pure, Except.pure, decide_true, if_true, Except.ok.injEq, Prod.mk.injEq] at h ⊢
        exact ⟨_, rfl, h.2⟩
      · simp only [bind, Except.bind, h', pure, Except.pure, decide_false, Bool.false_eq_true, if_false, Except.ok.injEq,
          Prod.mk.injEq] at h ⊢
        exact ⟨_, rfl, h.2⟩
  rcases hfl : a.flippedTseriesAndOffsets with e | ⟨tm, offs⟩
  · rw [hfl] at hr; cases hr
  obtain ⟨tm', htm'⟩ := hflip tm offs hfl
  rcases hs : a.sensors with _ | ⟨s, rest⟩
  · simp [hfl, hs, bind, Except.bind] at hr
  simp only [hfl, hs, bind, Except.bind, pure, Except.pure, Except.ok.injEq] at hr
  subst hr
  have hus := hu s (by simp [hs])
  refine ⟨tm', ?_⟩
  have hs' : (withSamples u a).sensors = { s with ts := { s.ts with amp := u s } } ::
      rest.map fun s => { s with ts := { s.ts with amp := u s } } := by simp [withSamples, hs]
  simp [htm', hs', bind, Except.bind, pure, Except.pure, ATS.nsamples, ATS.dfInternal, hus]

theorem phaseShift_withSamples {u : Sensor → List ℚ} {a : Arr} (hu : ∀ s ∈ a.sensors, (u s).length = s.ts.amp.length)
    {set : Settings} {t : Transform} (ht : Builtin.phaseShift a set = .ok t) :
    ∃ t', Builtin.phaseShift (withSamples u a) set = .ok t' ∧ t'.frequencies = t.frequencies ∧
      t'.velocities = t.velocities := by
  unfold Builtin.phaseShift at ht ⊢
  rcases hvel : Builtin.velocities set with e | vels
  · rw [hvel] at ht; cases ht
  rcases hrec : Record.ofArray a with e | r
  · simp [hvel, hrec, bind, Except.bind] at ht
  obtain ⟨tm, htm⟩ := record_withSamples hu hrec
  simp only [hvel, hrec, bind, Except.bind, WT.phaseShift, Record.keepIds] at ht
  simp only [htm, bind, Except.bind, WT.phaseShift, Record.keepIds]
  rcases hk : WT.keepIds (binFrequencies r.nsamples r.step) set.fmin set.fmax r.multiple with e | ids
  · rw [hk] at ht; cases ht
  rw [hk] at ht
  simp only [pure, Except.pure, Except.ok.injEq] at ht ⊢
  subst ht
  exact ⟨_, rfl, rfl, rfl⟩

theorem fdbf_withSamples (hankel : ℝ → ℂ) {u : Sensor → List ℚ} {a : Arr} (hu : ∀ s ∈ a.sensors, (u s).length = s.ts.amp.length)
    {set : Settings} {t : Transform} (ht : Builtin.fdbf hankel a set = .ok t) :
    ∃ t', Builtin.fdbf hankel (withSamples u a) set = .ok t' ∧ t'.frequencies = t.frequencies ∧
      t'.velocities = t.velocities := by
  unfold Builtin.fdbf at ht ⊢
  rcases hvel : Builtin.velocities set with e | vels
  · rw [hvel] at ht; cases ht
  rcases hrec : Record.ofArray a with e | r
  · simp [hvel, hrec, bind, Except.bind] at ht
  obtain ⟨tm, htm⟩ := record_withSamples hu hrec
  simp only [hvel, hrec, bind, Except.bind, WT.fdbf, Record.keepIds] at ht
  simp only [htm, bind, Except.bind, WT.fdbf, Record.keepIds]
  rcases hk : WT.keepIds (binFrequencies r.nsamples r.step) set.fmin set.fmax r.multiple with e | ids
  · rw [hk] at ht; cases ht
  rw [hk] at ht
  simp only [pure, Except.pure, Except.ok.injEq] at ht ⊢
  subst ht
  exact ⟨_, rfl, rfl, rfl⟩

theorem nearToFar_unique {a : Arr} {ss ss' : List Sensor} (h : NearToFar a ss) (h' : NearToFar a ss') : ss' = ss := by
  refine List.Perm.eq_of_pairwise (fun s t _ _ h1 h2 => ?_) h'.2 h.2 (h'.1.trans h.1.symm)
  exact absurd (lt_trans h1 h2) (lt_irrefl _)

theorem nearToFar_withSamples {u : Sensor → List ℚ} {a : Arr} {ss : List Sensor} (h : NearToFar a ss) :
    NearToFar (withSamples u a) (ss.map fun s => { s with ts := { s.ts with amp := u s } }) := by
  refine ⟨h.1.map _, ?_⟩
  rw [List.pairwise_map]
  exact h.2

theorem closeAt_ne {a : Arr} {u : Sensor → List ℚ} {f ε : ℝ} (h : CloseAt a u f ε) (hε : ε < 1) :
    ∀ s ∈ a.sensors, component f s.ts.dt (u s) ≠ 0 := by
  intro s hs h0
  obtain ⟨h1, h2⟩ := h s hs
  rw [h0, zero_sub, norm_neg] at h2
  have := norm_pos_iff.2 h1
  nlinarith

/-! ## Phase shift -/

/-- **C163** (phase shift).  Take a recording and the same recording with other samples.  At every frequency at which no
sensor's spectrum changed by more than the part `ε` of its magnitude, no power of the image changed by more than `2 ε` times
the length of the array; the frequencies and velocities of the image are the same. -/
theorem C163_phase_shift (a : Arr) (u : Sensor → List ℚ) (hu : ∀ s ∈ a.sensors, (u s).length = s.ts.amp.length)
    (set : Settings) (t : Transform) (ht : Builtin.phaseShift a set = .ok t) (hc : Consistent a)
    (hdt : ∀ s ∈ a.sensors, 0 < s.ts.dt)
    (hout : (∀ s ∈ a.sensors, a.source.x ≤ s.x) ∨ (∀ s ∈ a.sensors, s.x < a.source.x)) (L : ℝ) (hL : NotLongerThan a L) :
    ∃ t', Builtin.phaseShift (withSamples u a) set = .ok t' ∧ t'.frequencies = t.frequencies ∧
      t'.velocities = t.velocities ∧
      ∀ (j : ℕ) (f : ℚ) (ε : ℝ), t.frequencies[j]? = some f → ε < 1 → CloseAt a u f ε →
        ∀ i < t.velocities.length, ∃ p q : ℝ, (t.power[i]?.bind fun row => row[j]?) = some (p : ℂ) ∧
          (t'.power[i]?.bind fun row => row[j]?) = some (q : ℂ) ∧ |q - p| ≤ 2 * ε * L := by
  obtain ⟨t', ht', hf, hv⟩ := phaseShift_withSamples hu ht
  refine ⟨t', ht', hf, hv, ?_⟩
  intro j f ε hj hε hcl i hi
  obtain ⟨ss, hss, -, -, hP⟩ := C117_phase_shift a set t ht hc hdt hout
  have hout' : (∀ s ∈ (withSamples u a).sensors, (withSamples u a).source.x ≤ s.x) ∨
      (∀ s ∈ (withSamples u a).sensors, s.x < (withSamples u a).source.x) := by
    simpa [withSamples] using hout
  obtain ⟨ss', hss', -, -, hP'⟩ := C117_phase_shift (withSamples u a) set t' ht' (withSamples_consistent hc hu)
    (by simpa [withSamples] using hdt) hout'
  have e := nearToFar_unique (nearToFar_withSamples hss) hss'
  subst e
  have hne := closeAt_ne hcl hε
  refine ⟨_, _, hP i j _ f (List.getElem?_eq_getElem hi) hj fun s hs => (hcl s hs).1,
    hP' i j (t.velocities[i]) f (by rw [hv, List.getElem?_eq_getElem hi]) (by rw [hf, hj]) ?_, ?_⟩
  · intro s hs
    simp only [withSamples, List.mem_map] at hs
    obtain ⟨s, hs, rfl⟩ := hs
    exact hne s hs
  · have hssne : ss ≠ [] := fun h => hc.1 (List.nil_perm.1 (h ▸ hss.1))
    obtain ⟨s0, hs0⟩ := List.exists_mem_of_ne_nil _ hc.1
    have hε0 : 0 ≤ ε := by
      by_contra hneg
      have h1 := norm_pos_iff.2 (hcl s0 hs0).1
      have h2 := (hcl s0 hs0).2
      have h3 := norm_nonneg (component f s0.ts.dt (u s0) - spectrumAt f s0)
      nlinarith
    unfold phaseShiftPower
    rw [List.map_map]
    refine integral_close hss hout L hL
      (fun s => exp ((2 * Real.pi * f * (offset a.source s : ℚ) / t.velocities[i] : ℝ) * I) *
        (component f s.ts.dt (u s) / (‖component f s.ts.dt (u s)‖ : ℝ)))
      (fun s => exp ((2 * Real.pi * f * (offset a.source s : ℚ) / t.velocities[i] : ℝ) * I) *
        (spectrumAt f s / (‖spectrumAt f s‖ : ℝ))) (2 * ε) ?_ (by linarith) hssne
    intro s hs
    have hs' := hss.1.mem_iff.1 hs
    rw [← mul_sub, norm_mul, norm_exp_real_I, one_mul]
    refine le_trans (unit_close (hne s hs') (hcl s hs').1) ?_
    have h1 := norm_pos_iff.2 (hcl s hs').1
    have := (div_le_iff₀ h1).2 (hcl s hs').2
    linarith

/-- **C163** (phase shift, picks).  At every frequency at which the power of one trial velocity exceeds the power of all
others by more than `4 ε` times the length of the array, this velocity is picked from the recording with the other samples
too. -/
theorem C163_phase_shift_picks (a : Arr) (u : Sensor → List ℚ) (hu : ∀ s ∈ a.sensors, (u s).length = s.ts.amp.length)
    (set : Settings) (t : Transform) (ht : Builtin.phaseShift a set = .ok t) (hc : Consistent a)
    (hdt : ∀ s ∈ a.sensors, 0 < s.ts.dt)
    (hout : (∀ s ∈ a.sensors, a.source.x ≤ s.x) ∨ (∀ s ∈ a.sensors, s.x < a.source.x)) (L : ℝ) (hL : NotLongerThan a L)
    (hne : t.velocities ≠ []) :
    ∃ t' vs, Builtin.phaseShift (withSamples u a) set = .ok t' ∧ Builtin.findPeakPower t' "frequency-maximum" = .ok vs ∧
      vs.length = t.frequencies.length ∧
      ∀ (j : ℕ) (f : ℚ) (ε : ℝ) (i : ℕ) (v : ℝ) (p : ℂ), t.frequencies[j]? = some f → ε < 1 → CloseAt a u f ε →
        t.velocities[i]? = some v → (t.power[i]?.bind fun row => row[j]?) = some p →
        (∀ (i' : ℕ) (v' : ℝ) (q : ℂ), t.velocities[i']? = some v' → v' ≠ v →
          (t.power[i']?.bind fun row => row[j]?) = some q → q.re + 4 * ε * L < p.re) → vs[j]? = some v := by
  obtain ⟨t', ht', hf, hv, hP⟩ := C163_phase_shift a u hu set t ht hc hdt hout L hL
  have hout' : (∀ s ∈ (withSamples u a).sensors, (withSamples u a).source.x ≤ s.x) ∨
      (∀ s ∈ (withSamples u a).sensors, s.x < (withSamples u a).source.x) := by
    simpa [withSamples] using hout
  obtain ⟨-, -, hrows, hcols, -⟩ := C117_phase_shift (withSamples u a) set t' ht' (withSamples_consistent hc hu)
    (by simpa [withSamples] using hdt) hout'
  obtain ⟨vs, h1, h2, h3⟩ := findPeak_of_strict t' (by rw [hv]; exact hne) hrows hcols
  refine ⟨t', vs, ht', h1, by rw [h2, hf], ?_⟩
  intro j f ε i v p hj hε hcl hi hp hmax
  have hjl := (List.getElem?_eq_some_iff.1 hj).1
  obtain ⟨p0, q0, e1, e2, e3⟩ := hP j f ε hj hε hcl i (List.getElem?_eq_some_iff.1 hi).1
  rw [hp] at e1
  cases e1
  refine h3 j v i q0 (by rw [hf]; exact hjl) (by rw [hv]; exact hi) e2 ?_
  intro i' v' q' hi' hne' hq'
  rw [hv] at hi'
  obtain ⟨p1, q1, g1, g2, g3⟩ := hP j f ε hj hε hcl i' (List.getElem?_eq_some_iff.1 hi').1
  rw [hq'] at g2
  cases g2
  have := hmax i' v' p1 hi' hne' g1
  simp only [Complex.ofReal_re] at this ⊢
  have a1 := abs_le.1 e3
  have a2 := abs_le.1 g3
  linarith [a1.1, a2.2]

/-- The power of a plane wave is the response of the array. -/
theorem phaseShiftPower_response {a : Arr} {ss : List Sensor} (hss : NearToFar a ss) {gain : Sensor → ℝ}
    (hg : ∀ s ∈ a.sensors, 0 < gain s) {f v v' : ℝ} {S : ℂ} (hS : S ≠ 0) (hw : WaveOver a id gain f v S) :
    phaseShiftPower a.source ss f v' = arrayResponse a.source ss f v v' := by
  unfold phaseShiftPower arrayResponse
  have hn : ((‖S‖ : ℝ) : ℂ) ≠ 0 := by exact_mod_cast norm_ne_zero_iff.2 hS
  have hunit : ‖S / ((‖S‖ : ℝ) : ℂ)‖ = 1 := by
    rw [norm_div, Complex.norm_real, norm_norm, div_self (norm_ne_zero_iff.2 hS)]
  have e : (ss.map fun s => (((offset a.source s : ℚ) : ℝ),
      exp ((2 * Real.pi * f * (offset a.source s : ℚ) / v' : ℝ) * I) * (spectrumAt f s / ‖spectrumAt f s‖))) =
      ss.map fun s => (((offset a.source s : ℚ) : ℝ), (S / ((‖S‖ : ℝ) : ℂ)) *
        exp ((2 * Real.pi * f * (offset a.source s : ℚ) * (1 / v' - 1 / v) : ℝ) * I)) := by
    refine List.map_congr_left fun s hs => ?_
    have hs' := hss.1.mem_iff.1 hs
    have hg' : ((gain s : ℝ) : ℂ) ≠ 0 := by exact_mod_cast (hg s hs').ne'
    rw [hw s hs', norm_mul, norm_mul, norm_exp_neg_real_I, Complex.norm_real, Real.norm_eq_abs, abs_of_pos (hg s hs'),
      mul_one]
    have he : exp ((2 * Real.pi * f * (offset a.source s : ℚ) * (1 / v' - 1 / v) : ℝ) * I) =
        exp ((2 * Real.pi * f * (offset a.source s : ℚ) / v' : ℝ) * I) *
          exp (-(id (2 * Real.pi * f / v * (offset a.source s : ℚ)) : ℝ) * I) := by
      rw [← Complex.exp_add]
      congr 1
      simp only [id]
      push_cast
      ring
    rw [he]
    congr 1
    push_cast
    field_simp
  rw [e]
  have hmul : ∀ (c : ℂ) (l : List Sensor) (x : Sensor → ℝ) (z : Sensor → ℂ),
      integral (l.map fun s => (x s, c * z s)) = c * integral (l.map fun s => (x s, z s)) := by
    intro c l x z
    induction l with
    | nil => simp [integral]
    | cons s l ih =>
      rcases l with _ | ⟨r, l⟩
      · simp [integral]
      · simp only [List.map_cons, integral] at ih ⊢
        rw [ih]
        ring
  rw [hmul (S / ((‖S‖ : ℝ) : ℂ)) ss (fun s => ((offset a.source s : ℚ) : ℝ)), norm_mul, hunit, one_mul]

/-- **C163** (a wave in noise).  If at a frequency the sensors record a plane wave of one of the trial velocities, each with
a gain of its own, and noise of at most the part `ε` of what it records of the wave, and if for every other trial velocity
the response of the array is smaller than its length by more than the part `4 ε`, then the velocity of the wave is picked. -/
theorem C163_wave_in_noise (a : Arr) (u : Sensor → List ℚ) (hu : ∀ s ∈ a.sensors, (u s).length = s.ts.amp.length)
    (set : Settings) (t : Transform) (ht : Builtin.phaseShift a set = .ok t) (hc : Consistent a)
    (hdt : ∀ s ∈ a.sensors, 0 < s.ts.dt)
    (hout : (∀ s ∈ a.sensors, a.source.x ≤ s.x) ∨ (∀ s ∈ a.sensors, s.x < a.source.x)) (L : ℝ) (hL : NotLongerThan a L)
    (j : ℕ) (f : ℚ) (hf : t.frequencies[j]? = some f) (v : ℝ) (hv : v ∈ t.velocities) (gain : Sensor → ℝ)
    (hg : ∀ s ∈ a.sensors, 0 < gain s) (S : ℂ) (hS : S ≠ 0) (hw : WaveOver a id gain f v S) (ε : ℝ) (hε : ε < 1)
    (hcl : CloseAt a u f ε) (ss : List Sensor) (hss : NearToFar a ss)
    (hres : ∀ v' ∈ t.velocities, v' ≠ v → arrayResponse a.source ss f v v' + 4 * ε * L < arrayResponse a.source ss f v v) :
    ∃ t' vs, Builtin.phaseShift (withSamples u a) set = .ok t' ∧ Builtin.findPeakPower t' "frequency-maximum" = .ok vs ∧
      vs[j]? = some v := by
  obtain ⟨t', vs, h1, h2, -, h3⟩ := C163_phase_shift_picks a u hu set t ht hc hdt hout L hL (List.ne_nil_of_mem hv)
  refine ⟨t', vs, h1, h2, ?_⟩
  obtain ⟨ss', hss', -, -, hP⟩ := C117_phase_shift a set t ht hc hdt hout
  have e := nearToFar_unique hss hss'
  subst e
  obtain ⟨i, hi⟩ := List.mem_iff_getElem?.1 hv
  have hsp : ∀ s ∈ a.sensors, spectrumAt f s ≠ 0 := fun s hs => (hcl s hs).1
  refine h3 j f ε i v _ hf hε hcl hi (hP i j v f hi hf hsp) ?_
  intro i' v' q hi' hne hq
  rw [hP i' j v' f hi' hf hsp] at hq
  cases hq
  simp only [Complex.ofReal_re]
  rw [phaseShiftPower_response hss hg hS hw, phaseShiftPower_response hss hg hS hw]
  exact hres v' (List.mem_of_getElem? hi') hne

/-- At the velocity of the wave the response is the length of the array. -/
theorem C163_full_response (a : Arr) (ss : List Sensor) (hss : NearToFar a ss)
    (hout : (∀ s ∈ a.sensors, a.source.x ≤ s.x) ∨ (∀ s ∈ a.sensors, s.x < a.source.x)) (f v v' : ℝ)
    (first last : Sensor) (h1 : first ∈ a.sensors) (h2 : last ∈ a.sensors)
    (hends : ∀ s ∈ a.sensors, first.x ≤ s.x ∧ s.x ≤ last.x) :
    arrayResponse a.source ss f v v = ((last.x - first.x : ℚ) : ℝ) ∧
      arrayResponse a.source ss f v v' ≤ ((last.x - first.x : ℚ) : ℝ) := by
  have hne : ss ≠ [] := List.ne_nil_of_mem (hss.1.mem_iff.2 h1)
  have hL : NotLongerThan a ((last.x - first.x : ℚ) : ℝ) := by
    intro s hs t ht
    have e1 := (hends s hs).1
    have e2 := (hends t ht).2
    exact_mod_cast (by linarith : t.x - s.x ≤ last.x - first.x)
  constructor
  · unfold arrayResponse
    simp only [sub_self, mul_zero, Complex.ofReal_zero, zero_mul, Complex.exp_zero]
    have key : ∀ (s : Sensor) (l : List Sensor) (x : Sensor → ℝ), integral ((s :: l).map fun r => (x r, (1 : ℂ))) =
        ((x ((s :: l).getLast (by simp)) - x s : ℝ) : ℂ) := by
      intro s l x
      induction l generalizing s with
      | nil => simp [integral]
      | cons r l ih =>
        have := ih r
        simp only [List.map_cons, integral] at this ⊢
        rw [this, show (s :: r :: l).getLast (by simp) = (r :: l).getLast (by simp) from List.getLast_cons (by simp)]
        push_cast
        ring
    obtain ⟨s, l, rfl⟩ := List.exists_cons_of_ne_nil hne
    rw [key s l fun s => ((offset a.source s : ℚ) : ℝ), Complex.norm_real, Real.norm_eq_abs]
    have m1 : s ∈ a.sensors := hss.1.mem_iff.1 List.mem_cons_self
    have m2 : (s :: l).getLast (by simp) ∈ a.sensors := hss.1.mem_iff.1 (List.getLast_mem _)
    have hlo : ∀ r ∈ a.sensors, offset a.source s ≤ offset a.source r := by
      intro r hr
      have hr' := hss.1.mem_iff.2 hr
      rcases List.mem_cons.1 hr' with rfl | hr'
      · exact le_rfl
      · exact ((List.pairwise_cons.1 hss.2).1 r hr').le
    have hhi : ∀ r ∈ a.sensors, offset a.source r ≤ offset a.source ((s :: l).getLast (by simp)) := by
      intro r hr
      have hr' := hss.1.mem_iff.2 hr
      rw [← List.dropLast_append_getLast (show s :: l ≠ [] by simp)] at hr'
      rcases List.mem_append.1 hr' with hr' | hr'
      · have := hss.2
        rw [← List.dropLast_append_getLast (show s :: l ≠ [] by simp)] at this
        exact ((List.pairwise_append.1 this).2.2 r hr' _ (by simp)).le
      · rw [List.mem_singleton.1 hr']
    generalize (s :: l).getLast (by simp) = z at m2 hhi ⊢
    have b1 := hends s m1
    have b2 := hends z m2
    have hfl : (first.x : ℝ) ≤ last.x := by exact_mod_cast (hends last h2).1
    rcases hout with ho | ho
    · have off : ∀ r ∈ a.sensors, offset a.source r = r.x - a.source.x := fun r hr => by
        unfold offset
        rw [abs_sub_comm, abs_of_nonneg (by linarith [ho r hr])]
      have c1 := hlo first h1
      have c2 := hhi last h2
      rw [off _ m1, off _ h1] at c1
      rw [off _ m2, off _ h2] at c2
      rw [off _ m1, off _ m2]
      have d1 : s.x = first.x := by linarith [b1.1]
      have d2 : z.x = last.x := by linarith [b2.2]
      rw [d1, d2]
      push_cast
      rw [abs_of_nonneg (by linarith)]
      ring
    · have off : ∀ r ∈ a.sensors, offset a.source r = a.source.x - r.x := fun r hr => by
        unfold offset
        rw [abs_of_pos (by linarith [ho r hr])]
      have c1 := hlo last h2
      have c2 := hhi first h1
      rw [off _ m1, off _ h2] at c1
      rw [off _ m2, off _ h1] at c2
      rw [off _ m1, off _ m2]
      have d1 : s.x = last.x := by linarith [b1.2]
      have d2 : z.x = first.x := by linarith [b2.1]
      rw [d1, d2]
      push_cast
      rw [abs_of_nonneg (by linarith)]
      ring
  · have := integral_close hss hout _ hL
      (fun s => exp ((2 * Real.pi * f * (offset a.source s : ℚ) * (1 / v' - 1 / v) : ℝ) * I)) (fun _ => 0) 1
      (fun s _ => by rw [sub_zero, norm_exp_real_I]) zero_le_one hne
    have hz : ∀ l : List Sensor, integral (l.map fun s => (((offset a.source s : ℚ) : ℝ), (0 : ℂ))) = 0 := by
      intro l
      induction l with
      | nil => simp [integral]
      | cons s l ih =>
        rcases l with _ | ⟨r, l⟩
        · simp [integral]
        · simp only [List.map_cons, integral] at ih ⊢
          rw [ih]
          simp
    rw [hz, norm_zero, sub_zero, abs_of_nonneg (norm_nonneg _), one_mul] at this
    exact this

/-- **C163** (samples).  If the absolute values of the noise of every sensor add up to at most the part `ε` of the magnitude
of its spectrum at a frequency, then its spectrum changes by at most the part `ε`. -/
theorem C163_noise_spectrum (a : Arr) (u : Sensor → List ℚ) (hu : ∀ s ∈ a.sensors, (u s).length = s.ts.amp.length)
    (f ε : ℝ) (h : ∀ s ∈ a.sensors, spectrumAt f s ≠ 0 ∧ (totalNoise s.ts.amp (u s) : ℝ) ≤ ε * ‖spectrumAt f s‖) :
    CloseAt a u f ε := fun s hs =>
  ⟨(h s hs).1, le_trans (component_close f s.ts.dt s.ts.amp (u s) (hu s hs).symm) (h s hs).2⟩

/-! ## Beamforming -/

theorem norm_sum_map_le {g h : Sensor → ℂ} {b : Sensor → ℝ} : ∀ l : List Sensor, (∀ s ∈ l, ‖g s - h s‖ ≤ b s) →
    ‖(l.map g).sum - (l.map h).sum‖ ≤ (l.map b).sum
  | [], _ => by simp
  | s :: l, hl => by
    have ih := norm_sum_map_le l fun r hr => hl r (List.mem_cons_of_mem _ hr)
    simp only [List.map_cons, List.sum_cons]
    rw [show g s + (l.map g).sum - (h s + (l.map h).sum) = (g s - h s) + ((l.map g).sum - (l.map h).sum) by ring]
    exact le_trans (norm_add_le _ _) (add_le_add (hl s List.mem_cons_self) ih)

/-- **C163** (beamforming).  The same for the beamformer: the square root of a power changes by at most `ε` times the sum
of the weighted magnitudes of the spectra (twice as much with `weighting="invamp"`, which divides by the magnitude). -/
theorem C163_beamforming (hankel : ℝ → ℂ) (a : Arr) (u : Sensor → List ℚ)
    (hu : ∀ s ∈ a.sensors, (u s).length = s.ts.amp.length)
    (set : Settings) (t : Transform) (ht : Builtin.fdbf hankel a set = .ok t) (hc : Consistent a)
    (hdt : ∀ s ∈ a.sensors, 0 < s.ts.dt) :
    ∃ t', Builtin.fdbf hankel (withSamples u a) set = .ok t' ∧ t'.frequencies = t.frequencies ∧
      t'.velocities = t.velocities ∧
      ∀ (j : ℕ) (f : ℚ) (ε : ℝ), t.frequencies[j]? = some f → ε < 1 → CloseAt a u f ε →
        ∀ i < t.velocities.length, ∃ p q : ℝ, 0 ≤ p ∧ 0 ≤ q ∧ (t.power[i]?.bind fun row => row[j]?) = some ((p ^ 2 : ℝ) : ℂ) ∧
          (t'.power[i]?.bind fun row => row[j]?) = some ((q ^ 2 : ℝ) : ℂ) ∧
          |q - p| ≤ (if (Builtin.specific set.fdbf).get "weighting" = some "invamp" then 2 else 1) * ε *
            (a.sensors.map fun s => weightOf a.source ((Builtin.specific set.fdbf).get "weighting") f s *
              ‖spectrumAt f s‖).sum := by
  obtain ⟨t', ht', hf, hv⟩ := fdbf_withSamples hankel hu ht
  refine ⟨t', ht', hf, hv, ?_⟩
  intro j f ε hj hε hcl i hi
  obtain ⟨-, -, hP⟩ := C117_beamforming hankel a set t ht hc hdt
  obtain ⟨-, -, hP'⟩ := C117_beamforming hankel (withSamples u a) set t' ht' (withSamples_consistent hc hu)
    (by simpa [withSamples] using hdt)
  have hne := closeAt_ne hcl hε
  refine ⟨_, _, norm_nonneg _, norm_nonneg _, hP i j _ f (List.getElem?_eq_getElem hi) hj fun _ s hs => (hcl s hs).1,
    hP' i j (t.velocities[i]) f (by rw [hv, List.getElem?_eq_getElem hi]) (by rw [hf, hj]) ?_, ?_⟩
  · intro _ s hs
    simp only [withSamples, List.mem_map] at hs
    obtain ⟨s, hs, rfl⟩ := hs
    exact hne s hs
  refine le_trans (abs_norm_sub_norm_le _ _) ?_
  simp only [withSamples, List.map_map, Function.comp_def]
  have hsum : ∀ (c : ℝ) (g : Sensor → ℝ) (l : List Sensor), c * (l.map g).sum = (l.map fun s => c * g s).sum := by
    intro c g l
    induction l with
    | nil => simp
    | cons s l ih => simp only [List.map_cons, List.sum_cons, ← ih]; ring
  rw [hsum]
  refine norm_sum_map_le a.sensors fun s hs => ?_
  have hoff : offset a.source { s with ts := { s.ts with amp := u s } } = offset a.source s := rfl
  rw [hoff, ← mul_sub, norm_mul, norm_exp_real_I, one_mul, withSamples_spectrum]
  obtain ⟨h0, hd⟩ := hcl s hs
  have hpos := norm_pos_iff.2 h0
  unfold weightOf
  rw [hoff, withSamples_spectrum]
  by_cases hsq : (Builtin.specific set.fdbf).get "weighting" = some "sqrt"
  · have hinv : ¬ (Builtin.specific set.fdbf).get "weighting" = some "invamp" := by rw [hsq]; simp
    simp only [if_pos hsq, if_neg hinv]
    rw [← mul_sub, norm_mul, Complex.norm_real, Real.norm_eq_abs, abs_of_nonneg (by
      unfold offset; exact_mod_cast abs_nonneg _)]
    have h2 : (0 : ℝ) ≤ (offset a.source s : ℚ) := by unfold offset; exact_mod_cast abs_nonneg _
    nlinarith
  · simp only [if_neg hsq]
    by_cases hinv : (Builtin.specific set.fdbf).get "weighting" = some "invamp"
    · simp only [if_pos hinv]
      have h1 := unit_close (hne s hs) h0
      have e1 : ∀ z : ℂ, ((1 / ‖z‖ : ℝ) : ℂ) * z = z / (‖z‖ : ℝ) := fun z => by push_cast; ring
      rw [e1, e1]
      refine le_trans h1 ?_
      have h2 := (div_le_iff₀ hpos).2 hd
      rw [one_div, inv_mul_cancel₀ hpos.ne']
      linarith
    · simp only [if_neg hinv]
      simpa using hd

/-- **C163** (beamforming, picks).  A trial velocity whose power is larger than all others by enough is picked from the
recording with the other samples too. -/
theorem C163_beamforming_picks (hankel : ℝ → ℂ) (a : Arr) (u : Sensor → List ℚ)
    (hu : ∀ s ∈ a.sensors, (u s).length = s.ts.amp.length)
    (set : Settings) (t : Transform) (ht : Builtin.fdbf hankel a set = .ok t) (hc : Consistent a)
    (hdt : ∀ s ∈ a.sensors, 0 < s.ts.dt) (hne : t.velocities ≠ []) :
    ∃ t' vs, Builtin.fdbf hankel (withSamples u a) set = .ok t' ∧ Builtin.findPeakPower t' "frequency-maximum" = .ok vs ∧
      vs.length = t.frequencies.length ∧
      ∀ (j : ℕ) (f : ℚ) (ε : ℝ) (i : ℕ) (v : ℝ) (p : ℂ), t.frequencies[j]? = some f → ε < 1 → CloseAt a u f ε →
        t.velocities[i]? = some v → (t.power[i]?.bind fun row => row[j]?) = some p →
        (∀ (i' : ℕ) (v' : ℝ) (q : ℂ), t.velocities[i']? = some v' → v' ≠ v →
          (t.power[i']?.bind fun row => row[j]?) = some q →
            √q.re + 2 * ((if (Builtin.specific set.fdbf).get "weighting" = some "invamp" then 2 else 1) * ε *
              (a.sensors.map fun s => weightOf a.source ((Builtin.specific set.fdbf).get "weighting") f s *
                ‖spectrumAt f s‖).sum) < √p.re) → vs[j]? = some v := by
  obtain ⟨t', ht', hf, hv, hP⟩ := C163_beamforming hankel a u hu set t ht hc hdt
  obtain ⟨hrows, hcols, -⟩ := C117_beamforming hankel (withSamples u a) set t' ht' (withSamples_consistent hc hu)
    (by simpa [withSamples] using hdt)
  obtain ⟨vs, h1, h2, h3⟩ := findPeak_of_strict t' (by rw [hv]; exact hne) hrows hcols
  refine ⟨t', vs, ht', h1, by rw [h2, hf], ?_⟩
  intro j f ε i v p hj hε hcl hi hp hmax
  have hjl := (List.getElem?_eq_some_iff.1 hj).1
  obtain ⟨p0, q0, k1, k2, e1, e2, e3⟩ := hP j f ε hj hε hcl i (List.getElem?_eq_some_iff.1 hi).1
  rw [hp] at e1
  cases e1
  refine h3 j v i _ (by rw [hf]; exact hjl) (by rw [hv]; exact hi) e2 ?_
  intro i' v' q' hi' hne' hq'
  rw [hv] at hi'
  obtain ⟨p1, q1, k3, k4, g1, g2, g3⟩ := hP j f ε hj hε hcl i' (List.getElem?_eq_some_iff.1 hi').1
  rw [hq'] at g2
  cases g2
  have := hmax i' v' _ hi' hne' g1
  simp only [Complex.ofReal_re, Real.sqrt_sq k1, Real.sqrt_sq k3] at this ⊢
  have a1 := abs_le.1 e3
  have a2 := abs_le.1 g3
  refine pow_lt_pow_left₀ ?_ k4 (by norm_num)
  linarith [a1.1, a2.2]

/-- The frequency-wavenumber transform is the beamformer without weights and with plane steering. -/
theorem fk_eq_fdbf (hankel : ℝ → ℂ) (a : Arr) (set : Settings) (t : Transform) (ht : Builtin.fk hankel a set = .ok t) :
    ∃ d : Kwargs, (Builtin.specific (some d)).get "weighting" = some "none" ∧
      (Builtin.specific (some d)).get "steering" = some "plane" ∧
      ∀ b : Arr, Builtin.fk hankel b set = Builtin.fdbf hankel b { set with fdbf := some d } := by
  unfold Builtin.fk at ht
  split at ht
  · cases ht
  rename_i d hd
  refine ⟨(dictSet (dictSet d "weighting" "none") "steering" "plane").map fun p => (p.1, .str p.2), ?_, ?_, ?_⟩
  · have : Builtin.specific (some ((dictSet (dictSet d "weighting" "none") "steering" "plane").map
        fun p => (p.1, Val.str p.2))) = some (dictSet (dictSet d "weighting" "none") "steering" "plane") := by
      simp [Builtin.specific, List.filterMap_map]
    rw [this]
    simp [FdbfSpecific.get, dictSet_get]
  · have : Builtin.specific (some ((dictSet (dictSet d "weighting" "none") "steering" "plane").map
        fun p => (p.1, Val.str p.2))) = some (dictSet (dictSet d "weighting" "none") "steering" "plane") := by
      simp [Builtin.specific, List.filterMap_map]
    rw [this]
    simp [FdbfSpecific.get, dictSet_get]
  · intro b
    have : Builtin.specific (some ((dictSet (dictSet d "weighting" "none") "steering" "plane").map
        fun p => (p.1, Val.str p.2))) = some (dictSet (dictSet d "weighting" "none") "steering" "plane") := by
      simp [Builtin.specific, List.filterMap_map]
    unfold Builtin.fk Builtin.fdbf
    have hvel : Builtin.velocities { set with fdbf := some ((dictSet (dictSet d "weighting" "none") "steering" "plane").map
        fun p => (p.1, Val.str p.2)) } = Builtin.velocities set := rfl
    rw [hvel, hd]
    simp only [this, WT.fk]

/-- **C163** (frequency-wavenumber).  The square root of a power changes by at most `ε` times the sum of the magnitudes of
the spectra, and a trial velocity which stands out by twice this is picked from the recording with the other samples. -/
theorem C163_fk (hankel : ℝ → ℂ) (a : Arr) (u : Sensor → List ℚ)
    (hu : ∀ s ∈ a.sensors, (u s).length = s.ts.amp.length)
    (set : Settings) (t : Transform) (ht : Builtin.fk hankel a set = .ok t) (hc : Consistent a)
    (hdt : ∀ s ∈ a.sensors, 0 < s.ts.dt) (hne : t.velocities ≠ []) :
    ∃ t' vs, Builtin.fk hankel (withSamples u a) set = .ok t' ∧ t'.frequencies = t.frequencies ∧
      t'.velocities = t.velocities ∧ Builtin.findPeakPower t' "frequency-maximum" = .ok vs ∧
      vs.length = t.frequencies.length ∧
      ∀ (j : ℕ) (f : ℚ) (ε : ℝ), t.frequencies[j]? = some f → ε < 1 → CloseAt a u f ε →
        (∀ i < t.velocities.length, ∃ p q : ℝ, 0 ≤ p ∧ 0 ≤ q ∧
          (t.power[i]?.bind fun row => row[j]?) = some ((p ^ 2 : ℝ) : ℂ) ∧
          (t'.power[i]?.bind fun row => row[j]?) = some ((q ^ 2 : ℝ) : ℂ) ∧
          |q - p| ≤ ε * (a.sensors.map fun s => ‖spectrumAt f s‖).sum) ∧
        ∀ (i : ℕ) (v : ℝ) (p : ℂ), t.velocities[i]? = some v → (t.power[i]?.bind fun row => row[j]?) = some p →
          (∀ (i' : ℕ) (v' : ℝ) (q : ℂ), t.velocities[i']? = some v' → v' ≠ v →
            (t.power[i']?.bind fun row => row[j]?) = some q →
              √q.re + 2 * (ε * (a.sensors.map fun s => ‖spectrumAt f s‖).sum) < √p.re) → vs[j]? = some v := by
  obtain ⟨d, hw, -, he⟩ := fk_eq_fdbf hankel a set t ht
  rw [he] at ht
  obtain ⟨t', h1, h2, h3, h4⟩ := C163_beamforming hankel a u hu _ t ht hc hdt
  obtain ⟨t'', vs, g1, g2, g3, g4⟩ := C163_beamforming_picks hankel a u hu _ t ht hc hdt hne
  rw [h1] at g1
  cases g1
  simp only [hw, weightOf] at h4 g4
  refine ⟨t', vs, by rw [he]; exact h1, h2, h3, g2, g3, fun j f ε a1 a2 a3 => ⟨fun i hi => ?_, fun i v p b1 b2 b3 => ?_⟩⟩
  · simpa using h4 j f ε a1 a2 a3 i hi
  · refine g4 j f ε i v p a1 a2 a3 b1 b2 fun i' v' q c1 c2 c3 => ?_
    simpa using b3 i' v' q c1 c2 c3

/-! ## A case -/

/-- Noise in the first sample of every record. -/
def noiseFirst (s : Sensor) : List ℚ := s.ts.amp.set 0 (1 / 100)

/-- Its record differs from the recording which `C114` is shown on. -/
example : withSamples noiseFirst pulsePadded ≠ pulsePadded := by decide +kernel

theorem noiseFirst_close (f : ℝ) : CloseAt pulsePadded noiseFirst f (1 / 200) := by
  refine C163_noise_spectrum _ _ (fun s _ => by simp [noiseFirst]) f _ ?_
  have key : ∀ (b : ℕ) (g : ℚ) (m : ℕ) (s : Sensor), 2 ≤ g → s.ts.amp = List.replicate b 0 ++ g :: List.replicate m 0 →
      totalNoise s.ts.amp (noiseFirst s) = 1 / 100 →
      spectrumAt f s ≠ 0 ∧ (totalNoise s.ts.amp (noiseFirst s) : ℝ) ≤ 1 / 200 * ‖spectrumAt f s‖ := by
    intro b g m s hg h hn
    have hg' : (2 : ℝ) ≤ g := by exact_mod_cast hg
    rw [spectrum_pulse f b g m s h, hn]
    refine ⟨mul_ne_zero (by exact_mod_cast (by linarith : (0 : ℚ) < g).ne') (exp_ne_zero _), ?_⟩
    rw [norm_mul, norm_exp_neg_real_I, show ((g : ℚ) : ℂ) = ((g : ℝ) : ℂ) by push_cast; rfl, Complex.norm_real,
      Real.norm_eq_abs, abs_of_nonneg (by linarith)]
    push_cast
    linarith
  intro s hs
  simp only [pulsePadded, pulseArr, List.map_cons, List.map_nil, List.mem_cons, List.not_mem_nil, or_false] at hs
  rcases hs with rfl | rfl | rfl
  · exact key 1 2 14 _ (by norm_num) (by decide +kernel) (by decide +kernel)
  · exact key 2 3 13 _ (by norm_num) (by decide +kernel) (by decide +kernel)
  · exact key 4 7 11 _ (by norm_num) (by decide +kernel) (by decide +kernel)

/-- The pulse which crosses the array with 2000 m/s is found in the noise: every hypothesis of `C163_wave_in_noise` holds at
125 Hz. -/
example : ∃ t' vs, Builtin.phaseShift (withSamples noiseFirst pulsePadded) (pulseSet "phaseshift") = .ok t' ∧
    Builtin.findPeakPower t' "frequency-maximum" = .ok vs ∧ vs[1]? = some 2000 := by
  obtain ⟨t, ⟨T, hT, ht⟩, hf, hv⟩ := pulse_transform (tr := "phaseshift") (Or.inl rfl)
  cases hT
  have hnear : NearToFar pulsePadded pulsePadded.sensors := by
    refine ⟨List.Perm.refl _, ?_⟩
    simp only [offset]
    decide +kernel
  refine C163_wave_in_noise pulsePadded noiseFirst (fun s _ => by simp [noiseFirst]) _ t ht
    ⟨by decide +kernel, by decide +kernel, by simp only [SameMeta]; decide +kernel⟩ (by decide +kernel)
    (.inl (by decide +kernel)) 6 ?_ 1 125 (by rw [hf]; rfl) 2000 (by rw [hv]; simp)
    (fun s => ((if s.x = 2 then 2 else if s.x = 4 then 3 else 7 : ℚ) : ℝ)) (fun s _ => by split_ifs <;> norm_num) 1 one_ne_zero ?_ (1 / 200)
    (by norm_num) (noiseFirst_close _) _ hnear ?_
  · have : ∀ s ∈ pulsePadded.sensors, ∀ t ∈ pulsePadded.sensors, t.x - s.x ≤ 6 := by decide +kernel
    intro s hs t ht
    exact_mod_cast this s hs t ht
  · have key : ∀ (b : ℕ) (g : ℚ) (m : ℕ) (s : Sensor), s.ts.amp = List.replicate b 0 ++ g :: List.replicate m 0 →
        (if s.x = 2 then 2 else if s.x = 4 then 3 else 7 : ℚ) = g →
        (b * s.ts.dt : ℚ) = offset pulsePadded.source s / 2000 → spectrumAt (125 : ℚ) s =
        ((if s.x = 2 then 2 else if s.x = 4 then 3 else 7 : ℚ) : ℝ) * (1 * exp (-(id (2 * Real.pi * (125 : ℚ) / 2000 *
          (offset pulsePadded.source s : ℚ)) : ℝ) * I)) := by
      intro b g m s h hg ho
      rw [spectrum_pulse _ b g m s h, hg]
      have ho' : (b * s.ts.dt : ℝ) = (offset pulsePadded.source s : ℚ) / 2000 := by exact_mod_cast ho
      rw [ho', one_mul]
      push_cast
      congr 3
      simp only [id]
      push_cast
      ring
    intro s hs
    simp only [pulsePadded, pulseArr, List.map_cons, List.map_nil, List.mem_cons, List.not_mem_nil, or_false] at hs
    rcases hs with rfl | rfl | rfl
    · exact key 1 2 14 _ (by decide +kernel) (by decide +kernel) (by simp only [offset]; decide +kernel)
    · exact key 2 3 13 _ (by decide +kernel) (by decide +kernel) (by simp only [offset]; decide +kernel)
    · exact key 4 7 11 _ (by decide +kernel) (by decide +kernel) (by simp only [offset]; decide +kernel)
  · intro v' hv' hne
    rw [hv] at hv'
    have hv4 : v' = 4000 := by
      simp only [List.mem_cons, List.not_mem_nil, or_false] at hv'
      exact hv'.resolve_left hne
    subst hv4
    have full := (C163_full_response pulsePadded _ hnear (.inl (by decide +kernel)) (125 : ℚ) 2000 4000
      ⟨⟨[0, 2, 0, 0, 0, 0, 0, 0] ++ List.replicate 8 0, 1 / 1000, 1, 0, 1⟩, 2, 0, 0⟩
      ⟨⟨[0, 0, 0, 0, 7, 0, 0, 0] ++ List.replicate 8 0, 1 / 1000, 1, 0, 1⟩, 8, 0, 0⟩ (by decide +kernel) (by decide +kernel)
      (by decide +kernel)).1
    rw [full]
    have e : arrayResponse pulsePadded.source pulsePadded.sensors (125 : ℚ) 2000 4000 =
        ‖exp ((-(Real.pi / 8) : ℝ) * I) + 3 * exp ((-(Real.pi / 4) : ℝ) * I) + 2 * exp ((-(Real.pi / 2) : ℝ) * I)‖ := by
      unfold arrayResponse
      simp only [pulsePadded, pulseArr, List.map_cons, List.map_nil, integral, offset]
      norm_num
      rw [show -(2 * (Real.pi : ℂ) * 125 * 2 * (1 / 4000) * I) = -(Real.pi / 8 * I) by ring,
        show -(2 * (Real.pi : ℂ) * 125 * 4 * (1 / 4000) * I) = -(Real.pi / 4 * I) by ring,
        show -(2 * (Real.pi : ℂ) * 125 * 8 * (1 / 4000) * I) = -(Real.pi / 2 * I) by ring]
      congr 1
      ring
    rw [e, add_assoc]
    have h1 := norm_add_le (exp ((-(Real.pi / 8) : ℝ) * I))
      (3 * exp ((-(Real.pi / 4) : ℝ) * I) + 2 * exp ((-(Real.pi / 2) : ℝ) * I))
    rw [norm_exp_real_I] at h1
    have h2 : ‖3 * exp ((-(Real.pi / 4) : ℝ) * I) + 2 * exp ((-(Real.pi / 2) : ℝ) * I)‖ ≤ 4.7 := by
      refine abs_le_of_sq_le_sq' ?_ (by norm_num) |>.2
      rw [Complex.sq_norm, Complex.normSq_apply]
      have hr : (3 * exp ((-(Real.pi / 4) : ℝ) * I) + 2 * exp ((-(Real.pi / 2) : ℝ) * I)).re = 3 * (√2 / 2) := by
        rw [add_re, show (3 : ℂ) = ((3 : ℝ) : ℂ) by norm_num, show (2 : ℂ) = ((2 : ℝ) : ℂ) by norm_num, re_ofReal_mul,
          re_ofReal_mul, exp_ofReal_mul_I_re, exp_ofReal_mul_I_re, Real.cos_neg, Real.cos_neg, Real.cos_pi_div_four,
          Real.cos_pi_div_two]
        ring
      have hi : (3 * exp ((-(Real.pi / 4) : ℝ) * I) + 2 * exp ((-(Real.pi / 2) : ℝ) * I)).im = -(3 * (√2 / 2)) - 2 := by
        rw [add_im, show (3 : ℂ) = ((3 : ℝ) : ℂ) by norm_num, show (2 : ℂ) = ((2 : ℝ) : ℂ) by norm_num, im_ofReal_mul,
          im_ofReal_mul, exp_ofReal_mul_I_im, exp_ofReal_mul_I_im, Real.sin_neg, Real.sin_neg, Real.sin_pi_div_four,
          Real.sin_pi_div_two]
        ring
      rw [hr, hi]
      have hs : √2 * √2 = 2 := Real.mul_self_sqrt (by norm_num)
      have hs0 := Real.sqrt_nonneg 2
      have hs1 : √2 ≤ 1.5 := by
        rw [Real.sqrt_le_left (by norm_num)]
        norm_num
      nlinarith
    refine lt_of_le_of_lt (add_le_add_left (le_trans h1 (add_le_add_right h2 _)) _) ?_
    norm_num

/-- ... and by the beamformer: every hypothesis of `C163_beamforming_picks` holds at 125 Hz. -/
example : ∃ t' vs, Builtin.fdbf (fun _ => 0) (withSamples noiseFirst pulsePadded) (pulseSet "fdbf") = .ok t' ∧
    Builtin.findPeakPower t' "frequency-maximum" = .ok vs ∧ vs[1]? = some 2000 := by
  obtain ⟨t, ⟨T, hT, ht⟩, hf, hv⟩ := pulse_transform (tr := "fdbf") (Or.inr (Or.inr rfl))
  cases hT
  have hc : Consistent pulsePadded :=
    ⟨by decide +kernel, by decide +kernel, by simp only [SameMeta]; decide +kernel⟩
  have hdt : ∀ s ∈ pulsePadded.sensors, 0 < s.ts.dt := by decide +kernel
  obtain ⟨t', vs, h1, h2, -, h3⟩ := C163_beamforming_picks (fun _ => 0) pulsePadded noiseFirst
    (fun s _ => by simp [noiseFirst]) _ t ht hc hdt (by rw [hv]; simp)
  refine ⟨t', vs, h1, h2, ?_⟩
  obtain ⟨-, -, hP⟩ := C117_beamforming (fun _ => 0) pulsePadded _ t ht hc hdt
  have hw : (Builtin.specific (pulseSet "fdbf").fdbf).get "weighting" = none := by decide
  have hst : (Builtin.specific (pulseSet "fdbf").fdbf).get "steering" = none := by decide
  rw [hw, hst] at hP
  rw [hw] at h3
  have sp : ∀ f : ℝ, pulsePadded.sensors.map (fun s => (offset pulsePadded.source s, spectrumAt f s)) =
      [(2, 2 * exp (-(2 * Real.pi * f * (1 / 1000) : ℝ) * I)), (4, 3 * exp (-(2 * Real.pi * f * (2 / 1000) : ℝ) * I)),
        (8, 7 * exp (-(2 * Real.pi * f * (4 / 1000) : ℝ) * I))] := by
    intro f
    have e : pulsePadded.sensors = [⟨⟨List.replicate 1 0 ++ 2 :: List.replicate 14 0, 1 / 1000, 1, 0, 1⟩, 2, 0, 0⟩,
      ⟨⟨List.replicate 2 0 ++ 3 :: List.replicate 13 0, 1 / 1000, 1, 0, 1⟩, 4, 0, 0⟩,
      ⟨⟨List.replicate 4 0 ++ 7 :: List.replicate 11 0, 1 / 1000, 1, 0, 1⟩, 8, 0, 0⟩] := by decide +kernel
    have es : pulsePadded.source.x = 0 := rfl
    rw [e]
    simp only [List.map_cons, List.map_nil, offset, es]
    rw [spectrum_pulse f 1 2 14 _ rfl, spectrum_pulse f 2 3 13 _ rfl, spectrum_pulse f 4 7 11 _ rfl]
    norm_num
  have hpow : ∀ v : ℝ, beamformingPower pulsePadded (weightOf pulsePadded.source none (125 : ℚ)) (lagOf (fun _ => 0) none)
      (125 : ℚ) v = ‖2 * exp ((2 * Real.pi * 125 * 2 * (1 / v - 1 / 2000) : ℝ) * I) +
        (3 * exp ((2 * Real.pi * 125 * 4 * (1 / v - 1 / 2000) : ℝ) * I) +
        7 * exp ((2 * Real.pi * 125 * 8 * (1 / v - 1 / 2000) : ℝ) * I))‖ ^ 2 := by
    intro v
    unfold beamformingPower
    have e : (pulsePadded.sensors.map fun s => exp ((lagOf (fun _ => 0) none (2 * Real.pi * (125 : ℚ) / v *
        (offset pulsePadded.source s : ℚ)) : ℝ) * I) * (weightOf pulsePadded.source none (125 : ℚ) s *
          spectrumAt (125 : ℚ) s)) =
        (pulsePadded.sensors.map (fun s => (offset pulsePadded.source s, spectrumAt (125 : ℚ) s))).map fun p =>
          exp ((2 * Real.pi * (125 : ℚ) / v * (p.1 : ℚ) : ℝ) * I) * p.2 := by
      rw [List.map_map]
      refine List.map_congr_left fun s _ => ?_
      simp [lagOf, weightOf]
    rw [e, sp]
    simp only [List.map_cons, List.map_nil, List.sum_cons, List.sum_nil, add_zero]
    congr 2
    have key : ∀ (c : ℂ) (x y z : ℝ), x + -y = z → exp ((x : ℂ) * I) * (c * exp (-(y : ℂ) * I)) = c * exp ((z : ℂ) * I) := by
      intro c x y z h
      rw [← h]
      push_cast
      rw [add_mul, Complex.exp_add]
      ring
    rw [key 2 _ _ (2 * Real.pi * 125 * 2 * (1 / v - 1 / 2000)) (by push_cast; ring),
      key 3 _ _ (2 * Real.pi * 125 * 4 * (1 / v - 1 / 2000)) (by push_cast; ring),
      key 7 _ _ (2 * Real.pi * 125 * 8 * (1 / v - 1 / 2000)) (by push_cast; ring)]
  have htot : (pulsePadded.sensors.map fun s => weightOf pulsePadded.source none ((125 : ℚ) : ℝ) s *
      ‖spectrumAt ((125 : ℚ) : ℝ) s‖).sum = 12 := by
    have e : (pulsePadded.sensors.map fun s => weightOf pulsePadded.source none ((125 : ℚ) : ℝ) s *
        ‖spectrumAt ((125 : ℚ) : ℝ) s‖) =
        (pulsePadded.sensors.map (fun s => (offset pulsePadded.source s, spectrumAt (125 : ℚ) s))).map fun p => ‖p.2‖ := by
      rw [List.map_map]
      refine List.map_congr_left fun s _ => ?_
      simp [weightOf]
    rw [e, sp]
    simp only [List.map_cons, List.map_nil, List.sum_cons, List.sum_nil, add_zero, norm_mul, norm_exp_neg_real_I]
    norm_num
  refine h3 1 125 (1 / 200) 0 2000 _ (by rw [hf]; rfl) (by norm_num) (noiseFirst_close _) (by rw [hv]; rfl)
    (hP 0 1 2000 125 (by rw [hv]; rfl) (by rw [hf]; rfl) (by intro h; cases h)) ?_
  intro i' v' q hi' hne hq
  have hv4 : v' = 4000 := by
    have := List.mem_of_getElem? hi'
    rw [hv] at this
    simp only [List.mem_cons, List.not_mem_nil, or_false] at this
    exact this.resolve_left hne
  subst hv4
  rw [hP i' 1 4000 125 hi' (by rw [hf]; rfl) (by intro h; cases h)] at hq
  cases hq
  simp only [Complex.ofReal_re]
  rw [hpow, hpow, htot, Real.sqrt_sq (norm_nonneg _), Real.sqrt_sq (norm_nonneg _)]
  have e1 : ‖2 * exp ((2 * Real.pi * 125 * 2 * (1 / 2000 - 1 / 2000) : ℝ) * I) +
        (3 * exp ((2 * Real.pi * 125 * 4 * (1 / 2000 - 1 / 2000) : ℝ) * I) +
        7 * exp ((2 * Real.pi * 125 * 8 * (1 / 2000 - 1 / 2000) : ℝ) * I))‖ = 12 := by
    simp only [sub_self, mul_zero, Complex.ofReal_zero, zero_mul, Complex.exp_zero]
    norm_num
  rw [e1, show (2 * Real.pi * 125 * 4 * (1 / 4000 - 1 / 2000) : ℝ) = -(Real.pi / 4) by ring,
    show (2 * Real.pi * 125 * 8 * (1 / 4000 - 1 / 2000) : ℝ) = -(Real.pi / 2) by ring]
  have h1 := norm_add_le (2 * exp ((2 * Real.pi * 125 * 2 * (1 / 4000 - 1 / 2000) : ℝ) * I))
    (3 * exp ((-(Real.pi / 4) : ℝ) * I) + 7 * exp ((-(Real.pi / 2) : ℝ) * I))
  rw [norm_mul, norm_exp_real_I] at h1
  have h2 : ‖3 * exp ((-(Real.pi / 4) : ℝ) * I) + 7 * exp ((-(Real.pi / 2) : ℝ) * I)‖ ≤ 9.5 := by
    refine abs_le_of_sq_le_sq' ?_ (by norm_num) |>.2
    rw [Complex.sq_norm, Complex.normSq_apply]
    have hr : (3 * exp ((-(Real.pi / 4) : ℝ) * I) + 7 * exp ((-(Real.pi / 2) : ℝ) * I)).re = 3 * (√2 / 2) := by
      rw [add_re, show (3 : ℂ) = ((3 : ℝ) : ℂ) by norm_num, show (7 : ℂ) = ((7 : ℝ) : ℂ) by norm_num, re_ofReal_mul,
        re_ofReal_mul, exp_ofReal_mul_I_re, exp_ofReal_mul_I_re, Real.cos_neg, Real.cos_neg, Real.cos_pi_div_four,
        Real.cos_pi_div_two]
      ring
    have hi : (3 * exp ((-(Real.pi / 4) : ℝ) * I) + 7 * exp ((-(Real.pi / 2) : ℝ) * I)).im = -(3 * (√2 / 2)) - 7 := by
      rw [add_im, show (3 : ℂ) = ((3 : ℝ) : ℂ) by norm_num, show (7 : ℂ) = ((7 : ℝ) : ℂ) by norm_num, im_ofReal_mul,
        im_ofReal_mul, exp_ofReal_mul_I_im, exp_ofReal_mul_I_im, Real.sin_neg, Real.sin_neg, Real.sin_pi_div_four,
        Real.sin_pi_div_two]
      ring
    rw [hr, hi]
    have hs : √2 * √2 = 2 := Real.mul_self_sqrt (by norm_num)
    have hs1 : √2 ≤ 1.5 := by
      rw [Real.sqrt_le_left (by norm_num)]
      norm_num
    nlinarith
  have h3 : ‖(2 : ℂ)‖ = 2 := by norm_num
  rw [h3] at h1
  simp only [if_neg (show ¬ (none : Option String) = some "invamp" by simp)]
  norm_num at h1 h2 ⊢
  linarith

end Verif.Props
