import Verif.Spec.Alias
import Verif.Props.Noise
import Verif.Props.ArrayViews

/-!
# C164: twice the resolution wavenumber is the limit of what an array can tell apart
-/

open Complex

namespace Verif.Props
open Verif WT Spec Workflow

/-- **C164** (resolution wavenumber).  `kres` of an evenly spaced array is π divided by its spacing. -/
theorem C164_kres (a : Arr) (hc : Consistent a) (h2 : 2 ≤ a.sensors.length) (d : ℚ) (hd : OnGrid a d) :
    a.kres = .ok (Arr.pyPi / d) := by
  obtain ⟨k, m, hk, hkm, hm, ⟨i, j, s, t, hij, hs, ht, hmd⟩, hle⟩ := C25_kres_times_smallest_spacing_is_pi a hc h2
  obtain ⟨hd0, x0, hx⟩ := hd
  have e0 := List.getElem?_eq_getElem (show 0 < a.sensors.length by omega)
  have e1 := List.getElem?_eq_getElem (show 1 < a.sensors.length by omega)
  have h1 := hle 0 1 _ _ (by omega) e0 e1
  rw [hx _ _ e0, hx _ _ e1] at h1
  rw [hx _ _ hs, hx _ _ ht] at hmd
  have hji : (1 : ℚ) ≤ (j : ℚ) - i := by
    have : (i : ℚ) + 1 ≤ j := by exact_mod_cast hij
    linarith
  have : m = d := by
    have h3 : d ≤ m := by rw [hmd]; nlinarith
    push_cast at h1
    linarith
  subst this
  rw [hk, ← hkm, mul_div_cancel_right₀ _ hm.ne']

theorem evenly_offsets {a : Arr} {d : ℚ} (hd : OnGrid a d)
    (hout : (∀ s ∈ a.sensors, a.source.x ≤ s.x) ∨ (∀ s ∈ a.sensors, s.x < a.source.x)) :
    ∀ s ∈ a.sensors, ∀ s' ∈ a.sensors, ∃ z : ℤ, offset a.source s' - offset a.source s = z * d := by
  obtain ⟨-, x0, hx⟩ := hd
  intro s hs s' hs'
  obtain ⟨i, hi⟩ := List.mem_iff_getElem?.1 hs
  obtain ⟨i', hi'⟩ := List.mem_iff_getElem?.1 hs'
  rcases hout with ho | ho
  · refine ⟨(i' : ℤ) - i, ?_⟩
    unfold offset
    rw [abs_sub_comm, abs_of_nonneg (by linarith [ho s' hs']), abs_sub_comm, abs_of_nonneg (by linarith [ho s hs]),
      hx _ _ hi, hx _ _ hi']
    push_cast
    ring
  · refine ⟨(i : ℤ) - i', ?_⟩
    unfold offset
    rw [abs_of_pos (by linarith [ho s' hs']), abs_of_pos (by linarith [ho s hs]), hx _ _ hi, hx _ _ hi']
    push_cast
    ring

/-- The steering vectors of the two velocities differ by a factor of magnitude one. -/
theorem steering_alias {a : Arr} {d k : ℚ} (hc : Consistent a) (h2 : 2 ≤ a.sensors.length) (hd : OnGrid a d)
    (hk : a.kres = .ok k) (hout : (∀ s ∈ a.sensors, a.source.x ≤ s.x) ∨ (∀ s ∈ a.sensors, s.x < a.source.x))
    {f v v' : ℝ} (hv : WavenumbersDiffer k f v v') :
    ∃ c : ℂ, ‖c‖ = 1 ∧ ∀ s ∈ a.sensors, exp ((2 * Real.pi * f * (offset a.source s : ℚ) / v' : ℝ) * I) =
      c * exp ((2 * Real.pi * f * (offset a.source s : ℚ) / v : ℝ) * I) := by
  rw [C164_kres a hc h2 d hd] at hk
  cases hk
  obtain ⟨m, hm⟩ := hv
  have hpi : (Arr.pyPi : ℝ) ≠ 0 := by
    have : Arr.pyPi ≠ 0 := by decide +kernel
    exact_mod_cast this
  have hd0 : (d : ℝ) ≠ 0 := by exact_mod_cast hd.1.ne'
  have hfd : f * d / v' = f * d / v + m := by
    have e : ∀ w : ℝ, f * d / w = (2 * (Arr.pyPi : ℝ) * f / w) * (d / (2 * Arr.pyPi)) := by
      intro w
      field_simp
    rw [e v', e v, hm]
    push_cast
    field_simp
  obtain ⟨s0, rest, hs⟩ := List.exists_cons_of_ne_nil hc.1
  have hs0 : s0 ∈ a.sensors := by rw [hs]; exact List.mem_cons_self
  refine ⟨exp ((2 * Real.pi * f * (offset a.source s0 : ℚ) / v' - 2 * Real.pi * f * (offset a.source s0 : ℚ) / v : ℝ) * I),
    norm_exp_real_I _, fun s hs => ?_⟩
  obtain ⟨z, hz⟩ := evenly_offsets hd hout s0 hs0 s hs
  have ho : ((offset a.source s : ℚ) : ℝ) = (offset a.source s0 : ℚ) + z * d := by
    have : offset a.source s = offset a.source s0 + z * d := by linarith
    exact_mod_cast this
  rw [← Complex.exp_add, Complex.exp_eq_exp_iff_exists_int]
  refine ⟨z * m, ?_⟩
  have key : (2 * Real.pi * f * (offset a.source s : ℚ) / v' : ℝ) =
      (2 * Real.pi * f * (offset a.source s0 : ℚ) / v' - 2 * Real.pi * f * (offset a.source s0 : ℚ) / v) +
        2 * Real.pi * f * (offset a.source s : ℚ) / v + z * m * (2 * Real.pi) := by
    have : ∀ w : ℝ, 2 * Real.pi * f * ((offset a.source s : ℚ) : ℝ) / w =
        2 * Real.pi * f * ((offset a.source s0 : ℚ) : ℝ) / w + 2 * Real.pi * z * (f * d / w) := by
      intro w
      rw [ho]
      ring
    rw [this v', this v, hfd]
    ring
  rw [key]
  push_cast
  ring

theorem integral_mul (c : ℂ) (x : Sensor → ℝ) (z : Sensor → ℂ) (l : List Sensor) :
    integral (l.map fun s => (x s, c * z s)) = c * integral (l.map fun s => (x s, z s)) := by
  induction l with
  | nil => simp [integral]
  | cons s l ih =>
    rcases l with _ | ⟨r, l⟩
    · simp [integral]
    · simp only [List.map_cons, integral] at ih ⊢
      rw [ih]
      ring

/-- **C164** (phase shift, aliased).  On an evenly spaced array two trial velocities whose wavenumbers differ by a multiple
of twice `kres` have the same power, whatever was recorded. -/
theorem C164_phase_shift_alias (a : Arr) (set : Settings) (t : Transform) (ht : Builtin.phaseShift a set = .ok t)
    (hc : Consistent a) (h2 : 2 ≤ a.sensors.length) (d k : ℚ) (hd : OnGrid a d) (hk : a.kres = .ok k)
    (hdt : ∀ s ∈ a.sensors, 0 < s.ts.dt)
    (hout : (∀ s ∈ a.sensors, a.source.x ≤ s.x) ∨ (∀ s ∈ a.sensors, s.x < a.source.x))
    (j : ℕ) (f : ℚ) (hj : t.frequencies[j]? = some f) (hU : ∀ s ∈ a.sensors, spectrumAt f s ≠ 0)
    (i i' : ℕ) (v v' : ℝ) (hi : t.velocities[i]? = some v) (hi' : t.velocities[i']? = some v')
    (hv : WavenumbersDiffer k f v v') :
    ∃ p : ℂ, (t.power[i]?.bind fun row => row[j]?) = some p ∧ (t.power[i']?.bind fun row => row[j]?) = some p := by
  obtain ⟨ss, hss, -, -, hP⟩ := C117_phase_shift a set t ht hc hdt hout
  refine ⟨_, hP i j v f hi hj hU, ?_⟩
  rw [hP i' j v' f hi' hj hU]
  congr 2
  obtain ⟨c, hc1, hcs⟩ := steering_alias hc h2 hd hk hout hv
  unfold phaseShiftPower
  have e : (ss.map fun s => (((offset a.source s : ℚ) : ℝ),
      exp ((2 * Real.pi * f * (offset a.source s : ℚ) / v' : ℝ) * I) * (spectrumAt f s / ‖spectrumAt f s‖))) =
      ss.map fun s => (((offset a.source s : ℚ) : ℝ),
        c * (exp ((2 * Real.pi * f * (offset a.source s : ℚ) / v : ℝ) * I) * (spectrumAt f s / ‖spectrumAt f s‖))) := by
    refine List.map_congr_left fun s hs => ?_
    rw [hcs s (hss.1.mem_iff.1 hs), mul_assoc]
  rw [e, integral_mul c fun s => ((offset a.source s : ℚ) : ℝ), norm_mul, hc1, one_mul]

/-- **C164** (beamforming, aliased).  The same for the beamformer with plane steering. -/
theorem C164_beamforming_alias (hankel : ℝ → ℂ) (a : Arr) (set : Settings) (t : Transform)
    (ht : Builtin.fdbf hankel a set = .ok t) (hplane : (Builtin.specific set.fdbf).get "steering" ≠ some "cylindrical")
    (hc : Consistent a) (h2 : 2 ≤ a.sensors.length) (d k : ℚ) (hd : OnGrid a d) (hk : a.kres = .ok k)
    (hdt : ∀ s ∈ a.sensors, 0 < s.ts.dt)
    (hout : (∀ s ∈ a.sensors, a.source.x ≤ s.x) ∨ (∀ s ∈ a.sensors, s.x < a.source.x))
    (j : ℕ) (f : ℚ) (hj : t.frequencies[j]? = some f) (hU : ∀ s ∈ a.sensors, spectrumAt f s ≠ 0)
    (i i' : ℕ) (v v' : ℝ) (hi : t.velocities[i]? = some v) (hi' : t.velocities[i']? = some v')
    (hv : WavenumbersDiffer k f v v') :
    ∃ p : ℂ, (t.power[i]?.bind fun row => row[j]?) = some p ∧ (t.power[i']?.bind fun row => row[j]?) = some p := by
  obtain ⟨-, -, hP⟩ := C117_beamforming hankel a set t ht hc hdt
  refine ⟨_, hP i j v f hi hj fun _ => hU, ?_⟩
  rw [hP i' j v' f hi' hj fun _ => hU]
  congr 2
  obtain ⟨c, hc1, hcs⟩ := steering_alias hc h2 hd hk hout hv
  unfold beamformingPower
  have e : ∀ s ∈ a.sensors, exp ((lagOf hankel ((Builtin.specific set.fdbf).get "steering")
      (2 * Real.pi * f / v' * (offset a.source s : ℚ)) : ℝ) * I) = c * exp ((lagOf hankel
        ((Builtin.specific set.fdbf).get "steering") (2 * Real.pi * f / v * (offset a.source s : ℚ)) : ℝ) * I) := by
    intro s hs
    have := hcs s hs
    simp only [lagOf, if_neg hplane]
    rw [show 2 * Real.pi * (f : ℝ) / v' * (offset a.source s : ℚ) = 2 * Real.pi * f * (offset a.source s : ℚ) / v' by ring,
      show 2 * Real.pi * (f : ℝ) / v * (offset a.source s : ℚ) = 2 * Real.pi * f * (offset a.source s : ℚ) / v by ring]
    exact this
  have hsum : ∀ (w : Sensor → ℂ) (l : List Sensor), (∀ s ∈ l, s ∈ a.sensors) →
      (l.map fun s => exp ((lagOf hankel ((Builtin.specific set.fdbf).get "steering")
        (2 * Real.pi * f / v' * (offset a.source s : ℚ)) : ℝ) * I) * w s).sum =
      c * (l.map fun s => exp ((lagOf hankel ((Builtin.specific set.fdbf).get "steering")
        (2 * Real.pi * f / v * (offset a.source s : ℚ)) : ℝ) * I) * w s).sum := by
    intro w l hl
    induction l with
    | nil => simp
    | cons s l ih =>
      simp only [List.map_cons, List.sum_cons]
      rw [ih fun r hr => hl r (List.mem_cons_of_mem _ hr), e s (hl s List.mem_cons_self)]
      ring
  rw [hsum _ _ fun _ h => h, norm_mul, hc1, one_mul]

/-- **C164** (frequency-wavenumber, aliased).  The same, whatever steering the settings ask for. -/
theorem C164_fk_alias (hankel : ℝ → ℂ) (a : Arr) (set : Settings) (t : Transform)
    (ht : Builtin.fk hankel a set = .ok t)
    (hc : Consistent a) (h2 : 2 ≤ a.sensors.length) (d k : ℚ) (hd : OnGrid a d) (hk : a.kres = .ok k)
    (hdt : ∀ s ∈ a.sensors, 0 < s.ts.dt)
    (hout : (∀ s ∈ a.sensors, a.source.x ≤ s.x) ∨ (∀ s ∈ a.sensors, s.x < a.source.x))
    (j : ℕ) (f : ℚ) (hj : t.frequencies[j]? = some f) (hU : ∀ s ∈ a.sensors, spectrumAt f s ≠ 0)
    (i i' : ℕ) (v v' : ℝ) (hi : t.velocities[i]? = some v) (hi' : t.velocities[i']? = some v')
    (hv : WavenumbersDiffer k f v v') :
    ∃ p : ℂ, (t.power[i]?.bind fun row => row[j]?) = some p ∧ (t.power[i']?.bind fun row => row[j]?) = some p := by
  obtain ⟨d', hw, hst, he⟩ := fk_eq_fdbf hankel a set t ht
  rw [he] at ht
  exact C164_beamforming_alias hankel a _ t ht (by rw [hst]; simp) hc h2 d k hd hk hdt hout j f hj hU i i' v v' hi hi' hv

/-- Of the velocities with the largest power the first is picked. -/
theorem findPeak_first (t : Transform) (hne : t.velocities ≠ [])
    (hrows : t.power.length = t.velocities.length) (hcols : ∀ row ∈ t.power, row.length = t.frequencies.length) :
    ∃ vs, Builtin.findPeakPower t "frequency-maximum" = .ok vs ∧ vs.length = t.frequencies.length ∧
      ∀ (j : ℕ) (v : ℝ), vs[j]? = some v → ∃ i : ℕ, t.velocities[i]? = some v ∧
        ∀ i' : ℕ, i' < i → (t.power[i']?.bind fun row : List ℂ => row[j]?) ≠ (t.power[i]?.bind fun row : List ℂ => row[j]?) := by
  have hpne : t.power ≠ [] := by
    intro h; rw [h] at hrows; exact hne (List.length_eq_zero_iff.1 hrows.symm)
  have hcol : ∀ c, ∃ i, argmaxBy Builtin.complexLt (t.power.map fun row => row.getD c 0) = some i ∧
      ∃ hi : i < t.power.length, ∀ (i' : ℕ) (h' : i' < i),
        Builtin.complexLt ((t.power[i']'(by omega)).getD c 0) ((t.power[i]).getD c 0) = true := by
    intro c
    obtain ⟨i, hi, hil, -, h1⟩ := argmaxBy_spec complexLt_rankOrder (t.power.map fun row => row.getD c 0)
      (by simpa using hpne)
    have hil' : i < t.power.length := by simpa using hil
    refine ⟨i, hi, hil', ?_⟩
    intro i' h'
    have := h1 i' (by simp; omega) h'
    simpa using this
  choose f hf1 hf2 hf3 using hcol
  have hnf : (t.power.headD []).length = t.frequencies.length := by
    obtain ⟨r, rs, hr⟩ := List.exists_cons_of_ne_nil hpne
    rw [hr]
    exact hcols r (by rw [hr]; exact List.mem_cons_self)
  refine ⟨(List.range t.frequencies.length).map fun c => t.velocities.getD (f c) 0, ?_, by simp, ?_⟩
  · unfold Builtin.findPeakPower findPeakBy
    rw [if_pos rfl, hnf]
    refine mapM_ok_of _ _ _ ?_
    intro c _
    have := hf2 c
    rw [hrows] at this
    rw [hf1 c]
    simp [List.getD_eq_getElem?_getD, this]
  · intro j v hv
    have hj : j < t.frequencies.length := by
      have := (List.getElem?_eq_some_iff.1 hv).1
      simpa using this
    have hfj := hf2 j
    have hfj' := hfj
    rw [hrows] at hfj'
    have hget : ((List.range t.frequencies.length).map fun c => t.velocities.getD (f c) 0)[j]? =
        some (t.velocities[f j]'hfj') := by
      rw [List.getElem?_map, List.getElem?_range hj]
      simp [List.getD_eq_getElem?_getD, hfj']
    rw [hget] at hv
    cases hv
    refine ⟨f j, List.getElem?_eq_getElem hfj', ?_⟩
    intro i' h' heq
    have h3 := hf3 j i' h'
    have h4 : i' < t.power.length := by omega
    rw [List.getElem?_eq_getElem h4, List.getElem?_eq_getElem hfj] at heq
    simp only [Option.bind_some] at heq
    rw [List.getD_eq_getElem?_getD, List.getD_eq_getElem?_getD, heq, complexLt_rankOrder.irrefl] at h3
    cases h3

/-- **C164** (picks, aliased).  Of two trial velocities which the array cannot tell apart the one which comes later in the
list is never picked, even if it is the velocity of the wave. -/
theorem C164_phase_shift_alias_pick (a : Arr) (set : Settings) (t : Transform) (ht : Builtin.phaseShift a set = .ok t)
    (hc : Consistent a) (h2 : 2 ≤ a.sensors.length) (d k : ℚ) (hd : OnGrid a d) (hk : a.kres = .ok k)
    (hdt : ∀ s ∈ a.sensors, 0 < s.ts.dt)
    (hout : (∀ s ∈ a.sensors, a.source.x ≤ s.x) ∨ (∀ s ∈ a.sensors, s.x < a.source.x)) (hne : t.velocities ≠ []) :
    ∃ vs, Builtin.findPeakPower t "frequency-maximum" = .ok vs ∧ vs.length = t.frequencies.length ∧
      ∀ (j : ℕ) (f : ℚ) (i' : ℕ) (v v' : ℝ), t.frequencies[j]? = some f → (∀ s ∈ a.sensors, spectrumAt f s ≠ 0) →
        t.velocities[i']? = some v' → (∀ i : ℕ, t.velocities[i]? = some v → i' < i) → WavenumbersDiffer k f v v' →
        vs[j]? ≠ some v := by
  obtain ⟨ss, hss, hrows, hcols, -⟩ := C117_phase_shift a set t ht hc hdt hout
  obtain ⟨vs, h1, h2', h3⟩ := findPeak_first t hne hrows hcols
  refine ⟨vs, h1, h2', ?_⟩
  intro j f i' v v' hj hU hi' hlater hv hpick
  obtain ⟨i, hi, hfirst⟩ := h3 j v hpick
  obtain ⟨p, e1, e2⟩ := C164_phase_shift_alias a set t ht hc h2 d k hd hk hdt hout j f hj hU i i' v v' hi hi' hv
  exact hfirst i' (hlater i hi) (by rw [e1, e2])

/-- A pair of sensors at the smallest spacing is closer together than the wavelengths of all trial velocities. -/
theorem resolves_of_kres {a : Arr} (hc : Consistent a) (h2 : 2 ≤ a.sensors.length) {k : ℚ} (hk : a.kres = .ok k) {f : ℚ}
    {velocities : List ℝ} (hpos : ∀ w ∈ velocities, 0 < w) (hb : ∀ w ∈ velocities, WavenumberBelow k f w) :
    ∃ s ∈ a.sensors, ∃ s' ∈ a.sensors, s.x < s'.x ∧ ∀ w ∈ velocities, (f : ℝ) * (s'.x - s.x) < w := by
  obtain ⟨k', m, hk', hkm, hm, ⟨i, j, s, t, hij, hs, ht, hmd⟩, -⟩ := C25_kres_times_smallest_spacing_is_pi a hc h2
  rw [hk] at hk'
  cases hk'
  refine ⟨s, List.mem_of_getElem? hs, t, List.mem_of_getElem? ht, by linarith, fun w hw => ?_⟩
  have h1 := hb w hw
  have hw0 := hpos w hw
  unfold WavenumberBelow at h1
  rw [div_lt_iff₀ hw0] at h1
  have hpi : (0 : ℝ) < (Arr.pyPi : ℝ) := by
    have : 0 < Arr.pyPi := by decide +kernel
    exact_mod_cast this
  have hm' : (0 : ℝ) < m := by exact_mod_cast hm
  have hkm' : (k : ℝ) * m = Arr.pyPi := by exact_mod_cast hkm
  have hmd' : ((t.x : ℝ) - s.x) = m := by rw [hmd]; push_cast; ring
  rw [hmd']
  have h4 : (Arr.pyPi : ℝ) * (f * m) < Arr.pyPi * w := by
    have : (Arr.pyPi : ℝ) * f < k * w := by linarith
    have := mul_lt_mul_of_pos_right this hm'
    calc (Arr.pyPi : ℝ) * (f * m) = Arr.pyPi * f * m := by ring
      _ < k * w * m := this
      _ = Arr.pyPi * w := by rw [← hkm']; ring
  exact lt_of_mul_lt_mul_left h4 hpi.le

/-- **C164** (phase shift, not aliased).  On any array, if at a frequency the wavenumbers of all trial velocities are below
twice `kres`, then the velocity of a wave crossing the array is picked. -/
theorem C164_phase_shift_unaliased (a : Arr) (set : Settings) (t : Transform)
    (ht : Builtin.phaseShift a set = .ok t) (hc : Consistent a) (h2 : 2 ≤ a.sensors.length)
    (hout : (∀ s ∈ a.sensors, a.source.x ≤ s.x) ∨ (∀ s ∈ a.sensors, s.x < a.source.x)) (k : ℚ) (hk : a.kres = .ok k)
    (v dt : ℚ) (lead : ℤ) (pulse : List ℚ) (n : ℕ) (hdt : 0 < dt) (hp : CarriesPulse a v dt lead pulse n)
    (hmem : (v : ℝ) ∈ t.velocities) (hpos : ∀ w ∈ t.velocities, 0 < w) :
    ∃ vs, Builtin.findPeakPower t "frequency-maximum" = .ok vs ∧ vs.length = t.frequencies.length ∧
      ∀ (j : ℕ) (f : ℚ), t.frequencies[j]? = some f → 0 < f → pulseSpectrum pulse (f * dt) ≠ 0 →
        (∀ w ∈ t.velocities, WavenumberBelow k f w) → vs[j]? = some (v : ℝ) := by
  obtain ⟨vs, h1, h2', h3⟩ := C114_phase_shift_recovers a set t ht hc hout v dt lead pulse n hdt hp hmem hpos
  exact ⟨vs, h1, h2', fun j f a1 a2 a3 a4 => h3 j f a1 a2 a3 (resolves_of_kres hc h2 hk hpos a4)⟩

/-- **C164** (beamforming, not aliased).  The same for the beamformer with plane steering and sensors away from the
source. -/
theorem C164_beamforming_unaliased (hankel : ℝ → ℂ) (a : Arr) (set : Settings) (t : Transform)
    (ht : Builtin.fdbf hankel a set = .ok t) (hplane : (Builtin.specific set.fdbf).get "steering" ≠ some "cylindrical")
    (hc : Consistent a) (h2 : 2 ≤ a.sensors.length)
    (hout : (∀ s ∈ a.sensors, a.source.x ≤ s.x) ∨ (∀ s ∈ a.sensors, s.x < a.source.x))
    (haway : ∀ s ∈ a.sensors, s.x ≠ a.source.x) (k : ℚ) (hk : a.kres = .ok k)
    (v dt : ℚ) (lead : ℤ) (pulse : List ℚ) (n : ℕ) (hdt : 0 < dt) (hp : CarriesPulse a v dt lead pulse n)
    (hmem : (v : ℝ) ∈ t.velocities) (hpos : ∀ w ∈ t.velocities, 0 < w) :
    ∃ vs, Builtin.findPeakPower t "frequency-maximum" = .ok vs ∧ vs.length = t.frequencies.length ∧
      ∀ (j : ℕ) (f : ℚ), t.frequencies[j]? = some f → 0 < f → pulseSpectrum pulse (f * dt) ≠ 0 →
        (∀ w ∈ t.velocities, WavenumberBelow k f w) → vs[j]? = some (v : ℝ) := by
  obtain ⟨vs, h1, h2', h3⟩ := C114_beamforming_recovers hankel a set t ht hplane hc hout v dt lead pulse n hdt hp hmem hpos
  refine ⟨vs, h1, h2', fun j f a1 a2 a3 a4 => h3 j f a1 a2 a3 ?_⟩
  obtain ⟨s, hs, s', hs', hlt, hw⟩ := resolves_of_kres hc h2 hk hpos a4
  exact ⟨s, hs, s', hs', hlt, haway s hs, haway s' hs', hw⟩

/-- **C164** (frequency-wavenumber, not aliased). -/
theorem C164_fk_unaliased (hankel : ℝ → ℂ) (a : Arr) (set : Settings) (t : Transform)
    (ht : Builtin.fk hankel a set = .ok t)
    (hc : Consistent a) (h2 : 2 ≤ a.sensors.length)
    (hout : (∀ s ∈ a.sensors, a.source.x ≤ s.x) ∨ (∀ s ∈ a.sensors, s.x < a.source.x))
    (haway : ∀ s ∈ a.sensors, s.x ≠ a.source.x) (k : ℚ) (hk : a.kres = .ok k)
    (v dt : ℚ) (lead : ℤ) (pulse : List ℚ) (n : ℕ) (hdt : 0 < dt) (hp : CarriesPulse a v dt lead pulse n)
    (hmem : (v : ℝ) ∈ t.velocities) (hpos : ∀ w ∈ t.velocities, 0 < w) :
    ∃ vs, Builtin.findPeakPower t "frequency-maximum" = .ok vs ∧ vs.length = t.frequencies.length ∧
      ∀ (j : ℕ) (f : ℚ), t.frequencies[j]? = some f → 0 < f → pulseSpectrum pulse (f * dt) ≠ 0 →
        (∀ w ∈ t.velocities, WavenumberBelow k f w) → vs[j]? = some (v : ℝ) := by
  obtain ⟨vs, h1, h2', h3⟩ := C114_fk_recovers hankel a set t ht hc hout v dt lead pulse n hdt hp hmem hpos
  refine ⟨vs, h1, h2', fun j f a1 a2 a3 a4 => h3 j f a1 a2 a3 ?_⟩
  obtain ⟨s, hs, s', hs', hlt, hw⟩ := resolves_of_kres hc h2 hk hpos a4
  exact ⟨s, hs, s', hs', hlt, haway s hs, haway s' hs', hw⟩

/-! ## A case -/

/-- Sensors 2 m, 4 m and 6 m from the source, which a pulse reaches with 500 m/s. -/
def evenArr : Arr :=
  ⟨[⟨⟨List.replicate 4 0 ++ 1 :: List.replicate 11 0, 1 / 1000, 1, 0, 1⟩, 2, 0, 0⟩,
    ⟨⟨List.replicate 8 0 ++ 1 :: List.replicate 7 0, 1 / 1000, 1, 0, 1⟩, 4, 0, 0⟩,
    ⟨⟨List.replicate 12 0 ++ 1 :: List.replicate 3 0, 1 / 1000, 1, 0, 1⟩, 6, 0, 0⟩], ⟨0, 0, 0⟩⟩

/-- Frequencies from `f1` to `f2`, trial velocities 250 m/s and 500 m/s. -/
def evenSet (f1 f2 : ℚ) : Settings :=
  ⟨false, 0, 1, false, "interactive", none, true, 125 / 2, 0, .pinf, "phaseshift", f1, f2, 250, 500, 2, "linear",
    some [], false, 0, 1 / 1000, 0, 1 / 1000, false, 1⟩

theorem even_consistent : Consistent evenArr :=
  ⟨by decide +kernel, by decide +kernel, by simp only [SameMeta]; decide +kernel⟩

theorem even_spaced : OnGrid evenArr 2 := by
  refine ⟨by norm_num, 2, fun i s hs => ?_⟩
  rcases i with _ | _ | _ | i
  · simp only [evenArr, List.getElem?_cons_zero, Option.some.injEq] at hs
    subst hs; norm_num
  · simp only [evenArr, List.getElem?_cons_succ, List.getElem?_cons_zero, Option.some.injEq] at hs
    subst hs; norm_num
  · simp only [evenArr, List.getElem?_cons_succ, List.getElem?_cons_zero, Option.some.injEq] at hs
    subst hs; norm_num
  · simp [evenArr] at hs

example : evenArr.kres = .ok (Arr.pyPi / 2) := by decide +kernel

theorem even_transform (f1 f2 : ℚ) (ids : List ℕ) (frqs : List ℚ)
    (hids : Record.keepIds ⟨evenArr.sensors.map (fun s => s.ts.amp), [2, 4, 6], 16, 125 / 2, 1⟩ ⟨f1, f2⟩ = .ok ids)
    (hf : ids.map (fun k => (binFrequencies 16 (125 / 2 : ℚ)).getD k 0) = frqs) :
    ∃ t, Builtin.phaseShift evenArr (evenSet f1 f2) = .ok t ∧ t.frequencies = frqs ∧ t.velocities = [250, 500] := by
  have hv : Builtin.velocities (evenSet f1 f2) = .ok [250, 500] := by
    simp only [Builtin.velocities, createVector, evenSet]
    norm_num [List.range_succ, show Int.toNat 2 = 2 from rfl]
  have hrec : Record.ofArray evenArr = .ok ⟨evenArr.sensors.map (fun s => s.ts.amp), [2, 4, 6], 16, 125 / 2, 1⟩ := by
    decide +kernel
  obtain ⟨power, hp⟩ : ∃ power, WT.phaseShift ⟨evenArr.sensors.map (fun s => s.ts.amp), [2, 4, 6], 16, 125 / 2, 1⟩
      [250, 500] ⟨f1, f2⟩ = .ok (frqs, power) := by
    unfold WT.phaseShift
    rw [hids, ← hf]
    exact ⟨_, rfl⟩
  refine ⟨⟨1, frqs, [250, 500], power.map fun row => row.map fun (x : ℝ) => (x : ℂ)⟩, ?_, rfl, rfl⟩
  unfold Builtin.phaseShift
  rw [hv, hrec]
  simp only [bind, Except.bind, evenSet, hp]
  rfl

/-- At 250 Hz, with wavelengths of 1 m and 2 m, the wave of 500 m/s is picked as one of 250 m/s. -/
example : ∃ t vs, Builtin.phaseShift evenArr (evenSet 240 260) = .ok t ∧
    Builtin.findPeakPower t "frequency-maximum" = .ok vs ∧ vs.length = 1 ∧ vs[0]? ≠ some 500 := by
  obtain ⟨t, ht, hf, hv⟩ := even_transform 240 260 [4] [250] (by decide +kernel) (by decide +kernel)
  obtain ⟨vs, h1, h2, h3⟩ := C164_phase_shift_alias_pick evenArr _ t ht even_consistent (by decide +kernel) 2 (Arr.pyPi / 2)
    even_spaced (by decide +kernel) (by decide +kernel) (.inl (by decide +kernel)) (by rw [hv]; simp)
  refine ⟨t, vs, ht, h1, by rw [h2, hf]; rfl, h3 0 250 0 500 250 (by rw [hf]; rfl) ?_ (by rw [hv]; rfl) ?_ ⟨1, ?_⟩⟩
  · have key : ∀ (b : ℕ) (m : ℕ) (s : Sensor), s.ts.amp = List.replicate b 0 ++ 1 :: List.replicate m 0 →
        spectrumAt ((250 : ℚ) : ℝ) s ≠ 0 := by
      intro b m s h
      rw [spectrum_pulse _ b 1 m s h]
      exact mul_ne_zero (by norm_num) (exp_ne_zero _)
    intro s hs
    simp only [evenArr, List.mem_cons, List.not_mem_nil, or_false] at hs
    rcases hs with rfl | rfl | rfl
    · exact key 4 11 _ rfl
    · exact key 8 7 _ rfl
    · exact key 12 3 _ rfl
  · intro i hi
    rw [hv] at hi
    rcases i with _ | i
    · norm_num at hi
    · omega
  · push_cast
    ring

/-- At 62.5 Hz, with wavelengths of 4 m and 8 m, it is picked. -/
example : ∃ t vs, Builtin.phaseShift evenArr (evenSet 60 70) = .ok t ∧
    Builtin.findPeakPower t "frequency-maximum" = .ok vs ∧ vs.length = 1 ∧ vs[0]? = some 500 := by
  obtain ⟨t, ht, hf, hv⟩ := even_transform 60 70 [1] [125 / 2] (by decide +kernel) (by decide +kernel)
  obtain ⟨vs, h1, h2, h3⟩ := C164_phase_shift_unaliased evenArr _ t ht even_consistent (by decide +kernel)
    (.inl (by decide +kernel)) (Arr.pyPi / 2) (by decide +kernel) 500 (1 / 1000) 0 [1] 16 (by norm_num)
    (by
      intro s hs
      simp only [evenArr, List.mem_cons, List.not_mem_nil, or_false] at hs
      rcases hs with rfl | rfl | rfl
      · exact ⟨rfl, 4, 11, 1, by decide +kernel⟩
      · exact ⟨rfl, 8, 7, 1, by decide +kernel⟩
      · exact ⟨rfl, 12, 3, 1, by decide +kernel⟩) (by rw [hv]; simp)
    (by rw [hv]; intro w hw; simp at hw; rcases hw with rfl | rfl <;> norm_num)
  refine ⟨t, vs, ht, h1, by rw [h2, hf]; rfl, ?_⟩
  have := h3 0 (125 / 2) (by rw [hf]; rfl) (by norm_num) (by simp [pulseSpectrum]) (by
    rw [hv]
    intro w hw
    have hpi : (0 : ℝ) < (Arr.pyPi : ℝ) := by
      have : 0 < Arr.pyPi := by decide +kernel
      exact_mod_cast this
    simp only [List.mem_cons, List.not_mem_nil, or_false] at hw
    rcases hw with rfl | rfl <;> unfold WavenumberBelow <;> push_cast <;> linarith)
  simpa using this

end Verif.Props
