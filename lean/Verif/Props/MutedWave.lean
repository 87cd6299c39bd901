import Verif.Props.Recovery
import Verif.Props.ArrayMute

/-!
# C160: muting lets the wave through and takes everything else away
-/

namespace Verif.Props
open Verif Arr Spec Workflow

/-! ## What is meant -/

/-- A record with other samples. -/
def withSamples (s : Sensor) (amp : List ℚ) : Sensor := ⟨⟨amp, s.ts.dt, s.ts.nstacks, s.ts.delay, s.ts.multiple⟩, s.x, s.y, s.z⟩

/-- Time of sample `k` of a record. -/
def sampleTime (s : Sensor) (k : ℕ) : ℚ := s.ts.delay + k * s.ts.dt

/-- A window function of the requested length with tapers of the fraction `α` of it in all: between them it is one. -/
def TaperedBy (α : ℚ) (w : ℕ → List ℚ) : Prop :=
  ∀ m, (w m).length = m ∧ ∀ k : ℕ, α / 2 * ((m : ℚ) - 1) ≤ k → k ≤ (1 - α / 2) * ((m : ℚ) - 1) → (w m)[k]? = some 1

/-- At this receiver the end line is not before the start line and both are in the record, which does not start after
time zero. -/
def LinesInside (start stop : Line) (s : Sensor) : Prop :=
  s.ts.delay ≤ 0 ∧ s.ts.delay ≤ lineTime start s.x ∧ lineTime start s.x ≤ lineTime stop s.x ∧
    lineTime stop s.x ≤ s.ts.delay + s.ts.amp.length * s.ts.dt

/-- Sample `k` is before the start line, by a step or more, or not before the end line. -/
def OffLines (start stop : Line) (s : Sensor) (k : ℕ) : Prop :=
  sampleTime s k + s.ts.dt ≤ lineTime start s.x ∨ lineTime stop s.x ≤ sampleTime s k

/-- Sample `k` is between the lines, away from the start line by the taper and from the end line by the taper and two
steps. -/
def PastTapers (α : ℚ) (start stop : Line) (s : Sensor) (k : ℕ) : Prop :=
  lineTime start s.x + α / 2 * (lineTime stop s.x - lineTime start s.x) ≤ sampleTime s k ∧
    sampleTime s k + 2 * s.ts.dt ≤ lineTime stop s.x - α / 2 * (lineTime stop s.x - lineTime start s.x)

/-- The record of `s` is a wave and something else; the wave is between the lines, past the tapers, and the rest is off
the lines. -/
def Separated (α : ℚ) (start stop : Line) (s : Sensor) (wave : List ℚ) : Prop :=
  wave.length = s.ts.amp.length ∧ ∀ k < s.ts.amp.length,
    (wave.getD k 0 ≠ 0 → PastTapers α start stop s k) ∧ (s.ts.amp.getD k 0 ≠ wave.getD k 0 → OffLines start stop s k)

/-! ## One record -/

theorem lineSample {s : Sensor} {l : Line} (hdt : 0 < s.ts.dt) (h0 : s.ts.delay ≤ 0) (h : s.ts.delay ≤ lineTime l s.x) :
    startSample s (some l) = ⌊(lineTime l s.x - s.ts.delay) / s.ts.dt⌋ ∧
      stopSample s (some l) = ⌊(lineTime l s.x - s.ts.delay) / s.ts.dt⌋ := by
  have habs : |s.ts.delay / s.ts.dt| = -(s.ts.delay / s.ts.dt) :=
    abs_of_nonpos (div_nonpos_of_nonpos_of_nonneg h0 hdt.le)
  have key : pyInt (lineTime l s.x / s.ts.dt + |s.ts.delay / s.ts.dt|) = ⌊(lineTime l s.x - s.ts.delay) / s.ts.dt⌋ := by
    rw [habs, show lineTime l s.x / s.ts.dt + -(s.ts.delay / s.ts.dt) = (lineTime l s.x - s.ts.delay) / s.ts.dt by ring]
    unfold pyInt
    rw [if_pos (div_nonneg (by linarith) hdt.le)]
  simp only [startSample, stopSample, ← pyInt_eq_cut, key, and_self]

theorem lines_windows {s : Sensor} {start stop : Line} (hdt : 0 < s.ts.dt) (h : LinesInside start stop s) :
    0 ≤ startSample s (some start) ∧ startSample s (some start) ≤ stopSample s (some stop) ∧
      stopSample s (some stop) ≤ s.ts.amp.length := by
  obtain ⟨h0, h1, h2, h3⟩ := h
  rw [(lineSample hdt h0 h1).1, (lineSample hdt h0 (h1.trans h2)).2]
  refine ⟨Int.floor_nonneg.2 (div_nonneg (by linarith) hdt.le), Int.floor_le_floor ?_, ?_⟩
  · exact div_le_div_of_nonneg_right (by linarith) hdt.le
  · have : (lineTime stop s.x - s.ts.delay) / s.ts.dt ≤ ((s.ts.amp.length : ℤ) : ℚ) := by
      rw [div_le_iff₀ hdt]; push_cast; linarith
    exact_mod_cast (Int.floor_le _).trans this

/-- Off the lines the window is zero. -/
theorem window_off {s : Sensor} {start stop : Line} (w : ℕ → List ℚ) (hdt : 0 < s.ts.dt) (h : LinesInside start stop s)
    {k : ℕ} (hk : OffLines start stop s k) :
    windowValue w (startSample s (some start)) (stopSample s (some stop)) k = 0 := by
  obtain ⟨h0, h1, h2, h3⟩ := h
  rw [(lineSample hdt h0 h1).1, (lineSample hdt h0 (h1.trans h2)).2]
  unfold windowValue
  rw [if_neg]
  rintro ⟨a, b⟩
  unfold OffLines sampleTime at hk
  rcases hk with hk | hk
  · have : (((k : ℤ) + 1 : ℤ) : ℚ) ≤ (lineTime start s.x - s.ts.delay) / s.ts.dt := by
      rw [le_div_iff₀ hdt]; push_cast; linarith
    have := Int.le_floor.2 this
    omega
  · have : (lineTime stop s.x - s.ts.delay) / s.ts.dt ≤ ((k : ℤ) : ℚ) := by
      rw [div_le_iff₀ hdt]; push_cast; linarith
    have : ⌊(lineTime stop s.x - s.ts.delay) / s.ts.dt⌋ ≤ (k : ℤ) := by
      exact_mod_cast (Int.floor_le _).trans this
    omega

/-- Past the tapers it is one. -/
theorem window_past {s : Sensor} {start stop : Line} {w : ℕ → List ℚ} {α : ℚ} (hα : 0 ≤ α) (hw : TaperedBy α w)
    (hdt : 0 < s.ts.dt) (h : LinesInside start stop s) {k : ℕ} (hk : PastTapers α start stop s k) :
    windowValue w (startSample s (some start)) (stopSample s (some stop)) k = 1 := by
  obtain ⟨h0, h1, h2, h3⟩ := h
  rw [(lineSample hdt h0 h1).1, (lineSample hdt h0 (h1.trans h2)).2]
  obtain ⟨k1, k2⟩ := hk
  unfold sampleTime at k1 k2
  set T1 := (lineTime start s.x - s.ts.delay) / s.ts.dt with e1
  set T2 := (lineTime stop s.x - s.ts.delay) / s.ts.dt with e2
  have t1 : T1 * s.ts.dt = lineTime start s.x - s.ts.delay := div_mul_cancel₀ _ hdt.ne'
  have t2 : T2 * s.ts.dt = lineTime stop s.x - s.ts.delay := div_mul_cancel₀ _ hdt.ne'
  have k1' : T1 + α / 2 * (T2 - T1) ≤ k := by
    refine le_of_mul_le_mul_right ?_ hdt
    nlinarith
  have k2' : (k : ℚ) + 2 ≤ T2 - α / 2 * (T2 - T1) := by
    refine le_of_mul_le_mul_right ?_ hdt
    nlinarith
  have h12 : T1 ≤ T2 := div_le_div_of_nonneg_right (by linarith) hdt.le
  have a0 : (⌊T1⌋ : ℚ) ≤ T1 := Int.floor_le _
  have a1 : T1 < ⌊T1⌋ + 1 := Int.lt_floor_add_one _
  have b0 : (⌊T2⌋ : ℚ) ≤ T2 := Int.floor_le _
  have b1 : T2 < ⌊T2⌋ + 1 := Int.lt_floor_add_one _
  have hd : 0 ≤ α / 2 * (T2 - T1) := by have := sub_nonneg.2 h12; positivity
  have c1 : ⌊T1⌋ ≤ (k : ℤ) := by
    have : (⌊T1⌋ : ℚ) ≤ ((k : ℤ) : ℚ) := by push_cast; linarith
    exact_mod_cast this
  have c2 : (k : ℤ) < ⌊T2⌋ := by
    have : ((k : ℤ) : ℚ) < (⌊T2⌋ : ℚ) := by push_cast; linarith
    exact_mod_cast this
  unfold windowValue
  rw [if_pos ⟨c1, c2⟩]
  obtain ⟨m, hm⟩ := Int.eq_ofNat_of_zero_le (show 0 ≤ ⌊T2⌋ - ⌊T1⌋ by omega)
  obtain ⟨i, hi⟩ := Int.eq_ofNat_of_zero_le (show 0 ≤ (k : ℤ) - ⌊T1⌋ by omega)
  rw [hm, hi, Int.toNat_natCast, Int.toNat_natCast]
  have em : (m : ℚ) = ⌊T2⌋ - ⌊T1⌋ := by
    have : ((m : ℤ) : ℚ) = ((⌊T2⌋ - ⌊T1⌋ : ℤ) : ℚ) := by rw [hm]
    push_cast at this; linarith
  have ei : (i : ℚ) = k - ⌊T1⌋ := by
    have : ((i : ℤ) : ℚ) = (((k : ℤ) - ⌊T1⌋ : ℤ) : ℚ) := by rw [hi]
    push_cast at this; linarith
  have hle : α / 2 * ((m : ℚ) - 1) ≤ α / 2 * (T2 - T1) := by
    apply mul_le_mul_of_nonneg_left _ (by positivity)
    rw [em]; linarith
  have := (hw m).2 i (by rw [ei]; linarith) (by
    rw [sub_mul, one_mul]
    rw [em] at hle ⊢
    linarith)
  rw [List.getD_eq_getElem?_getD, this, Option.getD_some]

theorem muted_separated {α : ℚ} {w : ℕ → List ℚ} {start stop : Line} {s : Sensor} {wave : List ℚ} (hα : 0 ≤ α)
    (hw : TaperedBy α w) (hdt : 0 < s.ts.dt) (h : LinesInside start stop s) (hs : Separated α start stop s wave) :
    muted w (some start) (some stop) s = withSamples s wave := by
  have key : (muted w (some start) (some stop) s).ts.amp = wave := by
    apply List.ext_getElem?
    intro k
    by_cases hk : k < s.ts.amp.length
    · obtain ⟨h1, h2⟩ := hs.2 k hk
      have hk' : k < wave.length := by rw [hs.1]; exact hk
      rw [muted_sample _ _ _ _ _ _ (List.getElem?_eq_getElem hk), List.getElem?_eq_getElem hk']
      rw [List.getD_eq_getElem _ _ hk', List.getD_eq_getElem _ _ hk] at h2
      rw [List.getD_eq_getElem _ _ hk'] at h1
      congr 1
      by_cases h0 : wave[k] = 0
      · by_cases hx : s.ts.amp[k] = wave[k]
        · rw [hx, h0, zero_mul]
        · rw [window_off w hdt h (h2 hx), mul_zero, h0]
      · rw [window_past hα hw hdt h (h1 h0), mul_one]
        by_contra hx
        have a := h2 hx
        have b := h1 h0
        obtain ⟨-, -, b3, -⟩ := h
        unfold OffLines at a
        unfold PastTapers at b
        have : 0 ≤ α / 2 * (lineTime stop s.x - lineTime start s.x) := by
          have := sub_nonneg.2 b3
          positivity
        rcases a with a | a <;> linarith
    · rw [List.getElem?_eq_none (by simp only [muted, List.length_zipWith, List.length_map, List.length_range]; omega),
        List.getElem?_eq_none (by rw [hs.1]; omega)]
  rw [← key]
  rfl

/-! ## C160 -/

/-- **C160**.  If at every receiver the record is a wave between the lines, past the tapers of the window, plus anything
off the lines, muting succeeds and leaves exactly the wave. -/
theorem C160_mute_leaves_wave (w : ℕ → List ℚ) (α : ℚ) (hα : 0 ≤ α) (hw : TaperedBy α w) (a : Arr) (hc : Consistent a)
    (start stop : Line) (hv1 : start.x1 ≠ start.x2) (hv2 : stop.x1 ≠ stop.x2) (wave : Sensor → List ℚ)
    (hdt : ∀ s ∈ a.sensors, 0 < s.ts.dt) (hin : ∀ s ∈ a.sensors, LinesInside start stop s)
    (hs : ∀ s ∈ a.sensors, Separated α start stop s (wave s)) :
    a.mute w (some start) (some stop) = (⟨a.sensors.map fun s => withSamples s (wave s), a.source⟩, .ok ()) := by
  rw [mute_inside w (fun m => (hw m).1) a hc (some start) (some stop) (Ne.symm hv1) (Ne.symm hv2) fun s hs' => lines_windows (hdt s hs') (hin s hs')]
  congr 2
  exact List.map_congr_left fun s hs' => muted_separated hα hw (hdt s hs') (hin s hs') (hs s hs')

/-- **C160** (what is off the lines does not matter).  Two arrays whose records differ only off the lines are the same
after muting, whatever the window function is. -/
theorem C160_off_lines_irrelevant (w : ℕ → List ℚ) (hw : ∀ m, (w m).length = m) (a : Arr) (hc : Consistent a)
    (start stop : Line) (hv1 : start.x1 ≠ start.x2) (hv2 : stop.x1 ≠ stop.x2) (other : Sensor → List ℚ)
    (hdt : ∀ s ∈ a.sensors, 0 < s.ts.dt) (hin : ∀ s ∈ a.sensors, LinesInside start stop s)
    (hlen : ∀ s ∈ a.sensors, (other s).length = s.ts.amp.length)
    (hs : ∀ s ∈ a.sensors, ∀ k : ℕ, s.ts.amp[k]? ≠ (other s)[k]? → OffLines start stop s k) :
    (Arr.mk (a.sensors.map fun s => withSamples s (other s)) a.source).mute w (some start) (some stop) =
      a.mute w (some start) (some stop) ∧ (a.mute w (some start) (some stop)).2 = .ok () := by
  have hc' : Consistent (Arr.mk (a.sensors.map fun s => withSamples s (other s)) a.source) := by
    refine Arr.consistent_of_frame hc ?_
    rw [List.forall₂_map_right_iff]
    exact List.forall₂_same.2 fun s hs' => ⟨rfl, rfl, rfl, rfl, (hlen s hs').symm⟩
  have hwin : WindowsInside a (some start) (some stop) := fun s hs' => lines_windows (hdt s hs') (hin s hs')
  have e1 := mute_inside w hw a hc (some start) (some stop) (Ne.symm hv1) (Ne.symm hv2) hwin
  have e2 := mute_inside w hw _ hc' (some start) (some stop) (Ne.symm hv1) (Ne.symm hv2) (by
    intro s hs'
    obtain ⟨s0, h0, rfl⟩ := List.mem_map.1 hs'
    have := hwin s0 h0
    rw [← hlen s0 h0] at this
    exact this)
  refine ⟨?_, by rw [e1]⟩
  rw [e1, e2]
  simp only [List.map_map]
  congr 2
  apply List.map_congr_left
  intro s hs'
  have key : (muted w (some start) (some stop) (withSamples s (other s))).ts.amp =
      (muted w (some start) (some stop) s).ts.amp := by
    apply List.ext_getElem?
    intro k
    by_cases hk : k < s.ts.amp.length
    · have hk' : k < (other s).length := by rw [hlen s hs']; exact hk
      rw [muted_sample _ _ _ _ _ _ (List.getElem?_eq_getElem hk),
        muted_sample w _ _ (withSamples s (other s)) k _ (List.getElem?_eq_getElem hk')]
      congr 1
      show (other s)[k] * windowValue w (startSample s (some start)) (stopSample s (some stop)) k = _
      by_cases hx : s.ts.amp[k]? = (other s)[k]?
      · rw [List.getElem?_eq_getElem hk, List.getElem?_eq_getElem hk', Option.some.injEq] at hx
        rw [hx]
      · rw [window_off w (hdt s hs') (hin s hs') (hs s hs' k hx), mul_zero, mul_zero]
    · have := hlen s hs'
      rw [List.getElem?_eq_none (by simp only [muted, withSamples, List.length_zipWith, List.length_map, List.length_range]; omega),
        List.getElem?_eq_none (by simp only [muted, List.length_zipWith, List.length_map, List.length_range]; omega)]
  show muted w (some start) (some stop) (withSamples s (other s)) = muted w (some start) (some stop) s
  unfold muted withSamples at key ⊢
  simp only at key ⊢
  rw [key]

/-! ## A whole run -/

/-- What becomes of a record before muting: its trend is removed, and it is trimmed if asked. -/
def beforeMute (env : Env) (set : Settings) (s : Sensor) : Sensor :=
  let level := withSamples s (env.detrend s.ts.amp)
  if set.trimApply then ⟨(level.ts.trim set.trimBegin set.trimEnd).1, s.x, s.y, s.z⟩ else level

theorem forSensors_map {f : ATS → Outcome ATS} : ∀ {l l' : List Sensor}, Arr.forSensors f l = (l', .ok ()) →
    l' = l.map fun s => ⟨(f s.ts).1, s.x, s.y, s.z⟩ := by
  intro l
  induction l with
  | nil => intro l' h; simp only [Arr.forSensors, Prod.mk.injEq] at h; simp [← h.1]
  | cons s l ih =>
    intro l' h
    unfold Arr.forSensors at h
    rcases hf : f s.ts with ⟨r, e | ⟨⟨⟩⟩⟩
    · simp [hf] at h
    · simp only [hf] at h
      rcases hr : Arr.forSensors f l with ⟨rest', o⟩
      rw [hr] at h
      simp only [Prod.mk.injEq] at h
      obtain ⟨rfl, rfl⟩ := h
      rw [ih hr, List.map_cons, hf]

theorem preprocessed_before {env : Env} {set : Settings} {kw : Option Kwargs} {lines : Option Arr.Line × Option Arr.Line}
    {raw near level cut muted padded : Arr} (hpre : Preprocessed env set kw lines raw near level cut muted padded)
    (hd : ∀ l, (env.detrend l).length = l.length) (hc : Consistent raw) :
    Consistent cut ∧ cut.source = raw.source ∧ cut.sensors = near.sensors.map (beforeMute env set) ∧
      near.sensors.Sublist raw.sensors := by
  obtain ⟨p1, p2, p3, p4, -, -⟩ := hpre
  obtain ⟨n1, n2⟩ := trimOffsetsFl_sublist p1
  have hsrc := trimOffsetsFl_source p1
  have cl : Consistent level := by
    refine Arr.consistent_of_frame (Arr.consistent_of_sublist hc n1 n2) ?_
    rw [p3, List.forall₂_map_right_iff]
    exact List.forall₂_same.2 fun s _ => ⟨rfl, rfl, rfl, rfl, (hd _).symm⟩
  unfold beforeMute
  split_ifs at p4 with c
  · have hc' := ArrOp.run_consistent level (.trim set.trimBegin set.trimEnd) cl
    simp only [ArrOp.run, p4] at hc'
    unfold Arr.trim at p4
    rcases hf : Arr.forSensors (fun r => r.trim set.trimBegin set.trimEnd) level.sensors with ⟨ss, o⟩
    rw [hf] at p4
    simp only [Prod.mk.injEq] at p4
    obtain ⟨rfl, rfl⟩ := p4
    refine ⟨hc', p2.trans hsrc, ?_, n1⟩
    simp only [forSensors_map hf, p3, List.map_map, c, if_true]
    rfl
  · subst p4
    refine ⟨cl, p2.trans hsrc, ?_, n1⟩
    simp only [p3, c]
    rfl

/-- After muting between two lines only the wave is left of the selected receivers. -/
theorem preprocessed_muted {env : Env} {set : Settings} {kw : Option Kwargs} {start stop : Line} {α : ℚ} (hα : 0 ≤ α)
    {raw near level cut muted padded : Arr}
    (hpre : Preprocessed env set kw (some start, some stop) raw near level cut muted padded)
    (hd : ∀ l, (env.detrend l).length = l.length) (hw : TaperedBy α (env.tukey kw)) (hmute : set.muteApply = true)
    (hc : Consistent raw) (hout : OneSided raw) (hv1 : start.x1 ≠ start.x2) (hv2 : stop.x1 ≠ stop.x2)
    {wave : Sensor → List ℚ} {v dt : ℚ} {lead : ℤ} {pulse : List ℚ} {n : ℕ} (hdt : 0 < dt)
    (hin : ∀ s ∈ raw.sensors, LinesInside start stop (beforeMute env set s))
    (hs : ∀ s ∈ raw.sensors, Separated α start stop (beforeMute env set s) (wave (beforeMute env set s)))
    (hp : CarriesPulse ⟨raw.sensors.map fun s => withSamples (beforeMute env set s) (wave (beforeMute env set s)),
      raw.source⟩ v dt lead pulse n) :
    Consistent muted ∧ CarriesPulse muted v dt lead pulse n ∧ OneSided muted ∧ muted.source = near.source ∧
      muted.sensors.map (fun s => s.x) = near.sensors.map (fun s => s.x) := by
  obtain ⟨c1, c2, c3, c4⟩ := preprocessed_before hpre hd hc
  have hcut : ∀ s ∈ cut.sensors, ∃ s0 ∈ raw.sensors, s = beforeMute env set s0 := by
    intro s hs'
    rw [c3] at hs'
    obtain ⟨s0, h0, rfl⟩ := List.mem_map.1 hs'
    exact ⟨s0, c4.subset h0, rfl⟩
  have hx : ∀ s, (beforeMute env set s).x = s.x := by
    intro s
    unfold beforeMute
    split_ifs <;> rfl
  have hm := C160_mute_leaves_wave (env.tukey kw) α hα hw cut c1 start stop hv1 hv2 wave (by
      intro s hs'
      obtain ⟨s0, h0, rfl⟩ := hcut s hs'
      have := (hp _ (List.mem_map_of_mem h0)).1
      simp only [withSamples] at this
      rw [this]
      exact hdt) (by
      intro s hs'
      obtain ⟨s0, h0, rfl⟩ := hcut s hs'
      exact hin s0 h0) (by
      intro s hs'
      obtain ⟨s0, h0, rfl⟩ := hcut s hs'
      exact hs s0 h0)
  have p5 := hpre.windowed
  rw [if_pos hmute, hm, Prod.mk.injEq] at p5
  obtain ⟨rfl, -⟩ := p5
  refine ⟨?_, ?_, ?_, c2.trans (trimOffsetsFl_source hpre.offsets).symm, ?_⟩
  · refine Arr.consistent_of_frame c1 ?_
    rw [List.forall₂_map_right_iff]
    refine List.forall₂_same.2 fun s hs' => ⟨rfl, rfl, rfl, rfl, ?_⟩
    obtain ⟨s0, h0, rfl⟩ := hcut s hs'
    exact (hs s0 h0).1.symm
  · refine carriesPulse_sublist hp ?_ c2
    intro s hs'
    obtain ⟨s1, h1, rfl⟩ := List.mem_map.1 hs'
    obtain ⟨s0, h0, rfl⟩ := hcut s1 h1
    exact List.mem_map.2 ⟨s0, h0, rfl⟩
  · show (∀ s ∈ _, _) ∨ (∀ s ∈ _, _)
    refine hout.imp ?_ ?_ <;>
    · intro ho s hs'
      obtain ⟨s1, h1, rfl⟩ := List.mem_map.1 hs'
      obtain ⟨s0, h0, rfl⟩ := hcut s1 h1
      show _
      simp only [withSamples, c2, hx]
      exact ho s0 h0
  · simp only [c3, List.map_map]
    exact List.map_congr_left fun s _ => hx s

/-- **C160** (a whole run).  A time-domain run with muting between two picked lines, with any of the three
frequency-domain transforms, on files in which every record, when it comes to muting, is a pulse crossing the array at
velocity `v` between the lines, past the tapers, plus anything else off the lines: if the run returns and `v` is one of
its trial velocities, the peak of the returned transform is at `v` at every frequency at which the pulse has energy and
some two receivers left are closer than the shortest trial wavelength. -/
theorem C160_run_recovers (env : Env) (hankel : ℝ → ℂ) (geom : ℚ → ℚ → ℕ → List ℚ) (set : Settings) (f : Fnames)
    (raw : Arr) (r : Result) (henv : env.transforms = Builtin.transforms hankel geom)
    (hd : ∀ l, (env.detrend l).length = l.length) (hw : TaperedBy (1 / 5) (env.tukey none))
    (htr : set.transform = "phaseshift" ∨ set.transform = "fk" ∨
      set.transform = "fdbf" ∧ (Builtin.specific set.fdbf).get "steering" ≠ some "cylindrical")
    (hmute : set.muteApply = true) (hraw : fromFiles env f = .ok raw) (hc : Consistent raw)
    (hout : (∀ s ∈ raw.sensors, raw.source.x ≤ s.x) ∨ (∀ s ∈ raw.sensors, s.x < raw.source.x))
    (h : timeDomain env set f = .ok r) (start stop : Line) (h1 : r.final.signalStart = some start)
    (h2 : r.final.signalEnd = some stop) (hv1 : start.x1 ≠ start.x2) (hv2 : stop.x1 ≠ stop.x2)
    (wave : Sensor → List ℚ) (v dt : ℚ) (lead : ℤ) (pulse : List ℚ) (n : ℕ) (hdt : 0 < dt)
    (hin : ∀ s ∈ raw.sensors, LinesInside start stop (beforeMute env set s))
    (hs : ∀ s ∈ raw.sensors, Separated (1 / 5) start stop (beforeMute env set s) (wave (beforeMute env set s)))
    (hp : CarriesPulse ⟨raw.sensors.map fun s => withSamples (beforeMute env set s) (wave (beforeMute env set s)),
      raw.source⟩ v dt lead pulse n)
    (hmem : (v : ℝ) ∈ r.transform.velocities) (hpos : ∀ w ∈ r.transform.velocities, 0 < w) :
    ∃ vs, Builtin.findPeakPower r.transform "frequency-maximum" = .ok vs ∧ vs.length = r.transform.frequencies.length ∧
      ∀ (j : ℕ) (f : ℚ), r.transform.frequencies[j]? = some f → 0 < f → pulseSpectrum pulse (f * dt) ≠ 0 →
        ResolvesAway r.array f r.transform.velocities → vs[j]? = some (v : ℝ) := by
  obtain ⟨raw', near, level, cut, muted, hraw', -, hpre, ht, -⟩ := timeDomain_lines _ _ _ _ h
  rw [hraw] at hraw'
  cases hraw'
  rw [h1, h2] at hpre
  obtain ⟨c1, c2, c3, -, -⟩ := preprocessed_muted (by norm_num) hpre hd hw hmute hc hout hv1 hv2 hdt hin hs hp
  exact transform_recovers env hankel geom set muted r.array r.transform henv htr v dt lead pulse n hdt c1 c2 c3
    hpre.zeroPadded ht hmem hpos

/-! ## A run with noise -/

/-- A window with tapers of a tenth at each end. -/
def taperWindow (m : ℕ) : List ℚ := (List.range m).map fun (k : ℕ) =>
  if 1 / 5 / 2 * ((m : ℚ) - 1) ≤ k ∧ k ≤ (1 - 1 / 5 / 2) * ((m : ℚ) - 1) then 1 else 1 / 2

theorem taperWindow_tapered : TaperedBy (1 / 5) taperWindow := by
  intro m
  refine ⟨by simp [taperWindow], fun k h1 h2 => ?_⟩
  have hk : k < m := by
    have : (k : ℚ) < m := by
      rcases Nat.eq_zero_or_pos m with rfl | hm
      · have : (0 : ℚ) ≤ k := Nat.cast_nonneg k
        norm_num at h2
        linarith
      · have : (1 : ℚ) ≤ m := by exact_mod_cast hm
        linarith
    exact_mod_cast this
  simp only [taperWindow, List.getElem?_map, List.getElem?_range hk, Option.map_some, h1, h2, and_self, if_true]

/-- The pulses of `pulseEnv` in files with noise before and after them, and a user who picks a line 1 ms before the
pulse and a line 3 ms after it. -/
noncomputable def noisyEnv : Env :=
  { pulseEnv with
    fs := fun _ => some [seg2 2 0 1 [0, 2, 0, 0, 9, 9, 0, 1], seg2 4 0 1 [5, 0, 3, 0, 0, 6, 0, 0],
      seg2 8 0 1 [1, 1, 1, 0, 7, 0, 0, 2]]
    tukey := fun _ => taperWindow
    user := ⟨[[(2, 0)], [(8, 3 / 1000)], [(2, 4 / 1000)], [(8, 7 / 1000)]], [none, none, none, none]⟩ }

/-- Settings as before, with muting. -/
def noisySet (tr : String) : Settings := { pulseSet tr with muteApply := true }

def noisyArr : Arr :=
  ⟨[⟨⟨[0, 2, 0, 0, 9, 9, 0, 1], 1 / 1000, 1, 0, 1⟩, 2, 0, 0⟩, ⟨⟨[5, 0, 3, 0, 0, 6, 0, 0], 1 / 1000, 1, 0, 1⟩, 4, 0, 0⟩,
    ⟨⟨[1, 1, 1, 0, 7, 0, 0, 2], 1 / 1000, 1, 0, 1⟩, 8, 0, 0⟩], ⟨0, 0, 0⟩⟩

def noisyStart : Line := ⟨2, 0, 8, 3 / 1000⟩
def noisyStop : Line := ⟨2, 4 / 1000, 8, 7 / 1000⟩

/-- The wave in the records. -/
def noisyWave (s : Sensor) : List ℚ :=
  if s.x = 2 then [0, 2, 0, 0, 0, 0, 0, 0] else if s.x = 4 then [0, 0, 3, 0, 0, 0, 0, 0] else [0, 0, 0, 0, 7, 0, 0, 0]

theorem noisy_separated : ∀ s ∈ noisyArr.sensors, LinesInside noisyStart noisyStop s ∧
    Separated (1 / 5) noisyStart noisyStop s (noisyWave s) := by
  unfold LinesInside Separated PastTapers OffLines sampleTime lineTime
  decide +kernel

/-- Muting it. -/
example : noisyArr.mute taperWindow (some noisyStart) (some noisyStop) = (pulseArr, .ok ()) := by
  rw [C160_mute_leaves_wave taperWindow (1 / 5) (by norm_num) taperWindow_tapered noisyArr
    (by unfold Consistent SameMeta; decide +kernel) noisyStart noisyStop (by decide +kernel) (by decide +kernel) noisyWave
    (by decide +kernel) (fun s hs => (noisy_separated s hs).1) (fun s hs => (noisy_separated s hs).2)]
  decide +kernel

/-- Two arrays which differ off the lines. -/
example : (∀ s ∈ noisyArr.sensors, (noisyWave s).length = s.ts.amp.length) ∧
    (∀ s ∈ noisyArr.sensors, ∀ k : ℕ, s.ts.amp[k]? ≠ (noisyWave s)[k]? → OffLines noisyStart noisyStop s k) ∧
    noisyArr.sensors.map (fun s => s.ts.amp) ≠ noisyArr.sensors.map noisyWave := by
  refine ⟨by decide +kernel, ?_, by decide +kernel⟩
  intro s hs k hk
  obtain ⟨-, h1, h2⟩ := noisy_separated s hs
  by_cases hlt : k < s.ts.amp.length
  · refine (h2 k hlt).2 fun e => hk ?_
    have hlt' : k < (noisyWave s).length := by rw [h1]; exact hlt
    rw [List.getD_eq_getElem _ _ hlt, List.getD_eq_getElem _ _ hlt'] at e
    rw [List.getElem?_eq_getElem hlt, List.getElem?_eq_getElem hlt', e]
  · rw [List.getElem?_eq_none (by omega), List.getElem?_eq_none (by rw [h1]; omega)] at hk
    exact absurd rfl hk

/-- The run returns with each of the transforms, and 2000 m/s is picked at both of its frequencies. -/
example (tr : String) (h : tr = "phaseshift" ∨ tr = "fk" ∨ tr = "fdbf") :
    ∃ r, timeDomain noisyEnv (noisySet tr) (.one "a") = .ok r ∧
      Builtin.findPeakPower r.transform "frequency-maximum" = .ok [2000, 2000] := by
  obtain ⟨t, ht, hf, hv⟩ := pulse_transform h
  have ht' : IsTransformOf noisyEnv (noisySet tr) pulsePadded t := by
    obtain ⟨g, g1, g2⟩ := ht
    refine ⟨g, g1, ?_⟩
    rcases h with rfl | rfl | rfl <;> cases g1 <;> exact g2
  have hraw : fromFiles noisyEnv (.one "a") = .ok noisyArr := by decide +kernel
  have hm : noisyArr.mute taperWindow (some noisyStart) (some noisyStop) = (pulseArr, .ok ()) := by decide +kernel
  have hpre : Preprocessed noisyEnv (noisySet tr) none (some noisyStart, some noisyStop) noisyArr noisyArr noisyArr noisyArr
      pulseArr pulsePadded := by
    refine ⟨?_, rfl, rfl, rfl, ?_, ?_⟩
    · show trimOffsetsFl noisyArr 0 .pinf = _
      decide +kernel
    · show Arr.mute taperWindow noisyArr (some noisyStart) (some noisyStop) = _
      exact hm
    · show Arr.zeroPad pulseArr (125 / 2) = _
      decide +kernel
  obtain ⟨r, hr, ea, et, -, hlines⟩ := C76_run_returns noisyEnv (noisySet tr) (.one "a") noisyArr noisyArr noisyArr noisyArr
    pulseArr pulsePadded (some noisyStart, some noisyStop) t hraw (by decide) (by
      rintro ⟨p, q, h1, h2, h3, h4⟩
      cases h1
      exact absurd h3 (by decide +kernel)) hpre (fun _ => ⟨rfl, by
        show Interact.interactiveMute taperWindow noisyArr "both" true _ = _
        decide +kernel⟩) ht' none (fun _ => rfl) (by intro h; cases h)
  refine ⟨r, hr, ?_⟩
  obtain ⟨l1, l2⟩ := hlines rfl
  have hbefore : ∀ s, beforeMute noisyEnv (noisySet tr) s = s := fun s => rfl
  obtain ⟨vs, h1, h2, h3⟩ := C160_run_recovers noisyEnv (fun _ => 0) (fun _ _ _ => []) (noisySet tr) (.one "a") noisyArr r
    rfl (fun _ => rfl) taperWindow_tapered (by
      rcases h with rfl | rfl | rfl
      · exact .inl rfl
      · exact .inr (.inl rfl)
      · exact .inr (.inr ⟨rfl, by decide⟩)) rfl hraw
    (by unfold Consistent SameMeta; decide +kernel) (.inl (by decide +kernel)) hr noisyStart noisyStop l1 l2
    (by decide +kernel) (by decide +kernel) noisyWave 2000 (1 / 1000) 0 [1] 8 (by norm_num)
    (fun s hs => (noisy_separated s hs).1) (fun s hs => (noisy_separated s hs).2)
    (by
      simp only [hbefore]
      have : (⟨noisyArr.sensors.map fun s => withSamples s (noisyWave s), noisyArr.source⟩ : Arr) = pulseArr := by
        decide +kernel
      rw [this]
      exact pulse_carried)
    (by rw [et, hv]; simp) (by rw [et, hv]; intro w hw; simp at hw; rcases hw with rfl | rfl <;> norm_num)
  have key : ∀ f : ℚ, 0 < f → f ≤ 125 → pulseSpectrum [1] (f * (1 / 1000 : ℚ)) ≠ 0 ∧ ResolvesAway r.array f r.transform.velocities := by
    intro f h0 h1
    constructor
    · simp [pulseSpectrum]
    · rw [ea, et, hv]
      refine ⟨_, List.mem_cons_self, _, List.mem_cons_of_mem _ List.mem_cons_self, by decide +kernel, by decide +kernel,
        by decide +kernel, ?_⟩
      have hf1 : (f : ℝ) ≤ 125 := by exact_mod_cast h1
      intro w hw
      simp only [List.mem_cons, List.not_mem_nil, or_false] at hw
      simp only
      rcases hw with rfl | rfl <;> norm_num <;> linarith
  rw [h1]
  rw [et, hf] at h2 h3
  obtain ⟨k1, k2⟩ := key (125 / 2) (by norm_num) (by norm_num)
  obtain ⟨k3, k4⟩ := key 125 (by norm_num) (by norm_num)
  rw [et] at k2 k4
  have e0 := h3 0 (125 / 2) rfl (by norm_num) k1 k2
  have e1 := h3 1 125 rfl (by norm_num) k3 k4
  rcases vs with _ | ⟨a, _ | ⟨b, _ | ⟨c, vs⟩⟩⟩ <;> simp at h2
  simp at e0 e1
  rw [e0, e1]

end Verif.Props
