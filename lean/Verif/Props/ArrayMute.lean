import Verif.Props.ArrayStructure
import Verif.Lemmas.Number
import Mathlib.Data.List.GetD

/-!
# C22, C23, C91, C92: muting
-/

namespace Verif.Props
open Verif Arr Spec

/-- Time of a boundary line at position `x`. -/
def lineTime (l : Line) (x : ℚ) : ℚ := l.t1 + (l.t2 - l.t1) / (l.x2 - l.x1) * (x - l.x1)

/-- A boundary line which is not vertical in the (position, time) plane; no line is fine as well. -/
def NotVertical : Option Line → Prop
  | none => True
  | some l => l.x2 ≠ l.x1

/-- First sample of the signal window of a sensor: 0 without a line, else the line's time as a number of
steps, counted from the first sample, without its fraction. -/
def startSample (s : Sensor) : Option Line → ℤ
  | none => 0
  | some l => cut (lineTime l s.x / s.ts.dt + |s.ts.delay / s.ts.dt|)

/-- First sample after the signal window of a sensor. -/
def stopSample (s : Sensor) : Option Line → ℤ
  | none => (s.ts.amp.length : ℤ) - 1
  | some l => cut (lineTime l s.x / s.ts.dt + |s.ts.delay / s.ts.dt|)

/-- The signal windows of all sensors lie within the record. -/
def WindowsInside (a : Arr) (start stop : Option Line) : Prop :=
  ∀ s ∈ a.sensors, 0 ≤ startSample s start ∧ startSample s start ≤ stopSample s stop ∧
    stopSample s stop ≤ s.ts.amp.length

/-- Value at sample `k` of the window of length `stop - start` starting at `start`, zero elsewhere. -/
def windowValue (w : ℕ → List ℚ) (start stop : ℤ) (k : ℕ) : ℚ :=
  if start ≤ k ∧ (k : ℤ) < stop then (w (stop - start).toNat).getD (k - start).toNat 0 else 0

theorem assignSlice_inside (w : ℕ → List ℚ) (hw : ∀ m, (w m).length = m) (n : ℕ) (i j : ℤ)
    (h0 : 0 ≤ i) (hij : i ≤ j) (hj : j ≤ n) :
    assignSlice n i j (w (j - i).toNat) = .ok ((List.range n).map fun (k : ℕ) => windowValue w i j k) := by
  obtain ⟨i', rfl⟩ := Int.eq_ofNat_of_zero_le h0
  obtain ⟨j', rfl⟩ := Int.eq_ofNat_of_zero_le (h0.trans hij)
  have hij' : i' ≤ j' := by exact_mod_cast hij
  have hj' : j' ≤ n := by exact_mod_cast hj
  have e1 : sliceIdx n (i' : ℤ) = i' := by unfold sliceIdx; split_ifs <;> omega
  have e2 : sliceIdx n (j' : ℤ) = j' := by unfold sliceIdx; split_ifs <;> omega
  have e3 : ((j' : ℤ) - (i' : ℤ)).toNat = j' - i' := by omega
  unfold assignSlice
  simp only [e1, e2, e3]
  rw [max_eq_right hij', if_pos (hw _)]
  congr 1
  apply List.ext_getElem?
  intro k
  simp only [List.getElem?_map, windowValue, e3]
  by_cases hk : k < n
  · rw [List.getElem?_range hk]
    simp only [Option.map_some]
    rw [List.append_assoc]
    by_cases h1 : k < i'
    · rw [List.getElem?_append_left (by simpa using h1), List.getElem?_replicate, if_pos h1,
        if_neg (by omega)]
    · rw [List.getElem?_append_right (by simpa using h1), List.length_replicate]
      by_cases h2 : k < j'
      · rw [if_pos (by omega), List.getElem?_append_left (by rw [hw]; omega)]
        have e4 : ((k : ℤ) - (i' : ℤ)).toNat = k - i' := by omega
        have h5 : k - i' < (w (j' - i')).length := by rw [hw]; omega
        rw [e4, List.getElem?_eq_getElem h5, List.getD_eq_getElem _ _ h5]
      · rw [if_neg (by omega), List.getElem?_append_right (by rw [hw]; omega),
          List.getElem?_replicate, if_pos (by rw [hw]; omega)]
  · rw [List.getElem?_eq_none (by simp only [List.length_append, List.length_replicate, hw]; omega),
      List.getElem?_eq_none (l := List.range n) (by rw [List.length_range]; omega)]
    rfl

/-- A sensor after multiplication by its window. -/
def muted (w : ℕ → List ℚ) (start stop : Option Line) (s : Sensor) : Sensor :=
  let window := (List.range s.ts.amp.length).map fun (k : ℕ) =>
    windowValue w (startSample s start) (stopSample s stop) k
  { s with ts := { s.ts with amp := List.zipWith (· * ·) s.ts.amp window } }

theorem muteLoop_inside (w : ℕ → List ℚ) (hw : ∀ m, (w m).length = m) (n : ℕ) (start stop : Option Line)
    (l : List Sensor) (hn : ∀ s ∈ l, s.ts.amp.length = n)
    (hin : ∀ s ∈ l, 0 ≤ startSample s start ∧ startSample s start ≤ stopSample s stop ∧
      stopSample s stop ≤ s.ts.amp.length) :
    muteLoop w n l (l.map fun s => (startSample s start, stopSample s stop)) =
      (l.map (muted w start stop), .ok ()) := by
  induction l with
  | nil => rfl
  | cons s rest ih =>
    obtain ⟨h1, h2, h3⟩ := hin s (by simp)
    have hns := hn s (by simp)
    rw [List.map_cons, muteLoop, if_neg (by omega),
      assignSlice_inside w hw n _ _ h1 h2 (by rw [← hns]; exact h3)]
    simp only
    rw [ih (fun t ht => hn t (by simp [ht])) (fun t ht => hin t (by simp [ht]))]
    simp [muted, hns]

theorem mute_inside (w : ℕ → List ℚ) (hw : ∀ m, (w m).length = m) (a : Arr) (hc : Consistent a)
    (start stop : Option Line) (hv1 : NotVertical start) (hv2 : NotVertical stop)
    (hin : WindowsInside a start stop) :
    a.mute w start stop = ({ a with sensors := a.sensors.map (muted w start stop) }, .ok ()) := by
  rcases hl : a.sensors with _ | ⟨s0, rest⟩
  · exact absurd hl hc.1
  have hmeta : ∀ s ∈ a.sensors, SameMeta s0.ts s.ts := fun s hs => hc.2.2 s0 (by rw [hl]; simp) s hs
  have hst : (match start with
      | some l => lineIndices l s0.ts.dt |s0.ts.delay / s0.ts.dt| a.position
      | none => .ok (a.position.map fun _ => 0)) = .ok (a.sensors.map fun s => startSample s start) := by
    rcases start with _ | l
    · simp [position, startSample, Function.comp_def]
    · have : l.x2 - l.x1 ≠ 0 := sub_ne_zero.2 hv1
      simp only [lineIndices, this, if_false, position, List.map_map, startSample, ← pyInt_eq_cut]
      congr 1
      apply List.map_congr_left
      intro s hs
      rw [← (hmeta s hs).1, ← (hmeta s hs).2.2.1]
      rfl
  have hsp : (match stop with
      | some l => lineIndices l s0.ts.dt |s0.ts.delay / s0.ts.dt| a.position
      | none => .ok (a.position.map fun _ => (s0.ts.nsamples : ℤ) - 1)) =
        .ok (a.sensors.map fun s => stopSample s stop) := by
    rcases stop with _ | l
    · simp only [position, stopSample, List.map_map]
      congr 1
      apply List.map_congr_left
      intro s hs
      simp only [Function.comp, ATS.nsamples, (hmeta s hs).2.2.2]
    · have : l.x2 - l.x1 ≠ 0 := sub_ne_zero.2 hv2
      simp only [lineIndices, this, if_false, position, List.map_map, stopSample, ← pyInt_eq_cut]
      congr 1
      apply List.map_congr_left
      intro s hs
      rw [← (hmeta s hs).1, ← (hmeta s hs).2.2.1]
      rfl
  have hzip : (a.sensors.map fun s => startSample s start).zip (a.sensors.map fun s => stopSample s stop) =
      a.sensors.map fun s => (startSample s start, stopSample s stop) := by
    generalize a.sensors = l
    induction l with
    | nil => rfl
    | cons s rest ih => simp [ih]
  have hloop := muteLoop_inside w hw s0.ts.nsamples start stop a.sensors
    (fun s hs => ((hmeta s hs).2.2.2).symm) hin
  have : a.mute w start stop =
      match (match start with
        | some l => lineIndices l s0.ts.dt |s0.ts.delay / s0.ts.dt| a.position
        | none => .ok (a.position.map fun _ => 0)),
        (match stop with
        | some l => lineIndices l s0.ts.dt |s0.ts.delay / s0.ts.dt| a.position
        | none => .ok (a.position.map fun _ => (s0.ts.nsamples : ℤ) - 1)) with
      | .error e, _ => (a, .error e)
      | .ok _, .error e => (a, .error e)
      | .ok i, .ok j => ({ a with sensors := (muteLoop w s0.ts.nsamples a.sensors (i.zip j)).1 },
          (muteLoop w s0.ts.nsamples a.sensors (i.zip j)).2) := by
    simp only [mute, hl]
    rfl
  rw [this, hst, hsp]
  simp only [hzip, hloop]
  rw [hl]

theorem muted_sample (w : ℕ → List ℚ) (start stop : Option Line) (s : Sensor) (k : ℕ) (x : ℚ)
    (hx : s.ts.amp[k]? = some x) :
    (muted w start stop s).ts.amp[k]? =
      some (x * windowValue w (startSample s start) (stopSample s stop) k) := by
  have hk : k < s.ts.amp.length := by
    by_contra h
    rw [List.getElem?_eq_none (not_lt.1 h)] at hx
    simp at hx
  simp only [muted, List.getElem?_zipWith, hx, List.getElem?_map, List.getElem?_range hk,
    Option.map_some]

/-- **C22**.  If no boundary line is vertical and all signal windows lie within the record, `mute`
succeeds, and sample `k` of every sensor is multiplied by the value at `k` of that sensor's own window:
zero outside `[start, stop)`, the window function of length `stop - start` inside.  Positions, source and
metadata stay. -/
theorem C22_mute_multiplies_by_own_window (w : ℕ → List ℚ) (hw : ∀ m, (w m).length = m) (a : Arr)
    (hc : Consistent a) (start stop : Option Line) (hv1 : NotVertical start) (hv2 : NotVertical stop)
    (hin : WindowsInside a start stop) :
    ∃ a', a.mute w start stop = (a', .ok ()) ∧ a'.source = a.source ∧
      a'.sensors.length = a.sensors.length ∧
      ∀ (i : ℕ) (s s' : Sensor), a.sensors[i]? = some s → a'.sensors[i]? = some s' →
        s'.x = s.x ∧ s'.ts.dt = s.ts.dt ∧ s'.ts.delay = s.ts.delay ∧
        s'.ts.amp.length = s.ts.amp.length ∧
        ∀ (k : ℕ) (x y : ℚ), s.ts.amp[k]? = some x → s'.ts.amp[k]? = some y →
          (¬ (startSample s start ≤ k ∧ (k : ℤ) < stopSample s stop) → y = 0) ∧
          (startSample s start ≤ k → (k : ℤ) < stopSample s stop →
            y = x * (w (stopSample s stop - startSample s start).toNat).getD
              (k - startSample s start).toNat 0) := by
  refine ⟨_, mute_inside w hw a hc start stop hv1 hv2 hin, rfl, by simp, ?_⟩
  intro i s s' hs hs'
  simp only [List.getElem?_map, hs, Option.map_some, Option.some.injEq] at hs'
  subst hs'
  refine ⟨rfl, rfl, rfl, by simp [muted], ?_⟩
  intro k x y hx hy
  rw [muted_sample w start stop s k x hx, Option.some.injEq] at hy
  subst hy
  unfold windowValue
  constructor
  · intro h; rw [if_neg h, mul_zero]
  · intro h1 h2; rw [if_pos ⟨h1, h2⟩]

/-- A triangular-looking window of the requested length, for the concrete cases. -/
def testWindow (m : ℕ) : List ℚ := (List.range m).map fun (k : ℕ) => ((k : ℚ) + 1) / m
/-- The rectangular window (`alpha=0`). -/
def rect (m : ℕ) : List ℚ := List.replicate m 1

example :
    let a : Arr := ⟨[mkS 0 [1, 1, 1, 1, 1, 1], mkS 1 [2, 2, 2, 2, 2, 2]], ⟨-1, 0, 0⟩⟩
    let st := some (Line.mk 0 1 1 2)
    let sp := some (Line.mk 0 3 1 5)
    a.sensors.map (fun s => (startSample s st, stopSample s sp)) = [(1, 3), (2, 5)] ∧
    (a.mute testWindow st sp).1.sensors.map (fun s => s.ts.amp) =
      [[0, 1 / 2, 1, 0, 0, 0], [0, 0, 2 / 3, 4 / 3, 2, 0]] := by decide +kernel
example :
    WindowsInside ⟨[mkS 0 [1, 1, 1, 1, 1, 1], mkS 1 [2, 2, 2, 2, 2, 2]], ⟨-1, 0, 0⟩⟩
      (some (Line.mk 0 1 1 2)) (some (Line.mk 0 3 1 5)) := by unfold WindowsInside; decide +kernel

/-- **C23 does not hold**: with only a start line the last sample of every trace is silenced, even by a
rectangular window. -/
theorem C23_last_sample_silenced_fails (w : ℕ → List ℚ) (hw : ∀ m, (w m).length = m) (a : Arr)
    (hc : Consistent a) (start : Line) (hv : NotVertical (some start))
    (hin : WindowsInside a (some start) none) :
    ∃ a', a.mute w (some start) none = (a', .ok ()) ∧
      ∀ (i : ℕ) (s' : Sensor), a'.sensors[i]? = some s' →
        ∀ y : ℚ, s'.ts.amp.getLast? = some y → y = 0 := by
  refine ⟨_, mute_inside w hw a hc (some start) none hv trivial hin, ?_⟩
  intro i s' hs' y hy
  simp only [List.getElem?_map, Option.map_eq_some_iff] at hs'
  obtain ⟨s, hs, rfl⟩ := hs'
  rw [List.getLast?_eq_getElem?] at hy
  have hlen : (muted w (some start) none s).ts.amp.length = s.ts.amp.length := by simp [muted]
  rw [hlen] at hy
  rcases hx : s.ts.amp[s.ts.amp.length - 1]? with _ | x
  · rw [List.getElem?_eq_none_iff] at hx
    rw [List.getElem?_eq_none (by rw [hlen]; exact hx)] at hy
    simp at hy
  · rw [muted_sample w _ _ s _ x hx, Option.some.injEq] at hy
    rw [← hy, windowValue, if_neg, mul_zero]
    rintro ⟨-, h⟩
    have : s.ts.amp.length ≠ 0 := by
      intro h0
      rw [List.getElem?_eq_none (by omega)] at hx
      simp at hx
    simp only [stopSample] at h
    omega

/-- **C23** (what does hold).  With a rectangular window every sample inside the signal window is untouched;
with only a start line that is every sample from the start of the window up to but excluding the last one,
with only an end line every sample before the end of the window.  Missing: the last sample after a start line (refuted above). -/
theorem C23_one_sided_mute_partial (a : Arr) (hc : Consistent a) (start stop : Option Line)
    (hv1 : NotVertical start) (hv2 : NotVertical stop)
    (hin : WindowsInside a start stop) :
    ∃ a', a.mute rect start stop = (a', .ok ()) ∧
      ∀ (i : ℕ) (s s' : Sensor), a.sensors[i]? = some s → a'.sensors[i]? = some s' →
        ∀ k : ℕ, startSample s start ≤ k → (k : ℤ) < stopSample s stop →
          s'.ts.amp[k]? = s.ts.amp[k]? := by
  have hw : ∀ m, (rect m).length = m := by intro m; simp [rect]
  refine ⟨_, mute_inside rect hw a hc start stop hv1 hv2 hin, ?_⟩
  intro i s s' hs hs' k h1 h2
  simp only [List.getElem?_map, hs, Option.map_some, Option.some.injEq] at hs'
  subst hs'
  have hmem : s ∈ a.sensors := List.mem_of_getElem? hs
  have hk : k < s.ts.amp.length := by have := (hin s hmem).2.2; omega
  rw [muted_sample rect start stop s k _ (List.getElem?_eq_getElem hk), List.getElem?_eq_getElem hk,
    windowValue, if_pos ⟨h1, h2⟩, rect, List.getD_eq_getElem _ _ (by rw [List.length_replicate]; omega),
    List.getElem_replicate, mul_one]

example :
    let a : Arr := ⟨[mkS 0 [1, 2, 3, 4, 5, 6]], ⟨-1, 0, 0⟩⟩
    (a.mute rect (some ⟨0, 2, 1, 2⟩) none).1.sensors.map (fun s => s.ts.amp) = [[0, 0, 3, 4, 5, 0]] := by
  decide +kernel

/-- **C91 does not hold**: when the window of the second sensor is refused, the first sensor has already
been muted. -/
theorem C91_refused_mute_changes_earlier_sensors_counterexample :
    ∃ a a' : Arr, Arr.init [mkS 0 [1, 1, 1, 1], mkS 1 [1, 1, 1, 1]] ⟨-1, 0, 0⟩ = .ok a ∧
      a.mute rect (some ⟨0, 1, 1, 3⟩) (some ⟨0, 2, 1, 2⟩) = (a', .error .valueError) ∧
      a'.sensors.map (fun s => s.ts.amp) = [[0, 1, 0, 0], [1, 1, 1, 1]] := by
  refine ⟨⟨[mkS 0 [1, 1, 1, 1], mkS 1 [1, 1, 1, 1]], ⟨-1, 0, 0⟩⟩,
    ⟨[mkS 0 [0, 1, 0, 0], mkS 1 [1, 1, 1, 1]], ⟨-1, 0, 0⟩⟩, ?_, ?_, ?_⟩
  all_goals decide +kernel

/-- **C91** (what does hold).  A vertical boundary line is refused with `ZeroDivisionError` and changes
nothing; in every refused call the sensor at which it failed and all later ones keep their samples.
Missing: the sensors before the failing one (refuted above). -/
theorem C91_refused_mute_partial (w : ℕ → List ℚ) (a : Arr) (start stop : Option Line) :
    (a.sensors ≠ [] → (∃ l, start = some l ∧ l.x1 = l.x2) →
      a.mute w start stop = (a, .error .zeroDivisionError)) ∧
    (∀ a' e, a.mute w start stop = (a', .error e) → a'.source = a.source ∧
      (a' = a ∨ ∃ k < a.sensors.length, a'.sensors.drop k = a.sensors.drop k)) := by
  constructor
  · rintro hne ⟨l, rfl, hl⟩
    rcases hs : a.sensors with _ | ⟨s0, rest⟩
    · exact absurd hs hne
    · simp [mute, hs, lineIndices, hl]
  · intro a' e h
    rcases mute_cases w a start stop with ⟨e', he⟩ | ⟨s0, rest, idx, hs0, hlen, he⟩
    · rw [he] at h
      simp only [Prod.mk.injEq] at h
      rw [← h.1]
      exact ⟨rfl, Or.inl rfl⟩
    · rw [he] at h
      simp only [Prod.mk.injEq] at h
      obtain ⟨h1, h2⟩ := h
      rw [← h1]
      refine ⟨rfl, Or.inr ?_⟩
      simp only
      generalize s0.ts.nsamples = n at h2 ⊢
      clear hs0 he h1 hlen
      generalize a.sensors = l at h2 ⊢
      induction l generalizing idx with
      | nil => simp [muteLoop] at h2
      | cons s rest ih =>
        rcases idx with _ | ⟨⟨i, j⟩, idx⟩
        · simp [muteLoop] at h2
        · unfold muteLoop at h2 ⊢
          split_ifs at h2 ⊢
          · exact ⟨0, by simp, rfl⟩
          · split at h2
            · exact ⟨0, by simp, rfl⟩
            · obtain ⟨k, hk, hd⟩ := ih idx h2
              exact ⟨k + 1, by simpa using hk, by simpa using hd⟩

example : (Arr.mk [mkS 0 [1, 1]] ⟨-1, 0, 0⟩).mute rect (some ⟨2, 0, 2, 1⟩) none =
    (⟨[mkS 0 [1, 1]], ⟨-1, 0, 0⟩⟩, .error .zeroDivisionError) := by decide +kernel

/-- **C92 does not hold** for records which start after time zero: the window is shifted. The record below
has samples at times 2, 3, 4, 5, 6, 7, 8; asked to keep times from 3 to 5 it keeps times 7 and up. -/
theorem C92_window_shifted_for_positive_delay_counterexample :
    ∃ a0 a a' : Arr, Arr.init [mkS 0 [1, 2, 3, 4, 5, 6, 7, 8, 9]] ⟨-1, 0, 0⟩ = .ok a0 ∧
      a0.trim 2 8 = (a, .ok ()) ∧ a.sensors.map (fun s => s.ts.time) = [[2, 3, 4, 5, 6, 7, 8]] ∧
      a.mute rect (some ⟨0, 3, 1, 3⟩) (some ⟨0, 5, 1, 5⟩) = (a', .ok ()) ∧
      a'.sensors.map (fun s => s.ts.amp) = [[0, 0, 0, 0, 0, 8, 9]] := by
  refine ⟨⟨[mkS 0 [1, 2, 3, 4, 5, 6, 7, 8, 9]], ⟨-1, 0, 0⟩⟩,
    ⟨[⟨⟨[3, 4, 5, 6, 7, 8, 9], 1, 1, 2, 1⟩, 0, 0, 0⟩], ⟨-1, 0, 0⟩⟩,
    ⟨[⟨⟨[0, 0, 0, 0, 0, 8, 9], 1, 1, 2, 1⟩, 0, 0, 0⟩], ⟨-1, 0, 0⟩⟩, ?_, ?_, ?_, ?_, ?_⟩
  all_goals decide +kernel

/-- **C92** (what does hold).  For a record which starts at or before time zero and lines which meet the
trace at or after its start: the sample at time `t` lies in the signal window exactly when
`tstart < t + dt ≤ tstop`.  So a sample before `tstart` by a step or more is silenced and so is a sample at
or after `tstop`.  Missing: records which start after time zero (refuted above). -/
theorem C92_window_follows_line_times_partial (s : Sensor) (start stop : Line) (k : ℕ) (t : ℚ)
    (hdt : 0 < s.ts.dt) (hdelay : s.ts.delay ≤ 0) (h1 : s.ts.delay ≤ lineTime start s.x)
    (h2 : s.ts.delay ≤ lineTime stop s.x) (hk : s.ts.time[k]? = some t) :
    (startSample s (some start) ≤ k ∧ (k : ℤ) < stopSample s (some stop)) ↔
      (lineTime start s.x < t + s.ts.dt ∧ t + s.ts.dt ≤ lineTime stop s.x) := by
  have hlt : k < s.ts.time.length := by
    by_contra h
    rw [List.getElem?_eq_none (not_lt.1 h)] at hk
    simp at hk
  rw [List.getElem?_eq_getElem hlt, ATS.time_getElem, Option.some.injEq] at hk
  have habs : |s.ts.delay / s.ts.dt| = -(s.ts.delay / s.ts.dt) :=
    abs_of_nonpos (div_nonpos_of_nonpos_of_nonneg hdelay hdt.le)
  have key : ∀ T : ℚ, s.ts.delay ≤ T →
      pyInt (T / s.ts.dt + |s.ts.delay / s.ts.dt|) = ⌊(T - s.ts.delay) / s.ts.dt⌋ := by
    intro T hT
    rw [habs, show T / s.ts.dt + -(s.ts.delay / s.ts.dt) = (T - s.ts.delay) / s.ts.dt by ring]
    unfold pyInt
    rw [if_pos (div_nonneg (by linarith) hdt.le)]
  simp only [startSample, stopSample, ← pyInt_eq_cut, key _ h1, key _ h2]
  rw [← hk]
  have e1 : (⌊(lineTime start s.x - s.ts.delay) / s.ts.dt⌋ ≤ (k : ℤ)) ↔
      lineTime start s.x < (k : ℚ) * s.ts.dt + s.ts.delay + s.ts.dt := by
    rw [← Int.lt_add_one_iff, Int.floor_lt, div_lt_iff₀ hdt]
    push_cast
    constructor <;> intro h <;> nlinarith
  have e2 : ((k : ℤ) < ⌊(lineTime stop s.x - s.ts.delay) / s.ts.dt⌋) ↔
      (k : ℚ) * s.ts.dt + s.ts.delay + s.ts.dt ≤ lineTime stop s.x := by
    rw [← Int.add_one_le_iff, Int.le_floor, le_div_iff₀ hdt]
    push_cast
    constructor <;> intro h <;> nlinarith
  rw [e1, e2]

example :
    let s : Sensor := ⟨⟨[1, 2, 3, 4, 5, 6], 1, 1, -2, 1⟩, 0, 0, 0⟩
    s.ts.time = [-2, -1, 0, 1, 2, 3] ∧ startSample s (some ⟨0, 0, 1, 0⟩) = 2 ∧
      stopSample s (some ⟨0, 2, 1, 2⟩) = 4 := by decide +kernel

end Verif.Props
