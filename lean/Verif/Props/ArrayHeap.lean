import Verif.Spec.ArrayHeap

/-!
# C148: arrays do not interfere
-/

namespace Verif.Props
open Verif ArrayHeap Spec.Arrays

namespace ArrayHeapProofs

theorem contents_length {sensors : List Sensor} : ∀ {refs : List ℕ}, (∀ r ∈ refs, r < sensors.length) →
    (contents sensors refs).length = refs.length := by
  intro refs h
  induction refs with
  | nil => rfl
  | cons r rs ih =>
    have hr := h r (by simp)
    unfold contents at ih ⊢
    rw [List.filterMap_cons, List.getElem?_eq_getElem hr]
    simp [ih fun r hr => h r (by simp [hr])]

theorem contents_cons {sensors : List Sensor} {r : ℕ} {rs : List ℕ} (hr : r < sensors.length) :
    contents sensors (r :: rs) = sensors[r] :: contents sensors rs := by
  unfold contents
  rw [List.filterMap_cons, List.getElem?_eq_getElem hr]

theorem contents_congr {o o' : List Sensor} {refs : List ℕ} (h : ∀ r ∈ refs, o'[r]? = o[r]?) :
    contents o' refs = contents o refs := List.filterMap_congr h

theorem contents_set {o : List Sensor} {r : ℕ} {refs : List ℕ} (h : r ∉ refs) (s : Sensor) :
    contents (o.set r s) refs = contents o refs :=
  contents_congr fun x hx => List.getElem?_set_ne (by rintro rfl; exact h hx)

theorem contents_append {o : List Sensor} {refs : List ℕ} (h : ∀ r ∈ refs, r < o.length) (ss : List Sensor) :
    contents (o ++ ss) refs = contents o refs :=
  contents_congr fun r hr => List.getElem?_append_left (h r hr)

theorem forRefs_length (f : ATS → Outcome ATS) : ∀ (refs : List ℕ) (sensors : List Sensor),
    (forRefs f sensors refs).1.length = sensors.length := by
  intro refs
  induction refs with
  | nil => intro o; rfl
  | cons r rs ih =>
    intro o
    simp only [forRefs]
    split
    · rfl
    · split
      · simp
      · rw [ih]; simp

theorem forRefs_other (f : ATS → Outcome ATS) : ∀ (refs : List ℕ) (sensors : List Sensor) (x : ℕ), x ∉ refs →
    (forRefs f sensors refs).1[x]? = sensors[x]? := by
  intro refs
  induction refs with
  | nil => intro o x _; rfl
  | cons r rs ih =>
    intro o x hx
    simp only [List.mem_cons, not_or] at hx
    simp only [forRefs]
    split
    · rfl
    · split
      · exact List.getElem?_set_ne (Ne.symm hx.1)
      · rw [ih _ x hx.2]; exact List.getElem?_set_ne (Ne.symm hx.1)

theorem forRefs_forSensors (f : ATS → Outcome ATS) : ∀ (refs : List ℕ) (o : List Sensor), refs.Nodup →
    (∀ r ∈ refs, r < o.length) →
    Arr.forSensors f (contents o refs) = (contents (forRefs f o refs).1 refs, (forRefs f o refs).2) := by
  intro refs
  induction refs with
  | nil => intro o _ _; rfl
  | cons r rs ih =>
    intro o hn hk
    have hr := hk r (by simp)
    rw [List.nodup_cons] at hn
    rw [contents_cons hr]
    simp only [List.getElem?_eq_getElem hr, Arr.forSensors, forRefs]
    rcases f o[r].ts with ⟨p', e | u⟩
    · simp only
      rw [contents_cons (by simpa using hr), contents_set hn.1]
      simp
    · simp only
      have h1 := ih (o.set r { o[r] with ts := p' }) hn.2 (by simpa using fun x hx => hk x (by simp [hx]))
      rw [contents_set hn.1] at h1
      rw [h1]
      have h2 : (forRefs f (o.set r { o[r] with ts := p' }) rs).1[r]? = some { o[r] with ts := p' } := by
        rw [forRefs_other f rs _ r hn.1]
        simp [hr]
      have h3 : r < (forRefs f (o.set r { o[r] with ts := p' }) rs).1.length := by
        rw [forRefs_length]; simpa using hr
      rw [contents_cons h3]
      rw [List.getElem?_eq_getElem h3, Option.some.injEq] at h2
      rw [h2]

theorem muteRefs_length (tukey : ℕ → List ℚ) (n : ℕ) : ∀ (refs : List ℕ) (o : List Sensor) (idx : List (ℤ × ℤ)),
    (muteRefs tukey n o refs idx).1.length = o.length := by
  intro refs
  induction refs with
  | nil => intro o idx; rfl
  | cons r rs ih =>
    intro o idx
    rcases idx with _ | ⟨⟨a, b⟩, idx⟩
    · rfl
    simp only [muteRefs]
    split
    · rfl
    · split
      · rfl
      · split
        · rfl
        · rw [ih]; simp

theorem muteRefs_other (tukey : ℕ → List ℚ) (n : ℕ) : ∀ (refs : List ℕ) (o : List Sensor) (idx : List (ℤ × ℤ)) (x : ℕ),
    x ∉ refs → (muteRefs tukey n o refs idx).1[x]? = o[x]? := by
  intro refs
  induction refs with
  | nil => intro o idx x _; rfl
  | cons r rs ih =>
    intro o idx x hx
    simp only [List.mem_cons, not_or] at hx
    rcases idx with _ | ⟨⟨a, b⟩, idx⟩
    · rfl
    simp only [muteRefs]
    split
    · rfl
    · split
      · rfl
      · split
        · rfl
        · rw [ih _ _ x hx.2]; exact List.getElem?_set_ne (Ne.symm hx.1)

theorem muteRefs_muteLoop (tukey : ℕ → List ℚ) (n : ℕ) : ∀ (refs : List ℕ) (o : List Sensor) (idx : List (ℤ × ℤ)),
    refs.Nodup → (∀ r ∈ refs, r < o.length) →
    Arr.muteLoop tukey n (contents o refs) idx =
      (contents (muteRefs tukey n o refs idx).1 refs, (muteRefs tukey n o refs idx).2) := by
  intro refs
  induction refs with
  | nil => intro o idx _ _; rfl
  | cons r rs ih =>
    intro o idx hn hk
    have hr := hk r (by simp)
    rw [List.nodup_cons] at hn
    rcases idx with _ | ⟨⟨a, b⟩, idx⟩
    · rw [contents_cons hr]
      simp only [muteRefs, Arr.muteLoop]
      rw [contents_cons hr]
    rw [contents_cons hr]
    simp only [List.getElem?_eq_getElem hr, Arr.muteLoop, muteRefs]
    by_cases hab : b - a < 0
    · rw [if_pos hab, if_pos hab]
      simp only [contents_cons hr]
    · rw [if_neg hab, if_neg hab]
      rcases Arr.assignSlice n a b (tukey (b - a).toNat) with e | wd
      · simp only [contents_cons hr]
      · simp only
        generalize hs : ({ o[r] with ts := { o[r].ts with amp := List.zipWith (· * ·) o[r].ts.amp wd } } : Sensor) = s'
        have h1 := ih (o.set r s') idx hn.2 (by simpa using fun x hx => hk x (by simp [hx]))
        rw [contents_set hn.1] at h1
        rw [h1]
        have h2 : (muteRefs tukey n (o.set r s') rs idx).1[r]? = some s' := by
          rw [muteRefs_other tukey n rs _ _ r hn.1]
          simp [hr]
        have h3 : r < (muteRefs tukey n (o.set r s') rs idx).1.length := by
          rw [muteRefs_length]; simpa using hr
        rw [contents_cons h3]
        rw [List.getElem?_eq_getElem h3, Option.some.injEq] at h2
        rw [h2]

theorem mute_length (tukey : ℕ → List ℚ) (o : List Sensor) (refs : List ℕ) (st sp : Option Arr.Line) :
    (ArrayHeap.mute tukey o refs st sp).1.length = o.length := by
  unfold ArrayHeap.mute
  split
  · rfl
  · simp only
    split
    · rfl
    · rfl
    · exact muteRefs_length _ _ _ _ _

theorem mute_other (tukey : ℕ → List ℚ) (o : List Sensor) (refs : List ℕ) (st sp : Option Arr.Line) (x : ℕ) (hx : x ∉ refs) :
    (ArrayHeap.mute tukey o refs st sp).1[x]? = o[x]? := by
  unfold ArrayHeap.mute
  split
  · rfl
  · simp only
    split
    · rfl
    · rfl
    · exact muteRefs_other _ _ _ _ _ _ hx

theorem mute_mute (tukey : ℕ → List ℚ) (o : List Sensor) (refs : List ℕ) (src : Source) (st sp : Option Arr.Line)
    (hn : refs.Nodup) (hk : ∀ r ∈ refs, r < o.length) :
    Arr.mute tukey ⟨contents o refs, src⟩ st sp =
      (⟨contents (ArrayHeap.mute tukey o refs st sp).1 refs, src⟩, (ArrayHeap.mute tukey o refs st sp).2) := by
  unfold ArrayHeap.mute Arr.mute Arr.position
  rcases hc : contents o refs with _ | ⟨s0, rest⟩
  · simp only [hc]
  · have key := fun i => muteRefs_muteLoop tukey s0.ts.nsamples refs o i hn hk
    rw [hc] at key
    rcases st with _ | l <;> rcases sp with _ | l' <;> simp only
    · rw [key]
    · generalize Arr.lineIndices l' _ _ _ = B
      rcases B with e | j
      · simp only [hc]
      · simp only [key]
    · generalize Arr.lineIndices l _ _ _ = A
      rcases A with e | i
      · simp only [hc]
      · simp only [key]
    · generalize Arr.lineIndices l _ _ _ = A
      generalize Arr.lineIndices l' _ _ _ = B
      rcases A with e | i
      · simp only [hc]
      · rcases B with e | j
        · simp only [hc]
        · simp only [key]

theorem trimOffsetsLoop_contents (o : List Sensor) (mn mx : ℚ) : ∀ (refs : List ℕ) (offs : List ℚ),
    (∀ r ∈ refs, r < o.length) →
    contents o (trimOffsetsLoop mn mx (offs.zip refs)) = Arr.trimOffsetsLoop mn mx (offs.zip (contents o refs)) := by
  intro refs
  induction refs with
  | nil => intro offs _; cases offs <;> rfl
  | cons r rs ih =>
    intro offs hk
    have hr := hk r (by simp)
    rcases offs with _ | ⟨d, offs⟩
    · rfl
    rw [contents_cons hr]
    simp only [List.zip_cons_cons, trimOffsetsLoop, Arr.trimOffsetsLoop]
    have happ : ∀ a b : List ℕ, contents o (a ++ b) = contents o a ++ contents o b := fun a b => List.filterMap_append
    have h1 := ih offs fun x hx => hk x (by simp [hx])
    have hone : contents o [r] = [o[r]] := by rw [contents_cons hr]; rfl
    by_cases h2 : d > mn ∧ d < mx
    · rw [if_pos h2, if_pos h2]
      by_cases h3 : d > mx
      · rw [if_pos h3, if_pos h3, hone]
      · rw [if_neg h3, if_neg h3, happ, h1, hone]
    · rw [if_neg h2, if_neg h2]
      by_cases h3 : d > mx
      · rw [if_pos h3, if_pos h3]; rfl
      · rw [if_neg h3, if_neg h3, happ, h1]; rfl

theorem trimOffsetsLoop_sublist (mn mx : ℚ) : ∀ (refs : List ℕ) (offs : List ℚ),
    (trimOffsetsLoop mn mx (offs.zip refs)).Sublist refs := by
  intro refs
  induction refs with
  | nil => intro offs; cases offs <;> exact List.Sublist.refl _
  | cons r rs ih =>
    intro offs
    rcases offs with _ | ⟨d, offs⟩
    · exact List.nil_sublist _
    simp only [List.zip_cons_cons, trimOffsetsLoop]
    by_cases h2 : d > mn ∧ d < mx
    · rw [if_pos h2]
      by_cases h3 : d > mx
      · rw [if_pos h3]; simp
      · rw [if_neg h3]; exact (ih offs).cons_cons r
    · rw [if_neg h2]
      by_cases h3 : d > mx
      · rw [if_pos h3]; simp
      · rw [if_neg h3]; exact (ih offs).cons r

theorem xOf_eq {o : List Sensor} {r : ℕ} (h : r < o.length) : xOf o r = o[r].x := by
  unfold xOf
  rw [List.getElem?_eq_getElem h]; rfl

theorem map_contents {o : List Sensor} {β : Type} (g : ℚ → β) : ∀ {refs : List ℕ}, (∀ r ∈ refs, r < o.length) →
    (refs.map fun r => g (xOf o r)) = (contents o refs).map fun s => g s.x := by
  intro refs
  induction refs with
  | nil => intro _; rfl
  | cons r rs ih =>
    intro hk
    have hr := hk r (by simp)
    rw [contents_cons hr, List.map_cons, List.map_cons, ih fun x hx => hk x (by simp [hx]), xOf_eq hr]

/-- A sensor of no interest. -/
def blank : Sensor := ⟨⟨[], 0, 0, 0, 0⟩, 0, 0, 0⟩

theorem contents_map {o : List Sensor} {refs : List ℕ} (hk : ∀ r ∈ refs, r < o.length) :
    contents o refs = refs.map fun r => o.getD r blank := by
  induction refs with
  | nil => rfl
  | cons r rs ih =>
    have hr := hk r (by simp)
    rw [contents_cons hr, List.map_cons, ih fun x hx => hk x (by simp [hx])]
    simp [hr]

theorem construct_view {o : List Sensor} {refs : List ℕ} (hk : ∀ r ∈ refs, r < o.length) (src : Source) :
    Arr.init (contents o refs) src =
      (construct o refs src).map fun a => ⟨contents o a.refs, a.source⟩ := by
  unfold construct Arr.init
  have : (refs.all fun r => decide (r < o.length)) = true := by simpa using hk
  rw [if_pos this]
  have hsort : (contents o refs).insertionSort (fun a b => a.x ≤ b.x) =
      contents o (refs.insertionSort fun a b => xOf o a ≤ xOf o b) := by
    have hk' : ∀ r ∈ refs.insertionSort fun a b => xOf o a ≤ xOf o b, r < o.length :=
      fun r hr => hk r ((List.mem_insertionSort _).1 hr)
    rw [contents_map hk', contents_map hk]
    refine (List.map_insertionSort (r := fun a b => xOf o a ≤ xOf o b) (s := fun a b : Sensor => a.x ≤ b.x) _ _ ?_).symm
    intro a ha b hb
    rw [xOf_eq (hk a ha), xOf_eq (hk b hb)]
    simp [hk a ha, hk b hb]
  rcases hc : contents o refs with _ | ⟨ex, rest⟩
  · rfl
  · simp only
    rcases Arr.checkLoop ex [ex.x] rest with e | u
    · rfl
    · simp only [Except.map]
      rw [← hsort, hc]

theorem construct_refs {o : List Sensor} {refs : List ℕ} {src : Source} {a : RArr} (h : construct o refs src = .ok a) :
    a.refs.Perm refs ∧ a.source = src ∧ ∀ r ∈ refs, r < o.length := by
  unfold construct at h
  by_cases hk : (refs.all fun r => decide (r < o.length)) = true
  · rw [if_pos hk] at h
    split at h
    · cases h
    · split at h
      · cases h
      · cases h
        exact ⟨List.perm_insertionSort _ _, rfl, by simpa using hk⟩
  · rw [if_neg hk] at h
    cases h

/-- No two arrays share a sensor, and no array has a sensor twice. -/
structure Apart (w : World) : Prop where
  known : ∀ a ∈ w.arrays, ∀ r ∈ a.refs, r < w.sensors.length
  nodup : ∀ a ∈ w.arrays, a.refs.Nodup
  apart : w.arrays.Pairwise fun a b => a.refs.Disjoint b.refs

theorem apart_start : Apart start := ⟨by simp [start], by simp [start], by simp [start]⟩

theorem range'_contents (o ss : List Sensor) : contents (o ++ ss) (List.range' o.length ss.length) = ss := by
  have hk : ∀ r ∈ List.range' o.length ss.length, r < (o ++ ss).length := by
    intro r hr
    rw [List.mem_range'_1] at hr
    rw [List.length_append]
    omega
  rw [contents_map hk]
  apply List.ext_getElem
  · simp
  · intro i h1 h2
    simp [h2]

theorem allocate_spec {w : World} (hw : Apart w) (ss : List Sensor) (src : Source) :
    Apart (allocate w ss src).1 ∧ values (allocate w ss src).1 = (more (values w) (Arr.init ss src)).1 ∧
      (allocate w ss src).2 = (more (values w) (Arr.init ss src)).2 := by
  have hk : ∀ r ∈ List.range' w.sensors.length ss.length, r < (w.sensors ++ ss).length := by
    intro r hr
    rw [List.mem_range'_1] at hr
    rw [List.length_append]
    omega
  have hview := construct_view hk src
  rw [range'_contents] at hview
  rw [hview]
  unfold allocate
  rcases hc : construct (w.sensors ++ ss) (List.range' w.sensors.length ss.length) src with e | a
  · simp only [Except.map, more]
    exact ⟨hw, trivial, trivial⟩
  · obtain ⟨hp, hs, _⟩ := construct_refs hc
    have hnew : ∀ r ∈ a.refs, w.sensors.length ≤ r ∧ r < w.sensors.length + ss.length := by
      intro r hr
      have := hp.mem_iff.1 hr
      rw [List.mem_range'_1] at this
      exact this
    simp only [Except.map, more]
    refine ⟨⟨?_, ?_, ?_⟩, ?_, trivial⟩
    · intro b hb r hr
      simp only [List.length_append]
      rcases List.mem_append.1 hb with hb | hb
      · have := hw.known b hb r hr
        omega
      · rw [List.mem_singleton] at hb
        exact (hnew r (hb ▸ hr)).2
    · intro b hb
      rcases List.mem_append.1 hb with hb | hb
      · exact hw.nodup b hb
      · rw [List.mem_singleton] at hb
        rw [hb]
        exact hp.nodup_iff.2 List.nodup_range'
    · rw [List.pairwise_append]
      refine ⟨hw.apart, List.pairwise_singleton _ _, fun b hb c hc => ?_⟩
      rw [List.mem_singleton] at hc
      subst hc
      intro r h1 h2
      have := hw.known b hb r h1
      have := (hnew r h2).1
      omega
    · simp only [values, List.map_append, List.map_cons, List.map_nil]
      congr 1
      apply List.map_congr_left
      intro b hb
      unfold view
      congr 1
      exact contents_append (hw.known b hb) ss

theorem apart_of_ne {w : World} (hw : Apart w) {i j : ℕ} {a b : RArr} (ha : w.arrays[i]? = some a) (hb : w.arrays[j]? = some b)
    (h : i ≠ j) : a.refs.Disjoint b.refs := by
  obtain ⟨hi, rfl⟩ := List.getElem?_eq_some_iff.1 ha
  obtain ⟨hj, rfl⟩ := List.getElem?_eq_some_iff.1 hb
  rcases Nat.lt_or_gt_of_ne h with h | h
  · exact List.pairwise_iff_getElem.1 hw.apart i j hi hj h
  · exact fun r h1 h2 => List.pairwise_iff_getElem.1 hw.apart j i hj hi h h2 h1

/-- A method that changes the sensors of one array in place. -/
theorem changed_spec {w : World} (hw : Apart w) {i : ℕ} {a : RArr} (ha : w.arrays[i]? = some a) (o : Outcome (List Sensor))
    (f : Arr → Outcome Arr) (hlen : o.1.length = w.sensors.length) (hother : ∀ x, x ∉ a.refs → o.1[x]? = w.sensors[x]?)
    (hf : f (view w a) = (⟨contents o.1 a.refs, a.source⟩, o.2)) :
    Apart (changed w o).1 ∧ values (changed w o).1 = (on (values w) i f).1 ∧ (changed w o).2 = (on (values w) i f).2 := by
  have hv : (values w)[i]? = some (view w a) := by
    unfold values
    rw [List.getElem?_map, ha]; rfl
  unfold on
  rw [hv]
  simp only [hf, changed]
  refine ⟨⟨fun b hb r hr => ?_, hw.nodup, hw.apart⟩, ?_, trivial⟩
  · simp only [hlen]
    exact hw.known b hb r hr
  · apply List.ext_getElem?
    intro j
    obtain ⟨hi, hai⟩ := List.getElem?_eq_some_iff.1 ha
    by_cases hj : i = j
    · subst hj
      rw [List.getElem?_set_self (by simpa [values] using hi)]
      simp only [values, List.getElem?_map, ha, Option.map_some]
      rfl
    · rw [List.getElem?_set_ne hj]
      simp only [values, List.getElem?_map]
      rcases hb : w.arrays[j]? with _ | b
      · rfl
      · simp only [Option.map_some, Option.some.injEq]
        unfold view
        congr 1
        exact contents_congr fun r hr => hother r fun hr' => apart_of_ne hw ha hb hj hr' hr

theorem step_spec {w : World} (hw : Apart w) (op : Op) (hop : ByArrays op) :
    Apart (step w op).1 ∧ values (step w op).1 = (valueStep (values w) op).1 ∧ (step w op).2 = (valueStep (values w) op).2 := by
  have hnone : ∀ i : ℕ, w.arrays[i]? = none → (values w)[i]? = none := by
    intro i h
    unfold values
    rw [List.getElem?_map, h]; rfl
  have hsome : ∀ (i : ℕ) (a : RArr), w.arrays[i]? = some a → (values w)[i]? = some (view w a) := by
    intro i a h
    unfold values
    rw [List.getElem?_map, h]; rfl
  have hmem : ∀ (i : ℕ) (a : RArr), w.arrays[i]? = some a → a ∈ w.arrays := fun i a h => List.mem_of_getElem? h
  cases op with
  | newSensor s => exact hop.elim
  | newArray refs src => exact hop.elim
  | sensorTrim r a b => exact hop.elim
  | sensorPad r df => exact hop.elim
  | obtained ss src => exact allocate_spec hw ss src
  | copy i =>
    simp only [step, valueStep]
    rcases ha : w.arrays[i]? with _ | a
    · rw [hnone i ha]
      exact ⟨hw, rfl, rfl⟩
    · rw [hsome i a ha]
      simp only [Arr.fromArray, view, bind, Except.bind, contents]
      rcases Arr.copySensors (a.refs.filterMap fun r => w.sensors[r]?) with e | ss
      · exact ⟨hw, rfl, rfl⟩
      · exact allocate_spec hw ss _
  | trim i st sp =>
    simp only [step, valueStep]
    rcases ha : w.arrays[i]? with _ | a
    · simp only [on]
      rw [hnone i ha]
      exact ⟨hw, rfl, rfl⟩
    · refine changed_spec hw ha _ _ (forRefs_length _ _ _) (fun x hx => forRefs_other _ _ _ x hx) ?_
      have := forRefs_forSensors (fun r => r.trim st sp) a.refs w.sensors (hw.nodup a (hmem i a ha)) (hw.known a (hmem i a ha))
      unfold contents at this
      simp only [Arr.trim, view, this]
      rfl
  | zeroPad i df =>
    simp only [step, valueStep]
    rcases ha : w.arrays[i]? with _ | a
    · simp only [on]
      rw [hnone i ha]
      exact ⟨hw, rfl, rfl⟩
    · refine changed_spec hw ha _ _ (forRefs_length _ _ _) (fun x hx => forRefs_other _ _ _ x hx) ?_
      have := forRefs_forSensors (fun r => r.zeroPad df) a.refs w.sensors (hw.nodup a (hmem i a ha)) (hw.known a (hmem i a ha))
      unfold contents at this
      simp only [Arr.zeroPad, view, this]
      rfl
  | mute i tukey st sp =>
    simp only [step, valueStep]
    rcases ha : w.arrays[i]? with _ | a
    · simp only [on]
      rw [hnone i ha]
      exact ⟨hw, rfl, rfl⟩
    · refine changed_spec hw ha _ _ (mute_length _ _ _ _ _) (fun x hx => mute_other _ _ _ _ _ x hx) ?_
      exact mute_mute tukey w.sensors a.refs a.source st sp (hw.nodup a (hmem i a ha)) (hw.known a (hmem i a ha))
  | trimOffsets i mn mx =>
    simp only [step, valueStep]
    rcases ha : w.arrays[i]? with _ | a
    · simp only [on]
      rw [hnone i ha]
      exact ⟨hw, rfl, rfl⟩
    · have hka := hw.known a (hmem i a ha)
      have hoffs : (a.refs.map fun r => |a.source.x - xOf w.sensors r|) = (view w a).offsets := by
        have := map_contents (o := w.sensors) (fun x => |a.source.x - x|) hka
        rw [this]
        simp only [Arr.offsets, Arr.position, view, List.map_map]
        rfl
      have hloop := trimOffsetsLoop_contents w.sensors mn mx a.refs (view w a).offsets hka
      have hsub := trimOffsetsLoop_sublist mn mx a.refs (view w a).offsets
      simp only [on, hsome i a ha, Arr.trimOffsets]
      rw [hoffs]
      have hview : (view w a).sensors = contents w.sensors a.refs := rfl
      rw [hview, ← hloop]
      rcases hkept : trimOffsetsLoop mn mx ((view w a).offsets.zip a.refs) with _ | ⟨r, rs⟩
      · simp only [contents, List.filterMap_nil]
        refine ⟨hw, ?_, trivial⟩
        have := hsome i a ha
        obtain ⟨hi, e⟩ := List.getElem?_eq_some_iff.1 this
        rw [← e, List.set_getElem_self]
      · rw [hkept] at hsub
        have hkr : ∀ x ∈ r :: rs, x < w.sensors.length := fun x hx => hka x (hsub.subset hx)
        have hcons := contents_cons (rs := rs) (hkr r (by simp))
        rw [hcons]
        simp only
        obtain ⟨hi, hai⟩ := List.getElem?_eq_some_iff.1 ha
        refine ⟨⟨fun b hb => ?_, fun b hb => ?_, ?_⟩, ?_, trivial⟩
        · rcases List.mem_or_eq_of_mem_set hb with hb | rfl
          · exact hw.known b hb
          · exact hkr
        · rcases List.mem_or_eq_of_mem_set hb with hb | rfl
          · exact hw.nodup b hb
          · exact hsub.nodup (hw.nodup a (hmem i a ha))
        · rw [List.pairwise_iff_getElem]
          intro j k hj hk hjk
          simp only [List.length_set] at hj hk
          rw [List.getElem_set, List.getElem_set]
          have hbase := List.pairwise_iff_getElem.1 hw.apart j k hj hk hjk
          by_cases h1 : i = j
          · have h2 : i ≠ k := by omega
            rw [if_pos h1, if_neg h2]
            subst h1
            intro x hx hx'
            rw [hai] at hbase
            exact hbase (hsub.subset hx) hx'
          · rw [if_neg h1]
            by_cases h2 : i = k
            · rw [if_pos h2]
              subst h2
              intro x hx hx'
              rw [hai] at hbase
              exact hbase hx (hsub.subset hx')
            · rw [if_neg h2]
              exact hbase
        · rw [← hcons]
          simp only [values, List.map_set]
          rfl

end ArrayHeapProofs
open ArrayHeapProofs

/-- **C148** (arrays are values).  In a program which obtains its arrays from files or as copies and uses their methods,
every array is what it would be if the statements addressed to it were the only ones: the arrays after any number of
statements, and the exception of the next one, are those of a program whose arrays are values. -/
theorem C148_arrays_are_values (ops : List Op) (h : ∀ op ∈ ops, ByArrays op) :
    values (after ops) = runAll valueStep [] ops ∧
      ∀ op, ByArrays op → (step (after ops) op).2 = (valueStep (values (after ops)) op).2 := by
  have key : ∀ (ops : List Op) (w : World) (l : List Arr), Apart w → values w = l → (∀ op ∈ ops, ByArrays op) →
      Apart (runAll step w ops) ∧ values (runAll step w ops) = runAll valueStep l ops := by
    intro ops
    induction ops with
    | nil => intro w l hw hl _; exact ⟨hw, hl⟩
    | cons op ops ih =>
      intro w l hw hl ho
      obtain ⟨h1, h2, _⟩ := step_spec hw op (ho op (by simp))
      rw [hl] at h2
      exact ih _ _ h1 h2 fun p hp => ho p (by simp [hp])
  obtain ⟨h1, h2⟩ := key ops start [] apart_start rfl h
  exact ⟨h2, fun op ho => (step_spec h1 op ho).2.2⟩

/-- The array whose method a statement calls. -/
def methodOf : Op → Option ℕ
  | .trim i _ _ => some i
  | .trimOffsets i _ _ => some i
  | .zeroPad i _ => some i
  | .mute i _ _ _ => some i
  | _ => none

/-- **C148** (no interference).  In any state, a method of one array changes no array that shares no sensor with it. -/
theorem C148_no_interference (w : World) (op : Op) (i j : ℕ) (a b : RArr) (hop : methodOf op = some i)
    (ha : w.arrays[i]? = some a) (hb : w.arrays[j]? = some b) (hij : i ≠ j) (hd : a.refs.Disjoint b.refs) :
    (step w op).1.arrays[j]? = some b ∧ view (step w op).1 b = view w b := by
  have frame : ∀ o : Outcome (List Sensor), (∀ x, x ∉ a.refs → o.1[x]? = w.sensors[x]?) →
      (changed w o).1.arrays[j]? = some b ∧ view (changed w o).1 b = view w b := by
    intro o ho
    refine ⟨hb, ?_⟩
    unfold view
    congr 1
    exact contents_congr fun r hr => ho r fun hr' => hd hr' hr
  cases op with
  | trim k st sp =>
    cases hop
    simp only [step, ha]
    exact frame _ fun x hx => forRefs_other _ _ _ x hx
  | zeroPad k df =>
    cases hop
    simp only [step, ha]
    exact frame _ fun x hx => forRefs_other _ _ _ x hx
  | mute k tukey st sp =>
    cases hop
    simp only [step, ha]
    exact frame _ fun x hx => mute_other _ _ _ _ _ x hx
  | trimOffsets k mn mx =>
    cases hop
    simp only [step, ha]
    split
    · exact ⟨hb, rfl⟩
    · exact ⟨by rw [List.getElem?_set_ne hij]; exact hb, rfl⟩
  | newSensor s => cases hop
  | newArray refs src => cases hop
  | sensorTrim r a b => cases hop
  | sensorPad r df => cases hop
  | obtained ss src => cases hop
  | copy k => cases hop

/-- **C148** (copies).  Whatever the program did before, an array made by `from_array1d` is the copy of the array it was
made from, and its sensors are new: they belong to no other array and are not known to the program by another name. -/
theorem C148_copy_is_new (w : World) (i : ℕ) (a : RArr) (ha : w.arrays[i]? = some a)
    (hc : (step w (.copy i)).2 = .ok ()) :
    ∃ c, (step w (.copy i)).1.arrays = w.arrays ++ [c] ∧ (∀ r ∈ c.refs, w.sensors.length ≤ r) ∧
      (view w a).fromArray = .ok (view (step w (.copy i)).1 c) ∧
      ∀ r, r < w.sensors.length → (step w (.copy i)).1.sensors[r]? = w.sensors[r]? := by
  simp only [step, ha, contents] at hc ⊢
  simp only [Arr.fromArray, view, bind, Except.bind]
  rcases hss : Arr.copySensors (a.refs.filterMap fun r => w.sensors[r]?) with e | ss
  · rw [hss] at hc
    cases hc
  · rw [hss] at hc
    simp only at hc ⊢
    have hkr : ∀ r ∈ List.range' w.sensors.length ss.length, r < (w.sensors ++ ss).length := by
      intro r hr
      rw [List.mem_range'_1] at hr
      rw [List.length_append]
      omega
    have hview := construct_view hkr a.source.fromSource
    rw [range'_contents] at hview
    unfold allocate at hc ⊢
    rcases hcon : construct (w.sensors ++ ss) (List.range' w.sensors.length ss.length) a.source.fromSource with e | c
    · rw [hcon] at hc
      cases hc
    · rw [hcon] at hview
      simp only
      refine ⟨c, rfl, fun r hr => ?_, hview, fun r hr => List.getElem?_append_left hr⟩
      have := (construct_refs hcon).1.mem_iff.1 hr
      rw [List.mem_range'_1] at this
      exact this.1

/-- **C148** (the same sensors).  Arrays made of the same sensors are not independent: whatever is done, by a method of
one of them or otherwise, is seen in both. -/
theorem C148_same_sensors (w : World) (refs : List ℕ) (s1 s2 : Source) (a : RArr) (h1 : construct w.sensors refs s1 = .ok a) :
    ∃ b, construct w.sensors refs s2 = .ok b ∧ ∀ w' : World, (view w' a).sensors = (view w' b).sensors := by
  refine ⟨⟨a.refs, s2⟩, ?_, fun _ => rfl⟩
  unfold construct at h1 ⊢
  by_cases hk : (refs.all fun r => decide (r < w.sensors.length)) = true
  · rw [if_pos hk] at h1 ⊢
    generalize contents w.sensors refs = l at h1 ⊢
    rcases l with _ | ⟨ex, rest⟩
    · cases h1
    · simp only at h1 ⊢
      generalize Arr.checkLoop ex [ex.x] rest = o at h1 ⊢
      rcases o with e | u
      · cases h1
      · cases h1; rfl
  · rw [if_neg hk] at h1
    cases h1

/-- **C148** (a sensor by itself).  `trim` and `zero_pad` of a sensor which the program knows by name act on that sensor
alone, raise what they raise for a record, and are seen in every array the sensor belongs to. -/
theorem C148_sensor_by_itself (w : World) (r : ℕ) (s : Sensor) (hs : w.sensors[r]? = some s) (a : RArr) (start stop df : ℚ) :
    ((step w (.sensorTrim r start stop)).2 = (s.ts.trim start stop).2 ∧
      (view (step w (.sensorTrim r start stop)).1 a).sensors = a.refs.filterMap fun k =>
        if k = r then some { s with ts := (s.ts.trim start stop).1 } else w.sensors[k]?) ∧
    (step w (.sensorPad r df)).2 = (s.ts.zeroPad df).2 ∧
      (view (step w (.sensorPad r df)).1 a).sensors = a.refs.filterMap fun k =>
        if k = r then some { s with ts := (s.ts.zeroPad df).1 } else w.sensors[k]? := by
  have key : ∀ f : ATS → Outcome ATS, (changed w (forRefs f w.sensors [r])).2 = (f s.ts).2 ∧
      (view (changed w (forRefs f w.sensors [r])).1 a).sensors = a.refs.filterMap fun k =>
        if k = r then some { s with ts := (f s.ts).1 } else w.sensors[k]? := by
    intro f
    have hr := (List.getElem?_eq_some_iff.1 hs).1
    have e : forRefs f w.sensors [r] = (w.sensors.set r { s with ts := (f s.ts).1 }, (f s.ts).2) := by
      simp only [forRefs, hs]
      rcases f s.ts with ⟨t, e | ⟨⟨⟩⟩⟩ <;> rfl
    rw [e]
    refine ⟨rfl, ?_⟩
    simp only [changed, view]
    congr 1
    funext k
    rw [List.getElem?_set]
    by_cases h : r = k
    · subst h; simp [hr]
    · rw [if_neg h, if_neg (Ne.symm h)]
  exact ⟨key _, key _⟩

/-- Two sensors of four samples each, 1 s apart. -/
def heapSensors : List Sensor :=
  [⟨⟨[1, 2, 3, 4], 1, 1, 0, 1⟩, 0, 0, 0⟩, ⟨⟨[5, 6, 7, 8], 1, 1, 0, 1⟩, 2, 0, 0⟩]

/-- An array is copied and the first one trimmed; a third one comes from other files. -/
def heapProgram : List Op :=
  [.obtained heapSensors ⟨-5, 0, 0⟩, .copy 0, .trim 0 0 2, .obtained heapSensors.reverse ⟨-9, 0, 0⟩, .trimOffsets 1 6 8]

/-- The hypothesis of `C148_arrays_are_values` is met, and the first array is trimmed while its copy has all samples. -/
example : (∀ op ∈ heapProgram, ByArrays op) ∧
    (values (after heapProgram)).map (fun a => a.sensors.map fun s => s.ts.amp) =
      [[[1, 2, 3], [5, 6, 7]], [[5, 6, 7, 8]], [[1, 2, 3, 4], [5, 6, 7, 8]]] := by
  refine ⟨by simp [heapProgram, ByArrays], by decide +kernel⟩

/-- The hypotheses of `C148_no_interference` and `C148_copy_is_new` are met by the first array and its copy. -/
example : (after (heapProgram.take 2)).arrays[0]? = some ⟨[0, 1], ⟨-5, 0, 0⟩⟩ ∧
    (after (heapProgram.take 2)).arrays[1]? = some ⟨[2, 3], ⟨-5, 0, 0⟩⟩ ∧
    (step (after (heapProgram.take 1)) (.copy 0)).2 = .ok () := by decide +kernel

/-- Two arrays made of the same sensors: trimming one trims the other. -/
def sharingProgram : List Op :=
  heapSensors.map Op.newSensor ++ [.newArray [0, 1] ⟨-5, 0, 0⟩, .newArray [1, 0] ⟨9, 0, 0⟩, .trim 0 0 2]

example : (values (after sharingProgram)).map (fun a => a.sensors.map fun s => s.ts.amp) =
      [[[1, 2, 3], [5, 6, 7]], [[1, 2, 3], [5, 6, 7]]] ∧
    (construct heapSensors [0, 1] ⟨-5, 0, 0⟩).toBool = true := by decide +kernel

/-- A sensor is padded through its own name; the array which has it sees it. -/
example : (view (step ⟨heapSensors, [⟨[0, 1], ⟨-5, 0, 0⟩⟩]⟩ (.sensorPad 1 (1 / 6))).1 ⟨[0, 1], ⟨-5, 0, 0⟩⟩).sensors.map
    (fun s => s.ts.amp) = [[1, 2, 3, 4], [5, 6, 7, 8, 0, 0]] := by decide +kernel

end Verif.Props
