import Verif.Props.ArrayStructure

/-!
# C18, C19, C20, C21: offsets
-/

namespace Verif.Props
open Verif Arr Spec

/-- The offset is strictly between the limits. -/
def InRange (src : Source) (mn mx : ℚ) (s : Sensor) : Prop := mn < offset src s ∧ offset src s < mx

instance (src : Source) (mn mx : ℚ) : DecidablePred (InRange src mn mx) := fun s => by
  unfold InRange; infer_instance

theorem trimOffsetsLoop_eq (src : Source) (mn mx : ℚ) (l : List Sensor) :
    trimOffsetsLoop mn mx (l.map fun s => (offset src s, s)) =
      (l.takeWhile fun s => decide (offset src s ≤ mx)).filter fun s => decide (InRange src mn mx s) := by
  induction l with
  | nil => simp [trimOffsetsLoop]
  | cons s rest ih =>
    simp only [List.map_cons, trimOffsetsLoop, List.takeWhile_cons, gt_iff_lt]
    by_cases h : mx < offset src s
    · have h1 : ¬ (mn < offset src s ∧ offset src s < mx) := fun h' => absurd h'.2 (not_lt.2 h.le)
      have h2 : ¬ (offset src s ≤ mx) := not_le.2 h
      simp [h, h1, h2]
    · have h2 : offset src s ≤ mx := not_lt.1 h
      simp only [h, if_false, ih, h2, decide_true, if_true]
      by_cases h3 : mn < offset src s ∧ offset src s < mx
      · have h4 : InRange src mn mx s := h3
        simp [h3, h4]
      · have h4 : ¬ InRange src mn mx s := h3
        simp [h3, h4]

theorem trimOffsets_eq (a : Arr) (mn mx : ℚ) :
    a.trimOffsets mn mx =
      match (a.sensors.takeWhile fun s => decide (offset a.source s ≤ mx)).filter
          fun s => decide (InRange a.source mn mx s) with
      | [] => (a, .error .valueError)
      | k :: ks => ({ a with sensors := k :: ks }, .ok ()) := by
  unfold trimOffsets
  rw [offsets_zip, trimOffsetsLoop_eq]
  generalize List.filter _ _ = l
  rcases l with _ | ⟨k, ks⟩ <;> rfl

/-- **C18** (never too many).  A successful `trim_offsets` keeps only sensors strictly between the limits,
in their original order, and keeps the source. -/
theorem C18_kept_sensors_are_in_range (a a' : Arr) (mn mx : ℚ) (h : a.trimOffsets mn mx = (a', .ok ())) :
    a'.sensors.Sublist a.sensors ∧ (∀ s ∈ a'.sensors, InRange a.source mn mx s) ∧ a'.source = a.source := by
  have hs := trimOffsets_sublist a mn mx
  rw [h] at hs
  refine ⟨hs, ?_⟩
  rw [trimOffsets_eq] at h
  split at h
  · simp at h
  · rename_i k ks heq
    simp only [Prod.mk.injEq, and_true] at h
    subst h
    refine ⟨?_, rfl⟩
    intro s hs
    simp only at hs
    rw [← heq] at hs
    have := (List.mem_filter.1 hs).2
    simpa using this

/-- **C18 does not hold** for a source at the far end: a sensor in range is dropped because a sensor
before it is too far. -/
theorem C18_far_source_drops_sensors_counterexample :
    ∃ a : Arr, Arr.init [mkS 0 [1], mkS 1 [2], mkS 2 [3]] ⟨5, 0, 0⟩ = .ok a ∧
      a.offsets = [5, 4, 3] ∧ (a.sensors.filter fun s => decide (InRange a.source 2 (9 / 2) s)).length = 2 ∧
      a.trimOffsets 2 (9 / 2) = (a, .error .valueError) := by
  refine ⟨⟨[mkS 0 [1], mkS 1 [2], mkS 2 [3]], ⟨5, 0, 0⟩⟩, ?_, ?_, ?_, ?_⟩
  all_goals decide +kernel

/-- **C18 fails for every far-side source** whose first (farthest) sensor is beyond the upper limit: the
call is refused no matter how many sensors are in range. -/
theorem C18_far_first_sensor_always_refused_fails (a : Arr) (s0 : Sensor) (rest : List Sensor)
    (hs : a.sensors = s0 :: rest) (mn mx : ℚ) (hfar : mx < offset a.source s0) :
    a.trimOffsets mn mx = (a, .error .valueError) := by
  rw [trimOffsets_eq, hs]
  simp [not_le.2 hfar]

/-- **C18** (what does hold).  If no sensor at or before the source position is farther than the upper
limit - in particular whenever the source is at or before the first sensor - the sensors afterwards are
exactly those in range.  Missing: arrays with a too far sensor on the low-x side of the source. -/
theorem C18_exactly_the_sensors_in_range_partial (a : Arr) (mn mx : ℚ) (hc : Consistent a)
    (hnear : ∀ s ∈ a.sensors, s.x ≤ a.source.x → offset a.source s ≤ mx)
    (hsome : ∃ s ∈ a.sensors, InRange a.source mn mx s) :
    a.trimOffsets mn mx =
      ({ a with sensors := a.sensors.filter fun s => decide (InRange a.source mn mx s) }, .ok ()) := by
  have key : ∀ l : List Sensor, l.Pairwise (fun s t => s.x < t.x) →
      (∀ s ∈ l, s.x ≤ a.source.x → offset a.source s ≤ mx) →
      (l.takeWhile fun s => decide (offset a.source s ≤ mx)).filter
          (fun s => decide (InRange a.source mn mx s)) =
        l.filter fun s => decide (InRange a.source mn mx s) := by
    intro l
    induction l with
    | nil => intro _ _; rfl
    | cons s rest ih =>
      intro hp hn
      have hp' := List.pairwise_cons.1 hp
      by_cases h : offset a.source s ≤ mx
      · simp only [List.takeWhile_cons, h, decide_true, if_true, List.filter_cons]
        rw [ih hp'.2 (fun t ht => hn t (by simp [ht]))]
      · have hsx : a.source.x < s.x := by
          by_contra h'
          exact h (hn s (by simp) (not_lt.1 h'))
        have hall : ∀ t ∈ s :: rest, ¬ InRange a.source mn mx t := by
          intro t ht hr
          have hst : s.x ≤ t.x := by
            rcases List.mem_cons.1 ht with rfl | ht
            · exact le_refl _
            · exact (hp'.1 t ht).le
          have h1 : offset a.source s = s.x - a.source.x := by
            unfold offset; rw [abs_sub_comm, abs_of_pos (by linarith)]
          have h2 : offset a.source t = t.x - a.source.x := by
            unfold offset; rw [abs_sub_comm, abs_of_pos (by linarith)]
          have := hr.2
          rw [h2] at this
          rw [h1] at h
          linarith
        have h1 : (s :: rest).filter (fun s => decide (InRange a.source mn mx s)) = [] := by
          rw [List.filter_eq_nil_iff]
          intro t ht
          simpa using hall t ht
        rw [h1]
        simp [h]
  rw [trimOffsets_eq, key a.sensors hc.2.1 hnear]
  obtain ⟨s, hs, hr⟩ := hsome
  split
  · rename_i heq
    rw [List.filter_eq_nil_iff] at heq
    exact absurd (by simpa using hr) (heq s hs)
  · rename_i k ks heq
    rw [heq]

/-- **C18** (exactly when).  If some sensor is in range, the call leaves exactly the sensors in range if and only if
none of them comes, in the order of the array, after one which is farther than the upper limit. -/
theorem C18_right_iff_partial (a : Arr) (mn mx : ℚ) (hsome : ∃ s ∈ a.sensors, InRange a.source mn mx s) :
    a.trimOffsets mn mx =
        ({ a with sensors := a.sensors.filter fun s => decide (InRange a.source mn mx s) }, .ok ()) ↔
      a.sensors.Pairwise fun s t => mx < offset a.source s → ¬ InRange a.source mn mx t := by
  have key : ∀ l : List Sensor, ((l.takeWhile fun s => decide (offset a.source s ≤ mx)).filter
          (fun s => decide (InRange a.source mn mx s)) = l.filter fun s => decide (InRange a.source mn mx s)) ↔
      l.Pairwise fun s t => mx < offset a.source s → ¬ InRange a.source mn mx t := by
    intro l
    induction l with
    | nil => simp
    | cons s rest ih =>
      rw [List.pairwise_cons]
      by_cases h : offset a.source s ≤ mx
      · simp only [List.takeWhile_cons, h, decide_true, if_true, List.filter_cons, not_lt.2 h, false_implies,
          implies_true, true_and]
        rw [← ih]
        split_ifs <;> simp
      · have h1 : ¬ InRange a.source mn mx s := fun hr => h hr.2.le
        have h2 : mx < offset a.source s := not_le.1 h
        simp only [List.takeWhile_cons, h, decide_false, Bool.false_eq_true, if_false, List.filter_nil,
          List.filter_cons, h1, h2, true_implies]
        rw [eq_comm, List.filter_eq_nil_iff]
        simp only [decide_eq_true_eq]
        refine ⟨fun hall => ⟨hall, ?_⟩, fun hx => hx.1⟩
        exact List.Pairwise.imp_of_mem (R := fun _ _ => True) (fun _ hb _ _ => hall _ hb)
          (List.pairwise_of_forall fun _ _ => trivial)
  rw [← key, trimOffsets_eq]
  obtain ⟨s, hs, hr⟩ := hsome
  have hne : a.sensors.filter (fun s => decide (InRange a.source mn mx s)) ≠ [] := by
    rw [Ne, List.filter_eq_nil_iff]
    exact fun hall => hall s hs (by simpa using hr)
  split
  · rename_i heq
    rw [heq]
    simp only [Prod.mk.injEq, reduceCtorEq, and_false, false_iff]
    exact hne.symm
  · rename_i k ks heq
    rw [heq]
    simp only [Prod.mk.injEq, and_true]
    exact ⟨fun h => congrArg Arr.sensors h, fun h => by rw [h]⟩

example :
    let a : Arr := ⟨[mkS 0 [1], mkS 1 [2], mkS 2 [3], mkS 3 [4]], ⟨-2, 0, 0⟩⟩
    Consistent a ∧ (∀ s ∈ a.sensors, s.x ≤ a.source.x → offset a.source s ≤ 5) ∧
    a.trimOffsets 2 5 = (⟨[mkS 1 [2], mkS 2 [3]], ⟨-2, 0, 0⟩⟩, .ok ()) := by
  refine ⟨(init_consistent (l := [mkS 0 [1], mkS 1 [2], mkS 2 [3], mkS 3 [4]]) (src := ⟨-2, 0, 0⟩)
    (by decide +kernel)).1, ?_, ?_⟩
  all_goals decide +kernel

/-- **C19**.  `trim_offsets` never leaves an array without sensors; when it refuses, it raises
`ValueError` and nothing changes; when no sensor is in range it refuses. -/
theorem C19_never_empties (a : Arr) (mn mx : ℚ) :
    (a.sensors ≠ [] → (a.trimOffsets mn mx).1.sensors ≠ []) ∧
    (∀ a' e, a.trimOffsets mn mx = (a', .error e) → a' = a ∧ e = .valueError) ∧
    ((∀ s ∈ a.sensors, ¬ InRange a.source mn mx s) → a.trimOffsets mn mx = (a, .error .valueError)) := by
  rw [trimOffsets_eq]
  refine ⟨?_, ?_, ?_⟩
  · intro h; split
    · exact h
    · simp
  · intro a' e h
    split at h
    · simp only [Prod.mk.injEq, Except.error.injEq] at h
      exact ⟨h.1.symm, h.2.symm⟩
    · simp at h
  · intro h
    split
    · rfl
    · rename_i k ks heq
      exfalso
      have hk : k ∈ k :: ks := by simp
      rw [← heq] at hk
      obtain ⟨h1, h2⟩ := List.mem_filter.1 hk
      have h3 := (List.takeWhile_sublist _).subset h1
      exact h k h3 (by simpa using h2)

example : (Arr.mk [mkS 0 [1], mkS 1 [2]] ⟨-2, 0, 0⟩).trimOffsets 5 9 =
    (⟨[mkS 0 [1], mkS 1 [2]], ⟨-2, 0, 0⟩⟩, .error .valueError) := by decide +kernel

/-! ## The view handed to a wavefield transform -/

theorem offsets_eq (a : Arr) : a.offsets = a.sensors.map (offset a.source) := by
  simp [offsets, position, offset]

theorem flipped_eq (a : Arr) (sN : Sensor) (hN : a.sensors.getLast? = some sN) :
    a.flippedTseriesAndOffsets = .ok (
      if sN.x < a.source.x then (a.timeseriesmatrix.reverse, a.offsets.reverse)
      else (a.timeseriesmatrix, a.offsets)) := by
  unfold flippedTseriesAndOffsets flipRequired position
  rw [List.getLast?_map, hN]
  by_cases h : sN.x < a.source.x <;>
    simp [h, bind, Except.bind, pure, Except.pure]

/-- **C20** (pairing).  For every array and source position the view consists of all sensors, each trace
beside the offset of its own sensor. -/
theorem C20_traces_keep_their_offsets (a : Arr) (tm : List (List ℚ)) (offs : List ℚ)
    (h : a.flippedTseriesAndOffsets = .ok (tm, offs)) :
    ∃ ss : List Sensor, ss.Perm a.sensors ∧ tm = ss.map (fun s => s.ts.amp) ∧
      offs = ss.map (offset a.source) := by
  rcases hN : a.sensors.getLast? with _ | sN
  · unfold flippedTseriesAndOffsets flipRequired position at h
    rw [List.getLast?_map, hN] at h
    simp [bind, Except.bind] at h
  · rw [flipped_eq a sN hN] at h
    split_ifs at h
    · simp only [Except.ok.injEq, Prod.mk.injEq] at h
      refine ⟨a.sensors.reverse, List.reverse_perm _, ?_, ?_⟩
      · rw [← h.1, timeseriesmatrix, List.map_reverse]
      · rw [← h.2, offsets_eq, List.map_reverse]
    · simp only [Except.ok.injEq, Prod.mk.injEq] at h
      refine ⟨a.sensors, List.Perm.refl _, ?_, ?_⟩
      · rw [← h.1, timeseriesmatrix]
      · rw [← h.2, offsets_eq]

/-- **C20 does not hold** for a source exactly at the last sensor: the view runs from far to near. -/
theorem C20_source_at_last_sensor_counterexample :
    ∃ a : Arr, Arr.init [mkS 0 [10], mkS 1 [11], mkS 2 [12]] ⟨2, 0, 0⟩ = .ok a ∧
      a.sourceInside = .ok false ∧
      a.flippedTseriesAndOffsets = .ok ([[10], [11], [12]], [2, 1, 0]) := by
  refine ⟨⟨[mkS 0 [10], mkS 1 [11], mkS 2 [12]], ⟨2, 0, 0⟩⟩, ?_, ?_, ?_⟩
  all_goals decide +kernel

/-- **C20 fails for every array** of at least two sensors whose source is exactly at the last one: the offsets are
strictly decreasing. -/
theorem C20_source_at_last_sensor_fails (a : Arr) (hc : Consistent a) (sN : Sensor)
    (hN : a.sensors.getLast? = some sN) (hx : a.source.x = sN.x) :
    a.flippedTseriesAndOffsets = .ok (a.sensors.map (fun s => s.ts.amp), a.sensors.map (offset a.source)) ∧
    (a.sensors.map (offset a.source)).Pairwise (· > ·) := by
  constructor
  · rw [flipped_eq a sN hN, if_neg (by rw [hx]; exact lt_irrefl _), timeseriesmatrix, offsets_eq]
  · rw [List.pairwise_map]
    refine hc.2.1.imp_of_mem ?_
    intro s t hs ht hst
    have hle : ∀ u ∈ a.sensors, u.x ≤ a.source.x := by
      intro u hu
      obtain ⟨i, hi, rfl⟩ := List.mem_iff_getElem.1 hu
      rw [List.getLast?_eq_getElem?, List.getElem?_eq_some_iff] at hN
      obtain ⟨hl, hN⟩ := hN
      rw [hx, ← hN]
      rcases Nat.lt_or_ge i (a.sensors.length - 1) with h | h
      · exact (List.pairwise_iff_getElem.1 hc.2.1 _ _ _ _ h).le
      · have : i = a.sensors.length - 1 := by omega
        subst this; exact le_refl _
    unfold offset
    rw [abs_of_nonneg (by linarith [hle s hs]), abs_of_nonneg (by linarith [hle t ht])]
    linarith

/-- **C20** (order, what does hold).  For a source at or before the first sensor, or beyond the last, the
offsets are strictly increasing.  Missing: a source exactly at the last sensor (refuted above). -/
theorem C20_near_to_far_partial (a : Arr) (hc : Consistent a)
    (hout : (∀ s ∈ a.sensors, a.source.x ≤ s.x) ∨ (∀ s ∈ a.sensors, s.x < a.source.x)) :
    ∃ ss : List Sensor, ss.Perm a.sensors ∧ ss.Pairwise (fun s t => offset a.source s < offset a.source t) ∧
      a.flippedTseriesAndOffsets = .ok (ss.map (fun s => s.ts.amp), ss.map (offset a.source)) := by
  rcases hN : a.sensors.getLast? with _ | sN
  · exact absurd (List.getLast?_eq_none_iff.1 hN) hc.1
  · have hmem : sN ∈ a.sensors := List.mem_of_getLast? hN
    rw [flipped_eq a sN hN]
    rcases hout with h | h
    · refine ⟨a.sensors, List.Perm.refl _, ?_, ?_⟩
      · refine hc.2.1.imp_of_mem ?_
        intro s t hs ht hst
        unfold offset
        rw [abs_sub_comm, abs_of_nonneg (by linarith [h s hs]), abs_sub_comm,
          abs_of_nonneg (by linarith [h t ht])]
        linarith
      · rw [if_neg (not_lt.2 (h sN hmem)), timeseriesmatrix, offsets_eq]
    · refine ⟨a.sensors.reverse, List.reverse_perm _, ?_, ?_⟩
      · rw [List.pairwise_reverse]
        refine hc.2.1.imp_of_mem ?_
        intro s t hs ht hst
        unfold offset
        rw [abs_of_pos (by linarith [h t ht]), abs_of_pos (by linarith [h s hs])]
        linarith
      · rw [if_pos (h sN hmem), timeseriesmatrix, offsets_eq, List.map_reverse, List.map_reverse]

example : (Arr.mk [mkS 0 [10], mkS 1 [11], mkS 2 [12]] ⟨4, 0, 0⟩).flippedTseriesAndOffsets =
    .ok ([[12], [11], [10]], [2, 3, 4]) := by decide +kernel

/-- Mirror a sensor at `c`. -/
def mirrorS (c : ℚ) (s : Sensor) : Sensor := { s with x := 2 * c - s.x }
/-- Mirror a source at `c`. -/
def mirrorSrc (c : ℚ) (s : Source) : Source := { s with x := 2 * c - s.x }

/-- **C21**.  Mirroring an array and its outside source about any point gives an array again, and the view
handed to a wavefield transform is unchanged. -/
theorem C21_mirror_symmetry (a : Arr) (c : ℚ) (hc : Consistent a)
    (hout : (∀ s ∈ a.sensors, a.source.x < s.x) ∨ (∀ s ∈ a.sensors, s.x < a.source.x)) :
    ∃ b, Arr.init (a.sensors.map (mirrorS c)) (mirrorSrc c a.source) = .ok b ∧
      b.flippedTseriesAndOffsets = a.flippedTseriesAndOffsets := by
  have hoff : ∀ s, offset (mirrorSrc c a.source) (mirrorS c s) = offset a.source s := by
    intro s
    simp only [offset, mirrorSrc, mirrorS]
    rw [show 2 * c - a.source.x - (2 * c - s.x) = -(a.source.x - s.x) by ring, abs_neg]
  have hcb : Consistent ⟨(a.sensors.map (mirrorS c)).reverse, mirrorSrc c a.source⟩ := by
    refine ⟨?_, ?_, ?_⟩
    · simpa using hc.1
    · simp only
      rw [List.pairwise_reverse, List.pairwise_map]
      refine hc.2.1.imp ?_
      intro s t hst
      simp only [mirrorS]; linarith
    · intro s hs t ht
      simp only [List.mem_reverse, List.mem_map] at hs ht
      obtain ⟨s', hs', rfl⟩ := hs
      obtain ⟨t', ht', rfl⟩ := ht
      exact hc.2.2 s' hs' t' ht'
  refine ⟨⟨(a.sensors.map (mirrorS c)).reverse, mirrorSrc c a.source⟩, ?_, ?_⟩
  · rw [C16_construction_order_independent _ _ _ (by simpa using hc.1) (List.reverse_perm _).symm]
    exact init_of_consistent hcb
  · rcases hN : a.sensors.getLast? with _ | sN
    · exact absurd (List.getLast?_eq_none_iff.1 hN) hc.1
    rcases h0 : a.sensors.head? with _ | s0
    · exact absurd (List.head?_eq_none_iff.1 h0) hc.1
    have hmN : sN ∈ a.sensors := List.mem_of_getLast? hN
    have hm0 : s0 ∈ a.sensors := List.mem_of_head? h0
    rw [flipped_eq a sN hN, flipped_eq _ (mirrorS c s0) (by
      simp only [List.getLast?_reverse, List.head?_map, h0, Option.map_some])]
    have htm : Arr.timeseriesmatrix ⟨(a.sensors.map (mirrorS c)).reverse, mirrorSrc c a.source⟩ =
        a.timeseriesmatrix.reverse := by
      simp only [timeseriesmatrix, List.map_reverse, List.map_map]
      rfl
    have hoffs : Arr.offsets ⟨(a.sensors.map (mirrorS c)).reverse, mirrorSrc c a.source⟩ =
        a.offsets.reverse := by
      rw [offsets_eq, offsets_eq]
      simp only [List.map_reverse, List.map_map]
      congr 2
      funext s
      exact hoff s
    rw [htm, hoffs]
    rcases hout with h | h
    · have h1 := h sN hmN
      have h2 := h s0 hm0
      rw [if_pos (show (mirrorS c s0).x < (mirrorSrc c a.source).x by simp only [mirrorS, mirrorSrc]; linarith),
        if_neg (show ¬ sN.x < a.source.x by linarith)]
      simp
    · have h1 := h sN hmN
      have h2 := h s0 hm0
      rw [if_neg (show ¬ (mirrorS c s0).x < (mirrorSrc c a.source).x by simp only [mirrorS, mirrorSrc]; linarith),
        if_pos (show sN.x < a.source.x by linarith)]

example : ∃ b, Arr.init ([mkS 0 [10], mkS 1 [11], mkS 2 [12]].map (mirrorS 3)) (mirrorSrc 3 ⟨4, 0, 0⟩) = .ok b ∧
    b.position = [4, 5, 6] ∧ b.source.x = 2 ∧
    b.flippedTseriesAndOffsets = .ok ([[12], [11], [10]], [2, 3, 4]) :=
  ⟨⟨[mkS 4 [12], mkS 5 [11], mkS 6 [10]], ⟨2, 0, 0⟩⟩, by decide +kernel⟩

end Verif.Props
