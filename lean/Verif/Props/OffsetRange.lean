import Verif.Props.ArrayOffsets
import Verif.Props.FreqVelocity
import Verif.Props.WorkflowExamples
import Verif.Props.RunReturns

/-!
# C174: receivers outside the offset range have no influence

A property of two runs: the files agree in the source and in the receivers within the offset range and differ arbitrarily
in the others.
-/

namespace Verif.Props
open Verif WT Spec Workflow

/-! ## What is meant -/

/-- The receiver is to be used: its offset is strictly between the limits, the upper of which may be infinite. -/
def Used (mn : ℚ) (mx : Fl) (src : Source) (s : Sensor) : Prop :=
  mn < offset src s ∧ (mx = .pinf ∨ ∃ q, mx = .fin q ∧ offset src s < q)

/-- The receivers to be used. -/
noncomputable def usedOf (set : Settings) (a : Arr) : List Sensor :=
  open Classical in a.sensors.filter fun s => decide (Used set.minOffset set.maxOffset a.source s)

/-- No receiver at or before the source, in the direction of x, is farther than the upper limit. -/
def NearBelow (mx : Fl) (a : Arr) : Prop :=
  ∀ q, mx = .fin q → ∀ s ∈ a.sensors, s.x ≤ a.source.x → offset a.source s ≤ q

/-! ## Selecting receivers -/

theorem trimOffsetsFl_used (set : Settings) (a : Arr) (hc : Consistent a) (hn : NearBelow set.maxOffset a) :
    trimOffsetsFl a set.minOffset set.maxOffset =
      if usedOf set a = [] then (a, .error .valueError) else ({ a with sensors := usedOf set a }, .ok ()) := by
  classical
  unfold usedOf
  rcases hmx : set.maxOffset with _ | _ | q | _
  rotate_left 2
  · have hf : (a.sensors.filter fun s => decide (Used set.minOffset (.fin q) a.source s)) =
        a.sensors.filter fun s => decide (InRange a.source set.minOffset q s) := by
      refine List.filter_congr fun s _ => ?_
      rw [decide_eq_decide]
      simp [Used, InRange]
    have hf' : (@List.filter Sensor (fun s => @decide (Used set.minOffset (.fin q) a.source s) (Classical.propDecidable _))
        a.sensors) = a.sensors.filter fun s => decide (InRange a.source set.minOffset q s) := by
      rw [← hf]
    rw [hf']
    show a.trimOffsets set.minOffset q = _
    by_cases h : ∃ s ∈ a.sensors, InRange a.source set.minOffset q s
    · rw [C18_exactly_the_sensors_in_range_partial a _ _ hc (hn q hmx) h, if_neg]
      rw [List.filter_eq_nil_iff]
      push Not
      obtain ⟨s, h1, h2⟩ := h
      exact ⟨s, h1, by simpa using h2⟩
    · push Not at h
      have e : (a.sensors.filter fun s => decide (InRange a.source set.minOffset q s)) = [] := by
        rw [List.filter_eq_nil_iff]
        intro s hs
        simpa using h s hs
      have e' : ((a.sensors.takeWhile fun s => decide (offset a.source s ≤ q)).filter
          fun s => decide (InRange a.source set.minOffset q s)) = [] := by
        rw [List.filter_eq_nil_iff]
        intro s hs
        simpa using h s ((List.takeWhile_sublist _).subset hs)
      rw [trimOffsets_eq, e', if_pos e]
  · have hf : (@List.filter Sensor (fun s => @decide (Used set.minOffset .pinf a.source s) (Classical.propDecidable _))
        a.sensors) = (a.offsets.zip a.sensors).filterMap fun p => if p.1 > set.minOffset then some p.2 else none := by
      rw [Arr.offsets_zip, List.filterMap_map, ← List.filterMap_eq_filter]
      congr 1
      funext s
      simp only [Function.comp_apply, Used, true_or, and_true, gt_iff_lt, Option.guard]
      by_cases h : set.minOffset < offset a.source s <;> simp [h]
    rw [hf]
    show (match (a.offsets.zip a.sensors).filterMap fun p => if p.1 > set.minOffset then some p.2 else none with
      | [] => (a, Except.error PyErr.valueError)
      | kept => ({ a with sensors := kept }, Except.ok ())) = _
    generalize ((a.offsets.zip a.sensors).filterMap fun p => if p.1 > set.minOffset then some p.2 else none) = l
    rcases l with _ | ⟨k, ks⟩
    · rfl
    · rfl
  · rw [if_pos (by rw [List.filter_eq_nil_iff]; intro s _; simp [Used])]
    rfl
  · rw [if_pos (by rw [List.filter_eq_nil_iff]; intro s _; simp [Used])]
    rfl

/-! ## Two runs -/

/-- **C174**.  Two arrays from the same shot, with the same receivers within the offset range, the source not between the
receivers and no receiver before the source beyond the upper limit: the run ends the same way for both - with the same
transform, the same array, the same signal-to-noise ratio and the same mute lines, or with the same exception.  Missing:
the two conditions, see `C174_other_side_fails` and `C174_far_receiver_fails`. -/
theorem C174_time_domain_partial (env : Env) (set : Settings) (f g : Fnames) (a b : Arr) (ha : fromFiles env f = .ok a)
    (hb : fromFiles env g = .ok b) (hca : Consistent a) (hcb : Consistent b) (hsrc : a.source = b.source)
    (hoa : ¬ SourceBetween a) (hob : ¬ SourceBetween b) (hna : NearBelow set.maxOffset a) (hnb : NearBelow set.maxOffset b)
    (hused : usedOf set a = usedOf set b) : timeDomain env set f = timeDomain env set g := by
  have key : ∀ (h : Fnames) (c : Arr), fromFiles env h = .ok c → Consistent c → ¬ SourceBetween c →
      NearBelow set.maxOffset c → timeDomain env set h =
        (if usedOf set c = [] then .error (.raised .valueError) else .ok (State.new ⟨usedOf set c, c.source⟩) :
          Except Stop State) >>= fun s => do
        let s := { s with array := detrend env s.array }
        let s ← selectNoise set s
        let s ← trimTime set s
        let s ← Workflow.mute env set s
        let s ← selectSignal set s
        let (s, snr) ← calculateSnr set s
        let s ← Workflow.pad set s
        let t ← Workflow.transform env set s.array
        return ⟨t, s.array, snr, s⟩ := by
    intro h c hc h1 h2 h3
    have e : Workflow.trimOffsets set (State.new c) =
        if usedOf set c = [] then .error (.raised .valueError) else .ok (State.new ⟨usedOf set c, c.source⟩) := by
      unfold Workflow.trimOffsets
      rw [show (State.new c).array = c from rfl, trimOffsetsFl_used set c h1 h3]
      split_ifs <;> rfl
    unfold timeDomain
    rw [hc]
    show (check c >>= _) = _
    rw [check_not_between h1.1 h2]
    show (Workflow.trimOffsets set (State.new c) >>= _) = _
    rw [e]
  rw [key f a ha hca hoa hna, key g b hb hcb hob hnb, hused, hsrc]

/-- **C174** for single files: what is read from one file is a valid array. -/
theorem C174_single_partial (env : Env) (set : Settings) (f g : String) (a b : Arr) (ha : fromFiles env (.one f) = .ok a)
    (hb : fromFiles env (.one g) = .ok b) (hsrc : a.source = b.source) (hoa : ¬ SourceBetween a) (hob : ¬ SourceBetween b)
    (hna : NearBelow set.maxOffset a) (hnb : NearBelow set.maxOffset b) (hused : usedOf set a = usedOf set b) :
    single env set (.one f) = single env set (.one g) :=
  C174_time_domain_partial env set (.one f) (.one g) a b ha hb (fromFile_consistent ha) (fromFile_consistent hb) hsrc hoa hob
    hna hnb hused

/-! ## Files -/

/-- Shots at 0 and at 9, with more or fewer receivers. -/
noncomputable def lineEnv : Env :=
  ⟨fun n => match n with
    | "line" => some [seg2 2 0 1 [1, 2], seg2 4 0 1 [3, 4]]
    | "longer" => some [seg2 2 0 1 [1, 2], seg2 4 0 1 [3, 4], seg2 50 0 1 [9, 9]]
    | "both sides" => some [seg2 (-20) 0 1 [9, 9], seg2 2 0 1 [1, 2], seg2 4 0 1 [3, 4]]
    | "end" => some [seg2 2 9 1 [1, 2], seg2 4 9 1 [3, 4]]
    | "longer end" => some [seg2 (-20) 9 1 [9, 9], seg2 2 9 1 [1, 2], seg2 4 9 1 [3, 4]]
    | _ => none, id, id, id, fun _ n => List.replicate n 1, ⟨[], []⟩, [("first", firstSample)]⟩

/-- Receivers up to a distance of 8. -/
def lineSet : Settings := { exSet with maxOffset := .fin 8, snrPerform := false }

/-- The receivers at 2 and 4, with a source and further receivers. -/
def lineArr (before : List Sensor) (src : ℚ) (after : List Sensor) : Arr :=
  ⟨before ++ [⟨⟨[1, 2], 1 / 1000, 1, 0, 1⟩, 2, 0, 0⟩, ⟨⟨[3, 4], 1 / 1000, 1, 0, 1⟩, 4, 0, 0⟩] ++ after, ⟨src, 0, 0⟩⟩

/-- A receiver with other samples. -/
def lineOther (x : ℚ) : Sensor := ⟨⟨[9, 9], 1 / 1000, 1, 0, 1⟩, x, 0, 0⟩

theorem line_read : fromFiles lineEnv (.one "line") = .ok (lineArr [] 0 []) := by decide +kernel
theorem longer_read : fromFiles lineEnv (.one "longer") = .ok (lineArr [] 0 [lineOther 50]) := by decide +kernel
theorem bothSides_read : fromFiles lineEnv (.one "both sides") = .ok (lineArr [lineOther (-20)] 0 []) := by decide +kernel
theorem end_read : fromFiles lineEnv (.one "end") = .ok (lineArr [] 9 []) := by decide +kernel
theorem longerEnd_read : fromFiles lineEnv (.one "longer end") = .ok (lineArr [lineOther (-20)] 9 []) := by decide +kernel

theorem used_line (before : List Sensor) (src : ℚ) (after : List Sensor) (hs : src = 0 ∨ src = 9)
    (hb : ∀ s ∈ before ++ after, s = lineOther (-20) ∨ s = lineOther 50) :
    usedOf lineSet (lineArr before src after) = (lineArr [] 0 []).sensors := by
  classical
  have hno : ∀ l : List Sensor, (∀ s ∈ l, s = lineOther (-20) ∨ s = lineOther 50) →
      (@List.filter Sensor (fun s => @decide (Used lineSet.minOffset lineSet.maxOffset ⟨src, 0, 0⟩ s)
        (Classical.propDecidable _)) l) = [] := by
    intro l hl
    rw [List.filter_eq_nil_iff]
    intro s hs'
    rcases hl s hs' with rfl | rfl <;> rcases hs with rfl | rfl <;> simp [Used, lineSet, offset, lineOther, exSet] <;> norm_num
  unfold usedOf
  show (@List.filter Sensor (fun s => @decide (Used lineSet.minOffset lineSet.maxOffset ⟨src, 0, 0⟩ s)
        (Classical.propDecidable _)) (before ++ _ ++ after)) = _
  rw [List.filter_append, List.filter_append, hno before fun s h => hb s (List.mem_append_left _ h),
    hno after fun s h => hb s (List.mem_append_right _ h)]
  rcases hs with rfl | rfl <;> simp [Used, lineSet, offset, lineArr, exSet, List.filter_cons] <;> norm_num

theorem line_runs (name : String) (src : ℚ) (h : name = "line" ∧ src = 0 ∨ name = "end" ∧ src = 9) :
    ∃ r, timeDomain lineEnv lineSet (.one name) = .ok r ∧ r.array = lineArr [] src [] := by
  have aux : fromFiles lineEnv (.one name) = .ok (lineArr [] src []) ∧
      trimOffsetsFl (lineArr [] src []) 0 (.fin 8) = (lineArr [] src [], .ok ()) ∧ ¬ SourceBetween (lineArr [] src []) := by
    rcases h with ⟨rfl, rfl⟩ | ⟨rfl, rfl⟩
    · refine ⟨line_read, by decide +kernel, ?_⟩
      rintro ⟨p, q, h1, h2, h3, h4⟩
      simp only [lineArr, Arr.position, List.nil_append, List.append_nil, List.map_cons, List.map_nil, List.head?_cons,
        Option.some.injEq] at h1
      rw [← h1] at h3
      norm_num [lineArr] at h3
    · refine ⟨end_read, by decide +kernel, ?_⟩
      rintro ⟨p, q, h1, h2, h3, h4⟩
      simp only [lineArr, Arr.position, List.nil_append, List.append_nil, List.map_cons, List.map_nil,
        List.getLast?_cons_cons, List.getLast?_singleton, Option.some.injEq] at h2
      rw [← h2] at h4
      norm_num [lineArr] at h4
  obtain ⟨r, hr, ha, -⟩ := C76_run_returns lineEnv lineSet (.one name) _ _ _ _ _ _ (none, none) _ aux.1 (by simp [lineArr])
    aux.2.2 ⟨aux.2.1, rfl, rfl, rfl, rfl, rfl⟩ (fun h => by cases h) ⟨_, rfl, rfl⟩ none (fun _ => rfl) (fun h => by cases h)
  exact ⟨r, hr, ha⟩

/-- The hypotheses of `C174_single_partial` are met: the receiver at 50 is not used. -/
example : ∃ r, single lineEnv lineSet (.one "line") = .ok r ∧ single lineEnv lineSet (.one "longer") = .ok r := by
  obtain ⟨r, hr, -⟩ := line_runs "line" 0 (Or.inl ⟨rfl, rfl⟩)
  refine ⟨r, hr, ?_⟩
  rw [← show single lineEnv lineSet (.one "line") = .ok r from hr]
  refine C174_single_partial lineEnv lineSet _ _ _ _ longer_read line_read rfl ?_ ?_ ?_ ?_ ?_
  · rintro ⟨p, q, h1, h2, h3, h4⟩
    simp only [lineArr, Arr.position, List.nil_append, List.map_cons, List.cons_append, List.head?_cons,
      Option.some.injEq] at h1
    rw [← h1] at h3
    norm_num [lineArr] at h3
  · rintro ⟨p, q, h1, h2, h3, h4⟩
    simp only [lineArr, Arr.position, List.nil_append, List.append_nil, List.map_cons, List.map_nil, List.head?_cons,
      Option.some.injEq] at h1
    rw [← h1] at h3
    norm_num [lineArr] at h3
  · intro q _ s hs h
    simp only [lineArr, lineOther, List.nil_append, List.cons_append, List.mem_cons, List.not_mem_nil, or_false] at hs
    rcases hs with rfl | rfl | rfl <;> norm_num [lineArr] at h
  · intro q _ s hs h
    simp only [lineArr, List.nil_append, List.append_nil, List.mem_cons, List.not_mem_nil, or_false] at hs
    rcases hs with rfl | rfl <;> norm_num [lineArr] at h
  · rw [used_line [] 0 [lineOther 50] (Or.inl rfl) (by simp), used_line [] 0 [] (Or.inl rfl) (by simp)]

/-- **C174** fails: a receiver on the other side of the source, too far away to be used, makes the run refuse the record,
because the position of the source is checked before the receivers are selected. -/
theorem C174_other_side_fails : ∃ env set a b r, fromFiles env (.one "line") = .ok a ∧
    fromFiles env (.one "both sides") = .ok b ∧ a.source = b.source ∧ usedOf set a = usedOf set b ∧ usedOf set b ≠ [] ∧
    timeDomain env set (.one "line") = .ok r ∧ timeDomain env set (.one "both sides") = .error (.raised .valueError) := by
  obtain ⟨r, hr, -⟩ := line_runs "line" 0 (Or.inl ⟨rfl, rfl⟩)
  have e := used_line [lineOther (-20)] 0 [] (Or.inl rfl) (by simp)
  refine ⟨lineEnv, lineSet, _, _, r, line_read, bothSides_read, rfl, ?_, ?_, hr, ?_⟩
  · rw [e, used_line [] 0 [] (Or.inl rfl) (by simp)]
  · rw [e]; simp [lineArr]
  · exact C76_source_inside_refused lineEnv lineSet _ _ bothSides_read ⟨-20, 4, rfl, rfl, by decide +kernel, by decide +kernel⟩

/-- **C174** fails: with the source beyond the last receiver, one receiver too far away to be used makes the run refuse the
record, although the receivers within the offset range are the same. -/
theorem C174_far_receiver_fails : ∃ env set a b r, fromFiles env (.one "end") = .ok a ∧
    fromFiles env (.one "longer end") = .ok b ∧ a.source = b.source ∧ ¬ SourceBetween b ∧ usedOf set a = usedOf set b ∧
    usedOf set b ≠ [] ∧ timeDomain env set (.one "end") = .ok r ∧
    timeDomain env set (.one "longer end") = .error (.raised .valueError) := by
  obtain ⟨r, hr, -⟩ := line_runs "end" 9 (Or.inr ⟨rfl, rfl⟩)
  have e := used_line [lineOther (-20)] 9 [] (Or.inr rfl) (by simp)
  have hno : ¬ SourceBetween (lineArr [lineOther (-20)] 9 []) := by
    rintro ⟨p, q, h1, h2, h3, h4⟩
    have h2' : some (4 : ℚ) = some q := h2
    cases h2'
    norm_num [lineArr] at h4
  refine ⟨lineEnv, lineSet, _, _, r, end_read, longerEnd_read, rfl, hno, ?_, ?_, hr, ?_⟩
  · rw [e, used_line [] 9 [] (Or.inr rfl) (by simp)]
  · rw [e]; simp [lineArr]
  · unfold timeDomain
    rw [longerEnd_read]
    simp only [bind, Except.bind, check_not_between (show (lineArr [lineOther (-20)] 9 []).sensors ≠ [] by simp [lineArr]) hno,
      Workflow.trimOffsets, State.new, call, show trimOffsetsFl (lineArr [lineOther (-20)] 9 []) lineSet.minOffset
        lineSet.maxOffset = (lineArr [lineOther (-20)] 9 [], .error .valueError) from by decide +kernel]

end Verif.Props
