import Verif.Spec.SuiteHeap
import Verif.Props.Suite

/-!
# C36, C45, C47, C96: suites that share members
-/

namespace Verif.Props
open Verif SuiteHeap Spec

/-- Members exist, identifiers are those of the members and distinct. -/
private structure Ok (objects : List Peaks) (s : RSuite) : Prop where
  known : ∀ r ∈ s.refs, r < objects.length
  ids : s.ids = (s.refs.filterMap fun r => objects[r]?).map Peaks.identifier
  nodup : s.ids.Nodup

private theorem filterMap_refs {objects : List Peaks} {refs : List ℕ} (h : ∀ r ∈ refs, r < objects.length) :
    (refs.filterMap fun r => objects[r]?).length = refs.length := by
  induction refs with
  | nil => rfl
  | cons r rs ih =>
    have := h r (by simp)
    rw [List.filterMap_cons, List.getElem?_eq_getElem this]
    simp [ih fun r hr => h r (by simp [hr])]

private theorem Ok.refs_nodup {objects : List Peaks} {s : RSuite} (h : Ok objects s) : s.refs.Nodup := by
  have h2 := h.nodup
  rw [h.ids] at h2
  have hk := h.known
  clear h
  generalize s.refs = refs at h2 hk ⊢
  induction refs with
  | nil => exact List.nodup_nil
  | cons r rs ih =>
    have hr := hk r (by simp)
    rw [List.filterMap_cons, List.getElem?_eq_getElem hr] at h2
    simp only [List.map_cons, List.nodup_cons] at h2
    refine List.nodup_cons.2 ⟨fun hmem => h2.1 ?_, ih h2.2 fun x hx => hk x (by simp [hx])⟩
    exact List.mem_map.2 ⟨objects[r], List.mem_filterMap.2 ⟨r, hmem, List.getElem?_eq_getElem hr⟩, rfl⟩

private theorem Ok.append {objects : List Peaks} {s : RSuite} (h : Ok objects s) (r : ℕ) :
    Ok objects (append objects s r).1 := by
  unfold SuiteHeap.append
  split
  · exact h
  · rename_i p hp
    split_ifs with hi
    · exact h
    · refine ⟨?_, ?_, ?_⟩
      · intro x hx
        simp only [List.mem_append, List.mem_singleton] at hx
        rcases hx with hx | rfl
        · exact h.known x hx
        · exact (List.getElem?_eq_some_iff.1 hp).1
      · simp [h.ids, hp]
      · simp only
        rw [List.nodup_append]
        refine ⟨h.nodup, by simp, ?_⟩
        intro a ha b hb
        simp only [List.mem_singleton] at hb
        subst hb
        rintro rfl
        exact hi ha

private theorem Ok.calls {objects : List Peaks} : ∀ (refs : List ℕ) (s : RSuite), Ok objects s →
    Ok objects (runCalls (SuiteHeap.append objects) s refs).1 := by
  intro refs
  induction refs with
  | nil => intro s h; exact h
  | cons r rs ih =>
    intro s h
    have h1 := h.append r
    simp only [runCalls]
    generalize SuiteHeap.append objects s r = o at h1
    obtain ⟨s', o⟩ := o
    cases o with
    | error e => exact h1
    | ok => exact ih s' h1

private theorem ok_empty (objects : List Peaks) : Ok objects ⟨[], []⟩ := ⟨by simp, rfl, by simp⟩

private theorem ok_built {objects : List Peaks} {o : Outcome RSuite} {s : RSuite} (h : Ok objects o.1)
    (hb : Suite.built o = .ok s) : Ok objects s := by
  obtain ⟨s', o⟩ := o
  cases o with
  | error e => simp [Suite.built] at hb
  | ok => simp only [Suite.built, Except.ok.injEq] at hb; exact hb ▸ h

private theorem ok_fromPeaks {objects : List Peaks} {refs : List ℕ} {s : RSuite}
    (h : SuiteHeap.fromPeaks objects refs = .ok s) : Ok objects s := by
  cases refs with
  | nil => cases h
  | cons r rs => exact ok_built (Ok.calls _ _ (ok_empty objects)) h

private theorem ok_fromSuites {objects : List Peaks} {ss : List RSuite} {s : RSuite}
    (h : SuiteHeap.fromSuites objects ss = .ok s) : Ok objects s := by
  cases ss with
  | nil => cases h
  | cons t ts =>
    simp only [SuiteHeap.fromSuites] at h
    split at h
    · cases h
    · rename_i obj hobj
      exact ok_built (Ok.calls _ _ (ok_fromPeaks hobj)) h

/-! ## Objects under a loop over members -/

private theorem forRefs_length (f : Peaks → Outcome Peaks) : ∀ (refs : List ℕ) (objects : List Peaks),
    (forRefs f objects refs).1.length = objects.length := by
  intro refs
  induction refs with
  | nil => intro o; rfl
  | cons r rs ih =>
    intro o
    simp only [forRefs]
    split
    · rfl
    · split
      · simp
      · rw [ih]; simp

/-- Objects that are not members do not change. -/
private theorem forRefs_other (f : Peaks → Outcome Peaks) : ∀ (refs : List ℕ) (objects : List Peaks) (x : ℕ), x ∉ refs →
    (forRefs f objects refs).1[x]? = objects[x]? := by
  intro refs
  induction refs with
  | nil => intro o x _; rfl
  | cons r rs ih =>
    intro o x hx
    simp only [List.mem_cons, not_or] at hx
    simp only [forRefs]
    split
    · rfl
    · split
      · exact List.getElem?_set_ne (Ne.symm hx.1)
      · rw [ih _ x hx.2]; exact List.getElem?_set_ne (Ne.symm hx.1)

private theorem filterMap_congr_refs {o o' : List Peaks} {refs : List ℕ} (h : ∀ r ∈ refs, o'[r]? = o[r]?) :
    (refs.filterMap fun r => o'[r]?) = refs.filterMap fun r => o[r]? :=
  List.filterMap_congr h

/-- The loop over distinct members is the loop over their contents. -/
private theorem forRefs_forEach (f : Peaks → Outcome Peaks) : ∀ (refs : List ℕ) (objects : List Peaks), refs.Nodup →
    (∀ r ∈ refs, r < objects.length) →
    Suite.forEach f (refs.filterMap fun r => objects[r]?) =
      ((refs.filterMap fun r => (forRefs f objects refs).1[r]?), (forRefs f objects refs).2) := by
  intro refs
  induction refs with
  | nil => intro o _ _; rfl
  | cons r rs ih =>
    intro o hn hk
    have hr := hk r (by simp)
    rw [List.nodup_cons] at hn
    have hset : ∀ p, (rs.filterMap fun x => (o.set r p)[x]?) = rs.filterMap fun x => o[x]? := fun p =>
      filterMap_congr_refs fun x hx => List.getElem?_set_ne (by rintro rfl; exact hn.1 hx)
    simp only [List.filterMap_cons, List.getElem?_eq_getElem hr, Suite.forEach, forRefs]
    rcases f o[r] with ⟨p', e | u⟩
    · simp only
      rw [hset]
      simp [hr]
    · simp only
      have := ih (o.set r p') hn.2 (by simpa using fun x hx => hk x (by simp [hx]))
      rw [hset] at this
      rw [this]
      have h2 : (forRefs f (o.set r p') rs).1[r]? = some p' := by
        rw [forRefs_other f rs _ r hn.1]
        simp [hr]
      rw [h2]

/-! ## The invariant -/

private theorem reject_identifier (p : Peaks) (attr : String) (lo hi : Option Fl) :
    (p.rejectLimits attr lo hi).1.identifier = p.identifier := by
  unfold Peaks.rejectLimits
  split <;> rfl

private theorem box_identifier (p : Peaks) (xt : String) (xl : Fl × Fl) (yt : String) (yl : Fl × Fl) :
    (p.rejectBox xt xl yt yl).1.identifier = p.identifier := by
  unfold Peaks.rejectBox
  split <;> rfl

private theorem forRefs_identifier {f : Peaks → Outcome Peaks} (hf : ∀ p, (f p).1.identifier = p.identifier) :
    ∀ (refs : List ℕ) (objects : List Peaks) (x : ℕ),
    (forRefs f objects refs).1[x]?.map Peaks.identifier = objects[x]?.map Peaks.identifier := by
  intro refs
  induction refs with
  | nil => intro o x; rfl
  | cons r rs ih =>
    intro o x
    have hset : ∀ p, o[r]? = some p →
        (o.set r (f p).1)[x]?.map Peaks.identifier = o[x]?.map Peaks.identifier := by
      intro p hp
      by_cases hx : r = x
      · subst hx
        obtain ⟨hl, he⟩ := List.getElem?_eq_some_iff.1 hp
        simp [hl, he, hf]
      · rw [List.getElem?_set_ne hx]
    simp only [forRefs]
    split
    · rfl
    · rename_i p hp
      have h := hset p hp
      split
      · rename_i p' e he
        rw [he] at h; exact h
      · rename_i p' he
        rw [he] at h
        rw [ih]; exact h

private def Wf (w : World) : Prop := ∀ s ∈ w.suites, Ok w.objects s

private theorem map_filterMap_refs {o o' : List Peaks} {refs : List ℕ}
    (h : ∀ r ∈ refs, o'[r]?.map Peaks.identifier = o[r]?.map Peaks.identifier) :
    (refs.filterMap fun r => o'[r]?).map Peaks.identifier = (refs.filterMap fun r => o[r]?).map Peaks.identifier := by
  rw [List.map_filterMap, List.map_filterMap]
  exact List.filterMap_congr h

private theorem wf_changed {w : World} (h : Wf w) {f : Peaks → Outcome Peaks}
    (hf : ∀ p, (f p).1.identifier = p.identifier) (refs : List ℕ) : Wf (changed w (forRefs f w.objects refs)).1 := by
  intro s hs
  obtain ⟨h1, h2, h3⟩ := h s hs
  refine ⟨fun r hr => ?_, ?_, h3⟩
  · simp only [changed, forRefs_length]; exact h1 r hr
  · rw [h2]
    exact (map_filterMap_refs fun r _ => forRefs_identifier hf refs w.objects r).symm

private theorem wf_made {w : World} (h : Wf w) {o : Except PyErr RSuite} (ho : ∀ s, o = .ok s → Ok w.objects s) :
    Wf (made w o).1 := by
  cases o with
  | error e => exact h
  | ok s =>
    intro t ht
    simp only [made, List.mem_append, List.mem_singleton] at ht
    rcases ht with ht | rfl
    · exact h t ht
    · exact ho _ rfl

private theorem wf_step {w : World} (h : Wf w) (op : Op) : Wf (step w op).1 := by
  cases op with
  | newPeaks p =>
    intro s hs
    obtain ⟨h1, h2, h3⟩ := h s hs
    refine ⟨fun r hr => ?_, ?_, h3⟩
    · have := h1 r hr; simp [step]; omega
    · rw [h2]
      congr 1
      refine (filterMap_congr_refs fun r hr => ?_).symm
      exact List.getElem?_append_left (h1 r hr)
  | fromPeaks refs => exact wf_made h fun s hs => ok_fromPeaks hs
  | fromSuites is =>
    simp only [step]
    split
    · exact h
    · exact wf_made h fun s hs => ok_fromSuites hs
  | append i r =>
    simp only [step]
    split
    · exact h
    · rename_i s hs
      intro t ht
      rcases List.mem_or_eq_of_mem_set ht with ht | rfl
      · exact h t ht
      · exact (h s (List.mem_of_getElem? hs)).append r
  | rejectLimits i attr lo hi =>
    simp only [step]
    split
    · exact h
    · exact wf_changed h (fun p => reject_identifier p attr lo hi) _
  | rejectBox i xt xl yt yl =>
    simp only [step]
    split
    · exact h
    · exact wf_changed h (fun p => box_identifier p xt xl yt yl) _
  | memberLimits r attr lo hi => exact wf_changed h (fun p => reject_identifier p attr lo hi) _
  | memberBox r xt xl yt yl => exact wf_changed h (fun p => box_identifier p xt xl yt yl) _

private theorem wf_after (ops : List Op) : Wf (after ops) := by
  have : ∀ (ops : List Op) (w : World), Wf w → Wf (runAll step w ops) := by
    intro ops
    induction ops with
    | nil => intro w h; exact h
    | cons op ops ih => intro w h; exact ih _ (wf_step h op)
  exact this ops start (by intro s hs; simp [start] at hs)

/-! ## Building and appending -/

private theorem append_view {w : World} {s : RSuite} {r : ℕ} {p : Peaks} (h : w.objects[r]? = some p) :
    view w (SuiteHeap.append w.objects s r).1 = ((view w s).append p).1 ∧
      (SuiteHeap.append w.objects s r).2 = ((view w s).append p).2 := by
  unfold SuiteHeap.append Suite.append
  rw [h]
  by_cases hi : p.identifier ∈ s.ids
  · simp [view, hi]
  · simp [view, hi, h]

private theorem calls_view {w : World} : ∀ (refs : List ℕ) (s : RSuite), (∀ r ∈ refs, r < w.objects.length) →
    view w (runCalls (SuiteHeap.append w.objects) s refs).1 =
        (runCalls Suite.append (view w s) (refs.filterMap fun r => w.objects[r]?)).1 ∧
      (runCalls (SuiteHeap.append w.objects) s refs).2 =
        (runCalls Suite.append (view w s) (refs.filterMap fun r => w.objects[r]?)).2 := by
  intro refs
  induction refs with
  | nil => intro s _; exact ⟨rfl, rfl⟩
  | cons r rs ih =>
    intro s h
    obtain ⟨p, hr⟩ : ∃ p, w.objects[r]? = some p := ⟨_, List.getElem?_eq_getElem (h r (by simp))⟩
    obtain ⟨a, b⟩ := append_view (s := s) hr
    rw [List.filterMap_cons, hr]
    simp only [runCalls]
    generalize SuiteHeap.append w.objects s r = o at a b
    generalize (view w s).append p = o' at a b
    obtain ⟨s1, x⟩ := o
    obtain ⟨s2, y⟩ := o'
    simp only at a b
    subst b
    cases x with
    | error e => exact ⟨a, rfl⟩
    | ok =>
      have := ih s1 fun x hx => h x (by simp [hx])
      rw [a] at this
      exact this

private theorem built_view {w : World} {o : Outcome RSuite} {o' : Outcome Suite} (h1 : view w o.1 = o'.1) (h2 : o.2 = o'.2) :
    (Suite.built o).map (view w) = Suite.built o' := by
  obtain ⟨s, x⟩ := o
  obtain ⟨s', y⟩ := o'
  simp only at h1 h2
  subst h1 h2
  cases x <;> rfl

private theorem fromPeaks_view {w : World} {refs : List ℕ} (h : ∀ r ∈ refs, r < w.objects.length) :
    (SuiteHeap.fromPeaks w.objects refs).map (view w) = Suite.fromPeaks (refs.filterMap fun r => w.objects[r]?) := by
  cases refs with
  | nil => rfl
  | cons r rs =>
    obtain ⟨p, hr⟩ : ∃ p, w.objects[r]? = some p := ⟨_, List.getElem?_eq_getElem (h r (by simp))⟩
    obtain ⟨a, b⟩ := calls_view (w := w) rs ⟨[r], [p.identifier]⟩ fun x hx => h x (by simp [hx])
    have e : runCalls (SuiteHeap.append w.objects) ⟨[], []⟩ (r :: rs) =
        runCalls (SuiteHeap.append w.objects) ⟨[r], [p.identifier]⟩ rs := by
      rw [runCalls]
      have : SuiteHeap.append w.objects ⟨[], []⟩ r = (⟨[r], [p.identifier]⟩, .ok ()) := by
        unfold SuiteHeap.append; rw [hr]; simp
      rw [this]
    have e2 : view w ⟨[r], [p.identifier]⟩ = Suite.init p := by
      simp [view, Suite.init, hr]
    rw [e2] at a b
    rw [List.filterMap_cons, hr]
    simp only [SuiteHeap.fromPeaks, Suite.fromPeaks]
    rw [e]
    exact built_view a b

private theorem fromSuites_view {w : World} {ss : List RSuite} (h : ∀ s ∈ ss, ∀ r ∈ s.refs, r < w.objects.length) :
    (SuiteHeap.fromSuites w.objects ss).map (view w) = Suite.fromSuites (ss.map (view w)) := by
  cases ss with
  | nil => rfl
  | cons t ts =>
    have ht := fromPeaks_view (h t (by simp))
    simp only [SuiteHeap.fromSuites, Suite.fromSuites, List.map_cons]
    have : (view w t).peaks = t.refs.filterMap fun r => w.objects[r]? := rfl
    rw [this, ← ht]
    cases SuiteHeap.fromPeaks w.objects t.refs with
    | error e => rfl
    | ok obj =>
      obtain ⟨a, b⟩ := calls_view (w := w) (ts.flatMap RSuite.refs) obj (by
        intro r hr
        obtain ⟨s, hs, hr⟩ := List.mem_flatMap.1 hr
        exact h s (by simp [hs]) r hr)
      have e : ((ts.map (view w)).flatMap Suite.peaks) = (ts.flatMap RSuite.refs).filterMap fun r => w.objects[r]? := by
        rw [List.filterMap_flatMap, List.flatMap_map]
        rfl
      simp only [Except.map]
      rw [e]
      exact built_view a b

/-- The suites after a constructor: the new one last, none if it raised. -/
private theorem made_view (w : World) (o : Except PyErr RSuite) (o' : Except PyErr Suite) (h : o.map (view w) = o') :
    (made w o).1.objects = w.objects ∧ (made w o).2 = o'.map (fun _ => ()) ∧
      (made w o).1.suites.map (view w) = w.suites.map (view w) ++ o'.toOption.toList := by
  subst h
  cases o <;> simp [made, Except.map, Except.toOption]

/-! ## Theorems -/

/-- **C45** (shared members).  In every program, however suites are built from each other and whatever is rejected, every
suite lists the identifiers of its members in order and no two members have the same identifier. -/
theorem C45_shared_members (ops : List Op) :
    ∀ s ∈ (after ops).suites, SuiteOk (view (after ops) s) ∧ s.refs.Nodup ∧
      (view (after ops) s).peaks.length = s.refs.length := by
  intro s hs
  have h := wf_after ops s hs
  exact ⟨⟨h.ids, h.nodup⟩, h.refs_nodup, filterMap_refs h.known⟩

/-- **C47** (shared members).  In every program a suite's rejections act on the contents of its members as if the suite
held values: the theorems on suites of values apply. -/
theorem C47_shared_members (ops : List Op) (i : ℕ) (s : RSuite) (hs : (after ops).suites[i]? = some s) :
    (∀ attr lo hi, ∃ w, (step (after ops) (.rejectLimits i attr lo hi)) =
        (w, ((view (after ops) s).rejectLimits attr lo hi).2) ∧ w.suites = (after ops).suites ∧
      view w s = ((view (after ops) s).rejectLimits attr lo hi).1) ∧
    ∀ xt xl yt yl, ∃ w, (step (after ops) (.rejectBox i xt xl yt yl)) =
        (w, ((view (after ops) s).rejectBox xt xl yt yl).2) ∧ w.suites = (after ops).suites ∧
      view w s = ((view (after ops) s).rejectBox xt xl yt yl).1 := by
  have h := wf_after ops s (List.mem_of_getElem? hs)
  have key := fun f => forRefs_forEach f s.refs (after ops).objects h.refs_nodup h.known
  constructor
  · intro attr lo hi
    have k := key fun p => p.rejectLimits attr lo hi
    refine ⟨(changed (after ops) (forRefs (fun p => p.rejectLimits attr lo hi) (after ops).objects s.refs)).1, ?_, rfl, ?_⟩
    · simp only [step, hs, changed, Suite.rejectLimits, view, k]
    · simp only [changed, Suite.rejectLimits, view, k]
  · intro xt xl yt yl
    have k := key fun p => p.rejectBox xt xl yt yl
    refine ⟨(changed (after ops) (forRefs (fun p => p.rejectBox xt xl yt yl) (after ops).objects s.refs)).1, ?_, rfl, ?_⟩
    · simp only [step, hs, changed, Suite.rejectBox, view, k]
    · simp only [changed, Suite.rejectBox, view, k]

/-- **C45** (shared members, building).  In every program `from_peaks`, `from_peakssuite` and `append` accept, refuse and
build what they do for suites that hold values - a second member with an identifier is refused with `KeyError` - and
change no object and no other suite. -/
theorem C45_shared_building (ops : List Op) :
    (∀ refs, (∀ r ∈ refs, r < (after ops).objects.length) → ∃ w, step (after ops) (.fromPeaks refs) =
        (w, (Suite.fromPeaks (refs.filterMap fun r => (after ops).objects[r]?)).map fun _ => ()) ∧
      w.objects = (after ops).objects ∧ w.suites.map (view w) = (after ops).suites.map (view (after ops)) ++
        (Suite.fromPeaks (refs.filterMap fun r => (after ops).objects[r]?)).toOption.toList) ∧
    (∀ is, (∀ i ∈ is, i < (after ops).suites.length) → ∃ w, step (after ops) (.fromSuites is) =
        (w, (Suite.fromSuites (is.filterMap fun i => ((after ops).suites.map (view (after ops)))[i]?)).map fun _ => ()) ∧
      w.objects = (after ops).objects ∧ w.suites.map (view w) = (after ops).suites.map (view (after ops)) ++
        (Suite.fromSuites (is.filterMap fun i => ((after ops).suites.map (view (after ops)))[i]?)).toOption.toList) ∧
    ∀ i r s p, (after ops).suites[i]? = some s → (after ops).objects[r]? = some p → ∃ w, step (after ops) (.append i r) =
        (w, ((view (after ops) s).append p).2) ∧ w.objects = (after ops).objects ∧
      w.suites.map (view w) = ((after ops).suites.map (view (after ops))).set i ((view (after ops) s).append p).1 := by
  have hv : ∀ (w w' : World), w'.objects = w.objects → view w' = view w := by
    intro w w' h; funext s; simp [view, h]
  refine ⟨fun refs h => ?_, fun is h => ?_, fun i r s p hs hp => ?_⟩
  · obtain ⟨a, b, c⟩ := made_view (after ops) _ _ (fromPeaks_view h)
    refine ⟨(made (after ops) (SuiteHeap.fromPeaks (after ops).objects refs)).1, ?_, a, ?_⟩
    · rw [← b]; rfl
    · rw [hv _ _ a, c]
  · have hn : named (after ops) is = .ok (is.filterMap fun i => (after ops).suites[i]?) := by
      unfold named
      clear * - h
      induction is with
      | nil => rfl
      | cons i is ih =>
        have hi := List.getElem?_eq_getElem (h i (by simp))
        rw [List.mapM_cons, ih fun j hj => h j (by simp [hj]), List.filterMap_cons, hi]
        rfl
    have hm : (is.filterMap fun i => ((after ops).suites.map (view (after ops)))[i]?) =
        (is.filterMap fun i => (after ops).suites[i]?).map (view (after ops)) := by
      rw [List.map_filterMap]
      simp
    have hk : ∀ s ∈ is.filterMap fun i => (after ops).suites[i]?, ∀ r ∈ s.refs, r < (after ops).objects.length := by
      intro s hs
      obtain ⟨i, _, hi⟩ := List.mem_filterMap.1 hs
      exact (wf_after ops s (List.mem_of_getElem? hi)).known
    obtain ⟨a, b, c⟩ := made_view (after ops) _ _ (fromSuites_view hk)
    rw [hm]
    refine ⟨(made (after ops) (SuiteHeap.fromSuites (after ops).objects (is.filterMap fun i => (after ops).suites[i]?))).1,
      ?_, a, ?_⟩
    · rw [← b]; simp only [step, hn]
    · rw [hv _ _ a, c]
  · obtain ⟨a, b⟩ := append_view (s := s) hp
    refine ⟨⟨(after ops).objects, (after ops).suites.set i (SuiteHeap.append (after ops).objects s r).1⟩, ?_, rfl, ?_⟩
    · simp only [step, hs, b]
    · rw [hv (after ops) ⟨(after ops).objects, (after ops).suites.set i (SuiteHeap.append (after ops).objects s r).1⟩ rfl,
        List.map_set, a]

/-- C45 for a suite of one member to which the same object is appended again: refused. -/
example : (step (after [.newPeaks exPeaks, .fromPeaks [0]]) (.append 0 0)).2 = .error .keyError := by decide +kernel

private theorem made_objects (w : World) (o : Except PyErr RSuite) : (made w o).1.objects = w.objects := by
  cases o <;> rfl

/-- Statements leave the objects alone which they do not act on. -/
private theorem step_other {w : World} {op : Op} {r : ℕ} (hr : r < w.objects.length) (h : ¬ ActsOn w op r) :
    (step w op).1.objects[r]? = w.objects[r]? := by
  cases op with
  | newPeaks p => exact List.getElem?_append_left hr
  | fromPeaks refs => simp only [step, made_objects]
  | fromSuites is =>
    simp only [step]
    split
    · rfl
    · simp only [made_objects]
  | append i r =>
    simp only [step]
    split <;> rfl
  | rejectLimits i attr lo hi =>
    simp only [step]
    split
    · rfl
    · rename_i s hs
      exact forRefs_other _ _ _ _ fun hm => h ⟨s, hs, hm⟩
  | rejectBox i xt xl yt yl =>
    simp only [step]
    split
    · rfl
    · rename_i s hs
      exact forRefs_other _ _ _ _ fun hm => h ⟨s, hs, hm⟩
  | memberLimits k attr lo hi => exact forRefs_other _ _ _ _ (by simpa using fun e => h e.symm)
  | memberBox k xt xl yt yl => exact forRefs_other _ _ _ _ (by simpa using fun e => h e.symm)

/-- **C96** (partial: suites without common members).  In every program, a statement that acts on no member of a suite
(a rejection on another suite without common members, on an object that is not a member, or any making of objects and
suites) leaves what the suite's methods see unchanged.  Missing: suites with common members, where this is false. -/
theorem C96_unshared_partial (ops : List Op) (s : RSuite) (hs : s ∈ (after ops).suites) (op : Op)
    (h : ∀ r ∈ s.refs, ¬ ActsOn (after ops) op r) : view (step (after ops) op).1 s = view (after ops) s := by
  have hok := wf_after ops s hs
  simp only [view, Suite.mk.injEq, and_true]
  exact filterMap_congr_refs fun r hr => step_other (hok.known r hr) (h r hr)

/-- **C96** fails: a combined suite has the members of its parts themselves, so a rejection on the combined suite
changes the suites it was made from, and a rejection on one of these changes the combined suite. -/
theorem C96_combined_suite_fails :
    ∃ (build : List Op) (a combined : RSuite), (after build).suites = [a, combined] ∧
      view (step (after build) (.rejectLimits 1 "velocity" none (some (.fin 150)))).1 a ≠ view (after build) a ∧
      view (step (after build) (.rejectLimits 0 "velocity" none (some (.fin 150)))).1 combined ≠
        view (after build) combined :=
  ⟨[.newPeaks exPeaks, .fromPeaks [0], .fromSuites [0]], ⟨[0], ["a"]⟩, ⟨[0], ["a"]⟩, by decide +kernel,
    by decide +kernel, by decide +kernel⟩

/-! ## Rejections reach a member through any of its suites -/

/-- The rejection a statement makes. -/
def Op.rejection : Op → Option Rejection
  | .rejectLimits _ a lo hi => some (.limits a lo hi)
  | .rejectBox _ xt xl yt yl => some (.box xt xl yt yl)
  | .memberLimits _ a lo hi => some (.limits a lo hi)
  | .memberBox _ xt xl yt yl => some (.box xt xl yt yl)
  | _ => none

open Classical in
/-- The rejections made on object `r` in a program that goes on from `w`, through whichever suite. -/
noncomputable def rejectionsOn (r : ℕ) : World → List Op → List Rejection
  | _, [] => []
  | w, op :: ops =>
    (if ActsOn w op r then (Op.rejection op).toList else []) ++ rejectionsOn r (step w op).1 ops

private theorem forRefs_acts {f : Peaks → Outcome Peaks} : ∀ (refs : List ℕ) (objects : List Peaks), refs.Nodup →
    (forRefs f objects refs).2 = .ok () → ∀ (x : ℕ) (p : Peaks), x ∈ refs → objects[x]? = some p →
    (forRefs f objects refs).1[x]? = some (f p).1 := by
  intro refs
  induction refs with
  | nil => intro o _ _ x p hx; cases hx
  | cons r rs ih =>
    intro o hn hok x p hx hp
    rw [List.nodup_cons] at hn
    simp only [forRefs] at hok ⊢
    cases hq : o[r]? with
    | none => simp [hq, unknownName] at hok
    | some q =>
      simp only [hq] at hok ⊢
      rcases hfq : f q with ⟨q', e | u⟩
      · simp [hfq] at hok
      · simp only [hfq] at hok ⊢
        rcases List.mem_cons.1 hx with rfl | hx
        · rw [hp] at hq; cases hq
          rw [forRefs_other f rs _ x hn.1, hfq]
          simp [(List.getElem?_eq_some_iff.1 hp).1]
        · refine ih _ hn.2 hok x p hx ?_
          rw [List.getElem?_set_ne (by rintro rfl; exact hn.1 hx)]
          exact hp

private theorem step_acts {w : World} (hw : Wf w) {op : Op} (hok : (step w op).2 = .ok ()) {r : ℕ} {p : Peaks}
    (hp : w.objects[r]? = some p) (h : ActsOn w op r) : ∃ rej, Op.rejection op = some rej ∧
      (step w op).1.objects[r]? = some (doReject p rej).1 := by
  cases op with
  | newPeaks p => cases h
  | fromPeaks refs => cases h
  | fromSuites is => cases h
  | append i r => cases h
  | rejectLimits i attr lo hi =>
    obtain ⟨s, hs, hr⟩ := h
    refine ⟨_, rfl, ?_⟩
    simp only [step, hs] at hok ⊢
    exact forRefs_acts s.refs _ (hw s (List.mem_of_getElem? hs)).refs_nodup hok r p hr hp
  | rejectBox i xt xl yt yl =>
    obtain ⟨s, hs, hr⟩ := h
    refine ⟨_, rfl, ?_⟩
    simp only [step, hs] at hok ⊢
    exact forRefs_acts s.refs _ (hw s (List.mem_of_getElem? hs)).refs_nodup hok r p hr hp
  | memberLimits k attr lo hi =>
    have h : k = r := h
    subst h
    exact ⟨_, rfl, forRefs_acts [k] _ (by simp) hok k p (by simp) hp⟩
  | memberBox k xt xl yt yl =>
    have h : k = r := h
    subst h
    exact ⟨_, rfl, forRefs_acts [k] _ (by simp) hok k p (by simp) hp⟩

/-- **C96** (what sharing does).  In every program without exceptions an object has, at the end, exactly the rejections
that were made on it directly or through any suite it was then a member of. -/
theorem C96_rejections_through_any_suite (ops more : List Op) (r : ℕ) (p : Peaks)
    (hp : (after ops).objects[r]? = some p) (w : World) (hw : runCalls step (after ops) more = (w, .ok ())) :
    w.objects[r]? = some (runAll doReject p (rejectionsOn r (after ops) more)) := by
  have key : ∀ (more : List Op) (v : World), Wf v → ∀ (p : Peaks), v.objects[r]? = some p →
      ∀ w, runCalls step v more = (w, .ok ()) → w.objects[r]? = some (runAll doReject p (rejectionsOn r v more)) := by
    intro more
    induction more with
    | nil =>
      intro v _ p hp w hw
      simp only [runCalls, Prod.mk.injEq, and_true] at hw
      subst hw
      exact hp
    | cons op more ih =>
      intro v hv p hp w hw
      have hstep := wf_step hv op
      have hother := @step_other v op r (List.getElem?_eq_some_iff.1 hp).1
      have hacts := @step_acts v hv op
      simp only [runCalls] at hw
      simp only [rejectionsOn]
      rcases ho : step v op with ⟨v', e | u⟩
      · simp [ho] at hw
      · simp only [ho] at hw hstep hother hacts ⊢
        by_cases ha : ActsOn v op r
        · obtain ⟨rej, h1, h2⟩ := hacts (by simp) hp ha
          rw [if_pos ha, h1]
          simp only [Option.toList_some, List.singleton_append]
          exact ih v' hstep _ h2 w hw
        · rw [if_neg ha, List.nil_append]
          exact ih v' hstep p ((hother ha).trans hp) w hw
  exact key more (after ops) (wf_after ops) p hp w hw

/-- **C36** (shared members).  In every program without exceptions the remaining peaks of an object are the earlier ones
that lie in none of the regions rejected directly or through any of its suites; recorded values never change. -/
theorem C36_shared_members (ops more : List Op) (r : ℕ) (p : Peaks) (hp : (after ops).objects[r]? = some p)
    (hwf : WfPeaks p) (w : World) (hw : runCalls step (after ops) more = (w, .ok ()))
    (hrs : ∀ rej ∈ rejectionsOn r (after ops) more, rej.ok) :
    ∃ q, w.objects[r]? = some q ∧ SameRecord p q ∧
      ∀ i, Remaining q i ↔ Remaining p i ∧ ∀ rej ∈ rejectionsOn r (after ops) more, ¬ Hit p rej i :=
  ⟨_, C96_rejections_through_any_suite ops more r p hp w hw, C36_rejections_compose p hwf _ hrs⟩

/-- The hypotheses are met by a program with two suites that share a member; the last rejection is not on object 0. -/
example : ∃ w, runCalls step (after [.newPeaks exPeaks, .newPeaks exPeaks2])
      [.fromPeaks [0], .fromPeaks [1], .fromSuites [0, 1], .rejectLimits 2 "velocity" none (some (.fin 250)),
        .rejectLimits 0 "velocity" (some (.fin 150)) none, .rejectLimits 1 "velocity" none (some (.fin 0))] =
      (w, .ok ()) ∧ w.suites = [⟨[0], ["a"]⟩, ⟨[1], ["b"]⟩, ⟨[0, 1], ["a", "b"]⟩] ∧
    (w.objects.map fun p => p.valid.data) = [[false, true, false, false], [false, false, false, false]] :=
  ⟨_, rfl, by decide +kernel, by decide +kernel⟩

end Verif.Props
