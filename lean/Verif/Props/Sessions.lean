import Verif.Props.Suite
import Verif.Props.PeaksSimplify
import Verif.Model.CrashSave

/-!
# C140: equality of suites; C141: histories of rejecting, saving and loading; C142: interrupted saves
-/

namespace Verif.Props
open Verif Spec

/-! ## C140 -/

/-- **C140** (equality).  Two suites are equal exactly if they have the same number of members and the members at the same
positions are equal. -/
theorem C140_equal_iff (s t : Suite) :
    s.eq t = true ↔ s.peaks.length = t.peaks.length ∧
      ∀ (i : ℕ) (p q : Peaks), s.peaks[i]? = some p → t.peaks[i]? = some q → p.eq q = true := by
  unfold Suite.eq
  simp only [Bool.and_eq_true, decide_eq_true_eq, List.all_eq_true]
  refine and_congr_right fun _ => ⟨fun h i p q hp hq => ?_, ?_⟩
  · exact h (p, q) (List.mem_iff_getElem?.2 ⟨i, by simp [List.getElem?_zip_eq_some, hp, hq]⟩)
  · rintro h ⟨p, q⟩ hpq
    obtain ⟨i, hi⟩ := List.mem_iff_getElem?.1 hpq
    rw [List.getElem?_zip_eq_some] at hi
    exact h i p q hi.1 hi.2

/-- **C140** (identifiers).  Equal suites list the same identifiers in the same order. -/
theorem C140_identifiers (s t : Suite) (hs : SuiteOk s) (ht : SuiteOk t) (h : s.eq t = true) : s.ids = t.ids := by
  obtain ⟨h1, h2⟩ := (C140_equal_iff s t).1 h
  rw [hs.1, ht.1]
  apply List.ext_getElem?
  intro i
  rw [List.getElem?_map, List.getElem?_map]
  by_cases hi : i < s.peaks.length
  · rw [List.getElem?_eq_getElem hi, List.getElem?_eq_getElem (h1 ▸ hi)]
    have := h2 i _ _ (List.getElem?_eq_getElem hi) (List.getElem?_eq_getElem (h1 ▸ hi))
    simp only [Option.map_some, Option.some.injEq]
    exact ((C43_equal_iff_partial _ _).1 this).1
  · rw [List.getElem?_eq_none (by omega), List.getElem?_eq_none (by omega)]

/-- **C140** (saved and loaded), partial.  A suite which was saved and loaded is equal to itself as it was.  Missing: members
with an attribute which the class cannot read back (`C140_custom_attribute_counterexample`). -/
theorem C140_saved_and_loaded_partial (s : Suite) (hs : SuiteOk s) (hne : s.peaks ≠ []) (h : ∀ p ∈ s.peaks, Savable p)
    (hr : ∀ p ∈ s.peaks, Readable p) (old : Option Doc) :
    ∃ file t, Suite.toJson old s = (file, .ok ()) ∧ Suite.fromJson [file] = .ok t ∧ t.eq s = true ∧ s.eq t = true := by
  obtain ⟨file, h1, h2⟩ := C46_json_round_trip s hs hne h old
  have : s.eq s = true := by
    rw [C140_equal_iff]
    refine ⟨rfl, fun i p q hp hq => ?_⟩
    rw [hp, Option.some.injEq] at hq
    subst hq
    exact C43_reflexive_partial p (hr p (List.mem_of_getElem? hp))
  exact ⟨file, s, h1, h2, this, this⟩

/-- A suite with an attribute of the user's own is not equal to itself. -/
theorem C140_custom_attribute_counterexample :
    ∃ s : Suite, SuiteOk s ∧ s.peaks ≠ [] ∧ (∀ p ∈ s.peaks, WfPeaks p) ∧ s.eq s = false := by
  obtain ⟨p, h1, -, h2⟩ := C43_custom_attribute_counterexample
  refine ⟨⟨[p], [p.identifier]⟩, ⟨rfl, by simp⟩, by simp, by simpa using h1, ?_⟩
  simp [Suite.eq, h2]

/-- Two members; one value changed, or the order. -/
example : Suite.eq ⟨[exPeaks, exPeaks2], ["a", "b"]⟩ ⟨[exPeaks, exPeaks2], ["a", "b"]⟩ = true ∧
    Suite.eq ⟨[exPeaks, exPeaks2], ["a", "b"]⟩ ⟨[exPeaks2, exPeaks], ["b", "a"]⟩ = false ∧
    Suite.eq ⟨[exPeaks, exPeaks2], ["a", "b"]⟩ ⟨[exPeaks], ["a"]⟩ = false := by decide +kernel

/-! ## C141 -/

/-- What a user does with a suite and a file. -/
inductive Event
  | limits (attr : String) (lo hi : Option Fl)
  | box (xtype : String) (xlims : Fl × Fl) (ytype : String) (ylims : Fl × Fl)
  | save
  | load

/-- The suite in memory and the file. -/
structure Session where
  suite : Suite
  file : Option Doc

/-- One step.  An exception leaves what the call has done so far. -/
def Session.step (m : Session) : Event → Outcome Session
  | .limits attr lo hi => ({ m with suite := (m.suite.rejectLimits attr lo hi).1 }, (m.suite.rejectLimits attr lo hi).2)
  | .box xtype xl ytype yl =>
    ({ m with suite := (m.suite.rejectBox xtype xl ytype yl).1 }, (m.suite.rejectBox xtype xl ytype yl).2)
  | .save => ({ m with file := (Suite.toJson m.file m.suite).1 }, (Suite.toJson m.file m.suite).2)
  | .load =>
    match Suite.fromJson [m.file] with
    | .error e => (m, .error e)
    | .ok s => ({ m with suite := s }, .ok ())

/-- A rejection. -/
def Event.isRejection : Event → Prop
  | .limits .. => True
  | .box .. => True
  | _ => False

/-- A suite with members, all of which can be saved. -/
structure SavableSuite (s : Suite) : Prop where
  ok : SuiteOk s
  ne : s.peaks ≠ []
  members : ∀ p ∈ s.peaks, Savable p

theorem reject_savable {p : Peaks} (h : Savable p) {m : List Bool} (hm : m.length = p.valid.data.length) :
    Savable (p.reject m) ∧ (p.reject m).identifier = p.identifier := by
  refine ⟨⟨?_, h.2.1, h.2.2⟩, rfl⟩
  exact
    { shape_prod := h.1.shape_prod
      freq_shape := h.1.freq_shape
      freq_len := h.1.freq_len
      valid_shape := h.1.valid_shape
      valid_len := by
        have := h.1.valid_len
        simp only [Peaks.reject, List.length_zipWith]
        omega
      extra_shape := h.1.extra_shape
      extra_len := h.1.extra_len
      names_nodup := h.1.names_nodup
      names_ok := h.1.names_ok }

theorem forEach_savable {f : Peaks → Outcome Peaks}
    (hf : ∀ p, Savable p → Savable (f p).1 ∧ (f p).1.identifier = p.identifier) :
    ∀ ps : List Peaks, (∀ p ∈ ps, Savable p) → (∀ p ∈ (Suite.forEach f ps).1, Savable p) ∧
      (Suite.forEach f ps).1.map Peaks.identifier = ps.map Peaks.identifier := by
  intro ps
  induction ps with
  | nil => intro _; simp [Suite.forEach]
  | cons p ps ih =>
    intro h
    obtain ⟨h1, h2⟩ := ih fun q hq => h q (by simp [hq])
    obtain ⟨h3, h4⟩ := hf p (h p (by simp))
    unfold Suite.forEach
    rcases hfp : f p with ⟨p', e | u⟩
    · rw [hfp] at h3 h4
      simp only [List.mem_cons, List.map_cons]
      refine ⟨?_, by rw [h4]⟩
      rintro q (rfl | hq)
      · exact h3
      · exact h q (by simp [hq])
    · rw [hfp] at h3 h4
      simp only [List.mem_cons, List.map_cons]
      refine ⟨?_, by rw [h4, h2]⟩
      rintro q (rfl | hq)
      · exact h3
      · exact h1 q hq

theorem peaks_limits_savable (attr : String) (lo hi : Option Fl) (p : Peaks) (h : Savable p) :
    Savable (p.rejectLimits attr lo hi).1 ∧ (p.rejectLimits attr lo hi).1.identifier = p.identifier := by
  unfold Peaks.rejectLimits
  rcases ha : p.raw attr with e | a
  · exact ⟨h, rfl⟩
  · refine reject_savable h ?_
    have := (Peaks.raw_shape h.1 ha).2
    have := h.1.valid_len
    simp only [List.length_zipWith]
    omega

theorem peaks_box_savable (xtype : String) (xl : Fl × Fl) (ytype : String) (yl : Fl × Fl) (p : Peaks) (h : Savable p) :
    Savable (p.rejectBox xtype xl ytype yl).1 ∧ (p.rejectBox xtype xl ytype yl).1.identifier = p.identifier := by
  unfold Peaks.rejectBox Peaks.boxMask
  rcases ha : p.raw xtype with e | a
  · exact ⟨h, rfl⟩
  · rcases hb : p.raw ytype with e | b
    · exact ⟨h, rfl⟩
    · refine reject_savable h ?_
      have := (Peaks.raw_shape h.1 ha).2
      have := (Peaks.raw_shape h.1 hb).2
      have := h.1.valid_len
      simp
      omega

theorem savableSuite_of {s : Suite} (h : SavableSuite s) {f : Peaks → Outcome Peaks}
    (hf : ∀ p, Savable p → Savable (f p).1 ∧ (f p).1.identifier = p.identifier) :
    SavableSuite { s with peaks := (Suite.forEach f s.peaks).1 } := by
  obtain ⟨h1, h2⟩ := forEach_savable hf s.peaks h.members
  refine ⟨⟨?_, h.ok.2⟩, ?_, h1⟩
  · simp only [h2]; exact h.ok.1
  · intro e
    simp only at e
    rw [e] at h2
    exact h.ne (List.map_eq_nil_iff.1 h2.symm)

/-- Between calls: the suite can be saved, and so could the one in the file. -/
def Session.Good (m : Session) : Prop :=
  SavableSuite m.suite ∧ (m.file = none ∨ ∃ t, SavableSuite t ∧ m.file = (Suite.toJson none t).1)

theorem saved_file (s : Suite) (h : SavableSuite s) (old : Option Doc) :
    Suite.toJson old s = ((Suite.toJson none s).1, .ok ()) := by
  rw [suite_toJson s h.ok h.ne old, suite_toJson s h.ok h.ne none]

theorem saved_load (s : Suite) (h : SavableSuite s) : Suite.fromJson [(Suite.toJson none s).1] = .ok s := by
  obtain ⟨file, h1, h2⟩ := C46_json_round_trip s h.ok h.ne h.members none
  rw [h1]
  exact h2

theorem good_step {m : Session} (h : m.Good) (e : Event) : (m.step e).1.Good := by
  obtain ⟨h1, h2⟩ := h
  cases e with
  | limits attr lo hi => exact ⟨savableSuite_of h1 (peaks_limits_savable attr lo hi), h2⟩
  | box xtype xl ytype yl => exact ⟨savableSuite_of h1 (peaks_box_savable xtype xl ytype yl), h2⟩
  | save => exact ⟨h1, Or.inr ⟨m.suite, h1, by simp only [Session.step]; rw [saved_file m.suite h1 m.file]⟩⟩
  | load =>
    rcases h2 with h2 | ⟨t, h3, h4⟩
    · simp only [Session.step, h2]
      exact ⟨h1, Or.inl h2⟩
    · simp only [Session.step]
      rw [h4, saved_load t h3]
      exact ⟨h3, Or.inr ⟨t, h3, rfl⟩⟩

theorem runAll_good (es : List Event) : ∀ {m : Session}, m.Good → (runAll Session.step m es).Good := by
  induction es with
  | nil => intro m h; exact h
  | cons e es ih => intro m h; exact ih (good_step h e)

theorem runAll_append {σ α : Type} (f : σ → α → Outcome σ) (xs ys : List α) : ∀ s : σ,
    runAll f s (xs ++ ys) = runAll f (runAll f s xs) ys := by
  induction xs with
  | nil => intro s; rfl
  | cons x xs ih => intro s; exact ih _

theorem rejections_keep_file (es : List Event) : ∀ {m : Session}, (∀ e ∈ es, e.isRejection) →
    (runAll Session.step m es).file = m.file := by
  induction es with
  | nil => intro m _; rfl
  | cons e es ih =>
    intro m h
    show (runAll Session.step (m.step e).1 es).file = m.file
    rw [ih fun x hx => h x (by simp [hx])]
    have := h e (by simp)
    cases e with
    | limits attr lo hi => rfl
    | box xtype xl ytype yl => rfl
    | save => exact absurd this (by simp [Event.isRejection])
    | load => exact absurd this (by simp [Event.isRejection])

/-- **C141**.  After any history of rejections, saves and loads, with or without exceptions: saving, rejecting more, and
loading gives the suite as it was saved, with the same file. -/
theorem C141_load_restores_the_last_save (s : Suite) (hs : SavableSuite s) (before after : List Event)
    (ha : ∀ e ∈ after, e.isRejection) :
    runAll Session.step ⟨s, none⟩ (before ++ [.save] ++ after ++ [.load]) =
      runAll Session.step ⟨s, none⟩ (before ++ [.save]) := by
  have hg : (runAll Session.step ⟨s, none⟩ before).Good := runAll_good before ⟨hs, Or.inl rfl⟩
  rw [runAll_append, runAll_append, runAll_append Session.step before [.save]]
  generalize runAll Session.step ⟨s, none⟩ before = m at hg ⊢
  have h1 : runAll Session.step m [.save] = ⟨m.suite, (Suite.toJson none m.suite).1⟩ := by
    simp only [runAll, List.foldl, Session.step]
    rw [saved_file m.suite hg.1 m.file]
  have h2 := rejections_keep_file after (m := runAll Session.step m [.save]) ha
  rw [h1] at h2 ⊢
  generalize runAll Session.step ⟨m.suite, (Suite.toJson none m.suite).1⟩ after = n at h2 ⊢
  obtain ⟨ns, nf⟩ := n
  simp only at h2
  subst h2
  simp only [runAll, List.foldl, Session.step, saved_load m.suite hg.1]

/-- **C141** (no loss).  Saving and loading at any moment of a history has no effect on the suite at its end. -/
theorem C141_save_and_load_anywhere (s : Suite) (hs : SavableSuite s) (before after : List Event)
    (ha : ∀ e ∈ after, e.isRejection) :
    (runAll Session.step ⟨s, none⟩ (before ++ [.save, .load] ++ after)).suite =
      (runAll Session.step ⟨s, none⟩ (before ++ after)).suite := by
  have h := C141_load_restores_the_last_save s hs before [] (by simp)
  have hg : (runAll Session.step ⟨s, none⟩ before).Good := runAll_good before ⟨hs, Or.inl rfl⟩
  have key : ∀ (es : List Event) (m n : Session), (∀ e ∈ es, e.isRejection) → m.suite = n.suite →
      (runAll Session.step m es).suite = (runAll Session.step n es).suite := by
    intro es
    induction es with
    | nil => intro m n _ h; exact h
    | cons e es ih =>
      intro m n he hmn
      refine ih _ _ (fun x hx => he x (by simp [hx])) ?_
      have := he e (by simp)
      cases e with
      | limits attr lo hi => simp only [Session.step, hmn]
      | box xtype xl ytype yl => simp only [Session.step, hmn]
      | save => exact absurd this (by simp [Event.isRejection])
      | load => exact absurd this (by simp [Event.isRejection])
  rw [runAll_append, runAll_append Session.step before after]
  refine key after _ _ ha ?_
  simp only [List.append_nil, List.append_assoc, List.cons_append, List.nil_append] at h
  rw [h, runAll_append]
  rfl

example : SavableSuite ⟨[exPeaks, exPeaks2], ["a", "b"]⟩ :=
  ⟨⟨rfl, by decide⟩, by simp, by
    intro p hp
    simp only [List.mem_cons, List.not_mem_nil, or_false] at hp
    rcases hp with rfl | rfl
    · exact ⟨exPeaks_wf, Or.inr rfl, Or.inl (by decide)⟩
    · exact ⟨exPeaks2_wf, Or.inr rfl, Or.inl (by decide)⟩⟩

/-- A rejection, a save, another rejection, and a load: only the first one counts; without loading both do. -/
example : ((runAll Session.step ⟨⟨[exPeaks, exPeaks2], ["a", "b"]⟩, none⟩ [.limits "velocity" (some (.fin 150)) none, .save,
      .limits "velocity" (some (.fin 10000)) none, .load]).suite.peaks.map fun p => p.valid.data) =
      [[false, true, false, true], [false, false, false, true]] ∧
    ((runAll Session.step ⟨⟨[exPeaks, exPeaks2], ["a", "b"]⟩, none⟩ [.limits "velocity" (some (.fin 150)) none, .save,
      .limits "velocity" (some (.fin 10000)) none]).suite.peaks.map fun p => p.valid.data) =
      [[false, false, false, false], [false, false, false, false]] := by decide +kernel

/-! ## C142 -/

/-- The document of some members. -/
def docOf (ps : List Peaks) : Doc := ps.map fun p => (p.identifier, p.toDataset)

theorem saveMembers_append (ps : List Peaks) : ∀ (qs : List Peaks), ((qs ++ ps).map Peaks.identifier).Nodup →
    Crash.saveMembers (.doc (docOf qs)) true ps =
      ((List.range ps.length).flatMap fun k => [.torn, .doc (docOf (qs ++ ps.take (k + 1)))], .ok ()) := by
  induction ps with
  | nil => intro qs _; rfl
  | cons p ps ih =>
    intro qs hn
    have hp : p.identifier ∉ (docOf qs).map Prod.fst := by
      simp only [docOf, List.map_map]
      intro hm
      rw [List.map_append, List.nodup_append] at hn
      exact hn.2.2 p.identifier (by simpa using hm) p.identifier (by simp) rfl
    have h1 : Crash.savePeaks (.doc (docOf qs)) p true = ([.torn, .doc (docOf (qs ++ [p]))], .ok ()) := by
      unfold Crash.savePeaks
      simp only [if_true, Crash.Disk.load]
      rw [if_neg hp]
      simp [docOf]
    unfold Crash.saveMembers
    rw [h1]
    simp only [List.getLastD_cons, List.getLastD_nil]
    rw [ih (qs ++ [p]) (by simpa using hn)]
    simp [List.range_succ_eq_map, List.flatMap_map]

theorem saveStates_eq (d : Crash.Disk) (s : Suite) (hs : SavableSuite s) :
    Crash.saveStates d s =
      d :: (List.range s.peaks.length).flatMap fun k => [.torn, .doc (docOf (s.peaks.take (k + 1)))] := by
  unfold Crash.saveStates
  obtain ⟨peaks, ids⟩ := s
  rcases peaks with _ | ⟨p, ps⟩
  · exact absurd rfl hs.ne
  · have hn : ((p :: ps).map Peaks.identifier).Nodup := by
      have := hs.ok.2
      rwa [hs.ok.1] at this
    have h1 : Crash.savePeaks d p false = ([.torn, .doc (docOf [p])], .ok ()) := rfl
    unfold Crash.saveMembers
    rw [h1]
    simp only [List.getLastD_cons, List.getLastD_nil]
    rw [saveMembers_append ps [p] (by simpa using hn)]
    simp [List.range_succ_eq_map, List.flatMap_map]

theorem load_docOf (s : Suite) (hs : SavableSuite s) (k : ℕ) (hk : 0 < k) :
    Crash.loadSuite (.doc (docOf (s.peaks.take k))) = .ok ⟨s.peaks.take k, s.ids.take k⟩ := by
  have hm : ∀ p ∈ s.peaks.take k, Savable p := fun p hp => hs.members p (List.mem_of_mem_take hp)
  have h1 := readDoc_saved (s.peaks.take k) hm
  have hids : s.ids.take k = (s.peaks.take k).map Peaks.identifier := by rw [hs.ok.1, List.map_take]
  have h2 := (C45_from_peaks (s.peaks.take k)).2.1 (by
    intro e
    rcases List.take_eq_nil_iff.1 e with e | e
    · omega
    · exact hs.ne e) (by rw [← hids]; exact hs.ok.2.sublist (List.take_sublist _ _))
  simp only [Crash.loadSuite, Crash.Disk.load, Suite.fromDict, docOf, h1, h2, hids]

/-- **C142** (partial).  While a suite is saved the file is first as it was, at the end the suite can be loaded from it, and
whenever it can be loaded in between it holds the first members of the suite, each as it is.  Missing: in between the file
may be unreadable, or hold fewer members (`C142_interrupted_save_fails`). -/
theorem C142_states_of_the_file_partial (d : Crash.Disk) (s : Suite) (hs : SavableSuite s) :
    (Crash.saveStates d s).head? = some d ∧
    (∃ e, (Crash.saveStates d s).getLast? = some e ∧ Crash.loadSuite e = .ok s) ∧
    ∀ e ∈ (Crash.saveStates d s).tail, (∃ err, Crash.loadSuite e = .error err) ∨
      ∃ t : Suite, Crash.loadSuite e = .ok t ∧ t.peaks ≠ [] ∧ t.peaks <+: s.peaks ∧ t.ids <+: s.ids := by
  rw [saveStates_eq d s hs]
  have hpos : 0 < s.peaks.length := List.length_pos_of_ne_nil hs.ne
  refine ⟨rfl, ⟨.doc (docOf (s.peaks.take s.peaks.length)), ?_, ?_⟩, ?_⟩
  · obtain ⟨n, hn⟩ : ∃ n, s.peaks.length = n + 1 := ⟨s.peaks.length - 1, by omega⟩
    rw [hn, List.range_succ, List.flatMap_append]
    simp [List.getLast?_cons, List.getLast?_append]
  · rw [load_docOf s hs _ hpos, List.take_length, List.take_of_length_le (by rw [hs.ok.1]; simp)]
  · intro e he
    simp only [List.tail_cons, List.mem_flatMap, List.mem_range, List.mem_cons, List.not_mem_nil, or_false] at he
    obtain ⟨k, hk, rfl | rfl⟩ := he
    · exact Or.inl ⟨_, rfl⟩
    · refine Or.inr ⟨_, load_docOf s hs (k + 1) (by omega), ?_, List.take_prefix _ _, List.take_prefix _ _⟩
      intro e
      rcases List.take_eq_nil_iff.1 e with e | e
      · omega
      · exact hs.ne e

/-- **C142** fails for every suite and every file: there is a moment at which the file cannot be read, so that a process
which ends then leaves neither the old nor the new suite; and if the suite has several members, for every smaller number of
members there is a moment at which the file holds just these, and is read without complaint. -/
theorem C142_interrupted_save_fails (d : Crash.Disk) (s : Suite) (hs : SavableSuite s) :
    (∃ e ∈ Crash.saveStates d s, Crash.loadSuite e = .error .valueError) ∧
    ∀ k, 0 < k → k < s.peaks.length → ∃ e ∈ Crash.saveStates d s, ∃ t : Suite, Crash.loadSuite e = .ok t ∧
      t.peaks = s.peaks.take k ∧ t.peaks.length = k := by
  rw [saveStates_eq d s hs]
  have hpos : 0 < s.peaks.length := List.length_pos_of_ne_nil hs.ne
  refine ⟨⟨.torn, ?_, rfl⟩, fun k hk hlt => ⟨.doc (docOf (s.peaks.take k)), ?_, _, load_docOf s hs k hk, rfl, ?_⟩⟩
  · simp only [List.mem_cons, List.mem_flatMap, List.mem_range]
    exact Or.inr ⟨0, hpos, Or.inl trivial⟩
  · simp only [List.mem_cons, List.mem_flatMap, List.mem_range]
    exact Or.inr ⟨k - 1, by omega, Or.inr (Or.inl (by rw [Nat.sub_add_cancel hk]))⟩
  · simp only [List.length_take]
    omega

/-- The last state is the one `Suite.toJson` gives. -/
theorem C142_agrees_with_save (old : Option Doc) (s : Suite) (hs : SavableSuite s) :
    (Crash.saveStates (match old with | none => .absent | some d => .doc d) s).getLast? =
      (Suite.toJson old s).1.map Crash.Disk.doc := by
  rw [saveStates_eq _ s hs, suite_toJson s hs.ok hs.ne old]
  have hpos : 0 < s.peaks.length := List.length_pos_of_ne_nil hs.ne
  obtain ⟨n, hn⟩ : ∃ n, s.peaks.length = n + 1 := ⟨s.peaks.length - 1, by omega⟩
  rw [hn, List.range_succ, List.flatMap_append]
  simp [List.getLast?_cons, List.getLast?_append, docOf]
  omega

/-- Saving two members: five states of the file. -/
example : (Crash.saveStates .absent ⟨[exPeaks, exPeaks2], ["a", "b"]⟩).length = 5 ∧
    ((Crash.saveStates .absent ⟨[exPeaks, exPeaks2], ["a", "b"]⟩).map fun e =>
      match Crash.loadSuite e with | .ok t => t.ids | .error _ => ["?"]) = [["?"], ["?"], ["a"], ["?"], ["a", "b"]] := by
  decide +kernel

end Verif.Props
