import Verif.Props.PeaksJson
import Verif.Model.Suite

/-!
# C45, C46, C47, C48, C49: suites of peaks
-/

namespace Verif.Props
open Verif Peaks Spec

/-- The identifiers are those of the members, in order, and distinct. -/
def SuiteOk (s : Suite) : Prop := s.ids = s.peaks.map Peaks.identifier ∧ s.ids.Nodup

theorem suiteOk_append {s : Suite} (h : SuiteOk s) {p : Peaks} (hp : p.identifier ∉ s.ids) :
    SuiteOk ⟨s.peaks ++ [p], s.ids ++ [p.identifier]⟩ := by
  refine ⟨by simp [h.1], ?_⟩
  rw [List.nodup_append]
  refine ⟨h.2, by simp, ?_⟩
  intro a ha b hb
  rw [List.mem_singleton] at hb
  rintro rfl
  exact hp (hb ▸ ha)

/-- **C45**.  Through any sequence of appends, refused ones included, the identifiers are those of the members in
order and distinct; the members are the initial ones followed by some of the appended ones in order, and every
appended object's identifier is in the suite. -/
theorem C45_append_history (s : Suite) (h : SuiteOk s) (ps : List Peaks) :
    SuiteOk (runAll Suite.append s ps) ∧
    (∃ added, added.Sublist ps ∧ (runAll Suite.append s ps).peaks = s.peaks ++ added) ∧
    ∀ p ∈ ps, p.identifier ∈ (runAll Suite.append s ps).ids := by
  induction ps generalizing s with
  | nil => exact ⟨h, ⟨[], List.Sublist.slnil, by simp [runAll]⟩, by simp⟩
  | cons p ps ih =>
    have hstep : runAll Suite.append s (p :: ps) = runAll Suite.append (s.append p).1 ps := rfl
    have hgrow : ∀ (qs : List Peaks) (t : Suite) (x : String), x ∈ t.ids → x ∈ (runAll Suite.append t qs).ids := by
      intro qs
      induction qs with
      | nil => intro t x hx; exact hx
      | cons q qs ihq =>
        intro t x hx
        apply ihq
        show x ∈ (t.append q).1.ids
        unfold Suite.append
        split_ifs
        · exact hx
        · exact List.mem_append_left _ hx
    rw [hstep]
    by_cases hp : p.identifier ∈ s.ids
    · have h1 : s.append p = (s, .error .keyError) := by simp [Suite.append, hp]
      rw [h1]
      obtain ⟨a1, ⟨added, a2, a3⟩, a4⟩ := ih s h
      refine ⟨a1, ⟨added, a2.cons _, a3⟩, ?_⟩
      intro q hq
      rcases List.mem_cons.1 hq with rfl | hq
      · exact hgrow ps s _ hp
      · exact a4 q hq
    · have h1 : s.append p = (⟨s.peaks ++ [p], s.ids ++ [p.identifier]⟩, .ok ()) := by simp [Suite.append, hp]
      rw [h1]
      obtain ⟨a1, ⟨added, a2, a3⟩, a4⟩ := ih _ (suiteOk_append h hp)
      refine ⟨a1, ⟨p :: added, a2.cons_cons _, by rw [a3]; simp⟩, ?_⟩
      intro q hq
      rcases List.mem_cons.1 hq with rfl | hq
      · exact hgrow ps _ _ (by simp)
      · exact a4 q hq

/-- **C45** (one append).  It is refused exactly for an identifier in use, and then nothing changes. -/
theorem C45_append_refused_iff (s : Suite) (h : SuiteOk s) (p : Peaks) :
    ((∃ q ∈ s.peaks, q.identifier = p.identifier) → s.append p = (s, .error .keyError)) ∧
    ((∀ q ∈ s.peaks, q.identifier ≠ p.identifier) →
      ∃ t, s.append p = (t, .ok ()) ∧ t.peaks = s.peaks ++ [p]) := by
  constructor
  · rintro ⟨q, hq, he⟩
    have : p.identifier ∈ s.ids := by rw [h.1, ← he]; exact List.mem_map_of_mem hq
    simp [Suite.append, this]
  · intro hn
    have : p.identifier ∉ s.ids := by
      rw [h.1]
      rintro hm
      obtain ⟨q, hq, he⟩ := List.mem_map.1 hm
      exact hn q hq he
    exact ⟨⟨s.peaks ++ [p], s.ids ++ [p.identifier]⟩, by simp [Suite.append, this], rfl⟩

theorem suiteOk_init (p : Peaks) : SuiteOk (Suite.init p) := by
  constructor <;> simp [Suite.init]

theorem runCalls_append_ok (s : Suite) (h : SuiteOk s) (ps : List Peaks)
    (hn : (s.ids ++ ps.map Peaks.identifier).Nodup) :
    runCalls Suite.append s ps = (⟨s.peaks ++ ps, s.ids ++ ps.map Peaks.identifier⟩, .ok ()) := by
  induction ps generalizing s with
  | nil => simp [runCalls]
  | cons p ps ih =>
    have hp : p.identifier ∉ s.ids := by
      intro hm
      have := (List.nodup_append.1 hn).2.2 _ hm p.identifier (by simp)
      exact this rfl
    have h1 : s.append p = (⟨s.peaks ++ [p], s.ids ++ [p.identifier]⟩, .ok ()) := by simp [Suite.append, hp]
    unfold runCalls
    rw [h1]
    simp only
    rw [ih _ (suiteOk_append h hp) (by simpa using hn)]
    simp

theorem runCalls_append_error (s : Suite) (h : SuiteOk s) (ps : List Peaks)
    (hn : ¬ (s.ids ++ ps.map Peaks.identifier).Nodup) :
    (runCalls Suite.append s ps).2 = .error .keyError := by
  induction ps generalizing s with
  | nil => simp at hn; exact absurd h.2 hn
  | cons p ps ih =>
    unfold runCalls
    by_cases hp : p.identifier ∈ s.ids
    · have h1 : s.append p = (s, .error .keyError) := by simp [Suite.append, hp]
      rw [h1]
    · have h1 : s.append p = (⟨s.peaks ++ [p], s.ids ++ [p.identifier]⟩, .ok ()) := by simp [Suite.append, hp]
      rw [h1]
      simp only
      exact ih _ (suiteOk_append h hp) (by simpa using hn)

/-- **C45** (`from_peaks`).  Distinct identifiers: the suite of exactly these members; a repeated identifier:
`KeyError`; no members: `IndexError`. -/
theorem C45_from_peaks (ps : List Peaks) :
    (ps = [] → Suite.fromPeaks ps = .error .indexError) ∧
    (ps ≠ [] → (ps.map Peaks.identifier).Nodup → Suite.fromPeaks ps = .ok ⟨ps, ps.map Peaks.identifier⟩) ∧
    (¬ (ps.map Peaks.identifier).Nodup → Suite.fromPeaks ps = .error .keyError) := by
  rcases ps with _ | ⟨p, ps⟩
  · simp [Suite.fromPeaks]
  · refine ⟨by simp, ?_, ?_⟩
    · intro _ hn
      simp only [Suite.fromPeaks]
      rw [runCalls_append_ok _ (suiteOk_init p) ps (by simpa [Suite.init] using hn)]
      simp [Suite.built, Suite.init]
    · intro hn
      simp only [Suite.fromPeaks]
      have := runCalls_append_error _ (suiteOk_init p) ps (by simpa [Suite.init] using hn)
      rcases hr : runCalls Suite.append (Suite.init p) ps with ⟨s, r⟩
      rw [hr] at this
      simp only at this
      rw [this]
      rfl

/-- A second example object. -/
def exPeaks2 : Peaks := { exPeaks with identifier := "b", valid := ⟨[2, 2], [true, false, false, true]⟩ }

example : SuiteOk ⟨[exPeaks, exPeaks2], ["a", "b"]⟩ ∧
    runAll Suite.append ⟨[exPeaks], ["a"]⟩ [exPeaks, exPeaks2, exPeaks2] = ⟨[exPeaks, exPeaks2], ["a", "b"]⟩ := by
  refine ⟨⟨by decide +kernel, by decide +kernel⟩, by decide +kernel⟩

/-- **C48**.  Combining suites gives all members in order, provided all identifiers are distinct; otherwise
`KeyError`. -/
theorem C48_combine (s : Suite) (ss : List Suite) (hok : ∀ t ∈ s :: ss, SuiteOk t ∧ t.peaks ≠ []) :
    let all := (s :: ss).flatMap Suite.peaks
    ((all.map Peaks.identifier).Nodup → Suite.fromSuites (s :: ss) = .ok ⟨all, all.map Peaks.identifier⟩) ∧
    (¬ (all.map Peaks.identifier).Nodup → Suite.fromSuites (s :: ss) = .error .keyError) := by
  intro all
  have hs := hok s (by simp)
  have h1 : Suite.fromPeaks s.peaks = .ok ⟨s.peaks, s.peaks.map Peaks.identifier⟩ :=
    (C45_from_peaks s.peaks).2.1 hs.2 (by rw [← hs.1.1]; exact hs.1.2)
  have hall : all = s.peaks ++ ss.flatMap Suite.peaks := rfl
  have hok' : SuiteOk ⟨s.peaks, s.peaks.map Peaks.identifier⟩ := ⟨rfl, by simp only; rw [← hs.1.1]; exact hs.1.2⟩
  constructor
  · intro hn
    simp only [Suite.fromSuites, h1]
    rw [runCalls_append_ok _ hok' _ (by simpa [hall] using hn)]
    simp [Suite.built, hall]
  · intro hn
    simp only [Suite.fromSuites, h1]
    have := runCalls_append_error _ hok' (ss.flatMap Suite.peaks) (by simpa [hall] using hn)
    rcases hr : runCalls Suite.append ⟨s.peaks, s.peaks.map Peaks.identifier⟩ (ss.flatMap Suite.peaks) with ⟨t, r⟩
    rw [hr] at this
    simp only at this
    rw [this]
    rfl

example : Suite.fromSuites [⟨[exPeaks], ["a"]⟩, ⟨[exPeaks2], ["b"]⟩] = .ok ⟨[exPeaks, exPeaks2], ["a", "b"]⟩ ∧
    Suite.fromSuites [⟨[exPeaks], ["a"]⟩, ⟨[exPeaks2, exPeaks], ["b", "a"]⟩] = .error .keyError := by
  constructor <;> decide +kernel

/-! ### C46 -/

/-- Objects which a JSON file records completely (`C39`): one-dimensional, or two-dimensional with a row. -/
def Savable (p : Peaks) : Prop :=
  WfPeaks p ∧ OneOrTwo p.velocity.shape ∧ (p.velocity.shape.headD 1 ≠ 0 ∨ p.velocity.shape.length = 1)

theorem saved_read (p : Peaks) (h : Savable p) : (Peaks.fromDict p.toDataset p.identifier).2 = .ok p :=
  C39_exact p h.1 h.2.1 h.2.2 none

theorem runCalls_save (doc : Doc) (ps : List Peaks) (hn : (doc.map Prod.fst ++ ps.map Peaks.identifier).Nodup) :
    runCalls Suite.saveStep (some doc, true) ps =
      ((some (doc ++ ps.map fun p => (p.identifier, p.toDataset)), true), .ok ()) := by
  induction ps generalizing doc with
  | nil => simp [runCalls]
  | cons p ps ih =>
    have hp : p.identifier ∉ doc.map Prod.fst := by
      intro hm
      exact (List.nodup_append.1 hn).2.2 _ hm p.identifier (by simp) rfl
    have h1 : Suite.saveStep (some doc, true) p = ((some (doc ++ [(p.identifier, p.toDataset)]), true), .ok ()) := by
      simp [Suite.saveStep, Peaks.toJson, hp]
    unfold runCalls
    rw [h1]
    simp only
    rw [ih _ (by simpa using hn)]
    simp

theorem readDoc_saved (ps : List Peaks) (h : ∀ p ∈ ps, Savable p) :
    (Suite.readDoc (ps.map fun p => (p.identifier, p.toDataset))).2 = .ok ps := by
  induction ps with
  | nil => rfl
  | cons p ps ih =>
    have h1 := saved_read p (h p (by simp))
    have h2 := ih fun q hq => h q (by simp [hq])
    simp only [List.map_cons, Suite.readDoc]
    rcases hf : Peaks.fromDict p.toDataset p.identifier with ⟨d, r⟩
    rw [hf] at h1
    simp only at h1
    subst h1
    simp only
    rcases hr : Suite.readDoc (ps.map fun p => (p.identifier, p.toDataset)) with ⟨d', r'⟩
    rw [hr] at h2
    simp only at h2
    subst h2
    rw [hr]

/-- Contents of the file written for a suite. -/
theorem suite_toJson (s : Suite) (hs : SuiteOk s) (hne : s.peaks ≠ []) (old : Option Doc) :
    Suite.toJson old s = (some (s.peaks.map fun p => (p.identifier, p.toDataset)), .ok ()) := by
  obtain ⟨peaks, ids⟩ := s
  simp only at hne
  rcases peaks with _ | ⟨p, ps⟩
  · exact absurd rfl hne
  · have hn := hs.2
    rw [hs.1] at hn
    have h1 : Suite.saveStep (old, false) p = ((some [(p.identifier, p.toDataset)], true), .ok ()) := by
      simp [Suite.saveStep, Peaks.toJson]
    unfold Suite.toJson
    simp only [runCalls, h1]
    rw [runCalls_save _ _ (by simpa using hn)]
    simp

/-- **C46**.  Reading the file written by a suite gives back the suite: members in order, values and rejected
peaks, whatever was in the file before. -/
theorem C46_json_round_trip (s : Suite) (hs : SuiteOk s) (hne : s.peaks ≠ []) (h : ∀ p ∈ s.peaks, Savable p)
    (old : Option Doc) :
    ∃ file, Suite.toJson old s = (file, .ok ()) ∧ Suite.fromJson [file] = .ok s := by
  refine ⟨_, suite_toJson s hs hne old, ?_⟩
  have h1 := readDoc_saved s.peaks h
  have h2 := (C45_from_peaks s.peaks).2.1 hne (by rw [← hs.1]; exact hs.2)
  simp [Suite.fromJson, Suite.readDocs, h1, h2, ← hs.1]

/-- **C46** (several files).  Reading the files of several suites gives the members of all, in order, when the
identifiers are distinct, and `KeyError` otherwise. -/
theorem C46_several_files (ss : List Suite) (hne0 : ss ≠ []) (hs : ∀ s ∈ ss, SuiteOk s ∧ s.peaks ≠ [])
    (h : ∀ s ∈ ss, ∀ p ∈ s.peaks, Savable p) (old : Option Doc) :
    let all := ss.flatMap Suite.peaks
    ((all.map Peaks.identifier).Nodup →
      Suite.fromJson (ss.map fun s => (Suite.toJson old s).1) = .ok ⟨all, all.map Peaks.identifier⟩) ∧
    (¬ (all.map Peaks.identifier).Nodup →
      Suite.fromJson (ss.map fun s => (Suite.toJson old s).1) = .error .keyError) := by
  intro all
  have hfiles : ss.map (fun s => (Suite.toJson old s).1) =
      ss.map fun s => some (s.peaks.map fun p => (p.identifier, p.toDataset)) := by
    apply List.map_congr_left
    intro s hs'
    rw [suite_toJson s (hs s hs').1 (hs s hs').2 old]
  have hread : Suite.readDocs (ss.map fun s => s.peaks.map fun p => (p.identifier, p.toDataset)) = .ok all := by
    show _ = Except.ok (ss.flatMap Suite.peaks)
    clear hfiles hs hne0
    induction ss with
    | nil => rfl
    | cons s ss ih =>
      have h1 := readDoc_saved s.peaks (h s (by simp))
      have h2 := ih (fun t ht => h t (by simp [ht]))
      simp only [List.map_cons, Suite.readDocs, h1, h2]
      rfl
  have hall : all ≠ [] := by
    rcases ss with _ | ⟨s, ss⟩
    · exact absurd rfl hne0
    · have := (hs s (by simp)).2
      intro hc
      have : s.peaks = [] := by
        have h3 : s.peaks ++ ss.flatMap Suite.peaks = [] := hc
        exact (List.append_eq_nil_iff.1 h3).1
      contradiction
  have hfm : (ss.map fun s => some (s.peaks.map fun p => (p.identifier, p.toDataset))).filterMap id =
      ss.map fun s => s.peaks.map fun p => (p.identifier, p.toDataset) := by
    simp [List.filterMap_map]
  have hsome : (ss.map fun s => some (s.peaks.map fun p => (p.identifier, p.toDataset))).all Option.isSome = true := by
    simp
  have hval : Suite.fromJson (ss.map fun s => (Suite.toJson old s).1) = Suite.fromPeaks all := by
    unfold Suite.fromJson
    rw [hfiles, hsome, hfm, hread]
    simp
  rw [hval]
  exact ⟨(C45_from_peaks all).2.1 hall, (C45_from_peaks all).2.2⟩

theorem exPeaks2_wf : WfPeaks exPeaks2 := by
  constructor <;> simp [exPeaks2, exPeaks]

example : Savable exPeaks ∧ Savable exPeaks2 :=
  ⟨⟨exPeaks_wf, Or.inr rfl, Or.inl (by decide)⟩, ⟨exPeaks2_wf, Or.inr rfl, Or.inl (by decide)⟩⟩

/-- **C41** fails for suites as it does for single objects: after a suite has been built from a dictionary no data set in
it says any longer which peaks were rejected. -/
theorem C41_suite_fails (doc : Doc) (s : Suite) (h : (Suite.fromDict doc).2 = .ok s) :
    ((Suite.fromDict doc).1.map Prod.fst = doc.map Prod.fst) ∧
    (∀ e ∈ (Suite.fromDict doc).1, e.2.lookup "valid" = none) ∧
    ((∃ e ∈ doc, e.2.lookup "valid" ≠ none) → (Suite.fromDict doc).1 ≠ doc) := by
  have key : ∀ (doc : Doc) (ps : List Peaks), (Suite.readDoc doc).2 = .ok ps →
      (Suite.readDoc doc).1 = doc.map fun e => (e.1, Peaks.dropValid e.2) := by
    intro doc
    induction doc with
    | nil => intro ps _; rfl
    | cons e doc ih =>
      intro ps hp
      obtain ⟨id, data⟩ := e
      unfold Suite.readDoc at hp ⊢
      have h1 : (Peaks.fromDict data id).1 = Peaks.dropValid data := rfl
      rcases hf : Peaks.fromDict data id with ⟨d, e | p⟩
      · rw [hf] at hp; simp at hp
      · rw [hf] at hp h1
        simp only at hp h1 ⊢
        rcases hr : Suite.readDoc doc with ⟨rest, e | qs⟩
        · rw [hr] at hp; simp at hp
        · have := ih qs (by rw [hr])
          rw [hr] at this
          simp only at this ⊢
          rw [h1, this]
          rfl
  have h1 : ∃ ps, (Suite.readDoc doc).2 = .ok ps := by
    unfold Suite.fromDict at h
    rcases hr : (Suite.readDoc doc).2 with e | ps
    · rw [hr] at h; simp at h
    · exact ⟨ps, rfl⟩
  obtain ⟨ps, hps⟩ := h1
  have h2 : (Suite.fromDict doc).1 = doc.map fun e => (e.1, Peaks.dropValid e.2) := key doc ps hps
  have h3 : ∀ e ∈ (Suite.fromDict doc).1, e.2.lookup "valid" = none := by
    intro e he
    rw [h2] at he
    obtain ⟨e', -, rfl⟩ := List.mem_map.1 he
    rw [List.lookup_eq_none_iff]
    intro x hx
    have h4 := (List.mem_filter.1 hx).2
    rw [Bool.not_eq_true', beq_eq_false_iff_ne] at h4
    exact bne_iff_ne.2 fun h5 => h4 h5.symm
  refine ⟨by rw [h2]; simp, h3, ?_⟩
  rintro ⟨e, he, hv⟩ heq
  rw [heq] at h3
  exact hv (h3 e he)

example : ∃ s, (Suite.fromDict [("a", exPeaks.toDataset)]).2 = .ok s ∧ exPeaks.toDataset.lookup "valid" ≠ none :=
  ⟨⟨[exPeaks], ["a"]⟩, by decide +kernel, by decide +kernel⟩

/-! ### C47 -/

theorem forEach_ok (f : Peaks → Outcome Peaks) (ps : List Peaks) (h : ∀ p ∈ ps, (f p).2 = .ok ()) :
    Suite.forEach f ps = (ps.map fun p => (f p).1, .ok ()) := by
  induction ps with
  | nil => rfl
  | cons p ps ih =>
    have h1 := h p (by simp)
    rcases hf : f p with ⟨p', r⟩
    rw [hf] at h1
    simp only at h1
    subst h1
    simp only [Suite.forEach, hf, ih fun q hq => h q (by simp [hq]), List.map_cons]

/-- **C47**.  When every member has the attributes, the suite's rejections act on each member as its own method
would, members and identifiers stay in place. -/
theorem C47_every_member (s : Suite) :
    (∀ attr lo hi, (∀ p ∈ s.peaks, ∃ a, p.raw attr = .ok a) →
      ∃ t, s.rejectLimits attr lo hi = (t, .ok ()) ∧ t.ids = s.ids ∧ t.peaks.length = s.peaks.length ∧
        ∀ (i : ℕ) p, s.peaks[i]? = some p → t.peaks[i]? = some (p.rejectLimits attr lo hi).1) ∧
    (∀ xtype xl ytype yl, (∀ p ∈ s.peaks, (∃ a, p.raw xtype = .ok a) ∧ ∃ b, p.raw ytype = .ok b) →
      ∃ t, s.rejectBox xtype xl ytype yl = (t, .ok ()) ∧ t.ids = s.ids ∧ t.peaks.length = s.peaks.length ∧
        ∀ (i : ℕ) p, s.peaks[i]? = some p → t.peaks[i]? = some (p.rejectBox xtype xl ytype yl).1) := by
  constructor
  · intro attr lo hi h
    have h1 := forEach_ok (fun p => p.rejectLimits attr lo hi) s.peaks (by
      intro p hp
      obtain ⟨a, ha⟩ := h p hp
      simp [Peaks.rejectLimits, ha])
    refine ⟨{ s with peaks := s.peaks.map fun p => (p.rejectLimits attr lo hi).1 }, ?_, rfl, by simp, ?_⟩
    · unfold Suite.rejectLimits; rw [h1]
    · intro i p hp
      simp [hp]
  · intro xtype xl ytype yl h
    have h1 := forEach_ok (fun p => p.rejectBox xtype xl ytype yl) s.peaks (by
      intro p hp
      obtain ⟨⟨a, ha⟩, b, hb⟩ := h p hp
      simp [Peaks.rejectBox, Peaks.boxMask, ha, hb])
    refine ⟨{ s with peaks := s.peaks.map fun p => (p.rejectBox xtype xl ytype yl).1 }, ?_, rfl, by simp, ?_⟩
    · unfold Suite.rejectBox; rw [h1]
    · intro i p hp
      simp [hp]

/-- **C47** (a member without the attribute).  The members before it are changed, it and the later ones are not, and
`AttributeError` is raised. -/
theorem C47_missing_attribute (pre post : List Peaks) (p : Peaks) (ids : List String) (attr : String)
    (lo hi : Option Fl) (hpre : ∀ q ∈ pre, ∃ a, q.raw attr = .ok a) (e : PyErr) (hp : p.raw attr = .error e) :
    Suite.rejectLimits ⟨pre ++ p :: post, ids⟩ attr lo hi =
      (⟨pre.map (fun q => (q.rejectLimits attr lo hi).1) ++ p :: post, ids⟩, .error .attributeError) := by
  have he := (C34_unknown_attribute p attr e hp lo hi)
  have : Suite.forEach (fun q => q.rejectLimits attr lo hi) (pre ++ p :: post) =
      (pre.map (fun q => (q.rejectLimits attr lo hi).1) ++ p :: post, .error .attributeError) := by
    induction pre with
    | nil => simp [Suite.forEach, he.1, he.2]
    | cons q pre ih =>
      obtain ⟨a, ha⟩ := hpre q (by simp)
      have h2 := ih fun x hx => hpre x (by simp [hx])
      have hq : q.rejectLimits attr lo hi = ((q.rejectLimits attr lo hi).1, .ok ()) := by
        simp [Peaks.rejectLimits, ha]
      simp only [List.cons_append, Suite.forEach, List.map_cons]
      rw [hq]
      simp only [h2]
  unfold Suite.rejectLimits
  rw [this]

example : (Suite.rejectLimits ⟨[exPeaks, exPeaks2], ["a", "b"]⟩ "velocity" (some (.fin 150)) none).1.peaks.map
    (fun p => p.valid.data) = [[false, true, false, true], [false, false, false, true]] := by decide +kernel

/-! ### C49 -/

/-- The point `(x, y)` of a diagram with the given axes has attribute value `limit`: with frequency `f`, velocity `v`,
wavelength `l`, wavenumber `k`, slowness `s` tied by `v = f * l`, `s * v = 1`, `k * l = 2 * pi`, every assignment which
has `x` and `y` on the axes has `limit` as the attribute. -/
def PointHasValue (xtype attr ytype : String) (limit x y : ℚ) : Prop :=
  ∀ q : String → ℚ, q "frequency" ≠ 0 → q "velocity" ≠ 0 → q "velocity" = q "frequency" * q "wavelength" →
    q "slowness" * q "velocity" = 1 → q "wavenumber" * q "wavelength" = 2 * Arr.pyPi →
    q xtype = x → q ytype = y → q attr = limit

/-- The supported combinations of axes and attribute. -/
def Supported (xtype attr ytype : String) : Prop :=
  (xtype = "frequency" ∧ (attr = "wavelength" ∨ attr = "wavenumber") ∧
    (ytype = "velocity" ∨ ytype = "wavenumber" ∨ ytype = "slowness")) ∨
  (xtype = "wavelength" ∧ (attr = "wavelength" ∨ attr = "wavenumber") ∧ (ytype = "velocity" ∨ ytype = "slowness"))

/-- **C49** (unsupported combinations). -/
theorem C49_unsupported (xtype attr ytype : String) (limits : ℚ × ℚ) (xs ys : List ℚ)
    (h : ¬ Supported xtype attr ytype) :
    Suite.resolutionLimits xtype attr ytype limits xs ys = .error .notImplementedError := by
  have : ∀ l, Suite.resolutionCurve xtype attr ytype l xs ys = .error .notImplementedError := by
    intro l
    unfold Suite.resolutionCurve
    unfold Supported at h
    split_ifs <;> simp_all
  simp [Suite.resolutionLimits, this]

theorem const_getElem? {ys : List ℚ} {c y : ℚ} {i : ℕ} (h : (ys.map fun _ => c)[i]? = some y) : c = y := by
  rw [List.getElem?_map, Option.map_eq_some_iff] at h
  obtain ⟨-, -, h⟩ := h
  exact h

theorem curve_point (xtype attr ytype : String) (limit : ℚ) (hl : limit ≠ 0) (xs ys : List ℚ)
    (c : List ℚ × List ℚ)
    (h : Suite.resolutionCurve xtype attr ytype limit xs ys = .ok c) (i : ℕ) (x y : ℚ)
    (h1 : c.1[i]? = some x) (h2 : c.2[i]? = some y) : PointHasValue xtype attr ytype limit x y := by
  have hpi : Arr.pyPi ≠ 0 := by decide +kernel
  intro q hf hv hvl hs hk hqx hqy
  have hwl : q "wavelength" ≠ 0 := by
    intro h0; rw [h0, mul_zero] at hvl; exact hv hvl
  have hkn : q "wavenumber" ≠ 0 := by
    intro h0
    rw [h0, zero_mul] at hk
    exact hpi (by linarith)
  unfold Suite.resolutionCurve at h
  split_ifs at h <;> simp only [Except.ok.injEq] at h <;> subst h <;> simp only at h1 h2 <;> subst_vars
  · -- frequency, wavelength, velocity
    rw [List.getElem?_map, h1] at h2
    simp only [Option.map_some, Option.some.injEq] at h2
    have : q "frequency" * q "wavelength" = q "frequency" * limit := by rw [← hvl, ← h2]
    exact mul_left_cancel₀ hf this
  · replace h2 := const_getElem? h2
    rw [← h2] at hk
    field_simp at hk
    linarith
  · rw [List.getElem?_map, h1] at h2
    simp only [Option.map_some, Option.some.injEq] at h2
    rw [← h2, hvl] at hs
    field_simp at hs
    linarith
  · rw [List.getElem?_map, h1] at h2
    simp only [Option.map_some, Option.some.injEq] at h2
    rw [hvl] at h2
    have h3 : q "wavelength" = 2 * Arr.pyPi / limit := by
      field_simp at h2 ⊢
      linarith
    rw [h3] at hk
    field_simp at hk
    linarith
  · replace h2 := const_getElem? h2
    linarith
  · rw [List.getElem?_map, h1] at h2
    simp only [Option.map_some, Option.some.injEq] at h2
    rw [← h2, hvl] at hs
    have h3 : limit * q "wavelength" = 2 * Arr.pyPi := by
      field_simp at hs
      linarith
    have : (q "wavenumber" - limit) * q "wavelength" = 0 := by linarith
    rcases mul_eq_zero.1 this with h4 | h4
    · linarith
    · exact absurd h4 hwl
  · replace h1 := const_getElem? h1
    rw [← h1, one_mul]
  · replace h1 := const_getElem? h1
    rw [← h1, one_mul]
  · replace h1 := const_getElem? h1
    rw [← h1] at hk
    field_simp at hk
    linarith
  · replace h1 := const_getElem? h1
    rw [← h1] at hk
    field_simp at hk
    linarith

/-- **C49**.  For every supported combination two curves are returned and every point of each has exactly the
respective limit as its attribute value. -/
theorem C49_points_on_limit (xtype attr ytype : String) (h : Supported xtype attr ytype) (l1 l2 : ℚ) (h1 : l1 ≠ 0)
    (h2 : l2 ≠ 0) (xs ys : List ℚ) (hlen : xs.length = ys.length) :
    ∃ c1 c2, Suite.resolutionLimits xtype attr ytype (l1, l2) xs ys = .ok (c1, c2) ∧
      c1.1.length = c1.2.length ∧ c2.1.length = c2.2.length ∧ c1.1.length = xs.length ∧ c2.1.length = xs.length ∧
      (∀ (i : ℕ) x y, c1.1[i]? = some x → c1.2[i]? = some y → PointHasValue xtype attr ytype l1 x y) ∧
      (∀ (i : ℕ) x y, c2.1[i]? = some x → c2.2[i]? = some y → PointHasValue xtype attr ytype l2 x y) := by
  have hex : ∀ l, ∃ c, Suite.resolutionCurve xtype attr ytype l xs ys = .ok c ∧ c.1.length = c.2.length ∧
      c.1.length = xs.length := by
    intro l
    unfold Suite.resolutionCurve
    unfold Supported at h
    rcases h with ⟨rfl, ha, hy⟩ | ⟨rfl, ha, hy⟩
    · rcases ha with rfl | rfl <;> rcases hy with rfl | rfl | rfl <;> simp [hlen]
    · rcases ha with rfl | rfl <;> rcases hy with rfl | rfl <;> simp [hlen]
  obtain ⟨c1, e1, a1, b1⟩ := hex l1
  obtain ⟨c2, e2, a2, b2⟩ := hex l2
  refine ⟨c1, c2, by simp [Suite.resolutionLimits, e1, e2], a1, a2, b1, b2, ?_, ?_⟩
  · intro i x y
    exact curve_point xtype attr ytype l1 h1 xs ys c1 e1 i x y
  · intro i x y
    exact curve_point xtype attr ytype l2 h2 xs ys c2 e2 i x y

example : Supported "frequency" "wavenumber" "slowness" ∧ ¬ Supported "velocity" "wavelength" "frequency" ∧
    Suite.resolutionLimits "frequency" "wavelength" "velocity" (2, 50) [5, 10] [100, 200] =
      .ok (([5, 10], [10, 20]), ([5, 10], [250, 500])) := by
  refine ⟨by simp [Supported], by simp [Supported], by decide +kernel⟩

/-- A point for which the relations of `PointHasValue` can be met. -/
example : ∃ q : String → ℚ, q "frequency" ≠ 0 ∧ q "velocity" ≠ 0 ∧ q "velocity" = q "frequency" * q "wavelength" ∧
    q "slowness" * q "velocity" = 1 ∧ q "wavenumber" * q "wavelength" = 2 * Arr.pyPi ∧ q "frequency" = 5 ∧
    q "velocity" = 10 := by
  refine ⟨fun s => if s = "frequency" then 5 else if s = "velocity" then 10 else if s = "wavelength" then 2 else
    if s = "slowness" then 1 / 10 else Arr.pyPi, ?_⟩
  refine ⟨?_, ?_, ?_, ?_, ?_, ?_, ?_⟩ <;> decide +kernel

/-- With axes of unequal length the curve has unequal numbers of abscissae and ordinates. -/
theorem C49_unequal_axes_counterexample :
    ∃ c1 c2 : List ℚ × List ℚ,
      Suite.resolutionLimits "frequency" "wavelength" "wavenumber" (2, 50) [5, 10] [1, 2, 3] = .ok (c1, c2) ∧
      c1.1.length ≠ c1.2.length := by
  refine ⟨([5, 10], [Arr.pyPi, Arr.pyPi, Arr.pyPi]), ([5, 10], List.replicate 3 (2 * Arr.pyPi / 50)), ?_, by decide⟩
  decide +kernel

end Verif.Props
