import Verif.Props.PeaksReject

/-!
# C159: every attribute a `Peaks` lists can be read
-/

namespace Verif.Props
open Verif Peaks Spec

/-- The documented attributes of a `Peaks`. -/
def documented : List String :=
  ["frequency", "velocity", "azimuth", "ellipticity", "noise", "power", "wavelength", "slowness", "wavenumber"]

/-- Reading an attribute gives the recorded values of the peaks that remain, in order, one per peak. -/
def ReadsRemaining (p : Peaks) (name : String) : Prop :=
  ∃ values, p.get name = .ok ((remainingList p).map values) ∧
    ∀ i < p.velocity.data.length, Value p name i (values i)

private theorem readable_of {p : Peaks} (hw : WfPeaks p) {name : String} {a : Nd Fl} (hr : p.raw name = .ok a)
    (hl : a.data.length = p.velocity.data.length)
    (hg : p.get name = .ok ((remainingList p).map fun i => a.data.getD i .nan)) : ReadsRemaining p name := by
  refine ⟨fun i => a.data.getD i .nan, hg, fun i hi => ⟨a, hr, ?_⟩⟩
  have := hw.valid_len
  simp [List.getD_eq_getElem?_getD, List.getElem?_eq_getElem (hl ▸ hi)]

/-- **C159** (what is listed).  Exactly the frequency, the velocity, the names given at construction and the three
computed attributes are listed; a name that is not listed cannot be read. -/
theorem C159_listed (p : Peaks) (name : String) :
    (name ∈ p.extendedAttrs ↔ name ∈ ["frequency", "velocity", "wavelength", "slowness", "wavenumber"] ∨
      ∃ a, (name, a) ∈ p.extra) ∧
    (name ∉ p.extendedAttrs → p.get name = .error .attributeError ∧
      ∀ lo hi, p.rejectLimits name lo hi = (p, .error .attributeError)) := by
  have h1 : name ∈ p.extendedAttrs ↔ name ∈ ["frequency", "velocity", "wavelength", "slowness", "wavenumber"] ∨
      ∃ a, (name, a) ∈ p.extra := by
    simp only [extendedAttrs, attrs, List.mem_append, List.mem_cons, List.mem_map, List.not_mem_nil, or_false,
      Prod.exists, exists_and_right, exists_eq_right]
    tauto
  refine ⟨h1, fun h => ?_⟩
  rw [h1] at h
  push Not at h
  obtain ⟨hn, he⟩ := h
  simp only [List.mem_cons, List.not_mem_nil, or_false, not_or] at hn
  have hlook : p.extra.lookup name = none := by
    rw [List.lookup_eq_none_iff]
    intro q hq
    have := he q.2
    simp only [ne_eq, bne_iff_ne] at *
    intro hc
    exact this (by rw [hc]; exact hq)
  have hraw : p.raw name = .error .attributeError := by
    simp [raw, hn, hlook]
  refine ⟨?_, fun lo hi => by simp [rejectLimits, hraw]⟩
  unfold Peaks.get
  by_cases hs : name ∈ stored
  · rw [if_pos hs, hraw]
  · rw [if_neg hs]
    simp [hn]

/-- **C159** (partial).  Every listed attribute with a documented name can be read.  Missing: the other names accepted
by the constructor, `C159_other_names_fails`. -/
theorem C159_documented_partial (p : Peaks) (hw : WfPeaks p) (name : String) (hl : name ∈ p.extendedAttrs)
    (hd : name ∈ documented) : ReadsRemaining p name := by
  by_cases hs : name ∈ stored
  · obtain ⟨a, ha⟩ : ∃ a, p.raw name = .ok a := by
      unfold raw
      split_ifs
      all_goals first | exact ⟨_, rfl⟩ | skip
      rcases h : p.extra.lookup name with _ | a
      · exfalso
        rw [List.lookup_eq_none_iff] at h
        have := (C159_listed p name).1.1 hl
        simp_all [stored]
        obtain ⟨a, ha⟩ := this
        exact h _ _ ha rfl
      · exact ⟨a, rfl⟩
    have hlen := (raw_shape hw ha).2
    refine readable_of hw ha hlen ?_
    unfold Peaks.get
    rw [if_pos hs, ha]
    simp only [Except.ok.injEq]
    exact select_eq .nan _ _ (hlen.trans hw.valid_len.symm)
  · have hf : p.frequency.select p.valid = (remainingList p).map fun i => p.frequency.data.getD i .nan :=
      select_eq .nan _ _ (hw.freq_len.trans hw.valid_len.symm)
    have hv : p.velocity.select p.valid = (remainingList p).map fun i => p.velocity.data.getD i .nan :=
      select_eq .nan _ _ hw.valid_len.symm
    have hfl := hw.freq_len
    have hget : ∀ i < p.velocity.data.length, p.velocity.data[i]? = some (p.velocity.data.getD i .nan) ∧
        p.frequency.data[i]? = some (p.frequency.data.getD i .nan) := by
      intro i hi
      simp [List.getD_eq_getElem?_getD, List.getElem?_eq_getElem hi, List.getElem?_eq_getElem (hfl ▸ hi)]
    simp only [documented, List.mem_cons, List.not_mem_nil, or_false] at hd
    simp only [stored, List.mem_cons, List.not_mem_nil, or_false, not_or] at hs
    obtain rfl | rfl | rfl : name = "wavelength" ∨ name = "slowness" ∨ name = "wavenumber" := by tauto
    · refine ⟨fun i => wavelengthOf (p.velocity.data.getD i .nan) (p.frequency.data.getD i .nan), ?_, fun i hi =>
        ⟨_, by simp [raw]; rfl, ?_⟩⟩
      · simp [Peaks.get, stored, hf, hv, List.zipWith_map, List.zipWith_self]
      · simp only [Nd.zipWith, List.getElem?_zipWith, (hget i hi).1, (hget i hi).2]
    · refine ⟨fun i => slownessOf (p.velocity.data.getD i .nan), ?_, fun i hi => ⟨_, by simp [raw]; rfl, ?_⟩⟩
      · simp [Peaks.get, stored, hv]
      · simp only [Nd.map, List.getElem?_map, (hget i hi).1, Option.map_some]
    · refine ⟨fun i => wavenumberOf (p.frequency.data.getD i .nan) (p.velocity.data.getD i .nan), ?_, fun i hi =>
        ⟨_, by simp [raw]; rfl, ?_⟩⟩
      · simp [Peaks.get, stored, hf, hv, List.zipWith_map, List.zipWith_self]
      · simp only [Nd.zipWith, List.getElem?_zipWith, (hget i hi).1, (hget i hi).2]

/-- Names of the class that are not attributes of the peaks; a keyword argument of such a name would hide or be hidden
by the class's own. -/
def classNames : List String :=
  ["identifier", "attrs", "extended_attrs", "axes_defaults", "valid", "reject", "plot", "reject_limits_outside",
    "reject_box_inside", "simplify_mpeaks", "to_json", "from_json", "from_dict", "from_max"]

/-- **C159** (failure).  Every other name accepted by the constructor is listed, and peaks can be rejected by it, but
reading it raises AttributeError: there is no property of that name. -/
theorem C159_other_names_fails (f v a : Nd Fl) (id name : String) (hd : name ∉ documented) (_ : name ∉ classNames) :
    ∃ p, Peaks.init f v id [(name, a)] = .ok p ∧ name ∈ p.extendedAttrs ∧ p.get name = .error .attributeError ∧
      ¬ ReadsRemaining p name ∧ ∀ lo hi, (p.rejectLimits name lo hi).2 = .ok () := by
  simp only [documented, List.mem_cons, List.not_mem_nil, or_false, not_or] at hd
  have hg : (⟨id, f, v, [(name, a)], v.map fun v => !v.isNan⟩ : Peaks).get name = .error .attributeError := by
    simp [Peaks.get, stored, hd]
  refine ⟨⟨id, f, v, [(name, a)], v.map fun v => !v.isNan⟩, ?_, ?_, hg, ?_, fun lo hi => ?_⟩
  · simp [Peaks.init, hd]
  · simp [extendedAttrs, attrs]
  · rintro ⟨vals, h, -⟩
    rw [hg] at h
    cases h
  · simp [rejectLimits, raw, hd]

example : "phase" ∉ documented ∧ "phase" ∉ classNames := by decide

/-- The example of the other theorems on peaks lists and reads its attributes. -/
example : ∀ name ∈ exPeaks.extendedAttrs, name ∈ documented := by decide +kernel

example : ReadsRemaining exPeaks "wavelength" :=
  C159_documented_partial exPeaks exPeaks_wf "wavelength" (by decide +kernel) (by decide)

end Verif.Props
