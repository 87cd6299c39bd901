import Verif.Props.Sessions

/-!
# C142: the file states of an interrupted save and the save itself

The step-by-step model of saving (`Model/CrashSave.lean`) and the one used for complete calls (`Model/Suite.lean`) say the
same about a call which is not interrupted.  C46: missing files.
-/

namespace Verif.Props
open Verif Spec

/-- The file before and after a complete call: not there, or a document. -/
def onDisk : Option Doc → Crash.Disk
  | none => .absent
  | some d => .doc d

theorem savePeaks_agrees (file : Option Doc) (p : Peaks) (append : Bool) :
    (Crash.savePeaks (onDisk file) p append).2 = (Peaks.toJson file p append).2 ∧
    (Crash.savePeaks (onDisk file) p append).1.getLastD (onDisk file) = onDisk (Peaks.toJson file p append).1 := by
  cases append with
  | false => exact ⟨rfl, rfl⟩
  | true =>
    cases file with
    | none => exact ⟨rfl, rfl⟩
    | some d =>
      unfold Crash.savePeaks Peaks.toJson
      by_cases h : p.identifier ∈ d.map Prod.fst <;> simp [onDisk, Crash.Disk.load, h]

theorem saveMembers_agrees : ∀ (ps : List Peaks) (file : Option Doc) (append : Bool),
    (Crash.saveMembers (onDisk file) append ps).2 = (runCalls Suite.saveStep (file, append) ps).2 ∧
    (Crash.saveMembers (onDisk file) append ps).1.getLastD (onDisk file) =
      onDisk (runCalls Suite.saveStep (file, append) ps).1.1
  | [], _, _ => ⟨rfl, rfl⟩
  | p :: ps, file, append => by
    obtain ⟨h1, h2⟩ := savePeaks_agrees file p append
    unfold Crash.saveMembers runCalls Suite.saveStep
    rcases hc : Crash.savePeaks (onDisk file) p append with ⟨ds, r⟩
    rcases ht : Peaks.toJson file p append with ⟨f, r'⟩
    rw [hc, ht] at h1 h2
    simp only at h1 h2
    subst h1
    rcases r with e | u
    · exact ⟨rfl, h2⟩
    · obtain ⟨i1, i2⟩ := saveMembers_agrees ps f true
      simp only
      rw [h2]
      refine ⟨i1, ?_⟩
      refine Eq.trans ?_ i2
      generalize Crash.saveMembers (onDisk f) true ps = r at *
      rcases hr : r.1 with _ | ⟨a, as⟩
      · simpa using h2
      · simp [List.getLastD_eq_getLast?, List.getLast?_append, List.getLast?_cons]

/-- **C142** (the call itself).  A call of `to_json` which is not interrupted leaves the file in the last of the states
considered by C142 and raises what the step-by-step account says, for every suite and every earlier file; and reading a
complete file in C142 is `from_json`. -/
theorem C142_uninterrupted (file : Option Doc) (s : Suite) :
    (Crash.saveStates (onDisk file) s).getLast? = some (onDisk (Suite.toJson file s).1) ∧
    (Crash.saveMembers (onDisk file) false s.peaks).2 = (Suite.toJson file s).2 ∧
    ∀ f, Crash.loadSuite (onDisk f) = Suite.fromJson [f] := by
  obtain ⟨h1, h2⟩ := saveMembers_agrees s.peaks file false
  refine ⟨?_, h1, ?_⟩
  · unfold Crash.saveStates Suite.toJson
    rw [List.getLast?_cons, ← h2]
    simp [List.getLastD_eq_getLast?]
  · rintro (_ | d)
    · rfl
    · simp only [Crash.loadSuite, onDisk, Crash.Disk.load, Suite.fromDict, Suite.fromJson, List.all_cons,
        List.all_nil, Option.isSome_some, Bool.and_self, if_true, List.filterMap_cons, List.filterMap_nil, id_eq,
        Suite.readDocs]
      rcases (Suite.readDoc d).2 with e | ps <;> simp

/-- **C46** (missing files).  If one of the files is missing, `from_json` raises `FileNotFoundError`, whatever the others
hold: no suite is made of the rest. -/
theorem C46_missing_file (files : List (Option Doc)) (h : none ∈ files) :
    Suite.fromJson files = .error .fileNotFoundError := by
  have : files.all Option.isSome = false := by
    rw [List.all_eq_false]
    exact ⟨none, h, by simp⟩
  simp [Suite.fromJson, this]

/-- A readable file, and a missing one. -/
example : Suite.fromJson [some [("a", exPeaks.toDataset)], none] = .error .fileNotFoundError ∧
    (Suite.fromJson [some [("a", exPeaks.toDataset)]]).toOption.isSome = true := by decide +kernel

/-- Two members, over an older file: the last state is the document with both. -/
example : (Crash.saveStates (onDisk (some [])) ⟨[exPeaks, exPeaks2], ["a", "b"]⟩).length = 5 ∧
    ((Suite.toJson (some []) ⟨[exPeaks, exPeaks2], ["a", "b"]⟩).1.getD []).map Prod.fst = ["a", "b"] := by
  decide +kernel

end Verif.Props
