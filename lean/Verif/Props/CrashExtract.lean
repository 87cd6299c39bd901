import Verif.Model.CrashExtract
import Verif.Props.ExtractNames

/-!
# C147: an interrupted extraction
-/

namespace Verif.Props
open Verif Extract

variable {α β : Type} (env : Env α β) (network ext : String)

theorem writeRow_last (r : Row) (data : β) (d : Disk β) :
    (writeRow network ext r data d).getLastD d = (d.mkdir r.folder).put (outFile network ext r) (.whole data) := rfl

/-- The rows carried out: all rows before the first whose data cannot be read. -/
def done : List Row → List Row
  | [] => []
  | r :: rest => match rowData env network ext r with
    | .error _ => []
    | .ok _ => r :: done rest

theorem runDisk_ok_prefix : ∀ (rows : List Row) (d : Disk β),
    (runDisk env network ext rows d).1 = (runDisk env network ext (done env network ext rows) d).1 ∧
      (runDisk env network ext (done env network ext rows) d).2 = .ok ()
  | [], d => ⟨rfl, rfl⟩
  | r :: rest, d => by
    rcases hr : rowData env network ext r with e | data
    · simp [done, runDisk, hr]
    · simp only [done, runDisk, hr]
      exact runDisk_ok_prefix rest _

/-- Two directories which differ at most in the folders and files of these rows. -/
def SameBut (rows : List Row) (d d' : Disk β) : Prop :=
  (∀ p, (∀ r ∈ rows, p ≠ outFile network ext r) → d.files p = d'.files p) ∧
  (∀ f, (∀ r ∈ rows, f ≠ r.folder) → d.folders f = d'.folders f)

/-- Directories which differ at most in the folders and files of the rows carried out are the
same after the run. -/
theorem runDisk_same : ∀ (rows : List Row) (d d' : Disk β), SameBut network ext (done env network ext rows) d d' →
    runDisk env network ext rows d = runDisk env network ext rows d'
  | [], d, d', h => by
    have : d = d' := by
      cases d; cases d'
      simp only [Disk.mk.injEq]
      exact ⟨funext fun f => h.2 f (by simp [done]), funext fun p => h.1 p (by simp [done])⟩
    rw [this]
  | r :: rest, d, d', h => by
    rcases hr : rowData env network ext r with e | data
    · have : d = d' := by
        cases d; cases d'
        simp only [done, hr] at h
        simp only [Disk.mk.injEq]
        exact ⟨funext fun f => h.2 f (by simp), funext fun p => h.1 p (by simp)⟩
      rw [this]
    · simp only [runDisk, hr, writeRow_last]
      simp only [done, hr, SameBut, List.mem_cons, forall_eq_or_imp] at h
      refine runDisk_same rest _ _ ⟨fun p hp => ?_, fun f hf => ?_⟩
      · simp only [Disk.put, Disk.mkdir]
        by_cases e : p = outFile network ext r
        · rw [if_pos e, if_pos e]
        · rw [if_neg e, if_neg e]
          exact h.1 p ⟨e, hp⟩
      · simp only [Disk.put, Disk.mkdir]
        by_cases e : f = r.folder
        · rw [if_pos e, if_pos e]
        · rw [if_neg e, if_neg e]
          exact h.2 f ⟨e, hf⟩

/-- **C147** (at any moment).  Whenever the extraction is interrupted, a number of rows has been carried out and at most the
next one has been begun: all other files are as they are when the extraction ends after those rows, and the file of the
next row is as it was then, or torn, or complete. -/
theorem C147_at_any_moment : ∀ (rows : List Row) (d s : Disk β), s ∈ d :: states env network ext rows d →
    ∃ (before : List Row), before <+: rows ∧
      (s = (runDisk env network ext before d).1 ∨
      ∃ (r : Row) (data : β), before ++ [r] <+: rows ∧ rowData env network ext r = .ok data ∧
        (∀ p, p ≠ outFile network ext r → s.files p = (runDisk env network ext before d).1.files p) ∧
        (s.files (outFile network ext r) = (runDisk env network ext before d).1.files (outFile network ext r) ∨
          s.files (outFile network ext r) = some .torn) ∧
        ∀ f, s.folders f = true ↔ (runDisk env network ext before d).1.folders f = true ∨ f = r.folder)
  | rows, d, s, hs => by
    rcases List.mem_cons.1 hs with rfl | hs
    · exact ⟨[], List.nil_prefix, Or.inl rfl⟩
    cases rows with
    | nil => simp [states] at hs
    | cons r rest =>
      rcases hr : rowData env network ext r with e | data
      · simp [states, hr] at hs
      · simp only [states, hr, writeRow_last] at hs
        have hf : ∀ f, (d.mkdir r.folder).folders f = true ↔ d.folders f = true ∨ f = r.folder := by
          intro f
          simp only [Disk.mkdir]
          by_cases e : f = r.folder
          · simp [e]
          · simp [e]
        rcases List.mem_append.1 hs with hs | hs
        · simp only [writeRow, List.mem_cons, List.not_mem_nil, or_false] at hs
          rcases hs with rfl | rfl | rfl
          · exact ⟨[], List.nil_prefix, Or.inr ⟨r, data, by simp, hr, fun _ _ => rfl, Or.inl rfl, hf⟩⟩
          · refine ⟨[], List.nil_prefix, Or.inr ⟨r, data, by simp, hr, fun p hp => ?_, Or.inr ?_, hf⟩⟩
            · simp [Disk.put, hp, Disk.mkdir, runDisk]
            · simp [Disk.put]
          · exact ⟨[r], by simp, Or.inl (by simp only [runDisk, hr, writeRow_last])⟩
        · obtain ⟨before, hb, h⟩ := C147_at_any_moment rest _ s (List.mem_cons_of_mem _ hs)
          have e : ∀ before, runDisk env network ext (r :: before) d =
              runDisk env network ext before ((d.mkdir r.folder).put (outFile network ext r) (.whole data)) := by
            intro before
            simp only [runDisk, hr, writeRow_last]
          refine ⟨r :: before, by simpa using hb, ?_⟩
          rw [e]
          rcases h with h | ⟨r', data', h1, h2⟩
          · exact Or.inl h
          · exact Or.inr ⟨r', data', by simpa using h1, h2⟩

theorem states_sameBut : ∀ (rows : List Row) (d s : Disk β), s ∈ d :: states env network ext rows d →
    SameBut network ext (done env network ext rows) d s
  | rows, d, s, hs => by
    rcases List.mem_cons.1 hs with rfl | hs
    · exact ⟨fun _ _ => rfl, fun _ _ => rfl⟩
    cases rows with
    | nil => simp [states] at hs
    | cons r rest =>
      rcases hr : rowData env network ext r with e | data
      · simp [states, hr] at hs
      · simp only [states, hr, writeRow_last] at hs
        simp only [done, hr, SameBut, List.mem_cons, forall_eq_or_imp]
        have hput : ∀ c, ∀ p, p ≠ outFile network ext r → ((d.mkdir r.folder).put (outFile network ext r) c).files p = d.files p := by
          intro c p hp
          simp [Disk.put, Disk.mkdir, hp]
        have hmk : ∀ f, f ≠ r.folder → (d.mkdir r.folder).folders f = d.folders f := by
          intro f hf
          simp [Disk.mkdir, hf]
        rcases List.mem_append.1 hs with hs | hs
        · simp only [writeRow, List.mem_cons, List.not_mem_nil, or_false] at hs
          rcases hs with rfl | rfl | rfl
          · exact ⟨fun p _ => rfl, fun f hf => (hmk f hf.1).symm⟩
          · exact ⟨fun p hp => (hput _ p hp.1).symm, fun f hf => (hmk f hf.1).symm⟩
          · exact ⟨fun p hp => (hput _ p hp.1).symm, fun f hf => (hmk f hf.1).symm⟩
        · obtain ⟨h1, h2⟩ := states_sameBut rest _ s (List.mem_cons_of_mem _ hs)
          exact ⟨fun p hp => by rw [← h1 p hp.2, hput _ p hp.1], fun f hf => by rw [← h2 f hf.2]; exact (hmk f hf.1).symm⟩

/-- **C147** (again).  After an interruption at any moment, running the same extraction again gives the directory, and ends
in the way, of an extraction which has not been interrupted. -/
theorem C147_again (rows : List Row) (d s : Disk β) (hs : s ∈ d :: states env network ext rows d) :
    runDisk env network ext rows s = runDisk env network ext rows d :=
  (runDisk_same env network ext rows d s (states_sameBut env network ext rows d s hs)).symm

/-- **C147** (repeated).  Extracting twice is extracting once. -/
theorem C147_twice (rows : List Row) (d : Disk β) :
    runDisk env network ext rows (runDisk env network ext rows d).1 = runDisk env network ext rows d := by
  have last : ∀ (rows : List Row) (d : Disk β), (runDisk env network ext rows d).1 ∈ d :: states env network ext rows d := by
    intro rows
    induction rows with
    | nil => intro d; simp [runDisk]
    | cons r rest ih =>
      intro d
      rcases hr : rowData env network ext r with e | data
      · simp [runDisk, hr]
      · have := ih ((d.mkdir r.folder).put (outFile network ext r) (.whole data))
        simp only [runDisk, states, hr, writeRow_last]
        refine List.mem_cons_of_mem _ (List.mem_append.2 ?_)
        rcases List.mem_cons.1 this with h | h
        · rw [h]
          exact Or.inl (by simp [writeRow])
        · exact Or.inr h
  exact C147_again env network ext rows d _ (last rows d)

/-- **C147** (no other file).  At no moment is a file touched that is not named by a row whose data can be read. -/
theorem C147_other_files (rows : List Row) (d s : Disk β) (hs : s ∈ d :: states env network ext rows d) (p : Path)
    (hp : ∀ r ∈ rows, p ≠ outFile network ext r) : s.files p = d.files p := by
  refine ((states_sameBut env network ext rows d s hs).1 p fun r hr => hp r ?_).symm
  have sub : ∀ rows : List Row, ∀ r ∈ done env network ext rows, r ∈ rows := by
    intro rows
    induction rows with
    | nil => intro r h; simp [done] at h
    | cons a rest ih =>
      intro r h
      rcases ha : rowData env network ext a with e | data
      · simp [done, ha] at h
      · simp only [done, ha, List.mem_cons] at h
        rcases h with rfl | h
        · simp
        · exact List.mem_cons_of_mem _ (ih r h)
  exact sub rows r hr

/-- **C147** (to the end).  Run to its end, the steps are those of `extract_mseed`: the files are complete and what they
would be if every file were written at once. -/
theorem C147_agrees_with_run : ∀ (rows : List Row) (d : Disk β) (out : Out β), (∀ p, d.files p = (out p).map Content.whole) →
    (∀ p, (runDisk env network ext rows d).1.files p = ((run env network ext rows out).1 p).map Content.whole) ∧
      (runDisk env network ext rows d).2 = (run env network ext rows out).2
  | [], d, out, h => ⟨h, rfl⟩
  | r :: rest, d, out, h => by
    rcases hr : rowData env network ext r with e | data
    · simp only [runDisk, run, hr]
      exact ⟨h, trivial⟩
    · simp only [runDisk, run, hr, writeRow_last]
      refine C147_agrees_with_run rest _ _ fun p => ?_
      simp only [Disk.put, Disk.mkdir]
      by_cases e : p = outFile network ext r
      · rw [if_pos e, if_pos e]; rfl
      · rw [if_neg e, if_neg e, h p]

/-- An output directory with the file of an earlier extraction. -/
def exDisk : Disk (List ℕ) where
  folders := fun f => f = "C50"
  files := fun p => if p = outFile "NW" "miniseed" exRow then some (.whole [9]) else none

/-- **C147** (the earlier file).  An interruption can leave a file in part written where a complete one of an earlier
extraction was: the file is not written elsewhere first. -/
theorem C147_earlier_file_not_kept : ∃ s ∈ exDisk :: states exExtract "NW" "miniseed" [exRow] exDisk,
    exDisk.files (outFile "NW" "miniseed" exRow) = some (.whole [9]) ∧
      s.files (outFile "NW" "miniseed" exRow) = some .torn := by
  have h1 : rowData exExtract "NW" "miniseed" exRow = .ok [1, 2, 3] := by decide +kernel
  refine ⟨(exDisk.mkdir exRow.folder).put (outFile "NW" "miniseed" exRow) .torn, ?_, ?_, ?_⟩
  · simp [states, h1, writeRow]
  · simp [exDisk]
  · simp [Disk.put]

/-- Two rows, the second for another array: there are six states after the first, and the last one has both files. -/
example : (states exExtract "NW" "miniseed" [exRow, { exRow' with array := "B" }] exDisk).length = 6 ∧
    (runDisk exExtract "NW" "miniseed" [exRow, { exRow' with array := "B" }] exDisk).1.files
      (outFile "NW" "miniseed" exRow) = some (.whole [1, 2, 3]) ∧
    exDisk.files (outFile "NW" "miniseed" exRow) = some (.whole [9]) := by
  have h1 : rowData exExtract "NW" "miniseed" exRow = .ok [1, 2, 3] := by decide +kernel
  have h2 : rowData exExtract "NW" "miniseed" { exRow' with array := "B" } = .ok [4, 5] := by decide +kernel
  refine ⟨?_, ?_, ?_⟩
  · simp [states, h1, h2, writeRow]
  · simp only [runDisk, h1, h2, writeRow_last, Disk.put, Disk.mkdir]
    decide +kernel
  · simp [exDisk]

/-- A directory of complete files, as `C147_agrees_with_run` asks. -/
example : ∀ p, exDisk.files p = ((fun p => if p = outFile "NW" "miniseed" exRow then some [9] else none : Out (List ℕ)) p).map
    Content.whole := by
  intro p
  simp only [exDisk]
  split_ifs <;> rfl

end Verif.Props
