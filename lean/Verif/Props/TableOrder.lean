import Verif.Model.CrashExtract
import Verif.Props.CrashExtract

/-!
# C192: the order of the rows of a table
-/

namespace Verif.Props
open Verif Extract

namespace TableOrder

variable {α β : Type} (env : Env α β) (network ext : String)

theorem ok_iff : ∀ (rows : List Row) (d : Disk β),
    (runDisk env network ext rows d).2 = .ok () ↔ ∀ r ∈ rows, ∃ x, rowData env network ext r = .ok x
  | [], d => by simp [runDisk]
  | r :: rest, d => by
    rcases hr : rowData env network ext r with e | x
    · simp [runDisk, hr]
    · simp only [runDisk, hr, List.mem_cons, forall_eq_or_imp, Except.ok.injEq, exists_eq', true_and]
      exact ok_iff rest _

theorem untouched : ∀ (rows : List Row) (d : Disk β) (p : Path), (∀ r ∈ rows, outFile network ext r ≠ p) →
    (runDisk env network ext rows d).1.files p = d.files p
  | [], _, _, _ => rfl
  | r :: rest, d, p, h => by
    rcases hr : rowData env network ext r with e | x
    · simp [runDisk, hr]
    · simp only [runDisk, hr, writeRow_last]
      rw [untouched rest _ p fun r' h' => h r' (by simp [h'])]
      simp only [Disk.put, Disk.mkdir]
      rw [if_neg fun e => h r (by simp) e.symm]

theorem written : ∀ (rows : List Row) (d : Disk β), (∀ r ∈ rows, ∃ x, rowData env network ext r = .ok x) →
    (∀ r ∈ rows, ∀ r' ∈ rows, outFile network ext r = outFile network ext r' → r = r') →
    ∀ r ∈ rows, ∀ x, rowData env network ext r = .ok x →
      (runDisk env network ext rows d).1.files (outFile network ext r) = some (.whole x)
  | [], _, _, _, r, hr, _, _ => by cases hr
  | r :: rest, d, hall, hu, s, hs, x, hx => by
    obtain ⟨y, hy⟩ := hall r (by simp)
    simp only [runDisk, hy, writeRow_last]
    have ih := written rest ((d.mkdir r.folder).put (outFile network ext r) (.whole y))
      (fun t ht => hall t (by simp [ht])) fun t ht t' ht' => hu t (by simp [ht]) t' (by simp [ht'])
    by_cases hin : s ∈ rest
    · exact ih s hin x hx
    · have : s = r := by
        rcases List.mem_cons.1 hs with h | h
        · exact h
        · exact absurd h hin
      subst this
      rw [hx] at hy
      cases hy
      rw [untouched]
      · simp [Disk.put]
      · intro t ht e
        exact hin (hu t (by simp [ht]) s (by simp) e ▸ ht)

theorem folders_iff : ∀ (rows : List Row) (d : Disk β), (∀ r ∈ rows, ∃ x, rowData env network ext r = .ok x) →
    ∀ f, (runDisk env network ext rows d).1.folders f = true ↔ d.folders f = true ∨ ∃ r ∈ rows, r.folder = f
  | [], d, _, f => by simp [runDisk]
  | r :: rest, d, hall, f => by
    obtain ⟨y, hy⟩ := hall r (by simp)
    simp only [runDisk, hy, writeRow_last]
    rw [folders_iff rest _ fun t ht => hall t (by simp [ht])]
    simp only [Disk.put, Disk.mkdir, List.mem_cons, exists_eq_or_imp]
    by_cases e : f = r.folder
    · subst e; simp
    · rw [if_neg e]
      constructor
      · rintro (h | h)
        · exact .inl h
        · exact .inr (.inr h)
      · rintro (h | h | h)
        · exact .inl h
        · exact absurd h.symm e
        · exact .inr h

end TableOrder

open TableOrder

/-- **C192**.  Two tables with the same rows, in any order and repeated any number of times, no two different
rows being for the same output file: both extractions succeed or both raise, and if they succeed they leave the
same folders and files. -/
theorem C192_any_order {α β : Type} (env : Env α β) (network ext : String) (rows rows' : List Row) (d : Disk β)
    (hsame : ∀ r, r ∈ rows ↔ r ∈ rows') (hu : ∀ r ∈ rows, ∀ r' ∈ rows, SameFile r r' → r = r') :
    ((runDisk env network ext rows d).2 = .ok () ↔ (runDisk env network ext rows' d).2 = .ok ()) ∧
    ((runDisk env network ext rows d).2 = .ok () →
      runDisk env network ext rows' d = runDisk env network ext rows d) := by
  have hiff : (runDisk env network ext rows d).2 = .ok () ↔ (runDisk env network ext rows' d).2 = .ok () := by
    rw [ok_iff, ok_iff]
    exact ⟨fun h r hr => h r ((hsame r).2 hr), fun h r hr => h r ((hsame r).1 hr)⟩
  refine ⟨hiff, fun hok => ?_⟩
  have hall := (ok_iff env network ext rows d).1 hok
  have hall' := (ok_iff env network ext rows' d).1 (hiff.1 hok)
  have hf : ∀ r ∈ rows, ∀ r' ∈ rows, outFile network ext r = outFile network ext r' → r = r' :=
    fun r hr r' hr' e => hu r hr r' hr' ((outFile_eq_iff network ext r r').1 e)
  have hf' : ∀ r ∈ rows', ∀ r' ∈ rows', outFile network ext r = outFile network ext r' → r = r' :=
    fun r hr r' hr' e => hf r ((hsame r).2 hr) r' ((hsame r').2 hr') e
  refine Prod.ext ?_ ((hiff.1 hok).trans hok.symm)
  have hfiles : (runDisk env network ext rows' d).1.files = (runDisk env network ext rows d).1.files := by
    funext p
    by_cases h : ∃ r ∈ rows, outFile network ext r = p
    · obtain ⟨r, hr, rfl⟩ := h
      obtain ⟨x, hx⟩ := hall r hr
      rw [written env network ext rows d hall hf r hr x hx,
        written env network ext rows' d hall' hf' r ((hsame r).1 hr) x hx]
    · have h1 : ∀ r ∈ rows, outFile network ext r ≠ p := fun r hr e => h ⟨r, hr, e⟩
      rw [untouched env network ext rows d p h1,
        untouched env network ext rows' d p fun r hr => h1 r ((hsame r).2 hr)]
  have hfolders : (runDisk env network ext rows' d).1.folders = (runDisk env network ext rows d).1.folders := by
    funext f
    rw [Bool.eq_iff_iff, folders_iff env network ext rows' d hall', folders_iff env network ext rows d hall]
    simp only [hsame]
  rcases h1 : (runDisk env network ext rows' d).1 with ⟨a, b⟩
  rcases h2 : (runDisk env network ext rows d).1 with ⟨a', b'⟩
  rw [h1, h2] at hfiles hfolders
  cases hfiles
  cases hfolders
  rfl

/-- **C192** (what there is afterwards).  A successful extraction of such a table leaves in the file of every
row the data of this row, every other file as it was, and the folders that were there and those of the rows. -/
theorem C192_afterwards {α β : Type} (env : Env α β) (network ext : String) (rows : List Row) (d : Disk β)
    (hu : ∀ r ∈ rows, ∀ r' ∈ rows, SameFile r r' → r = r') (hok : (runDisk env network ext rows d).2 = .ok ()) :
    (∀ r ∈ rows, ∃ x, rowData env network ext r = .ok x ∧
      (runDisk env network ext rows d).1.files (outFile network ext r) = some (.whole x)) ∧
    (∀ p, (∀ r ∈ rows, outFile network ext r ≠ p) → (runDisk env network ext rows d).1.files p = d.files p) ∧
    ∀ f, (runDisk env network ext rows d).1.folders f = true ↔ d.folders f = true ∨ ∃ r ∈ rows, r.folder = f := by
  have hall := (ok_iff env network ext rows d).1 hok
  have hf : ∀ r ∈ rows, ∀ r' ∈ rows, outFile network ext r = outFile network ext r' → r = r' :=
    fun r hr r' hr' e => hu r hr r' hr' ((outFile_eq_iff network ext r r').1 e)
  refine ⟨fun r hr => ?_, untouched env network ext rows d, folders_iff env network ext rows d hall⟩
  obtain ⟨x, hx⟩ := hall r hr
  exact ⟨x, hx, written env network ext rows d hall hf r hr x hx⟩

/-- A program that extracts one table after the other, ended by the first exception. -/
def extractTables {α β : Type} (env : Env α β) (network ext : String) : List (List Row) → Disk β → Outcome (Disk β)
  | [], d => (d, .ok ())
  | t :: ts, d =>
    match runDisk env network ext t d with
    | (d', .ok ()) => extractTables env network ext ts d'
    | (d', .error e) => (d', .error e)

/-- **C192** (in parts).  A table may be cut into any number of tables, extracted one after the other: the
directory afterwards and the exception, if any, are those of the whole table. -/
theorem C192_in_parts {α β : Type} (env : Env α β) (network ext : String) : ∀ (tables : List (List Row)) (d : Disk β),
    extractTables env network ext tables d = runDisk env network ext tables.flatten d
  | [], _ => rfl
  | [] :: ts, d => by
    simp only [extractTables, runDisk, List.flatten_cons, List.nil_append]
    exact C192_in_parts env network ext ts d
  | (r :: t) :: ts, d => by
    have ih := C192_in_parts env network ext (t :: ts)
    simp only [extractTables, List.flatten_cons, List.cons_append, runDisk] at ih ⊢
    rcases rowData env network ext r with e | x
    · rfl
    · exact ih _
termination_by tables => (tables.map fun t => t.length + 1).sum

/-- Two rows for two files, both of which can be extracted, and the same rows in the other order, one of them
twice. -/
example : (∀ r, r ∈ [exRow, { exRow' with array := "B" }] ↔
      r ∈ [{ exRow' with array := "B" }, exRow, { exRow' with array := "B" }]) ∧
    (∀ r ∈ [exRow, { exRow' with array := "B" }], ∀ r' ∈ [exRow, { exRow' with array := "B" }],
      SameFile r r' → r = r') ∧
    (runDisk exExtract "NW" "miniseed" [exRow, { exRow' with array := "B" }] ⟨fun _ => false, fun _ => none⟩).2 =
      .ok () := by
  refine ⟨fun r => by simp only [List.mem_cons, List.not_mem_nil, or_false]; tauto, ?_, ?_⟩
  · intro r hr r' hr'
    simp only [List.mem_cons, List.not_mem_nil, or_false] at hr hr'
    rcases hr with rfl | rfl <;> rcases hr' with rfl | rfl <;> intro h
    · rfl
    · exact absurd h.2.2 (by decide)
    · exact absurd h.2.2 (by decide)
    · rfl
  · rw [ok_iff]
    intro r hr
    simp only [List.mem_cons, List.not_mem_nil, or_false] at hr
    rcases hr with rfl | rfl
    · exact ⟨[1, 2, 3], by decide +kernel⟩
    · exact ⟨[4, 5], by decide +kernel⟩

end Verif.Props
