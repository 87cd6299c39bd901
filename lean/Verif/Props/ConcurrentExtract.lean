import Verif.Model.ConcurrentExtract
import Verif.Props.CrashExtract

/-!
# C180: tables extracted at the same time
-/

namespace Verif.Props
open Verif Extract

namespace AtOnce

variable {α β : Type} (env : Env α β) (network ext : String)

/-- No two tables name one output file. -/
def OwnFiles (tables : List (List Row)) : Prop :=
  ∀ (i j : ℕ) (R S : List Row), tables[i]? = some R → tables[j]? = some S → i ≠ j →
    ∀ r ∈ R, ∀ s ∈ S, outFile network ext r ≠ outFile network ext s

/-- A folder named by two tables is there before. -/
def FoldersThere (d : Disk β) (tables : List (List Row)) : Prop :=
  ∀ (i j : ℕ) (R S : List Row), tables[i]? = some R → tables[j]? = some S → i ≠ j →
    ∀ r ∈ R, ∀ s ∈ S, r.folder = s.folder → d.folders r.folder = true

/-- A process has ended: all rows are done, or it has failed. -/
def Ended (g : Process β) : Prop := g.todo = [] ∨ g.failed ≠ none

/-- How it has ended. -/
def outcome (g : Process β) : Except Failure Unit :=
  match g.failed with
  | none => .ok ()
  | some e => .error e

/-- An exception of `extract_mseed` as a failure of a process. -/
def asFailure : Except PyErr Unit → Except Failure Unit
  | .ok () => .ok ()
  | .error e => .error (.raised e)

theorem runDisk_done : ∀ (fin : List Row) (d : Disk β) (rest : List Row), (∀ r ∈ fin, ∃ x, rowData env network ext r = .ok x) →
    runDisk env network ext (fin ++ rest) d = runDisk env network ext rest (runDisk env network ext fin d).1
  | [], _, _, _ => rfl
  | r :: fin, d, rest, h => by
    obtain ⟨x, hx⟩ := h r (by simp)
    simp only [List.cons_append, runDisk, hx]
    exact runDisk_done fin _ rest fun s hs => h s (by simp [hs])

/-- The files of a table while its process runs. -/
structure Going (d0 : Disk β) (R : List Row) (g : Process β) (d : Disk β) (fin : List Row) : Prop where
  rows : R = fin ++ g.todo
  done : ∀ r ∈ fin, ∃ x, rowData env network ext r = .ok x
  data : ∀ x, (g.stage = .absent x ∨ g.stage = .ready x ∨ g.stage = .writing x) → ∃ r rest, g.todo = r :: rest ∧
    rowData env network ext r = .ok x
  absent : ∀ x, g.stage = .absent x → ∀ r rest, g.todo = r :: rest → d.folders r.folder = false
  failed : ∀ e, g.failed = some e → ∃ r rest e', g.todo = r :: rest ∧ rowData env network ext r = .error e' ∧
    e = .raised e' ∧ g.stage = .start
  torn : ∀ x, g.stage = .writing x → ∀ r rest, g.todo = r :: rest → d.files (outFile network ext r) = some .torn
  files : ∀ p, (∃ r ∈ R, p = outFile network ext r) →
    (∀ x r rest, g.stage = .writing x → g.todo = r :: rest → p ≠ outFile network ext r) →
    d.files p = (runDisk env network ext fin d0).1.files p

theorem Going.other {d0 : Disk β} {R : List Row} {g : Process β} {d d' : Disk β} {fin : List Row}
    (h : Going env network ext d0 R g d fin) (hf : ∀ r ∈ R, d'.files (outFile network ext r) = d.files (outFile network ext r))
    (ha : ∀ x, g.stage = .absent x → ∀ r rest, g.todo = r :: rest → d.folders r.folder = false → d'.folders r.folder = false) :
    Going env network ext d0 R g d' fin := by
  refine ⟨h.rows, h.done, h.data, fun x hx r rest hr => ha x hx r rest hr (h.absent x hx r rest hr), h.failed, ?_, ?_⟩
  · intro x hx r rest hr
    rw [hf r (by rw [h.rows, hr]; simp)]
    exact h.torn x hx r rest hr
  · rintro p ⟨r, hr, rfl⟩ hp
    rw [hf r hr]
    exact h.files _ ⟨r, hr, rfl⟩ hp

/-- What holds at all times. -/
structure Inv (d0 : Disk β) (tables : List (List Row)) (w : Shared β) : Prop where
  length : w.procs.length = tables.length
  going : ∀ (i : ℕ) (R : List Row) (g : Process β), tables[i]? = some R → w.procs[i]? = some g →
    ∃ fin, Going env network ext d0 R g w.disk fin
  others : ∀ p, (∀ R ∈ tables, ∀ r ∈ R, p ≠ outFile network ext r) → w.disk.files p = d0.files p
  folders : ∀ f, d0.folders f = true → w.disk.folders f = true
  folders' : ∀ f, w.disk.folders f = true → d0.folders f = true ∨ ∃ R ∈ tables, ∃ r ∈ R, f = r.folder

theorem Inv.step {d0 : Disk β} {tables : List (List Row)} (hown : OwnFiles network ext tables) (hthere : FoldersThere d0 tables)
    {w : Shared β} (h : Inv env network ext d0 tables w) (i : ℕ) : Inv env network ext d0 tables (w.step env network ext i) := by
  unfold Shared.step
  rcases hi : w.procs[i]? with _ | g
  · exact h
  obtain ⟨hil, -⟩ := List.getElem?_eq_some_iff.1 hi
  obtain ⟨R, hR⟩ : ∃ R, tables[i]? = some R := ⟨_, List.getElem?_eq_getElem (h.length ▸ hil)⟩
  obtain ⟨fin, hg⟩ := h.going i R g hR hi
  have hRm := List.mem_of_getElem? hR
  -- a new process in place `i` and a new disk
  have put : ∀ (g' : Process β) (d' : Disk β), (∃ fin', Going env network ext d0 R g' d' fin') →
      (∀ p, (∀ r ∈ R, p ≠ outFile network ext r) → d'.files p = w.disk.files p) →
      (∀ f, w.disk.folders f = true → d'.folders f = true) →
      (∀ f, d'.folders f = true → w.disk.folders f = true ∨ ∃ r ∈ R, f = r.folder) →
      Inv env network ext d0 tables ⟨d', w.procs.set i g'⟩ := by
    intro g' d' h1 h2 h3 h4
    refine ⟨by simpa using h.length, ?_, ?_, fun f hf => h3 f (h.folders f hf), ?_⟩
    · intro j S k hS hk
      by_cases hji : j = i
      · subst hji
        simp only [List.getElem?_set_self hil, Option.some.injEq] at hk
        subst hk
        obtain rfl := Option.some.inj (hR.symm.trans hS)
        exact h1
      · simp only at hk
        rw [List.getElem?_set_ne (Ne.symm hji)] at hk
        obtain ⟨fin', hgo⟩ := h.going j S k hS hk
        refine ⟨fin', hgo.other env network ext (fun s hs => h2 _ fun r hr => ?_) ?_⟩
        · exact hown j i S R hS hR hji s hs r hr
        · intro x hx s rest hs hfalse
          by_contra hc
          rw [Bool.not_eq_false] at hc
          rcases h4 _ hc with h5 | ⟨r, hr, h5⟩
          · rw [hfalse] at h5; cases h5
          · have hsS : s ∈ S := by rw [hgo.rows, hs]; simp
            have := h.folders _ (hthere j i S R hS hR hji s hsS r hr h5)
            rw [hfalse] at this; cases this
    · intro p hp
      rw [h2 p (hp R hRm)]
      exact h.others p hp
    · intro f hf
      rcases h4 f hf with h5 | ⟨r, hr, h5⟩
      · exact h.folders' f h5
      · exact .inr ⟨R, hRm, r, hr, h5⟩
  obtain ⟨todo, stage, failed⟩ := g
  rcases failed with _ | e
  · rcases todo with _ | ⟨r, rest⟩
    · exact h
    have hrR : r ∈ R := by rw [hg.rows]; simp
    rcases stage with _ | x | x | x
    · simp only
      rcases hrow : rowData env network ext r with e | x
      · refine put _ _ ⟨fin, hg.rows, hg.done, ?_, ?_, ?_, ?_, ?_⟩ (fun _ _ => rfl) (fun _ h => h) (fun _ h => .inl h)
        · rintro x (h | h | h) <;> cases h
        · intro x hx; cases hx
        · rintro e' h'
          cases h'
          exact ⟨r, rest, e, rfl, hrow, rfl, rfl⟩
        · intro x hx; cases hx
        · intro p hp _
          exact hg.files p hp fun x r rest hx => by cases hx
      · refine put _ _ ⟨fin, hg.rows, hg.done, ?_, ?_, ?_, ?_, ?_⟩ (fun _ _ => rfl) (fun _ h => h) (fun _ h => .inl h)
        · intro y hy
          refine ⟨r, rest, rfl, ?_⟩
          simp only at hy
          split_ifs at hy
          · rcases hy with h | h | h <;> cases h
            exact hrow
          · rcases hy with h | h | h <;> cases h
            exact hrow
        · intro y hy s rest' hs
          cases hs
          simp only at hy
          split_ifs at hy with hfo
          simpa using hfo
        · intro e he; cases he
        · intro y hy
          simp only at hy
          split_ifs at hy
        · intro p hp _
          exact hg.files p hp fun x r rest hx => by cases hx
    · simp only
      have habs := hg.absent x rfl r rest rfl
      rw [if_neg (by rw [habs]; simp)]
      obtain ⟨r', rest', e1, hrow⟩ := hg.data x (.inl rfl)
      cases e1
      refine put _ _ ⟨fin, hg.rows, hg.done, ?_, ?_, ?_, ?_, ?_⟩ (fun _ _ => rfl) ?_ ?_
      · rintro y (h | h | h) <;> cases h
        exact ⟨r, rest, rfl, hrow⟩
      · intro y hy; cases hy
      · intro e he; cases he
      · intro y hy; cases hy
      · intro p hp _
        exact hg.files p hp fun x r rest hx => by cases hx
      · intro f hf
        simp only [Disk.mkdir]
        split_ifs
        · rfl
        · exact hf
      · intro f hf
        simp only [Disk.mkdir] at hf
        split_ifs at hf with hfe
        · exact .inr ⟨r, hrR, hfe⟩
        · exact .inl hf
    · simp only
      obtain ⟨r', rest', e1, hrow⟩ := hg.data x (.inr (.inl rfl))
      cases e1
      refine put _ _ ⟨fin, hg.rows, hg.done, ?_, ?_, ?_, ?_, ?_⟩ ?_ (fun _ h => h) (fun _ h => .inl h)
      · rintro y (h | h | h) <;> cases h
        exact ⟨r, rest, rfl, hrow⟩
      · intro y hy; cases hy
      · intro e he; cases he
      · intro y hy s rest' hs
        cases hs
        simp [Disk.put]
      · intro p hp hne
        have hne' := hne x r rest rfl rfl
        simp only [Disk.put, if_neg hne']
        exact hg.files p hp fun x r rest hx => by cases hx
      · intro p hp
        simp only [Disk.put, if_neg (hp r hrR)]
    · simp only
      obtain ⟨r', rest', e1, hrow⟩ := hg.data x (.inr (.inr rfl))
      cases e1
      have hdone : ∀ s ∈ fin ++ [r], ∃ x, rowData env network ext s = .ok x := by
        intro s hs
        rcases List.mem_append.1 hs with hs | hs
        · exact hg.done s hs
        · rw [List.mem_singleton] at hs; exact ⟨x, hs ▸ hrow⟩
      refine put _ _ ⟨fin ++ [r], by rw [hg.rows]; simp, hdone, ?_, ?_, ?_, ?_, ?_⟩ ?_ (fun _ h => h) (fun _ h => .inl h)
      · rintro y (h | h | h) <;> cases h
      · intro y hy; cases hy
      · intro e he; cases he
      · intro y hy; cases hy
      · intro p hp _
        rw [runDisk_done env network ext fin d0 [r] hg.done]
        simp only [runDisk, hrow, writeRow_last, Disk.put, Disk.mkdir]
        by_cases hpe : p = outFile network ext r
        · rw [if_pos hpe, if_pos hpe]
        · rw [if_neg hpe, if_neg hpe]
          exact hg.files p hp fun y s rest' hy hs => by cases hs; exact hpe
      · intro p hp
        simp only [Disk.put, if_neg (hp r hrR)]
  · exact h

theorem Inv.run {d0 : Disk β} {tables : List (List Row)} (hown : OwnFiles network ext tables) (hthere : FoldersThere d0 tables) :
    ∀ (schedule : List ℕ) {w : Shared β}, Inv env network ext d0 tables w →
      Inv env network ext d0 tables (w.run env network ext schedule)
  | [], _, h => h
  | i :: s, _, h => Inv.run hown hthere s (h.step env network ext hown hthere i)

theorem inv_new (d0 : Disk β) (tables : List (List Row)) : Inv env network ext d0 tables (Shared.new d0 tables) := by
  refine ⟨by simp [Shared.new], ?_, fun _ _ => rfl, fun _ h => h, fun _ h => .inl h⟩
  intro i R g hR hg
  simp only [Shared.new, List.getElem?_map, hR, Option.map_some, Option.some.injEq] at hg
  subst hg
  refine ⟨[], rfl, by simp, ?_, ?_, ?_, ?_, fun _ _ _ => rfl⟩
  · rintro y (h | h | h) <;> cases h
  · intro y hy; cases hy
  · intro e he; cases he
  · intro y hy; cases hy

/-- The steps a process has to make at most. -/
def left (g : Process β) : ℕ :=
  match g.failed, g.todo with
  | some _, _ => 0
  | none, [] => 0
  | none, _ :: rest => 4 * rest.length + (match g.stage with
    | .start => 4
    | .absent _ => 3
    | .ready _ => 2
    | .writing _ => 1)

theorem ended_of_left {g : Process β} (h : left g = 0) : Ended g := by
  obtain ⟨todo, stage, failed⟩ := g
  rcases failed with _ | e
  · rcases todo with _ | ⟨r, rest⟩
    · exact .inl rfl
    · rcases stage with _ | _ | _ | _ <;> simp [left] at h
  · exact .inr (by simp)

theorem left_start (rest : List Row) : left (⟨rest, .start, none⟩ : Process β) = 4 * rest.length := by
  cases rest <;> simp [left]
  omega

theorem left_step (w : Shared β) (i : ℕ) (g : Process β) (hg : w.procs[i]? = some g) :
    ∃ g', (w.step env network ext i).procs[i]? = some g' ∧ left g' ≤ left g - 1 := by
  obtain ⟨hil, -⟩ := List.getElem?_eq_some_iff.1 hg
  unfold Shared.step
  rw [hg]
  obtain ⟨todo, stage, failed⟩ := g
  rcases failed with _ | e
  · rcases todo with _ | ⟨r, rest⟩
    · exact ⟨_, hg, by simp [left]⟩
    rcases stage with _ | x | x | x
    · simp only
      rcases hrow : rowData env network ext r with e | x
      · exact ⟨_, List.getElem?_set_self hil, by simp [left]⟩
      · refine ⟨_, List.getElem?_set_self hil, ?_⟩
        split_ifs <;> simp [left]
    · simp only
      split_ifs
      · exact ⟨_, List.getElem?_set_self hil, by simp [left]⟩
      · exact ⟨_, List.getElem?_set_self hil, by simp [left]⟩
    · exact ⟨_, List.getElem?_set_self hil, by simp [left]⟩
    · exact ⟨_, List.getElem?_set_self hil, by rw [left_start]; simp [left]⟩
  · exact ⟨_, hg, by simp [left]⟩

theorem step_other (w : Shared β) {i j : ℕ} (h : i ≠ j) : (w.step env network ext i).procs[j]? = w.procs[j]? := by
  unfold Shared.step
  split
  · rfl
  · split
    · rfl
    · rfl
    · split
      · split
        · exact List.getElem?_set_ne h
        · exact List.getElem?_set_ne h
      · split
        · exact List.getElem?_set_ne h
        · exact List.getElem?_set_ne h
      · exact List.getElem?_set_ne h
      · exact List.getElem?_set_ne h

theorem left_run (i : ℕ) : ∀ (schedule : List ℕ) (w : Shared β) (g : Process β), w.procs[i]? = some g →
    ∃ g', (w.run env network ext schedule).procs[i]? = some g' ∧ left g' ≤ left g - schedule.count i
  | [], _, g, hg => ⟨g, hg, by simp⟩
  | j :: s, w, g, hg => by
    by_cases hij : j = i
    · subst hij
      obtain ⟨g1, h1, h2⟩ := left_step env network ext w j g hg
      obtain ⟨g2, h3, h4⟩ := left_run j s _ g1 h1
      exact ⟨g2, h3, by rw [List.count_cons_self]; omega⟩
    · obtain ⟨g2, h3, h4⟩ := left_run i s (w.step env network ext j) g (by rw [step_other env network ext w hij]; exact hg)
      exact ⟨g2, h3, by rw [List.count_cons_of_ne hij]; exact h4⟩

end AtOnce

variable {α β : Type} (env : Env α β) (network ext : String)

open AtOnce in
/-- **C180** (partial: a folder named by two tables must be there before).  Tables which name different output files are
extracted at the same time, in any interleaving of the processes.  At any moment, for every process which has ended: it has
ended as an extraction of its table alone does, and the files its table names are as that extraction leaves them, whatever
the other processes are doing.  Files named by no table are not touched, folders are not removed, and only folders named by
the tables are made. -/
theorem C180_as_alone_partial (d : Disk β) (tables : List (List Row)) (hown : OwnFiles network ext tables)
    (hthere : FoldersThere d tables) (schedule : List ℕ) (w : Shared β)
    (hw : w = (Shared.new d tables).run env network ext schedule) :
    w.procs.length = tables.length ∧
    (∀ (i : ℕ) (R : List Row) (g : Process β), tables[i]? = some R → w.procs[i]? = some g → Ended g →
      outcome g = asFailure (runDisk env network ext R d).2 ∧
      ∀ r ∈ R, w.disk.files (outFile network ext r) = (runDisk env network ext R d).1.files (outFile network ext r)) ∧
    (∀ p, (∀ R ∈ tables, ∀ r ∈ R, p ≠ outFile network ext r) → w.disk.files p = d.files p) ∧
    (∀ f, d.folders f = true → w.disk.folders f = true) ∧
    ∀ f, w.disk.folders f = true → d.folders f = true ∨ ∃ R ∈ tables, ∃ r ∈ R, f = r.folder := by
  subst hw
  have h := (inv_new env network ext d tables).run env network ext hown hthere schedule
  refine ⟨h.length, ?_, h.others, h.folders, h.folders'⟩
  intro i R g hR hg hend
  obtain ⟨fin, hgo⟩ := h.going i R g hR hg
  rcases hf : g.failed with _ | e
  · have hnil : g.todo = [] := hend.resolve_right (fun h => h hf)
    have hrow := hgo.rows
    rw [hnil, List.append_nil] at hrow
    subst hrow
    have h2 : (runDisk env network ext R d).2 = .ok () := by
      have := runDisk_done env network ext R d [] hgo.done
      rw [List.append_nil] at this
      rw [this]; rfl
    refine ⟨by rw [h2]; simp [outcome, hf, asFailure], fun r hr => ?_⟩
    exact hgo.files _ ⟨r, hr, rfl⟩ fun x s rest _ hs => by rw [hnil] at hs; cases hs
  · obtain ⟨r, rest, e', h1, h2, h3, h4⟩ := hgo.failed e hf
    have hrun : runDisk env network ext R d = ((runDisk env network ext fin d).1, .error e') := by
      rw [hgo.rows, h1, runDisk_done env network ext fin d _ hgo.done]
      simp only [runDisk, h2]
    rw [hrun]
    refine ⟨by simp [outcome, hf, asFailure, h3], fun s hs => ?_⟩
    exact hgo.files _ ⟨s, hs, rfl⟩ fun x s rest hx _ => by rw [h4] at hx; cases hx

open AtOnce in
/-- **C180**, nobody waits for another: a process which makes four steps for each row of its table has ended, whatever the
others do. -/
theorem C180_ends (d : Disk β) (tables : List (List Row)) (schedule : List ℕ) (i : ℕ) (R : List Row)
    (hR : tables[i]? = some R) (hs : 4 * R.length ≤ schedule.count i) :
    ∃ g, ((Shared.new d tables).run env network ext schedule).procs[i]? = some g ∧ Ended g := by
  obtain ⟨g, h1, h2⟩ := left_run env network ext i schedule (Shared.new d tables) ⟨R, .start, none⟩
    (by simp [Shared.new, hR])
  refine ⟨g, h1, ended_of_left ?_⟩
  rw [left_start] at h2
  omega

open AtOnce in
/-- **C180** fails if two tables name a folder which is not there.  For any two rows in one new folder, with data which can be
read and output files which differ, there is an interleaving after which the first process has extracted its row and the
second has ended with `FileExistsError`, its file missing. -/
theorem C180_folder_fails (d : Disk β) (r s : Row) (x y : β) (hx : rowData env network ext r = .ok x)
    (hy : rowData env network ext s = .ok y) (hf : r.folder = s.folder) (hd : d.folders r.folder = false)
    (hne : outFile network ext s ≠ outFile network ext r) (hnone : d.files (outFile network ext s) = none) :
    ∃ (schedule : List ℕ) (w : Shared β), w = (Shared.new d [[r], [s]]).run env network ext schedule ∧
      (∃ g g', w.procs = [g, g'] ∧ Ended g ∧ Ended g' ∧ outcome g = .ok () ∧ outcome g' = .error .fileExists) ∧
      w.disk.files (outFile network ext r) = some (.whole x) ∧ w.disk.files (outFile network ext s) = none ∧
      (runDisk env network ext [s] d).2 = .ok () := by
  have hd' : d.folders s.folder = false := hf ▸ hd
  have hrun : ((Shared.new d [[r], [s]]).run env network ext [0, 1, 0, 1, 0, 0]) =
      ⟨((d.mkdir r.folder).put (outFile network ext r) .torn).put (outFile network ext r) (.whole x),
        [⟨[], .start, none⟩, ⟨[s], .absent y, some .fileExists⟩]⟩ := by
    simp [Shared.run, Shared.new, Shared.step, hx, hy, hd', hf, Disk.mkdir, Disk.put]
  refine ⟨[0, 1, 0, 1, 0, 0], _, rfl, ?_, ?_, ?_, ?_⟩
  · rw [hrun]
    exact ⟨_, _, rfl, .inl rfl, .inr (by simp), rfl, rfl⟩
  · rw [hrun]; simp [Disk.put]
  · rw [hrun]
    simp [Disk.put, Disk.mkdir, hne, hnone]
  · simp [runDisk, hy]

open AtOnce in
/-- Two tables of one row each, stations 1 and 2 in the folder "C50": if the folder is there, both are extracted in this
interleaving; if not, the second process fails. -/
example :
    let env : Env (List ℕ) (List ℕ) := ⟨fun _ => some [1], fun reads _ _ => .ok reads.flatten⟩
    let there : Disk (List ℕ) := ⟨fun f => f == "C50", fun _ => none⟩
    OwnFiles "NW" "miniseed" [[exRow], [{ exRow with station := 2 }]] ∧
    FoldersThere there [[exRow], [{ exRow with station := 2 }]] ∧
    ((Shared.new there [[exRow], [{ exRow with station := 2 }]]).run env "NW" "miniseed" [0, 1, 0, 1, 0, 1]).disk.files
      (outFile "NW" "miniseed" exRow) = some (.whole [1, 1]) ∧
    (((Shared.new there [[exRow], [{ exRow with station := 2 }]]).run env "NW" "miniseed" [0, 1, 0, 1, 0, 1]).procs.map
      fun g => (g.todo.length, g.failed)) = [(0, none), (0, none)] ∧
    (((Shared.new ⟨fun _ => false, fun _ => none⟩ [[exRow], [{ exRow with station := 2 }]]).run env "NW" "miniseed"
      [0, 1, 0, 1, 0, 0]).procs.map fun g => (g.todo.length, g.failed)) = [(0, none), (1, some .fileExists)] := by
  have ownRow : outFile "NW" "miniseed" exRow ≠ outFile "NW" "miniseed" { exRow with station := 2 } := by decide +kernel
  refine ⟨?_, ?_, by decide +kernel, by decide +kernel, by decide +kernel⟩
  · intro i j R S hR hS hij r hr s hs
    rcases i with _ | _ | i <;> rcases j with _ | _ | j <;> simp at hR hS hij
    · subst hR hS
      simp only [List.mem_singleton] at hr hs
      subst hr hs
      exact ownRow
    · subst hR hS
      simp only [List.mem_singleton] at hr hs
      subst hr hs
      exact ownRow.symm
  · intro i j R S hR hS hij r hr s hs _
    rcases i with _ | _ | i <;> simp at hR
    · subst hR
      simp only [List.mem_singleton] at hr
      subst hr
      rfl
    · subst hR
      simp only [List.mem_singleton] at hr
      subst hr
      rfl

end Verif.Props
