import Verif.Model.CrashExtract

/-!
# Several extractions into one directory at the same time

Each process calls `extract_mseed` with its own table; the network, the extension, the directory of the hourly files and the
output directory are the same.  The steps of the processes are interleaved in any way.
-/

namespace Verif
namespace Extract

/-- Where a process is within a row (utils.py:137-156): before it reads the hourly files, after `os.path.isdir` has said that
the folder is not there, before it opens the output file, before the output file is complete. -/
inductive Stage (β : Type)
  | start
  | absent (data : β)
  | ready (data : β)
  | writing (data : β)

/-- How a process ends early: an exception of a row (utils.py:88-134), or `FileExistsError` of `os.mkdir` (utils.py:140). -/
inductive Failure
  | raised (e : PyErr)
  | fileExists
  deriving DecidableEq

/-- utils.py:85: a process in the loop over its table: the rows left, of which it works at the first. -/
structure Process (β : Type) where
  todo : List Row
  stage : Stage β
  failed : Option Failure

/-- utils.py:137-156: the output directory and the processes which write to it. -/
structure Shared (β : Type) where
  disk : Disk β
  procs : List (Process β)

/-- utils.py:85-156: process `i` makes a step: it reads the data of the row and asks whether the folder is there; makes the
folder; opens the output file; completes the output file and goes on to the next row.  Simplification: reading the hourly
files, which nobody writes, and asking for the folder is one step. -/
def Shared.step {α β : Type} (env : Env α β) (network ext : String) (w : Shared β) (i : ℕ) : Shared β :=
  match w.procs[i]? with
  | none => w
  | some g =>
    match g.failed, g.todo with
    | some _, _ => w
    | none, [] => w
    | none, r :: rest =>
      match g.stage with
      | .start =>
        match rowData env network ext r with
        | .error e => { w with procs := w.procs.set i { g with failed := some (.raised e) } }
        | .ok data =>
          ⟨w.disk, w.procs.set i ⟨g.todo, if w.disk.folders r.folder = true then .ready data else .absent data, none⟩⟩
      | .absent data =>
        if w.disk.folders r.folder = true then { w with procs := w.procs.set i { g with failed := some .fileExists } }
        else ⟨w.disk.mkdir r.folder, w.procs.set i { g with stage := .ready data }⟩
      | .ready data => ⟨w.disk.put (outFile network ext r) .torn, w.procs.set i { g with stage := .writing data }⟩
      | .writing data => ⟨w.disk.put (outFile network ext r) (.whole data), w.procs.set i ⟨rest, .start, none⟩⟩

/-- utils.py:85-156: the steps in the order of a schedule, which names the process making the next step. -/
def Shared.run {α β : Type} (env : Env α β) (network ext : String) (w : Shared β) (schedule : List ℕ) : Shared β :=
  schedule.foldl (Shared.step env network ext) w

/-- utils.py:83-85: the processes before they start. -/
def Shared.new {β : Type} (d : Disk β) (tables : List (List Row)) : Shared β := ⟨d, tables.map fun R => ⟨R, .start, none⟩⟩

end Extract
end Verif
