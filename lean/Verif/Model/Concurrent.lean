import Verif.Model.Suite

/-!
# Several programs appending to one file

Each program calls `Peaks.to_json(fname, append=True)` once; their steps are interleaved in any way.
-/

namespace Verif
namespace Concurrent

/-- Where a program is within `to_json`. -/
inductive Stage
  | start
  /-- It has read the file and is about to write this document. -/
  | holding (d : Doc)
  | done (r : Except PyErr Unit)

/-- A program which appends one `Peaks`. -/
structure Prog where
  peaks : Peaks
  stage : Stage

/-- The file and the programs. -/
structure World where
  file : Option Doc
  progs : List Prog

/-- peaks.py:538-545: a program reads the file and decides.  peaks.py:546-547: it writes the file.  Simplification: opening
and filling the file is one step (the states in between are in `Model/CrashSave.lean`). -/
def step (w : World) (i : ℕ) : World :=
  match w.progs[i]? with
  | none => w
  | some p =>
    match p.stage with
    | .start =>
      match w.file with
      | none => { w with progs := w.progs.set i ⟨p.peaks, .done (.error .fileNotFoundError)⟩ }
      | some doc =>
        if p.peaks.identifier ∈ doc.map Prod.fst then
          { w with progs := w.progs.set i ⟨p.peaks, .done (.error .keyError)⟩ }
        else { w with progs := w.progs.set i ⟨p.peaks, .holding (doc ++ [(p.peaks.identifier, p.peaks.toDataset)])⟩ }
    | .holding d => ⟨some d, w.progs.set i ⟨p.peaks, .done (.ok ())⟩⟩
    | .done _ => w

/-- The steps in the order of a schedule, which names the program making the next step. -/
def run (w : World) (schedule : List ℕ) : World := schedule.foldl step w

/-- The programs before they start. -/
def World.new (file : Option Doc) (ps : List Peaks) : World := ⟨file, ps.map fun p => ⟨p, .start⟩⟩

end Concurrent
end Verif
