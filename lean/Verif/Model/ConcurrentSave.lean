import Verif.Model.Suite

/-!
# Several programs saving suites to one file

Each program calls `PeaksSuite.to_json(fname)` once, with the same name; their steps are interleaved in any way.
-/

namespace Verif
namespace ConcurrentSave

/-- peakssuite.py:746-749: a program within the loop of `to_json`: the members still to be saved, whether the next is appended, the document it is
about to write, and the exception it ended with. -/
structure Prog where
  todo : List Peaks
  append : Bool
  holding : Option Doc
  failed : Option PyErr

/-- peaks.py:538-551: the file, and the programs which save to it. -/
structure World where
  file : Option Doc
  progs : List Prog

/-- peaks.py:532-551: the document a program is about to write for the next member `p`, after reading the file if it
appends. -/
def prepare (file : Option Doc) (append : Bool) (p : Peaks) : Except PyErr Doc :=
  if append then
    match file with
    | none => .error .fileNotFoundError
    | some doc =>
      if p.identifier ∈ doc.map Prod.fst then .error .keyError
      else .ok (doc ++ [(p.identifier, p.toDataset)])
  else .ok [(p.identifier, p.toDataset)]

/-- peakssuite.py:746-749 with peaks.py:538-551: a program reads the file and prepares the document, or writes the file and
goes on to the next member.  Simplification: opening and filling the file is one step (the states in between are in
`Model/CrashSave.lean`). -/
def step (w : World) (i : ℕ) : World :=
  match w.progs[i]? with
  | none => w
  | some g =>
    match g.failed, g.holding, g.todo with
    | some _, _, _ => w
    | none, _, [] => w
    | none, none, p :: _ =>
      match prepare w.file g.append p with
      | .error e => { w with progs := w.progs.set i { g with failed := some e } }
      | .ok d => { w with progs := w.progs.set i { g with holding := some d } }
    | none, some d, _ :: ps => ⟨some d, w.progs.set i ⟨ps, true, none, none⟩⟩

/-- peakssuite.py:747-749: the steps in the order of a schedule, which names the program making the next step. -/
def run (w : World) (schedule : List ℕ) : World := schedule.foldl step w

/-- peakssuite.py:746: a program before it starts. -/
def Prog.new (s : Suite) : Prog := ⟨s.peaks, false, none, none⟩

/-- peakssuite.py:746: the programs before they start. -/
def World.new (file : Option Doc) (suites : List Suite) : World := ⟨file, suites.map Prog.new⟩

end ConcurrentSave
end Verif
