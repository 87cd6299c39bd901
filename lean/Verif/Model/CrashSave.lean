import Verif.Model.Suite

/-!
# Saving, step by step

The states a file goes through while `to_json` runs, for a process which may end at any moment.
-/

namespace Verif
namespace Crash

/-- A file on disk: not there, a complete JSON document, or a document of which only a part has been written. -/
inductive Disk
  | absent
  | doc (d : Doc)
  | torn
  deriving DecidableEq

/-- The file as `json.load` finds it; `json.load` of a part of a document raises (`JSONDecodeError` is a `ValueError`). -/
def Disk.load : Disk → Except PyErr Doc
  | .absent => .error .fileNotFoundError
  | .doc d => .ok d
  | .torn => .error .valueError

/-- peaks.py:531-551 `Peaks.to_json`: the states of the file after the one it starts from.  `open(fname, "w")` empties the
file before `json.dump` fills it.  Simplification: all states in between are one (`torn`); what the operating system may
hold back after the file has been closed is not modelled. -/
def savePeaks (d : Disk) (p : Peaks) (append : Bool) : List Disk × Except PyErr Unit :=
  if append then
    match d.load with
    | .error e => ([], .error e)
    | .ok doc =>
      if p.identifier ∈ doc.map Prod.fst then ([], .error .keyError)
      else ([.torn, .doc (doc ++ [(p.identifier, p.toDataset)])], .ok ())
  else ([.torn, .doc [(p.identifier, p.toDataset)]], .ok ())

/-- peakssuite.py:746-749, the loop of `PeaksSuite.to_json`. -/
def saveMembers : Disk → Bool → List Peaks → List Disk × Except PyErr Unit
  | _, _, [] => ([], .ok ())
  | d, append, p :: ps =>
    match savePeaks d p append with
    | (ds, .error e) => (ds, .error e)
    | (ds, .ok ()) =>
      let r := saveMembers (ds.getLastD d) true ps
      (ds ++ r.1, r.2)

/-- peakssuite.py:731-749 `PeaksSuite.to_json`: all states of the file, from the one before the call. -/
def saveStates (d : Disk) (s : Suite) : List Disk := d :: (saveMembers d false s.peaks).1

/-- peakssuite.py:777-805 `PeaksSuite.from_json` of one file. -/
def loadSuite (d : Disk) : Except PyErr Suite :=
  match d.load with
  | .error e => .error e
  | .ok doc => (Suite.fromDict doc).2

end Crash
end Verif
