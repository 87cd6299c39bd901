import Verif.Model.Extract

/-!
# Extraction, step by step

The states the output directory goes through while `extract_mseed` runs, for a process which may end at any moment.
-/

namespace Verif
namespace Extract

/-- A file on disk: complete, or only in part written. -/
inductive Content (β : Type)
  | whole (data : β)
  | torn
  deriving DecidableEq

/-- The output directory: its folders and the files in them. -/
structure Disk (β : Type) where
  folders : String → Bool
  files : Path → Option (Content β)

/-- utils.py:137-140: the folder of a row is there afterwards. -/
def Disk.mkdir {β : Type} (d : Disk β) (folder : String) : Disk β :=
  { d with folders := fun f => if f = folder then true else d.folders f }

/-- A file gets a new content; what it had before is gone. -/
def Disk.put {β : Type} (d : Disk β) (p : Path) (c : Content β) : Disk β :=
  { d with files := fun q => if q = p then some c else d.files q }

/-- utils.py:137-156: the states of the directory when the data of a row are written: the folder is made, if it is not
there, the file is opened, and it is filled.  Simplification: all states of a file between being opened and being complete
are one (`torn`). -/
def writeRow {β : Type} (network ext : String) (r : Row) (data : β) (d : Disk β) : List (Disk β) :=
  let d1 := d.mkdir r.folder
  [d1, d1.put (outFile network ext r) .torn, d1.put (outFile network ext r) (.whole data)]

/-- utils.py:85-156: the states of the directory during the loop over the rows, after the one it starts from. -/
def states {α β : Type} (env : Env α β) (network ext : String) : List Row → Disk β → List (Disk β)
  | [], _ => []
  | r :: rest, d =>
    match rowData env network ext r with
    | .error _ => []
    | .ok data =>
      let ds := writeRow network ext r data d
      ds ++ states env network ext rest (ds.getLastD d)

/-- utils.py:85-156: the loop over the rows, to its end. -/
def runDisk {α β : Type} (env : Env α β) (network ext : String) : List Row → Disk β → Outcome (Disk β)
  | [], d => (d, .ok ())
  | r :: rest, d =>
    match rowData env network ext r with
    | .error e => (d, .error e)
    | .ok data => runDisk env network ext rest ((writeRow network ext r data d).getLastD d)

end Extract
end Verif
