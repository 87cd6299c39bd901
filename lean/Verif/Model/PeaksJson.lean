import Verif.Model.Peaks

/-!
# Model of the JSON input and output of `swprocess/peaks.py` and `swprocess/peakssuite.py`

A JSON document is what `json.load` returns for it: an ordered dictionary of data sets, each an ordered dictionary of
nested lists.  `json` writes floats by `repr`, which determines them, and NaN as `NaN`, which it also reads; so the
document read is the document written.  The text itself appears only in the crash model at the end.
-/

namespace Verif

/-- A nested list as `ndarray.tolist()` produces it for one or two dimensions. -/
inductive JArr (α : Type)
  | flat (l : List α)
  | rows (l : List (List α))
  deriving DecidableEq, Repr

/-- A value of a data set: lists of floats or of booleans. -/
inductive JCol
  | floats (a : JArr Fl)
  | bools (a : JArr Bool)
  deriving DecidableEq, Repr

/-- A data set: dictionary from attribute name to values. -/
abbrev Dataset := List (String × JCol)
/-- Contents of a JSON file: dictionary from identifier to data set. -/
abbrev Doc := List (String × Dataset)

/-- Split into `n` pieces of length `k`. -/
def chunks {α : Type} (k : ℕ) : ℕ → List α → List (List α)
  | 0, _ => []
  | n + 1, l => l.take k :: chunks k n (l.drop k)

/-- `ndarray.tolist()`.  A two-dimensional array without rows gives the empty list.  Other dimensions are not
modelled (all entries are listed flat). -/
def Nd.tolist {α : Type} (a : Nd α) : JArr α :=
  match a.shape with
  | [nr, nc] => if nr = 0 then .flat [] else .rows (chunks nc nr a.data)
  | _ => .flat a.data

/-- `np.array(list)`; rows of unequal length raise `ValueError`. -/
def JArr.toNd {α : Type} : JArr α → Except PyErr (Nd α)
  | .flat l => .ok ⟨[l.length], l⟩
  | .rows ls =>
    if ls.all fun r => r.length == (ls.headD []).length then .ok ⟨[ls.length, (ls.headD []).length], ls.flatten⟩
    else .error .valueError

/-- Apply a function to every entry. -/
def JArr.map {α β : Type} (f : α → β) : JArr α → JArr β
  | .flat l => .flat (l.map f)
  | .rows ls => .rows (ls.map fun r => r.map f)

/-- `np.array(value, dtype=float)`. -/
def JCol.toFloats : JCol → Except PyErr (Nd Fl)
  | .floats a => a.toNd
  | .bools a => (a.map fun b => if b then Fl.fin 1 else Fl.fin 0).toNd

/-- `np.array(value, dtype=bool)`. -/
def JCol.toBools : JCol → Except PyErr (Nd Bool)
  | .floats a => (a.map fun x => !decide (x = .fin 0)).toNd
  | .bools a => a.toNd

namespace Peaks

/-- peaks.py:531-534: the data set written for one object. -/
def toDataset (p : Peaks) : Dataset :=
  ("frequency", .floats p.frequency.tolist) :: ("velocity", .floats p.velocity.tolist) ::
    p.extra.map (fun e => (e.1, JCol.floats e.2.tolist)) ++ [("valid", .bools p.valid.tolist)]

/-- peaks.py:513-551 `to_json`: file contents before (`none`: no such file) and after. -/
def toJson (file : Option Doc) (p : Peaks) (append : Bool) : Outcome (Option Doc) :=
  if append then
    match file with
    | none => (none, .error .fileNotFoundError)
    | some doc =>
      if p.identifier ∈ doc.map Prod.fst then (file, .error .keyError)
      else (some (doc ++ [(p.identifier, p.toDataset)]), .ok ())
  else (some [(p.identifier, p.toDataset)], .ok ())

/-- `np.array(val, dtype=float)` for all keyword arguments. -/
def kwargsOf : Dataset → Except PyErr (List (String × Nd Fl))
  | [] => .ok []
  | (k, v) :: rest =>
    match v.toFloats with
    | .error e => .error e
    | .ok a =>
      match kwargsOf rest with
      | .error e => .error e
      | .ok l => .ok ((k, a) :: l)

/-- peaks.py:608 `cls(identifier=identifier, **data_dict)`: missing `frequency` or `velocity`, or a second
`identifier`, is a `TypeError`. -/
def construct (data : Dataset) (identifier : String) : Except PyErr Peaks :=
  match data.lookup "frequency", data.lookup "velocity", data.lookup "identifier" with
  | some f, some v, none =>
    match f.toFloats with
    | .error e => .error e
    | .ok fs =>
      match v.toFloats with
      | .error e => .error e
      | .ok vs =>
        match kwargsOf (data.filter fun e => !(e.1 == "frequency" || e.1 == "velocity")) with
        | .error e => .error e
        | .ok kw => Peaks.init fs vs identifier kw
  | _, _, _ => .error .typeError

/-- `del data_dict["valid"]`. -/
def dropValid (data : Dataset) : Dataset := data.filter fun e => !(e.1 == "valid")

/-- peaks.py:580-613 `from_dict`: the caller's dictionary afterwards, and the object. -/
def fromDict (data : Dataset) (identifier : String) : Dataset × Except PyErr Peaks :=
  (dropValid data,
    match construct (dropValid data) identifier with
    | .error e => .error e
    | .ok p =>
      match data.lookup "valid" with
      | none => .ok p
      | some v =>
        match v.toBools with
        | .error e => .error e
        | .ok b => .ok { p with valid := b })

/-- peaks.py:553-578 `from_json`: the first data set of the file. -/
def fromJson (file : Option Doc) : Except PyErr Peaks :=
  match file with
  | none => .error .fileNotFoundError
  | some [] => .error .indexError
  | some ((id, data) :: _) => (fromDict data id).2

end Peaks

/-! ## The file as text, for crashes

`encode` and `decode` stand for `json.dump` and `json.load`. -/

/-- What the crash model needs to know about JSON text: documents can be read back, and the empty text is not a
document (`json.load` raises `JSONDecodeError`). -/
structure Codec where
  encode : Doc → List Char
  decode : List Char → Option Doc
  round_trip : ∀ d, decode (encode d) = some d
  empty : decode [] = none

/-- peaks.py:536-551: every file content that exists at some moment while `to_json(append=True)` runs on a file with
text `old`.  Opening for writing truncates the file; then text is written from left to right. -/
def appendMoments (c : Codec) (old : List Char) (p : Peaks) : List (List Char) :=
  match c.decode old with
  | none => [old]
  | some doc =>
    if p.identifier ∈ doc.map Prod.fst then [old]
    else old :: (c.encode (doc ++ [(p.identifier, p.toDataset)])).inits

end Verif
