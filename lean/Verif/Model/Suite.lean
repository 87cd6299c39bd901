import Verif.Model.PeaksJson

/-!
# Model of `swprocess/peakssuite.py`: members, input and output

A suite is the list of its members and the list of their identifiers.  Members are values here; that the Python suite
holds references is the subject of `Model/SuiteHeap`.
-/

namespace Verif

/-- A `PeaksSuite`: `peaks` and `ids`. -/
structure Suite where
  peaks : List Peaks
  ids : List String
  deriving DecidableEq, Repr

namespace Suite

/-- peakssuite.py:37-54 `__init__`. -/
def init (p : Peaks) : Suite := ⟨[p], [p.identifier]⟩

/-- peakssuite.py:61-81 `append`. -/
def append (s : Suite) (p : Peaks) : Outcome Suite :=
  if p.identifier ∈ s.ids then (s, .error .keyError)
  else (⟨s.peaks ++ [p], s.ids ++ [p.identifier]⟩, .ok ())

/-- Result of a constructor which builds an object by calls. -/
def built {σ : Type} (o : Outcome σ) : Except PyErr σ :=
  match o with
  | (s, .ok ()) => .ok s
  | (_, .error e) => .error e

/-- peakssuite.py:878-899 `from_peaks`; an empty list raises `IndexError`. -/
def fromPeaks : List Peaks → Except PyErr Suite
  | [] => .error .indexError
  | p :: ps => built (runCalls append (init p) ps)

/-- peakssuite.py:901-925 `from_peakssuite` of a list of suites. -/
def fromSuites : List Suite → Except PyErr Suite
  | [] => .error .indexError
  | s :: ss =>
    match fromPeaks s.peaks with
    | .error e => .error e
    | .ok obj => built (runCalls append obj (ss.flatMap Suite.peaks))

/-- A `for` loop calling a method on every member: stops at the first exception, earlier members stay changed. -/
def forEach (f : Peaks → Outcome Peaks) : List Peaks → Outcome (List Peaks)
  | [] => ([], .ok ())
  | p :: ps =>
    match f p with
    | (p', .error e) => (p' :: ps, .error e)
    | (p', .ok ()) =>
      let r := forEach f ps
      (p' :: r.1, r.2)

/-- peakssuite.py:83-103 `reject_limits_outside`. -/
def rejectLimits (s : Suite) (attr : String) (lo hi : Option Fl) : Outcome Suite :=
  let r := forEach (fun p => p.rejectLimits attr lo hi) s.peaks
  ({ s with peaks := r.1 }, r.2)

/-- peakssuite.py:105-123 `reject_box_inside`. -/
def rejectBox (s : Suite) (xtype : String) (xl : Fl × Fl) (ytype : String) (yl : Fl × Fl) : Outcome Suite :=
  let r := forEach (fun p => p.rejectBox xtype xl ytype yl) s.peaks
  ({ s with peaks := r.1 }, r.2)

/-- peakssuite.py:746-749, one turn of the loop of `to_json`: file contents and `append`. -/
def saveStep (st : Option Doc × Bool) (p : Peaks) : Outcome (Option Doc × Bool) :=
  match Peaks.toJson st.1 p st.2 with
  | (file, .ok ()) => ((file, true), .ok ())
  | (file, .error e) => ((file, st.2), .error e)

/-- peakssuite.py:731-749 `to_json`. -/
def toJson (file : Option Doc) (s : Suite) : Outcome (Option Doc) :=
  let r := runCalls saveStep (file, false) s.peaks
  (r.1.1, r.2)

/-- peakssuite.py:771-773 the members read from one dictionary of data sets, and that dictionary afterwards. -/
def readDoc : Doc → Doc × Except PyErr (List Peaks)
  | [] => ([], .ok [])
  | (id, data) :: rest =>
    match Peaks.fromDict data id with
    | (data', .error e) => ((id, data') :: rest, .error e)
    | (data', .ok p) =>
      match readDoc rest with
      | (rest', .error e) => ((id, data') :: rest', .error e)
      | (rest', .ok ps) => ((id, data') :: rest', .ok (p :: ps))

/-- The members read from several dictionaries in turn. -/
def readDocs : List Doc → Except PyErr (List Peaks)
  | [] => .ok []
  | d :: ds =>
    match (readDoc d).2 with
    | .error e => .error e
    | .ok ps =>
      match readDocs ds with
      | .error e => .error e
      | .ok qs => .ok (ps ++ qs)

/-- peakssuite.py:751-775 `from_dict` of a single dictionary: the caller's dictionary afterwards, and the suite. -/
def fromDict (doc : Doc) : Doc × Except PyErr Suite :=
  ((readDoc doc).1,
    match (readDoc doc).2 with
    | .error e => .error e
    | .ok ps => fromPeaks ps)

/-- peakssuite.py:777-805 `from_json`; all files are read before any is parsed. -/
def fromJson (files : List (Option Doc)) : Except PyErr Suite :=
  if files.all Option.isSome then
    match readDocs (files.filterMap id) with
    | .error e => .error e
    | .ok ps => fromPeaks ps
  else .error .fileNotFoundError

/-- peakssuite.py:933-945 `__eq__` with another suite. -/
def eq (s t : Suite) : Bool :=
  decide (s.peaks.length = t.peaks.length) && (s.peaks.zip t.peaks).all fun x => x.1.eq x.2

/-! ## Resolution limits -/

/-- peakssuite.py:125-174 `calc_resolution_limits` for one of the two limits. -/
def resolutionCurve (xtype attr ytype : String) (limit : ℚ) (xs ys : List ℚ) :
    Except PyErr (List ℚ × List ℚ) :=
  if xtype = "frequency" then
    if attr = "wavelength" then
      if ytype = "velocity" then .ok (xs, xs.map fun x => x * limit)
      else if ytype = "wavenumber" then .ok (xs, ys.map fun _ => 1 * 2 * Arr.pyPi / limit)
      else if ytype = "slowness" then .ok (xs, xs.map fun x => 1 / (x * limit))
      else .error .notImplementedError
    else if attr = "wavenumber" then
      if ytype = "velocity" then .ok (xs, xs.map fun x => x * Arr.pyPi * 2 / limit)
      else if ytype = "wavenumber" then .ok (xs, ys.map fun _ => 1 * limit)
      else if ytype = "slowness" then .ok (xs, xs.map fun x => limit / (2 * Arr.pyPi * x))
      else .error .notImplementedError
    else .error .notImplementedError
  else if xtype = "wavelength" then
    if attr = "wavelength" then
      if ytype = "velocity" then .ok (ys.map fun _ => 1 * limit, ys)
      else if ytype = "slowness" then .ok (ys.map fun _ => 1 * limit, ys)
      else .error .notImplementedError
    else if attr = "wavenumber" then
      if ytype = "velocity" then .ok (ys.map fun _ => 1 * 2 * Arr.pyPi / limit, ys)
      else if ytype = "slowness" then .ok (ys.map fun _ => 1 * 2 * Arr.pyPi / limit, ys)
      else .error .notImplementedError
    else .error .notImplementedError
  else .error .notImplementedError

/-- peakssuite.py:125-174 `calc_resolution_limits` for a pair of limits. -/
def resolutionLimits (xtype attr ytype : String) (limits : ℚ × ℚ) (xs ys : List ℚ) :
    Except PyErr ((List ℚ × List ℚ) × (List ℚ × List ℚ)) :=
  match resolutionCurve xtype attr ytype limits.1 xs ys with
  | .error e => .error e
  | .ok c1 =>
    match resolutionCurve xtype attr ytype limits.2 xs ys with
    | .error e => .error e
    | .ok c2 => .ok (c1, c2)

end Suite
end Verif
