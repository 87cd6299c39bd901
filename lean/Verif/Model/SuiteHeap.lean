import Verif.Model.Suite

/-!
# Suites that share members

A `PeaksSuite` holds references: the same `Peaks` object may be a member of several suites and be known to the
caller by a name of its own.  `Model/Suite` takes members as values; here they are numbers of objects in a common store.
-/

namespace Verif.SuiteHeap

/-- A `PeaksSuite` object: `peaks` (references) and `ids`. -/
structure RSuite where
  refs : List ℕ
  ids : List String
  deriving DecidableEq, Repr

/-- The `Peaks` objects and the suites made so far, both numbered from zero. -/
structure World where
  objects : List Peaks
  suites : List RSuite
  deriving DecidableEq, Repr

/-- Python code that names an object that does not exist. -/
def unknownName : PyErr := .unboundLocalError

/-- peakssuite.py:61-81 `append`, also used for `__init__` (37-54) on a suite without members. -/
def append (objects : List Peaks) (s : RSuite) (r : ℕ) : Outcome RSuite :=
  match objects[r]? with
  | none => (s, .error unknownName)
  | some p =>
    if p.identifier ∈ s.ids then (s, .error .keyError)
    else (⟨s.refs ++ [r], s.ids ++ [p.identifier]⟩, .ok ())

/-- peakssuite.py:878-899 `from_peaks`; an empty list raises `IndexError`. -/
def fromPeaks (objects : List Peaks) : List ℕ → Except PyErr RSuite
  | [] => .error .indexError
  | refs => Suite.built (runCalls (append objects) ⟨[], []⟩ refs)

/-- peakssuite.py:901-925 `from_peakssuite`: the members themselves, not copies, become members of the new suite. -/
def fromSuites (objects : List Peaks) : List RSuite → Except PyErr RSuite
  | [] => .error .indexError
  | s :: ss =>
    match fromPeaks objects s.refs with
    | .error e => .error e
    | .ok obj => Suite.built (runCalls (append objects) obj (ss.flatMap RSuite.refs))

/-- A `for` loop calling a method on every member: stops at the first exception, earlier members stay changed. -/
def forRefs (f : Peaks → Outcome Peaks) : List Peaks → List ℕ → Outcome (List Peaks)
  | objects, [] => (objects, .ok ())
  | objects, r :: rs =>
    match objects[r]? with
    | none => (objects, .error unknownName)
    | some p =>
      match f p with
      | (p', .error e) => (objects.set r p', .error e)
      | (p', .ok ()) => forRefs f (objects.set r p') rs

/-- What a program may do. -/
inductive Op where
  /-- make a `Peaks` object -/
  | newPeaks (p : Peaks)
  /-- `PeaksSuite.from_peaks([...])`; with one object also `PeaksSuite(peaks)` -/
  | fromPeaks (refs : List ℕ)
  /-- `PeaksSuite.from_peakssuite([...])` -/
  | fromSuites (suites : List ℕ)
  /-- `suite.append(peaks)` -/
  | append (suite ref : ℕ)
  /-- `suite.reject_limits_outside(...)` -/
  | rejectLimits (suite : ℕ) (attr : String) (lo hi : Option Fl)
  /-- `suite.reject_box_inside(...)` -/
  | rejectBox (suite : ℕ) (xtype : String) (xl : Fl × Fl) (ytype : String) (yl : Fl × Fl)
  /-- `peaks.reject_limits_outside(...)` -/
  | memberLimits (ref : ℕ) (attr : String) (lo hi : Option Fl)
  /-- `peaks.reject_box_inside(...)` -/
  | memberBox (ref : ℕ) (xtype : String) (xl : Fl × Fl) (ytype : String) (yl : Fl × Fl)

/-- A new suite, or the exception of its constructor. -/
def made (w : World) : Except PyErr RSuite → Outcome World
  | .error e => (w, .error e)
  | .ok s => ({ w with suites := w.suites ++ [s] }, .ok ())

/-- A method that changes objects. -/
def changed (w : World) (o : Outcome (List Peaks)) : Outcome World := ({ w with objects := o.1 }, o.2)

/-- Suites named by their numbers. -/
def named (w : World) (suites : List ℕ) : Except PyErr (List RSuite) :=
  suites.mapM fun i => match w.suites[i]? with
    | none => .error unknownName
    | some s => .ok s

/-- One statement of the program.  peakssuite.py:83-123 for the rejections of a suite, peaks.py:368-431 for those of one
object. -/
def step (w : World) : Op → Outcome World
  | .newPeaks p => ({ w with objects := w.objects ++ [p] }, .ok ())
  | .fromPeaks refs => made w (fromPeaks w.objects refs)
  | .fromSuites is =>
    match named w is with
    | .error e => (w, .error e)
    | .ok ss => made w (fromSuites w.objects ss)
  | .append i r =>
    match w.suites[i]? with
    | none => (w, .error unknownName)
    | some s =>
      let o := append w.objects s r
      ({ w with suites := w.suites.set i o.1 }, o.2)
  | .rejectLimits i attr lo hi =>
    match w.suites[i]? with
    | none => (w, .error unknownName)
    | some s => changed w (forRefs (fun p => p.rejectLimits attr lo hi) w.objects s.refs)
  | .rejectBox i xt xl yt yl =>
    match w.suites[i]? with
    | none => (w, .error unknownName)
    | some s => changed w (forRefs (fun p => p.rejectBox xt xl yt yl) w.objects s.refs)
  | .memberLimits r attr lo hi => changed w (forRefs (fun p => p.rejectLimits attr lo hi) w.objects [r])
  | .memberBox r xt xl yt yl => changed w (forRefs (fun p => p.rejectBox xt xl yt yl) w.objects [r])

/-- Nothing made yet. -/
def start : World := ⟨[], []⟩

end Verif.SuiteHeap
