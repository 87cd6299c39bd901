import Verif.Py.Basic
import Verif.Py.Fl

/-!
# Model of the settings dictionary of `swprocess/masw.py`
-/

namespace Verif

/-- A Python value as found in a settings dictionary. -/
inductive Val
  | str (s : String)
  | num (x : Fl)
  | int (n : ℤ)
  | bool (b : Bool)
  | dict (d : List (String × Val))

/-- `settings[k1][k2]...`; `none` if a key is missing. -/
def Val.get? : Val → List String → Option Val
  | v, [] => some v
  | .dict d, k :: ks =>
    match d.lookup k with
    | none => none
    | some v => v.get? ks
  | _, _ :: _ => none

/-- Keyword arguments, such as those of the mute window. -/
abbrev Kwargs := List (String × Val)

/-- masw.py:90-100: the arguments of `create_settings_dict` and their defaults. -/
structure SettingsArgs where
  workflow : String := "time-domain"
  trim : Bool := false
  trim_begin : ℚ := 0
  trim_end : ℚ := 1
  mute : Bool := false
  method : String := "interactive"
  window_kwargs : Option Kwargs := none
  pad : Bool := false
  df : ℚ := 1
  transform : String := "fdbf"
  fmin : ℚ := 5
  fmax : ℚ := 100
  vmin : ℚ := 100
  vmax : ℚ := 1000
  nvel : ℚ := 200
  vspace : String := "linear"
  weighting : String := "sqrt"
  steering : String := "cylindrical"
  snr : Bool := false
  noise_begin : ℚ := -1 / 2
  noise_end : ℚ := 0
  signal_begin : ℚ := 0
  signal_end : ℚ := 1 / 2
  pad_snr : Bool := true
  df_snr : ℚ := 1
  min_offset : ℚ := 0
  max_offset : Fl := .pinf

/-- masw.py:89-155 `create_settings_dict`.  The conversions `str`, `float` and `bool` are identities on
the argument types used here; `int` truncates. -/
def createSettingsDict (a : SettingsArgs) : Val :=
  .dict [
    ("workflow", .str a.workflow),
    ("pre-processing", .dict [
      ("trim", .dict [
        ("apply", .bool a.trim),
        ("begin", .num (.fin a.trim_begin)),
        ("end", .num (.fin a.trim_end))]),
      ("mute", .dict [
        ("apply", .bool a.mute),
        ("method", .str a.method),
        ("window_kwargs", .dict (match a.window_kwargs with | none => [] | some k => k))]),
      ("pad", .dict [
        ("apply", .bool a.pad),
        ("df", .num (.fin a.df))]),
      ("offsets", .dict [
        ("min", .num (.fin a.min_offset)),
        ("max", .num a.max_offset)])]),
    ("processing", .dict [
      ("transform", .str a.transform),
      ("fmin", .num (.fin a.fmin)),
      ("fmax", .num (.fin a.fmax)),
      ("vmin", .num (.fin a.vmin)),
      ("vmax", .num (.fin a.vmax)),
      ("nvel", .int (pyInt a.nvel)),
      ("vspace", .str a.vspace),
      ("fdbf-specific", .dict [
        ("weighting", .str a.weighting),
        ("steering", .str a.steering)])]),
    ("signal-to-noise", .dict [
      ("perform", .bool a.snr),
      ("noise", .dict [
        ("begin", .num (.fin a.noise_begin)),
        ("end", .num (.fin a.noise_end))]),
      ("signal", .dict [
        ("begin", .num (.fin a.signal_begin)),
        ("end", .num (.fin a.signal_end))]),
      ("pad", .dict [
        ("apply", .bool a.pad_snr),
        ("df", .num (.fin a.df_snr))])])]

/-! ## Reading -/

/-- A string at a place. -/
def Val.str? (v : Val) (path : List String) : Option String :=
  match v.get? path with
  | some (.str s) => some s
  | _ => none

/-- A Boolean at a place. -/
def Val.bool? (v : Val) (path : List String) : Option Bool :=
  match v.get? path with
  | some (.bool b) => some b
  | _ => none

/-- A number at a place. -/
def Val.num? (v : Val) (path : List String) : Option Fl :=
  match v.get? path with
  | some (.num x) => some x
  | _ => none

/-- A finite number at a place. -/
def Val.rat? (v : Val) (path : List String) : Option ℚ :=
  match v.get? path with
  | some (.num (.fin q)) => some q
  | _ => none

/-- An integer at a place. -/
def Val.int? (v : Val) (path : List String) : Option ℤ :=
  match v.get? path with
  | some (.int n) => some n
  | _ => none

/-- A dictionary at a place. -/
def Val.dict? (v : Val) (path : List String) : Option Kwargs :=
  match v.get? path with
  | some (.dict d) => some d
  | _ => none

/-- What the workflows read from `settings`; each field is read where its comment says. -/
structure Settings where
  /-- maswworkflows.py:79-81, 268-270 -/
  trimApply : Bool
  trimBegin : ℚ
  trimEnd : ℚ
  /-- maswworkflows.py:85-98; `none`: no such key. -/
  muteApply : Bool
  muteMethod : String
  windowKwargs : Option Kwargs
  /-- maswworkflows.py:119-121, 271-272 -/
  padApply : Bool
  padDf : ℚ
  /-- maswworkflows.py:61-62 -/
  minOffset : ℚ
  maxOffset : Fl
  /-- maswworkflows.py:147-149 and the transforms -/
  transform : String
  fmin : ℚ
  fmax : ℚ
  vmin : ℚ
  vmax : ℚ
  nvel : ℤ
  vspace : String
  fdbf : Option Kwargs
  /-- maswworkflows.py:71-75, 102-106, 109-115 -/
  snrPerform : Bool
  noiseBegin : ℚ
  noiseEnd : ℚ
  signalBegin : ℚ
  signalEnd : ℚ
  snrPad : Bool
  snrDf : ℚ

/-- The keys used in maswworkflows.py (lines as above).  Simplification: the dictionary is read as a whole,
a missing key (`none`) is reported at once; the code would raise `KeyError` on reaching it.  The mute
window is looked up with `mute.get("window kwargs")` (line 97): a missing key is no error. -/
def Settings.ofDict (v : Val) : Option Settings := do
  let trimApply ← v.bool? ["pre-processing", "trim", "apply"]
  let trimBegin ← v.rat? ["pre-processing", "trim", "begin"]
  let trimEnd ← v.rat? ["pre-processing", "trim", "end"]
  let muteApply ← v.bool? ["pre-processing", "mute", "apply"]
  let muteMethod ← v.str? ["pre-processing", "mute", "method"]
  let windowKwargs := v.dict? ["pre-processing", "mute", "window kwargs"]
  let padApply ← v.bool? ["pre-processing", "pad", "apply"]
  let padDf ← v.rat? ["pre-processing", "pad", "df"]
  let minOffset ← v.rat? ["pre-processing", "offsets", "min"]
  let maxOffset ← v.num? ["pre-processing", "offsets", "max"]
  let transform ← v.str? ["processing", "transform"]
  let fmin ← v.rat? ["processing", "fmin"]
  let fmax ← v.rat? ["processing", "fmax"]
  let vmin ← v.rat? ["processing", "vmin"]
  let vmax ← v.rat? ["processing", "vmax"]
  let nvel ← v.int? ["processing", "nvel"]
  let vspace ← v.str? ["processing", "vspace"]
  let fdbf := v.dict? ["processing", "fdbf-specific"]
  let snrPerform ← v.bool? ["signal-to-noise", "perform"]
  let noiseBegin ← v.rat? ["signal-to-noise", "noise", "begin"]
  let noiseEnd ← v.rat? ["signal-to-noise", "noise", "end"]
  let signalBegin ← v.rat? ["signal-to-noise", "signal", "begin"]
  let signalEnd ← v.rat? ["signal-to-noise", "signal", "end"]
  let snrPad ← v.bool? ["signal-to-noise", "pad", "apply"]
  let snrDf ← v.rat? ["signal-to-noise", "pad", "df"]
  return { trimApply, trimBegin, trimEnd, muteApply, muteMethod, windowKwargs, padApply, padDf,
           minOffset, maxOffset, transform, fmin, fmax, vmin, vmax, nvel, vspace, fdbf,
           snrPerform, noiseBegin, noiseEnd, signalBegin, signalEnd, snrPad, snrDf }

end Verif
