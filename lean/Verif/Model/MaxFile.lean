import Verif.Py.Regex
import Verif.Model.Suite

/-!
# Model of reading `.max` files: `swprocess/regex.py`, `swprocess/meta.py`, `Peaks._parse_peaks`,
`Peaks.from_max`, `PeaksSuite.from_max`

Texts are lists of characters.  `num` stands for Python's `float(text)`.
-/

namespace Verif
namespace MaxFile
open Re

/-- Sequence of patterns. -/
def seqs : List Re → Re
  | [] => .eps
  | r :: rs => .seq r (seqs rs)

/-- A space. -/
def sp : Re := lit ' '

/-- regex.py:23 `DEFAULT_TIME`: `\d+\.?\d*`. -/
def defaultTime : Re := seqs [.cls digit, .many digit, .opt (fun c => c == '.'), .many digit]

/-- regex.py:24-25 `DEFAULT_FREQUENCY`, `NUMBER`: `-?\d+.?\d*[eE]?[+-]?\d*`. -/
def number : Re :=
  seqs [.opt (fun c => c == '-'), .cls digit, .many digit, .opt any, .many digit,
    .opt (fun c => c == 'e' || c == 'E'), .opt (fun c => c == '+' || c == '-'), .many digit]

/-- regex.py:47: `-?inf`. -/
def minusInf : Re := .seq (.opt (fun c => c == '-')) (lits "inf")

/-- regex.py:88-92 `validate_wavetypes`: the capitalized name. -/
def validateWavetype (w : String) : Except PyErr String :=
  if w = "rayleigh" then .ok "Rayleigh"
  else if w = "love" then .ok "Love"
  else if w = "vertical" then .ok "Vertical"
  else if w = "radial" then .ok "Radial"
  else if w = "transverse" then .ok "Transverse"
  else .error .valueError

/-- regex.py:47: the part of the pattern after the wave type. -/
def peakTail : Re :=
  seqs [sp, .grp number, sp, .grp number, sp, .grp number, sp,
    .grp (.alt number (.alt minusInf (lits "nan"))), sp, .grp number, lits " 1"]

/-- regex.py:28-48 `get_peak_from_max`, the wave type validated. -/
def peakRe (time frequency : Re) (wave : String) : Re :=
  seqs [.grp time, sp, .grp frequency, sp, lits wave, peakTail]

/-- regex.py:50-51 `get_geopsy_version`: `geopsypack-(\d+).(\d+).(\d+)`. -/
def versionRe : Re :=
  seqs [lits "geopsypack-", .grp (.seq (.cls digit) (.many digit)), .cls any,
    .grp (.seq (.cls digit) (.many digit)), .cls any, .grp (.seq (.cls digit) (.many digit))]

/-- regex.py:53-56 `get_wavetype`; `|` binds weakest, so `-?inf` alone is an alternative. -/
def wavetypeRe : Re :=
  .alt (seqs [defaultTime, sp, number, sp, .grp (.seq (.cls nonspace) (.many nonspace)), sp, number, sp, number,
      sp, number, sp, number])
    (.alt minusInf (seqs [lits "nan ", number, lits " 1"]))

/-- regex.py:58-59 `get_process_type`. -/
def processRe : Re := .seq (lits "PROCESS_TYPE=") (.grp (.seq (.cls nonspace) (.many nonspace)))

/-- regex.py:61-62 `get_nmaxima`. -/
def nmaximaRe : Re := .seq (lits "N_MAXIMA=") (.grp (.seq (.cls digit) (.many digit)))

/-- regex.py:64-86 `get_all`, the wave type validated. -/
def allRe (time : Re) (wave : String) : Re :=
  seqs [time, sp, .many any, sp, lits wave, sp, .many any, lits " 1"]

/-- meta.py:21 `SUPPORTED_GEOPSY_VERSIONS`. -/
def supportedVersions : List (List Char) := ["3.2.0".toList]

/-- meta.py:23-27 `check_geopsy_version`. -/
def checkVersion (v : List Char) : Except PyErr Unit :=
  if v ∈ supportedVersions then .ok () else .error .valueError

/-- peaks.py:642-644, peakssuite.py:838-840: the version written in the text; without one `.groups()` of `None`
raises `AttributeError`. -/
def versionOf (text : List Char) : Except PyErr (List Char) :=
  match (search versionRe text).map Hit.groups with
  | some [major, minor, micro] => .ok (major ++ '.' :: minor ++ '.' :: micro)
  | _ => .error .attributeError

/-- peaks.py:150-151, peakssuite.py:843-844: the wave type of the first match, `none` if its group took no part;
without a match `AttributeError`. -/
def waveOf (text : List Char) : Except PyErr (Option (List Char)) :=
  match search wavetypeRe text with
  | none => .error .attributeError
  | some h => .ok h.groups.head?

/-- peaks.py:152-153, peakssuite.py:845-846: single-component Rayleigh files are read as vertical. -/
def adjustWave (wavetype : String) (found : Option (List Char)) : String :=
  if wavetype = "rayleigh" ∧ found = some "Vertical".toList then "vertical" else wavetype

/-- `text.lower()`, ASCII only. -/
def lower (s : List Char) : List Char := s.map Char.toLower

/-- peaks.py:155-160: the process type. -/
def processOf (text : List Char) (found : Option (List Char)) : Except PyErr (List Char) :=
  match (search processRe text).map Hit.groups with
  | some [p] =>
    if lower p = "rtbf".toList ∧ found = some "Vertical".toList then .ok "capon".toList else .ok (lower p)
  | _ => .error .attributeError

/-- peaks.py:178-181, peakssuite.py:848-851: the number of maxima, between 1 and 100. -/
def nmaximaOf (text : List Char) : Except PyErr ℕ :=
  match (search nmaximaRe text).map Hit.groups with
  | some [n] => .ok (min 100 (max 1 (Nat.ofDigitChars 10 n 0)))
  | _ => .error .attributeError

/-- peaks.py:168-174, peakssuite.py:854-860, 863-868: values in the order of their first appearance. -/
def firstSeen : List (List Char) → List (List Char) → List (List Char)
  | seen, [] => seen
  | seen, x :: xs => if x ∈ seen then firstSeen seen xs else firstSeen (seen ++ [x]) xs

/-- One peak of the file, converted. -/
structure Entry where
  frequency : Fl
  velocity : Fl
  azimuth : Fl
  ellipticity : Fl
  noise : Fl
  power : Fl
  deriving DecidableEq, Repr

/-- `1/float(slowness)`: zero raises `ZeroDivisionError`. -/
def invert (x : Fl) : Except PyErr Fl := if x = .fin 0 then .error .zeroDivisionError else .ok (.div (.fin 1) x)

/-- peaks.py:195-202: one match in row `row` of a table with `nmax` rows; a row outside is an `IndexError`. -/
def entryOf (num : List Char → Except PyErr Fl) (nmax row : ℕ) (h : Hit) : Except PyErr Entry :=
  match h.groups with
  | [_, frq, slo, azi, ell, noi, pwr] => do
    let frequency ← num frq
    if nmax ≤ row then throw .indexError
    let s ← num slo
    let velocity ← invert s
    let azimuth ← num azi
    let ellipticity ← num ell
    let noise ← num noi
    let power ← num pwr
    return ⟨frequency, velocity, azimuth, ellipticity, noise, power⟩
  | _ => .error .valueError

/-- peaks.py:194-202: the matches of one frequency from row `row` on. -/
def entriesFrom (num : List Char → Except PyErr Fl) (nmax : ℕ) : ℕ → List Hit → Except PyErr (List Entry)
  | _, [] => .ok []
  | row, h :: hs => do
    let e ← entryOf num nmax row h
    let es ← entriesFrom num nmax (row + 1) hs
    return e :: es

/-- peaks.py:190-202: the loop over the frequencies. -/
def columnsOf (num : List Char → Except PyErr Fl) (text : List Char) (time : Re) (wave : String) (nmax : ℕ) :
    List (List Char) → Except PyErr (List (List Entry))
  | [] => .ok []
  | f :: fs => do
    let frequency ← ofText f
    let col ← entriesFrom num nmax 0 (findall (peakRe time frequency wave) text)
    let cols ← columnsOf num text time wave nmax fs
    return col :: cols

/-- peaks.py:183-202: the table of one attribute, NaN where there is no peak. -/
def table (nmax : ℕ) (cols : List (List Entry)) (get : Entry → Fl) : Nd Fl :=
  ⟨[nmax, cols.length], (List.range nmax).flatMap fun r => cols.map fun col => ((col[r]?).map get).getD .nan⟩

/-- peaks.py:162-164: the first time in the file. -/
def firstTime (text : List Char) (wave : String) : Except PyErr (List Char) :=
  match (search (peakRe defaultTime number wave) text).map Hit.groups with
  | some (t :: _) => .ok t
  | _ => .error .attributeError

/-- The second group of each match. -/
def secondGroups (hs : List Hit) : List (List Char) := hs.map fun h => h.groups.getD 1 []

/-- peaks.py:147-212 `_parse_peaks`.  The text of a time or frequency is used as a pattern. -/
def parsePeaks (num : List Char → Except PyErr Fl) (text : List Char) (wavetype : String)
    (startTime : Option (List Char)) (frequencies : Option (List (List Char))) (nmaxima : Option ℕ) :
    Except PyErr Peaks := do
  let found ← waveOf text
  let wavetype := adjustWave wavetype found
  let process ← processOf text found
  let wave ← validateWavetype wavetype
  let time ← match startTime with
    | some t => .ok t
    | none => firstTime text wave
  let timeRe ← ofText time
  let freqs := match frequencies with
    | some f => f
    | none => firstSeen [] (secondGroups (findall (peakRe timeRe number wave) text))
  let nmax ← match nmaxima with
    | some n => .ok n
    | none => nmaximaOf text
  let cols ← columnsOf num text timeRe wave nmax freqs
  let frqs := table nmax cols Entry.frequency
  if (frqs.data.countP fun x => !x.isNan) ≠ (findall (allRe timeRe wave) text).length then throw .valueError
  Peaks.init frqs (table nmax cols Entry.velocity) (String.ofList (time ++ '-' :: process))
    [("azimuth", table nmax cols Entry.azimuth), ("ellipticity", table nmax cols Entry.ellipticity),
     ("noise", table nmax cols Entry.noise), ("power", table nmax cols Entry.power)]

/-- peaks.py:615-647 `Peaks.from_max` on the text of a file (`none`: no such file). -/
def peaksFromMax (num : List Char → Except PyErr Fl) (file : Option (List Char)) (wavetype : String) :
    Except PyErr Peaks := do
  match file with
  | none => .error .fileNotFoundError
  | some text =>
    let v ← versionOf text
    checkVersion v
    parsePeaks num text wavetype none none none

/-- peakssuite.py:863-874: one member for each time. -/
def members (num : List Char → Except PyErr Fl) (text : List Char) (wavetype : String)
    (frequencies : List (List Char)) (nmaxima : ℕ) : List (List Char) → Except PyErr (List Peaks)
  | [] => .ok []
  | t :: ts => do
    let p ← parsePeaks num text wavetype (some t) (some frequencies) (some nmaxima)
    let ps ← members num text wavetype frequencies nmaxima ts
    return p :: ps

/-- peakssuite.py:835-874: one file: the wave type used from there on, and the members read. -/
def readFile (num : List Char → Except PyErr Fl) (file : Option (List Char)) (wavetype : String) :
    Except PyErr (String × List Peaks) := do
  match file with
  | none => .error .fileNotFoundError
  | some text =>
    let v ← versionOf text
    checkVersion v
    let found ← waveOf text
    let wavetype := adjustWave wavetype found
    let nmax ← nmaximaOf text
    let wave ← validateWavetype wavetype
    let hits := findall (peakRe defaultTime number wave) text
    let freqs := firstSeen [] (secondGroups hits)
    let ps ← members num text wavetype freqs nmax (firstSeen [] (hits.map fun h => h.groups.getD 0 []))
    return (wavetype, ps)

/-- peakssuite.py:833-874: the loop over the files; `wavetype` is overwritten (line 846) and stays so for the
files after. -/
def readFiles (num : List Char → Except PyErr Fl) : String → List (Option (List Char)) → Except PyErr (List Peaks)
  | _, [] => .ok []
  | wavetype, f :: fs => do
    let (wavetype', ps) ← readFile num f wavetype
    let qs ← readFiles num wavetype' fs
    return ps ++ qs

/-- peakssuite.py:807-876 `PeaksSuite.from_max`. -/
def suiteFromMax (num : List Char → Except PyErr Fl) (files : List (Option (List Char))) (wavetype : String) :
    Except PyErr Suite := do
  let ps ← readFiles num wavetype files
  Suite.fromPeaks ps

end MaxFile
end Verif
