import Verif.Py.Basic

/-!
# Model of `swprocess/utils.py` `extract_mseed`

The table has been read (a failure to read it, 75-80, is not modelled).  Reading, merging, trimming and
unmasking streams are obspy's and are parameters.  Folder names are plain names (no separators) and the
output directory exists.
-/

namespace Verif
namespace Extract

/-- Leap years of `datetime`. -/
def isLeap (y : ℕ) : Bool := y % 4 = 0 && (y % 100 ≠ 0 || y % 400 = 0)

/-- Days of a month of `datetime`. -/
def daysInMonth (y m : ℕ) : ℕ :=
  if m = 2 then (if isLeap y then 29 else 28) else if m = 4 ∨ m = 6 ∨ m = 9 ∨ m = 11 then 30 else 31

/-- A `datetime` with minutes and seconds zero. -/
structure Hour where
  year : ℕ
  month : ℕ
  day : ℕ
  hour : ℕ
  year_pos : 1 ≤ year
  year_le : year ≤ 9999
  month_pos : 1 ≤ month
  month_le : month ≤ 12
  day_pos : 1 ≤ day
  day_le : day ≤ daysInMonth year month
  hour_lt : hour < 24

/-- `datetime.datetime(year=, month=, day=, hour=)` (utils.py:89-101): out of range values raise
`ValueError`. -/
def Hour.make (y m d h : ℤ) : Except PyErr Hour :=
  if p : 1 ≤ y.toNat ∧ y.toNat ≤ 9999 ∧ 1 ≤ m.toNat ∧ m.toNat ≤ 12 ∧ 1 ≤ d.toNat ∧
      d.toNat ≤ daysInMonth y.toNat m.toNat ∧ 0 ≤ h ∧ h.toNat < 24 then
    .ok ⟨y.toNat, m.toNat, d.toNat, h.toNat, p.1, p.2.1, p.2.2.1, p.2.2.2.1, p.2.2.2.2.1, p.2.2.2.2.2.1,
      p.2.2.2.2.2.2.2⟩
  else .error .valueError

theorem daysInMonth_pos (y m : ℕ) : 1 ≤ daysInMonth y m := by
  unfold daysInMonth; split_ifs <;> omega

/-- `currenttime += datetime.timedelta(hours=1)` (utils.py:125); past the year 9999 `OverflowError`
(`none`). -/
def Hour.next (t : Hour) : Option Hour :=
  if h1 : t.hour + 1 < 24 then some { t with hour := t.hour + 1, hour_lt := h1 }
  else if h2 : t.day + 1 ≤ daysInMonth t.year t.month then
    some { t with day := t.day + 1, hour := 0, day_pos := by omega, day_le := h2, hour_lt := by omega }
  else if h3 : t.month + 1 ≤ 12 then
    some { t with month := t.month + 1, day := 1, hour := 0, month_pos := by omega, month_le := h3,
                  day_pos := by omega, day_le := daysInMonth_pos _ _, hour_lt := by omega }
  else if h4 : t.year + 1 ≤ 9999 then
    some ⟨t.year + 1, 1, 1, 0, by omega, h4, by omega, by omega, by omega, daysInMonth_pos _ _, by omega⟩
  else none

/-- `datetime` comparison `a < b`. -/
def Hour.lt (a b : Hour) : Bool :=
  a.year < b.year || (a.year = b.year && (a.month < b.month || (a.month = b.month &&
    (a.day < b.day || (a.day = b.day && a.hour < b.hour)))))

/-- `datetime` comparison `a <= b`. -/
def Hour.le (a b : Hour) : Bool :=
  a.lt b || (a.year = b.year && a.month = b.month && a.day = b.day && a.hour = b.hour)

/-- How much of the time up to `b` is left; only used to show that the loop ends. -/
def Hour.rank (t : Hour) : ℕ := ((t.year * 13 + t.month) * 32 + t.day) * 24 + t.hour

theorem daysInMonth_le (y m : ℕ) : daysInMonth y m ≤ 31 := by
  unfold daysInMonth; split_ifs <;> omega

theorem Hour.rank_next {t n : Hour} (h : t.next = some n) : t.rank < n.rank := by
  have b1 := t.hour_lt
  have b2 := t.day_le
  have b3 := daysInMonth_le t.year t.month
  have b4 := t.month_le
  unfold Hour.next at h
  split_ifs at h <;> cases h <;> simp only [Hour.rank] <;> omega

theorem Hour.rank_le {a b : Hour} (h : a.le b = true) : a.rank ≤ b.rank := by
  have a1 := a.hour_lt
  have b1 := b.hour_lt
  have a2 := a.day_le
  have a3 := daysInMonth_le a.year a.month
  have b2 := b.day_le
  have b3 := daysInMonth_le b.year b.month
  have a4 := a.month_le
  have b4 := b.month_le
  simp only [Hour.le, Hour.lt, Bool.or_eq_true, Bool.and_eq_true, decide_eq_true_eq] at h
  simp only [Hour.rank]
  rcases h with (h | ⟨h, h' | ⟨h', h'' | ⟨h'', h'''⟩⟩⟩) | ⟨⟨⟨h, h'⟩, h''⟩, h'''⟩ <;> omega

/-- utils.py:113-125: the loop over the hours.  `read` is `obspy.read` of the file of an hour. -/
def readHours {α : Type} (read : Hour → Except PyErr α) (stop : Hour) (t : Hour) : Except PyErr (List α) :=
  if t.le stop then
    match read t with
    | .error e => .error e
    | .ok s =>
      match h : t.next with
      | none => .error .overflowError
      | some t' =>
        match readHours read stop t' with
        | .error e => .error e
        | .ok rest => .ok (s :: rest)
  else .ok []
termination_by stop.rank + 1 - t.rank
decreasing_by
  rename_i hle
  have := Hour.rank_next h
  have := Hour.rank_le hle
  omega

/-- `str(n).zfill(2)`. -/
def zfill2 (n : ℤ) : String :=
  if n < 0 then toString n
  else if n < 10 then "0" ++ toString n else toString n

/-- utils.py:116: the name of the file of an hour. -/
def hourFile (network ext : String) (station : ℤ) (t : Hour) : String :=
  network ++ ".STN" ++ zfill2 station ++ "_" ++ toString t.year ++ zfill2 t.month ++ zfill2 t.day ++ "_" ++
    zfill2 t.hour ++ "0000." ++ ext

/-- A start or an end of a row of the table. -/
structure Stamp where
  year : ℤ
  month : ℤ
  date : ℤ
  hour : ℤ
  minute : ℤ
  second : ℤ
  deriving DecidableEq, Repr

/-- A row of the table (utils.py:68-73). -/
structure Row where
  folder : String
  array : String
  station : ℤ
  start : Stamp
  stop : Stamp
  deriving DecidableEq, Repr

/-- utils.py:89-93: the start hour; 97-101: the end hour. -/
def Stamp.toHour (s : Stamp) : Except PyErr Hour := Hour.make s.year s.month s.date s.hour

/-- A path `output_dir / folder / name`. -/
abbrev Path := String × String

/-- utils.py:152: the output file of a row. -/
def outFile (network ext : String) (r : Row) : Path :=
  (r.folder, network ++ ".STN" ++ zfill2 r.station ++ "." ++ r.array ++ "." ++ ext)

/-- What comes from outside: the miniSEED files, and obspy's merging, trimming to the two stamps and
unmasking of streams (127-149). -/
structure Env (α β : Type) where
  files : String → Option α
  merge : List α → Stamp → Stamp → Except PyErr β

/-- utils.py:116-123: `obspy.read` of an hourly file, `FileNotFoundError` when it is not there. -/
def readFile {α β : Type} (env : Env α β) (network ext : String) (station : ℤ) (t : Hour) : Except PyErr α :=
  match env.files (hourFile network ext station t) with
  | none => .error .fileNotFoundError
  | some s => .ok s

/-- utils.py:88-149: the data of one row. -/
def rowData {α β : Type} (env : Env α β) (network ext : String) (r : Row) : Except PyErr β :=
  match r.start.toHour with
  | .error e => .error e
  | .ok a =>
    match r.stop.toHour with
    | .error e => .error e
    | .ok b =>
      if b.lt a then .error .valueError
      else
        match readHours (readFile env network ext r.station) b a with
        | .error e => .error e
        | .ok reads => env.merge reads r.start r.stop

/-- The output directory: its files. -/
abbrev Out (β : Type) := Path → Option β

/-- utils.py:85-156: the loop over the rows; the state is what is on disk. -/
def run {α β : Type} (env : Env α β) (network ext : String) : List Row → Out β → Outcome (Out β)
  | [], out => (out, .ok ())
  | r :: rest, out =>
    match rowData env network ext r with
    | .error e => (out, .error e)
    | .ok data =>
      run env network ext rest fun p => if p = outFile network ext r then some data else out p

end Extract
end Verif
