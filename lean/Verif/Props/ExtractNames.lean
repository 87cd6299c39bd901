import Verif.Props.Extract
import Verif.Lemmas.Lists
import Mathlib.Tactic.Common

/-!
# C84, C85: names of files, and the files of a whole table
-/

namespace Verif.Props
open Verif Extract

theorem toString_ofNat (n : ℕ) : (toString ((n : ℕ) : ℤ)).toList = Nat.toDigits 10 n := by
  have : toString ((n : ℕ) : ℤ) = n.repr := rfl
  rw [this, Nat.toList_repr]

theorem zfill2_nat (n : ℕ) :
    (zfill2 n).toList = if n < 10 then '0' :: Nat.toDigits 10 n else Nat.toDigits 10 n := by
  unfold zfill2
  rw [if_neg (by omega)]
  by_cases h : n < 10
  · rw [if_pos (by omega), if_pos h, String.toList_append, toString_ofNat]; rfl
  · rw [if_neg (by omega), if_neg h, toString_ofNat]

theorem zfill2_neg (n : ℕ) : (zfill2 (Int.negSucc n)).toList = '-' :: Nat.toDigits 10 (n + 1) := by
  unfold zfill2
  rw [if_pos (by omega)]
  have : toString (Int.negSucc n) = "-" ++ (n + 1).repr := rfl
  rw [this, String.toList_append, Nat.toList_repr]; rfl

theorem digits_isDigit {n : ℕ} {c : Char} (h : c ∈ Nat.toDigits 10 n) : c.isDigit = true :=
  Nat.isDigit_of_mem_toDigits (by decide) (by decide) h

theorem zfill2_chars (n : ℤ) {c : Char} (h : c ∈ (zfill2 n).toList) : c = '-' ∨ c.isDigit = true := by
  rcases n with n | n
  · rw [show Int.ofNat n = (n : ℤ) from rfl, zfill2_nat] at h
    split_ifs at h
    · rcases List.mem_cons.1 h with rfl | h
      · right; decide
      · exact .inr (digits_isDigit h)
    · exact .inr (digits_isDigit h)
  · rw [zfill2_neg] at h
    rcases List.mem_cons.1 h with rfl | h
    · exact .inl rfl
    · exact .inr (digits_isDigit h)

theorem zfill2_no_underscore (n : ℤ) : '_' ∉ (zfill2 n).toList := fun h => by
  rcases zfill2_chars n h with h | h <;> revert h <;> decide

theorem zfill2_no_dot (n : ℤ) : '.' ∉ (zfill2 n).toList := fun h => by
  rcases zfill2_chars n h with h | h <;> revert h <;> decide

theorem zfill2_value (n : ℕ) : Nat.ofDigitChars 10 (zfill2 n).toList 0 = n := by
  rw [zfill2_nat]
  split_ifs
  · rw [Nat.ofDigitChars_cons]
    exact Nat.ofDigitChars_ten_toDigits
  · exact Nat.ofDigitChars_ten_toDigits

theorem zfill2_nat_digits (n : ℕ) {c : Char} (h : c ∈ (zfill2 n).toList) : c.isDigit = true := by
  rw [zfill2_nat] at h
  split_ifs at h
  · rcases List.mem_cons.1 h with rfl | h
    · decide
    · exact digits_isDigit h
  · exact digits_isDigit h

theorem zfill2_injective {a b : ℤ} (h : (zfill2 a).toList = (zfill2 b).toList) : a = b := by
  rcases a with a | a <;> rcases b with b | b
  · rw [show Int.ofNat a = (a : ℤ) from rfl, show Int.ofNat b = (b : ℤ) from rfl] at h ⊢
    rw [← zfill2_value a, h, zfill2_value]
  · rw [zfill2_neg] at h
    exact absurd (zfill2_nat_digits a (c := '-') (by
      rw [show Int.ofNat a = (a : ℤ) from rfl] at h; rw [h]; simp)) (by decide)
  · rw [zfill2_neg] at h
    exact absurd (zfill2_nat_digits b (c := '-') (by
      rw [show Int.ofNat b = (b : ℤ) from rfl] at h; rw [← h]; simp)) (by decide)
  · rw [zfill2_neg, zfill2_neg] at h
    have := (List.cons.inj h).2
    have e := congrArg (fun l => Nat.ofDigitChars 10 l 0) this
    simp only [Nat.ofDigitChars_ten_toDigits] at e
    rw [show a = b by omega]

theorem zfill2_length {n : ℕ} (h : n < 100) : (zfill2 n).toList.length = 2 := by
  rw [zfill2_nat]
  split_ifs with h1
  · rw [Nat.toDigits_of_lt_base h1]; rfl
  · have h2 : (Nat.toDigits 10 n).length ≤ 2 := (Nat.length_toDigits_le_iff (by decide) (by decide)).2 h
    have h3 : ¬ (Nat.toDigits 10 n).length ≤ 1 := fun h' =>
      h1 ((Nat.length_toDigits_le_iff (by decide) (by decide)).1 h')
    omega

/-- **C84** (names).  Different hours, and different stations, have differently named files: no hourly file
stands for two. -/
theorem C84_names_distinct (network ext : String) (s s' : ℤ) (t t' : Hour)
    (h : hourFile network ext s t = hourFile network ext s' t') : s = s' ∧ t = t' := by
  have e := congrArg String.toList h
  simp only [hourFile, String.toList_append, List.append_assoc] at e
  have e1 := List.append_cancel_left (List.append_cancel_left e)
  have u : "_".toList = ['_'] := rfl
  rw [u] at e1
  simp only [List.singleton_append] at e1
  obtain ⟨hs, e2⟩ := split_unique (zfill2_no_underscore s) (zfill2_no_underscore s') e1
  have yr : ∀ y : ℕ, (toString y).toList = Nat.toDigits 10 y := fun y => by
    rw [show toString y = y.repr from rfl, Nat.toList_repr]
  have nu : ∀ t : Hour, '_' ∉ (toString t.year).toList ++ ((zfill2 t.month).toList ++ (zfill2 t.day).toList) := by
    intro t hm
    rw [List.mem_append, List.mem_append] at hm
    rcases hm with hm | hm | hm
    · rw [yr] at hm; exact absurd (digits_isDigit hm) (by decide)
    · exact zfill2_no_underscore _ hm
    · exact zfill2_no_underscore _ hm
  have e3 := split_unique (nu t) (nu t') (by simpa only [List.append_assoc] using e2)
  obtain ⟨e4, e5⟩ := e3
  have m2 : ∀ t : Hour, (zfill2 (t.month : ℤ)).toList.length = 2 := fun t =>
    zfill2_length (by have := t.month_le; omega)
  have d2 : ∀ t : Hour, (zfill2 (t.day : ℤ)).toList.length = 2 := fun t =>
    zfill2_length (by have := t.day_le; have := daysInMonth_le t.year t.month; omega)
  obtain ⟨ey, emd⟩ := List.append_inj' e4 (by simp [m2, d2])
  obtain ⟨em, ed⟩ := List.append_inj' emd (by simp [d2])
  have eh := List.append_cancel_right e5
  refine ⟨zfill2_injective hs, ?_⟩
  have hm := zfill2_injective em
  have hd := zfill2_injective ed
  have hh := zfill2_injective eh
  have hy : t.year = t'.year := by
    rw [yr, yr] at ey
    have := congrArg (fun l => Nat.ofDigitChars 10 l 0) ey
    simpa only [Nat.ofDigitChars_ten_toDigits] using this
  obtain ⟨y, m, d, hr, p1, p2, p3, p4, p5, p6, p7⟩ := t
  obtain ⟨y', m', d', hr', q1, q2, q3, q4, q5, q6, q7⟩ := t'
  simp only at hy hm hd hh
  simp only [Hour.mk.injEq]
  omega

/-- Two rows have the same output file exactly when they agree on the folder, the station and the array. -/
theorem outFile_eq_iff (network ext : String) (r r' : Row) :
    outFile network ext r = outFile network ext r' ↔
      r.folder = r'.folder ∧ r.station = r'.station ∧ r.array = r'.array := by
  constructor
  · intro h
    obtain ⟨h1, h2⟩ := Prod.mk.inj h
    have e := congrArg String.toList h2
    simp only [String.toList_append, List.append_assoc] at e
    have e1 := List.append_cancel_left (List.append_cancel_left e)
    have u : ".".toList = ['.'] := rfl
    rw [u] at e1
    simp only [List.singleton_append] at e1
    obtain ⟨hs, e2⟩ := split_unique (zfill2_no_dot _) (zfill2_no_dot _) e1
    have e3 := List.append_cancel_right e2
    exact ⟨h1, zfill2_injective hs, String.toList_injective e3⟩
  · rintro ⟨h1, h2, h3⟩
    simp only [outFile, h1, h2, h3]

/-- The rows of a table that go to the same output file. -/
def SameFile (r r' : Row) : Prop := r.folder = r'.folder ∧ r.station = r'.station ∧ r.array = r'.array

theorem run_ok_iff {α β : Type} (env : Env α β) (network ext : String) : ∀ (rows : List Row) (out : Out β),
    (run env network ext rows out).2 = .ok () → ∀ r ∈ rows, ∃ d, rowData env network ext r = .ok d
  | [], _, _, r, hr => by cases hr
  | r :: rest, out, h, r', hr => by
    unfold run at h
    rcases hd : rowData env network ext r with e | d
    · rw [hd] at h; cases h
    · rw [hd] at h
      rcases List.mem_cons.1 hr with rfl | hr
      · exact ⟨d, hd⟩
      · exact run_ok_iff env network ext rest _ h r' hr

theorem run_untouched {α β : Type} (env : Env α β) (network ext : String) : ∀ (rows : List Row) (out : Out β)
    (p : Path), (∀ r ∈ rows, outFile network ext r ≠ p) → (run env network ext rows out).1 p = out p
  | [], _, _, _ => rfl
  | r :: rest, out, p, h => by
    unfold run
    rcases hd : rowData env network ext r with e | d
    · rfl
    · simp only
      rw [run_untouched env network ext rest _ p (fun r' hr => h r' (List.mem_cons_of_mem _ hr)),
        if_neg (fun e => h r (by simp) e.symm)]

theorem run_append {α β : Type} (env : Env α β) (network ext : String) : ∀ (rows rest : List Row) (out : Out β),
    (∀ r ∈ rows, ∃ d, rowData env network ext r = .ok d) →
    run env network ext (rows ++ rest) out = run env network ext rest (run env network ext rows out).1
  | [], _, _, _ => rfl
  | r :: rows, rest, out, h => by
    obtain ⟨d, hd⟩ := h r (by simp)
    simp only [List.cons_append, run, hd]
    exact run_append env network ext rows rest _ (fun r' hr => h r' (List.mem_cons_of_mem _ hr))

/-- **C85** (partial).  What holds: a row whose folder, station and array no later row has keeps its file —
after the whole table is extracted, it holds the data of that row.  Missing: rows sharing all three, see
`C85_overwrite_fails`. -/
theorem C85_own_file_partial {α β : Type} (env : Env α β) (network ext : String) (before after : List Row)
    (r : Row) (out : Out β)
    (hok : (run env network ext (before ++ r :: after) out).2 = .ok ())
    (hkey : ∀ r' ∈ after, ¬ SameFile r' r) :
    ∃ d, rowData env network ext r = .ok d ∧
      (run env network ext (before ++ r :: after) out).1 (outFile network ext r) = some d := by
  have hall := run_ok_iff env network ext _ _ hok
  obtain ⟨d, hd⟩ := hall r (by simp)
  refine ⟨d, hd, ?_⟩
  rw [run_append env network ext before (r :: after) out (fun r' hr => hall r' (by simp [hr]))]
  simp only [run, hd]
  rw [run_untouched, if_pos rfl]
  intro r' hr' he
  exact hkey r' hr' ((outFile_eq_iff network ext r' r).1 he)

/-- **C85** (rows before a failure).  When a row fails, the run stops with its error; the files of the rows
before it are there and nothing of the rows from it on is. -/
theorem C85_stops_at_failure {α β : Type} (env : Env α β) (network ext : String) (before after : List Row)
    (r : Row) (out : Out β) (e : PyErr)
    (hok : ∀ r' ∈ before, ∃ d, rowData env network ext r' = .ok d)
    (hr : rowData env network ext r = .error e) :
    run env network ext (before ++ r :: after) out = ((run env network ext before out).1, .error e) := by
  rw [run_append env network ext before (r :: after) out hok]
  simp only [run, hr]

/-- An example: streams are lists of readings, merging is concatenation. -/
def exExtract : Env (List ℕ) (List ℕ) where
  files := fun n =>
    if n = "NW.STN01_20200229_230000.miniseed" then some [1, 2]
    else if n = "NW.STN01_20200301_000000.miniseed" then some [3]
    else if n = "NW.STN01_20200301_010000.miniseed" then some [4, 5] else none
  merge := fun l _ _ => .ok l.flatten

/-- From 23:15 on 29 February 2020 to 00:30 on 1 March. -/
def exRow : Row := ⟨"C50", "A", 1, ⟨2020, 2, 29, 23, 15, 0⟩, ⟨2020, 3, 1, 0, 30, 0⟩⟩
/-- The next block of the same array and station. -/
def exRow' : Row := ⟨"C50", "A", 1, ⟨2020, 3, 1, 1, 0, 0⟩, ⟨2020, 3, 1, 1, 30, 0⟩⟩

/-- **C85** (fails).  Two blocks of the same folder, station and array: the extraction ends without an error
and the data of the first block are nowhere. -/
theorem C85_overwrite_fails :
    rowData exExtract "NW" "miniseed" exRow = .ok [1, 2, 3] ∧
    (run exExtract "NW" "miniseed" [exRow, exRow'] (fun _ => none)).2 = .ok () ∧
    ∀ p, (run exExtract "NW" "miniseed" [exRow, exRow'] (fun _ => none)).1 p ≠ some [1, 2, 3] := by
  have h1 : rowData exExtract "NW" "miniseed" exRow = .ok [1, 2, 3] := by decide +kernel
  have h2 : rowData exExtract "NW" "miniseed" exRow' = .ok [4, 5] := by decide +kernel
  refine ⟨h1, by simp only [run, h1, h2], fun p => ?_⟩
  simp only [run, h1, h2]
  have : outFile "NW" "miniseed" exRow = outFile "NW" "miniseed" exRow' :=
    (outFile_eq_iff _ _ _ _).2 ⟨rfl, rfl, rfl⟩
  rw [this]
  split_ifs <;> simp

/-- 23:00 on 29 February 2020. -/
def exFrom : Hour := ⟨2020, 2, 29, 23, by decide, by decide, by decide, by decide, by decide, by decide, by decide⟩
/-- 00:00 on 1 March 2020. -/
def exTo : Hour := ⟨2020, 3, 1, 0, by decide, by decide, by decide, by decide, by decide, by decide, by decide⟩

/-- The example meets the hypotheses of `C84_every_hour_once`, across the end of a leap February. -/
example : exRow.start.toHour = .ok exFrom ∧ exRow.stop.toHour = .ok exTo ∧ ¬ LastHour exTo ∧
    number exTo = number exFrom + 1 ∧
    ∀ u : Hour, number exFrom ≤ number u → number u ≤ number exTo →
      (exExtract.files (hourFile "NW" "miniseed" exRow.station u)).isSome := by
  have hn : number exTo = number exFrom + 1 := number_next (by rfl)
  refine ⟨by rfl, by rfl, fun h => absurd h.1 (by decide), hn, fun u h1 h2 => ?_⟩
  have : u = exFrom ∨ u = exTo := by
    rcases Nat.lt_or_ge (number u) (number exTo) with h | h
    · exact .inl (number_injective (by omega))
    · exact .inr (number_injective (by omega))
  rcases this with rfl | rfl <;> decide +kernel

/-- And those of `C84_reversed_refused`, `C85_own_file_partial` and `C85_stops_at_failure`. -/
example : number exFrom < number exTo ∧
    (run exExtract "NW" "miniseed" ([] ++ exRow :: [{ exRow' with array := "B" }]) (fun _ => none)).2 = .ok () ∧
    (∀ r' ∈ [{ exRow' with array := "B" }], ¬ SameFile r' exRow) ∧
    rowData exExtract "NW" "miniseed" { exRow with station := 2 } = .error .fileNotFoundError := by
  refine ⟨?_, ?_, ?_, by decide +kernel⟩
  · have : number exTo = number exFrom + 1 := number_next (by rfl)
    omega
  · have h1 : rowData exExtract "NW" "miniseed" exRow = .ok [1, 2, 3] := by decide +kernel
    have h2 : rowData exExtract "NW" "miniseed" { exRow' with array := "B" } = .ok [4, 5] := by decide +kernel
    simp only [List.nil_append, run, h1, h2]
  · intro r' hr' h
    rw [List.mem_singleton] at hr'
    subst hr'
    exact absurd h.2.2 (by decide)

end Verif.Props
