import Verif.Model.Extract
import Verif.Spec.Extract
import Mathlib.Algebra.Order.BigOperators.Group.Finset
import Mathlib.Tactic.Ring
import Mathlib.Tactic.IntervalCases
import Mathlib.Tactic.NormNum

/-!
# C84, C85: extraction of time blocks
-/

namespace Verif.Props
open Verif Extract

/-- Hours since 0001-01-01 00:00. -/
def number (t : Hour) : ℕ := Spec.hourNumber t.year t.month t.day t.hour

theorem isLeap_iff (y : ℕ) : isLeap y = true ↔ 4 ∣ y ∧ (¬ 100 ∣ y ∨ 400 ∣ y) := by
  rw [Nat.dvd_iff_mod_eq_zero, Nat.dvd_iff_mod_eq_zero, Nat.dvd_iff_mod_eq_zero]
  unfold isLeap
  rw [Bool.and_eq_true, Bool.or_eq_true, decide_eq_true_iff, decide_eq_true_iff, decide_eq_true_iff]

theorem daysInMonth_eq {y m : ℕ} (h1 : 1 ≤ m) (h2 : m ≤ 12) : daysInMonth y m = Spec.monthLength y m := by
  have hy : (if 4 ∣ y ∧ (¬ 100 ∣ y ∨ 400 ∣ y) then 29 else 28) = if isLeap y then 29 else 28 := by
    by_cases h : isLeap y = true
    · rw [if_pos h, if_pos ((isLeap_iff y).1 h)]
    · rw [if_neg h, if_neg (fun h' => h ((isLeap_iff y).2 h'))]
  interval_cases m
  case «2» => exact hy.symm
  all_goals rfl

theorem year_total (y : ℕ) : ∑ i ∈ Finset.range 12, Spec.monthLength y (i + 1) = Spec.yearLength y := by
  simp only [Finset.sum_range_succ, Finset.range_zero, Finset.sum_empty, Spec.monthLength, Nat.zero_add,
    Nat.reduceAdd, Spec.yearLength]
  split_ifs <;> norm_num

theorem months_lt {y m d : ℕ} (h1 : 1 ≤ m) (h2 : m ≤ 12) (hd1 : 1 ≤ d) (hd : d ≤ Spec.monthLength y m) :
    ∑ i ∈ Finset.range (m - 1), Spec.monthLength y (i + 1) + (d - 1) < Spec.yearLength y := by
  have e : ∑ i ∈ Finset.range m, Spec.monthLength y (i + 1) =
      ∑ i ∈ Finset.range (m - 1), Spec.monthLength y (i + 1) + Spec.monthLength y m := by
    obtain ⟨k, rfl⟩ : ∃ k, m = k + 1 := ⟨m - 1, by omega⟩
    rw [Finset.sum_range_succ]; rfl
  have : ∑ i ∈ Finset.range m, Spec.monthLength y (i + 1) ≤ ∑ i ∈ Finset.range 12, Spec.monthLength y (i + 1) :=
    Finset.sum_le_sum_of_subset (by intro i hi; simp at hi ⊢; omega)
  rw [year_total] at this
  omega

theorem number_next {t n : Hour} (h : t.next = some n) : number n = number t + 1 := by
  obtain ⟨y, m, d, hr, p1, p2, p3, p4, p5, p6, p7⟩ := t
  have hd := daysInMonth_eq (y := y) p3 p4
  unfold Hour.next at h
  simp only at h
  obtain ⟨y, rfl⟩ : ∃ k, y = k + 1 := ⟨y - 1, by omega⟩
  obtain ⟨m, rfl⟩ : ∃ k, m = k + 1 := ⟨m - 1, by omega⟩
  obtain ⟨d, rfl⟩ : ∃ k, d = k + 1 := ⟨d - 1, by omega⟩
  split_ifs at h with h1 h2 h3 h4 <;> cases h <;> simp only [number, Spec.hourNumber, Nat.add_sub_cancel]
  · ring
  · have : hr = 23 := by omega
    subst this; ring
  · have : hr = 23 := by omega
    subst this
    rw [Finset.sum_range_succ, ← hd]
    have : d + 1 = daysInMonth (y + 1) (m + 1) := by omega
    rw [← this]; ring_nf
  · have : hr = 23 := by omega
    subst this
    have hm : m = 11 := by omega
    subst hm
    have e : d + 1 = Spec.monthLength (y + 1) (11 + 1) := by omega
    have ht := year_total (y + 1)
    rw [Finset.sum_range_succ] at ht
    rw [Finset.sum_range_succ, ← ht]
    simp only [Nat.sub_self, Finset.range_zero, Finset.sum_empty]
    rw [← e]
    ring_nf

theorem number_lt {a b : Hour} (h : a.lt b = true) : number a < number b := by
  obtain ⟨y, m, d, hr, p1, p2, p3, p4, p5, p6, p7⟩ := a
  obtain ⟨y', m', d', hr', q1, q2, q3, q4, q5, q6, q7⟩ := b
  have hd := daysInMonth_eq (y := y) p3 p4
  have hd' := daysInMonth_eq (y := y') q3 q4
  simp only [Hour.lt, Bool.or_eq_true, Bool.and_eq_true, decide_eq_true_eq] at h
  simp only [number, Spec.hourNumber]
  rcases h with h | ⟨rfl, h | ⟨rfl, h | ⟨rfl, h⟩⟩⟩
  · have l := months_lt p3 p4 p5 (hd ▸ p6)
    have e : ∑ i ∈ Finset.range y, Spec.yearLength (i + 1) =
        ∑ i ∈ Finset.range (y - 1), Spec.yearLength (i + 1) + Spec.yearLength y := by
      obtain ⟨k, rfl⟩ : ∃ k, y = k + 1 := ⟨y - 1, by omega⟩
      rw [Finset.sum_range_succ]; rfl
    have s : ∑ i ∈ Finset.range y, Spec.yearLength (i + 1) ≤
        ∑ i ∈ Finset.range (y' - 1), Spec.yearLength (i + 1) :=
      Finset.sum_le_sum_of_subset (by intro i hi; simp at hi ⊢; omega)
    omega
  · have e : ∑ i ∈ Finset.range m, Spec.monthLength y (i + 1) =
        ∑ i ∈ Finset.range (m - 1), Spec.monthLength y (i + 1) + Spec.monthLength y m := by
      obtain ⟨k, rfl⟩ : ∃ k, m = k + 1 := ⟨m - 1, by omega⟩
      rw [Finset.sum_range_succ]; rfl
    have s : ∑ i ∈ Finset.range m, Spec.monthLength y (i + 1) ≤
        ∑ i ∈ Finset.range (m' - 1), Spec.monthLength y (i + 1) :=
      Finset.sum_le_sum_of_subset (by intro i hi; simp at hi ⊢; omega)
    omega
  · omega
  · omega

theorem lt_trichotomy_hour (a b : Hour) : a.lt b = true ∨ b.lt a = true ∨ a = b := by
  obtain ⟨y, m, d, hr, p1, p2, p3, p4, p5, p6, p7⟩ := a
  obtain ⟨y', m', d', hr', q1, q2, q3, q4, q5, q6, q7⟩ := b
  simp only [Hour.lt, Bool.or_eq_true, Bool.and_eq_true, decide_eq_true_eq, Hour.mk.injEq]
  omega

theorem le_iff_number (a b : Hour) : a.le b = true ↔ number a ≤ number b := by
  have hle : a.le b = true ↔ a.lt b = true ∨ a = b := by
    obtain ⟨y, m, d, hr, p1, p2, p3, p4, p5, p6, p7⟩ := a
    obtain ⟨y', m', d', hr', q1, q2, q3, q4, q5, q6, q7⟩ := b
    simp only [Hour.le, Bool.or_eq_true, Bool.and_eq_true, decide_eq_true_eq, Hour.mk.injEq]
    tauto
  rw [hle]
  constructor
  · rintro (h | rfl)
    · exact (number_lt h).le
    · exact le_rfl
  · intro h
    rcases lt_trichotomy_hour a b with h' | h' | h'
    · exact .inl h'
    · exact absurd (number_lt h') (by omega)
    · exact .inr h'

theorem lt_iff_number (a b : Hour) : a.lt b = true ↔ number a < number b := by
  constructor
  · exact number_lt
  · intro h
    rcases lt_trichotomy_hour a b with h' | h' | h'
    · exact h'
    · exact absurd (number_lt h') (by omega)
    · subst h'; omega

/-- Different hours have different numbers. -/
theorem number_injective {a b : Hour} (h : number a = number b) : a = b := by
  rcases lt_trichotomy_hour a b with h' | h' | h'
  · exact absurd (number_lt h') (by omega)
  · exact absurd (number_lt h') (by omega)
  · exact h'

/-- The last hour of the calendar of `datetime`. -/
def LastHour (t : Hour) : Prop := t.year = 9999 ∧ t.month = 12 ∧ t.day = 31 ∧ t.hour = 23

theorem next_none {t : Hour} (h : t.next = none) : LastHour t := by
  have h0 := t.hour_lt
  have h1 := t.day_le
  have h2 := t.month_le
  have h3 := t.year_le
  unfold Hour.next at h
  split_ifs at h with a b c d
  have hm : t.month = 12 := by omega
  have : daysInMonth t.year 12 = 31 := by simp [daysInMonth]
  rw [hm] at h1 b
  exact ⟨by omega, hm, by omega, by omega⟩

theorem lastHour_max {t u : Hour} (h : LastHour t) : number u ≤ number t := by
  rw [← le_iff_number]
  have h0 := u.hour_lt
  have h1 := u.day_le
  have h2 := u.month_le
  have h3 := u.year_le
  have := daysInMonth_le u.year u.month
  obtain ⟨a, b, c, d⟩ := h
  simp only [Hour.le, Hour.lt, Bool.or_eq_true, Bool.and_eq_true, decide_eq_true_eq]
  omega

theorem readHours_ok {α : Type} (read : Hour → Except PyErr α) (stop : Hour) (hstop : ¬ LastHour stop) :
    ∀ (n : ℕ) (t : Hour), number stop + 1 - number t = n → (∀ u : Hour, number t ≤ number u →
      number u ≤ number stop → ∃ s, read u = .ok s) →
    ∃ hours reads, readHours read stop t = .ok reads ∧
      hours.map number = List.range' (number t) (number stop + 1 - number t) ∧
      List.Forall₂ (fun u s => read u = .ok s) hours reads := by
  intro n
  induction n with
  | zero =>
    intro t hn _
    refine ⟨[], [], ?_, ?_, .nil⟩
    · unfold readHours
      have : ¬ t.le stop = true := by rw [le_iff_number]; omega
      rw [if_neg this]
    · rw [hn]; rfl
  | succ n ih =>
    intro t hn hread
    obtain ⟨s, hs⟩ := hread t le_rfl (by omega)
    have hle : t.le stop = true := by rw [le_iff_number]; omega
    rcases hnext : t.next with _ | t'
    · have h1 := lastHour_max (u := stop) (next_none hnext)
      have h2 : stop = t := number_injective (by omega)
      exact absurd (h2 ▸ next_none hnext) hstop
    · have hnum := number_next hnext
      obtain ⟨hours, reads, g1, g2, g3⟩ := ih t' (by omega) (fun u hu hu' => hread u (by omega) hu')
      refine ⟨t :: hours, s :: reads, ?_, ?_, .cons hs g3⟩
      · rw [readHours, if_pos hle, hs]
        simp only
        split
        · rename_i h; rw [hnext] at h; cases h
        · rename_i t'' h
          rw [hnext] at h; cases h
          rw [g1]
      · rw [List.map_cons, g2, hn, show number stop + 1 - number t' = n by omega, hnum, List.range'_succ]

/-- **C84** (hours read).  A row from one hour to another (not the last hour of the year 9999), all of whose
hourly files are there, is made from exactly the hourly files from the start hour to the end hour inclusive,
each once, in order. -/
theorem C84_every_hour_once {α β : Type} (env : Env α β) (network ext : String) (r : Row) (a b : Hour)
    (ha : r.start.toHour = .ok a) (hb : r.stop.toHour = .ok b) (hlast : ¬ LastHour b)
    (hab : number a ≤ number b)
    (hfiles : ∀ u : Hour, number a ≤ number u → number u ≤ number b →
      (env.files (hourFile network ext r.station u)).isSome) :
    ∃ hours reads, hours.map number = List.range' (number a) (number b + 1 - number a) ∧
      List.Forall₂ (fun u s => env.files (hourFile network ext r.station u) = some s) hours reads ∧
      rowData env network ext r = env.merge reads r.start r.stop := by
  obtain ⟨hours, reads, h1, h2, h3⟩ := readHours_ok (readFile env network ext r.station) b hlast _ a rfl (by
        intro u hu hu'
        obtain ⟨s, hs⟩ := Option.isSome_iff_exists.1 (hfiles u hu hu')
        exact ⟨s, by unfold readFile; rw [hs]⟩)
  refine ⟨hours, reads, h2, h3.imp ?_, ?_⟩
  · intro u s h
    unfold readFile at h
    rcases hf : env.files (hourFile network ext r.station u) with _ | s'
    · simp only [hf] at h; cases h
    · simp only [hf] at h; cases h; rfl
  · unfold rowData
    rw [ha, hb]
    have : ¬ b.lt a = true := by rw [lt_iff_number]; omega
    simp only [this]
    rw [h1]
    rfl

/-- **C84** (the hours a row names).  The date and hour in the table are read as they stand: they are refused
with `ValueError` exactly when they are no date and hour of the calendar of the years 1 to 9999, and otherwise
the hour is the one of that year, month, day and hour. -/
theorem C84_stamp_hour (s : Stamp) :
    ((∃ h, s.toHour = .ok h) ↔ 1 ≤ s.year ∧ s.year ≤ 9999 ∧ 1 ≤ s.month ∧ s.month ≤ 12 ∧ 1 ≤ s.date ∧
      s.date ≤ Spec.monthLength s.year.toNat s.month.toNat ∧ 0 ≤ s.hour ∧ s.hour < 24) ∧
    (∀ e, s.toHour = .error e → e = .valueError) ∧
    ∀ h, s.toHour = .ok h →
      (h.year : ℤ) = s.year ∧ (h.month : ℤ) = s.month ∧ (h.day : ℤ) = s.date ∧ (h.hour : ℤ) = s.hour := by
  unfold Stamp.toHour Hour.make
  refine ⟨?_, ?_, ?_⟩
  · split_ifs with p
    · refine ⟨fun _ => ?_, fun _ => ⟨_, rfl⟩⟩
      rw [daysInMonth_eq p.2.2.1 p.2.2.2.1] at p
      omega
    · refine ⟨fun h => (by obtain ⟨h, e⟩ := h; cases e), fun q => (p ?_).elim⟩
      rw [daysInMonth_eq (by omega) (by omega)]
      omega
  · intro e h
    split_ifs at h
    cases h; rfl
  · intro h e
    split_ifs at e with p
    cases e
    refine ⟨?_, ?_, ?_, ?_⟩ <;> dsimp only <;> omega

/-- 29 February 2020, 23 h is an hour; 29 February 2021 is none. -/
example : (∃ h, (Stamp.mk 2020 2 29 23 15 0).toHour = .ok h) ∧
    ¬ ∃ h, (Stamp.mk 2021 2 29 23 15 0).toHour = .ok h := by
  rw [(C84_stamp_hour _).1, (C84_stamp_hour _).1]
  decide +kernel

/-- **C84** (block ending before it starts).  An end hour before the start hour raises `ValueError`: nothing
is read or written, and no later row is processed. -/
theorem C84_reversed_refused {α β : Type} (env : Env α β) (network ext : String) (r : Row)
    (rest : List Row) (out : Out β) (a b : Hour) (ha : r.start.toHour = .ok a) (hb : r.stop.toHour = .ok b)
    (hab : number b < number a) :
    run env network ext (r :: rest) out = (out, .error .valueError) := by
  have : b.lt a = true := by rw [lt_iff_number]; omega
  simp only [run, rowData, ha, hb, this, if_true]

/-- **C84** (block ending before it starts, within an hour).  The hours being in order is all that
`extract_mseed` itself checks; the trimming of obspy refuses an end before the start.  So with a trimming that
does, a block ending before it starts is never written, and its error is `ValueError` when its hourly files
are there. -/
theorem C84_reversed_never_written {α β : Type} (env : Env α β) (network ext : String) (r : Row)
    (rest : List Row) (out : Out β) (htrim : ∀ reads, env.merge reads r.start r.stop = .error .valueError) :
    (∃ e, run env network ext (r :: rest) out = (out, .error e)) ∧
    ∀ a b : Hour, r.start.toHour = .ok a → r.stop.toHour = .ok b → ¬ LastHour b →
      (∀ u : Hour, number a ≤ number u → number u ≤ number b →
        (env.files (hourFile network ext r.station u)).isSome) →
      run env network ext (r :: rest) out = (out, .error .valueError) := by
  refine ⟨?_, fun a b ha hb hl hf => ?_⟩
  · rcases h : rowData env network ext r with e | d
    · exact ⟨e, by simp only [run, h]⟩
    · exfalso
      unfold rowData at h
      split at h
      · cases h
      · split at h
        · cases h
        · split_ifs at h
          split at h
          · cases h
          · rw [htrim] at h; cases h
  · rcases Nat.lt_or_ge (number b) (number a) with h | h
    · exact C84_reversed_refused env network ext r rest out a b ha hb h
    · obtain ⟨_, reads, _, _, h3⟩ := C84_every_hour_once env network ext r a b ha hb hl h hf
      rw [htrim] at h3
      simp only [run, h3]

end Verif.Props
