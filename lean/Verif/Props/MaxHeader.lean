import Verif.Spec.MaxHeader
import Verif.Props.MaxTable
import Verif.Props.Spac

/-!
# C120: the process type and the number of maxima of a `.max` file
-/

namespace Verif.Props
open Verif Re MaxFile Spec

/-- `KEY=(x+)` -/
def fieldRe (key : List Char) (p : Char → Bool) : Re := .seq (litChars key) (.grp (.seq (.cls p) (.many p)))

theorem field_matches {key : List Char} {p : Char → Bool} {s : List Char} :
    MatchesAt (fieldRe key p) s ↔ ∃ c q, s = key ++ c :: q ∧ p c = true := by
  constructor
  · rintro ⟨w, g, t, rfl, w1, w2, g1, g2, rfl, -, h1, g', -, w3, w4, g3, g4, rfl, -, ⟨⟨c, hc, rfl⟩, -⟩, -⟩
    obtain ⟨rfl, -⟩ := (parse_litChars _ _ _).1 h1
    exact ⟨c, w4 ++ t, by simp, hc⟩
  · rintro ⟨c, q, rfl, hc⟩
    refine ⟨key ++ [c], [[c]], q, by simp, key, [c], [], [[c]], rfl, rfl, (parse_litChars _ _ _).2 ⟨rfl, rfl⟩, [], rfl,
      [c], [], [], [], rfl, rfl, ⟨⟨c, hc, rfl⟩, rfl⟩, ⟨by simp, rfl⟩⟩

theorem field_head {key v rest : List Char} {p : Char → Bool} (hv : v ≠ []) (hp : ∀ c ∈ v, p c = true)
    (hr : ∀ c ∈ rest.head?, p c = false) :
    (run (fieldRe key p) (key ++ (v ++ rest))).head? = some ⟨key ++ v, [v], rest⟩ := by
  obtain ⟨c, v, rfl⟩ := List.exists_cons_of_ne_nil hv
  have h1 : (run (.cls p) (c :: v ++ rest)).head? = some ⟨[c], [], v ++ rest⟩ := by
    simp [run, hp c (by simp)]
  have h2 := run_seq_head h1 (run_many_head p v rest (fun d hd => hp d (by simp [hd])) hr)
  have h3 : (run (.grp (.seq (.cls p) (.many p))) (c :: v ++ rest)).head? = some ⟨c :: v, [c :: v], rest⟩ := by
    rw [run, List.head?_map, h2]
    simp
  simpa [fieldRe] using run_seq_head (run_lits_head key (c :: v ++ rest)) h3

/-- Searching passes over places without a match. -/
theorem search_skip {r : Re} (pre s : List Char) (h : ∀ p q, pre = p ++ q → q ≠ [] → ¬ MatchesAt r (q ++ s)) :
    search r (pre ++ s) = search r s := by
  induction pre with
  | nil => rfl
  | cons c pre ih =>
    have h0 : run r (c :: (pre ++ s)) = [] := (run_eq_nil_iff _ _).2 (h [] (c :: pre) rfl (by simp))
    rw [List.cons_append, search, h0]
    exact ih fun p q e hq => h (c :: p) q (by rw [e]; rfl) hq

theorem search_field {key text v : List Char} {p : Char → Bool} {ok : Char → Prop} (hok : ∀ c, p c = true ↔ ok c)
    (h : FirstField key ok text v) : (search (fieldRe key p) text).map Hit.groups = some [v] := by
  obtain ⟨pre, rest, rfl, hv, hp, hr, hfirst⟩ := h
  rw [search_skip]
  · have hm : MatchesAt (fieldRe key p) (key ++ (v ++ rest)) := by
      obtain ⟨c, v', rfl⟩ := List.exists_cons_of_ne_nil hv
      exact field_matches.2 ⟨c, v' ++ rest, by simp, (hok c).2 (hp c (by simp))⟩
    rw [search_of_matches hm, field_head hv (fun c hc => (hok c).2 (hp c hc))]
    · rfl
    · intro c hc
      rw [Bool.eq_false_iff]
      exact fun h => hr c hc ((hok c).1 h)
  · rintro a b rfl hb hm
    obtain ⟨c, q, e, hc⟩ := field_matches.1 hm
    have := hfirst a c q (by rw [List.append_assoc, e]) ((hok c).1 hc)
    have := List.length_pos_iff.2 hb
    rw [List.length_append] at *
    omega

/-- A text has a first field or none. -/
theorem field_of_search {key text v : List Char} {p : Char → Bool} {ok : Char → Prop} (hok : ∀ c, p c = true ↔ ok c)
    (h : (search (fieldRe key p) text).map Hit.groups = some [v]) : FirstField key ok text v := by
  obtain ⟨hit, hs, -⟩ := Option.map_eq_some_iff.1 h
  obtain ⟨pre, htext, hparse, hno⟩ := search_eq_some hs
  obtain ⟨c, q, e, hc⟩ := field_matches.1 ⟨hit.text, hit.groups, hit.rest, rfl, hparse⟩
  have hff : FirstField key ok text ((c :: q).takeWhile p) := by
    refine ⟨pre, (c :: q).dropWhile p, ?_, ?_, ?_, ?_, ?_⟩
    · rw [List.takeWhile_append_dropWhile, htext, e]
    · simp [hc]
    · exact fun d hd => (hok d).1 (List.all_eq_true.1 (List.all_takeWhile (p := p) (l := c :: q)) d hd)
    · intro d hd hd'
      have := List.head?_dropWhile_not p (c :: q)
      rw [Option.mem_def.1 hd] at this
      simp [(hok d).2 hd'] at this
    · intro a d b ht hd
      by_contra hlt
      rw [not_le] at hlt
      have hpre : a <+: pre := by
        refine List.prefix_of_prefix_length_le (l₃ := text) ⟨key ++ d :: b, ht.symm⟩ ⟨hit.text ++ hit.rest, htext.symm⟩ hlt.le
      obtain ⟨m, rfl⟩ := hpre
      refine hno a m rfl (by rintro rfl; simp at hlt) ?_
      have : m ++ (hit.text ++ hit.rest) = key ++ d :: b := by
        rw [htext, List.append_assoc] at ht
        exact List.append_cancel_left ht
      rw [this]
      exact field_matches.2 ⟨d, b, rfl, (hok d).2 hd⟩
  have := search_field hok hff
  rw [h] at this
  simp only [Option.some.injEq, List.cons.injEq, and_true] at this
  rw [this]
  exact hff

theorem search_no_field {key text : List Char} {p : Char → Bool} {ok : Char → Prop} (hok : ∀ c, p c = true ↔ ok c)
    (h : NoField key ok text) : search (fieldRe key p) text = none := by
  rw [search_eq_none]
  rintro a b rfl hm
  obtain ⟨c, q, e, hc⟩ := field_matches.1 hm
  exact h a c q (by rw [e]) ((hok c).1 hc)

theorem visible_iff (c : Char) : nonspace c = true ↔ Visible c := by
  simp [nonspace, Visible, not_or, and_assoc]

theorem isDigit_iff (c : Char) : digit c = true ↔ IsDigit c := by simp [digit, IsDigit]

theorem decimal_eq (v : List Char) : Nat.ofDigitChars 10 v 0 = decimal v := rfl

/-- **C120** (process type).  The process type in the name of the peaks is the one written after the first
`PROCESS_TYPE=` with a value, in lower case; `capon` for `RTBF` of single-component files.  Without one the file is
refused with `AttributeError`. -/
theorem C120_process_type (text : List Char) (found : Option (List Char)) :
    (∀ v, FirstField "PROCESS_TYPE=".toList Visible text v → processOf text found =
      .ok (if v.map Char.toLower = "rtbf".toList ∧ found = some "Vertical".toList then "capon".toList
        else v.map Char.toLower)) ∧
    (NoField "PROCESS_TYPE=".toList Visible text → processOf text found = .error .attributeError) := by
  have e : processRe = fieldRe "PROCESS_TYPE=".toList nonspace := rfl
  constructor
  · intro v h
    unfold processOf
    rw [e, search_field visible_iff h]
    change (if lower v = "rtbf".toList ∧ found = some "Vertical".toList then Except.ok "capon".toList else .ok (lower v)) =
      Except.ok (if lower v = "rtbf".toList ∧ found = some "Vertical".toList then "capon".toList else lower v)
    by_cases hv : lower v = "rtbf".toList ∧ found = some "Vertical".toList
    · rw [if_pos hv, if_pos hv]
    · rw [if_neg hv, if_neg hv]
  · intro h
    unfold processOf
    rw [e, search_no_field visible_iff h]
    rfl

/-- **C120** (number of maxima).  The number of peaks kept for each frequency is the number written after the first
`N_MAXIMA=` with digits, but at least 1 and at most 100.  Without one the file is refused with `AttributeError`. -/
theorem C120_number_of_maxima (text : List Char) :
    (∀ v, FirstField "N_MAXIMA=".toList IsDigit text v → nmaximaOf text = .ok (min 100 (max 1 (decimal v)))) ∧
    (NoField "N_MAXIMA=".toList IsDigit text → nmaximaOf text = .error .attributeError) := by
  have e : nmaximaRe = fieldRe "N_MAXIMA=".toList digit := rfl
  constructor
  · intro v h
    unfold nmaximaOf
    rw [e, search_field isDigit_iff h]
    simp only [decimal_eq]
  · intro h
    unfold nmaximaOf
    rw [e, search_no_field isDigit_iff h]
    rfl

/-- **C104**, partial, with the header read from the text: the members are named after the process type written in the
file and have as many rows as it has maxima, between 1 and 100.  Missing as in `C104_suite_member_per_window_partial`. -/
theorem C104_header_from_text_partial (num : List Char → Except PyErr Fl) (val : List Char → Fl) (W w : String)
    (ls : List MaxLine) (v p n : List Char) (found : Option (List Char))
    (hversion : versionOf (maxText ls) = .ok v) (hv : checkVersion v = .ok ())
    (hfound : waveOf (maxText ls) = .ok found) (hsingle : found ≠ some "Vertical".toList)
    (hp : FirstField "PROCESS_TYPE=".toList Visible (maxText ls) p)
    (hn : FirstField "N_MAXIMA=".toList IsDigit (maxText ls) n)
    (hW : validateWavetype w = .ok W)
    (wf : WellFormed W.toList ls) (hread : ∀ r ∈ peaksOf W.toList ls, ReadableRow num val r)
    (hfit : ∀ t f, (cell W.toList ls t f).length ≤ min 100 (max 1 (decimal n))) :
    MaxFile.readFile num (some (maxText ls)) w = .ok (w,
      (distinct ((peaksOf W.toList ls).map MaxRow.time)).map
        (windowPeaks val W.toList ls (p.map Char.toLower) (min 100 (max 1 (decimal n)))
          (distinct ((peaksOf W.toList ls).map MaxRow.freq)))) := by
  have ha : adjustWave w found = w := by
    unfold adjustWave
    rw [if_neg fun h => hsingle h.2]
  have hproc := (C120_process_type (maxText ls) found).1 p hp
  rw [if_neg fun h => hsingle h.2] at hproc
  have h := C104_suite_member_per_window_partial num val W w ls v _ found _ hversion hv hfound hproc
    ((C120_number_of_maxima (maxText ls)).1 n hn) (by rw [ha]; exact hW) wf hread hfit
  rwa [ha] at h

/-! ## Examples -/

/-- Two process types: the first with a value counts; an empty one before it does not. -/
example : FirstField ['K', '='] Visible ['K', '=', ' ', 'K', '=', 'R', 't', ' ', 'K', '=', 'X'] ['R', 't'] := by
  refine ⟨['K', '=', ' '], [' ', 'K', '=', 'X'], rfl, by simp, by simp [Visible], by simp [Visible], ?_⟩
  intro p c q h hc
  rcases p with _ | ⟨a, _ | ⟨b, _ | ⟨d, p⟩⟩⟩
  · simp only [List.nil_append, List.cons_append, List.cons.injEq] at h
    obtain ⟨-, -, rfl, -⟩ := h
    exact absurd hc (by simp [Visible])
  · simp at h
  · simp at h
  · simp

example : NoField ['K', '='] IsDigit ['K', '=', 'a', '1'] := by
  intro p c q h hc
  rcases p with _ | ⟨a, _ | ⟨b, _ | ⟨d, p⟩⟩⟩
  · simp only [List.nil_append, List.cons_append, List.cons.injEq] at h
    obtain ⟨-, -, rfl, -⟩ := h
    exact absurd hc (by unfold IsDigit; decide)
  · simp at h
  · simp at h
  · have := congrArg List.length h
    simp at this
    omega

/-- The sample file of C104 has both fields. -/
example : FirstField "PROCESS_TYPE=".toList Visible (maxText sampleLines) "RTBF".toList ∧
    FirstField "N_MAXIMA=".toList IsDigit (maxText sampleLines) ['2'] ∧
    waveOf (maxText sampleLines) ≠ .ok (some "Vertical".toList) :=
  ⟨field_of_search (p := nonspace) visible_iff (by decide +kernel), field_of_search (p := digit) isDigit_iff (by decide +kernel),
    by decide +kernel⟩

/-- `N_MAXIMA=0` is read as 1, `N_MAXIMA=250` as 100. -/
example : min 100 (max 1 (decimal ['0'])) = 1 ∧ min 100 (max 1 (decimal ['2', '5', '0'])) = 100 ∧ decimal ['4', '2'] = 42 := by
  decide

end Verif.Props
