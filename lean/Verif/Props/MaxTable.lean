import Verif.Lemmas.MaxTable
import Verif.Py.FloatText
import Verif.Props.MaxFile
import Verif.Lemmas.Number

/-!
# C104: every peak of a `.max` file is in its own time window and frequency
-/

namespace Verif.Props
open Verif Re MaxFile Spec

theorem firstSeen_eq (seen l : List (List Char)) :
    firstSeen seen l = seen ++ (distinct l).filter (· ∉ seen) := by
  induction l generalizing seen with
  | nil => simp [firstSeen, distinct]
  | cons x l ih =>
    unfold firstSeen
    split_ifs with h
    · rw [ih, distinct, List.filter_cons_of_neg (by simpa using h), List.filter_filter]
      congr 1
      apply List.filter_congr
      intro y _
      by_cases hy : y ∈ seen
      · simp [hy]
      · have : y ≠ x := by rintro rfl; exact hy h
        simp [hy, this]
    · rw [ih, distinct, List.filter_cons_of_pos (by simpa using h), List.append_assoc, List.filter_filter]
      congr 1
      simp only [List.singleton_append]
      congr 1
      apply List.filter_congr
      intro y _
      by_cases hy : y = x <;> by_cases hs : y ∈ seen <;> simp [hy, hs]

theorem firstSeen_nil (l : List (List Char)) : firstSeen [] l = distinct l := by
  rw [firstSeen_eq]; simp

theorem mem_distinct {l : List (List Char)} {x : List Char} : x ∈ distinct l ↔ x ∈ l := by
  induction l with
  | nil => rfl
  | cons y l ih =>
    simp only [distinct, List.mem_cons, List.mem_filter, ih, decide_eq_true_eq]
    by_cases h : x = y <;> simp [h]

theorem nodup_distinct (l : List (List Char)) : (distinct l).Nodup := by
  induction l with
  | nil => exact List.nodup_nil
  | cons y l ih =>
    rw [distinct, List.nodup_cons]
    exact ⟨by simp, ih.filter _⟩

/-- The value of a row of the table. -/
def entryFor (val : List Char → Fl) (r : MaxRow) : Entry :=
  ⟨val r.freq, reciprocal (val r.slowness), val r.azimuth, val r.ellipticity, val r.noise, val r.power⟩

/-- What is asked of the numbers of a row. -/
def ReadableRow (num : List Char → Except PyErr Fl) (val : List Char → Fl) (r : MaxRow) : Prop :=
  (∀ x ∈ [r.freq, r.slowness, r.azimuth, r.ellipticity, r.noise, r.power], num x = .ok (val x)) ∧
    val r.freq ≠ .nan ∧ val r.slowness ≠ .fin 0

theorem entriesFrom_ok {num : List Char → Except PyErr Fl} {val : List Char → Fl} {nmax : ℕ} (rows : List MaxRow)
    (hs : List Hit) (row : ℕ) (hg : hs.map Hit.groups = rows.map toks) (hr : ∀ r ∈ rows, ReadableRow num val r)
    (hfit : row + rows.length ≤ nmax) :
    entriesFrom num nmax row hs = .ok (rows.map (entryFor val)) := by
  induction rows generalizing hs row with
  | nil =>
    simp only [List.map_nil, List.map_eq_nil_iff] at hg
    subst hg
    rfl
  | cons r rows ih =>
    cases hs with
    | nil => simp at hg
    | cons h hs =>
      simp only [List.map_cons, List.cons.injEq] at hg
      simp only [List.length_cons] at hfit
      have ih' := ih hs (row + 1) hg.2 (fun x hx => hr x (List.mem_cons_of_mem _ hx)) (by omega)
      obtain ⟨h1, -, h3⟩ := hr r (List.mem_cons_self ..)
      simp only [List.mem_cons, List.not_mem_nil, or_false, forall_eq_or_imp, forall_eq] at h1
      obtain ⟨n1, n2, n3, n4, n5, n6⟩ := h1
      have he : entryOf num nmax row h = .ok (entryFor val r) := by
        unfold entryOf
        rw [hg.1]
        simp only [toks, n1, n2, n3, n4, n5, n6, bind, Except.bind, invert, if_neg h3, pure, Except.pure, div_one_eq h3]
        rw [if_neg (by omega)]
        rfl
      simp only [entriesFrom, he, ih', bind, Except.bind, pure, Except.pure, List.map_cons]

theorem table_grid {W : List Char} {ls : List MaxLine} (n : ℕ) (fs : List (List Char)) (t : List Char)
    (val : List Char → Fl) (get : Entry → Fl) :
    table n (fs.map fun f => (cell W ls t f).map (entryFor val)) get =
      grid W ls n fs t fun r => get (entryFor val r) := by
  unfold table grid
  simp only [List.length_map, List.map_map, Nd.mk.injEq, true_and]
  congr 1
  funext i
  apply List.map_congr_left
  intro f _
  simp only [Function.comp_apply, List.getElem?_map]
  cases (cell W ls t f)[i]? <;> rfl

theorem countP_range_lt (n k : ℕ) (h : k ≤ n) : (List.range n).countP (fun i => decide (i < k)) = k := by
  induction n with
  | zero =>
    obtain rfl : k = 0 := by omega
    rfl
  | succ n ih =>
    rw [List.range_succ, List.countP_append]
    by_cases hk : k ≤ n
    · rw [ih hk]
      simp
      omega
    · obtain rfl : k = n + 1 := by omega
      have : (List.range n).countP (fun i => decide (i < n + 1)) = n := by
        rw [List.countP_eq_length.2, List.length_range]
        intro i hi
        have := List.mem_range.1 hi
        simp; omega
      rw [this]
      simp

theorem countP_grid (n : ℕ) (fs : List (List Char)) (c : List Char → List MaxRow) (value : MaxRow → Fl)
    (hfit : ∀ f ∈ fs, (c f).length ≤ n) (hn : ∀ f ∈ fs, ∀ r ∈ c f, (value r).isNan = false) :
    ((List.range n).flatMap fun i => fs.map fun f => valueOr value (c f)[i]?).countP (fun x => !x.isNan) =
      (fs.map fun f => (c f).length).sum := by
  induction fs with
  | nil => simp
  | cons f fs ih =>
    have ih' := ih (fun g hg => hfit g (List.mem_cons_of_mem _ hg)) (fun g hg => hn g (List.mem_cons_of_mem _ hg))
    rw [List.countP_flatMap] at ih' ⊢
    simp only [List.map_cons, List.sum_cons, ← ih']
    have hf : ∀ i, (!(valueOr value (c f)[i]?).isNan) = decide (i < (c f).length) := by
      intro i
      by_cases hi : i < (c f).length
      · rw [List.getElem?_eq_getElem hi]
        simp [valueOr, hn f (List.mem_cons_self ..) _ (List.getElem_mem hi), hi]
      · rw [List.getElem?_eq_none (by omega)]
        simp [valueOr, Fl.isNan, hi]
    rw [← countP_range_lt n (c f).length (hfit f (List.mem_cons_self ..))]
    have : ∀ l : List ℕ, (l.map (List.countP (fun x => !x.isNan) ∘ fun i => valueOr value (c f)[i]? ::
        fs.map fun f => valueOr value (c f)[i]?)).sum =
        l.countP (fun i => decide (i < (c f).length)) +
        (l.map (List.countP (fun x => !x.isNan) ∘ fun i => fs.map fun f => valueOr value (c f)[i]?)).sum := by
      intro l
      induction l with
      | nil => rfl
      | cons i l ihl =>
        simp only [List.map_cons, List.sum_cons, ihl, Function.comp_apply, List.countP_cons, hf i]
        omega
    exact this _

theorem sum_cells (rows : List MaxRow) (fs : List (List Char)) (hnd : fs.Nodup) (hall : ∀ r ∈ rows, r.freq ∈ fs) :
    (fs.map fun f => (rows.filter fun r => decide (r.freq = f)).length).sum = rows.length := by
  induction rows with
  | nil => simp
  | cons r rows ih =>
    have ih' := ih fun x hx => hall x (List.mem_cons_of_mem _ hx)
    have h1 : ∀ fs : List (List Char), fs.Nodup →
        (fs.map fun f => ((r :: rows).filter fun r => decide (r.freq = f)).length).sum =
        (if r.freq ∈ fs then 1 else 0) + (fs.map fun f => (rows.filter fun r => decide (r.freq = f)).length).sum := by
      intro fs
      induction fs with
      | nil => intro _; simp
      | cons f fs ihf =>
        intro hn
        rw [List.nodup_cons] at hn
        simp only [List.map_cons, List.sum_cons, ihf hn.2]
        by_cases hf : r.freq = f
        · rw [List.filter_cons_of_pos (by simpa using hf)]
          have : r.freq ∉ fs := by rw [hf]; exact hn.1
          rw [hf] at this
          simp [hf, this]
          omega
        · rw [List.filter_cons_of_neg (by simpa using hf)]
          simp only [List.mem_cons, hf, false_or]
          omega
    rw [h1 fs hnd, ih', if_pos (hall r (List.mem_cons_self ..)), List.length_cons, Nat.add_comm]

/-- The object for one time: six tables, with the name of the time and the process. -/
def windowPeaks (val : List Char → Fl) (W : List Char) (ls : List MaxLine) (process : List Char) (n : ℕ)
    (fs : List (List Char)) (t : List Char) : Peaks where
  identifier := String.ofList (t ++ '-' :: process)
  frequency := grid W ls n fs t fun r => val r.freq
  velocity := grid W ls n fs t fun r => reciprocal (val r.slowness)
  extra := [("azimuth", grid W ls n fs t fun r => val r.azimuth),
    ("ellipticity", grid W ls n fs t fun r => val r.ellipticity),
    ("noise", grid W ls n fs t fun r => val r.noise), ("power", grid W ls n fs t fun r => val r.power)]
  valid := (grid W ls n fs t fun r => reciprocal (val r.slowness)).map fun v => decide (v ≠ .nan)

theorem columnsOf_ok {num : List Char → Except PyErr Fl} {val : List Char → Fl} {W : String} (hW : W ∈ waveNames)
    {ls : List MaxLine} (wf : WellFormed W.toList ls) {r₀ : MaxRow} (h₀ : r₀ ∈ rowsOf ls) (hw₀ : r₀.wave = W.toList)
    {T : Re} (hT : TimePattern T) (hp : ∀ x, Parse T x [] ↔ LooksLike r₀.time x ∧ '\n' ∉ x)
    (hread : ∀ r ∈ peaksOf W.toList ls, ReadableRow num val r) {n : ℕ}
    (hfit : ∀ f, (cell W.toList ls r₀.time f).length ≤ n) (fs : List (List Char))
    (hfs : ∀ f ∈ fs, ∃ r ∈ peaksOf W.toList ls, r.freq = f) :
    columnsOf num (maxText ls) T W n fs = .ok (fs.map fun f => (cell W.toList ls r₀.time f).map (entryFor val)) := by
  induction fs with
  | nil => rfl
  | cons f fs ih =>
    have ih' := ih fun g hg => hfs g (List.mem_cons_of_mem _ hg)
    obtain ⟨r₁, h₁, rfl⟩ := hfs f (List.mem_cons_self ..)
    simp only [peaksOf, List.mem_filter, Bool.and_eq_true, decide_eq_true_eq] at h₁
    obtain ⟨h₁, hw₁, -⟩ := h₁
    obtain ⟨-, n2, -⟩ := wf.numbers r₁ h₁
    obtain ⟨F, e1, e2, e3, e4⟩ := freqPattern_of n2 (wf.plus r₁ h₁ hw₁) (wf.blank r₁ h₁ _ (by simp [MaxRow.fields])).2
    have hg : groupsOf _ _ = _ := groups_cell hW wf h₀ hw₀ hT hp h₁ hw₁ e2 e3 e4
    have he := entriesFrom_ok (num := num) (val := val) (nmax := n) _ _ 0 hg
      (fun r hr => hread r (List.mem_of_mem_filter hr)) (by have := hfit r₁.freq; omega)
    simp only [columnsOf, e1, he, ih', bind, Except.bind, pure, Except.pure, List.map_cons]

/-- Reading one time. -/
theorem parsePeaks_window {num : List Char → Except PyErr Fl} {val : List Char → Fl} {W w : String}
    {ls : List MaxLine} {found : Option (List Char)} {process : List Char}
    (hfound : waveOf (maxText ls) = .ok found) (hprocess : processOf (maxText ls) found = .ok process)
    (hW : validateWavetype (adjustWave w found) = .ok W) (wf : WellFormed W.toList ls)
    (hread : ∀ r ∈ peaksOf W.toList ls, ReadableRow num val r)
    {r₀ : MaxRow} (h₀ : r₀ ∈ peaksOf W.toList ls) {n : ℕ}
    (hfit : ∀ f, (cell W.toList ls r₀.time f).length ≤ n) (fs : List (List Char)) (hnd : fs.Nodup)
    (hfs : ∀ f ∈ fs, ∃ r ∈ peaksOf W.toList ls, r.freq = f)
    (hall : ∀ r ∈ peaksOf W.toList ls, r.time = r₀.time → r.freq ∈ fs) :
    parsePeaks num (maxText ls) w (some r₀.time) (some fs) (some n) =
      .ok (windowPeaks val W.toList ls process n fs r₀.time) := by
  have hWn := validate_names hW
  have h₀' := h₀
  simp only [peaksOf, List.mem_filter, Bool.and_eq_true, decide_eq_true_eq] at h₀'
  obtain ⟨h₁, hw₁, -⟩ := h₀'
  obtain ⟨n1, -⟩ := wf.numbers r₀ h₁
  obtain ⟨T, e1, hT, hp⟩ := timePattern_of n1
  have hcols := columnsOf_ok (val := val) hWn wf h₁ hw₁ hT hp hread hfit fs hfs
  have hcount := all_count hWn wf h₁ hw₁ hT hp
  have hsum := sum_cells ((peaksOf W.toList ls).filter fun r => decide (r.time = r₀.time)) fs hnd (by
    intro r hr
    simp only [List.mem_filter, decide_eq_true_eq] at hr
    exact hall r hr.1 hr.2)
  have hcell : ∀ f, (cell W.toList ls r₀.time f) =
      ((peaksOf W.toList ls).filter fun r => decide (r.time = r₀.time)).filter fun r => decide (r.freq = f) := by
    intro f
    rw [cell, List.filter_filter]
    apply List.filter_congr
    intro r _
    rw [Bool.and_comm]
  have hgrid := countP_grid n fs (cell W.toList ls r₀.time) (fun r => val r.freq) (fun f _ => hfit f) (by
    intro f _ r hr
    have := (hread r (List.mem_of_mem_filter hr)).2.1
    cases hv : val r.freq <;> simp_all [Fl.isNan])
  have hc : (grid W.toList ls n fs r₀.time fun r => val r.freq).data.countP (fun x => !x.isNan) =
      (findall (allRe T W) (maxText ls)).length := by
    unfold grid
    simp only
    rw [hgrid, hcount, ← hsum]
    simp only [hcell]
  simp only [parsePeaks, hfound, hprocess, hW, e1, hcols, bind, Except.bind, table_grid]
  simp only [entryFor, hc, ne_eq, not_true_eq_false, if_false]
  simp only [windowPeaks, Peaks.init, not_isNan]
  rfl

/-- A file in which the times and frequencies of the wave can be told apart: each time has its own member, in the order
of the file; row `i` of column `f` of a member is the `i`-th peak of that time and that frequency, and NaN when there
are not so many. -/
theorem C104_suite_member_per_window_partial (num : List Char → Except PyErr Fl) (val : List Char → Fl) (W w : String)
    (ls : List MaxLine) (v process : List Char) (found : Option (List Char)) (n : ℕ)
    (hversion : versionOf (maxText ls) = .ok v) (hv : checkVersion v = .ok ())
    (hfound : waveOf (maxText ls) = .ok found) (hprocess : processOf (maxText ls) found = .ok process)
    (hn : nmaximaOf (maxText ls) = .ok n) (hW : validateWavetype (adjustWave w found) = .ok W)
    (wf : WellFormed W.toList ls) (hread : ∀ r ∈ peaksOf W.toList ls, ReadableRow num val r)
    (hfit : ∀ t f, (cell W.toList ls t f).length ≤ n) :
    MaxFile.readFile num (some (maxText ls)) w = .ok (adjustWave w found,
      (distinct ((peaksOf W.toList ls).map MaxRow.time)).map
        (windowPeaks val W.toList ls process n (distinct ((peaksOf W.toList ls).map MaxRow.freq)))) := by
  have hWn := validate_names hW
  have hg : groupsOf _ _ = _ := groups_every hWn wf
  unfold groupsOf at hg
  have h1 : (findall (peakRe defaultTime number W) (maxText ls)).map (fun h => h.groups.getD 1 []) =
      (peaksOf W.toList ls).map MaxRow.freq := by
    have := congrArg (List.map fun g : List (List Char) => g.getD 1 []) hg
    simpa [Function.comp_def, toks] using this
  have h0 : (findall (peakRe defaultTime number W) (maxText ls)).map (fun h => h.groups.getD 0 []) =
      (peaksOf W.toList ls).map MaxRow.time := by
    have := congrArg (List.map fun g : List (List Char) => g.getD 0 []) hg
    simpa [Function.comp_def, toks] using this
  have hadj : adjustWave (adjustWave w found) found = adjustWave w found := by
    unfold adjustWave
    split_ifs with a b <;> simp_all
  have hmem : ∀ ts : List (List Char), (∀ t ∈ ts, ∃ r ∈ peaksOf W.toList ls, r.time = t) →
      members num (maxText ls) (adjustWave w found) (distinct ((peaksOf W.toList ls).map MaxRow.freq)) n ts =
      .ok (ts.map (windowPeaks val W.toList ls process n (distinct ((peaksOf W.toList ls).map MaxRow.freq)))) := by
    intro ts
    induction ts with
    | nil => intro _; rfl
    | cons t ts ih =>
      intro hts
      have ih' := ih fun x hx => hts x (List.mem_cons_of_mem _ hx)
      obtain ⟨r₀, hr₀, rfl⟩ := hts t (List.mem_cons_self ..)
      have hp := parsePeaks_window (val := val) (w := adjustWave w found) hfound hprocess (by rw [hadj]; exact hW) wf hread hr₀
        (n := n) (fun f => hfit r₀.time f) (distinct ((peaksOf W.toList ls).map MaxRow.freq)) (nodup_distinct _)
        (fun f hf => by
          obtain ⟨r, hr, e⟩ := List.mem_map.1 (mem_distinct.1 hf)
          exact ⟨r, hr, e⟩)
        (fun r hr _ => mem_distinct.2 (List.mem_map.2 ⟨r, hr, rfl⟩))
      simp only [members, hp, ih', bind, Except.bind, pure, Except.pure, List.map_cons]
  simp only [MaxFile.readFile, hversion, hv, hfound, hn, hW, bind, Except.bind, secondGroups, h1, h0, firstSeen_nil]
  rw [hmem _ fun t ht => by
    obtain ⟨r, hr, e⟩ := List.mem_map.1 (mem_distinct.1 ht)
    exact ⟨r, hr, e⟩]
  rfl

/-- `Peaks.from_max` reads the first time of such a file, with the frequencies of that time. -/
theorem C104_first_window_partial (num : List Char → Except PyErr Fl) (val : List Char → Fl) (W w : String)
    (ls : List MaxLine) (v process : List Char) (found : Option (List Char)) (n : ℕ)
    (hversion : versionOf (maxText ls) = .ok v) (hv : checkVersion v = .ok ())
    (hfound : waveOf (maxText ls) = .ok found) (hprocess : processOf (maxText ls) found = .ok process)
    (hn : nmaximaOf (maxText ls) = .ok n) (hW : validateWavetype (adjustWave w found) = .ok W)
    (wf : WellFormed W.toList ls) (hread : ∀ r ∈ peaksOf W.toList ls, ReadableRow num val r)
    (r₀ : MaxRow) (hfirst : (peaksOf W.toList ls).head? = some r₀)
    (hfit : ∀ f, (cell W.toList ls r₀.time f).length ≤ n) :
    peaksFromMax num (some (maxText ls)) w = .ok (windowPeaks val W.toList ls process n
      (distinct (((peaksOf W.toList ls).filter fun r => decide (r.time = r₀.time)).map MaxRow.freq)) r₀.time) := by
  have hWn := validate_names hW
  have h₀ : r₀ ∈ peaksOf W.toList ls := List.mem_of_head? hfirst
  have h₀' := h₀
  simp only [peaksOf, List.mem_filter, Bool.and_eq_true, decide_eq_true_eq] at h₀'
  obtain ⟨h₁, hw₁, -⟩ := h₀'
  have hg : groupsOf _ _ = _ := groups_every hWn wf
  have hc := consumes_peak noGroups_defaultTime noGroups_number W
  have hft : firstTime (maxText ls) W = .ok r₀.time := by
    unfold groupsOf at hg
    rw [findall_eq hc] at hg
    unfold firstTime
    cases hs : search (peakRe defaultTime number W) (maxText ls) with
    | none =>
      rw [hs] at hg
      cases hpk : peaksOf W.toList ls with
      | nil => simp [hpk] at hfirst
      | cons a b => simp [hpk] at hg
    | some h =>
      rw [hs] at hg
      cases hpk : peaksOf W.toList ls with
      | nil => simp [hpk] at hfirst
      | cons a b =>
        rw [hpk] at hg hfirst
        simp only [List.head?_cons, Option.some.injEq] at hfirst
        subst hfirst
        simp only [List.map_cons, List.cons.injEq] at hg
        simp [hg.1, toks]
  obtain ⟨n1, -⟩ := wf.numbers r₀ h₁
  obtain ⟨T, e1, hT, hp⟩ := timePattern_of n1
  have hgt : groupsOf _ _ = _ := groups_time hWn wf h₁ hw₁ hT hp
  have hfr : secondGroups (findall (peakRe T number W) (maxText ls)) =
      ((peaksOf W.toList ls).filter fun r => decide (r.time = r₀.time)).map MaxRow.freq := by
    unfold groupsOf at hgt
    have := congrArg (List.map fun g : List (List Char) => g.getD 1 []) hgt
    simpa [Function.comp_def, toks, secondGroups] using this
  have key := parsePeaks_window (val := val) hfound hprocess hW wf hread h₀ hfit
    (distinct (((peaksOf W.toList ls).filter fun r => decide (r.time = r₀.time)).map MaxRow.freq)) (nodup_distinct _)
    (fun f hf => by
      obtain ⟨r, hr, e⟩ := List.mem_map.1 (mem_distinct.1 hf)
      exact ⟨r, List.mem_of_mem_filter hr, e⟩)
    (fun r hr ht => mem_distinct.2 (List.mem_map.2 ⟨r, List.mem_filter.2 ⟨hr, by simpa using ht⟩, rfl⟩))
  simp only [peaksFromMax, hversion, hv, bind, Except.bind]
  rw [← key]
  simp only [parsePeaks, hfound, hprocess, hW, hft, e1, hfr, hn, bind, Except.bind, firstSeen_nil]

/-- Times of one length are told apart by their characters. -/
theorem times_of_same_length {rows : List MaxRow} {W : List Char} (k : ℕ) (hlen : ∀ r ∈ rows, r.time.length = k)
    (h : ∀ r ∈ rows, ∀ r' ∈ rows, LooksLike r.time r'.time → r.time = r'.time) :
    ∀ r ∈ rows, ∀ r' ∈ rows, r.wave = W → r'.wave = W → ∀ x, x <:+ r'.time → LooksLike r.time x → r.time = r'.time := by
  intro r hr r' hr' _ _ x hx hl
  have h1 : r.time.length = x.length := List.Forall₂.length_eq hl
  have h2 : x = r'.time := hx.eq_of_length (by rw [← h1, hlen r hr, hlen r' hr'])
  exact h r hr r' hr' (h2 ▸ hl)

/-- A file with two times, two frequencies, two waves and a line that is not data. -/
def sampleLines : List MaxLine :=
  [.other "geopsypack-3.2.0".toList, .other "PROCESS_TYPE=RTBF".toList, .other "N_MAXIMA=2".toList,
   .other "# skipping Love computation".toList,
   .row ⟨"16.5".toList, "5".toList, "Rayleigh".toList, "0.005".toList, "10".toList, "1".toList, "inf".toList, "3".toList, ['1']⟩,
   .row ⟨"16.5".toList, "5".toList, "Love".toList, "0.002".toList, "10".toList, "0".toList, "0".toList, "3".toList, ['1']⟩,
   .row ⟨"16.5".toList, "5".toList, "Rayleigh".toList, "0.004".toList, "20".toList, "-1.5".toList, "2".toList, "3".toList, ['1']⟩,
   .row ⟨"17.5".toList, "2.5".toList, "Rayleigh".toList, "2e-3".toList, "20".toList, "7".toList, "2".toList, "3".toList, ['1']⟩,
   .row ⟨"17.5".toList, "2.5".toList, "Rayleigh".toList, "2e-3".toList, "20".toList, "7".toList, "2".toList, "3".toList, ['0']⟩]

theorem numeral_int {i : List Char} (h : Digits i) (hn : i ≠ []) : Numeral i :=
  ⟨[], i, [], [], by simp, Or.inl rfl, h, hn, Or.inl rfl, Or.inl rfl⟩

theorem numeral_dec {i d : List Char} (h : Digits i) (hn : i ≠ []) (hd : Digits d) : Numeral (i ++ '.' :: d) :=
  ⟨[], i, '.' :: d, [], by simp, Or.inl rfl, h, hn, Or.inr ⟨d, rfl, hd⟩, Or.inl rfl⟩

theorem sample_wellFormed : WellFormed "Rayleigh".toList sampleLines := by
  have hrows : rowsOf sampleLines =
    [⟨"16.5".toList, "5".toList, "Rayleigh".toList, "0.005".toList, "10".toList, "1".toList, "inf".toList, "3".toList, ['1']⟩,
     ⟨"16.5".toList, "5".toList, "Love".toList, "0.002".toList, "10".toList, "0".toList, "0".toList, "3".toList, ['1']⟩,
     ⟨"16.5".toList, "5".toList, "Rayleigh".toList, "0.004".toList, "20".toList, "-1.5".toList, "2".toList, "3".toList, ['1']⟩,
     ⟨"17.5".toList, "2.5".toList, "Rayleigh".toList, "2e-3".toList, "20".toList, "7".toList, "2".toList, "3".toList, ['1']⟩,
     ⟨"17.5".toList, "2.5".toList, "Rayleigh".toList, "2e-3".toList, "20".toList, "7".toList, "2".toList, "3".toList, ['0']⟩] := rfl
  have t1 : IsTime "16.5".toList := ⟨['1', '6'], ['.', '5'], by decide, by decide, by decide, Or.inr ⟨['5'], rfl, by decide⟩⟩
  have t2 : IsTime "17.5".toList := ⟨['1', '7'], ['.', '5'], by decide, by decide, by decide, Or.inr ⟨['5'], rfl, by decide⟩⟩
  have int : ∀ i : List Char, Digits i → i ≠ [] → Numeral i := fun i => numeral_int
  have d1 : Numeral "0.005".toList := numeral_dec (i := ['0']) (d := ['0', '0', '5']) (by decide) (by decide) (by decide)
  have d2 : Numeral "0.002".toList := numeral_dec (i := ['0']) (d := ['0', '0', '2']) (by decide) (by decide) (by decide)
  have d3 : Numeral "0.004".toList := numeral_dec (i := ['0']) (d := ['0', '0', '4']) (by decide) (by decide) (by decide)
  have d4 : Numeral "2.5".toList := numeral_dec (i := ['2']) (d := ['5']) (by decide) (by decide) (by decide)
  have d5 : Numeral "2e-3".toList :=
    ⟨[], ['2'], [], ['e', '-', '3'], by decide, Or.inl rfl, by decide, by decide, Or.inl rfl,
      Or.inr ⟨'e', ['-'], ['3'], rfl, Or.inl rfl, Or.inr (Or.inr rfl), by decide⟩⟩
  have d6 : Numeral "-1.5".toList :=
    ⟨['-'], ['1'], ['.', '5'], [], by decide, Or.inr rfl, by decide, by decide, Or.inr ⟨['5'], rfl, by decide⟩, Or.inl rfl⟩
  constructor
  · intro s hs
    simp only [sampleLines, List.mem_cons, MaxLine.other.injEq, reduceCtorEq, List.not_mem_nil, or_false] at hs
    have nosplit : ∀ s : List Char, 'R' ∉ s ∨ s = "PROCESS_TYPE=RTBF".toList → ∀ a b,
        s = a ++ ' ' :: ("Rayleigh".toList ++ ' ' :: b) → ∀ c ∈ a, ¬ ('0' ≤ c ∧ c ≤ '9') := by
      rintro s (h | rfl) a b e
      · exact absurd (by rw [e]; simp) h
      · have : ' ' ∈ "PROCESS_TYPE=RTBF".toList := by rw [e]; simp
        exact absurd this (by decide)
    rcases hs with rfl | rfl | rfl | rfl
    all_goals exact ⟨by decide, nosplit _ (by decide)⟩
  · rw [hrows]; decide
  · rw [hrows]
    simp only [List.mem_cons, List.not_mem_nil, or_false, forall_eq_or_imp, forall_eq]
    refine ⟨⟨t1, int _ ?_ ?_, d1, int _ ?_ ?_, int _ ?_ ?_, int _ ?_ ?_, Or.inr (Or.inl (by decide))⟩,
      ⟨t1, int _ ?_ ?_, d2, int _ ?_ ?_, int _ ?_ ?_, int _ ?_ ?_, Or.inl (int _ ?_ ?_)⟩,
      ⟨t1, int _ ?_ ?_, d3, int _ ?_ ?_, d6, int _ ?_ ?_, Or.inl (int _ ?_ ?_)⟩,
      ⟨t2, d4, d5, int _ ?_ ?_, int _ ?_ ?_, int _ ?_ ?_, Or.inl (int _ ?_ ?_)⟩,
      ⟨t2, d4, d5, int _ ?_ ?_, int _ ?_ ?_, int _ ?_ ?_, Or.inl (int _ ?_ ?_)⟩⟩
    all_goals decide
  · rw [hrows]; decide
  · exact times_of_same_length 4 (by rw [hrows]; decide) (by rw [hrows]; unfold LooksLike; decide)
  · rw [hrows]; unfold LooksLike; decide
  · rw [hrows]; decide

/-- The hypotheses of `C104_suite_member_per_window_partial` are met by the file above: it has a member for each of the two
times, with two rows. -/
example : ∃ ps, MaxFile.readFile FloatText.float (some (maxText sampleLines)) "rayleigh" = .ok ("rayleigh", ps) ∧
    ps.map (fun p => (p.identifier, p.frequency.data)) =
      [("16.5-rtbf", [.fin 5, .nan, .fin 5, .nan]), ("17.5-rtbf", [.nan, .fin (5/2), .nan, .nan])] := by
  have h := C104_suite_member_per_window_partial FloatText.float
    (fun s => match FloatText.float s with | .ok x => x | .error _ => .nan) "Rayleigh" "rayleigh" sampleLines
    "3.2.0".toList "rtbf".toList none 2 (by decide +kernel) (by decide +kernel) (by decide +kernel)
    (by decide +kernel) (by decide +kernel) (by decide +kernel) sample_wellFormed ?_ ?_
  · exact ⟨_, h, by decide +kernel⟩
  · intro r hr
    have : r ∈ peaksOf "Rayleigh".toList sampleLines := hr
    unfold ReadableRow
    have hall : ∀ r ∈ peaksOf "Rayleigh".toList sampleLines,
        (∀ x ∈ [r.freq, r.slowness, r.azimuth, r.ellipticity, r.noise, r.power], FloatText.float x =
          .ok ((fun s => match FloatText.float s with | .ok x => x | .error _ => Fl.nan) x)) ∧
        (fun s => match FloatText.float s with | .ok x => x | .error _ => Fl.nan) r.freq ≠ .nan ∧
        (fun s => match FloatText.float s with | .ok x => x | .error _ => Fl.nan) r.slowness ≠ .fin 0 := by
      decide +kernel
    exact hall r hr
  · intro t f
    have h1 : (peaksOf "Rayleigh".toList sampleLines) =
      [⟨"16.5".toList, "5".toList, "Rayleigh".toList, "0.005".toList, "10".toList, "1".toList, "inf".toList, "3".toList, ['1']⟩,
       ⟨"16.5".toList, "5".toList, "Rayleigh".toList, "0.004".toList, "20".toList, "-1.5".toList, "2".toList, "3".toList, ['1']⟩,
       ⟨"17.5".toList, "2.5".toList, "Rayleigh".toList, "2e-3".toList, "20".toList, "7".toList, "2".toList, "3".toList, ['1']⟩] := by
      decide +kernel
    unfold cell
    rw [h1]
    by_cases ht : "16.5".toList = t
    · subst ht
      rw [List.filter_cons, List.filter_cons, List.filter_cons_of_neg (by simp)]
      split_ifs <;> simp
    · rw [List.filter_cons_of_neg (by simpa using fun h => absurd h ht), List.filter_cons_of_neg (by simpa using fun h => absurd h ht),
        List.filter_cons]
      split_ifs <;> simp

/-- Times `0` and `60`: the window at 0 also gets the peak of the window at 60 (frequency and velocity are those of both
lines), and the count of peaks does not notice. -/
theorem C104_suffix_time_counterexample :
    (readFiles FloatText.float "rayleigh"
      [some ("geopsypack-3.2.0\nPROCESS_TYPE=RTBF\nN_MAXIMA=2\n0 5 Rayleigh 0.005 10 1 2 3 1\n60 5 Rayleigh 0.004 20 1 2 3 1\n").toList]).map
      (fun ps => ps.map fun p => (p.identifier, p.velocity.data)) =
    .ok [("0-rtbf", [.fin 200, .fin 250]), ("60-rtbf", [.fin 250, .nan])] := by decide +kernel

/-- Frequency `1.5` as a pattern also matches `105`, and a frequency written `1e+02` does not match itself: a file with
such lines is refused. -/
theorem C104_frequency_pattern_counterexample :
    readFiles FloatText.float "rayleigh"
      [some ("geopsypack-3.2.0\nPROCESS_TYPE=RTBF\nN_MAXIMA=2\n0 1.5 Rayleigh 0.005 10 1 2 3 1\n0 105 Rayleigh 0.004 20 1 2 3 1\n").toList] =
      .error .valueError ∧
    readFiles FloatText.float "rayleigh"
      [some ("geopsypack-3.2.0\nPROCESS_TYPE=RTBF\nN_MAXIMA=2\n0 1e+02 Rayleigh 0.005 10 1 2 3 1\n").toList] =
      .error .valueError := by
  constructor <;> decide +kernel

end Verif.Props
