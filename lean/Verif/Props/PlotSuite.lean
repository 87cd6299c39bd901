import Verif.Props.PlotPeaks

/-!
# C109, C110, C111: plots of suites and resolution limits
-/

namespace Verif.Props
open Verif Draw Spec Peaks

private theorem zip_lines : ∀ (axs : List Axes) (lns : List Line) (L : List (List Line)),
    List.zipWith (· ++ ·) (List.zipWith (fun ax ln => ax ++ [ln]) axs lns) L =
      List.zipWith (· ++ ·) axs (List.zipWith (fun ln l => ln :: l) lns L)
  | [], _, _ => by simp
  | _ :: _, [], _ => by simp
  | _ :: _, _ :: _, [] => by simp
  | ax :: axs, ln :: lns, l :: L => by simp [zip_lines axs lns L]

private theorem forall₂_getElem? {α β : Type} {R : α → β → Prop} {l : List α} {l' : List β} (h : List.Forall₂ R l l') :
    ∀ (i : ℕ) (a : α), l[i]? = some a → ∃ b, l'[i]? = some b ∧ R a b := by
  induction h with
  | nil => intro i a h; simp at h
  | cons hab _ ih =>
    intro i a hi
    cases i with
    | zero => simp only [List.getElem?_cons_zero, Option.some.injEq] at hi ⊢; exact ⟨_, rfl, hi ▸ hab⟩
    | succ i => simpa using ih i a (by simpa using hi)

/-- The further members: on every axes object one line each, in order. -/
theorem plotMembers_ok (ts : List (String × String)) :
    ∀ (ms : List (Peaks × Options × Option (Nd Bool))) (axs : List Axes), ts.length = axs.length →
      (∀ m ∈ ms, WfPeaks m.1 ∧ MaskFits m.1 m.2.2 ∧ ∀ t ∈ ts, Has m.1 t.1 ∧ Has m.1 t.2) →
      ∃ L : List (List Line), L.length = axs.length ∧
        plotMembers ts ms axs = (List.zipWith (· ++ ·) axs L, .ok ()) ∧
        ∀ (j : ℕ) (t : String × String), ts[j]? = some t → ∃ lines, L[j]? = some lines ∧
          List.Forall₂ (fun m ln => Shows m.1 (m.2.2.getD m.1.valid) t.1 t.2 ln) ms lines := by
  intro ms
  induction ms with
  | nil =>
    intro axs hl _
    refine ⟨axs.map fun _ => [], by simp, ?_, ?_⟩
    · simp only [plotMembers, Prod.mk.injEq, and_true]
      rw [List.zipWith_map_right, List.zipWith_self]
      simp
    · intro j t hj
      have : j < axs.length := by rw [← hl]; exact (List.getElem?_eq_some_iff.1 hj).1
      exact ⟨[], by simp [this], .nil⟩
  | cons m ms ih =>
    intro axs hl hms
    obtain ⟨hw, hm, hh⟩ := hms m (by simp)
    obtain ⟨lns, h1, h2⟩ := plotMore_ok hw hm (givenLabel m.2.1) ts axs m.2.1 hl hh
    have hlns : ts.length = lns.length := h2.length_eq
    have hl' : ts.length = (List.zipWith (fun ax ln => ax ++ [ln]) axs lns).length := by simp; omega
    obtain ⟨L, h3, h4, h5⟩ := ih (List.zipWith (fun (ax : Axes) ln => ax ++ [ln]) axs lns) hl'
      (fun m hm => hms m (by simp [hm]))
    refine ⟨List.zipWith (fun ln l => ln :: l) lns L, ?_, ?_, ?_⟩
    · simp only [List.length_zipWith] at h3 ⊢; omega
    · obtain ⟨p, o, k⟩ := m
      simp only [plotMembers, h1, h4, zip_lines]
    · intro j t hj
      obtain ⟨ln, h6, h7⟩ := forall₂_getElem? h2 j t hj
      obtain ⟨lines, h8, h9⟩ := h5 j t hj
      exact ⟨ln :: lines, by simp [List.getElem?_zipWith, h6, h8], .cons h7 h9⟩

/-- Options accepted by the plotting methods of a suite of `n` members. -/
def OptionsFit (kwargs : List (String × PlotKwargs.Value Item)) (n : ℕ) : Prop :=
  ∀ o ∈ kwargs, o.2 ≠ .other ∧ ∀ l, o.2 = .seq l → n ≤ l.length

private theorem typesLength {xt yt : PlotKwargs.TypeArg} {xs ys : List String}
    (ht : PlotKwargs.prepareTypes xt yt = .ok (xs, ys)) : xs.length = ys.length := by
  unfold PlotKwargs.prepareTypes at ht
  split at ht
  · cases ht
  · split at ht
    · cases ht
    · split_ifs at ht with h
      cases ht; exact not_not.1 h

/-- **C109**.  `PeaksSuite.plot` draws every member once on every axes object, in the order of the suite, each line
showing exactly the member's peaks not yet rejected or those of its mask; new axes are made when none are given, and
what the caller's axes already show stays. -/
theorem C109_every_member (s : Suite) (hne : s.peaks ≠ []) (hw : ∀ p ∈ s.peaks, WfPeaks p)
    (xtype ytype : PlotKwargs.TypeArg) (xs ys : List String)
    (ht : PlotKwargs.prepareTypes xtype ytype = .ok (xs, ys)) (htne : xs ≠ []) (given : Option (List Axes))
    (hgiven : ∀ l, given = some l → l.length = xs.length) (kwargs : List (String × PlotKwargs.Value Item))
    (hk : OptionsFit kwargs s.peaks.length) (mask : Option (List (Option (Nd Bool))))
    (hmask : ∀ l, mask = some l → l.length = s.peaks.length ∧
      ∀ (i : ℕ) (p : Peaks) (m : Option (Nd Bool)), s.peaks[i]? = some p → l[i]? = some m → MaskFits p m)
    (hh : ∀ p ∈ s.peaks, ∀ t ∈ xs.zip ys, Has p t.1 ∧ Has p t.2) :
    ∃ axs, plotSuite s xtype ytype given kwargs mask = (axs, .ok ()) ∧ axs.length = xs.length ∧
      ∀ (j : ℕ) (tx ty : String), xs[j]? = some tx → ys[j]? = some ty → ∃ lines,
        axs[j]? = some ((given.getD (xs.map fun _ => [])).getD j [] ++ lines) ∧
        lines.length = s.peaks.length ∧
        ∀ (i : ℕ) (p : Peaks), s.peaks[i]? = some p → ∃ ln, lines[i]? = some ln ∧
          Shows p ((mask.bind fun l => (l[i]?).join).getD p.valid) tx ty ln := by
  obtain ⟨opts, hopts⟩ := C89_accepted kwargs s.peaks.length hk
  have hol := (C89_expand kwargs _ opts hopts).1
  have hml : (mask.getD (s.peaks.map fun _ => none)).length = s.peaks.length := by
    cases mask with
    | none => simp
    | some l => exact (hmask l rfl).1
  have hlen := typesLength ht
  have hal : (given.getD (xs.map fun _ => [])).length = xs.length := by
    cases given with
    | none => simp
    | some l => exact hgiven l rfl
  generalize hM : mask.getD (s.peaks.map fun _ => none) = M at hml
  have hfit : ∀ (i : ℕ) (p : Peaks) (m : Option (Nd Bool)), s.peaks[i]? = some p → M[i]? = some m → MaskFits p m := by
    intro i p m hp hm
    cases mask with
    | none =>
      subst hM
      simp only [Option.getD_none, List.getElem?_map, hp, Option.map_some, Option.some.injEq] at hm
      subst hm
      intro m' h; cases h
    | some l =>
      simp only [Option.getD_some] at hM
      subst hM
      exact (hmask l rfl).2 i p m hp hm
  have hshow : ∀ (i : ℕ) (m : Option (Nd Bool)), M[i]? = some m → (mask.bind fun l => (l[i]?).join) = m := by
    intro i m hm
    cases mask with
    | none =>
      subst hM
      simp only [Option.getD_none, List.getElem?_map, Option.map_eq_some_iff] at hm
      obtain ⟨-, -, rfl⟩ := hm
      rfl
    | some l =>
      simp only [Option.getD_some] at hM
      subst hM
      simp [hm]
  have hzl : (s.peaks.zip (opts.zip M)).length = s.peaks.length := by simp [hol, hml]
  have hget : ∀ (i : ℕ) (m : Peaks × Options × Option (Nd Bool)), (s.peaks.zip (opts.zip M))[i]? = some m →
      s.peaks[i]? = some m.1 ∧ M[i]? = some m.2.2 := by
    intro i m h
    rw [List.getElem?_zip_eq_some, List.getElem?_zip_eq_some] at h
    exact ⟨h.1, h.2.2⟩
  have hwf : ∀ m ∈ s.peaks.zip (opts.zip M),
      WfPeaks m.1 ∧ MaskFits m.1 m.2.2 ∧ ∀ t ∈ xs.zip ys, Has m.1 t.1 ∧ Has m.1 t.2 := by
    intro m hm
    obtain ⟨i, hi⟩ := List.getElem?_of_mem hm
    obtain ⟨h1, h2⟩ := hget i m hi
    have := List.mem_of_getElem? h1
    exact ⟨hw _ this, hfit i _ _ h1 h2, hh _ this⟩
  rcases hz : s.peaks.zip (opts.zip M) with _ | ⟨⟨p, o, m⟩, rest⟩
  · rw [hz, List.length_nil] at hzl
    exact absurd (List.length_eq_zero_iff.1 hzl.symm) hne
  rw [hz] at hwf hget hzl
  obtain ⟨w1, w2, w3⟩ := hwf (p, o, m) (by simp)
  obtain ⟨lns, h1, h2⟩ := plotMore_ok w1 w2 none (xs.zip ys) (given.getD (xs.map fun _ => [])) o
    (by simp [hlen] at hal ⊢; omega) w3
  rw [plotMore_none] at h1
  have hlns := h2.length_eq
  obtain ⟨L, h3, h4, h5⟩ := plotMembers_ok (xs.zip ys) rest
    (List.zipWith (fun (ax : Axes) ln => ax ++ [ln]) (given.getD (xs.map fun _ => [])) lns)
    (by simp [hlen] at hlns hal ⊢; omega) (fun m hm => hwf m (by simp [hm]))
  refine ⟨List.zipWith (· ++ ·) (given.getD (xs.map fun _ => [])) (List.zipWith (fun ln l => ln :: l) lns L), ?_, ?_, ?_⟩
  · have c1 : ¬ M.length ≠ s.peaks.length := by rw [not_not, hml]
    have c2 : ¬ (given = none ∧ xs = []) := fun h => htne h.2
    have c3 : ¬ (given.getD (xs.map fun _ => [])).length ≠ xs.length := by rw [not_not, hal]
    simp only [plotSuite, ht, hopts, hM, if_neg c1, hz, if_neg c2, if_neg c3]
    rw [h1]
    dsimp only
    rw [h4, zip_lines]
  · simp only [List.length_zipWith] at h3 hlns ⊢
    simp [hlen] at hlns hal h3 ⊢
    omega
  · intro j tx ty hx hy
    have hj : (xs.zip ys)[j]? = some (tx, ty) := List.getElem?_zip_eq_some.2 ⟨hx, hy⟩
    obtain ⟨ln, a1, a2⟩ := forall₂_getElem? h2 j _ hj
    obtain ⟨lines, a3, a4⟩ := h5 j _ hj
    have hjx : j < (given.getD (xs.map fun _ => [])).length := by
      rw [hal]; exact (List.getElem?_eq_some_iff.1 hx).1
    have hF : List.Forall₂ (fun (m : Peaks × Options × Option (Nd Bool)) ln =>
        Shows m.1 (m.2.2.getD m.1.valid) tx ty ln) ((p, o, m) :: rest) (ln :: lines) := .cons a2 a4
    refine ⟨ln :: lines, ?_, ?_, ?_⟩
    · rw [List.getElem?_zipWith, List.getElem?_zipWith, a1, a3, List.getElem?_eq_getElem hjx,
        List.getD_eq_getElem _ _ hjx]
    · rw [← hF.length_eq, hzl]
    · intro i q hq
      have hi : i < ((p, o, m) :: rest).length := by rw [hzl]; exact (List.getElem?_eq_some_iff.1 hq).1
      obtain ⟨l', b1, b2⟩ := forall₂_getElem? hF i _ (List.getElem?_eq_getElem hi)
      obtain ⟨b3, b4⟩ := hget i _ (List.getElem?_eq_getElem hi)
      refine ⟨l', b1, ?_⟩
      rw [hshow i _ b4]
      rw [hq, Option.some.injEq] at b3
      rw [b3]
      exact b2

/-- **C109** (refusals).  A list of masks or of axes of the wrong length raises `IndexError` before anything is
drawn. -/
theorem C109_wrong_lengths (s : Suite) (xtype ytype : PlotKwargs.TypeArg) (xs ys : List String)
    (ht : PlotKwargs.prepareTypes xtype ytype = .ok (xs, ys)) (axs : List Axes)
    (kwargs : List (String × PlotKwargs.Value Item)) (hk : OptionsFit kwargs s.peaks.length)
    (mask : Option (List (Option (Nd Bool))))
    (h : (∃ l, mask = some l ∧ l.length ≠ s.peaks.length) ∨ axs.length ≠ xs.length) :
    plotSuite s xtype ytype (some axs) kwargs mask = (axs, .error .indexError) := by
  obtain ⟨opts, hopts⟩ := C89_accepted kwargs s.peaks.length hk
  have hol := (C89_expand kwargs _ opts hopts).1
  by_cases hml : (mask.getD (s.peaks.map fun _ => none)).length ≠ s.peaks.length
  · simp only [plotSuite, ht, hopts, if_pos hml, Option.getD_some]
  · have hax : axs.length ≠ xs.length := by
      rcases h with ⟨l, rfl, hl⟩ | h
      · exact absurd hl hml
      · exact h
    have c2 : ¬ (some axs = none ∧ xs = []) := fun h => by cases h.1
    rcases hz : s.peaks.zip (opts.zip (mask.getD (s.peaks.map fun _ => none))) with _ | ⟨⟨p, o, m⟩, rest⟩
    · simp only [plotSuite, ht, hopts, if_neg hml, hz, Option.getD_some]
    · simp only [plotSuite, ht, hopts, if_neg hml, hz, Option.getD_some, if_neg c2, if_pos hax]

example : ((plotSuite ⟨[exPeaks, exPeaks2], ["a", "b"]⟩ (.str "frequency") (.str "velocity")
    (some [[⟨[], [], some "old"⟩]]) [("label", .seq [.str "first", .str "second"])]
    (some [none, some ⟨[2, 2], [true, false, false, true]⟩])).1.map fun ax => ax.map Line.label) =
    [[some "old", some "first", some "second"]] := by decide +kernel

/-! ## The legend -/

private def shown : Option String → List String
  | none => []
  | some l => if l != "" && !(l.toList.head? == some '_') then [l] else []

private theorem mem_shown (l : String) (o : Option String) : l ∈ shown o ↔ Displayed l ∧ o = some l := by
  cases o with
  | none => simp [shown]
  | some k =>
    simp only [shown, Displayed, Option.some.injEq]
    constructor
    · intro h
      split_ifs at h with hk
      · simp only [List.mem_singleton] at h
        subst h
        simpa using hk
      · cases h
    · rintro ⟨h, rfl⟩
      rw [if_pos (by simpa using h)]
      simp

private theorem shown_length (o : Option String) : shown o = [] ∨ ∃ l, o = some l ∧ shown o = [l] := by
  cases o with
  | none => exact .inl rfl
  | some k =>
    simp only [shown]
    split_ifs
    · exact .inr ⟨k, rfl, rfl⟩
    · exact .inl rfl

private theorem legend_append (ax : Axes) (ln : Line) : legend (ax ++ [ln]) = legend ax ++ shown ln.label := by
  obtain ⟨xs, ys, l⟩ := ln
  cases l with
  | none => simp [legend, shown]
  | some l =>
    simp only [legend, shown, List.filterMap_append, List.filterMap_cons, List.filterMap_nil, List.filter_append,
      List.filter_cons, List.filter_nil]

private theorem lookup_drop (o : Options) : (dropLabel o).lookup "label" = (o.lookup "label").map fun _ => .none := by
  induction o with
  | nil => rfl
  | cons e o ih =>
    obtain ⟨k, v⟩ := e
    by_cases hk : k = "label"
    · subst hk
      simp [dropLabel]
    · have h1 : ("label" == k) = false := by simpa using Ne.symm hk
      have h2 : (k == "label") = false := by simpa using hk
      simp only [dropLabel, List.map_cons, h2, Bool.false_eq_true, if_false, List.lookup_cons, h1]
      exact ih

/-- The label drawn by one further member on axes whose legend is `S`. -/
private def newLabel (S : List String) (label : Option String) (id : String) (o : Options) : Option String :=
  if label.any fun l => S.contains l then none else lineLabel id o

private theorem plotMore_labels {p : Peaks} (hw : WfPeaks p) {mask : Option (Nd Bool)} (hm : MaskFits p mask)
    (label : Option String) (S : List String) : ∀ (ts : List (String × String)) (axs : List Axes) (o : Options),
      ts.length = axs.length → (∀ t ∈ ts, Has p t.1 ∧ Has p t.2) →
      (label ≠ none → (o.lookup "label").isSome) → (∀ ax ∈ axs, legend ax = S) →
      ∃ axs', plotMore p label mask o ts axs = (axs', .ok ()) ∧ axs'.length = axs.length ∧
        ∀ ax ∈ axs', legend ax = S ++ shown (newLabel S label p.identifier o) := by
  intro ts
  induction ts with
  | nil =>
    intro axs o hl _ _ _
    cases axs with
    | nil => exact ⟨[], rfl, rfl, by simp⟩
    | cons ax axs => simp at hl
  | cons t ts ih =>
    intro axs o hl hh ho hS
    cases axs with
    | nil => simp at hl
    | cons ax axs =>
      obtain ⟨hx, hy⟩ := hh t (by simp)
      have hSa := hS ax (by simp)
      by_cases hc : label.any (fun l => S.contains l) = true
      · obtain ⟨ln, h1, -, h3⟩ := plotOn_ok hw hm hx hy (dropLabel o) ax
        have hsome : (o.lookup "label").isSome := ho (by rintro rfl; simp at hc)
        obtain ⟨axs', h4, h5, h6⟩ := ih axs (dropLabel o) (by simpa using hl) (fun t ht => hh t (by simp [ht]))
          (fun _ => by rw [lookup_drop]; simpa using hsome) (fun a ha => hS a (by simp [ha]))
        have hnone : ln.label = none := by
          rw [h3, lineLabel, lookup_drop]
          obtain ⟨v, hv⟩ := Option.isSome_iff_exists.1 hsome
          simp [hv, labelText]
        refine ⟨(ax ++ [ln]) :: axs', ?_, by simp [h5], ?_⟩
        · simp only [plotMore, hSa, hc, if_true, h1, h4]
        · intro a ha
          rcases List.mem_cons.1 ha with rfl | ha
          · rw [legend_append, hnone, hSa]; simp only [newLabel, hc, if_true]
          · have := h6 a ha
            simpa only [newLabel, hc, if_true] using this
      · obtain ⟨ln, h1, -, h3⟩ := plotOn_ok hw hm hx hy o ax
        obtain ⟨axs', h4, h5, h6⟩ := ih axs o (by simpa using hl) (fun t ht => hh t (by simp [ht]))
          ho (fun a ha => hS a (by simp [ha]))
        refine ⟨(ax ++ [ln]) :: axs', ?_, by simp [h5], ?_⟩
        · simp only [plotMore, hSa, Bool.eq_false_iff.2 hc, Bool.false_eq_true, if_false, h1, h4]
        · intro a ha
          rcases List.mem_cons.1 ha with rfl | ha
          · rw [legend_append, h3, hSa]; simp only [newLabel, hc]; rfl
          · exact h6 a ha

private def addLabel (S : List String) (m : Peaks × Options × Option (Nd Bool)) : List String :=
  S ++ shown (newLabel S (givenLabel m.2.1) m.1.identifier m.2.1)

private theorem given_some {o : Options} (h : givenLabel o ≠ none) : (o.lookup "label").isSome := by
  rw [givenLabel] at h
  cases hl : o.lookup "label" with
  | none => simp [hl] at h
  | some v => rfl

private theorem plotMembers_labels (ts : List (String × String)) :
    ∀ (ms : List (Peaks × Options × Option (Nd Bool))) (axs : List Axes) (S : List String), ts.length = axs.length →
      (∀ m ∈ ms, WfPeaks m.1 ∧ MaskFits m.1 m.2.2 ∧ ∀ t ∈ ts, Has m.1 t.1 ∧ Has m.1 t.2) →
      (∀ ax ∈ axs, legend ax = S) →
      ∃ axs', plotMembers ts ms axs = (axs', .ok ()) ∧ axs'.length = axs.length ∧
        ∀ ax ∈ axs', legend ax = ms.foldl addLabel S := by
  intro ms
  induction ms with
  | nil => intro axs S _ _ h; exact ⟨axs, rfl, rfl, h⟩
  | cons m ms ih =>
    intro axs S hl hms hS
    obtain ⟨hw, hm, hh⟩ := hms m (by simp)
    obtain ⟨axs', h1, h2, h3⟩ := plotMore_labels hw hm (givenLabel m.2.1) S ts axs m.2.1 hl hh given_some hS
    obtain ⟨axs'', h4, h5, h6⟩ := ih axs' _ (hl.trans h2.symm) (fun m hm => hms m (by simp [hm])) h3
    refine ⟨axs'', ?_, h5.trans h2, h6⟩
    obtain ⟨p, o, k⟩ := m
    simp only [plotMembers, h1, h4]

private theorem lineLabel_of_given {o : Options} {l : String} (id : String) (h : givenLabel o = some l) :
    lineLabel id o = some l := by
  rw [givenLabel] at h
  rw [lineLabel]
  cases hl : o.lookup "label" with
  | none => simp [hl] at h
  | some v => simpa [hl] using h

private theorem mem_addLabel (S : List String) (m : Peaks × Options × Option (Nd Bool)) (l : String)
    (_hS : ∀ l ∈ S, Displayed l) :
    l ∈ addLabel S m ↔ l ∈ S ∨ Displayed l ∧ lineLabel m.1.identifier m.2.1 = some l := by
  rw [addLabel, List.mem_append, mem_shown]
  by_cases hc : (givenLabel m.2.1).any (fun l => S.contains l) = true
  · simp only [newLabel, hc, if_true, reduceCtorEq, and_false, or_false]
    constructor
    · exact .inl
    · rintro (h | ⟨-, h⟩)
      · exact h
      · obtain ⟨k, hk, hkS⟩ := (Option.any_eq_true _ _).1 hc
        rw [lineLabel_of_given _ hk, Option.some.injEq] at h
        rw [← h]
        simpa using hkS
  · simp only [newLabel, hc]
    rfl

private theorem mem_foldl : ∀ (ms : List (Peaks × Options × Option (Nd Bool))) (S : List String)
    (_ : ∀ l ∈ S, Displayed l) (l : String),
    l ∈ ms.foldl addLabel S ↔ l ∈ S ∨ Displayed l ∧ ∃ m ∈ ms, lineLabel m.1.identifier m.2.1 = some l := by
  intro ms
  induction ms with
  | nil => intro S _ l; simp
  | cons m ms ih =>
    intro S hS l
    rw [List.foldl_cons, ih, mem_addLabel S m l hS]
    · simp only [List.mem_cons, exists_eq_or_imp]
      tauto
    · intro k hk
      rcases (mem_addLabel S m k hS).1 hk with h | h
      · exact hS k h
      · exact h.1

private theorem nodup_given : ∀ (ms : List (Peaks × Options × Option (Nd Bool))) (S : List String),
    (∀ m ∈ ms, (m.2.1.lookup "label").isSome) → S.Nodup → (ms.foldl addLabel S).Nodup := by
  intro ms
  induction ms with
  | nil => intro S _ h; exact h
  | cons m ms ih =>
    intro S hg h
    refine ih _ (fun m hm => hg m (by simp [hm])) ?_
    rw [addLabel]
    rcases shown_length (newLabel S (givenLabel m.2.1) m.1.identifier m.2.1) with h0 | ⟨l, hl, h0⟩
    · rw [h0]; simpa using h
    · rw [h0]
      refine List.nodup_append.2 ⟨h, by simp, ?_⟩
      intro a ha b hb
      simp only [List.mem_singleton] at hb
      subst hb
      rintro rfl
      unfold newLabel at hl
      split_ifs at hl with hc
      apply hc
      have : givenLabel m.2.1 = some a := by
        obtain ⟨v, hv⟩ := Option.isSome_iff_exists.1 (hg m (by simp))
        rw [givenLabel, hv]
        simpa [lineLabel, hv] using hl
      rw [this]
      simpa using ha

private theorem nodup_identifiers : ∀ (ms : List (Peaks × Options × Option (Nd Bool))) (S : List String),
    (∀ m ∈ ms, m.2.1.lookup "label" = none) → (S ++ ms.map fun m => m.1.identifier).Nodup →
    (ms.foldl addLabel S).Nodup := by
  intro ms
  induction ms with
  | nil => intro S _ h; simpa using h
  | cons m ms ih =>
    intro S hg h
    refine ih _ (fun m hm => hg m (by simp [hm])) ?_
    have hm := hg m (by simp)
    have : newLabel S (givenLabel m.2.1) m.1.identifier m.2.1 = some m.1.identifier := by
      simp [newLabel, givenLabel, hm, lineLabel]
    rw [addLabel, this]
    rw [List.map_cons] at h
    rcases shown_length (some m.1.identifier) with h0 | ⟨l, hl, h0⟩
    · rw [h0, List.append_nil]
      exact h.sublist (List.Sublist.append_left (List.sublist_cons_self _ _) _)
    · rw [h0]
      cases hl
      simpa using h

private theorem lookup_given {k : ℕ} {kwargs : List (String × PlotKwargs.Value Item)} {o : Options}
    (h : List.Forall₂ (fun a g => a.1 = g.1 ∧ Spec.Given k a.2 g.2) kwargs o) (key : String) :
    (kwargs.lookup key = none ∧ o.lookup key = none) ∨
      ∃ v g, kwargs.lookup key = some v ∧ o.lookup key = some g ∧ Spec.Given k v g := by
  induction h with
  | nil => exact .inl ⟨rfl, rfl⟩
  | @cons a g l₁ l₂ hab _ ih =>
    obtain ⟨a1, a2⟩ := a
    obtain ⟨g1, g2⟩ := g
    obtain ⟨h1, h2⟩ := hab
    simp only at h1 h2
    subst h1
    by_cases hk : key = a1
    · subst hk
      exact .inr ⟨a2, g2, by simp, by simp, h2⟩
    · have : (key == a1) = false := by simpa using hk
      simpa only [List.lookup_cons, this] using ih

private theorem memberLabel_iff {k : ℕ} {kwargs : List (String × PlotKwargs.Value Item)} {o : Options}
    (h : List.Forall₂ (fun a g => a.1 = g.1 ∧ Spec.Given k a.2 g.2) kwargs o) (p : Peaks) (l : String) :
    lineLabel p.identifier o = some l ↔ MemberLabel kwargs k p l := by
  rcases lookup_given h "label" with ⟨h1, h2⟩ | ⟨v, g, h1, h2, h3⟩
  · simp [lineLabel, MemberLabel, h1, h2, eq_comm]
  · cases h3 with
    | str s => simp [lineLabel, MemberLabel, h1, h2, labelText]
    | none => simp [lineLabel, MemberLabel, h1, h2, labelText]
    | item items hk =>
      simp only [lineLabel, MemberLabel, h1, h2, reduceCtorEq, false_and, Option.some.injEq, false_or,
        PlotKwargs.Value.seq.injEq, exists_eq_left', List.getElem?_eq_getElem hk]
      cases items[k] <;> simp [labelText]

/-- **C110** (partial: axes made by the call).  The legend of every axes object lists each label of a member once:
the identifiers if no labels are given, otherwise the given labels, common ones only once.  Missing: this fails on axes
given by the caller (see the counterexamples). -/
theorem C110_legend_partial (s : Suite) (hne : s.peaks ≠ []) (hw : ∀ p ∈ s.peaks, WfPeaks p)
    (hid : (s.peaks.map Peaks.identifier).Nodup)
    (xtype ytype : PlotKwargs.TypeArg) (xs ys : List String)
    (ht : PlotKwargs.prepareTypes xtype ytype = .ok (xs, ys)) (htne : xs ≠ [])
    (kwargs : List (String × PlotKwargs.Value Item))
    (hk : OptionsFit kwargs s.peaks.length) (mask : Option (List (Option (Nd Bool))))
    (hmask : ∀ l, mask = some l → l.length = s.peaks.length ∧
      ∀ (i : ℕ) (p : Peaks) (m : Option (Nd Bool)), s.peaks[i]? = some p → l[i]? = some m → MaskFits p m)
    (hh : ∀ p ∈ s.peaks, ∀ t ∈ xs.zip ys, Has p t.1 ∧ Has p t.2) :
    ∃ axs, plotSuite s xtype ytype none kwargs mask = (axs, .ok ()) ∧ axs.length = xs.length ∧
      ∀ ax ∈ axs, (legend ax).Nodup ∧ ∀ l, l ∈ legend ax ↔
        Displayed l ∧ ∃ (i : ℕ) (p : Peaks), s.peaks[i]? = some p ∧ MemberLabel kwargs i p l := by
  obtain ⟨opts, hopts⟩ := C89_accepted kwargs s.peaks.length hk
  obtain ⟨hol, hopt⟩ := C89_expand kwargs _ opts hopts
  have hml : (mask.getD (s.peaks.map fun _ => none)).length = s.peaks.length := by
    cases mask with
    | none => simp
    | some l => exact (hmask l rfl).1
  have hlen := typesLength ht
  generalize hM : mask.getD (s.peaks.map fun _ => none) = M at hml
  have hfit : ∀ (i : ℕ) (p : Peaks) (m : Option (Nd Bool)), s.peaks[i]? = some p → M[i]? = some m → MaskFits p m := by
    intro i p m hp hm
    cases mask with
    | none =>
      subst hM
      simp only [Option.getD_none, List.getElem?_map, hp, Option.map_some, Option.some.injEq] at hm
      subst hm
      intro m' h; cases h
    | some l =>
      simp only [Option.getD_some] at hM
      subst hM
      exact (hmask l rfl).2 i p m hp hm
  have hzl : (s.peaks.zip (opts.zip M)).length = s.peaks.length := by simp [hol, hml]
  have hget : ∀ (i : ℕ) (m : Peaks × Options × Option (Nd Bool)), (s.peaks.zip (opts.zip M))[i]? = some m →
      s.peaks[i]? = some m.1 ∧ opts[i]? = some m.2.1 ∧ M[i]? = some m.2.2 := by
    intro i m h
    rw [List.getElem?_zip_eq_some, List.getElem?_zip_eq_some] at h
    exact h
  have hwf : ∀ m ∈ s.peaks.zip (opts.zip M),
      WfPeaks m.1 ∧ MaskFits m.1 m.2.2 ∧ ∀ t ∈ xs.zip ys, Has m.1 t.1 ∧ Has m.1 t.2 := by
    intro m hm
    obtain ⟨i, hi⟩ := List.getElem?_of_mem hm
    obtain ⟨h1, -, h2⟩ := hget i m hi
    have := List.mem_of_getElem? h1
    exact ⟨hw _ this, hfit i _ _ h1 h2, hh _ this⟩
  have hgiven : ∀ (i : ℕ) (o : Options), opts[i]? = some o →
      List.Forall₂ (fun a g => a.1 = g.1 ∧ Spec.Given i a.2 g.2) kwargs o := by
    intro i o h
    obtain ⟨hi, rfl⟩ := List.getElem?_eq_some_iff.1 h
    exact hopt i hi
  have hE : ∀ l, (∃ m ∈ s.peaks.zip (opts.zip M), lineLabel m.1.identifier m.2.1 = some l) ↔
      ∃ (i : ℕ) (p : Peaks), s.peaks[i]? = some p ∧ MemberLabel kwargs i p l := by
    intro l
    constructor
    · rintro ⟨m, hm, h⟩
      obtain ⟨i, hi⟩ := List.getElem?_of_mem hm
      obtain ⟨h1, h2, -⟩ := hget i m hi
      exact ⟨i, _, h1, (memberLabel_iff (hgiven i _ h2) _ _).1 h⟩
    · rintro ⟨i, p, hp, h⟩
      have hi : i < (s.peaks.zip (opts.zip M)).length := by rw [hzl]; exact (List.getElem?_eq_some_iff.1 hp).1
      obtain ⟨h1, h2, -⟩ := hget i _ (List.getElem?_eq_getElem hi)
      refine ⟨_, List.getElem_mem hi, ?_⟩
      rw [hp, Option.some.injEq] at h1
      rw [← h1]
      exact (memberLabel_iff (hgiven i _ h2) _ _).2 h
  have hnd : ((s.peaks.zip (opts.zip M)).foldl addLabel []).Nodup := by
    by_cases hL : kwargs.lookup "label" = none
    · apply nodup_identifiers
      · intro m hm
        obtain ⟨i, hi⟩ := List.getElem?_of_mem hm
        obtain ⟨-, h2, -⟩ := hget i m hi
        rcases lookup_given (hgiven i _ h2) "label" with h | ⟨v, g, h, -⟩
        · exact h.2
        · rw [h] at hL; cases hL
      · have : ((s.peaks.zip (opts.zip M)).map fun m => m.1.identifier) = s.peaks.map Peaks.identifier := by
          rw [show (fun m : Peaks × Options × Option (Nd Bool) => m.1.identifier) = Peaks.identifier ∘ Prod.fst from rfl,
            ← List.map_map, List.map_fst_zip (by simp [hol, hml])]
        rw [List.nil_append, this]
        exact hid
    · apply nodup_given
      · intro m hm
        obtain ⟨i, hi⟩ := List.getElem?_of_mem hm
        obtain ⟨-, h2, -⟩ := hget i m hi
        rcases lookup_given (hgiven i _ h2) "label" with h | ⟨v, g, -, h, -⟩
        · exact absurd h.1 hL
        · rw [h]; rfl
      · simp
  have hmem := mem_foldl (s.peaks.zip (opts.zip M)) [] (by simp)
  rcases hz : s.peaks.zip (opts.zip M) with _ | ⟨⟨p, o, m⟩, rest⟩
  · rw [hz, List.length_nil] at hzl
    exact absurd (List.length_eq_zero_iff.1 hzl.symm) hne
  rw [hz] at hwf hnd hmem hE
  obtain ⟨w1, w2, w3⟩ := hwf (p, o, m) (by simp)
  obtain ⟨axs1, h1, h2, h3⟩ := plotMore_labels w1 w2 none [] (xs.zip ys) (xs.map fun _ => []) o
    (by simp [hlen]) w3 (fun h => absurd rfl h) (by intro a ha; simp at ha; rw [ha.2]; rfl)
  rw [plotMore_none] at h1
  dsimp only at h1
  have hS : [] ++ shown (newLabel [] none p.identifier o) = addLabel [] (p, o, m) := by
    have hf : ∀ x : Option String, (x.any fun l => ([] : List String).contains l) = false := by
      intro x; cases x <;> simp
    simp only [addLabel, newLabel, hf]
  rw [hS] at h3
  obtain ⟨axs2, h4, h5, h6⟩ := plotMembers_labels (xs.zip ys) rest axs1 _
    (by simp [hlen] at h2 ⊢; omega) (fun m hm => hwf m (by simp [hm])) h3
  refine ⟨axs2, ?_, by simpa [h2] using h5, ?_⟩
  · have c1 : ¬ M.length ≠ s.peaks.length := by rw [not_not, hml]
    have c2 : ¬ (True ∧ xs = []) := fun h => htne h.2
    have c3 : ¬ (Option.getD (none : Option (List Axes)) (xs.map fun _ => [])).length ≠ xs.length := by simp
    simp only [plotSuite, ht, hopts, hM, if_neg c1, hz]
    rw [if_neg c2, if_neg c3, Option.getD_none, h1]
    exact h4
  · intro ax hax
    rw [h6 ax hax, ← List.foldl_cons]
    refine ⟨hnd, fun l => ?_⟩
    rw [hmem l, hE l]
    simp

/-- **C110** fails on axes of the caller: the label of the first member is not compared with the legend, so plotting
two suites on the same axes lists a common label twice. -/
theorem C110_given_axes_counterexample :
    ((plotSuite ⟨[exPeaks], ["a"]⟩ (.str "frequency") (.str "velocity") none [("label", .str "A")] none).1.map legend
      = [["A"]]) ∧
    ((plotSuite ⟨[exPeaks], ["a"]⟩ (.str "frequency") (.str "velocity")
      (some (plotSuite ⟨[exPeaks], ["a"]⟩ (.str "frequency") (.str "velocity") none [("label", .str "A")] none).1)
      [("label", .str "A")] none).1.map legend = [["A", "A"]]) := by
  constructor <;> decide +kernel

/-- **C110** fails on axes of the caller: a label already in the legend of one axes object is dropped on all that
follow, so the second of two axes has no entry "B" although the data are drawn there. -/
theorem C110_lost_label_fails :
    (plotSuite ⟨[exPeaks, exPeaks2], ["a", "b"]⟩ (.seq ["frequency", "wavelength"]) (.seq ["velocity", "velocity"])
      (some [[⟨[], [], some "B"⟩], []]) [("label", .seq [.str "A", .str "B"])] none).1.map legend =
    [["B", "A"], ["A"]] := by
  decide +kernel

example : (plotSuite ⟨[exPeaks, exPeaks2], ["a", "b"]⟩ (.seq ["frequency", "wavelength"]) (.seq ["velocity", "velocity"])
      none [] none).1.map legend = [["a", "b"], ["a", "b"]] ∧
    (plotSuite ⟨[exPeaks, exPeaks2], ["a", "b"]⟩ (.seq ["frequency", "wavelength"]) (.seq ["velocity", "velocity"])
      none [("label", .str "both")] none).1.map legend = [["both"], ["both"]] := by
  constructor <;> decide +kernel

/-! ## Resolution limits -/

/-- **C111**.  If the limit can be expressed on the axes, the call adds two curves of as many points as the axes have
samples; every point has exactly the respective limit as its attribute value; only the first curve is labelled, and
what was drawn before stays. -/
theorem C111_limits_drawn (ax : Axes) (xtype attr ytype : String) (h : Supported xtype attr ytype) (l1 l2 : ℚ)
    (h1 : l1 ≠ 0) (h2 : l2 ≠ 0) (xs ys : List ℚ) (hlen : xs.length = ys.length) (label : Option String) :
    ∃ c1 c2 : Line, plotResolution ax xtype attr ytype (l1, l2) xs ys label = (ax ++ [c1, c2], .ok ()) ∧
      c1.label = label ∧ c2.label = none ∧
      c1.xs.length = xs.length ∧ c1.ys.length = xs.length ∧ c2.xs.length = xs.length ∧ c2.ys.length = xs.length ∧
      (∀ (i : ℕ) (u v : Fl), c1.xs[i]? = some u → c1.ys[i]? = some v →
        ∃ x y, u = .fin x ∧ v = .fin y ∧ PointHasValue xtype attr ytype l1 x y) ∧
      ∀ (i : ℕ) (u v : Fl), c2.xs[i]? = some u → c2.ys[i]? = some v →
        ∃ x y, u = .fin x ∧ v = .fin y ∧ PointHasValue xtype attr ytype l2 x y := by
  obtain ⟨c1, c2, e, a1, a2, a3, a4, p1, p2⟩ := C49_points_on_limit xtype attr ytype h l1 l2 h1 h2 xs ys hlen
  refine ⟨⟨c1.1.map Fl.fin, c1.2.map Fl.fin, label⟩, ⟨c2.1.map Fl.fin, c2.2.map Fl.fin, none⟩, ?_, rfl, rfl,
    by simp [a3], by simp [← a1, a3], by simp [a4], by simp [← a2, a4], ?_, ?_⟩
  · simp only [plotResolution, e]
  · intro i u v hu hv
    simp only [List.getElem?_map, Option.map_eq_some_iff] at hu hv
    obtain ⟨x, hx, rfl⟩ := hu
    obtain ⟨y, hy, rfl⟩ := hv
    exact ⟨x, y, rfl, rfl, p1 i x y hx hy⟩
  · intro i u v hu hv
    simp only [List.getElem?_map, Option.map_eq_some_iff] at hu hv
    obtain ⟨x, hx, rfl⟩ := hu
    obtain ⟨y, hy, rfl⟩ := hv
    exact ⟨x, y, rfl, rfl, p2 i x y hx hy⟩

/-- **C111** (undefined limits).  Otherwise nothing is drawn and no exception is raised. -/
theorem C111_limits_undefined (ax : Axes) (xtype attr ytype : String) (h : ¬ Supported xtype attr ytype)
    (limits : ℚ × ℚ) (xs ys : List ℚ) (label : Option String) :
    plotResolution ax xtype attr ytype limits xs ys label = (ax, .ok ()) := by
  simp only [plotResolution, C49_unsupported xtype attr ytype limits xs ys h]

example : plotResolution [⟨[], [], some "a"⟩] "frequency" "wavelength" "velocity" (2, 50) [5, 10] [100, 200]
      (some "limit") =
    ([⟨[], [], some "a"⟩, ⟨[.fin 5, .fin 10], [.fin 10, .fin 20], some "limit"⟩,
      ⟨[.fin 5, .fin 10], [.fin 250, .fin 500], none⟩], .ok ()) := by decide +kernel

end Verif.Props
