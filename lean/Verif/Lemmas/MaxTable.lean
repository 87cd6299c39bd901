import Verif.Lemmas.MaxLine

/-!
# How a whole `.max` file is searched
-/

namespace Verif
open Re MaxFile Spec

theorem parse_seqs_cons {r : Re} {rs : List Re} {w₁ w₂ : List Char} (h1 : Parse r w₁ []) (h2 : Parse (seqs rs) w₂ []) :
    Parse (seqs (r :: rs)) (w₁ ++ w₂) [] := ⟨w₁, w₂, [], [], rfl, rfl, h1, h2⟩

theorem digits_any {d : List Char} (h : Digits d) : ∀ c ∈ d, digit c = true := fun c hc => by simp [digit, h c hc]

theorem parse_opt_nil (p : Char → Bool) : Parse (.opt p) [] [] := ⟨Or.inl rfl, rfl⟩

theorem parse_opt_one {p : Char → Bool} {c : Char} (h : p c = true) : Parse (.opt p) [c] [] :=
  ⟨Or.inr ⟨c, h, rfl⟩, rfl⟩

theorem parse_digits {d : List Char} (h : Digits d) : Parse (.many digit) d [] := ⟨digits_any h, rfl⟩

/-- A printed number matches the pattern of a number. -/
theorem numeral_parse {w : List Char} (h : Numeral w) : Parse number w [] := by
  obtain ⟨s, i, f, e, rfl, hs, hi, hn, hf, he⟩ := h
  have ps : Parse (.opt (fun c => c == '-')) s [] := by
    rcases hs with rfl | rfl
    · exact parse_opt_nil _
    · exact parse_opt_one (by decide)
  obtain ⟨c, i, rfl⟩ : ∃ c j, i = c :: j := by
    cases i with
    | nil => exact absurd rfl hn
    | cons c j => exact ⟨c, j, rfl⟩
  have pc : Parse (.cls digit) [c] [] := ⟨⟨c, digits_any hi c (by simp), rfl⟩, rfl⟩
  have pi : Parse (.many digit) i [] := parse_digits fun x hx => hi x (by simp [hx])
  obtain ⟨f1, f2, rfl, pf1, pf2⟩ : ∃ f1 f2, f = f1 ++ f2 ∧ Parse (.opt any) f1 [] ∧ Parse (.many digit) f2 [] := by
    rcases hf with rfl | ⟨d, rfl, hd⟩
    · exact ⟨[], [], rfl, parse_opt_nil _, parse_digits (by intro c hc; simp at hc)⟩
    · exact ⟨['.'], d, rfl, parse_opt_one (by decide), parse_digits hd⟩
  obtain ⟨e1, e2, e3, rfl, pe1, pe2, pe3⟩ : ∃ e1 e2 e3, e = e1 ++ (e2 ++ e3) ∧
      Parse (.opt (fun c => c == 'e' || c == 'E')) e1 [] ∧ Parse (.opt (fun c => c == '+' || c == '-')) e2 [] ∧
      Parse (.many digit) e3 [] := by
    rcases he with rfl | ⟨x, y, d, rfl, hx, hy, hd⟩
    · exact ⟨[], [], [], rfl, parse_opt_nil _, parse_opt_nil _, parse_digits (by intro c hc; simp at hc)⟩
    · refine ⟨[x], y, d, rfl, parse_opt_one ?_, ?_, parse_digits hd⟩
      · rcases hx with rfl | rfl <;> decide
      · rcases hy with rfl | rfl | rfl
        · exact parse_opt_nil _
        · exact parse_opt_one (by decide)
        · exact parse_opt_one (by decide)
  have := parse_seqs_cons ps (parse_seqs_cons pc (parse_seqs_cons pi (parse_seqs_cons pf1 (parse_seqs_cons pf2
    (parse_seqs_cons pe1 (parse_seqs_cons pe2 (parse_seqs_cons pe3 (rs := []) (w₂ := []) ⟨rfl, rfl⟩)))))))
  unfold number
  simpa using this

/-- A printed time matches the pattern of a time. -/
theorem time_parse {w : List Char} (h : IsTime w) : Parse defaultTime w [] := by
  obtain ⟨i, f, rfl, hi, hn, hf⟩ := h
  obtain ⟨c, i, rfl⟩ : ∃ c j, i = c :: j := by
    cases i with
    | nil => exact absurd rfl hn
    | cons c j => exact ⟨c, j, rfl⟩
  have pc : Parse (.cls digit) [c] [] := ⟨⟨c, digits_any hi c (by simp), rfl⟩, rfl⟩
  have pi : Parse (.many digit) i [] := parse_digits fun x hx => hi x (by simp [hx])
  obtain ⟨f1, f2, rfl, pf1, pf2⟩ : ∃ f1 f2, f = f1 ++ f2 ∧ Parse (.opt (fun c => c == '.')) f1 [] ∧
      Parse (.many digit) f2 [] := by
    rcases hf with rfl | ⟨d, rfl, hd⟩
    · exact ⟨[], [], rfl, parse_opt_nil _, parse_digits (by intro c hc; simp at hc)⟩
    · exact ⟨['.'], d, rfl, parse_opt_one (by decide), parse_digits hd⟩
  have := parse_seqs_cons pc (parse_seqs_cons pi (parse_seqs_cons pf1 (parse_seqs_cons pf2 (rs := []) (w₂ := []) ⟨rfl, rfl⟩)))
  unfold defaultTime
  simpa using this

theorem noise_parse {w : List Char}
    (h : Numeral w ∨ w = "inf".toList ∨ w = "-inf".toList ∨ w = "nan".toList) : Parse noiseRe w [] := by
  rcases h with h | h | h | h
  · exact Or.inl (numeral_parse h)
  · exact Or.inr (Or.inl ⟨[], "inf".toList, [], [], h, rfl, parse_opt_nil _, (parse_litChars _ _ _).2 ⟨rfl, rfl⟩⟩)
  · exact Or.inr (Or.inl ⟨['-'], "inf".toList, [], [], h, rfl, parse_opt_one (by decide),
      (parse_litChars _ _ _).2 ⟨rfl, rfl⟩⟩)
  · exact Or.inr (Or.inr ((parse_litChars _ _ _).2 ⟨h, rfl⟩))

/-- The names of the waves. -/
def waveNames : List String := ["Rayleigh", "Love", "Vertical", "Radial", "Transverse"]

theorem validate_names {w W : String} (h : validateWavetype w = .ok W) : W ∈ waveNames := by
  unfold validateWavetype at h
  unfold waveNames
  split_ifs at h <;> simp_all

theorem wave_facts {W : String} (h : W ∈ waveNames) :
    ' ' ∉ W.toList ∧ '\n' ∉ W.toList ∧ ∃ c cs, W.toList = c :: cs ∧ c ∈ ['R', 'L', 'V', 'T'] := by
  unfold waveNames at h
  simp only [List.mem_cons, List.not_mem_nil, or_false] at h
  rcases h with rfl | rfl | rfl | rfl | rfl
  all_goals exact ⟨by decide, by decide, _, _, rfl, by decide⟩

theorem time_head {w : List Char} (h : IsTime w) : ∃ c cs, w = c :: cs ∧ '0' ≤ c ∧ c ≤ '9' := by
  obtain ⟨i, f, rfl, hi, hn, -⟩ := h
  cases i with
  | nil => exact absurd rfl hn
  | cons c i => exact ⟨c, _, rfl, hi c (by simp)⟩

theorem mem_rowsOf {ls : List MaxLine} {r : MaxRow} : r ∈ rowsOf ls ↔ MaxLine.row r ∈ ls := by
  unfold rowsOf
  simp only [List.mem_filterMap]
  constructor
  · rintro ⟨l, hl, h⟩
    cases l with
    | row r' => simp at h; rwa [← h]
    | other s => simp at h
  · intro h
    exact ⟨_, h, rfl⟩

theorem rowOk {W : String} (hW : W ∈ waveNames) {ls : List MaxLine} (wf : WellFormed W.toList ls) {r : MaxRow}
    (hr : r ∈ rowsOf ls) : RowOk W.toList r := by
  obtain ⟨n1, n2, n3, n4, n5, n6, n7⟩ := wf.numbers r hr
  obtain ⟨-, -, c, cs, hc, hm⟩ := wave_facts hW
  have hnum : ∀ w, Numeral w → w ≠ W.toList := by
    rintro w hw rfl
    obtain ⟨d, ds, e, hd⟩ := numeral_ne_nil hw
    rw [hc] at e
    simp only [List.cons.injEq] at e
    rw [← e.1] at hd
    simp only [List.mem_cons, List.not_mem_nil, or_false] at hm
    rcases hm with rfl | rfl | rfl | rfl <;> revert hd <;> decide
  have htime : r.time ≠ W.toList := by
    intro h
    obtain ⟨d, ds, e, hd⟩ := time_head n1
    rw [h, hc] at e
    simp only [List.cons.injEq] at e
    rw [← e.1] at hd
    simp only [List.mem_cons, List.not_mem_nil, or_false] at hm
    rcases hm with rfl | rfl | rfl | rfl <;> revert hd <;> decide
  have hnoise : r.noise ≠ W.toList := by
    rcases n7 with h | h | h | h
    · exact hnum _ h
    all_goals
      rw [h]
      unfold waveNames at hW
      simp only [List.mem_cons, List.not_mem_nil, or_false] at hW
      rcases hW with rfl | rfl | rfl | rfl | rfl <;> decide
  refine ⟨fun w hw => (wf.blank r hr w hw).1, fun w hw => (wf.blank r hr w hw).2, ?_,
    ⟨numeral_parse n3, numeral_parse n4, numeral_parse n5, noise_parse n7, numeral_parse n6⟩, wf.flag r hr⟩
  simp only [List.mem_cons, List.not_mem_nil, or_false, forall_eq_or_imp, forall_eq]
  exact ⟨htime, hnum _ n2, hnum _ n3, hnum _ n4, hnum _ n5, hnoise, hnum _ n6⟩

/-- The fields in the groups of a match. -/
def toks (r : MaxRow) : List (List Char) :=
  [r.time, r.freq, r.slowness, r.azimuth, r.ellipticity, r.noise, r.power]

theorem unlines_maxText (ls : List MaxLine) : maxText ls = unlinesC (ls.map MaxLine.text) := by
  unfold maxText unlinesC
  rw [List.flatMap_map]

/-- Searching a file line by line. -/
theorem groups_file {R : Re} (hnl : NlFree R) (hc : Consumes R) (ls : List MaxLine) (m : MaxRow → Bool)
    (k : MaxRow → List (List Char))
    (h1 : ∀ r ∈ rowsOf ls, m r = true → groupsOf R r.line = [k r])
    (h2 : ∀ r ∈ rowsOf ls, m r = false → groupsOf R r.line = [])
    (h3 : ∀ s, MaxLine.other s ∈ ls → groupsOf R s = []) :
    groupsOf R (maxText ls) = ((rowsOf ls).filter m).map k := by
  rw [unlines_maxText, groupsOf_lines hnl hc, List.flatMap_map]
  induction ls with
  | nil => rfl
  | cons l ls ih =>
    have ih' := ih (fun r hr => h1 r (mem_rowsOf.2 (List.mem_cons_of_mem _ (mem_rowsOf.1 hr))))
      (fun r hr => h2 r (mem_rowsOf.2 (List.mem_cons_of_mem _ (mem_rowsOf.1 hr))))
      (fun s hs => h3 s (List.mem_cons_of_mem _ hs))
    rw [List.flatMap_cons, ih']
    cases l with
    | other s =>
      have : rowsOf (MaxLine.other s :: ls) = rowsOf ls := rfl
      rw [this]
      simp only [MaxLine.text]
      rw [h3 s (List.mem_cons_self ..)]
      rfl
    | row r =>
      have : rowsOf (MaxLine.row r :: ls) = r :: rowsOf ls := rfl
      rw [this]
      have hr : r ∈ rowsOf (MaxLine.row r :: ls) := mem_rowsOf.2 (List.mem_cons_self ..)
      simp only [MaxLine.text]
      cases hm : m r with
      | true => rw [h1 r hr hm, List.filter_cons_of_pos (by simpa using hm)]; rfl
      | false => rw [h2 r hr hm, List.filter_cons_of_neg (by simp [hm])]; rfl

/-- A pattern for times: it matches only texts with a digit. -/
def TimePattern (T : Re) : Prop := NoGroups T ∧ NlFree T ∧ ∀ x, Parse T x [] → ∃ c ∈ x, '0' ≤ c ∧ c ≤ '9'

theorem timePattern_default : TimePattern defaultTime := by
  refine ⟨noGroups_defaultTime, nlFree_defaultTime, ?_⟩
  rintro x ⟨w₁, w₂, _, _, rfl, -, ⟨⟨c, hc, rfl⟩, -⟩, -⟩
  exact ⟨c, by simp, by simpa [digit] using hc⟩

theorem timePattern_of {t : List Char} (ht : IsTime t) :
    ∃ T, ofText t = .ok T ∧ TimePattern T ∧ ∀ x, Parse T x [] ↔ LooksLike t x ∧ '\n' ∉ x := by
  obtain ⟨i, f, rfl, hi, hn, hf⟩ := id ht
  have hch : ∀ c ∈ i ++ f, '0' ≤ c ∧ c ≤ '9' ∨ c = '.' := by
    intro c hc
    rcases List.mem_append.1 hc with hc | hc
    · exact Or.inl (hi c hc)
    · rcases hf with rfl | ⟨d, rfl, hd⟩
      · simp at hc
      · rcases List.mem_cons.1 hc with rfl | hc
        · exact Or.inr rfl
        · exact Or.inl (hd c hc)
  have hspec : ∀ c ∈ i ++ f, special c = false := by
    intro c hc
    rcases hch c hc with h | rfl
    · rw [Bool.eq_false_iff]
      intro hs
      simp only [special, List.mem_cons, List.not_mem_nil, or_false, decide_eq_true_eq] at hs
      rcases hs with rfl | rfl | rfl | rfl | rfl | rfl | rfl | rfl | rfl | rfl | rfl | rfl | rfl <;> revert h <;> decide
    · decide
  have hnl : '\n' ∉ i ++ f := by
    intro h
    rcases hch _ h with h | h
    · revert h; decide
    · revert h; decide
  obtain ⟨T, h1, h2, h3, h4⟩ := ofText_plain _ hspec hnl
  have h5 : ∀ x, Parse T x [] ↔ LooksLike (i ++ f) x ∧ '\n' ∉ x := by
    intro x
    rw [h4]
    simp
  refine ⟨T, h1, ⟨h2, h3, ?_⟩, h5⟩
  intro x hx
  obtain ⟨hx, -⟩ := (h5 x).1 hx
  obtain ⟨c, cs, e, hc⟩ := time_head ht
  rw [e] at hx
  cases hx with
  | @cons _ d _ ds hd _ =>
    refine ⟨d, by simp, ?_⟩
    rcases hd with rfl | rfl
    · exact absurd hc (by decide)
    · exact hc

theorem looksLike_refl (t : List Char) : LooksLike t t := by
  unfold LooksLike
  exact List.forall₂_same.2 fun _ _ => Or.inr rfl

/-- Lines without data have no peak. -/
theorem peak_other {T F : Re} (hT : TimePattern T) (hF : NoGroups F) (W : String) {s : List Char}
    (hs : ∀ a b, s = a ++ ' ' :: (W.toList ++ ' ' :: b) → ∀ c ∈ a, ¬ ('0' ≤ c ∧ c ≤ '9')) :
    groupsOf (peakRe T F W) s = [] := by
  unfold groupsOf
  rw [other_none (T := T) W.toList (consumes_peak hT.1 hF W) ?_ hT.2.2 hs]
  · rfl
  · intro w g h
    obtain ⟨x1, x2, x3, x4, x5, x6, x7, rfl, -, p1, -⟩ := (parse_peak hT.1 hF W w g).1 h
    exact ⟨x1, x2, _, rfl, p1⟩

theorem all_other {T : Re} (hT : TimePattern T) (W : String) {s : List Char}
    (hs : ∀ a b, s = a ++ ' ' :: (W.toList ++ ' ' :: b) → ∀ c ∈ a, ¬ ('0' ≤ c ∧ c ≤ '9')) :
    findall (allRe T W) s = [] := by
  refine other_none (T := T) W.toList (consumes_all hT.1 W) ?_ hT.2.2 hs
  intro w g h
  obtain ⟨x, y, z, rfl, -, p1, -⟩ := (parse_all hT.1 W w g).1 h
  exact ⟨x, y, _, rfl, p1⟩

/-- All peaks of the wave. -/
theorem groups_every {W : String} (hW : W ∈ waveNames) {ls : List MaxLine} (wf : WellFormed W.toList ls) :
    groupsOf (peakRe defaultTime number W) (maxText ls) = (peaksOf W.toList ls).map toks := by
  obtain ⟨w1, w2, -⟩ := wave_facts hW
  refine groups_file (nlFree_peak nlFree_defaultTime nlFree_number w2)
    (consumes_peak noGroups_defaultTime noGroups_number W) ls _ toks ?_ ?_ ?_
  · intro r hr hm
    simp only [Bool.and_eq_true, decide_eq_true_eq] at hm
    obtain ⟨n1, n2, -⟩ := wf.numbers r hr
    exact peak_line_hit noGroups_defaultTime noGroups_number w1 (rowOk hW wf hr) (time_parse n1) (numeral_parse n2)
      hm.1 hm.2
  · intro r hr hm
    simp only [Bool.and_eq_false_iff, decide_eq_false_iff_not] at hm
    refine peak_line_none noGroups_defaultTime noGroups_number w1 (rowOk hW wf hr) ?_
    tauto
  · intro s hs
    exact peak_other timePattern_default noGroups_number W (wf.other s hs).2

/-- All peaks of a time. -/
theorem groups_time {W : String} (hW : W ∈ waveNames) {ls : List MaxLine} (wf : WellFormed W.toList ls)
    {r₀ : MaxRow} (h₀ : r₀ ∈ rowsOf ls) (hw₀ : r₀.wave = W.toList) {T : Re} (hT : TimePattern T)
    (hp : ∀ x, Parse T x [] ↔ LooksLike r₀.time x ∧ '\n' ∉ x) :
    groupsOf (peakRe T number W) (maxText ls) =
      ((peaksOf W.toList ls).filter fun r => decide (r.time = r₀.time)).map toks := by
  obtain ⟨w1, w2, -⟩ := wave_facts hW
  have key := groups_file (nlFree_peak hT.2.1 nlFree_number w2) (consumes_peak hT.1 noGroups_number W) ls
    (fun r => decide (r.time = r₀.time) && (decide (r.wave = W.toList) && decide (r.valid = ['1']))) toks ?_ ?_ ?_
  · rw [key, peaksOf, List.filter_filter]
  · intro r hr hm
    simp only [Bool.and_eq_true, decide_eq_true_eq] at hm
    obtain ⟨n1, n2, -⟩ := wf.numbers r hr
    refine peak_line_hit hT.1 noGroups_number w1 (rowOk hW wf hr) ?_ (numeral_parse n2) hm.2.1 hm.2.2
    rw [hp, hm.1]
    exact ⟨looksLike_refl _, (wf.blank r₀ h₀ _ (by simp [MaxRow.fields])).2⟩
  · intro r hr hm
    refine peak_line_none hT.1 noGroups_number w1 (rowOk hW wf hr) ?_
    by_cases h1 : r.wave = W.toList
    · by_cases h2 : r.valid = ['1']
      · left
        intro x hx hpx
        have := wf.times r₀ h₀ r hr hw₀ h1 x hx ((hp x).1 hpx).1
        simp [h1, h2, this] at hm
      · right; right; right; exact h2
    · right; right; left; exact h1
  · intro s hs
    exact peak_other hT noGroups_number W (wf.other s hs).2

/-- The frequencies can be used as patterns. -/
theorem freqPattern_of {f : List Char} (hf : Numeral f) (hplus : '+' ∉ f) (hn : '\n' ∉ f) :
    ∃ F, ofText f = .ok F ∧ NoGroups F ∧ NlFree F ∧ ∀ x, Parse F x [] ↔ LooksLike f x ∧ '\n' ∉ x := by
  have hch : ∀ c ∈ f, '0' ≤ c ∧ c ≤ '9' ∨ c ∈ ['.', '-', '+', 'e', 'E'] := by
    obtain ⟨s, i, f, e, rfl, hs, hi, -, hf, he⟩ := hf
    intro c hc
    simp only [List.mem_append] at hc
    rcases hc with hc | hc | hc | hc
    · rcases hs with rfl | rfl
      · simp at hc
      · simp at hc; simp [hc]
    · exact Or.inl (hi c hc)
    · rcases hf with rfl | ⟨d, rfl, hd⟩
      · simp at hc
      · rcases List.mem_cons.1 hc with rfl | hc
        · simp
        · exact Or.inl (hd c hc)
    · rcases he with rfl | ⟨x, y, d, rfl, hx, hy, hd⟩
      · simp at hc
      · simp only [List.mem_cons, List.mem_append] at hc
        rcases hc with rfl | hc | hc
        · rcases hx with rfl | rfl <;> simp
        · rcases hy with rfl | rfl | rfl
          · simp at hc
          · simp at hc; simp [hc]
          · simp at hc; simp [hc]
        · exact Or.inl (hd c hc)
  have hspec : ∀ c ∈ f, special c = false := by
    intro c hc
    rw [Bool.eq_false_iff]
    intro hs
    simp only [special, List.mem_cons, List.not_mem_nil, or_false, decide_eq_true_eq] at hs
    have h := hch c hc
    by_cases hp : c = '+'
    · exact hplus (hp ▸ hc)
    · rcases hs with rfl | rfl | rfl | rfl | rfl | rfl | rfl | rfl | rfl | rfl | rfl | rfl | rfl <;> revert h hp <;> decide
  obtain ⟨F, h1, h2, h3, h4⟩ := ofText_plain f hspec hn
  refine ⟨F, h1, h2, h3, ?_⟩
  intro x
  rw [h4]
  simp

/-- All peaks of a time and a frequency. -/
theorem groups_cell {W : String} (hW : W ∈ waveNames) {ls : List MaxLine} (wf : WellFormed W.toList ls)
    {r₀ : MaxRow} (h₀ : r₀ ∈ rowsOf ls) (hw₀ : r₀.wave = W.toList) {T : Re} (hT : TimePattern T)
    (hp : ∀ x, Parse T x [] ↔ LooksLike r₀.time x ∧ '\n' ∉ x)
    {r₁ : MaxRow} (h₁ : r₁ ∈ rowsOf ls) (hw₁ : r₁.wave = W.toList) {F : Re} (hF : NoGroups F) (hF' : NlFree F)
    (hq : ∀ x, Parse F x [] ↔ LooksLike r₁.freq x ∧ '\n' ∉ x) :
    groupsOf (peakRe T F W) (maxText ls) = (cell W.toList ls r₀.time r₁.freq).map toks := by
  obtain ⟨w1, w2, -⟩ := wave_facts hW
  have key := groups_file (nlFree_peak hT.2.1 hF' w2) (consumes_peak hT.1 hF W) ls
    (fun r => (decide (r.time = r₀.time) && decide (r.freq = r₁.freq)) &&
      (decide (r.wave = W.toList) && decide (r.valid = ['1']))) toks ?_ ?_ ?_
  · rw [key, cell, peaksOf, List.filter_filter]
  · intro r hr hm
    simp only [Bool.and_eq_true, decide_eq_true_eq] at hm
    refine peak_line_hit hT.1 hF w1 (rowOk hW wf hr) ?_ ?_ hm.2.1 hm.2.2
    · rw [hp, hm.1.1]
      exact ⟨looksLike_refl _, (wf.blank r₀ h₀ _ (by simp [MaxRow.fields])).2⟩
    · rw [hq, hm.1.2]
      exact ⟨looksLike_refl _, (wf.blank r₁ h₁ _ (by simp [MaxRow.fields])).2⟩
  · intro r hr hm
    refine peak_line_none hT.1 hF w1 (rowOk hW wf hr) ?_
    by_cases h1 : r.wave = W.toList
    · by_cases h2 : r.valid = ['1']
      · by_cases h3 : ∀ x, x <:+ r.time → ¬ Parse T x []
        · exact Or.inl h3
        · right; left
          push Not at h3
          obtain ⟨x, hx, hpx⟩ := h3
          have e1 := wf.times r₀ h₀ r hr hw₀ h1 x hx ((hp x).1 hpx).1
          intro hf
          have e2 := wf.freqs r₁ h₁ r hr hw₁ h1 ((hq _).1 hf).1
          simp [h1, h2, e1, e2] at hm
      · right; right; right; exact h2
    · right; right; left; exact h1
  · intro s hs
    exact peak_other hT hF W (wf.other s hs).2

/-- How many peaks of a time are counted. -/
theorem all_count {W : String} (hW : W ∈ waveNames) {ls : List MaxLine} (wf : WellFormed W.toList ls)
    {r₀ : MaxRow} (h₀ : r₀ ∈ rowsOf ls) (hw₀ : r₀.wave = W.toList) {T : Re} (hT : TimePattern T)
    (hp : ∀ x, Parse T x [] ↔ LooksLike r₀.time x ∧ '\n' ∉ x) :
    (findall (allRe T W) (maxText ls)).length =
      ((peaksOf W.toList ls).filter fun r => decide (r.time = r₀.time)).length := by
  obtain ⟨w1, w2, -⟩ := wave_facts hW
  have hgr : ∀ s h, h ∈ findall (allRe T W) s → h.groups = [] := by
    intro s
    induction hn : s.length using Nat.strong_induction_on generalizing s with
    | _ n ih =>
      subst hn
      intro h hh
      rw [findall_eq (consumes_all hT.1 W)] at hh
      cases hs : search (allRe T W) s with
      | none => simp [hs] at hh
      | some x =>
        simp only [hs, List.mem_cons] at hh
        rcases hh with rfl | hh
        · obtain ⟨_, -, hpx, -⟩ := search_eq_some hs
          obtain ⟨_, _, _, -, hg, -⟩ := (parse_all hT.1 W _ _).1 hpx
          exact hg
        · exact ih _ (search_rest_length (consumes_all hT.1 W) hs) x.rest rfl h hh
  have hone : ∀ s, (findall (allRe T W) s).length = 1 → groupsOf (allRe T W) s = [[]] := by
    intro s hs
    unfold groupsOf
    obtain ⟨h, hh⟩ := List.length_eq_one_iff.1 hs
    rw [hh]
    simp [hgr s h (by rw [hh]; simp)]
  have key := groups_file (nlFree_all hT.2.1 w2) (consumes_all hT.1 W) ls
    (fun r => decide (r.time = r₀.time) && (decide (r.wave = W.toList) && decide (r.valid = ['1']))) (fun _ => []) ?_ ?_ ?_
  · have := congrArg List.length key
    rw [peaksOf, List.filter_filter]
    simpa [groupsOf] using this
  · intro r hr hm
    simp only [Bool.and_eq_true, decide_eq_true_eq] at hm
    refine hone _ (all_line_hit hT.1 w1 (rowOk hW wf hr) ?_ hm.2.1 hm.2.2)
    rw [hp, hm.1]
    exact ⟨looksLike_refl _, (wf.blank r₀ h₀ _ (by simp [MaxRow.fields])).2⟩
  · intro r hr hm
    unfold groupsOf
    rw [all_line_none hT.1 w1 (rowOk hW wf hr) ?_]
    · rfl
    by_cases h1 : r.wave = W.toList
    · by_cases h2 : r.valid = ['1']
      · left
        intro x hx hpx
        have := wf.times r₀ h₀ r hr hw₀ h1 x hx ((hp x).1 hpx).1
        simp [h1, h2, this] at hm
      · right; right; exact h2
    · right; left; exact h1
  · intro s hs
    unfold groupsOf
    rw [all_other hT W (wf.other s hs).2]
    rfl

end Verif
