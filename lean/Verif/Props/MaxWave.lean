import Verif.Lemmas.MaxTable
import Verif.Props.MaxFile

/-!
# C88: the wave type found in a file is that of its first data line
-/

namespace Verif.Props
open Verif Re MaxFile Spec

theorem nlFree_minusInf : NlFree minusInf := ⟨rfl, nlFree_litChars (by decide)⟩

theorem nlFree_wavetype : NlFree wavetypeRe :=
  ⟨⟨nlFree_defaultTime, nlFree_sp, nlFree_number, nlFree_sp, ⟨rfl, rfl⟩, nlFree_sp, nlFree_number, nlFree_sp,
    nlFree_number, nlFree_sp, nlFree_number, nlFree_sp, nlFree_number, trivial⟩, nlFree_minusInf,
    nlFree_litChars (by decide), nlFree_number, nlFree_litChars (by decide), trivial⟩

/-- The texts the alternatives of the pattern match. -/
theorem parse_wavetype {w : List Char} {g : List (List Char)} (h : Parse wavetypeRe w g) :
    (∃ x1 x2 x3 y, w = x1 ++ ' ' :: (x2 ++ ' ' :: (x3 ++ ' ' :: y)) ∧ g = [x3] ∧ Parse defaultTime x1 [] ∧
      Parse number x2 [] ∧ (∀ c ∈ x3, nonspace c = true)) ∨
    (∃ c cs, w = c :: cs ∧ (c = '-' ∨ c = 'i' ∨ c = 'n')) := by
  rcases h with h | h | h
  · left
    obtain ⟨x1, w1, g1, g1', rfl, rfl, p1, s1, w2, g2, g2', rfl, rfl, q1, x2, w3, g3, g3', rfl, rfl, p2, s2, w4, g4, g4', rfl,
      rfl, q2, x3, w5, g5, g5', rfl, rfl, ⟨g6, rfl, p3⟩, s3, w6, g7, g7', rfl, rfl, q3, q4⟩ := h
    obtain ⟨rfl, rfl⟩ := (parse_sp _ _).1 q1
    obtain ⟨rfl, rfl⟩ := (parse_sp _ _).1 q2
    obtain ⟨rfl, rfl⟩ := (parse_sp _ _).1 q3
    have e1 := parse_noGroups noGroups_defaultTime p1
    have e2 := parse_noGroups noGroups_number p2
    subst e1 e2
    have e4 := parse_noGroups (r := seqs [number, sp, number, sp, number, sp, number])
      ⟨noGroups_number, trivial, noGroups_number, trivial, noGroups_number, trivial, noGroups_number, trivial⟩ q4
    subst e4
    obtain ⟨a, b, ga, gb, rfl, rfl, ⟨⟨c, hc, rfl⟩, rfl⟩, hb, rfl⟩ := p3
    refine ⟨x1, x2, [c] ++ b, w6, by simp, by simp, p1, p2, ?_⟩
    intro d hd
    rcases List.mem_append.1 hd with hd | hd
    · simp only [List.mem_singleton] at hd; rw [hd]; exact hc
    · exact hb d hd
  · right
    obtain ⟨a, b, ga, gb, rfl, rfl, ⟨ha, -⟩, hb⟩ := h
    obtain ⟨rfl, -⟩ := (parse_litChars _ _ _).1 hb
    rcases ha with rfl | ⟨c, hc, rfl⟩
    · exact ⟨'i', ['n', 'f'], by decide, by decide⟩
    · have : c = '-' := by simpa using hc
      exact ⟨c, _, rfl, Or.inl this⟩
  · right
    obtain ⟨a, b, ga, gb, rfl, rfl, ha, -⟩ := h
    obtain ⟨rfl, -⟩ := (parse_litChars _ _ _).1 ha
    exact ⟨'n', 'a' :: 'n' :: ' ' :: b, by simp, by decide⟩

theorem consumes_wavetype : Consumes wavetypeRe := by
  intro g h
  rcases parse_wavetype h with ⟨x1, x2, x3, y, h, -⟩ | ⟨c, cs, h, -⟩
  · cases x1 <;> simp at h
  · simp at h

/-- After a space in a match of the pattern of numbers comes a digit, a letter of an exponent or a sign. -/
theorem number_space {a b : List Char} {c : Char} {g : List (List Char)} (ha : ' ' ∉ a)
    (h : Parse number (a ++ ' ' :: (c :: b)) g) :
    digit c = true ∨ c = 'e' ∨ c = 'E' ∨ c = '+' ∨ c = '-' := by
  obtain ⟨s, w1, g1, g1', e1, -, ⟨ps, -⟩, d0, w2, g2, g2', e2, -, ⟨⟨x0, hx0, rfl⟩, -⟩, d1, w3, g3, g3', e3, -, ⟨pd1, -⟩,
    o, w4, g4, g4', e4, -, ⟨po, -⟩, d2, w5, g5, g5', e5, -, ⟨pd2, -⟩, e, w6, g6, g6', e6, -, ⟨pe, -⟩,
    pm, w7, g7, g7', e7, -, ⟨ppm, -⟩, d3, w8, g8, g8', e8, -, ⟨pd3, -⟩, rfl, -⟩ := h
  have hQ : ∀ x ∈ d2 ++ (e ++ (pm ++ d3)), digit x = true ∨ x = 'e' ∨ x = 'E' ∨ x = '+' ∨ x = '-' := by
    intro x hx
    simp only [List.mem_append] at hx
    rcases hx with hx | hx | hx | hx
    · exact Or.inl (pd2 x hx)
    · rcases pe with rfl | ⟨y, hy, rfl⟩
      · simp at hx
      · simp only [List.mem_singleton] at hx
        subst hx
        simp only [Bool.or_eq_true, beq_iff_eq] at hy
        tauto
    · rcases ppm with rfl | ⟨y, hy, rfl⟩
      · simp at hx
      · simp only [List.mem_singleton] at hx
        subst hx
        simp only [Bool.or_eq_true, beq_iff_eq] at hy
        tauto
    · exact Or.inl (pd3 x hx)
  have hQs : ' ' ∉ d2 ++ (e ++ (pm ++ d3)) := by
    intro h
    rcases hQ _ h with h | h | h | h | h <;> revert h <;> decide
  have hPs : ' ' ∉ s ++ ([x0] ++ d1) := by
    intro h
    simp only [List.mem_append, List.mem_singleton] at h
    rcases h with h | h | h
    · rcases ps with rfl | ⟨y, hy, rfl⟩
      · simp at h
      · simp only [List.mem_singleton] at h
        subst h
        revert hy; decide
    · subst h
      revert hx0; decide
    · have := pd1 _ h
      revert this; decide
  have hw : a ++ ' ' :: (c :: b) = (s ++ ([x0] ++ d1)) ++ (o ++ (d2 ++ (e ++ (pm ++ d3)))) := by
    rw [e1, e2, e3, e4, e5, e6, e7, e8]; simp
  rcases po with rfl | ⟨x, -, rfl⟩
  · exfalso
    have : ' ' ∈ (s ++ ([x0] ++ d1)) ++ ([] ++ (d2 ++ (e ++ (pm ++ d3)))) := by rw [← hw]; simp
    simp only [List.nil_append] at this
    rcases List.mem_append.1 this with h | h
    · exact hPs h
    · exact hQs h
  · by_cases hx : x = ' '
    · subst hx
      have hw2 : a ++ ' ' :: (c :: b) = (s ++ ([x0] ++ d1)) ++ ' ' :: (d2 ++ (e ++ (pm ++ d3))) := by
        rw [hw]; simp
      obtain ⟨-, h2⟩ := split_unique ha hPs hw2
      exact hQ c (by rw [← h2]; simp)
    · exfalso
      have : ' ' ∈ (s ++ ([x0] ++ d1)) ++ ([x] ++ (d2 ++ (e ++ (pm ++ d3)))) := by rw [← hw]; simp
      simp only [List.mem_append (s := s ++ ([x0] ++ d1)), List.mem_append (s := [x]), List.mem_singleton] at this
      rcases this with h | h | h
      · exact hPs h
      · exact hx h.symm
      · exact hQs h

/-- In a data line the wave is found. -/
theorem wave_of_line {r : MaxRow} (hb : ∀ w ∈ r.fields, ' ' ∉ w) (ht : IsTime r.time) (hf : Numeral r.freq)
    (hs : Numeral r.slowness) (ha : Numeral r.azimuth) (he : Numeral r.ellipticity) (hn : Numeral r.noise)
    (hw : ∃ c cs, r.wave = c :: cs ∧ c.isAlpha = true ∧ c ≠ 'e' ∧ c ≠ 'E') (hw' : ∀ c ∈ r.wave, nonspace c = true) :
    ∃ h, search wavetypeRe r.line = some h ∧ h.groups = [r.wave] := by
  obtain ⟨c, cs, hc, hc1, hc2, hc3⟩ := hw
  have hm : MatchesAt wavetypeRe r.line := by
    have pg : Parse (.grp (.seq (.cls nonspace) (.many nonspace))) r.wave [r.wave] := by
      refine ⟨[], rfl, [c], cs, [], [], by rw [hc]; rfl, rfl, ⟨⟨c, hw' c (by simp [hc]), rfl⟩, rfl⟩, ?_, rfl⟩
      intro d hd
      exact hw' d (by simp [hc, hd])
    refine ⟨r.time ++ ' ' :: (r.freq ++ ' ' :: (r.wave ++ ' ' :: (r.slowness ++ ' ' :: (r.azimuth ++ ' ' ::
      (r.ellipticity ++ ' ' :: r.noise))))), [r.wave], ' ' :: (r.power ++ ' ' :: r.valid), by simp [MaxRow.line], Or.inl ?_⟩
    have psp : Parse sp [' '] [] := (parse_sp _ _).2 ⟨rfl, rfl⟩
    refine ⟨r.time, _, [], [r.wave], rfl, rfl, time_parse ht, [' '], _, [], [r.wave], rfl, rfl, psp, r.freq, _, [], [r.wave], rfl, rfl,
      numeral_parse hf, [' '], _, [], [r.wave], rfl, rfl, psp, r.wave, _, [r.wave], [], rfl, rfl, pg, [' '], _, [], [], rfl, rfl, psp,
      r.slowness, _, [], [], rfl, rfl, numeral_parse hs, [' '], _, [], [], rfl, rfl, psp, r.azimuth, _, [], [], rfl, rfl,
      numeral_parse ha, [' '], _, [], [], rfl, rfl, psp, r.ellipticity, _, [], [], rfl, rfl, numeral_parse he, [' '], _, [], [], rfl,
      rfl, psp, r.noise, [], [], [], (List.append_nil _).symm, rfl, numeral_parse hn, rfl, rfl⟩
  cases hsr : search wavetypeRe r.line with
  | none => exact absurd hm (search_eq_none.1 hsr [] r.line rfl)
  | some x =>
    refine ⟨x, rfl, ?_⟩
    obtain ⟨pre, e1, e2, e3⟩ := search_eq_some hsr
    have hpre : pre = [] := by
      by_contra hne
      refine e3 [] pre rfl hne ?_
      rw [← e1]
      exact hm
    subst hpre
    simp only [List.nil_append] at e1
    simp only [MaxRow.fields, List.mem_cons, List.not_mem_nil, or_false, forall_eq_or_imp, forall_eq] at hb
    obtain ⟨b1, b2, b3, b4, b5, b6, b7, b8, b9⟩ := hb
    rcases parse_wavetype e2 with ⟨x1, x2, x3, y, e4, e5, p1, p2, p3⟩ | ⟨d, ds, e4, hd⟩
    · rw [e4] at e1
      have e1' : r.line = x1 ++ ' ' :: (x2 ++ ' ' :: (x3 ++ ' ' :: (y ++ x.rest))) := by rw [e1]; simp
      have n1 : ' ' ∉ x1 := by
        obtain ⟨u1, v1, _, _, rfl, -, ⟨⟨k1, hk1, rfl⟩, -⟩, u2, v2, _, _, rfl, -, ⟨h2, -⟩, u3, v3, _, _, rfl, -, ⟨h3, -⟩, u4, v4, _, _, rfl, -,
          ⟨h4, -⟩, rfl, -⟩ := p1
        intro hmem
        simp only [List.mem_append, List.mem_singleton, List.not_mem_nil, or_false] at hmem
        rcases hmem with h | h | h | h
        · rw [← h] at hk1; revert hk1; decide
        · have := h2 _ h; revert this; decide
        · rcases h3 with rfl | ⟨k3, hk3, rfl⟩
          · simp at h
          · simp only [List.mem_singleton] at h
            rw [← h] at hk3; revert hk3; decide
        · have := h4 _ h; revert this; decide
      unfold MaxRow.line at e1'
      obtain ⟨-, e6⟩ := split_unique b1 n1 e1'
      have n3 : ' ' ∉ x3 := fun h => absurd (p3 _ h) (by decide)
      rcases tok_step b2 e6 with ⟨-, e7⟩ | ⟨A, rfl, e7⟩
      · obtain ⟨e8, -⟩ := split_unique b3 n3 e7
        rw [e5, e8]
      · exfalso
        cases A with
        | nil =>
          rw [hc] at e7
          simp only [List.cons_append, List.nil_append, List.cons.injEq] at e7
          rw [e7.1] at hc1
          exact absurd hc1 (by decide)
        | cons d A =>
          rw [hc] at e7
          simp only [List.cons_append, List.cons.injEq] at e7
          rcases number_space b2 p2 with h | h | h | h | h
          · rw [← e7.1] at h
            simp only [digit, Bool.and_eq_true, decide_eq_true_eq] at h
            have h1 : (48 : UInt32) ≤ c.val ∧ c.val ≤ 57 := h
            simp only [Char.isAlpha, Char.isUpper, Char.isLower, Bool.or_eq_true, Bool.and_eq_true, decide_eq_true_eq] at hc1
            simp only [ge_iff_le, UInt32.le_iff_toNat_le] at h1 hc1
            revert hc1 h1
            simp
            omega
          · exact hc2 (e7.1.trans h)
          · exact hc3 (e7.1.trans h)
          · rw [e7.1, h] at hc1; exact absurd hc1 (by decide)
          · rw [e7.1, h] at hc1; exact absurd hc1 (by decide)
    · exfalso
      obtain ⟨k, ks, hk, hk1⟩ := time_head ht
      rw [e4] at e1
      unfold MaxRow.line at e1
      rw [hk] at e1
      simp only [List.cons_append, List.cons.injEq] at e1
      rw [e1.1] at hk1
      rcases hd with rfl | rfl | rfl <;> revert hk1 <;> decide

/-- The wave type found in a file is the one of its first data line, if that line has a number for the noise and the
pattern has no match in the lines before. -/
theorem C88_wave_of_first_line_partial (heads : List (List Char)) (r : MaxRow) (rest : List MaxLine)
    (hh : ∀ s ∈ heads, ∀ p w q g, s = p ++ (w ++ q) → ¬ Parse wavetypeRe w g)
    (hb : ∀ w ∈ r.fields, ' ' ∉ w) (ht : IsTime r.time) (hf : Numeral r.freq)
    (hs : Numeral r.slowness) (ha : Numeral r.azimuth) (he : Numeral r.ellipticity) (hn : Numeral r.noise)
    (hw : ∃ c cs, r.wave = c :: cs ∧ c.isAlpha = true ∧ c ≠ 'e' ∧ c ≠ 'E') (hw' : ∀ c ∈ r.wave, nonspace c = true) :
    waveOf (maxText (heads.map MaxLine.other ++ MaxLine.row r :: rest)) = .ok (some r.wave) := by
  obtain ⟨h, h1, h2⟩ := wave_of_line hb ht hf hs ha he hn hw hw'
  have key : ∃ h, search wavetypeRe (maxText (heads.map MaxLine.other ++ MaxLine.row r :: rest)) = some h ∧
      h.groups = [r.wave] := by
    induction heads with
    | nil =>
      have : maxText (([] : List (List Char)).map MaxLine.other ++ MaxLine.row r :: rest) = r.line ++ '\n' :: maxText rest := by
        simp [maxText, MaxLine.text]
      rw [this, search_nl nlFree_wavetype consumes_wavetype, h1]
      exact ⟨_, rfl, h2⟩
    | cons s heads ih =>
      have : maxText ((s :: heads).map MaxLine.other ++ MaxLine.row r :: rest) =
          s ++ '\n' :: maxText (heads.map MaxLine.other ++ MaxLine.row r :: rest) := by
        simp [maxText, MaxLine.text]
      have hnone : search wavetypeRe s = none := by
        rw [search_eq_none]
        rintro p q hpq ⟨w, g, t, e1, e2⟩
        exact hh s (List.mem_cons_self ..) p w t g (by rw [hpq, e1]) e2
      rw [this, search_nl nlFree_wavetype consumes_wavetype, hnone]
      exact ih fun s hs => hh s (List.mem_cons_of_mem _ hs)
  obtain ⟨h, k1, k2⟩ := key
  unfold waveOf
  rw [k1]
  simp [k2]

/-- A line without digits, `i` and `n` has no match. -/
theorem no_wave_match {s : List Char} (h : ∀ c ∈ s, ¬ ('0' ≤ c ∧ c ≤ '9') ∧ c ≠ '-' ∧ c ≠ 'i' ∧ c ≠ 'n') :
    ∀ p w q g, s = p ++ (w ++ q) → ¬ Parse wavetypeRe w g := by
  intro p w q g e hp
  rcases parse_wavetype hp with ⟨x1, x2, x3, y, rfl, -, p1, -⟩ | ⟨c, cs, rfl, hc⟩
  · obtain ⟨c, hc, hd⟩ := timePattern_default.2.2 x1 p1
    exact (h c (by rw [e]; simp [hc])).1 hd
  · have := (h c (by rw [e]; simp)).2
    tauto

/-- A title line and a single-component data line meet the hypotheses. -/
example : waveOf (maxText (["# MAX FORMAT".toList].map MaxLine.other ++
    [MaxLine.row ⟨['7'], ['5'], "Vertical".toList, ['2'], ['3'], ['1'], ['4'], ['6'], ['1']⟩])) =
    .ok (some "Vertical".toList) := by
  have num : ∀ c : Char, '0' ≤ c ∧ c ≤ '9' → Numeral [c] := fun c hc =>
    ⟨[], [c], [], [], rfl, Or.inl rfl, by intro d hd; simp only [List.mem_singleton] at hd; rw [hd]; exact hc,
      by simp, Or.inl rfl, Or.inl rfl⟩
  refine C88_wave_of_first_line_partial _ _ [] ?_ (by decide)
    ⟨['7'], [], rfl, by decide, by decide, Or.inl rfl⟩ (num _ (by decide)) (num _ (by decide)) (num _ (by decide))
    (num _ (by decide)) (num _ (by decide)) ⟨'V', _, rfl, by decide, by decide, by decide⟩ (by decide)
  intro s hs
  simp only [List.mem_singleton] at hs
  subst hs
  exact no_wave_match (by decide)

/-- A first data line with noise `inf` hides the wave. -/
theorem C88_noise_inf_hides_wave_counterexample :
    waveOf "7 5 Vertical 0.005 10 0 inf 0 1\n".toList = .ok none := by decide +kernel

end Verif.Props
