import Verif.Spec.MaxFile
import Verif.Model.MaxFile
import Verif.Props.Regex
import Verif.Lemmas.Lists

/-!
# How the patterns of `regex.py` match one line of a `.max` file
-/

namespace Verif
open Re MaxFile Spec

/-! ## Parsing sequences of patterns -/

theorem parse_litChars (s w : List Char) (g : List (List Char)) :
    Parse (litChars s) w g ↔ w = s ∧ g = [] := by
  induction s generalizing w g with
  | nil => simp [litChars, Parse]
  | cons c s ih =>
    simp only [litChars, lit, Parse, ih]
    constructor
    · rintro ⟨w₁, w₂, g₁, g₂, rfl, rfl, ⟨⟨d, hd, rfl⟩, rfl⟩, rfl, rfl⟩
      simp only [beq_iff_eq] at hd
      simp [hd]
    · rintro ⟨rfl, rfl⟩
      exact ⟨[c], s, [], [], rfl, rfl, ⟨⟨c, by simp, rfl⟩, rfl⟩, rfl, rfl⟩

theorem parse_sp (w : List Char) (g : List (List Char)) : Parse sp w g ↔ w = [' '] ∧ g = [] := by
  simp [sp, lit, Parse]

/-- A pattern without groups. -/
def NoGroups : Re → Prop
  | .eps => True
  | .cls _ => True
  | .opt _ => True
  | .many _ => True
  | .seq a b => NoGroups a ∧ NoGroups b
  | .alt a b => NoGroups a ∧ NoGroups b
  | .grp _ => False

theorem parse_noGroups {r : Re} (hr : NoGroups r) {w : List Char} {g : List (List Char)} (h : Parse r w g) :
    g = [] := by
  induction r generalizing w g with
  | eps => exact h.2
  | cls p => exact h.2
  | opt p => exact h.2
  | many p => exact h.2
  | seq a b iha ihb =>
    obtain ⟨w₁, w₂, g₁, g₂, -, rfl, h1, h2⟩ := h
    rw [iha hr.1 h1, ihb hr.2 h2]; rfl
  | alt a b iha ihb =>
    rcases h with h | h
    · exact iha hr.1 h
    · exact ihb hr.2 h
  | grp a _ => exact absurd hr id

theorem noGroups_number : NoGroups number := by
  simp [number, seqs, NoGroups]

theorem noGroups_defaultTime : NoGroups defaultTime := by
  simp [defaultTime, seqs, NoGroups]

theorem noGroups_litChars (s : List Char) : NoGroups (litChars s) := by
  induction s with
  | nil => trivial
  | cons c s ih => exact ⟨trivial, ih⟩

/-- The pattern of the noise. -/
def noiseRe : Re := .alt number (.alt minusInf (lits "nan"))

theorem noGroups_noise : NoGroups noiseRe :=
  ⟨noGroups_number, ⟨trivial, noGroups_litChars _⟩, noGroups_litChars _⟩

theorem nlFree_litChars {s : List Char} (hs : '\n' ∉ s) : NlFree (litChars s) := by
  induction s with
  | nil => trivial
  | cons c s ih =>
    simp only [List.mem_cons, not_or] at hs
    refine ⟨?_, ih hs.2⟩
    simp only [lit, NlFree, beq_eq_false_iff_ne]
    exact hs.1

theorem nlFree_number : NlFree number := by
  simp only [number, seqs, NlFree]
  decide

theorem nlFree_defaultTime : NlFree defaultTime := by
  simp only [defaultTime, seqs, NlFree]
  decide

theorem nlFree_sp : NlFree sp := by simp [sp, lit, NlFree]

theorem nlFree_noise : NlFree noiseRe := by
  refine ⟨nlFree_number, ⟨?_, nlFree_litChars (by decide)⟩, nlFree_litChars (by decide)⟩
  simp [NlFree]

/-- A group followed by a space and the rest. -/
theorem parse_grp_sp {a b : Re} (ha : NoGroups a) (w : List Char) (g : List (List Char)) :
    Parse (.seq (.grp a) (.seq sp b)) w g ↔
      ∃ x y g', w = x ++ ' ' :: y ∧ g = x :: g' ∧ Parse a x [] ∧ Parse b y g' := by
  constructor
  · rintro ⟨x, w₂, g₁, g₂, rfl, rfl, ⟨g₁', rfl, h1⟩, s, y, g₃, g₄, rfl, rfl, h2, h3⟩
    obtain ⟨rfl, rfl⟩ := (parse_sp s g₃).1 h2
    have := parse_noGroups ha h1
    subst this
    exact ⟨x, y, g₄, by simp, by simp, h1, h3⟩
  · rintro ⟨x, y, g', rfl, rfl, h1, h2⟩
    exact ⟨x, ' ' :: y, [x], g', rfl, rfl, ⟨[], rfl, h1⟩, [' '], y, [], g', rfl, rfl, (parse_sp _ _).2 ⟨rfl, rfl⟩, h2⟩

/-- What the pattern of a peak matches. -/
theorem parse_peak {T F : Re} (hT : NoGroups T) (hF : NoGroups F) (W : String) (w : List Char)
    (g : List (List Char)) :
    Parse (peakRe T F W) w g ↔ ∃ x1 x2 x3 x4 x5 x6 x7,
      w = x1 ++ ' ' :: (x2 ++ ' ' :: (W.toList ++ ' ' :: (x3 ++ ' ' :: (x4 ++ ' ' :: (x5 ++ ' ' ::
        (x6 ++ ' ' :: (x7 ++ [' ', '1']))))))) ∧ g = [x1, x2, x3, x4, x5, x6, x7] ∧
      Parse T x1 [] ∧ Parse F x2 [] ∧ Parse number x3 [] ∧ Parse number x4 [] ∧ Parse number x5 [] ∧
      Parse noiseRe x6 [] ∧ Parse number x7 [] := by
  have h1 : (" 1" : String).toList = [' ', '1'] := by decide
  unfold peakRe peakTail
  simp only [seqs]
  rw [parse_grp_sp hT]
  simp only [parse_grp_sp hF]
  constructor
  · rintro ⟨x1, y1, g1, rfl, rfl, p1, x2, y2, g2, rfl, rfl, p2, w', y3, g3, g3', rfl, rfl, p3, y4, y5, g4, g4', rfl, rfl,
      q1, ⟨rfl, rfl⟩⟩
    obtain ⟨rfl, rfl⟩ := (parse_litChars _ _ _).1 p3
    obtain ⟨s, y6, g5, g6, rfl, rfl, q2, q3⟩ := q1
    obtain ⟨rfl, rfl⟩ := (parse_sp _ _).1 q2
    rw [parse_grp_sp noGroups_number] at q3
    obtain ⟨x3, y7, g7, rfl, rfl, p3, q3⟩ := q3
    rw [parse_grp_sp noGroups_number] at q3
    obtain ⟨x4, y8, g8, rfl, rfl, p4, q3⟩ := q3
    rw [parse_grp_sp noGroups_number] at q3
    obtain ⟨x5, y9, g9, rfl, rfl, p5, q3⟩ := q3
    rw [parse_grp_sp (a := .alt number (.alt minusInf (lits "nan"))) noGroups_noise] at q3
    obtain ⟨x6, y10, g10, rfl, rfl, p6, q3⟩ := q3
    obtain ⟨x7, y11, g11, g12, rfl, rfl, ⟨g13, rfl, p7⟩, y12, y13, g14, g15, rfl, rfl, p8, ⟨rfl, rfl⟩⟩ := q3
    have e7 := parse_noGroups noGroups_number p7
    subst e7
    obtain ⟨rfl, rfl⟩ := (parse_litChars _ _ _).1 p8
    refine ⟨x1, x2, x3, x4, x5, x6, x7, ?_, by simp, p1, p2, p3, p4, p5, p6, p7⟩
    simp [h1]
  · rintro ⟨x1, x2, x3, x4, x5, x6, x7, rfl, rfl, p1, p2, p3, p4, p5, p6, p7⟩
    refine ⟨x1, _, _, rfl, rfl, p1, x2, _, _, rfl, rfl, p2, W.toList, _, [], _, rfl, rfl,
      (parse_litChars _ _ _).2 ⟨rfl, rfl⟩, _, [], _, [], (List.append_nil _).symm, (List.append_nil _).symm, ?_, rfl, rfl⟩
    refine ⟨[' '], _, [], _, rfl, rfl, (parse_sp _ _).2 ⟨rfl, rfl⟩, ?_⟩
    rw [parse_grp_sp noGroups_number]
    refine ⟨x3, _, _, rfl, rfl, p3, ?_⟩
    rw [parse_grp_sp noGroups_number]
    refine ⟨x4, _, _, rfl, rfl, p4, ?_⟩
    rw [parse_grp_sp noGroups_number]
    refine ⟨x5, _, _, rfl, rfl, p5, ?_⟩
    rw [parse_grp_sp (a := .alt number (.alt minusInf (lits "nan"))) noGroups_noise]
    refine ⟨x6, _, _, rfl, rfl, p6, ?_⟩
    exact ⟨x7, [' ', '1'], [x7], [], rfl, rfl, ⟨[], rfl, p7⟩, [' ', '1'], [], [], [], rfl, rfl,
      (parse_litChars _ _ _).2 ⟨h1.symm, rfl⟩, rfl, rfl⟩

/-- What the pattern of all peaks of a time matches. -/
theorem parse_all {T : Re} (hT : NoGroups T) (W : String) (w : List Char) (g : List (List Char)) :
    Parse (allRe T W) w g ↔ ∃ x y z, w = x ++ ' ' :: (y ++ ' ' :: (W.toList ++ ' ' :: (z ++ [' ', '1']))) ∧
      g = [] ∧ Parse T x [] ∧ '\n' ∉ y ∧ '\n' ∉ z := by
  have h1 : (" 1" : String).toList = [' ', '1'] := by decide
  have hany : ∀ l : List Char, (∀ c ∈ l, any c = true) ↔ '\n' ∉ l := by
    intro l
    constructor
    · intro h hn
      exact absurd (h _ hn) (by decide)
    · intro h c hc
      simp only [any, bne_iff_ne]
      rintro rfl
      exact h hc
  unfold allRe
  simp only [seqs]
  constructor
  · rintro ⟨x, w1, g1, g1', rfl, rfl, p1, s1, w2, g2, g2', rfl, rfl, q1, y, w3, g3, g3', rfl, rfl, ⟨p2, rfl⟩,
      s2, w4, g4, g4', rfl, rfl, q2, w', w5, g5, g5', rfl, rfl, q3, s3, w6, g6, g6', rfl, rfl, q4,
      z, w7, g7, g7', rfl, rfl, ⟨p3, rfl⟩, e, w8, g8, g8', rfl, rfl, q5, ⟨rfl, rfl⟩⟩
    obtain ⟨rfl, rfl⟩ := (parse_sp _ _).1 q1
    obtain ⟨rfl, rfl⟩ := (parse_sp _ _).1 q2
    obtain ⟨rfl, rfl⟩ := (parse_sp _ _).1 q4
    obtain ⟨rfl, rfl⟩ := (parse_litChars _ _ _).1 q3
    obtain ⟨rfl, rfl⟩ := (parse_litChars _ _ _).1 q5
    have e1 := parse_noGroups hT p1
    subst e1
    exact ⟨x, y, z, by simp [h1], by simp, p1, (hany y).1 p2, (hany z).1 p3⟩
  · rintro ⟨x, y, z, rfl, rfl, p1, p2, p3⟩
    exact ⟨x, _, [], [], rfl, rfl, p1, [' '], _, [], [], rfl, rfl, (parse_sp _ _).2 ⟨rfl, rfl⟩, y, _, [], [], rfl, rfl,
      ⟨(hany y).2 p2, rfl⟩, [' '], _, [], [], rfl, rfl, (parse_sp _ _).2 ⟨rfl, rfl⟩, W.toList, _, [], [], rfl, rfl,
      (parse_litChars _ _ _).2 ⟨rfl, rfl⟩, [' '], _, [], [], rfl, rfl, (parse_sp _ _).2 ⟨rfl, rfl⟩, z, _, [], [], rfl, rfl,
      ⟨(hany z).2 p3, rfl⟩, [' ', '1'], [], [], [], rfl, rfl, (parse_litChars _ _ _).2 ⟨h1.symm, rfl⟩, rfl, rfl⟩

theorem nlFree_peak {T F : Re} (hT : NlFree T) (hF : NlFree F) {W : String} (hW : '\n' ∉ W.toList) :
    NlFree (peakRe T F W) :=
  ⟨hT, nlFree_sp, hF, nlFree_sp, nlFree_litChars hW,
    ⟨nlFree_sp, nlFree_number, nlFree_sp, nlFree_number, nlFree_sp, nlFree_number, nlFree_sp, nlFree_noise, nlFree_sp,
      nlFree_number, nlFree_litChars (by decide), trivial⟩, trivial⟩

theorem nlFree_all {T : Re} (hT : NlFree T) {W : String} (hW : '\n' ∉ W.toList) : NlFree (allRe T W) :=
  ⟨hT, nlFree_sp, (rfl : any '\n' = false), nlFree_sp, nlFree_litChars hW, nlFree_sp, (rfl : any '\n' = false), nlFree_litChars (by decide), trivial⟩

theorem consumes_peak {T F : Re} (hT : NoGroups T) (hF : NoGroups F) (W : String) : Consumes (peakRe T F W) := by
  intro g h
  obtain ⟨x1, _, _, _, _, _, _, h, -⟩ := (parse_peak hT hF W [] g).1 h
  cases x1 <;> simp at h

theorem consumes_all {T : Re} (hT : NoGroups T) (W : String) : Consumes (allRe T W) := by
  intro g h
  obtain ⟨x, _, _, h, -⟩ := (parse_all hT W [] g).1 h
  cases x <;> simp at h

/-! ## Times and frequencies used as patterns -/

theorem ofText_plain (t : List Char) (h : ∀ c ∈ t, special c = false) (hn : '\n' ∉ t) :
    ∃ r, ofText t = .ok r ∧ NoGroups r ∧ NlFree r ∧
      ∀ w g, Parse r w g ↔ g = [] ∧ LooksLike t w ∧ '\n' ∉ w := by
  induction t with
  | nil =>
    refine ⟨.eps, rfl, trivial, trivial, ?_⟩
    intro w g
    simp only [Parse, LooksLike, List.forall₂_nil_left_iff]
    constructor
    · rintro ⟨rfl, rfl⟩; simp
    · rintro ⟨rfl, rfl, -⟩; simp
  | cons c t ih =>
    simp only [List.mem_cons, not_or] at hn
    obtain ⟨r, hr, h1, h2, h3⟩ := ih (fun d hd => h d (List.mem_cons_of_mem _ hd)) hn.2
    have hc : special c = false := h c (List.mem_cons_self ..)
    have hitem : item c '\n' = false := by
      unfold item
      split_ifs with hd
      · rfl
      · simpa using hn.1
    refine ⟨.seq (.cls (item c)) r, ?_, ⟨trivial, h1⟩, ⟨hitem, h2⟩, ?_⟩
    · unfold ofText
      rw [if_neg (by simp [hc])]
      cases t with
      | nil => simp only [hr]
      | cons d t =>
        have hd : d ≠ '+' := by
          rintro rfl
          exact absurd (h '+' (by simp)) (by decide)
        split
        · rename_i heq
          simp only [List.cons.injEq] at heq
          exact absurd heq.1 hd
        · rw [hr]
    · intro w g
      simp only [Parse, h3]
      constructor
      · rintro ⟨w₁, w₂, g₁, g₂, rfl, rfl, ⟨⟨d, hd, rfl⟩, rfl⟩, rfl, hl, hw⟩
        refine ⟨rfl, List.Forall₂.cons ?_ hl, ?_⟩
        · unfold item at hd
          split_ifs at hd with h0
          · exact Or.inl h0
          · right; simpa using (beq_iff_eq.1 hd).symm
        · simp only [List.cons_append, List.nil_append, List.mem_cons, not_or]
          refine ⟨?_, hw⟩
          rintro rfl
          rw [hitem] at hd
          exact absurd hd (by decide)
      · rintro ⟨rfl, hl, hw⟩
        cases hl with
        | @cons _ d _ w' hd hl =>
          simp only [List.mem_cons, not_or] at hw
          refine ⟨[d], w', [], [], rfl, rfl, ⟨⟨d, ?_, rfl⟩, rfl⟩, rfl, hl, hw.2⟩
          unfold item
          split_ifs with h0
          · simpa [any] using Ne.symm hw.1
          · rcases hd with hd | hd
            · exact absurd hd h0
            · simp [hd]

/-! ## Fields between spaces -/

/-- The first space of the line is in `A`, or it is the one after `A`. -/
theorem tok_step {t R A X : List Char} (ht : ' ' ∉ t) (h : t ++ ' ' :: R = A ++ ' ' :: X) :
    (A = t ∧ R = X) ∨ ∃ A', A = t ++ ' ' :: A' ∧ R = A' ++ ' ' :: X := by
  induction t generalizing A with
  | nil =>
    cases A with
    | nil => left; simpa using h
    | cons a A =>
      simp only [List.nil_append, List.cons_append, List.cons.injEq] at h
      right
      exact ⟨A, by rw [← h.1]; rfl, h.2⟩
  | cons c t ih =>
    simp only [List.mem_cons, not_or] at ht
    cases A with
    | nil =>
      simp only [List.cons_append, List.nil_append, List.cons.injEq] at h
      exact absurd h.1.symm ht.1
    | cons a A =>
      simp only [List.cons_append, List.cons.injEq] at h
      rcases ih ht.2 h.2 with ⟨h1, h2⟩ | ⟨A', h1, h2⟩
      · left; exact ⟨by rw [h1, h.1], h2⟩
      · right; exact ⟨A', by rw [h1, h.1]; rfl, h2⟩

/-- With as many spaces after it, the first field is the first field. -/
theorem tok_count {a R x S : List Char} (ha : ' ' ∉ a) (h : a ++ ' ' :: R = x ++ ' ' :: S)
    (hc : R.count ' ' ≤ S.count ' ') : x = a ∧ S = R := by
  rcases tok_step ha h with ⟨h1, h2⟩ | ⟨A', h1, h2⟩
  · exact ⟨h1, h2.symm⟩
  · rw [h2, List.count_append, List.count_cons_self] at hc
    omega

/-- Characters of a numeral. -/
theorem numeral_ne_nil {w : List Char} (h : Numeral w) : ∃ c cs, w = c :: cs ∧ (c = '-' ∨ '0' ≤ c ∧ c ≤ '9') := by
  obtain ⟨s, i, f, e, rfl, hs, hi, hn, -, -⟩ := h
  rcases hs with rfl | rfl
  · cases i with
    | nil => exact absurd rfl hn
    | cons c i => exact ⟨c, _, rfl, Or.inr (hi c (by simp))⟩
  · exact ⟨'-', _, rfl, Or.inl rfl⟩

/-- The spaces before and after the wave are those of the line. -/
theorem wave_split {r : MaxRow} {W A B : List Char} (hb : ∀ w ∈ r.fields, ' ' ∉ w) (hW : ' ' ∉ W)
    (hne : ∀ w ∈ [r.time, r.freq, r.slowness, r.azimuth, r.ellipticity, r.noise, r.power], w ≠ W)
    (h : r.line = A ++ ' ' :: (W ++ ' ' :: B)) :
    r.wave = W ∧ A = r.time ++ ' ' :: r.freq ∧
      B = r.slowness ++ ' ' :: (r.azimuth ++ ' ' :: (r.ellipticity ++ ' ' :: (r.noise ++ ' ' ::
        (r.power ++ ' ' :: r.valid)))) := by
  simp only [MaxRow.fields, List.mem_cons, List.not_mem_nil, or_false, forall_eq_or_imp, forall_eq] at hb hne
  obtain ⟨b1, b2, b3, b4, b5, b6, b7, b8, b9⟩ := hb
  obtain ⟨n1, n2, n3, n4, n5, n6, n7⟩ := hne
  unfold MaxRow.line at h
  rcases tok_step b1 h with ⟨-, h1⟩ | ⟨A1, rfl, h1⟩
  · exact absurd (split_unique b2 hW h1).1 n2
  rcases tok_step b2 h1 with ⟨rfl, h2⟩ | ⟨A2, rfl, h2⟩
  · obtain ⟨e1, e2⟩ := split_unique b3 hW h2
    exact ⟨e1, rfl, e2.symm⟩
  rcases tok_step b3 h2 with ⟨-, h3⟩ | ⟨A3, rfl, h3⟩
  · exact absurd (split_unique b4 hW h3).1 n3
  rcases tok_step b4 h3 with ⟨-, h4⟩ | ⟨A4, rfl, h4⟩
  · exact absurd (split_unique b5 hW h4).1 n4
  rcases tok_step b5 h4 with ⟨-, h5⟩ | ⟨A5, rfl, h5⟩
  · exact absurd (split_unique b6 hW h5).1 n5
  rcases tok_step b6 h5 with ⟨-, h6⟩ | ⟨A6, rfl, h6⟩
  · exact absurd (split_unique b7 hW h6).1 n6
  rcases tok_step b7 h6 with ⟨-, h7⟩ | ⟨A7, rfl, h7⟩
  · exact absurd (split_unique b8 hW h7).1 n7
  rcases tok_step b8 h7 with ⟨-, h8⟩ | ⟨A8, rfl, h8⟩
  · exact absurd (h8 ▸ b9 : ' ' ∉ W ++ ' ' :: B) (by simp)
  · exact absurd (h8 ▸ b9 : ' ' ∉ A8 ++ ' ' :: (W ++ ' ' :: B)) (by simp)

/-- Where the time, the frequency and the wave of a match are in the line. -/
theorem front_split {r : MaxRow} {W pre x y B : List Char} (hb : ∀ w ∈ r.fields, ' ' ∉ w) (hW : ' ' ∉ W)
    (hne : ∀ w ∈ [r.time, r.freq, r.slowness, r.azimuth, r.ellipticity, r.noise, r.power], w ≠ W)
    (h : r.line = pre ++ (x ++ ' ' :: (y ++ ' ' :: (W ++ ' ' :: B)))) :
    r.wave = W ∧ pre ++ x = r.time ∧ y = r.freq ∧
      B = r.slowness ++ ' ' :: (r.azimuth ++ ' ' :: (r.ellipticity ++ ' ' :: (r.noise ++ ' ' ::
        (r.power ++ ' ' :: r.valid)))) := by
  have h' : r.line = (pre ++ x ++ ' ' :: y) ++ ' ' :: (W ++ ' ' :: B) := by simpa using h
  obtain ⟨h1, h2, h3⟩ := wave_split hb hW hne h'
  have b1 : ' ' ∉ r.time := hb _ (by simp [MaxRow.fields])
  have b2 : ' ' ∉ r.freq := hb _ (by simp [MaxRow.fields])
  rcases tok_step b1 h2.symm with ⟨e1, e2⟩ | ⟨A', e1, e2⟩
  · exact ⟨h1, e1, e2.symm, h3⟩
  · exact absurd (e2 ▸ b2 : ' ' ∉ A' ++ ' ' :: y) (by simp)

/-- The conditions on a data line. -/
structure RowOk (W : List Char) (r : MaxRow) : Prop where
  blank : ∀ w ∈ r.fields, ' ' ∉ w
  nl : ∀ w ∈ r.fields, '\n' ∉ w
  ne : ∀ w ∈ [r.time, r.freq, r.slowness, r.azimuth, r.ellipticity, r.noise, r.power], w ≠ W
  nums : Parse number r.slowness [] ∧ Parse number r.azimuth [] ∧ Parse number r.ellipticity [] ∧
    Parse noiseRe r.noise [] ∧ Parse number r.power []
  flag : r.valid = ['1'] ∨ r.valid = ['0'] ∧
    ∀ w ∈ [r.azimuth, r.ellipticity, r.noise, r.power], w.head? ≠ some '1'

/-- A match of the pattern of a peak in a data line: the fields are the fields. -/
theorem peak_in_line {T F : Re} (hT : NoGroups T) (hF : NoGroups F) {W : String} (hW : ' ' ∉ W.toList)
    {r : MaxRow} (hr : RowOk W.toList r) {pre w rest : List Char} {g : List (List Char)}
    (h : r.line = pre ++ (w ++ rest)) (hp : Parse (peakRe T F W) w g) :
    ∃ x, pre ++ x = r.time ∧ Parse T x [] ∧ Parse F r.freq [] ∧ r.wave = W.toList ∧ r.valid = ['1'] ∧ rest = [] ∧
      g = [x, r.freq, r.slowness, r.azimuth, r.ellipticity, r.noise, r.power] := by
  obtain ⟨x1, x2, x3, x4, x5, x6, x7, rfl, rfl, p1, p2, p3, p4, p5, p6, p7⟩ := (parse_peak hT hF W w g).1 hp
  have h' : r.line = pre ++ (x1 ++ ' ' :: (x2 ++ ' ' :: (W.toList ++ ' ' :: (x3 ++ ' ' :: (x4 ++ ' ' ::
      (x5 ++ ' ' :: (x6 ++ ' ' :: (x7 ++ ' ' :: '1' :: rest)))))))) := by simpa using h
  obtain ⟨e1, e2, e3, e4⟩ := front_split hr.blank hW hr.ne h'
  have hb := hr.blank
  simp only [MaxRow.fields, List.mem_cons, List.not_mem_nil, or_false, forall_eq_or_imp, forall_eq] at hb
  obtain ⟨b1, b2, b3, b4, b5, b6, b7, b8, b9⟩ := hb
  have c5 := List.count_eq_zero.2 b5
  have c6 := List.count_eq_zero.2 b6
  have c7 := List.count_eq_zero.2 b7
  have c8 := List.count_eq_zero.2 b8
  have c9 := List.count_eq_zero.2 b9
  obtain ⟨f1, e4⟩ := tok_count b4 e4.symm (by simp [List.count_append, c5, c6, c7, c8, c9]; omega)
  obtain ⟨f2, e4⟩ := tok_count b5 e4.symm (by simp [List.count_append, c6, c7, c8, c9]; omega)
  obtain ⟨f3, e4⟩ := tok_count b6 e4.symm (by simp [List.count_append, c7, c8, c9]; omega)
  obtain ⟨f4, e4⟩ := tok_count b7 e4.symm (by simp [List.count_append, c8, c9]; omega)
  obtain ⟨f5, e4⟩ := tok_count b8 e4.symm (by simp [c9])
  have hv : r.valid = ['1'] ∧ rest = [] := by
    rcases hr.flag with hv | ⟨hv, -⟩
    · rw [hv] at e4
      simp only [List.cons.injEq, true_and] at e4
      exact ⟨hv, e4⟩
    · rw [hv] at e4
      simp at e4
  subst e3
  exact ⟨x1, e2, p1, p2, e1, hv.1, hv.2, by rw [f1, f2, f3, f4, f5]⟩

/-- A data line with the time and the frequency asked for has exactly one match. -/
theorem peak_line_hit {T F : Re} (hT : NoGroups T) (hF : NoGroups F) {W : String} (hW : ' ' ∉ W.toList)
    {r : MaxRow} (hr : RowOk W.toList r) (h1 : Parse T r.time []) (h2 : Parse F r.freq [])
    (h3 : r.wave = W.toList) (h4 : r.valid = ['1']) :
    groupsOf (peakRe T F W) r.line =
      [[r.time, r.freq, r.slowness, r.azimuth, r.ellipticity, r.noise, r.power]] := by
  have hc := consumes_peak hT hF W
  have hm : Parse (peakRe T F W) r.line [r.time, r.freq, r.slowness, r.azimuth, r.ellipticity, r.noise, r.power] := by
    rw [parse_peak hT hF]
    obtain ⟨n1, n2, n3, n4, n5⟩ := hr.nums
    exact ⟨r.time, r.freq, r.slowness, r.azimuth, r.ellipticity, r.noise, r.power,
      by simp [MaxRow.line, h3, h4], rfl, h1, h2, n1, n2, n3, n4, n5⟩
  unfold groupsOf
  rw [findall_eq hc]
  cases hs : search (peakRe T F W) r.line with
  | none =>
    exact absurd ⟨r.line, _, [], by simp, hm⟩ (search_eq_none.1 hs [] r.line rfl)
  | some x =>
    obtain ⟨pre, e1, e2, e3⟩ := search_eq_some hs
    have hpre : pre = [] := by
      by_contra hne
      refine e3 [] pre rfl hne ?_
      rw [← e1]
      exact ⟨r.line, _, [], by simp, hm⟩
    subst hpre
    obtain ⟨y, y1, -, -, -, -, y2, y3⟩ := peak_in_line hT hF hW hr e1 e2
    have h0 : search (peakRe T F W) [] = none := by
      rw [search, consumes_run_nil hc]; rfl
    simp only [List.nil_append] at y1
    simp only [y2, List.map_cons, y3, y1]
    rw [findall_eq hc, h0]
    rfl

/-- Other data lines have none. -/
theorem peak_line_none {T F : Re} (hT : NoGroups T) (hF : NoGroups F) {W : String} (hW : ' ' ∉ W.toList)
    {r : MaxRow} (hr : RowOk W.toList r)
    (h : (∀ x, x <:+ r.time → ¬ Parse T x []) ∨ ¬ Parse F r.freq [] ∨ r.wave ≠ W.toList ∨ r.valid ≠ ['1']) :
    groupsOf (peakRe T F W) r.line = [] := by
  have hc := consumes_peak hT hF W
  unfold groupsOf
  rw [findall_eq hc]
  cases hs : search (peakRe T F W) r.line with
  | none => rfl
  | some x =>
    exfalso
    obtain ⟨pre, e1, e2, -⟩ := search_eq_some hs
    obtain ⟨y, y1, y2, y3, y4, y5, -, -⟩ := peak_in_line hT hF hW hr e1 e2
    rcases h with h | h | h | h
    · exact h y ⟨pre, y1⟩ y2
    · exact h y3
    · exact h y4
    · exact h y5

/-- A match of the pattern of all peaks of a time in a data line. -/
theorem all_in_line {T : Re} (hT : NoGroups T) {W : String} (hW : ' ' ∉ W.toList)
    {r : MaxRow} (hr : RowOk W.toList r) {pre w rest : List Char} {g : List (List Char)}
    (h : r.line = pre ++ (w ++ rest)) (hp : Parse (allRe T W) w g) :
    (∃ x, pre ++ x = r.time ∧ Parse T x []) ∧ r.wave = W.toList ∧ r.valid = ['1'] ∧ pre.length ≤ r.time.length ∧
      r.time.length < pre.length + w.length := by
  obtain ⟨x, y, z, rfl, -, p1, p2, p3⟩ := (parse_all hT W w g).1 hp
  have h' : r.line = pre ++ (x ++ ' ' :: (y ++ ' ' :: (W.toList ++ ' ' :: (z ++ ' ' :: '1' :: rest)))) := by
    simpa using h
  obtain ⟨e1, e2, e3, e4⟩ := front_split hr.blank hW hr.ne h'
  have hlen : pre.length + x.length = r.time.length := by rw [← e2, List.length_append]
  refine ⟨⟨x, e2, p1⟩, e1, ?_, by omega, by simp only [List.length_append, List.length_cons]; omega⟩
  rcases hr.flag with hv | ⟨hv, hn⟩
  · exact hv
  exfalso
  have hb := hr.blank
  simp only [MaxRow.fields, List.mem_cons, List.not_mem_nil, or_false, forall_eq_or_imp, forall_eq] at hb hn
  obtain ⟨b1, b2, b3, b4, b5, b6, b7, b8, b9⟩ := hb
  obtain ⟨n1, n2, n3, n4⟩ := hn
  have hd : ∀ {a b c : List Char}, a ≠ [] → a.head? ≠ some '1' → a ++ b = '1' :: c → False := by
    intro a b c ha hn he
    cases a with
    | nil => exact ha rfl
    | cons d a =>
      simp only [List.cons_append, List.cons.injEq] at he
      exact hn (by simp [he.1])
  have ne1 : r.azimuth ≠ [] := by
    intro h0; have := hr.nums.2.1; rw [h0] at this; exact absurd this (by simp [number, seqs, Parse])
  have ne2 : r.ellipticity ≠ [] := by
    intro h0; have := hr.nums.2.2.1; rw [h0] at this; exact absurd this (by simp [number, seqs, Parse])
  have ne4 : r.power ≠ [] := by
    intro h0; have := hr.nums.2.2.2.2; rw [h0] at this; exact absurd this (by simp [number, seqs, Parse])
  have ne3 : r.noise ≠ [] := by
    intro h0
    have := hr.nums.2.2.2.1
    rw [h0] at this
    rcases this with h | h | h
    · exact absurd h (by simp [number, seqs, Parse])
    · obtain ⟨w₁, w₂, _, _, e, -, -, h⟩ := h
      have h2 := ((parse_litChars _ _ _).1 h).1
      rw [h2] at e
      cases w₁ <;> simp at e
    · have h2 := ((parse_litChars _ _ _).1 h).1
      simp at h2
  rcases tok_step b4 e4.symm with ⟨-, h1⟩ | ⟨A1, -, h1⟩
  · exact hd ne1 n1 h1
  rcases tok_step b5 h1 with ⟨-, h2⟩ | ⟨A2, -, h2⟩
  · exact hd ne2 n2 h2
  rcases tok_step b6 h2 with ⟨-, h3⟩ | ⟨A3, -, h3⟩
  · exact hd ne3 n3 h3
  rcases tok_step b7 h3 with ⟨-, h4⟩ | ⟨A4, -, h4⟩
  · exact hd ne4 n4 h4
  rcases tok_step b8 h4 with ⟨-, h5⟩ | ⟨A5, -, h5⟩
  · rw [hv] at h5; simp at h5
  · exact absurd (h5 ▸ b9 : ' ' ∉ A5 ++ ' ' :: '1' :: rest) (by simp)

/-- How often the pattern of all peaks of a time is found in a data line. -/
theorem all_line_hit {T : Re} (hT : NoGroups T) {W : String} (hW : ' ' ∉ W.toList)
    {r : MaxRow} (hr : RowOk W.toList r) (h1 : Parse T r.time []) (h3 : r.wave = W.toList) (h4 : r.valid = ['1']) :
    (findall (allRe T W) r.line).length = 1 := by
  have hc := consumes_all hT W
  have hnl := hr.nl
  simp only [MaxRow.fields, List.mem_cons, List.not_mem_nil, or_false, forall_eq_or_imp, forall_eq] at hnl
  obtain ⟨b1, b2, b3, b4, b5, b6, b7, b8, b9⟩ := hnl
  have hm : Parse (allRe T W) r.line [] := by
    rw [parse_all hT]
    refine ⟨r.time, r.freq, r.slowness ++ ' ' :: (r.azimuth ++ ' ' :: (r.ellipticity ++ ' ' :: (r.noise ++ ' ' ::
      r.power))), by simp [MaxRow.line, h3, h4], rfl, h1, b2, ?_⟩
    simp only [List.mem_append, List.mem_cons, not_or]
    exact ⟨b4, by decide, b5, by decide, b6, by decide, b7, by decide, b8⟩
  rw [findall_eq hc]
  cases hs : search (allRe T W) r.line with
  | none => exact absurd ⟨r.line, _, [], by simp, hm⟩ (search_eq_none.1 hs [] r.line rfl)
  | some x =>
    obtain ⟨pre, e1, e2, -⟩ := search_eq_some hs
    obtain ⟨-, -, -, -, l1⟩ := all_in_line hT hW hr e1 e2
    simp only [List.length_cons, Nat.add_eq_right]
    rw [findall_eq hc]
    cases hs2 : search (allRe T W) x.rest with
    | none => rfl
    | some y =>
      exfalso
      obtain ⟨pre', e1', e2', -⟩ := search_eq_some hs2
      have e3 : r.line = (pre ++ (x.text ++ pre')) ++ (y.text ++ y.rest) := by rw [e1, e1']; simp
      obtain ⟨-, -, -, l2, -⟩ := all_in_line hT hW hr e3 e2'
      simp only [List.length_append] at l2
      omega

theorem all_line_none {T : Re} (hT : NoGroups T) {W : String} (hW : ' ' ∉ W.toList)
    {r : MaxRow} (hr : RowOk W.toList r)
    (h : (∀ x, x <:+ r.time → ¬ Parse T x []) ∨ r.wave ≠ W.toList ∨ r.valid ≠ ['1']) :
    findall (allRe T W) r.line = [] := by
  have hc := consumes_all hT W
  rw [findall_eq hc]
  cases hs : search (allRe T W) r.line with
  | none => rfl
  | some x =>
    exfalso
    obtain ⟨pre, e1, e2, -⟩ := search_eq_some hs
    obtain ⟨⟨y, y1, y2⟩, y3, y4, -⟩ := all_in_line hT hW hr e1 e2
    rcases h with h | h | h
    · exact h y ⟨pre, y1⟩ y2
    · exact h y3
    · exact h y4

/-- Lines without a digit before the name of the wave have none. -/
theorem other_none {R T : Re} (W : List Char) {s : List Char} (hc : Consumes R)
    (hR : ∀ w g, Parse R w g → ∃ x y b, w = x ++ ' ' :: (y ++ ' ' :: (W ++ ' ' :: b)) ∧ Parse T x [])
    (hT : ∀ x, Parse T x [] → ∃ c ∈ x, '0' ≤ c ∧ c ≤ '9')
    (hs : ∀ a b, s = a ++ ' ' :: (W ++ ' ' :: b) → ∀ c ∈ a, ¬ ('0' ≤ c ∧ c ≤ '9')) :
    findall R s = [] := by
  rw [findall_eq hc]
  cases h : search R s with
  | none => rfl
  | some x =>
    exfalso
    obtain ⟨pre, e1, e2, -⟩ := search_eq_some h
    obtain ⟨u, y, b, e3, e4⟩ := hR _ _ e2
    obtain ⟨c, hc, hd⟩ := hT u e4
    refine hs (pre ++ (u ++ ' ' :: y)) (b ++ x.rest) ?_ c (by simp [hc]) hd
    rw [e1, e3]
    simp

end Verif
