import Verif.Model.Spac
import Verif.Spec.Spac
import Verif.Props.MaxFile
import Verif.Props.MaxTable
import Verif.Lemmas.MaxTable

/-!
# C115, C116: patterns for SPAC files
-/

namespace Verif.Props
open Verif Re MaxFile Spac Spec

/-! ## The first match tried -/

theorem head_seq {a b : Re} {s : List Char} {h : Hit} (hh : (run (.seq a b) s).head? = some h) :
    ∃ x ∈ run a s, ∃ y, (run b x.rest).head? = some y ∧ h = ⟨x.text ++ y.text, x.groups ++ y.groups, y.rest⟩ := by
  simp only [run, List.head?_flatMap] at hh
  obtain ⟨x, hx, h2⟩ := List.exists_of_findSome?_eq_some hh
  rw [List.head?_map, Option.map_eq_some_iff] at h2
  obtain ⟨y, hy, rfl⟩ := h2
  exact ⟨x, hx, y, hy, rfl⟩

/-- The last part of a sequence is matched as if it were alone, after some match of the parts before it. -/
theorem head_seqs_last (rs : List Re) (b : Re) : ∀ {s : List Char} {h : Hit}, (run (seqs (rs ++ [b])) s).head? = some h →
    ∃ x ∈ run (seqs rs) s, ∃ y, (run b x.rest).head? = some y ∧ h = ⟨x.text ++ y.text, x.groups ++ y.groups, y.rest⟩ := by
  induction rs with
  | nil =>
    intro s h hh
    simp only [List.nil_append, seqs] at hh
    have e : run (.seq b .eps) s = run b s := by simp [run]
    rw [e] at hh
    exact ⟨⟨[], [], s⟩, by simp [seqs, run], h, hh, rfl⟩
  | cons r rs ih =>
    intro s h hh
    obtain ⟨x, hx, y, hy, rfl⟩ := head_seq hh
    obtain ⟨x', hx', y', hy', rfl⟩ := ih hy
    refine ⟨⟨x.text ++ x'.text, x.groups ++ x'.groups, x'.rest⟩, ?_, y', hy', by simp⟩
    simp only [seqs, run, List.mem_flatMap, List.mem_map]
    exact ⟨x, hx, x', hx', rfl⟩

theorem run_opt_head (p : Char → Bool) (w s : List Char) (hw : w = [] ∨ ∃ c, p c = true ∧ w = [c])
    (hs : w = [] → ∀ c ∈ s.head?, p c = false) : (run (.opt p) (w ++ s)).head? = some ⟨w, [], s⟩ := by
  rcases hw with rfl | ⟨c, hc, rfl⟩
  · cases s with
    | nil => rfl
    | cons c s => simp [run, hs rfl c (by simp)]
  · simp [run, hc]

theorem run_many_head (p : Char → Bool) (d s : List Char) (hd : ∀ c ∈ d, p c = true)
    (hs : ∀ c ∈ s.head?, p c = false) : (run (.many p) (d ++ s)).head? = some ⟨d, [], s⟩ := by
  simp [run, manyRun_head p d s hd hs]

theorem run_seqs_cons_head {r : Re} {rs : List Re} {w v : List Char} (h1 : (run r (w ++ v)).head? = some ⟨w, [], v⟩)
    (h2 : (run (seqs rs) v).head? = some ⟨v, [], []⟩) : (run (seqs (r :: rs)) (w ++ v)).head? = some ⟨w ++ v, [], []⟩ :=
  run_seq_head (a := r) (b := seqs rs) h1 h2

theorem digit_not {c : Char} (h : c = 'e' ∨ c = 'E' ∨ c = '+' ∨ c = '-' ∨ c = '.') : digit c = false := by
  rcases h with rfl | rfl | rfl | rfl | rfl <;> decide

/-- A number which ends with its line is matched to its end. -/
theorem numeral_head {w : List Char} (h : Numeral w) : (run number w).head? = some ⟨w, [], []⟩ := by
  obtain ⟨s, i, f, e, rfl, hs, hi, hn, hf, he⟩ := h
  obtain ⟨c, i, rfl⟩ : ∃ c j, i = c :: j := by
    cases i with
    | nil => exact absurd rfl hn
    | cons c j => exact ⟨c, j, rfl⟩
  have hc : digit c = true := digits_any hi c (by simp)
  have hi' : ∀ x ∈ i, digit x = true := fun x hx => digits_any hi x (by simp [hx])
  have hnil : (run (seqs []) []).head? = some ⟨[], [], []⟩ := rfl
  have key : ∃ u1 u2 u3 u4 u5 : List Char, f ++ e = u1 ++ (u2 ++ (u3 ++ (u4 ++ u5))) ∧
      (∀ x ∈ (f ++ e).head?, digit x = false) ∧
      (u1 = [] ∨ ∃ c, any c = true ∧ u1 = [c]) ∧ (u1 = [] → u2 ++ (u3 ++ (u4 ++ u5)) = []) ∧
      (∀ x ∈ u2, digit x = true) ∧ (∀ x ∈ (u3 ++ (u4 ++ u5)).head?, digit x = false) ∧
      (u3 = [] ∨ ∃ c, (c == 'e' || c == 'E') = true ∧ u3 = [c]) ∧
      (u3 = [] → ∀ x ∈ (u4 ++ u5).head?, (x == 'e' || x == 'E') = false) ∧
      (u4 = [] ∨ ∃ c, (c == '+' || c == '-') = true ∧ u4 = [c]) ∧
      (u4 = [] → ∀ x ∈ u5.head?, (x == '+' || x == '-') = false) ∧ (∀ x ∈ u5, digit x = true) := by
    have hds : ∀ {d : List Char}, Digits d → ∀ x ∈ d.head?, (x == '+' || x == '-') = false := by
      intro d hd x hx
      have h2 := hd x (List.mem_of_mem_head? hx)
      rw [Bool.or_eq_false_iff]
      constructor
      · rw [beq_eq_false_iff_ne]; rintro rfl; exact absurd h2.1 (by decide)
      · rw [beq_eq_false_iff_ne]; rintro rfl; exact absurd h2.1 (by decide)
    rcases hf with rfl | ⟨d, rfl, hd⟩
    · rcases he with rfl | ⟨x, y, d, rfl, hx, hy, hd⟩
      · exact ⟨[], [], [], [], [], rfl, by simp, .inl rfl, by simp, by simp, by simp, .inl rfl, by simp, .inl rfl, by simp, by simp⟩
      · have hxd : digit x = false := digit_not (by tauto)
        have hxa : any x = true := by rcases hx with rfl | rfl <;> decide
        rcases hy with rfl | hy
        · refine ⟨[x], d, [], [], [], by simp, by simpa using hxd, .inr ⟨x, hxa, rfl⟩, by simp, digits_any hd, by simp,
            .inl rfl, by simp, .inl rfl, by simp, by simp⟩
        · obtain ⟨z, rfl, hz⟩ : ∃ z, y = [z] ∧ (z = '+' ∨ z = '-') := by
            rcases hy with rfl | rfl <;> simp
          refine ⟨[x], [], [], [z], d, by simp, by simpa using hxd, .inr ⟨x, hxa, rfl⟩, by simp, by simp, ?_,
            .inl rfl, ?_, .inr ⟨z, by rcases hz with rfl | rfl <;> decide, rfl⟩, by simp, digits_any hd⟩
          · simpa using digit_not (by tauto)
          · rcases hz with rfl | rfl <;> simp
    · have hdot : digit '.' = false := by decide
      rcases he with rfl | ⟨x, y, d', rfl, hx, hy, hd'⟩
      · exact ⟨['.'], d, [], [], [], by simp, by simpa using hdot, .inr ⟨'.', by decide, rfl⟩, by simp, digits_any hd, by simp,
          .inl rfl, by simp, .inl rfl, by simp, by simp⟩
      · have hxd : digit x = false := digit_not (by tauto)
        refine ⟨['.'], d, [x], y, d', by simp, by simpa using hdot, .inr ⟨'.', by decide, rfl⟩, by simp, digits_any hd,
          by simpa using hxd, .inr ⟨x, by rcases hx with rfl | rfl <;> decide, rfl⟩, by simp, ?_, fun _ => hds hd',
          digits_any hd'⟩
        rcases hy with rfl | rfl | rfl
        · exact .inl rfl
        · exact .inr ⟨'+', by decide, rfl⟩
        · exact .inr ⟨'-', by decide, rfl⟩
  obtain ⟨u1, u2, u3, u4, u5, hu, k0, k1, k1', k2, k2', k3, k3', k4, k4', k5⟩ := key
  have e5 := run_seqs_cons_head (rs := []) (run_many_head digit u5 [] k5 (by simp)) hnil
  rw [List.append_nil] at e5
  have e4 := run_seqs_cons_head (run_opt_head _ u4 u5 k4 k4') e5
  have e3 := run_seqs_cons_head (run_opt_head _ u3 (u4 ++ u5) k3 k3') e4
  have e2 := run_seqs_cons_head (run_many_head digit u2 _ k2 k2') e3
  have e1 := run_seqs_cons_head (run_opt_head any u1 _ k1 (by intro h; rw [k1' h]; simp)) e2
  rw [← hu] at e1
  have e0 := run_seqs_cons_head (run_many_head digit i (f ++ e) hi' k0) e1
  have ec : (run (.cls digit) ([c] ++ (i ++ (f ++ e)))).head? = some ⟨[c], [], i ++ (f ++ e)⟩ := by simp [run, hc]
  have e00 := run_seqs_cons_head ec e0
  have es : (run (.opt fun c => c == '-') (s ++ ([c] ++ (i ++ (f ++ e))))).head? = some ⟨s, [], [c] ++ (i ++ (f ++ e))⟩ := by
    refine run_opt_head _ s _ ?_ ?_
    · rcases hs with rfl | rfl
      · exact .inl rfl
      · exact .inr ⟨'-', by decide, rfl⟩
    · intro _ x hx
      simp only [List.cons_append, List.head?_cons, Option.mem_def, Option.some.injEq] at hx
      subst hx
      rw [beq_eq_false_iff_ne]
      rintro rfl
      exact absurd hc (by decide)
  have := run_seqs_cons_head es e00
  unfold number
  simpa using this

/-! ## Ratios -/

/-- The pattern up to the last number. -/
def ratioFront (T C R : Re) : List Re := [T, sp, .grp number, sp, C, sp, R, sp]

theorem ratioRe_eq (T C R : Re) : ratioRe T C R = seqs (ratioFront T C R ++ [.grp number]) := rfl

theorem parse_seq_sp {a b : Re} (w : List Char) (g : List (List Char)) :
    Parse (.seq a (.seq sp b)) w g ↔
      ∃ x y g₁ g₂, w = x ++ ' ' :: y ∧ g = g₁ ++ g₂ ∧ Parse a x g₁ ∧ Parse b y g₂ := by
  constructor
  · rintro ⟨x, w₂, g₁, g₂, rfl, rfl, h1, s, y, g₃, g₄, rfl, rfl, h2, h3⟩
    obtain ⟨rfl, rfl⟩ := (parse_sp s g₃).1 h2
    exact ⟨x, y, g₁, g₄, by simp, by simp, h1, h3⟩
  · rintro ⟨x, y, g₁, g₂, rfl, rfl, h1, h2⟩
    exact ⟨x, ' ' :: y, g₁, g₂, rfl, rfl, h1, [' '], y, [], g₂, rfl, rfl, (parse_sp _ _).2 ⟨rfl, rfl⟩, h2⟩

theorem parse_front (T C R : Re) (w : List Char) (g : List (List Char)) :
    Parse (seqs (ratioFront T C R)) w g ↔ ∃ x1 x2 x3 x4 g1 g3 g4,
      w = x1 ++ ' ' :: (x2 ++ ' ' :: (x3 ++ ' ' :: (x4 ++ [' ']))) ∧ g = g1 ++ (x2 :: (g3 ++ g4)) ∧
      Parse T x1 g1 ∧ Parse number x2 [] ∧ Parse C x3 g3 ∧ Parse R x4 g4 := by
  simp only [ratioFront, seqs, parse_seq_sp]
  constructor
  · rintro ⟨x1, y1, g1, g1', rfl, rfl, p1, x2, y2, g2, g2', rfl, rfl, p2, x3, y3, g3, g3', rfl, rfl, p3, x4, y4, g4, g4',
      rfl, rfl, p4, rfl, rfl⟩
    obtain ⟨g2'', rfl, p2⟩ := p2
    obtain rfl := parse_noGroups noGroups_number p2
    exact ⟨x1, x2, x3, x4, g1, g3, g4, rfl, by simp, p1, p2, p3, p4⟩
  · rintro ⟨x1, x2, x3, x4, g1, g3, g4, rfl, rfl, p1, p2, p3, p4⟩
    exact ⟨x1, _, g1, _, rfl, rfl, p1, x2, _, [x2], g3 ++ g4, rfl, rfl, ⟨[], rfl, p2⟩, x3, _, g3, g4, rfl, rfl, p3, x4, [], g4,
      [], rfl, by simp, p4, rfl, rfl⟩

theorem parse_seqs_append (rs : List Re) (b : Re) (w : List Char) (g : List (List Char)) :
    Parse (seqs (rs ++ [b])) w g ↔ ∃ x y g₁ g₂, w = x ++ y ∧ g = g₁ ++ g₂ ∧ Parse (seqs rs) x g₁ ∧ Parse b y g₂ := by
  induction rs generalizing w g with
  | nil =>
    constructor
    · rintro ⟨x, y, g₁, g₂, rfl, rfl, h, rfl, rfl⟩
      exact ⟨[], x, [], g₁, by simp, by simp, ⟨rfl, rfl⟩, h⟩
    · rintro ⟨x, y, g₁, g₂, rfl, rfl, ⟨rfl, rfl⟩, h⟩
      exact ⟨y, [], g₂, [], by simp, by simp, h, rfl, rfl⟩
  | cons r rs ih =>
    constructor
    · rintro ⟨x, y, g₁, g₂, rfl, rfl, h1, h2⟩
      obtain ⟨x', y', g₁', g₂', rfl, rfl, h3, h4⟩ := (ih y g₂).1 h2
      exact ⟨x ++ x', y', g₁ ++ g₁', g₂', by simp, by simp, ⟨x, x', g₁, g₁', rfl, rfl, h1, h3⟩, h4⟩
    · rintro ⟨x, y, g₁, g₂, rfl, rfl, ⟨x', y', g₁', g₂', rfl, rfl, h1, h2⟩, h3⟩
      exact ⟨x', y' ++ y, g₁', g₂' ++ g₂, by simp, by simp, h1, (ih _ _).2 ⟨y', y, g₂', g₂, rfl, rfl, h2, h3⟩⟩

/-- Where the front of a match is in a data line. -/
theorem front_in_line {T C R : Re} {r : SpacRow} (hr : r.Ok) {pre w rest : List Char} {g : List (List Char)}
    (h : r.line = pre ++ (w ++ rest)) (hp : Parse (seqs (ratioFront T C R)) w g) :
    ∃ x g1 g3 g4, pre ++ x = r.time ∧ Parse T x g1 ∧ Parse C r.comp g3 ∧ Parse R r.ring g4 ∧ rest = r.ratio ∧
      g = g1 ++ (r.freq :: (g3 ++ g4)) := by
  obtain ⟨x1, x2, x3, x4, g1, g3, g4, rfl, rfl, p1, p2, p3, p4⟩ := (parse_front T C R w g).1 hp
  have hb : ∀ w ∈ r.fields, ' ' ∉ w := fun w hw => (hr.blank w hw).1
  simp only [SpacRow.fields, List.mem_cons, List.not_mem_nil, or_false, forall_eq_or_imp, forall_eq] at hb
  obtain ⟨b1, b2, b3, b4, b5⟩ := hb
  have c2 := List.count_eq_zero.2 b2
  have c3 := List.count_eq_zero.2 b3
  have c4 := List.count_eq_zero.2 b4
  have c5 := List.count_eq_zero.2 b5
  have h' : r.time ++ ' ' :: (r.freq ++ ' ' :: (r.comp ++ ' ' :: (r.ring ++ ' ' :: r.ratio))) =
      (pre ++ x1) ++ ' ' :: (x2 ++ ' ' :: (x3 ++ ' ' :: (x4 ++ ' ' :: rest))) := by
    simpa [SpacRow.line] using h
  obtain ⟨f1, i1⟩ := tok_count b1 h' (by simp [List.count_append, c2, c3, c4, c5]; omega)
  obtain ⟨f2, i2⟩ := tok_count b2 i1.symm (by simp [List.count_append, c3, c4, c5]; omega)
  obtain ⟨f3, i3⟩ := tok_count b3 i2.symm (by simp [List.count_append, c4, c5]; omega)
  obtain ⟨f4, i4⟩ := tok_count b4 i3.symm (by simp [c5])
  subst f2 f3 f4
  exact ⟨x1, g1, g3, g4, f1, p1, p3, p4, i4, rfl⟩

theorem consumes_ratio (T C R : Re) : Consumes (ratioRe T C R) := by
  intro g h
  rw [ratioRe_eq, parse_seqs_append] at h
  obtain ⟨x, y, g₁, g₂, h1, -, h2, -⟩ := h
  obtain ⟨x1, x2, x3, x4, g1, g3, g4, rfl, -⟩ := (parse_front T C R _ _).1 h2
  simp at h1

theorem search_of_matches {r : Re} {s : List Char} (h : MatchesAt r s) : search r s = (run r s).head? := by
  have hne : run r s ≠ [] := fun h0 => (run_eq_nil_iff r s).1 h0 h
  cases s with
  | nil => rfl
  | cons c s =>
    rw [search]
    rcases hr : (run r (c :: s)).head? with _ | x
    · exact absurd (List.head?_eq_none_iff.1 hr) hne
    · rfl

/-- A data line in which the time, the component and the ring are as asked for: one match. -/
theorem ratio_line_hit {T C R : Re} {r : SpacRow} (hr : r.Ok) {g1 g3 g4 : List (List Char)}
    (h1 : Parse T r.time g1) (u1 : ∀ g, Parse T r.time g → g = g1)
    (h3 : Parse C r.comp g3) (u3 : ∀ g, Parse C r.comp g → g = g3)
    (h4 : Parse R r.ring g4) (u4 : ∀ g, Parse R r.ring g → g = g4) :
    groupsOf (ratioRe T C R) r.line = [g1 ++ (r.freq :: (g3 ++ (g4 ++ [r.ratio])))] := by
  have hc := consumes_ratio T C R
  have hm : MatchesAt (ratioRe T C R) r.line := by
    refine ⟨r.line, g1 ++ (r.freq :: (g3 ++ (g4 ++ [r.ratio]))), [], by simp, ?_⟩
    rw [ratioRe_eq, parse_seqs_append]
    refine ⟨r.time ++ ' ' :: (r.freq ++ ' ' :: (r.comp ++ ' ' :: (r.ring ++ [' ']))), r.ratio, g1 ++ (r.freq :: (g3 ++ g4)),
      [r.ratio], by simp [SpacRow.line], by simp, (parse_front _ _ _ _ _).2 ⟨_, _, _, _, g1, g3, g4, rfl, rfl, h1,
        numeral_parse hr.freq, h3, h4⟩, ⟨[], rfl, numeral_parse hr.ratio⟩⟩
  unfold groupsOf
  rw [findall_eq hc, search_of_matches hm]
  rcases hh : (run (ratioRe T C R) r.line).head? with _ | x
  · exact absurd hm ((run_eq_nil_iff _ _).1 (List.head?_eq_none_iff.1 hh))
  rw [ratioRe_eq] at hh
  obtain ⟨y, hy, z, hz, rfl⟩ := head_seqs_last _ _ hh
  obtain ⟨e1, e2⟩ := (mem_run _ _ _).1 hy
  obtain ⟨x, g1', g3', g4', f1, f2, f3, f4, f5, f6⟩ := front_in_line (pre := []) hr e1 e2
  rw [List.nil_append] at f1
  subst f1
  rw [f5, run_grp_head (numeral_head hr.ratio)] at hz
  cases hz
  have h0 : search (ratioRe T C R) [] = none := by
    rw [search, consumes_run_nil hc]; rfl
  simp only [List.map_cons]
  rw [findall_eq hc, h0, f6, u1 _ f2, u3 _ f3, u4 _ f4]
  simp

/-- Other data lines have none. -/
theorem ratio_line_none {T C R : Re} {r : SpacRow} (hr : r.Ok)
    (h : (∀ x g, x <:+ r.time → ¬ Parse T x g) ∨ (∀ g, ¬ Parse C r.comp g) ∨ (∀ g, ¬ Parse R r.ring g)) :
    groupsOf (ratioRe T C R) r.line = [] := by
  have hc := consumes_ratio T C R
  unfold groupsOf
  rw [findall_eq hc]
  cases hs : search (ratioRe T C R) r.line with
  | none => rfl
  | some x =>
    exfalso
    obtain ⟨pre, e1, e2, -⟩ := search_eq_some hs
    rw [ratioRe_eq, parse_seqs_append] at e2
    obtain ⟨w, y, g₁, g₂, hw, -, e3, -⟩ := e2
    rw [hw, List.append_assoc] at e1
    obtain ⟨x, g1', g3', g4', f1, f2, f3, f4, f5, f6⟩ := front_in_line hr e1 e3
    rcases h with h | h | h
    · exact h x _ ⟨pre, f1⟩ f2
    · exact h _ f3
    · exact h _ f4

theorem number_digit {x : List Char} {g : List (List Char)} (h : Parse number x g) : ∃ c ∈ x, '0' ≤ c ∧ c ≤ '9' := by
  obtain ⟨w1, w2, g1, g2, rfl, -, -, w3, w4, g3, g4, rfl, -, ⟨⟨c, hc, rfl⟩, -⟩, -⟩ := h
  refine ⟨c, by simp, ?_⟩
  simpa [digit] using hc

/-- Lines which are not data have none. -/
theorem ratio_other_none {T C R : Re} {s : List Char} (hC : ∀ x g, Parse C x g → x = ['0'])
    (hs : ∀ a b, s = a ++ ' ' :: '0' :: ' ' :: b → ∀ c ∈ a, ¬ ('0' ≤ c ∧ c ≤ '9')) :
    groupsOf (ratioRe T C R) s = [] := by
  have hc := consumes_ratio T C R
  unfold groupsOf
  rw [findall_eq hc]
  cases h : search (ratioRe T C R) s with
  | none => rfl
  | some x =>
    exfalso
    obtain ⟨pre, e1, e2, -⟩ := search_eq_some h
    rw [ratioRe_eq, parse_seqs_append] at e2
    obtain ⟨w, y, g₁, g₂, hw, -, e3, -⟩ := e2
    obtain ⟨x1, x2, x3, x4, g1, g3, g4, rfl, -, -, p2, p3, -⟩ := (parse_front T C R _ _).1 e3
    obtain rfl := hC _ _ p3
    obtain ⟨c, hcm, hd⟩ := number_digit p2
    refine hs (pre ++ (x1 ++ ' ' :: x2)) (x4 ++ ' ' :: (y ++ x.rest)) ?_ c (by simp [hcm]) hd
    rw [e1, hw]
    simp

theorem nlFree_ratio {T C R : Re} (hT : NlFree T) (hC : NlFree C) (hR : NlFree R) : NlFree (ratioRe T C R) :=
  ⟨hT, nlFree_sp, nlFree_number, nlFree_sp, hC, nlFree_sp, hR, nlFree_sp, nlFree_number, trivial⟩

theorem spac_lines {T C R : Re} (hT : NlFree T) (hC : NlFree C) (hR : NlFree R) (hC0 : ∀ x g, Parse C x g → x = ['0'])
    (ls : List SpacLine) (hls : ∀ l ∈ ls, l.Ok) (keep : SpacRow → Bool) (out : SpacRow → List (List Char))
    (hyes : ∀ r, .row r ∈ ls → keep r = true → groupsOf (ratioRe T C R) r.line = [out r])
    (hno : ∀ r, .row r ∈ ls → keep r = false → groupsOf (ratioRe T C R) r.line = []) :
    groupsOf (ratioRe T C R) (spacText ls) = ((spacRows ls).filter keep).map out := by
  have e : spacText ls = unlinesC (ls.map SpacLine.text) := by simp [spacText, unlinesC, List.flatMap_map]
  rw [e, groupsOf_lines (nlFree_ratio hT hC hR) (consumes_ratio T C R)]
  clear e
  induction ls with
  | nil => rfl
  | cons l ls ih =>
    have ih' := ih (fun x hx => hls x (List.mem_cons_of_mem _ hx)) (fun r hr => hyes r (List.mem_cons_of_mem _ hr))
      (fun r hr => hno r (List.mem_cons_of_mem _ hr))
    rw [List.map_cons, List.flatMap_cons, ih']
    have hl := hls l List.mem_cons_self
    cases l with
    | row r =>
      rcases hk : keep r with _ | _
      · simp [SpacLine.text, hno r List.mem_cons_self hk, spacRows, hk]
      · simp [SpacLine.text, hyes r List.mem_cons_self hk, spacRows, hk]
    | other s =>
      simp [SpacLine.text, ratio_other_none hC0 hl.2, spacRows]

theorem parse_zero (x : List Char) (g : List (List Char)) : Parse (lit '0') x g ↔ x = ['0'] ∧ g = [] := by
  simp [lit, Parse]

theorem parse_group_zero (x : List Char) (g : List (List Char)) : Parse (.grp (lit '0')) x g ↔ x = ['0'] ∧ g = [['0']] := by
  simp only [Parse, lit]
  constructor
  · rintro ⟨g', rfl, ⟨c, hc, rfl⟩, rfl⟩
    simp only [beq_iff_eq] at hc
    subst hc
    exact ⟨rfl, rfl⟩
  · rintro ⟨rfl, rfl⟩
    exact ⟨[], rfl, ⟨'0', by decide, rfl⟩, rfl⟩

theorem parse_digits1 (x : List Char) (g : List (List Char)) :
    Parse (.grp (.seq (.cls digit) (.many digit))) x g ↔ (Digits x ∧ x ≠ []) ∧ g = [x] := by
  constructor
  · rintro ⟨g', rfl, w1, w2, g1, g2, rfl, rfl, ⟨⟨c, hc, rfl⟩, rfl⟩, h2, rfl⟩
    refine ⟨⟨?_, by simp⟩, rfl⟩
    intro d hd
    simp only [List.cons_append, List.nil_append, List.mem_cons] at hd
    rcases hd with rfl | hd
    · simpa [digit] using hc
    · simpa [digit] using h2 d hd
  · rintro ⟨⟨h1, h2⟩, rfl⟩
    cases x with
    | nil => exact absurd rfl h2
    | cons c x =>
      exact ⟨[], rfl, [c], x, [], [], rfl, rfl, ⟨⟨c, digits_any h1 c (by simp), rfl⟩, rfl⟩,
        parse_digits fun d hd => h1 d (by simp [hd])⟩

/-- **C115** (all curves).  With the default arguments the pattern finds in a SPAC file every ratio of the vertical
component, once, in the order of the file, with its time, frequency, component and ring exactly as written, and nothing
else. -/
theorem C115_all_ratios (ls : List SpacLine) (hls : ∀ l ∈ ls, l.Ok) :
    ∃ re, getRatio none "(0)" none = .ok re ∧
      groupsOf re (spacText ls) = ((spacRows ls).filter fun r => decide (r.comp = ['0'])).map
        fun r => [r.time, r.freq, r.comp, r.ring, r.ratio] := by
  refine ⟨_, rfl, ?_⟩
  simp only [if_true]
  refine spac_lines (T := .grp number) (C := .grp (lit '0')) (R := .grp (.seq (.cls digit) (.many digit)))
    nlFree_number (by simp [lit, NlFree]) (by simp [NlFree, digit]) (fun x g h => ((parse_group_zero x g).1 h).1)
    ls hls _ _ ?_ ?_
  · intro r hr hk
    have hr := hls _ hr
    have hz := of_decide_eq_true hk
    have := ratio_line_hit (T := .grp number) (C := .grp (lit '0')) (R := .grp (.seq (.cls digit) (.many digit))) hr
      (g1 := [r.time]) (g3 := [r.comp]) (g4 := [r.ring])
      ⟨[], rfl, numeral_parse hr.time⟩ (by rintro g ⟨g', rfl, h⟩; rw [parse_noGroups noGroups_number h])
      (by rw [parse_group_zero, hz]; exact ⟨rfl, rfl⟩) (by intro g h; rw [parse_group_zero] at h; rw [h.2, hz])
      ((parse_digits1 _ _).2 ⟨hr.ring, rfl⟩) (by intro g h; exact ((parse_digits1 _ _).1 h).2)
    simpa using this
  · intro r hr hk
    refine ratio_line_none (hls _ hr) (.inr (.inl fun g h => ?_))
    rw [parse_group_zero] at h
    exact of_decide_eq_false hk h.1

theorem looksLike_digits {k w : List Char} (hk : Digits k) : LooksLike k w ↔ w = k := by
  have key : ∀ a ∈ k, ∀ b, (a = '.' ∨ a = b) ↔ b = a := by
    intro a ha b
    have : a ≠ '.' := by rintro rfl; exact absurd (hk _ ha).1 (by decide)
    constructor
    · rintro (h | h)
      · exact absurd h this
      · exact h.symm
    · rintro rfl; exact .inr rfl
  unfold LooksLike
  clear hk
  induction k generalizing w with
  | nil => simp
  | cons a k ih =>
    rw [List.forall₂_cons_left_iff]
    constructor
    · rintro ⟨b, w', h1, h2, rfl⟩
      rw [(key a (by simp) b).1 h1, (ih (fun x hx => key x (by simp [hx]))).1 h2]
    · rintro rfl
      exact ⟨a, k, .inr rfl, (ih (fun x hx => key x (by simp [hx]))).2 rfl, rfl⟩

theorem looksLike_self (t : List Char) : LooksLike t t := List.forall₂_same.2 fun _ _ => .inr rfl

theorem digit_plain {c : Char} (h : '0' ≤ c ∧ c ≤ '9') : special c = false := by
  unfold special
  rw [decide_eq_false_iff_not]
  intro hc
  simp only [List.mem_cons, List.not_mem_nil, or_false] at hc
  rcases hc with rfl | rfl | rfl | rfl | rfl | rfl | rfl | rfl | rfl | rfl | rfl | rfl | rfl <;>
    first | exact absurd h.1 (by decide) | exact absurd h.2 (by decide)

/-- **C115** (one curve, partial).  Asked for a time written without exponent and a ring, the pattern finds the frequencies
and ratios of exactly this time and ring, in the order of the file, if no time of the file has an ending which looks like
the time asked for without being it.  Missing: times with an exponent (`C115_absolute_time_fails`) and times which end
like others (`C115_longer_time_fails`). -/
theorem C115_one_curve_partial (ls : List SpacLine) (hls : ∀ l ∈ ls, l.Ok) (t k : List Char)
    (ht : (∀ c ∈ t, special c = false) ∧ '\n' ∉ t) (hk : Digits k)
    (hlook : ∀ r ∈ spacRows ls, ∀ x, x <:+ r.time → LooksLike t x → r.time = t) :
    ∃ re, getRatio (some t) "0" (some k) = .ok re ∧
      groupsOf re (spacText ls) = ((spacRows ls).filter fun r =>
          decide (r.time = t ∧ r.comp = ['0'] ∧ r.ring = k)).map fun r => [r.freq, r.ratio] := by
  obtain ⟨T, hT, -, nT, pT⟩ := ofText_plain t ht.1 ht.2
  have hkn : '\n' ∉ k := fun h => absurd (hk _ h).1 (by decide)
  obtain ⟨R, hR, -, nR, pR⟩ := ofText_plain k (fun c hc => digit_plain (hk c hc)) hkn
  refine ⟨ratioRe T (lit '0') R, ?_, ?_⟩
  · simp [getRatio, parameter, hT, hR, bind, Except.bind, pure, Except.pure]
  refine spac_lines nT (by simp [lit, NlFree]) nR (fun x g h => ((parse_zero x g).1 h).1) ls hls _ _ ?_ ?_
  · intro r hr hk'
    have hr := hls _ hr
    obtain ⟨e1, e2, e3⟩ := of_decide_eq_true hk'
    have := ratio_line_hit (T := T) (C := lit '0') (R := R) hr (g1 := []) (g3 := []) (g4 := [])
      ((pT _ _).2 ⟨rfl, by rw [e1]; exact looksLike_self t, by rw [e1]; exact ht.2⟩) (fun g h => ((pT _ _).1 h).1)
      (by rw [parse_zero, e2]; exact ⟨rfl, rfl⟩) (by intro g h; exact ((parse_zero _ _).1 h).2)
      ((pR _ _).2 ⟨rfl, by rw [e3]; exact looksLike_self k, by rw [e3]; exact hkn⟩) (fun g h => ((pR _ _).1 h).1)
    simpa using this
  · intro r hr hk'
    have hn := of_decide_eq_false hk'
    have hmem : r ∈ spacRows ls := List.mem_filterMap.2 ⟨_, hr, rfl⟩
    refine ratio_line_none (hls _ hr) ?_
    by_cases e1 : r.time = t
    · by_cases e2 : r.comp = ['0']
      · refine .inr (.inr fun g h => hn ⟨e1, e2, ?_⟩)
        exact (looksLike_digits hk).1 ((pR _ _).1 h).2.1
      · exact .inr (.inl fun g h => e2 ((parse_zero _ _).1 h).1)
    · exact .inl fun x g hx h => e1 (hlook r hmem x hx ((pT _ _).1 h).2.1)

/-- **C115** (components).  Components other than the vertical one are refused, whatever the time and the ring. -/
theorem C115_other_components_refused (time ring : Option (List Char)) (component : String)
    (h : component ≠ "0" ∧ component ≠ "(0)") : getRatio time component ring = .error .notImplementedError := by
  unfold getRatio
  rw [if_neg (by tauto)]

/-- The head of a file of Geopsy and a few of its lines. -/
def spacExample : List SpacLine :=
  [.other "# icomp can take values 0 (vertical), 1 (radial), and 2 (transverse)".toList,
   .other "# seconds from start | cfreq | icomp | iring | autocorr".toList,
   .row ⟨"7201".toList, "50".toList, "1".toList, "0".toList, "0.0238524".toList⟩,
   .row ⟨"7201".toList, "50".toList, "0".toList, "0".toList, "-0.0905785".toList⟩,
   .row ⟨"7201".toList, "50".toList, "0".toList, "1".toList, "-9.05e-05".toList⟩,
   .row ⟨"7261.5".toList, "50".toList, "0".toList, "0".toList, "1".toList⟩]

/-! ## Rings -/

/-- Characters which a number has only in place of its point. -/
def odd (c : Char) : Bool := !(digit c || c == '-' || c == '+' || c == 'e' || c == 'E')

theorem odd_many {d g} (h : Parse (.many digit) d g) : d.countP odd = 0 := by
  rw [List.countP_eq_zero]
  intro c hc
  simp [odd, h.1 c hc]

theorem odd_opt {p : Char → Bool} (hp : ∀ c, p c = true → odd c = false) {d g} (h : Parse (.opt p) d g) :
    d.countP odd = 0 := by
  rcases h.1 with rfl | ⟨c, hc, rfl⟩
  · rfl
  · simp [hp c hc]

theorem odd_number {x : List Char} {g : List (List Char)} (h : Parse number x g) : x.countP odd ≤ 1 := by
  obtain ⟨w1, v1, _, _, rfl, -, h1, w2, v2, _, _, rfl, -, h2, w3, v3, _, _, rfl, -, h3, w4, v4, _, _, rfl, -, h4,
    w5, v5, _, _, rfl, -, h5, w6, v6, _, _, rfl, -, h6, w7, v7, _, _, rfl, -, h7, w8, v8, _, _, rfl, -, h8, rfl, -⟩ := h
  have e2 : w2.countP odd = 0 := by
    obtain ⟨⟨c, hc, rfl⟩, -⟩ := h2
    simp [odd, hc]
  have e4 : w4.countP odd ≤ 1 := by
    rcases h4.1 with rfl | ⟨c, hc, rfl⟩
    · simp
    · exact (List.countP_le_length).trans (by simp)
  have e1 := odd_opt (by intro c hc; simp only [beq_iff_eq] at hc; subst hc; decide) h1
  have e6 := odd_opt (by intro c hc; simp only [Bool.or_eq_true, beq_iff_eq] at hc; rcases hc with rfl | rfl <;> decide) h6
  have e7 := odd_opt (by intro c hc; simp only [Bool.or_eq_true, beq_iff_eq] at hc; rcases hc with rfl | rfl <;> decide) h7
  have e3 := odd_many h3
  have e5 := odd_many h5
  have e8 := odd_many h8
  simp only [List.countP_append, List.countP_nil]
  omega

theorem numeral_chars {w : List Char} (h : Numeral w) : ∀ c ∈ w, odd c = false ∨ c = '.' := by
  obtain ⟨s, i, f, e, rfl, hs, hi, -, hf, he⟩ := h
  have hd : ∀ {d : List Char}, Digits d → ∀ c ∈ d, odd c = false ∨ c = '.' := by
    intro d hd c hc
    left
    simp [odd, digits_any hd c hc]
  intro c hc
  simp only [List.mem_append] at hc
  rcases hc with hc | hc | hc | hc
  · rcases hs with rfl | rfl
    · simp at hc
    · simp only [List.mem_singleton] at hc; subst hc; left; decide
  · exact hd hi c hc
  · rcases hf with rfl | ⟨d, rfl, h2⟩
    · simp at hc
    · rcases List.mem_cons.1 hc with rfl | hc
      · exact .inr rfl
      · exact hd h2 c hc
  · rcases he with rfl | ⟨x, y, d, rfl, hx, hy, h2⟩
    · simp at hc
    · rcases List.mem_cons.1 hc with rfl | hc
      · left; rcases hx with rfl | rfl <;> decide
      · rcases List.mem_append.1 hc with hc | hc
        · left
          rcases hy with rfl | rfl | rfl
          · simp at hc
          · simp only [List.mem_singleton] at hc; subst hc; decide
          · simp only [List.mem_singleton] at hc; subst hc; decide
        · exact hd h2 c hc

theorem numeral_no_blank {w : List Char} (h : Numeral w) : ' ' ∉ w ∧ '\n' ∉ w := by
  constructor
  · intro hc; rcases numeral_chars h _ hc with h | h <;> revert h <;> decide
  · intro hc; rcases numeral_chars h _ hc with h | h <;> revert h <;> decide

theorem ring_open : " --- Ring (".toList = [' ', '-', '-', '-', ' ', 'R', 'i', 'n', 'g', ' ', '('] := by decide +kernel
theorem ring_mid : " m, ".toList = [' ', 'm', ',', ' '] := by decide +kernel
theorem ring_end : " m)".toList = [' ', 'm', ')'] := by decide +kernel

theorem parse_ringLike (l1 l2 l3 : List Char) (w : List Char) (g : List (List Char)) :
    Parse (seqs [litChars l1, .grp number, litChars l2, .grp number, litChars l3]) w g ↔
      ∃ a b, w = l1 ++ (a ++ (l2 ++ (b ++ l3))) ∧ g = [a, b] ∧ Parse number a [] ∧ Parse number b [] := by
  simp only [seqs]
  constructor
  · rintro ⟨w1, v1, g1, g1', rfl, rfl, h1, w2, v2, g2, g2', rfl, rfl, ⟨g2'', rfl, h2⟩, w3, v3, g3, g3', rfl, rfl, h3,
      w4, v4, g4, g4', rfl, rfl, ⟨g4'', rfl, h4⟩, w5, v5, g5, g5', rfl, rfl, h5, rfl, rfl⟩
    obtain ⟨rfl, rfl⟩ := (parse_litChars _ _ _).1 h1
    obtain ⟨rfl, rfl⟩ := (parse_litChars _ _ _).1 h3
    obtain ⟨rfl, rfl⟩ := (parse_litChars _ _ _).1 h5
    obtain rfl := parse_noGroups noGroups_number h2
    obtain rfl := parse_noGroups noGroups_number h4
    exact ⟨w2, w4, by rw [List.append_nil], rfl, h2, h4⟩
  · rintro ⟨a, b, rfl, rfl, ha, hb⟩
    exact ⟨_, _, [], [a, b], rfl, rfl, (parse_litChars _ _ _).2 ⟨rfl, rfl⟩, _, _, [a], [b], rfl, rfl, ⟨_, rfl, ha⟩,
      _, _, [], [b], rfl, rfl, (parse_litChars _ _ _).2 ⟨rfl, rfl⟩, _, _, [b], [], rfl, rfl, ⟨_, rfl, hb⟩,
      _, [], [], [], (List.append_nil _).symm, rfl, (parse_litChars _ _ _).2 ⟨rfl, rfl⟩, rfl, rfl⟩

theorem parse_ring (w : List Char) (g : List (List Char)) :
    Parse ringRe w g ↔ ∃ a b, w = LogLine.text (.ring a b) ∧ g = [a, b] ∧ Parse number a [] ∧ Parse number b [] :=
  parse_ringLike _ _ _ w g

theorem text_ring (a b : List Char) : LogLine.text (.ring a b) =
    [' ', '-', '-', '-', ' ', 'R', 'i', 'n', 'g', ' ', '('] ++ (a ++ ([' ', 'm', ',', ' '] ++ (b ++ [' ', 'm', ')']))) := by
  rw [← ring_open, ← ring_mid, ← ring_end]; rfl

theorem consumes_ring : Consumes ringRe := by
  intro g h
  obtain ⟨a, b, h, -⟩ := (parse_ring _ _).1 h
  rw [text_ring] at h
  simp at h

theorem nlFree_ring : NlFree ringRe := by
  simp only [ringRe, lits, ring_open, ring_mid, ring_end]
  exact ⟨nlFree_litChars (by decide), nlFree_number, nlFree_litChars (by decide), nlFree_number,
    nlFree_litChars (by decide), trivial⟩

theorem ring_inj {a b a' b' rest : List Char} (ha : Numeral a) (hb : Numeral b) (ha' : Parse number a' [])
    (h : LogLine.text (.ring a b) = LogLine.text (.ring a' b') ++ rest) : a' = a ∧ b' = b ∧ rest = [] := by
  rw [text_ring, text_ring] at h
  simp only [List.append_assoc, List.append_cancel_left_eq] at h
  simp only [List.cons_append, List.nil_append] at h
  rcases tok_step (numeral_no_blank ha).1 h with ⟨h1, h2⟩ | ⟨A, h1, h2⟩
  · simp only [List.cons.injEq, true_and] at h2
    rcases tok_step (numeral_no_blank hb).1 h2 with ⟨h4, h5⟩ | ⟨B, h4, h5⟩
    · exact ⟨h1, h4, by simpa using h5.symm⟩
    · exact absurd (congrArg List.length h5) (by simp; omega)
  · exfalso
    cases A with
    | nil => exact absurd (congrArg List.head? h2) (by simp)
    | cons c A =>
      have hc : c = 'm' := by have := congrArg List.head? h2; simpa using this.symm
      subst hc
      have := odd_number ha'
      rw [h1, List.countP_append, List.countP_cons_of_pos (by decide), List.countP_cons_of_pos (by decide)] at this
      omega

theorem ring_line {a b : List Char} (ha : Numeral a) (hb : Numeral b) :
    groupsOf ringRe (LogLine.text (.ring a b)) = [[a, b]] := by
  have hm : MatchesAt ringRe (LogLine.text (.ring a b)) :=
    ⟨_, _, [], (List.append_nil _).symm, (parse_ring _ _).2 ⟨a, b, rfl, rfl, numeral_parse ha, numeral_parse hb⟩⟩
  unfold groupsOf
  rw [findall_eq consumes_ring, search_of_matches hm]
  rcases hh : (run ringRe (LogLine.text (.ring a b))).head? with _ | x
  · exact absurd hm ((run_eq_nil_iff _ _).1 (List.head?_eq_none_iff.1 hh))
  obtain ⟨e1, e2⟩ := (mem_run _ _ _).1 (List.mem_of_mem_head? hh)
  obtain ⟨a', b', e3, e4, ha', hb'⟩ := (parse_ring _ _).1 e2
  rw [e3] at e1
  obtain ⟨rfl, rfl, hr⟩ := ring_inj ha hb ha' e1
  have h0 : search ringRe [] = none := by
    rw [search, consumes_run_nil consumes_ring]; rfl
  simp only [List.map_cons]
  rw [findall_eq consumes_ring, hr, h0, e4]
  simp

theorem ring_other {s : List Char} (hs : ∀ a b, s ≠ a ++ (" --- Ring (".toList ++ b)) : groupsOf ringRe s = [] := by
  unfold groupsOf
  rw [findall_eq consumes_ring]
  cases h : search ringRe s with
  | none => rfl
  | some x =>
    exfalso
    obtain ⟨pre, e1, e2, -⟩ := search_eq_some h
    obtain ⟨a, b, e3, -⟩ := (parse_ring _ _).1 e2
    refine hs pre (a ++ (" m, ".toList ++ (b ++ " m)".toList)) ++ x.rest) (e1.trans ?_)
    rw [e3]
    exact congrArg (pre ++ ·) (List.append_assoc " --- Ring (".toList _ x.rest)

/-- **C116** (rings).  The pattern finds the smallest and largest distance of every ring of the file, in order, exactly as
written, and nothing else. -/
theorem C116_rings (ls : List LogLine) (hls : ∀ l ∈ ls, l.Ok) :
    groupsOf ringRe (logText ls) = (ringsOf ls).map fun p => [p.1, p.2] := by
  have e : logText ls = unlinesC (ls.map LogLine.text) := by simp [logText, unlinesC, List.flatMap_map]
  rw [e, groupsOf_lines nlFree_ring consumes_ring]
  clear e
  induction ls with
  | nil => rfl
  | cons l ls ih =>
    rw [List.map_cons, List.flatMap_cons, ih fun x hx => hls x (List.mem_cons_of_mem _ hx)]
    have hl := hls l List.mem_cons_self
    cases l with
    | ring a b => rw [ring_line hl.1 hl.2]; rfl
    | other s =>
      rw [show LogLine.text (.other s) = s from rfl, ring_other hl.2]; rfl

/-! ## Cases -/

instance (s : List Char) : Decidable (∀ a b, s ≠ a ++ (" --- Ring (".toList ++ b)) :=
  decidable_of_iff (¬ " --- Ring (".toList <:+: s) (by
    simp only [List.IsInfix, not_exists, List.append_assoc, ne_eq, eq_comm])

theorem row_ok {r : SpacRow} (h : ∀ w ∈ r.fields, ' ' ∉ w ∧ '\n' ∉ w) (h1 : Numeral r.time) (h2 : Numeral r.freq)
    (h3 : Digits r.ring ∧ r.ring ≠ []) (h4 : Numeral r.ratio) : r.Ok := ⟨h, h1, h2, h3, h4⟩

/-- A line has no digit before a lone zero: by looking at its beginnings. -/
def zeroFree (s : List Char) : Bool :=
  (List.range (s.length + 1)).all fun n =>
    !([' ', '0', ' '].isPrefixOf (s.drop n)) || (s.take n).all fun c => !(decide ('0' ≤ c ∧ c ≤ '9'))

theorem zeroFree_spec {s : List Char} (h : zeroFree s = true) (a b : List Char) (e : s = a ++ ' ' :: '0' :: ' ' :: b) :
    ∀ c ∈ a, ¬ ('0' ≤ c ∧ c ≤ '9') := by
  subst e
  rw [zeroFree, List.all_eq_true] at h
  have := h a.length (by simp)
  simp only [List.drop_left, List.take_left] at this
  simp only [Bool.or_eq_true, Bool.not_eq_true'] at this
  rcases this with h' | h'
  · simp at h'
  · rw [List.all_eq_true] at h'
    intro c hc
    simpa only [Bool.not_eq_true', decide_eq_false_iff_not] using h' c hc

theorem spacExample_ok : ∀ l ∈ spacExample, l.Ok := by
  have n50 : Numeral "50".toList := numeral_int (by decide +kernel) (by decide +kernel)
  have n7201 : Numeral "7201".toList := numeral_int (by decide +kernel) (by decide +kernel)
  have d0 : Digits "0".toList ∧ "0".toList ≠ [] := by decide +kernel
  have d1 : Digits "1".toList ∧ "1".toList ≠ [] := by decide +kernel
  have n1 : Numeral "0.0238524".toList :=
    ⟨[], ['0'], '.' :: "0238524".toList, [], by decide +kernel, .inl rfl, by decide, by decide,
      .inr ⟨_, rfl, by decide +kernel⟩, .inl rfl⟩
  have n2 : Numeral "-0.0905785".toList :=
    ⟨['-'], ['0'], '.' :: "0905785".toList, [], by decide +kernel, .inr rfl, by decide, by decide,
      .inr ⟨_, rfl, by decide +kernel⟩, .inl rfl⟩
  have n3 : Numeral "-9.05e-05".toList :=
    ⟨['-'], ['9'], '.' :: "05".toList, 'e' :: (['-'] ++ "05".toList), by decide +kernel, .inr rfl, by decide, by decide,
      .inr ⟨_, rfl, by decide +kernel⟩, .inr ⟨_, _, _, rfl, .inl rfl, .inr (.inr rfl), by decide +kernel⟩⟩
  have n4 : Numeral "7261.5".toList :=
    ⟨[], "7261".toList, '.' :: "5".toList, [], by decide +kernel, .inl rfl, by decide +kernel, by decide +kernel,
      .inr ⟨_, rfl, by decide +kernel⟩, .inl rfl⟩
  have n5 : Numeral "1".toList := numeral_int d1.1 d1.2
  intro l hl
  simp only [spacExample, List.mem_cons, List.not_mem_nil, or_false] at hl
  rcases hl with rfl | rfl | rfl | rfl | rfl | rfl
  · exact ⟨by decide +kernel, zeroFree_spec (by decide +kernel)⟩
  · exact ⟨by decide +kernel, zeroFree_spec (by decide +kernel)⟩
  · exact row_ok (by decide +kernel) n7201 n50 d0 n1
  · exact row_ok (by decide +kernel) n7201 n50 d0 n2
  · exact row_ok (by decide +kernel) n7201 n50 d1 n3
  · exact row_ok (by decide +kernel) n4 n50 d0 n5

example : ∃ re, getRatio none "(0)" none = .ok re ∧ groupsOf re (spacText spacExample) =
    [["7201".toList, "50".toList, "0".toList, "0".toList, "-0.0905785".toList],
     ["7201".toList, "50".toList, "0".toList, "1".toList, "-9.05e-05".toList],
     ["7261.5".toList, "50".toList, "0".toList, "0".toList, "1".toList]] := by
  obtain ⟨re, h, e⟩ := C115_all_ratios spacExample spacExample_ok
  exact ⟨re, h, e.trans (by decide +kernel)⟩

/-- Asked for a time and a ring. -/
example : ∃ re, getRatio (some "7201".toList) "0" (some "1".toList) = .ok re ∧
    groupsOf re (spacText spacExample) = [["50".toList, "-9.05e-05".toList]] := by
  obtain ⟨re, h, e⟩ := C115_one_curve_partial spacExample spacExample_ok "7201".toList "1".toList
    (by decide +kernel) (by decide +kernel) (by
      have key : ∀ r ∈ spacRows spacExample, ∀ x ∈ r.time.tails, LooksLike "7201".toList x → r.time = "7201".toList := by
        unfold LooksLike
        decide +kernel
      exact fun r hr x hx => key r hr x ((List.mem_tails x r.time).2 hx))
  exact ⟨re, h, e.trans (by decide +kernel)⟩

/-- **C115** (counterexample: longer times).  Asked for the time `7201`, the pattern also finds the ratios of the time
`17201`. -/
theorem C115_longer_time_fails : ∃ (ls : List SpacLine) (re : Re), (∀ l ∈ ls, l.Ok) ∧
    getRatio (some "7201".toList) "0" (some "0".toList) = .ok re ∧
    (∀ r ∈ spacRows ls, r.time = "17201".toList) ∧ groupsOf re (spacText ls) = [["50".toList, "1".toList]] := by
  refine ⟨[.row ⟨"17201".toList, "50".toList, "0".toList, "0".toList, "1".toList⟩], _, ?_, rfl, ?_, ?_⟩
  · intro l hl
    rw [List.mem_singleton] at hl
    subst hl
    exact row_ok (by decide +kernel) (numeral_int (by decide +kernel) (by decide +kernel))
      (numeral_int (by decide +kernel) (by decide +kernel)) (by decide +kernel)
      (numeral_int (by decide +kernel) (by decide +kernel))
  · decide +kernel
  · decide +kernel

/-- **C115** (counterexample: absolute times).  Asked for a time as the file has it, such as `2.4282e+07`, the pattern finds
nothing: its `+` is read as a repetition. -/
theorem C115_absolute_time_fails : ∃ (r : SpacRow) (re : Re), r.Ok ∧ r.comp = "0".toList ∧
    getRatio (some r.time) "0" (some r.ring) = .ok re ∧ groupsOf re (spacText [.row r]) = [] := by
  refine ⟨⟨['2', '.', '4', '2', '8', '2', 'e', '+', '0', '7'], "50".toList, "0".toList, ['0'], "1".toList⟩, _, ?_, rfl, rfl, ?_⟩
  · exact row_ok (by decide +kernel) ⟨[], ['2'], '.' :: "4282".toList, 'e' :: (['+'] ++ "07".toList), by decide +kernel,
        .inl rfl, by decide, by decide, .inr ⟨_, rfl, by decide +kernel⟩,
        .inr ⟨_, _, _, rfl, .inl rfl, .inr (.inl rfl), by decide +kernel⟩⟩
      (numeral_int (by decide +kernel) (by decide +kernel)) (by decide +kernel)
      (numeral_int (by decide +kernel) (by decide +kernel))
  · decide +kernel

example : groupsOf ringRe (logText [.other "Found 2 rings".toList, .ring "14.14".toList "15".toList,
    .ring "0".toList "20.5".toList]) = [["14.14".toList, "15".toList], ["0".toList, "20.5".toList]] := by
  refine (C116_rings _ ?_).trans (by decide +kernel)
  intro l hl
  simp only [List.mem_cons, List.not_mem_nil, or_false] at hl
  rcases hl with rfl | rfl | rfl
  · exact ⟨by decide +kernel, by decide +kernel⟩
  · exact ⟨⟨[], "14".toList, '.' :: "14".toList, [], by decide +kernel, .inl rfl, by decide +kernel, by decide +kernel,
      .inr ⟨_, rfl, by decide +kernel⟩, .inl rfl⟩, numeral_int (by decide +kernel) (by decide +kernel)⟩
  · exact ⟨numeral_int (by decide +kernel) (by decide +kernel), ⟨[], "20".toList, '.' :: "5".toList, [], by decide +kernel,
      .inl rfl, by decide +kernel, by decide +kernel, .inr ⟨_, rfl, by decide +kernel⟩, .inl rfl⟩⟩

end Verif.Props
