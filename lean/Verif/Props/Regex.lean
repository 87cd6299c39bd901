import Verif.Spec.Regex
import Mathlib.Tactic

/-!
# Facts about matching

The order in which matches are tried does not matter where there is only one; a match found is a match, and one
that exists is found.  Texts without line feeds can be searched line by line.
-/

namespace Verif
open Re

theorem mem_manyRun (p : Char → Bool) (s w t : List Char) :
    (w, t) ∈ manyRun p s ↔ s = w ++ t ∧ ∀ c ∈ w, p c = true := by
  induction s generalizing w with
  | nil =>
    simp only [manyRun, List.mem_singleton, Prod.mk.injEq]
    constructor
    · rintro ⟨rfl, rfl⟩
      simp
    · rintro ⟨h, -⟩
      have := List.append_eq_nil_iff.1 h.symm
      exact ⟨this.1, this.2⟩
  | cons c s ih =>
    unfold manyRun
    by_cases hp : p c = true
    · rw [if_pos hp]
      simp only [List.mem_append, List.mem_map, Prod.mk.injEq, List.mem_singleton, Prod.exists]
      constructor
      · rintro (⟨a, b, hab, rfl, rfl⟩ | ⟨rfl, rfl⟩)
        · obtain ⟨rfl, h⟩ := (ih a).1 hab
          refine ⟨rfl, ?_⟩
          intro d hd
          rcases List.mem_cons.1 hd with rfl | hd
          · exact hp
          · exact h d hd
        · simp
      · rintro ⟨h, hw⟩
        cases w with
        | nil => right; exact ⟨rfl, by simpa using h.symm⟩
        | cons d w =>
          left
          simp only [List.cons_append, List.cons.injEq] at h
          exact ⟨w, t, (ih w).2 ⟨h.2, fun e he => hw e (List.mem_cons_of_mem _ he)⟩, by rw [h.1], rfl⟩
    · rw [if_neg hp]
      simp only [List.mem_singleton, Prod.mk.injEq]
      constructor
      · rintro ⟨rfl, rfl⟩
        simp
      · rintro ⟨h, hw⟩
        cases w with
        | nil => exact ⟨rfl, by simpa using h.symm⟩
        | cons d w =>
          simp only [List.cons_append, List.cons.injEq] at h
          exact absurd (h.1 ▸ hw d (List.mem_cons_self ..)) hp

/-- The matches tried at the beginning of a text are exactly those there are. -/
theorem mem_run (r : Re) (s : List Char) (h : Hit) :
    h ∈ run r s ↔ s = h.text ++ h.rest ∧ Parse r h.text h.groups := by
  induction r generalizing s h with
  | eps =>
    obtain ⟨w, g, t⟩ := h
    simp only [run, List.mem_singleton, Hit.mk.injEq, Parse]
    constructor
    · rintro ⟨rfl, rfl, rfl⟩
      simp
    · rintro ⟨rfl, rfl, rfl⟩
      simp
  | cls p =>
    obtain ⟨w, g, t⟩ := h
    cases s with
    | nil =>
      simp only [run, List.not_mem_nil, Parse, false_iff]
      rintro ⟨h, ⟨c, -, rfl⟩, -⟩
      simp at h
    | cons c s =>
      simp only [run, Parse]
      by_cases hp : p c = true
      · rw [if_pos hp]
        simp only [List.mem_singleton, Hit.mk.injEq]
        constructor
        · rintro ⟨rfl, rfl, rfl⟩
          exact ⟨rfl, ⟨c, hp, rfl⟩, rfl⟩
        · rintro ⟨h, ⟨d, -, rfl⟩, rfl⟩
          simp only [List.cons_append, List.nil_append, List.cons.injEq] at h
          exact ⟨by rw [h.1], rfl, h.2.symm⟩
      · rw [if_neg hp]
        simp only [List.not_mem_nil, false_iff]
        rintro ⟨h, ⟨d, hd, rfl⟩, rfl⟩
        simp only [List.cons_append, List.nil_append, List.cons.injEq] at h
        exact hp (h.1 ▸ hd)
  | opt p =>
    obtain ⟨w, g, t⟩ := h
    cases s with
    | nil =>
      simp only [run, List.mem_singleton, Hit.mk.injEq, Parse]
      constructor
      · rintro ⟨rfl, rfl, rfl⟩
        simp
      · rintro ⟨h, -, rfl⟩
        have := List.append_eq_nil_iff.1 h.symm
        exact ⟨this.1, rfl, this.2⟩
    | cons c s =>
      simp only [run, Parse]
      by_cases hp : p c = true
      · rw [if_pos hp]
        simp only [List.mem_cons, Hit.mk.injEq, List.not_mem_nil, or_false]
        constructor
        · rintro (⟨rfl, rfl, rfl⟩ | ⟨rfl, rfl, rfl⟩)
          · exact ⟨rfl, Or.inr ⟨c, hp, rfl⟩, rfl⟩
          · simp
        · rintro ⟨h, rfl | ⟨d, -, rfl⟩, rfl⟩
          · right; exact ⟨rfl, rfl, by simpa using h.symm⟩
          · simp only [List.cons_append, List.nil_append, List.cons.injEq] at h
            left; exact ⟨by rw [h.1], rfl, h.2.symm⟩
      · rw [if_neg hp]
        simp only [List.mem_singleton, Hit.mk.injEq]
        constructor
        · rintro ⟨rfl, rfl, rfl⟩
          simp
        · rintro ⟨h, rfl | ⟨d, hd, rfl⟩, rfl⟩
          · exact ⟨rfl, rfl, by simpa using h.symm⟩
          · simp only [List.cons_append, List.nil_append, List.cons.injEq] at h
            exact absurd (h.1 ▸ hd) hp
  | many p =>
    obtain ⟨w, g, t⟩ := h
    simp only [run, List.mem_map, Hit.mk.injEq, Parse, Prod.exists]
    constructor
    · rintro ⟨a, b, hab, rfl, rfl, rfl⟩
      obtain ⟨h, hw⟩ := (mem_manyRun p s a b).1 hab
      exact ⟨h, hw, rfl⟩
    · rintro ⟨h, hw, rfl⟩
      exact ⟨w, t, (mem_manyRun p s w t).2 ⟨h, hw⟩, rfl, rfl, rfl⟩
  | seq a b iha ihb =>
    simp only [run, List.mem_flatMap, List.mem_map, Parse]
    constructor
    · rintro ⟨x, hx, y, hy, rfl⟩
      obtain ⟨h1, h2⟩ := (iha s x).1 hx
      obtain ⟨h3, h4⟩ := (ihb x.rest y).1 hy
      refine ⟨?_, x.text, y.text, x.groups, y.groups, rfl, rfl, h2, h4⟩
      rw [h1, h3, List.append_assoc]
    · rintro ⟨hs, w₁, w₂, g₁, g₂, hw, hg, h1, h2⟩
      refine ⟨⟨w₁, g₁, w₂ ++ h.rest⟩, (iha _ _).2 ⟨?_, h1⟩, ⟨w₂, g₂, h.rest⟩, (ihb _ _).2 ⟨rfl, h2⟩, ?_⟩
      · simp only [hs, hw, List.append_assoc]
      · cases h
        simp_all
  | alt a b iha ihb =>
    simp only [run, List.mem_append, Parse, iha, ihb]
    tauto
  | grp a ih =>
    obtain ⟨w, g, t⟩ := h
    simp only [run, List.mem_map, Parse, Hit.mk.injEq]
    constructor
    · rintro ⟨x, hx, rfl, rfl, rfl⟩
      obtain ⟨h1, h2⟩ := (ih s x).1 hx
      exact ⟨h1, x.groups, rfl, h2⟩
    · rintro ⟨h, g', rfl, h2⟩
      exact ⟨⟨w, g', t⟩, (ih _ _).2 ⟨h, h2⟩, rfl, rfl, rfl⟩

/-- Some text matched at the beginning. -/
def MatchesAt (r : Re) (s : List Char) : Prop := ∃ w g t, s = w ++ t ∧ Parse r w g

theorem run_eq_nil_iff (r : Re) (s : List Char) : run r s = [] ↔ ¬ MatchesAt r s := by
  constructor
  · rintro h ⟨w, g, t, hs, hp⟩
    have := (mem_run r s ⟨w, g, t⟩).2 ⟨hs, hp⟩
    rw [h] at this
    exact absurd this (List.not_mem_nil)
  · intro h
    by_contra hne
    obtain ⟨x, hx⟩ := List.exists_mem_of_ne_nil _ hne
    obtain ⟨h1, h2⟩ := (mem_run r s x).1 hx
    exact h ⟨x.text, x.groups, x.rest, h1, h2⟩

/-- A match found is one, and there is none further left. -/
theorem search_eq_some {r : Re} {s : List Char} {h : Hit} (hs : search r s = some h) :
    ∃ pre, s = pre ++ (h.text ++ h.rest) ∧ Parse r h.text h.groups ∧
      ∀ p q, pre = p ++ q → q ≠ [] → ¬ MatchesAt r (q ++ (h.text ++ h.rest)) := by
  induction s with
  | nil =>
    have hm : h ∈ run r [] := List.mem_of_head? hs
    obtain ⟨h1, h2⟩ := (mem_run r [] h).1 hm
    refine ⟨[], by simpa using h1, h2, ?_⟩
    intro p q hpq hq
    exact absurd (List.append_eq_nil_iff.1 hpq.symm).2 hq
  | cons c s ih =>
    unfold search at hs
    cases hr : (run r (c :: s)).head? with
    | some x =>
      rw [hr] at hs
      obtain rfl := Option.some.inj hs
      obtain ⟨h1, h2⟩ := (mem_run r _ x).1 (List.mem_of_head? hr)
      refine ⟨[], by simpa using h1, h2, ?_⟩
      intro p q hpq hq
      exact absurd (List.append_eq_nil_iff.1 hpq.symm).2 hq
    | none =>
      rw [hr] at hs
      obtain ⟨pre, h1, h2, h3⟩ := ih hs
      refine ⟨c :: pre, by rw [h1]; rfl, h2, ?_⟩
      intro p q hpq hq
      cases p with
      | nil =>
        simp only [List.nil_append] at hpq
        rw [← hpq, List.cons_append, ← h1]
        exact (run_eq_nil_iff _ _).1 (List.head?_eq_none_iff.1 hr)
      | cons d p =>
        simp only [List.cons_append, List.cons.injEq] at hpq
        exact h3 p q hpq.2 hq

/-- Nothing found: there is no match anywhere. -/
theorem search_eq_none {r : Re} {s : List Char} :
    search r s = none ↔ ∀ p q, s = p ++ q → ¬ MatchesAt r q := by
  induction s with
  | nil =>
    unfold search
    rw [List.head?_eq_none_iff, run_eq_nil_iff]
    constructor
    · intro h p q hpq
      rw [(List.append_eq_nil_iff.1 hpq.symm).2]
      exact h
    · intro h
      exact h [] [] rfl
  | cons c s ih =>
    unfold search
    cases hr : (run r (c :: s)).head? with
    | some x =>
      simp only [reduceCtorEq, false_iff, not_forall]
      obtain ⟨h1, h2⟩ := (mem_run r _ x).1 (List.mem_of_head? hr)
      exact ⟨[], c :: s, rfl, fun h => h ⟨x.text, x.groups, x.rest, h1, h2⟩⟩
    | none =>
      simp only
      rw [ih]
      have h0 := (run_eq_nil_iff _ _).1 (List.head?_eq_none_iff.1 hr)
      constructor
      · intro h p q hpq
        cases p with
        | nil => simp only [List.nil_append] at hpq; rw [← hpq]; exact h0
        | cons d p =>
          simp only [List.cons_append, List.cons.injEq] at hpq
          exact h p q hpq.2
      · intro h p q hpq
        exact h (c :: p) q (by rw [hpq]; rfl)

/-- No class of the pattern has the line feed. -/
def NlFree : Re → Prop
  | .eps => True
  | .cls p => p '\n' = false
  | .opt p => p '\n' = false
  | .many p => p '\n' = false
  | .seq a b => NlFree a ∧ NlFree b
  | .alt a b => NlFree a ∧ NlFree b
  | .grp a => NlFree a

/-- The empty text does not match. -/
def Consumes (r : Re) : Prop := ∀ g, ¬ Parse r [] g

/-- The same match with more text after it. -/
def Hit.extend (h : Hit) (t : List Char) : Hit := ⟨h.text, h.groups, h.rest ++ t⟩

theorem manyRun_nl {p : Char → Bool} (hp : p '\n' = false) (s t : List Char) :
    manyRun p (s ++ '\n' :: t) = (manyRun p s).map fun x => (x.1, x.2 ++ '\n' :: t) := by
  induction s with
  | nil => simp [manyRun, hp]
  | cons c s ih =>
    simp only [List.cons_append, manyRun]
    by_cases h : p c = true
    · rw [if_pos h, if_pos h, ih]
      simp [Function.comp_def]
    · rw [if_neg h, if_neg h]
      simp

/-- Matches do not pass a line feed. -/
theorem run_nl {r : Re} (hr : NlFree r) (s t : List Char) :
    run r (s ++ '\n' :: t) = (run r s).map fun h => h.extend ('\n' :: t) := by
  induction r generalizing s with
  | eps => simp [run, Hit.extend]
  | cls p =>
    have hp : p '\n' = false := hr
    cases s with
    | nil => simp [run, hp]
    | cons c s =>
      simp only [run, List.cons_append]
      split_ifs <;> simp [Hit.extend]
  | opt p =>
    have hp : p '\n' = false := hr
    cases s with
    | nil => simp [run, hp, Hit.extend]
    | cons c s =>
      simp only [run, List.cons_append]
      split_ifs <;> simp [Hit.extend]
  | many p =>
    have hp : p '\n' = false := hr
    simp [run, manyRun_nl hp, Hit.extend, Function.comp_def]
  | seq a b iha ihb =>
    simp only [run]
    rw [iha hr.1, List.flatMap_map, List.map_flatMap]
    congr 1
    funext h
    have : (h.extend ('\n' :: t)).rest = h.rest ++ '\n' :: t := rfl
    rw [this, ihb hr.2]
    simp [Hit.extend, Function.comp_def]
  | alt a b iha ihb => simp [run, iha hr.1, ihb hr.2]
  | grp a ih =>
    simp only [run]
    rw [ih hr]
    simp [Hit.extend, Function.comp_def]

theorem consumes_run_nil {r : Re} (hc : Consumes r) : run r [] = [] := by
  rw [run_eq_nil_iff]
  rintro ⟨w, g, t, h, hp⟩
  rw [(List.append_eq_nil_iff.1 h.symm).1] at hp
  exact hc g hp

/-- Searching over a line feed: first what is before it, then what is after. -/
theorem search_nl {r : Re} (hr : NlFree r) (hc : Consumes r) (s t : List Char) :
    search r (s ++ '\n' :: t) =
      match search r s with
      | some h => some (h.extend ('\n' :: t))
      | none => search r t := by
  induction s with
  | nil =>
    have h0 : run r ([] ++ '\n' :: t) = [] := by rw [run_nl hr, consumes_run_nil hc]; rfl
    simp only [List.nil_append] at h0
    simp only [List.nil_append, search, h0, consumes_run_nil hc, List.head?_nil]
  | cons c s ih =>
    have h0 := run_nl hr (c :: s) t
    simp only [List.cons_append] at h0
    simp only [List.cons_append, search, h0, List.head?_map]
    cases h : (run r (c :: s)).head? with
    | some x => simp
    | none => simpa using ih

theorem search_text_ne_nil {r : Re} (hc : Consumes r) {s : List Char} {h : Hit} (hs : search r s = some h) :
    h.text ≠ [] := by
  obtain ⟨pre, -, hp, -⟩ := search_eq_some hs
  intro h0
  rw [h0] at hp
  exact hc _ hp

theorem search_rest_length {r : Re} (hc : Consumes r) {s : List Char} {h : Hit} (hs : search r s = some h) :
    h.rest.length < s.length := by
  obtain ⟨pre, h1, -, -⟩ := search_eq_some hs
  have := List.length_pos_iff.2 (search_text_ne_nil hc hs)
  rw [h1]
  simp only [List.length_append]
  omega

/-- Enough turns are as good as more. -/
theorem finditer_enough {r : Re} (hc : Consumes r) (n m : ℕ) (s : List Char) (hn : s.length < n)
    (hm : s.length < m) : finditer r n s = finditer r m s := by
  induction n generalizing m s with
  | zero => omega
  | succ n ih =>
    cases m with
    | zero => omega
    | succ m =>
      simp only [finditer]
      cases h : search r s with
      | none => rfl
      | some x =>
        have := search_rest_length hc h
        simp only [search_text_ne_nil hc h, if_false]
        rw [ih m x.rest (by omega) (by omega)]

theorem findall_eq {r : Re} (hc : Consumes r) (s : List Char) :
    findall r s = match search r s with
      | none => []
      | some h => h :: findall r h.rest := by
  unfold findall
  cases hl : s.length + 1 with
  | zero => omega
  | succ n =>
    simp only [finditer]
    cases h : search r s with
    | none => rfl
    | some x =>
      have := search_rest_length hc h
      simp only [search_text_ne_nil hc h, if_false]
      exact congrArg _ (finditer_enough hc n (x.rest.length + 1) x.rest (by omega) (by omega))

/-- The matches on both sides of a line feed. -/
theorem findall_nl {r : Re} (hr : NlFree r) (hc : Consumes r) (s t : List Char) :
    findall r (s ++ '\n' :: t) = (findall r s).map (fun h => h.extend ('\n' :: t)) ++ findall r t := by
  induction hn : s.length using Nat.strong_induction_on generalizing s with
  | _ n ih =>
    subst hn
    rw [findall_eq hc (s ++ _), findall_eq hc s, search_nl hr hc]
    cases h : search r s with
    | none => simp only [List.map_nil, List.nil_append]; rw [← findall_eq hc]
    | some x =>
      have hx := search_rest_length hc h
      have h2 : (x.extend ('\n' :: t)).rest = x.rest ++ '\n' :: t := rfl
      simp only [List.map_cons, List.cons_append]
      rw [h2, ih x.rest.length hx x.rest rfl]

/-- The groups of the matches. -/
def groupsOf (r : Re) (s : List Char) : List (List (List Char)) := (findall r s).map Hit.groups

/-- A text of lines. -/
def unlinesC (ls : List (List Char)) : List Char := ls.flatMap fun l => l ++ ['\n']

/-- The matches in a text are those in its lines. -/
theorem groupsOf_lines {r : Re} (hr : NlFree r) (hc : Consumes r) (ls : List (List Char)) :
    groupsOf r (unlinesC ls) = ls.flatMap (groupsOf r) := by
  induction ls with
  | nil =>
    have : search r [] = none := by
      rw [search, consumes_run_nil hc]
      rfl
    simp [groupsOf, unlinesC, findall_eq hc, this]
  | cons l ls ih =>
    have : unlinesC (l :: ls) = l ++ '\n' :: unlinesC ls := by simp [unlinesC]
    unfold groupsOf at ih ⊢
    rw [this, findall_nl hr hc, List.map_append, List.flatMap_cons, ih, List.map_map]
    rfl

end Verif
