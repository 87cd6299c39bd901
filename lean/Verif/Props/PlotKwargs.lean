import Verif.Model.PlotKwargs
import Verif.Spec.PlotKwargs
import Mathlib.Tactic.Common

/-!
# C89: plot options
-/

namespace Verif.Props
open Verif PlotKwargs

theorem plotValue_ok {α : Type} {k : ℕ} {v : Value α} {s : Single α} (h : value k v = .ok s) :
    Spec.Given k v s := by
  cases v with
  | str s' => cases h; exact .str _
  | none => cases h; exact .none
  | other => cases h
  | seq l =>
    simp only [value] at h
    split at h
    · rename_i a ha
      cases h
      obtain ⟨hk, rfl⟩ := List.getElem?_eq_some_iff.1 ha
      exact .item l hk
    · cases h

theorem plotMember_ok {α : Type} {k : ℕ} : ∀ {kwargs : List (String × Value α)} {d},
    member k kwargs = .ok d → List.Forall₂ (fun o g => o.1 = g.1 ∧ Spec.Given k o.2 g.2) kwargs d
  | [], _, h => by cases h; exact .nil
  | (key, v) :: rest, d, h => by
    simp only [member] at h
    split at h
    · cases h
    · rename_i s hs
      split at h
      · cases h
      · rename_i d' hd'
        cases h
        exact .cons ⟨rfl, plotValue_ok hs⟩ (plotMember_ok hd')

theorem expandFrom_ok {α : Type} {kwargs : List (String × Value α)} : ∀ {n i : ℕ} {l},
    expandFrom kwargs i n = .ok l → l.length = n ∧
      ∀ k (hk : k < l.length), List.Forall₂ (fun o g => o.1 = g.1 ∧ Spec.Given (i + k) o.2 g.2) kwargs l[k]
  | 0, _, _, h => by cases h; exact ⟨rfl, fun k hk => absurd hk (by simp)⟩
  | n + 1, i, l, h => by
    simp only [expandFrom] at h
    split at h
    · cases h
    · rename_i d hd
      split at h
      · cases h
      · rename_i l' hl'
        cases h
        obtain ⟨h1, h2⟩ := expandFrom_ok hl'
        refine ⟨by simp [h1], fun k hk => ?_⟩
        cases k with
        | zero => exact plotMember_ok hd
        | succ k =>
          have := h2 k (by simpa using hk)
          rw [show i + 1 + k = i + (k + 1) by omega] at this
          exact this

/-- **C89** (expansion).  Options expanded for `n` members are `n` option sets; every one has the options of
the dictionary in its order, member `k` with the string or `None` given for all, or the `k`-th entry of the
list. -/
theorem C89_expand {α : Type} (kwargs : List (String × Value α)) (n : ℕ)
    (l : List (List (String × Single α))) (h : expand kwargs n = .ok l) :
    l.length = n ∧ ∀ k (hk : k < l.length),
      List.Forall₂ (fun o g => o.1 = g.1 ∧ Spec.Given k o.2 g.2) kwargs l[k] := by
  have := expandFrom_ok h
  simpa only [Nat.zero_add] using this

theorem plotMember_total {α : Type} {k : ℕ} : ∀ {kwargs : List (String × Value α)},
    (∀ o ∈ kwargs, o.2 ≠ .other ∧ ∀ l, o.2 = .seq l → k < l.length) → ∃ d, member k kwargs = .ok d
  | [], _ => ⟨[], rfl⟩
  | (key, v) :: rest, h => by
    obtain ⟨d, hd⟩ := plotMember_total (k := k) (fun o ho => h o (List.mem_cons_of_mem _ ho))
    have h0 := h (key, v) (by simp)
    simp only [member, hd]
    cases v with
    | str s => exact ⟨_, rfl⟩
    | none => exact ⟨_, rfl⟩
    | other => exact absurd rfl h0.1
    | seq l =>
      have hk := h0.2 l rfl
      simp only [value, List.getElem?_eq_getElem hk]
      exact ⟨_, rfl⟩

theorem expandFrom_total {α : Type} {kwargs : List (String × Value α)} : ∀ {n i : ℕ},
    (∀ o ∈ kwargs, o.2 ≠ .other ∧ ∀ l, o.2 = .seq l → i + n ≤ l.length) → ∃ l, expandFrom kwargs i n = .ok l
  | 0, _, _ => ⟨[], rfl⟩
  | n + 1, i, h => by
    obtain ⟨d, hd⟩ := plotMember_total (k := i) (fun o ho => ⟨(h o ho).1, fun l hl => by
      have := (h o ho).2 l hl; omega⟩)
    obtain ⟨l, hl⟩ := expandFrom_total (n := n) (i := i + 1) (fun o ho => ⟨(h o ho).1, fun l hl => by
      have := (h o ho).2 l hl; omega⟩)
    simp only [expandFrom, hd, hl]
    exact ⟨_, rfl⟩

/-- **C89** (accepted).  Strings, `None` and lists of at least `n` entries are accepted. -/
theorem C89_accepted {α : Type} (kwargs : List (String × Value α)) (n : ℕ)
    (h : ∀ o ∈ kwargs, o.2 ≠ .other ∧ ∀ l, o.2 = .seq l → n ≤ l.length) :
    ∃ l, expand kwargs n = .ok l :=
  expandFrom_total (fun o ho => ⟨(h o ho).1, fun l hl => by simpa using (h o ho).2 l hl⟩)

theorem plotMember_error {α : Type} {k : ℕ} : ∀ {kwargs : List (String × Value α)} {e},
    member k kwargs = .error e →
    (e = .notImplementedError ∧ ∃ o ∈ kwargs, o.2 = .other) ∨
      (e = .indexError ∧ ∃ o ∈ kwargs, ∃ l, o.2 = .seq l ∧ l.length ≤ k)
  | [], _, h => by cases h
  | (key, v) :: rest, e, h => by
    simp only [member] at h
    split at h
    · rename_i e' he
      cases h
      cases v with
      | str s => cases he
      | none => cases he
      | other => cases he; exact .inl ⟨rfl, _, List.mem_cons_self .., rfl⟩
      | seq l =>
        simp only [value] at he
        split at he
        · cases he
        · rename_i hn
          cases he
          exact .inr ⟨rfl, _, List.mem_cons_self .., l, rfl, List.getElem?_eq_none_iff.1 hn⟩
    · split at h
      · rename_i e' he
        cases h
        rcases plotMember_error he with ⟨h1, o, ho, h2⟩ | ⟨h1, o, ho, h2⟩
        · exact .inl ⟨h1, o, List.mem_cons_of_mem _ ho, h2⟩
        · exact .inr ⟨h1, o, List.mem_cons_of_mem _ ho, h2⟩
      · cases h

theorem expandFrom_error {α : Type} {kwargs : List (String × Value α)} : ∀ {n i : ℕ} {e},
    expandFrom kwargs i n = .error e →
    (e = .notImplementedError ∧ ∃ o ∈ kwargs, o.2 = .other) ∨
      (e = .indexError ∧ ∃ o ∈ kwargs, ∃ l, o.2 = .seq l ∧ l.length < i + n)
  | 0, _, _, h => by cases h
  | n + 1, i, e, h => by
    simp only [expandFrom] at h
    split at h
    · rename_i e' he
      cases h
      rcases plotMember_error he with h | ⟨h1, o, ho, l, hl, h2⟩
      · exact .inl h
      · exact .inr ⟨h1, o, ho, l, hl, by omega⟩
    · split at h
      · rename_i e' he
        cases h
        rcases expandFrom_error he with h | ⟨h1, o, ho, l, hl, h2⟩
        · exact .inl h
        · exact .inr ⟨h1, o, ho, l, hl, by omega⟩
      · cases h

/-- **C89** (refused).  `NotImplementedError` comes only from an option that is no string, `None` or list,
`IndexError` only from a list with fewer than `n` entries, and nothing else is raised. -/
theorem C89_refused {α : Type} (kwargs : List (String × Value α)) (n : ℕ) (e : PyErr)
    (h : expand kwargs n = .error e) :
    (e = .notImplementedError ∧ ∃ o ∈ kwargs, o.2 = .other) ∨
      (e = .indexError ∧ ∃ o ∈ kwargs, ∃ l, o.2 = .seq l ∧ l.length < n) := by
  have := expandFrom_error h
  simpa only [Nat.zero_add] using this

/-- **C89** (refused, the other way).  With at least one member, an option of another kind or a short list is
never accepted. -/
theorem C89_never_accepted {α : Type} (kwargs : List (String × Value α)) (n : ℕ) (hn : 0 < n)
    (o : String × Value α) (ho : o ∈ kwargs) (h : o.2 = .other ∨ ∃ l, o.2 = .seq l ∧ l.length < n) :
    ∃ e, expand kwargs n = .error e := by
  rcases hr : expand kwargs n with e | r
  · exact ⟨e, rfl⟩
  · exfalso
    obtain ⟨h1, h2⟩ := C89_expand kwargs n r hr
    have key : ∀ (k : ℕ) (hk : k < r.length), ∃ g, Spec.Given k o.2 g := fun k hk => by
      have := h2 k hk
      clear h2 hr
      generalize r[k] = d at this
      induction this with
      | nil => cases ho
      | cons hab _ ih =>
        rcases List.mem_cons.1 ho with rfl | ho
        · exact ⟨_, hab.2⟩
        · exact ih ho
    rcases h with h | ⟨l, hl, hlen⟩
    · obtain ⟨g, hg⟩ := key 0 (by omega)
      rw [h] at hg; cases hg
    · obtain ⟨g, hg⟩ := key (n - 1) (by omega)
      rw [hl] at hg
      cases hg with
      | item _ h => omega

/-- Two members: a colour for both, a marker each. -/
example : expand [("color", .str "blue"), ("marker", .seq ["o", "s"]), ("label", .none)] 2 =
    .ok [[("color", .str "blue"), ("marker", .item "o"), ("label", .none)],
      [("color", .str "blue"), ("marker", .item "s"), ("label", .none)]] := by decide +kernel

/-- A list too short for three members, and a number. -/
example : expand [("color", .str "blue"), ("marker", .seq ["o", "s"])] 3 = .error .indexError ∧
    expand [("linewidth", Value.other (α := String))] 3 = .error .notImplementedError := by decide +kernel

/-- **C89** (axis types).  Accepted axis types come as two lists of one length, a string as a list of one;
lists of different lengths raise `IndexError`, anything but a string or a list `TypeError`. -/
theorem C89_types (x y : TypeArg) :
    match x, y with
    | .other, _ => prepareTypes x y = .error .typeError
    | _, .other => prepareTypes x y = .error .typeError
    | .str a, .str b => prepareTypes x y = .ok ([a], [b])
    | .seq l, .str b => prepareTypes x y = if l.length = 1 then .ok (l, [b]) else .error .indexError
    | .str a, .seq l => prepareTypes x y = if l.length = 1 then .ok ([a], l) else .error .indexError
    | .seq l, .seq l' => prepareTypes x y = if l.length = l'.length then .ok (l, l') else .error .indexError := by
  cases x <;> cases y <;> simp [prepareTypes, castType]
  rename_i a l
  by_cases h : l.length = 1
  · simp [h]
  · rw [if_neg h, if_neg (fun h' => h h'.symm)]

end Verif.Props
