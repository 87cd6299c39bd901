import Mathlib.Data.List.Basic

/-!
# Facts about lists used in several places
-/

namespace Verif

/-- Where a separator splits a list. -/
theorem split_unique {α : Type} {c : α} : ∀ {l l' r r' : List α}, c ∉ l → c ∉ l' →
    l ++ c :: r = l' ++ c :: r' → l = l' ∧ r = r'
  | [], [], r, r', _, _, h => by simpa using h
  | [], b :: l', r, r', _, h', h => by
    simp only [List.nil_append, List.cons_append, List.cons.injEq] at h
    exact absurd (by simp [h.1]) h'
  | a :: l, [], r, r', hl, _, h => by
    simp only [List.nil_append, List.cons_append, List.cons.injEq] at h
    exact absurd (by simp [h.1]) hl
  | a :: l, b :: l', r, r', hl, hl', h => by
    simp only [List.cons_append, List.cons.injEq] at h
    obtain ⟨rfl, h⟩ := h
    obtain ⟨rfl, rfl⟩ := split_unique (fun x => hl (by simp [x])) (fun x => hl' (by simp [x])) h
    exact ⟨rfl, rfl⟩

end Verif
