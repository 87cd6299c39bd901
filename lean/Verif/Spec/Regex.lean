import Verif.Py.Regex

/-!
# What it means for a text to match a pattern

`Parse r w g`: the text `w` matches the pattern `r`, with groups `g` from left to right.  Says nothing about
the order in which matches are tried.
-/

namespace Verif

/-- The text `w` matches `r` with groups `g`. -/
def Parse : Re → List Char → List (List Char) → Prop
  | .eps, w, g => w = [] ∧ g = []
  | .cls p, w, g => (∃ c, p c = true ∧ w = [c]) ∧ g = []
  | .opt p, w, g => (w = [] ∨ ∃ c, p c = true ∧ w = [c]) ∧ g = []
  | .many p, w, g => (∀ c ∈ w, p c = true) ∧ g = []
  | .seq a b, w, g => ∃ w₁ w₂ g₁ g₂, w = w₁ ++ w₂ ∧ g = g₁ ++ g₂ ∧ Parse a w₁ g₁ ∧ Parse b w₂ g₂
  | .alt a b, w, g => Parse a w g ∨ Parse b w g
  | .grp a, w, g => ∃ g', g = w :: g' ∧ Parse a w g'

end Verif
