import Verif.Model.MaxFile

/-!
# Model of the patterns for SPAC files: `get_spac_ratio`, `get_spac_ring` of `swprocess/regex.py`
-/

namespace Verif
namespace Spac
open Re MaxFile

/-- regex.py:95-96: the parameter `time` or `ring`, by default a group, otherwise the text given as a pattern.
Simplification: a text with parentheses of its own is outside the model (`Re.ofText`). -/
def parameter (default : Re) : Option (List Char) → Except PyErr Re
  | none => .ok (.grp default)
  | some t => ofText t

/-- regex.py:121: the pattern of a ratio. -/
def ratioRe (time component ring : Re) : Re :=
  seqs [time, sp, .grp number, sp, component, sp, ring, sp, .grp number]

/-- regex.py:95-122 `get_spac_ratio`. -/
def getRatio (time : Option (List Char)) (component : String) (ring : Option (List Char)) : Except PyErr Re :=
  if component = "(0)" ∨ component = "0" then do
    let t ← parameter number time
    let r ← parameter (.seq (.cls digit) (.many digit)) ring
    return ratioRe t (if component = "(0)" then .grp (lit '0') else lit '0') r
  else .error .notImplementedError

/-- regex.py:125-131 `get_spac_ring`. -/
def ringRe : Re :=
  seqs [lits " --- Ring (", .grp number, lits " m, ", .grp number, lits " m)"]

end Spac
end Verif
