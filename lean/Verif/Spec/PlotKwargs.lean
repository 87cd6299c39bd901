import Verif.Model.PlotKwargs

/-!
# What the members get
-/

namespace Verif.Spec
open Verif.PlotKwargs

/-- Member `k` gets `s` from the value `v`: a string or `None` as it is, of a list the `k`-th entry. -/
inductive Given {α : Type} (k : ℕ) : Value α → Single α → Prop
  | str (s : String) : Given k (.str s) (.str s)
  | none : Given k .none .none
  | item (l : List α) (h : k < l.length) : Given k (.seq l) (.item l[k])

end Verif.Spec
