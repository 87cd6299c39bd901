import Verif.Model.SuiteHeap

/-!
# Views of suites that share members
-/

namespace Verif.Spec
open Verif.SuiteHeap

/-- The suite as its methods see it: its members' present contents and its identifiers. -/
def view (w : World) (s : RSuite) : Suite := ⟨s.refs.filterMap fun r => w.objects[r]?, s.ids⟩

/-- The state of a program after the given statements, exceptions caught. -/
def after (ops : List Op) : World := runAll step start ops

/-- The statement acts on the object: the object is a member of the suite, or is the object itself. -/
def ActsOn (w : World) (op : Op) (r : ℕ) : Prop :=
  match op with
  | .rejectLimits i _ _ _ => ∃ s, w.suites[i]? = some s ∧ r ∈ s.refs
  | .rejectBox i _ _ _ _ => ∃ s, w.suites[i]? = some s ∧ r ∈ s.refs
  | .memberLimits k _ _ _ => k = r
  | .memberBox k _ _ _ _ => k = r
  | _ => False

end Verif.Spec
