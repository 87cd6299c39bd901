import Verif.Model.Draw
import Verif.Spec.Peaks
import Verif.Spec.PlotKwargs

/-!
# Vocabulary for plots of peaks
-/

namespace Verif.Spec
open Verif.Draw

/-- The line shows exactly the peaks marked by `m`, in their order: its points are the recorded values of the two
attributes of these peaks. -/
def Shows (p : Peaks) (m : Nd Bool) (xtype ytype : String) (ln : Line) : Prop :=
  ∃ idx : List ℕ, idx.Pairwise (· < ·) ∧ (∀ i, i ∈ idx ↔ m.data[i]? = some true) ∧
    List.Forall₂ (Value p xtype) idx ln.xs ∧ List.Forall₂ (Value p ytype) idx ln.ys

/-- The object has such an attribute. -/
def Has (p : Peaks) (attr : String) : Prop := ∃ a, p.raw attr = .ok a

/-- A given mask has the shape of the object's arrays. -/
def MaskFits (p : Peaks) (mask : Option (Nd Bool)) : Prop :=
  ∀ m, mask = some m → m.shape = p.velocity.shape ∧ m.data.length = p.velocity.data.length

/-- A label that appears in a legend: not empty, not beginning with an underscore. -/
def Displayed (l : String) : Prop := l ≠ "" ∧ l.toList.head? ≠ some '_'

/-- Member number `i` of a suite, `p`, has the label `l`: its identifier if no labels are given, else the common label or
its entry of the list of labels. -/
def MemberLabel (kwargs : List (String × PlotKwargs.Value Item)) (i : ℕ) (p : Peaks) (l : String) : Prop :=
  (kwargs.lookup "label" = none ∧ l = p.identifier) ∨ kwargs.lookup "label" = some (.str l) ∨
    ∃ items, kwargs.lookup "label" = some (.seq items) ∧ items[i]? = some (.str l)

end Verif.Spec
