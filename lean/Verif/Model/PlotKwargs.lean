import Verif.Py.Basic

/-!
# swprocess/peakssuite.py, `_prepare_plot_kwargs`; swprocess/peaks.py, `_prepare_types`
-/

namespace Verif
namespace PlotKwargs

/-- A value of an option dictionary.  Simplified: `α` stands for what may be in a list. -/
inductive Value (α : Type) where
  | str (s : String)
  | none
  | seq (l : List α)
  | other
  deriving DecidableEq, Repr

/-- A value given to one member. -/
inductive Single (α : Type) where
  | str (s : String)
  | none
  | item (a : α)
  deriving DecidableEq, Repr

/-- peakssuite.py:335-342: the value of one option for the member `index`. -/
def value {α : Type} (index : ℕ) : Value α → Except PyErr (Single α)
  | .str s => .ok (.str s)
  | .none => .ok .none
  | .seq l => match l[index]? with
    | some a => .ok (.item a)
    | Option.none => .error .indexError
  | .other => .error .notImplementedError

/-- peakssuite.py:334-342: the options of one member, in the order of the dictionary. -/
def member {α : Type} (index : ℕ) : List (String × Value α) → Except PyErr (List (String × Single α))
  | [] => .ok []
  | (key, v) :: rest =>
    match value index v with
    | .error e => .error e
    | .ok s =>
      match member index rest with
      | .error e => .error e
      | .ok d => .ok ((key, s) :: d)

/-- peakssuite.py:331-344: the loop over the members from `index` on, `n` of them. -/
def expandFrom {α : Type} (kwargs : List (String × Value α)) (index : ℕ) :
    ℕ → Except PyErr (List (List (String × Single α)))
  | 0 => .ok []
  | n + 1 =>
    match member index kwargs with
    | .error e => .error e
    | .ok d =>
      match expandFrom kwargs (index + 1) n with
      | .error e => .error e
      | .ok l => .ok (d :: l)

/-- peakssuite.py:312-344: `_prepare_plot_kwargs(plot_kwargs, ncols)`. -/
def expand {α : Type} (kwargs : List (String × Value α)) (ncols : ℕ) :
    Except PyErr (List (List (String × Single α))) := expandFrom kwargs 0 ncols

/-- A type argument: a string, a list (or tuple) of them, or something else. -/
inductive TypeArg where
  | str (s : String)
  | seq (l : List String)
  | other
  deriving DecidableEq, Repr

/-- peaks.py:286-293: a string becomes a list of one. -/
def castType : TypeArg → Except PyErr (List String)
  | .str s => .ok [s]
  | .seq l => .ok l
  | .other => .error .typeError

/-- peaks.py:262-304: `_prepare_types(xtype=xtype, ytype=ytype)`; the reference length is that of the last
key. -/
def prepareTypes (xtype ytype : TypeArg) : Except PyErr (List String × List String) :=
  match castType xtype with
  | .error e => .error e
  | .ok x =>
    match castType ytype with
    | .error e => .error e
    | .ok y => if x.length ≠ y.length then .error .indexError else .ok (x, y)

end PlotKwargs
end Verif
