import Verif.Py.Basic

/-!
# Registries

Models `swprocess/register.py`: class-level dictionaries from names to classes.
-/

namespace Verif

/-- One registry: register.py:52-57 `_register`, a dictionary.  Entries are kept in insertion order. -/
abbrev Registry (α : Type) := List (String × α)

namespace Registry

/-- register.py:28-39 `register(name)(class)`: `cls._register[name] = class`, replacing an existing
entry. -/
def register {α : Type} (r : Registry α) (name : String) (c : α) : Registry α :=
  if (r.lookup name).isSome then r.map fun p => if p.1 = name then (name, c) else p
  else r ++ [(name, c)]

/-- register.py:46-48 `create_class(name)`. -/
def createClass {α : Type} (r : Registry α) (name : String) : Except PyErr α :=
  match r.lookup name with
  | some c => .ok c
  | none => .error .keyError

end Registry

/-- The two registries of the package (register.py:51-58), each with its own dictionary. -/
structure Registries (α : Type) where
  transforms : Registry α
  workflows : Registry α

/-- A registration in one of the two registries. -/
inductive RegOp (α : Type)
  | transform (name : String) (c : α)
  | workflow (name : String) (c : α)

/-- register.py:28-39 called on one of the two classes. -/
def Registries.step {α : Type} (r : Registries α) : RegOp α → Registries α
  | .transform n c => { r with transforms := r.transforms.register n c }
  | .workflow n c => { r with workflows := r.workflows.register n c }

/-- A history of registrations, starting with empty registries. -/
def Registries.run {α : Type} (ops : List (RegOp α)) : Registries α :=
  ops.foldl Registries.step ⟨[], []⟩

end Verif
