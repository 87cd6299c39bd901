import Verif.Model.Register

/-!
# C73: registries
-/

namespace Verif.Props
open Verif

/-- The class registered last under `name` among the transforms, by reading the history backwards. -/
def lastTransform {α : Type} (name : String) : List (RegOp α) → Option α
  | [] => none
  | op :: rest =>
    match lastTransform name rest with
    | some c => some c
    | none => match op with
      | .transform n c => if n = name then some c else none
      | .workflow _ _ => none

/-- The same for the workflows. -/
def lastWorkflow {α : Type} (name : String) : List (RegOp α) → Option α
  | [] => none
  | op :: rest =>
    match lastWorkflow name rest with
    | some c => some c
    | none => match op with
      | .workflow n c => if n = name then some c else none
      | .transform _ _ => none

theorem lookup_register_same {α : Type} (r : Registry α) (name : String) (c : α) :
    (r.register name c).lookup name = some c := by
  unfold Registry.register
  split_ifs with h
  · induction r with
    | nil => simp at h
    | cons p r ih =>
      rcases p with ⟨a, b⟩
      by_cases ha : a = name
      · subst ha; simp
      · have ha' : (name == a) = false := by simpa using Ne.symm ha
        simp only [List.lookup_cons, ha'] at h
        simp only [List.map_cons, ha, if_false, List.lookup_cons, ha']
        exact ih h
  · have : ∀ r : Registry α, r.lookup name = none → (r ++ [(name, c)]).lookup name = some c := by
      intro r hr
      induction r with
      | nil => simp
      | cons p r ih =>
        rcases p with ⟨a, b⟩
        simp only [List.lookup_cons, List.cons_append] at hr ⊢
        split at hr
        · cases hr
        · exact ih hr
    exact this r (Option.not_isSome_iff_eq_none.1 h)

theorem lookup_register_other {α : Type} (r : Registry α) (name k : String) (c : α) (hk : k ≠ name) :
    (r.register name c).lookup k = r.lookup k := by
  unfold Registry.register
  split_ifs with h
  · clear h
    induction r with
    | nil => rfl
    | cons p r ih =>
      rcases p with ⟨a, b⟩
      by_cases ha : a = name
      · subst ha
        have : (k == a) = false := by simpa using hk
        simp only [List.map_cons, if_true, List.lookup_cons, this, ih]
      · simp only [List.map_cons, ha, if_false, List.lookup_cons, ih]
  · clear h
    induction r with
    | nil =>
      have : (k == name) = false := by simpa using hk
      simp [List.lookup_cons, this]
    | cons p r ih =>
      rcases p with ⟨a, b⟩
      simp only [List.cons_append, List.lookup_cons, ih]

theorem registries_inv {α : Type} (name : String) (ops : List (RegOp α)) : ∀ s : Registries α,
    ((ops.foldl Registries.step s).transforms.lookup name =
      (lastTransform name ops).or (s.transforms.lookup name)) ∧
    ((ops.foldl Registries.step s).workflows.lookup name =
      (lastWorkflow name ops).or (s.workflows.lookup name)) := by
  induction ops with
  | nil => intro s; simp [lastTransform, lastWorkflow]
  | cons op ops ih =>
    intro s
    obtain ⟨h1, h2⟩ := ih (s.step op)
    simp only [List.foldl_cons, h1, h2, lastTransform, lastWorkflow]
    constructor
    · rcases lastTransform name ops with _ | c
      · cases op with
        | transform n c =>
          by_cases hn : n = name
          · subst hn; simp [Registries.step, lookup_register_same]
          · simp [Registries.step, hn, lookup_register_other _ _ _ _ (Ne.symm hn)]
        | workflow n c => simp [Registries.step]
      · simp
    · rcases lastWorkflow name ops with _ | c
      · cases op with
        | workflow n c =>
          by_cases hn : n = name
          · subst hn; simp [Registries.step, lookup_register_same]
          · simp [Registries.step, hn, lookup_register_other _ _ _ _ (Ne.symm hn)]
        | transform n c => simp [Registries.step]
      · simp

/-- **C73**.  After any history of registrations in the two registries, looking up a name in one of
them yields the class registered last under that name in that registry, whatever was registered in the
other one, and raises `KeyError` if there is none. -/
theorem C73_registries {α : Type} (ops : List (RegOp α)) (name : String) :
    (Registries.run ops).transforms.createClass name =
      (match lastTransform name ops with | some c => .ok c | none => .error .keyError) ∧
    (Registries.run ops).workflows.createClass name =
      (match lastWorkflow name ops with | some c => .ok c | none => .error .keyError) := by
  obtain ⟨h1, h2⟩ := registries_inv name ops ⟨[], []⟩
  unfold Registry.createClass Registries.run
  rw [h1, h2]
  constructor
  · rcases lastTransform name ops with _ | c <;> simp
  · rcases lastWorkflow name ops with _ | c <;> simp

/-- A name registered twice, and the same name in the other registry. -/
example : (Registries.run [.transform "fk" 1, .workflow "fk" 2, .transform "fk" 3,
    .workflow "single" 4]).transforms.createClass "fk" = .ok 3 ∧
    (Registries.run [.transform "fk" 1, .workflow "fk" 2, .transform "fk" 3,
    .workflow "single" 4]).transforms.createClass "single" = .error .keyError := by
  constructor <;> rfl

end Verif.Props
