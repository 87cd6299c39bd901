import Verif.Model.Suite

/-!
# Model of `PeaksSuite.interactive_trimming` (peakssuite.py:346-534)

The user's actions are a list of events.  Drawing on the screen is not modelled.
-/

namespace Verif
namespace Trimming

/-- What the user does: two clicks (`clicked` lists the axes hit while they were made), or text typed at the prompt. -/
inductive Event
  | draw (clicked : List ℕ) (p1 p2 : ℚ × ℚ)
  | answer (text : String)

/-- What the program waits for, or how it ended. -/
inductive Phase
  | drawing
  | asking
  | finished
  | raised (e : PyErr)
  deriving DecidableEq, Repr

/-- Each member with its pending rejection mask. -/
structure State where
  members : List (Peaks × List Bool)
  phase : Phase
  deriving DecidableEq, Repr

/-- peakssuite.py:409, 468: a mask of `False` for a member. -/
def noMask (p : Peaks) : Peaks × List Bool := (p, p.valid.data.map fun _ => false)

/-- peakssuite.py:408-409: beginning of the loop. -/
def start (peaks : List Peaks) : State := ⟨peaks.map noMask, .drawing⟩

/-- peakssuite.py:518-534: both clicks on one axes give a box, otherwise the user draws again. -/
def boxOf (clicked : List ℕ) (p1 p2 : ℚ × ℚ) : Option (ℕ × (Fl × Fl) × (Fl × Fl)) :=
  match clicked with
  | [a, b] =>
    if a = b then
      some (a, (.fin (min p1.1 p2.1), .fin (max p1.1 p2.1)), (.fin (min p1.2 p2.2), .fin (max p1.2 p2.2)))
    else none
  | _ => none

/-- peakssuite.py:422-424 for one member: `rejection_bool_arrays[index][rejection_mask] = True`, and the number of
points in the box. -/
def markMember (xt yt : String) (xl yl : Fl × Fl) (m : Peaks × List Bool) : Except PyErr ((Peaks × List Bool) × ℕ) :=
  match m.1.boxMask xt xl yt yl with
  | .error e => .error e
  | .ok mask => .ok ((m.1, List.zipWith (fun old new => if new then true else old) m.2 mask), mask.count true)

/-- peakssuite.py:419-425: all members, and the total number of points. -/
def markAll (xt yt : String) (xl yl : Fl × Fl) : List (Peaks × List Bool) →
    Except PyErr (List (Peaks × List Bool) × ℕ)
  | [] => .ok ([], 0)
  | m :: ms =>
    match markMember xt yt xl yl m with
    | .error e => .error e
    | .ok (m', k) =>
      match markAll xt yt xl yl ms with
      | .error e => .error e
      | .ok (ms', n) => .ok (m' :: ms', k + n)

/-- peakssuite.py:462-465: apply a member's pending mask. -/
def commit (m : Peaks × List Bool) : Peaks × List Bool := noMask (m.1.reject m.2)

/-- One event; `none` if the program does not wait for it. -/
def step (xtype ytype : List String) (s : State) : Event → Option State
  | .draw clicked p1 p2 =>
    match s.phase with
    | .drawing =>
      match boxOf clicked p1 p2 with
      | none => some s
      | some (ax, xl, yl) =>
        match xtype[ax]?, ytype[ax]? with
        | some xt, some yt =>
          match markAll xt yt xl yl s.members with
          | .error e => some { s with phase := .raised e }
          | .ok (ms, n) => some ⟨ms, if n > 0 then .drawing else .asking⟩
        | _, _ => some { s with phase := .raised .indexError }
    | _ => none
  | .answer text =>
    match s.phase with
    | .asking =>
      if text = "0" then some ⟨s.members.map commit, .finished⟩
      else if text = "1" then some ⟨s.members.map commit, .drawing⟩
      else if text = "2" then some ⟨s.members.map fun m => noMask m.1, .drawing⟩
      else some s
    | _ => none

/-- A whole session; `none` if some event comes when the program does not wait for it. -/
def run (xtype ytype : List String) : State → List Event → Option State
  | s, [] => some s
  | s, e :: es =>
    match step xtype ytype s e with
    | none => none
    | some s' => run xtype ytype s' es

end Trimming
end Verif
