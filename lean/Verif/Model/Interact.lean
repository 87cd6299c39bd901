import Verif.Model.Array

/-!
# Model of `swprocess/interact.py` and of `Array1D.interactive_mute`

The user is a pair of streams: `picks`, the answers to `plt.ginput(n=-1, timeout=0)` (a list of points each),
and `presses`, the answers to `plt.waitforbuttonpress` (`some true`: a key, `some false`: a mouse button,
`none`: timeout).  A session which needs an answer that is not there is still waiting: result `none`.
Texts and markers drawn on the axes are not modelled.
-/

namespace Verif.Interact

/-- A point (x, y). -/
abbrev Pt := ℚ × ℚ

/-- Unread answers of the user. -/
structure User where
  picks : List (List Pt)
  presses : List (Option Bool)
  deriving DecidableEq, Repr

/-- interact.py:66-69 and 100-103 `while True: if plt.waitforbuttonpress(timeout=-1): break`. -/
def waitKey : List (Option Bool) → Option (List (Option Bool))
  | [] => none
  | some true :: rest => some rest
  | _ :: rest => waitKey rest

/-- interact.py:72-106, the loop `while npt < npts`; `left` is `npts - npt`, `xs` and `ys` are the points so far. -/
def selectLoop (ask : Bool) (left : ℕ) (picks : List (List Pt)) (presses : List (Option Bool))
    (xs ys : List ℚ) : Option (List ℚ × List ℚ × User) :=
  match left, picks with
  | 0, _ => some (xs, ys, ⟨picks, presses⟩)
  | _ + 1, [] => none
  | left + 1, vals :: picks =>
    match vals.getLast? with
    | none => selectLoop ask (left + 1) picks presses xs ys
    | some (x, y) =>
      match (if ask then waitKey presses else some presses) with
      | none => none
      | some [] => none
      | some (some true :: presses) => some (xs ++ [x], ys ++ [y], ⟨picks, presses⟩)
      | some (_ :: presses) => selectLoop ask left picks presses (xs ++ [x]) (ys ++ [y])

/-- interact.py:24-112 `ginput_session`; a negative `npts` is like zero. -/
def ginputSession (initialAdjustment : Bool) (npts : ℤ) (ask : Bool) (u : User) :
    Option (List ℚ × List ℚ × User) :=
  match (if initialAdjustment then waitKey u.presses else some u.presses) with
  | none => none
  | some presses => selectLoop ask npts.toNat u.picks presses [] []

/-- array1d.py:507-511 `parse`: two points to a line; `xs[1]` raises `IndexError` if there is no second point. -/
def parseLine (timeOnY : Bool) (xs ys : List ℚ) : Except PyErr Arr.Line :=
  match xs, ys with
  | x0 :: x1 :: _, y0 :: y1 :: _ => .ok (if timeOnY then ⟨x0, y0, x1, y1⟩ else ⟨y0, x0, y1, x1⟩)
  | _, _ => .error .indexError

/-- array1d.py:514-521 and 524-531: pick one boundary line, if wanted. -/
def pickLine (wanted timeOnY : Bool) (u : User) : Option (Except PyErr (Option Arr.Line) × User) :=
  if wanted then
    match ginputSession false 2 false u with
    | none => none
    | some (xs, ys, u) =>
      match parseLine timeOnY xs ys with
      | .error e => some (.error e, u)
      | .ok l => some (.ok (some l), u)
  else some (.ok none, u)

/-- array1d.py:475-539 `interactive_mute`: the array afterwards, and the lines or the exception.  It begins with a
waterfall plot (`Draw.waterfall`), which raises `IndexError` for fewer than two sensors; records without samples, which it
refuses too, are not modelled here. -/
def interactiveMute (tukey : ℕ → List ℚ) (a : Arr) (muteLocation : String) (timeOnY : Bool) (u : User) :
    Option (Arr × Except PyErr (Option Arr.Line × Option Arr.Line)) :=
  if a.sensors.length < 2 then some (a, .error .indexError)
  else
    match pickLine (muteLocation == "before" || muteLocation == "both") timeOnY u with
    | none => none
    | some (.error e, _) => some (a, .error e)
    | some (.ok start, u) =>
      match pickLine (muteLocation == "after" || muteLocation == "both") timeOnY u with
      | none => none
      | some (.error e, _) => some (a, .error e)
      | some (.ok stop, _) =>
        match a.mute tukey start stop with
        | (a', .error e) => some (a', .error e)
        | (a', .ok ()) => some (a', .ok (start, stop))

end Verif.Interact
