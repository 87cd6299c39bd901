import Verif.Model.ArrayHeap

/-!
# Arrays as values

What a program sees when no two arrays share a sensor: every array is a value of its own.
-/

namespace Verif.Spec.Arrays
open Verif.ArrayHeap

/-- The array as its methods see it: its sensors' present contents and its source. -/
def view (w : World) (a : RArr) : Arr := ⟨a.refs.filterMap fun r => w.sensors[r]?, a.source⟩

/-- All arrays, in the order in which they were made. -/
def values (w : World) : List Arr := w.arrays.map (view w)

/-- The state of a program after the given statements, exceptions caught. -/
def after (ops : List Op) : World := runAll step start ops

/-- The statement makes an array of sensors made for it, or calls a method of an array; it does not name a sensor. -/
def ByArrays : Op → Prop
  | .newSensor _ => False
  | .newArray _ _ => False
  | .sensorTrim _ _ _ => False
  | .sensorPad _ _ => False
  | _ => True

/-- One more array, or the exception of its constructor. -/
def more (l : List Arr) : Except PyErr Arr → Outcome (List Arr)
  | .error e => (l, .error e)
  | .ok a => (l ++ [a], .ok ())

/-- A method of the array with the given number. -/
def on (l : List Arr) (i : ℕ) (f : Arr → Outcome Arr) : Outcome (List Arr) :=
  match l[i]? with
  | none => (l, .error unknownName)
  | some a => (l.set i (f a).1, (f a).2)

/-- What a statement does when every array is a value of its own. -/
def valueStep (l : List Arr) : Op → Outcome (List Arr)
  | .obtained ss source => more l (Arr.init ss source)
  | .copy i =>
    match l[i]? with
    | none => (l, .error unknownName)
    | some a => more l a.fromArray
  | .trim i start stop => on l i fun a => a.trim start stop
  | .trimOffsets i mn mx => on l i fun a => a.trimOffsets mn mx
  | .zeroPad i df => on l i fun a => a.zeroPad df
  | .mute i tukey start stop => on l i fun a => Arr.mute tukey a start stop
  | _ => (l, .ok ())

end Verif.Spec.Arrays
