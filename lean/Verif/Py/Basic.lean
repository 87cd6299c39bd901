import Mathlib.Data.Rat.Floor
import Mathlib.Algebra.Order.Field.Rat
import Mathlib.Data.List.Infix
import Mathlib.Tactic.Ring
import Mathlib.Tactic.Linarith
import Mathlib.Tactic.FieldSimp

/-!
# Python semantics used by the model

Exceptions as values, rounding, truncation, slices, exclusion arguments and
first-index `argmin`/`argmax`.  Nothing in this file models a function of
swprocess; it fixes the meaning of the Python/numpy operations which the
modelled functions use.
-/

namespace Verif

/-- Exceptions raised by the modelled code. -/
inductive PyErr
  | valueError
  | typeError
  | keyError
  | indexError
  | attributeError
  | notImplementedError
  | zeroDivisionError
  | overflowError
  | fileNotFoundError
  | unboundLocalError
  deriving DecidableEq, Repr

/-- Result of a method which mutates its object: the object afterwards, and
whether an exception was raised.  Mutations made before the exception stay. -/
abbrev Outcome (σ : Type) := σ × Except PyErr Unit

/-- Perform a sequence of calls on one object, stopping at the first exception. -/
def runCalls {σ α : Type} (f : σ → α → Outcome σ) : σ → List α → Outcome σ
  | s, [] => (s, .ok ())
  | s, a :: as =>
    match f s a with
    | (s', .ok ()) => runCalls f s' as
    | (s', .error e) => (s', .error e)

/-- Perform a sequence of calls on one object whose caller catches every exception and goes on. -/
def runAll {σ α : Type} (f : σ → α → Outcome σ) (s : σ) (as : List α) : σ :=
  as.foldl (fun s a => (f s a).1) s

/-- Python's `round(q)` to an integer: round half to even. -/
def pyRound (q : ℚ) : ℤ :=
  if q - ⌊q⌋ < 1 / 2 then ⌊q⌋
  else if 1 / 2 < q - ⌊q⌋ then ⌊q⌋ + 1
  else if ⌊q⌋ % 2 = 0 then ⌊q⌋ else ⌊q⌋ + 1

/-- Python's `round(q, nd)` in exact arithmetic (`nd` may be negative). -/
def pyRoundDigits (q : ℚ) (nd : ℤ) : ℚ :=
  pyRound (q * (10 : ℚ) ^ nd) / (10 : ℚ) ^ nd

/-- `int(q)` and numpy's `dtype=int` conversion: truncate toward zero. -/
def pyInt (q : ℚ) : ℤ := if 0 ≤ q then ⌊q⌋ else ⌈q⌉

/-- Index of the first smallest element (`np.argmin`); `none` on an empty list
(numpy raises `ValueError`). -/
def argminFrom : List ℚ → ℕ → ℕ → ℚ → ℕ
  | [], _, best, _ => best
  | x :: xs, i, best, v =>
      if x < v then argminFrom xs (i + 1) i x else argminFrom xs (i + 1) best v

/-- `np.argmin` on a one-dimensional array without NaN: first index of the minimum. -/
def argmin : List ℚ → Option ℕ
  | [] => none
  | x :: xs => some (argminFrom xs 1 0 x)

/-- `np.argmax` on a one-dimensional array without NaN: first index of the maximum. -/
def argmax (l : List ℚ) : Option ℕ := argmin (l.map fun x => -x)

/-- Resolve one bound of a Python slice of a sequence of length `n`: negative
values count from the end; everything is clamped to `[0, n]`. -/
def sliceIdx (n : ℕ) (i : ℤ) : ℕ :=
  if i < 0 then (i + n).toNat else min i.toNat n

/-- `l[i:j]`. -/
def pySlice {α : Type} (l : List α) (i j : ℤ) : List α :=
  (l.take (sliceIdx l.length j)).drop (sliceIdx l.length i)

/-- Element at an integer position, zero outside the sequence (the convention
of `scipy.signal.correlate`). -/
def getZ (l : List ℚ) (i : ℤ) : ℚ :=
  if 0 ≤ i then l.getD i.toNat 0 else 0

/-- The `exclude` argument of the `_is_similar` methods: `None`, a list/tuple of
names, or (as in the default of `crosscorr`, which is `("nsamples")`, not a
tuple) a string, for which Python's `in` is a substring test. -/
inductive Excl
  | none
  | coll (names : List String)
  | str (s : String)
  deriving DecidableEq, Repr

/-- `attr in exclude`. -/
def Excl.has : Excl → String → Bool
  | .none, _ => false
  | .coll l, a => l.contains a
  | .str s, a => decide (a.toList <:+: s.toList)

end Verif
