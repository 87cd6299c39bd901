import Verif.Py.Fl

/-!
# `float(text)` on numbers as `geopsy` prints them

Decimal text to the exact rational; `inf`, `-inf`, `nan`.  Python also takes surrounding white space, underscores,
`+`, `.5` and other spellings; none can come out of the patterns of `regex.py` on the files modelled, and text outside
the syntax here raises `ValueError`.  Rounding to the nearest double is not modelled.
-/

namespace Verif
namespace FloatText

/-- Leading digits and the rest. -/
def spanDigits : List Char → List Char × List Char
  | [] => ([], [])
  | c :: s => if c.isDigit then let r := spanDigits s; (c :: r.1, r.2) else ([], c :: s)

/-- Digits to a natural number. -/
def nat (d : List Char) : ℕ := d.foldl (fun n c => 10 * n + (c.toNat - '0'.toNat)) 0

/-- The exponent. -/
def exponent : List Char → Except PyErr ℤ
  | [] => .ok 0
  | c :: s =>
    if c = 'e' ∨ c = 'E' then
      let (neg, s) := match s with
        | '-' :: s => (true, s)
        | '+' :: s => (false, s)
        | s => (false, s)
      let (d, rest) := spanDigits s
      if d = [] ∨ rest ≠ [] then .error .valueError
      else .ok (if neg then -(nat d : ℤ) else nat d)
    else .error .valueError

/-- A number without sign. -/
def unsigned (s : List Char) : Except PyErr ℚ :=
  let (i, s) := spanDigits s
  if i = [] then .error .valueError
  else
    let (f, s) := match s with
      | '.' :: s => spanDigits s
      | s => ([], s)
    match exponent s with
    | .error e => .error e
    | .ok e => .ok ((nat (i ++ f) : ℚ) * (10 : ℚ) ^ (e - f.length))

/-- `float(text)`. -/
def float (s : List Char) : Except PyErr Fl :=
  if s = "inf".toList then .ok .pinf
  else if s = "-inf".toList then .ok .ninf
  else if s = "nan".toList then .ok .nan
  else
    match s with
    | '-' :: s =>
      match unsigned s with
      | .error e => .error e
      | .ok q => .ok (.fin (-q))
    | s =>
      match unsigned s with
      | .error e => .error e
      | .ok q => .ok (.fin q)

end FloatText
end Verif
