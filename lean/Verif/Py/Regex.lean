import Verif.Py.Basic

/-!
# Python's `re`, as far as `swprocess/regex.py` uses it

A pattern is a term; repetition is only ever of one character class.  Matching backtracks: the possible matches
at a place are listed in the order in which `re` tries them, and the first is the match.  `\d` is an ASCII digit
(Python: any Unicode decimal digit), `\S` is anything but ASCII white space, `.` anything but a line feed.
-/

namespace Verif

/-- Patterns. -/
inductive Re where
  /-- nothing -/
  | eps
  /-- one character of a class -/
  | cls (p : Char → Bool)
  /-- `p?` -/
  | opt (p : Char → Bool)
  /-- `p*` -/
  | many (p : Char → Bool)
  /-- one after the other -/
  | seq (a b : Re)
  /-- `a|b` -/
  | alt (a b : Re)
  /-- `(a)` -/
  | grp (a : Re)

/-- A match: the text matched, the groups in order (a group in an alternative not taken is absent), and the text
after it. -/
structure Hit where
  text : List Char
  groups : List (List Char)
  rest : List Char
  deriving DecidableEq, Repr

namespace Re

/-- `p*`, longest first: text matched and rest. -/
def manyRun (p : Char → Bool) : List Char → List (List Char × List Char)
  | [] => [([], [])]
  | c :: s => if p c then (manyRun p s).map (fun x => (c :: x.1, x.2)) ++ [([], c :: s)] else [([], c :: s)]

/-- All matches at the beginning of a text, in the order in which they are tried. -/
def run : Re → List Char → List Hit
  | .eps, s => [⟨[], [], s⟩]
  | .cls p, s =>
    match s with
    | [] => []
    | c :: r => if p c then [⟨[c], [], r⟩] else []
  | .opt p, s =>
    match s with
    | [] => [⟨[], [], []⟩]
    | c :: r => if p c then [⟨[c], [], r⟩, ⟨[], [], c :: r⟩] else [⟨[], [], c :: r⟩]
  | .many p, s => (manyRun p s).map fun x => ⟨x.1, [], x.2⟩
  | .seq a b, s => (run a s).flatMap fun h => (run b h.rest).map fun h' =>
      ⟨h.text ++ h'.text, h.groups ++ h'.groups, h'.rest⟩
  | .alt a b, s => run a s ++ run b s
  | .grp a, s => (run a s).map fun h => ⟨h.text, h.text :: h.groups, h.rest⟩

/-- `re.search`: the first match at the leftmost place where there is one. -/
def search (r : Re) : List Char → Option Hit
  | [] => (run r []).head?
  | c :: s =>
    match (run r (c :: s)).head? with
    | some h => some h
    | none => search r s

/-- `re.finditer`: matches from left to right, the next one beginning after the end of the one before.  (The
patterns used never match the empty text; an empty match ends the search here.) -/
def finditer (r : Re) : ℕ → List Char → List Hit
  | 0, _ => []
  | n + 1, s =>
    match search r s with
    | none => []
    | some h => if h.text = [] then [h] else h :: finditer r n h.rest

/-- `re.finditer` on a whole text: there are at most as many matches as characters. -/
def findall (r : Re) (s : List Char) : List Hit := finditer r (s.length + 1) s

/-- `\d` -/
def digit (c : Char) : Bool := decide ('0' ≤ c) && decide (c ≤ '9')
/-- `.` -/
def any (c : Char) : Bool := c != '\n'
/-- `\S` -/
def nonspace (c : Char) : Bool :=
  !(c == ' ' || c == '\n' || c == '\t' || c == '\r' || c == '\x0b' || c == '\x0c')

/-- One given character. -/
def lit (c : Char) : Re := .cls fun d => d == c
/-- A given text. -/
def litChars : List Char → Re
  | [] => .eps
  | c :: s => .seq (lit c) (litChars s)
/-- A given text. -/
def lits (s : String) : Re := litChars s.toList

/-- Characters with a meaning in patterns, beside `.` and `+`. -/
def special (c : Char) : Bool := c ∈ ['\\', '^', '$', '*', '+', '?', '{', '}', '[', ']', '|', '(', ')']

/-- What a character stands for in a pattern: `.` for any character, others for themselves. -/
def item (c : Char) : Char → Bool := if c = '.' then any else fun d => d == c

/-- A text used as a pattern (the code puts times and frequencies found in a file into patterns): `.` is any
character, `x+` one or more `x`.  Other special characters are outside the model (`re.error` or another meaning;
here `ValueError`); numbers have none. -/
def ofText : List Char → Except PyErr Re
  | [] => .ok .eps
  | c :: rest =>
    if special c then .error .valueError
    else
      match rest with
      | '+' :: rest' =>
        match ofText rest' with
        | .error e => .error e
        | .ok r => .ok (.seq (.cls (item c)) (.seq (.many (item c)) r))
      | rest =>
        match ofText rest with
        | .error e => .error e
        | .ok r => .ok (.seq (.cls (item c)) r)

end Re
end Verif
