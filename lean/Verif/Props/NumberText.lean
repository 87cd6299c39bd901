import Verif.Py.FloatText
import Mathlib.Tactic.Ring
import Mathlib.Tactic.FieldSimp
import Mathlib.Tactic.NormNum

/-!
# C104: numbers in the text of a file
-/

namespace Verif.Props
open Verif FloatText

/-- A decimal number as it is printed: sign, digits before and after the point, and an exponent. -/
structure Decimal where
  negative : Bool
  whole : List Char
  fraction : Option (List Char)
  exponent : Option (Char × Option Char × List Char)

/-- Only digits, at least one before the point and one in the exponent. -/
structure Decimal.Valid (d : Decimal) : Prop where
  whole_ne : d.whole ≠ []
  whole_digits : ∀ c ∈ d.whole, c.isDigit
  fraction_digits : ∀ f, d.fraction = some f → ∀ c ∈ f, c.isDigit
  exponent_ok : ∀ c s e, d.exponent = some (c, s, e) → (c = 'e' ∨ c = 'E') ∧ (s = none ∨ s = some '+' ∨ s = some '-') ∧
    e ≠ [] ∧ ∀ x ∈ e, x.isDigit

/-- How it is printed. -/
def Decimal.text (d : Decimal) : List Char :=
  (if d.negative then ['-'] else []) ++ d.whole ++ (match d.fraction with | none => [] | some f => '.' :: f) ++
    (match d.exponent with
      | none => []
      | some (c, none, e) => c :: e
      | some (c, some s, e) => c :: s :: e)

/-- The number of a sequence of digits, read from the left. -/
def digitsValue : List Char → ℚ
  | [] => 0
  | c :: s => ((c.toNat - '0'.toNat : ℕ) : ℚ) * 10 ^ s.length + digitsValue s

/-- The number it stands for. -/
def Decimal.value (d : Decimal) : ℚ :=
  (if d.negative then -1 else 1) *
    (digitsValue d.whole + (match d.fraction with | none => 0 | some f => digitsValue f / 10 ^ f.length)) *
    10 ^ (match d.exponent with
      | none => 0
      | some (_, some '-', e) => -(nat e : ℤ)
      | some (_, _, e) => (nat e : ℤ))

theorem nat_value (s : List Char) : (nat s : ℚ) = digitsValue s := by
  have key : ∀ (s : List Char) (n : ℕ), ((s.foldl (fun n c => 10 * n + (c.toNat - '0'.toNat)) n : ℕ) : ℚ) =
      n * 10 ^ s.length + digitsValue s := by
    intro s
    induction s with
    | nil => intro n; simp [digitsValue]
    | cons c s ih =>
      intro n
      rw [List.foldl_cons, ih]
      simp only [digitsValue, List.length_cons, Nat.cast_add, Nat.cast_mul, Nat.cast_ofNat]
      ring
  rw [nat, key]
  simp

theorem digitsValue_append (a b : List Char) : digitsValue (a ++ b) = digitsValue a * 10 ^ b.length + digitsValue b := by
  induction a with
  | nil => simp [digitsValue]
  | cons c a ih =>
    simp only [List.cons_append, digitsValue, ih, List.length_append]
    ring

theorem spanDigits_append (a b : List Char) (ha : ∀ c ∈ a, c.isDigit) (hb : ∀ c, b.head? = some c → ¬ c.isDigit) :
    spanDigits (a ++ b) = (a, b) := by
  induction a with
  | nil =>
    rcases b with _ | ⟨c, b⟩
    · rfl
    · simp only [List.nil_append, spanDigits]
      rw [if_neg (hb c rfl)]
  | cons c a ih =>
    have h1 := ih fun x hx => ha x (by simp [hx])
    simp only [List.cons_append, spanDigits]
    rw [if_pos (ha c (by simp)), h1]

theorem spanDigits_all (a : List Char) (ha : ∀ c ∈ a, c.isDigit) : spanDigits a = (a, []) := by
  have := spanDigits_append a [] ha (by simp)
  simpa using this

/-- The text of the exponent. -/
def expText : Option (Char × Option Char × List Char) → List Char
  | none => []
  | some (c, none, e) => c :: e
  | some (c, some s, e) => c :: s :: e

/-- Its value. -/
def expValue : Option (Char × Option Char × List Char) → ℤ
  | none => 0
  | some (_, some '-', e) => -(nat e : ℤ)
  | some (_, _, e) => (nat e : ℤ)

theorem exponent_text (x : Option (Char × Option Char × List Char))
    (h : ∀ c s e, x = some (c, s, e) → (c = 'e' ∨ c = 'E') ∧ (s = none ∨ s = some '+' ∨ s = some '-') ∧
      e ≠ [] ∧ ∀ y ∈ e, y.isDigit) : exponent (expText x) = .ok (expValue x) := by
  rcases x with _ | ⟨c, s, e⟩
  · rfl
  · obtain ⟨hc, hs, he, hd⟩ := h c s e rfl
    rcases hs with rfl | rfl | rfl
    · rcases e with _ | ⟨y, e⟩
      · exact absurd rfl he
      · have hy := hd y (by simp)
        have h1 : y ≠ '-' := by rintro rfl; revert hy; decide
        have h2 : y ≠ '+' := by rintro rfl; revert hy; decide
        simp only [expText, exponent]
        rw [if_pos hc]
        split
        · rename_i heq; simp only [List.cons.injEq] at heq; exact absurd heq.1 h1
        · rename_i heq; simp only [List.cons.injEq] at heq; exact absurd heq.1 h2
        · simp only [spanDigits_all _ hd]
          simp [expValue]
    · simp only [expText, exponent]
      rw [if_pos hc]
      simp [spanDigits_all _ hd, he, expValue]
    · simp only [expText, exponent]
      rw [if_pos hc]
      simp [spanDigits_all _ hd, he, expValue]

theorem expText_head (x : Option (Char × Option Char × List Char))
    (h : ∀ c s e, x = some (c, s, e) → (c = 'e' ∨ c = 'E')) (y : Char) (hy : (expText x).head? = some y) :
    y = 'e' ∨ y = 'E' := by
  rcases x with _ | ⟨c, _ | s, e⟩
  · simp [expText] at hy
  · simp only [expText, List.head?_cons, Option.some.injEq] at hy
    exact hy ▸ h c _ e rfl
  · simp only [expText, List.head?_cons, Option.some.injEq] at hy
    exact hy ▸ h c _ e rfl

theorem unsigned_text (d : Decimal) (hd : d.Valid) (hn : d.negative = false) :
    unsigned d.text = .ok (d.value) := by
  obtain ⟨neg, whole, fraction, ex⟩ := d
  simp only at hn
  subst hn
  have h1 := hd.whole_digits
  have h2 := hd.whole_ne
  have h3 := hd.exponent_ok
  simp only at h1 h2 h3
  have hE : ∀ y, (expText ex).head? = some y → y = 'e' ∨ y = 'E' := expText_head ex fun c s e h => (h3 c s e h).1
  have hnd : ∀ y, (expText ex).head? = some y → ¬ y.isDigit := by
    intro y hy
    rcases hE y hy with rfl | rfl <;> decide
  rcases fraction with _ | f
  · have ht : Decimal.text ⟨false, whole, none, ex⟩ = whole ++ expText ex := by
      rcases ex with _ | ⟨c, _ | s, e⟩ <;> simp [Decimal.text, expText]
    rw [ht]
    unfold unsigned
    rw [spanDigits_append _ _ h1 hnd]
    simp only
    rw [if_neg h2]
    have hx := exponent_text ex h3
    have hv : digitsValue whole * (10 : ℚ) ^ expValue ex = Decimal.value ⟨false, whole, none, ex⟩ := by
      rcases ex with _ | ⟨c, _ | s, e⟩ <;> simp [Decimal.value, expValue]
    rcases he : expText ex with _ | ⟨c, t⟩
    · rw [he] at hx
      simp only [hx, List.append_nil, List.length_nil, Nat.cast_zero, sub_zero, nat_value, hv]
    · rw [he] at hx
      rcases hE c (by rw [he]; rfl) with rfl | rfl
      · show (match exponent ('e' :: t) with
          | .error e => Except.error e
          | .ok e => Except.ok ((nat (whole ++ []) : ℚ) * (10 : ℚ) ^ (e - ([] : List Char).length))) = _
        simp only [hx, List.append_nil, List.length_nil, Nat.cast_zero, sub_zero, nat_value, hv]
      · show (match exponent ('E' :: t) with
          | .error e => Except.error e
          | .ok e => Except.ok ((nat (whole ++ []) : ℚ) * (10 : ℚ) ^ (e - ([] : List Char).length))) = _
        simp only [hx, List.append_nil, List.length_nil, Nat.cast_zero, sub_zero, nat_value, hv]
  · have hf := hd.fraction_digits f rfl
    have ht : Decimal.text ⟨false, whole, some f, ex⟩ = whole ++ ('.' :: (f ++ expText ex)) := by
      rcases ex with _ | ⟨c, _ | s, e⟩ <;> simp [Decimal.text, expText]
    rw [ht]
    unfold unsigned
    rw [spanDigits_append _ _ h1 (by
      intro c hc
      simp only [List.head?_cons, Option.some.injEq] at hc
      subst hc
      decide)]
    simp only
    rw [if_neg h2, spanDigits_append _ _ hf hnd]
    simp only
    rw [exponent_text ex h3]
    simp only [nat_value, digitsValue_append]
    have h10 : (10 : ℚ) ≠ 0 := by norm_num
    have key : ∀ e : ℤ, (digitsValue whole * 10 ^ f.length + digitsValue f) * (10 : ℚ) ^ (e - f.length) =
        (digitsValue whole + digitsValue f / 10 ^ f.length) * 10 ^ e := by
      intro e
      rw [zpow_sub₀ h10, zpow_natCast]
      field_simp
    rw [key]
    rcases ex with _ | ⟨c, _ | s, e⟩ <;> simp [Decimal.value, expValue]

/-- **C104** (numbers).  Every decimal number, with or without sign, point and exponent, is read as the number it stands
for. -/
theorem C104_numbers (d : Decimal) (hd : d.Valid) : float d.text = .ok (.fin d.value) := by
  have hc : ∀ (d : Decimal), d.Valid → d.negative = false → ∃ y t, d.text = y :: t ∧ y.isDigit := by
    intro d hd hn
    obtain ⟨neg, whole, fraction, ex⟩ := d
    simp only at hn
    subst hn
    rcases whole with _ | ⟨y, whole⟩
    · exact absurd rfl hd.whole_ne
    · exact ⟨y, _, rfl, hd.whole_digits y (by simp)⟩
  rcases hn : d.negative with _ | _
  · obtain ⟨y, t, ht, hy⟩ := hc d hd hn
    have h := unsigned_text d hd hn
    have n1 : y ≠ 'i' := by rintro rfl; revert hy; decide
    have n2 : y ≠ '-' := by rintro rfl; revert hy; decide
    have n3 : y ≠ 'n' := by rintro rfl; revert hy; decide
    rw [ht] at h ⊢
    unfold float
    rw [if_neg (by rw [show "inf".toList = ['i', 'n', 'f'] from rfl]; simp [n1]),
      if_neg (by rw [show "-inf".toList = ['-', 'i', 'n', 'f'] from rfl]; simp [n2]),
      if_neg (by rw [show "nan".toList = ['n', 'a', 'n'] from rfl]; simp [n3])]
    split
    · rename_i heq
      simp only [List.cons.injEq] at heq
      exact absurd heq.1 n2
    · rw [h]
  · have hd' : Decimal.Valid { d with negative := false } := ⟨hd.1, hd.2, hd.3, hd.4⟩
    obtain ⟨y, t, ht, hy⟩ := hc _ hd' rfl
    have h := unsigned_text _ hd' rfl
    have n1 : y ≠ 'i' := by rintro rfl; revert hy; decide
    have htext : d.text = '-' :: Decimal.text { d with negative := false } := by
      simp [Decimal.text, hn]
    have hval : d.value = - Decimal.value { d with negative := false } := by
      simp only [Decimal.value, hn, if_true, Bool.false_eq_true, if_false]
      ring
    rw [htext, hval, ht]
    rw [ht] at h
    unfold float
    rw [if_neg (by rw [show "inf".toList = ['i', 'n', 'f'] from rfl]; simp),
      if_neg (by rw [show "-inf".toList = ['-', 'i', 'n', 'f'] from rfl]; simp [n1]),
      if_neg (by rw [show "nan".toList = ['n', 'a', 'n'] from rfl]; simp)]
    simp only [h]

/-- **C104** (no numbers). -/
theorem C104_not_numbers : float "inf".toList = .ok .pinf ∧ float "-inf".toList = .ok .ninf ∧ float "nan".toList = .ok .nan ∧
    float [] = .error .valueError := by decide +kernel

/-- `-12.50e-1` is -1.25. -/
example : Decimal.Valid ⟨true, ['1', '2'], some ['5', '0'], some ('e', some '-', ['1'])⟩ ∧
    Decimal.text ⟨true, ['1', '2'], some ['5', '0'], some ('e', some '-', ['1'])⟩ = "-12.50e-1".toList ∧
    Decimal.value ⟨true, ['1', '2'], some ['5', '0'], some ('e', some '-', ['1'])⟩ = -5 / 4 := by
  refine ⟨⟨by simp, by decide, by intro f h; cases h; decide, by intro c s e h; cases h; decide⟩, by decide +kernel,
    by decide +kernel⟩

end Verif.Props
