import Verif.Model.Peaks
import Verif.Spec.Number

/-!
# Vocabulary for the properties of `Peaks`

Stated on the data of a `Peaks` object; the only functions of the model used are the record projections and
`Peaks.raw`, the recorded values of a named attribute.
-/

namespace Verif.Spec

/-- A well-formed object: all arrays have one shape, which fits the number of entries; attribute names are distinct
and none of the names the class uses itself. -/
structure WfPeaks (p : Peaks) : Prop where
  shape_prod : p.velocity.shape.prod = p.velocity.data.length
  freq_shape : p.frequency.shape = p.velocity.shape
  freq_len : p.frequency.data.length = p.velocity.data.length
  valid_shape : p.valid.shape = p.velocity.shape
  valid_len : p.valid.data.length = p.velocity.data.length
  extra_shape : ∀ e ∈ p.extra, e.2.shape = p.velocity.shape
  extra_len : ∀ e ∈ p.extra, e.2.data.length = p.velocity.data.length
  names_nodup : (p.extra.map Prod.fst).Nodup
  names_ok : ∀ e ∈ p.extra, e.1 ∉ ["frequency", "velocity", "slowness", "wavelength", "wavenumber", "valid",
    "identifier"]

/-- Peak number `i` (row-major) has not been rejected. -/
def Remaining (p : Peaks) (i : ℕ) : Prop := p.valid.data[i]? = some true

/-- Peak number `i` has recorded value `v` of attribute `attr`. -/
def Value (p : Peaks) (attr : String) (i : ℕ) (v : Fl) : Prop :=
  ∃ a, p.raw attr = .ok a ∧ a.data[i]? = some v

/-- Below the lower or above the upper limit; `none` is no limit. -/
def OutsideLimits (lo hi : Option Fl) (v : Fl) : Prop :=
  (∃ l, lo = some l ∧ Below v l) ∨ (∃ h, hi = some h ∧ Below h v)

/-- Strictly between two bounds, given in either order. -/
def Between (b : Fl × Fl) (v : Fl) : Prop :=
  (Below b.1 v ∧ Below v b.2) ∨ (Below b.2 v ∧ Below v b.1)

/-- Two objects differ at most in which peaks are rejected. -/
def SameRecord (p q : Peaks) : Prop :=
  p.identifier = q.identifier ∧ p.frequency = q.frequency ∧ p.velocity = q.velocity ∧ p.extra = q.extra ∧
    p.valid.shape = q.valid.shape ∧ p.valid.data.length = q.valid.data.length

/-- Row `r` holds the strongest valid entry of a column of (strength, valid) pairs: the largest, and the first of
the largest ones. -/
def IsStrongest (col : List (Fl × Bool)) (r : ℕ) : Prop :=
  ∃ v, col[r]? = some (v, true) ∧
    ∀ (r' : ℕ) (v' : Fl), col[r']? = some (v', true) → ¬ Below v v' ∧ (r' < r → Below v' v)

/-- Two numbers within numpy's default tolerance: `1e-8` plus `1e-5` of the second one's magnitude.  NaN is within the
tolerance of NaN, an infinity of itself. -/
inductive Within : Fl → Fl → Prop
  | nan : Within .nan .nan
  | pinf : Within .pinf .pinf
  | ninf : Within .ninf .ninf
  | fin (a b : ℚ) (h : |a - b| ≤ 1 / 10 ^ 8 + |b| / 10 ^ 5) : Within (.fin a) (.fin b)

/-- Two sequences agree within the tolerance: number by number, or, if one of them has a single entry, this one with
every number of the other. -/
def SameWithin (x y : List Fl) : Prop :=
  List.Forall₂ Within x y ∨ (∃ u, x = [u] ∧ ∀ v ∈ y, Within u v) ∨ ∃ v, y = [v] ∧ ∀ u ∈ x, Within u v

end Verif.Spec
