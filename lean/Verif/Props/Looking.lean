import Verif.Model.ComplexPower
import Verif.Props.Recovery
import Verif.Props.StackTransform
import Mathlib.Order.Bounds.Defs

/-! # C63 and C172: normalizing complex powers, and the velocities picked afterwards -/

namespace Verif.Props
open Verif WT Builtin

/-! ## Specification -/

/-- A rectangular image of `nv` rows and `nf` columns which has a power other than zero at every frequency. -/
structure Shown (orig : List (List ℂ)) (nv nf : ℕ) : Prop where
  rows : orig.length = nv
  cols : ∀ row ∈ orig, row.length = nf
  some_row : 0 < nv
  some_col : 0 < nf
  live : ∀ c < nf, ∃ r z, cell orig r c = some z ∧ z ≠ 0

/-- The documented methods. -/
def normalizations : List String := ["none", "absolute-maximum", "frequency-maximum"]

/-- The magnitudes at frequency `c`. -/
def magnitudesAt (orig : List (List ℂ)) (c : ℕ) : Set ℝ := {v | ∃ r z, cell orig r c = some z ∧ v = ‖z‖}

/-- All magnitudes. -/
def allMagnitudes (orig : List (List ℂ)) : Set ℝ := {v | ∃ r c z, cell orig r c = some z ∧ v = ‖z‖}

/-- What the power `z` at frequency `c` becomes. -/
def Becomes (how : String) (orig : List (List ℂ)) (c : ℕ) (z y : ℂ) : Prop :=
  (how = "none" → y = (‖z‖ : ℝ)) ∧
  (how = "absolute-maximum" → ∃ M, IsGreatest (allMagnitudes orig) M ∧ y = ((‖z‖ / M : ℝ) : ℂ)) ∧
  (how = "frequency-maximum" → ∃ M, IsGreatest (magnitudesAt orig c) M ∧ y = ((‖z‖ / M : ℝ) : ℂ))

/-- Row `i` is the first one with the largest magnitude at frequency `c`. -/
def FirstLargest (orig : List (List ℂ)) (c i : ℕ) : Prop :=
  ∃ z, cell orig i c = some z ∧ (∀ j w, cell orig j c = some w → ‖w‖ ≤ ‖z‖) ∧
    ∀ j w, j < i → cell orig j c = some w → ‖w‖ < ‖z‖

/-! ## Proofs -/

theorem largest_spec : ∀ {l : List ℝ}, l ≠ [] → IsGreatest {x | x ∈ l} (largest l) := by
  have key : ∀ (l : List ℝ) (x : ℝ), IsGreatest {y | y = x ∨ y ∈ l} (l.foldl max x) := by
    intro l
    induction l with
    | nil => intro x; exact ⟨Or.inl rfl, fun y hy => by rcases hy with rfl | h; exact le_rfl; cases h⟩
    | cons a l ih =>
      intro x
      obtain ⟨h1, h2⟩ := ih (max x a)
      refine ⟨?_, ?_⟩
      · rcases h1 with h | h
        · show (a :: l).foldl max x = x ∨ _
          rw [List.foldl_cons, h]
          rcases max_choice x a with e | e
          · exact Or.inl e
          · right; rw [e]; exact List.mem_cons_self
        · exact Or.inr (List.mem_cons_of_mem _ h)
      · intro y hy
        have hm := h2 (Or.inl rfl)
        rcases hy with rfl | h
        · exact le_trans (le_max_left _ _) hm
        · rcases List.mem_cons.1 h with rfl | h
          · exact le_trans (le_max_right _ _) hm
          · exact h2 (Or.inr h)
  intro l hl
  obtain ⟨x, xs, rfl⟩ := List.exists_cons_of_ne_nil hl
  have := key xs x
  simpa [largest, List.mem_cons] using this

/-- The magnitudes of the image. -/
noncomputable def qty (how : String) (a : List (List ℝ)) : List (List ℝ) :=
  if how = "none" then a
  else if how = "absolute-maximum" then a.map fun row => row.map fun x => x / largest a.flatten
  else a.map fun row => List.zipWith (fun x m => x / m) row (columnLargest a)

theorem modulus_embed {a : List (List ℝ)} (h : ∀ row ∈ a, ∀ x ∈ row, 0 ≤ x) : modulus (embed a) = a := by
  unfold modulus embed
  rw [List.map_map]
  conv_rhs => rw [← List.map_id a]
  apply List.map_congr_left
  intro row hrow
  simp only [Function.comp, List.map_map, id]
  conv_rhs => rw [← List.map_id row]
  apply List.map_congr_left
  intro x hx
  simp [abs_of_nonneg (h row hrow x hx)]

theorem modulus_nonneg (p : List (List ℂ)) : ∀ row ∈ modulus p, ∀ x ∈ row, 0 ≤ x := by
  intro row hrow x hx
  simp only [modulus, List.mem_map] at hrow
  obtain ⟨r, -, rfl⟩ := hrow
  simp only [List.mem_map] at hx
  obtain ⟨z, -, rfl⟩ := hx
  exact norm_nonneg z

theorem zipWith_restore : ∀ (row l : List ℝ), row.length = l.length → (∀ m ∈ l, m ≠ 0) →
    List.zipWith (fun z (x : ℝ) => z * (x : ℂ)) ((List.zipWith (fun x m => x / m) row l).map fun (x : ℝ) => (x : ℂ)) l =
      row.map fun (x : ℝ) => (x : ℂ) := by
  intro row
  induction row with
  | nil => intro l _ _; simp
  | cons x row ih =>
    intro l h hl
    rcases l with _ | ⟨m, l⟩
    · simp at h
    · simp only [List.zipWith_cons_cons, List.map_cons]
      rw [ih l (by simpa using h) fun m hm => hl m (List.mem_cons_of_mem _ hm)]
      congr 1
      have := hl m List.mem_cons_self
      rw [← Complex.ofReal_mul, div_mul_cancel₀ _ this]

theorem shown_modulus {orig : List (List ℂ)} {nv nf : ℕ} (h : Shown orig nv nf) :
    ((modulus orig).headD []).length = nf ∧ (∀ row ∈ modulus orig, row.length = nf) ∧ modulus orig ≠ [] := by
  have h3 : ∀ row ∈ modulus orig, row.length = nf := by
    intro row hrow
    simp only [modulus, List.mem_map] at hrow
    obtain ⟨r, hr, rfl⟩ := hrow
    simp [h.cols r hr]
  have hne : modulus orig ≠ [] := by
    intro h0
    have := congrArg List.length h0
    simp only [modulus, List.length_map, List.length_nil] at this
    have := h.rows
    have := h.some_row
    omega
  refine ⟨?_, h3, hne⟩
  obtain ⟨r, rs, hr⟩ := List.exists_cons_of_ne_nil hne
  rw [hr]
  exact h3 r (by rw [hr]; exact List.mem_cons_self)

theorem cell_modulus (orig : List (List ℂ)) (r c : ℕ) : cell (modulus orig) r c = (cell orig r c).map fun z => ‖z‖ := by
  unfold cell modulus
  rw [List.getElem?_map]
  rcases orig[r]? with _ | row
  · rfl
  · simp

theorem cell_embed (a : List (List ℝ)) (r c : ℕ) : cell (embed a) r c = (cell a r c).map fun (x : ℝ) => (x : ℂ) := by
  unfold cell embed
  rw [List.getElem?_map]
  rcases a[r]? with _ | row
  · rfl
  · simp

theorem column_greatest {orig : List (List ℂ)} {nv nf : ℕ} (h : Shown orig nv nf) {c : ℕ} (hc : c < nf) :
    IsGreatest (magnitudesAt orig c) (largest ((modulus orig).map fun row => row.getD c 0)) := by
  obtain ⟨-, h3, hne⟩ := shown_modulus h
  have hg := largest_spec (l := (modulus orig).map fun row => row.getD c 0) (by simpa using hne)
  have hset : {x | x ∈ (modulus orig).map fun row => row.getD c 0} = magnitudesAt orig c := by
    ext v
    simp only [Set.mem_ofPred_eq, magnitudesAt, List.mem_map]
    constructor
    · rintro ⟨row, hrow, rfl⟩
      simp only [modulus, List.mem_map] at hrow
      obtain ⟨r, hr, rfl⟩ := hrow
      obtain ⟨i, hi, rfl⟩ := List.getElem_of_mem hr
      have hl := h.cols _ hr
      refine ⟨i, (orig[i])[c]'(by omega), ?_, ?_⟩
      · unfold cell
        rw [List.getElem?_eq_getElem hi, Option.bind_some, List.getElem?_eq_getElem]
      · have : c < (orig[i]).length := by omega
        simp [List.getD_eq_getElem?_getD, this]
    · rintro ⟨r, z, hz, rfl⟩
      unfold cell at hz
      obtain ⟨row, hrow, hz⟩ := Option.bind_eq_some_iff.1 hz
      refine ⟨row.map fun z => ‖z‖, ?_, ?_⟩
      · simp only [modulus, List.mem_map]
        exact ⟨row, List.mem_of_getElem? hrow, rfl⟩
      · simp [List.getD_eq_getElem?_getD, hz]
  rw [hset] at hg
  exact hg

theorem all_greatest {orig : List (List ℂ)} {nv nf : ℕ} (h : Shown orig nv nf) :
    IsGreatest (allMagnitudes orig) (largest (modulus orig).flatten) := by
  obtain ⟨-, h3, hne⟩ := shown_modulus h
  have hfl : (modulus orig).flatten ≠ [] := by
    obtain ⟨r, rs, hr⟩ := List.exists_cons_of_ne_nil hne
    have hl := h3 r (by rw [hr]; exact List.mem_cons_self)
    intro h0
    rw [hr, List.flatten_cons, List.append_eq_nil_iff] at h0
    rw [h0.1] at hl
    have := h.some_col
    simp at hl
    omega
  have hg := largest_spec hfl
  have hset : {x | x ∈ (modulus orig).flatten} = allMagnitudes orig := by
    ext v
    simp only [Set.mem_ofPred_eq, allMagnitudes, List.mem_flatten]
    constructor
    · rintro ⟨row, hrow, hv⟩
      simp only [modulus, List.mem_map] at hrow
      obtain ⟨r, hr, rfl⟩ := hrow
      obtain ⟨z, hz, rfl⟩ := List.mem_map.1 hv
      obtain ⟨i, hi, rfl⟩ := List.getElem_of_mem hr
      obtain ⟨j, hj, rfl⟩ := List.getElem_of_mem hz
      refine ⟨i, j, _, ?_, rfl⟩
      unfold cell
      rw [List.getElem?_eq_getElem hi, Option.bind_some, List.getElem?_eq_getElem]
    · rintro ⟨r, c, z, hz, rfl⟩
      unfold cell at hz
      obtain ⟨row, hrow, hz⟩ := Option.bind_eq_some_iff.1 hz
      refine ⟨row.map fun z => ‖z‖, ?_, List.mem_map.2 ⟨z, List.mem_of_getElem? hz, rfl⟩⟩
      simp only [modulus, List.mem_map]
      exact ⟨row, List.mem_of_getElem? hrow, rfl⟩
  rw [hset] at hg
  exact hg

theorem greatest_pos {orig : List (List ℂ)} {nv nf : ℕ} (h : Shown orig nv nf) {c : ℕ} (hc : c < nf) {M : ℝ}
    (hM : IsGreatest (magnitudesAt orig c) M) : 0 < M := by
  obtain ⟨r, z, hz, h0⟩ := h.live c hc
  exact lt_of_lt_of_le (norm_pos_iff.2 h0) (hM.2 ⟨r, z, hz, rfl⟩)

theorem greatest_pos_all {orig : List (List ℂ)} {nv nf : ℕ} (h : Shown orig nv nf) {M : ℝ}
    (hM : IsGreatest (allMagnitudes orig) M) : 0 < M := by
  obtain ⟨r, z, hz, h0⟩ := h.live 0 h.some_col
  exact lt_of_lt_of_le (norm_pos_iff.2 h0) (hM.2 ⟨r, 0, z, hz, rfl⟩)

/-- One call: whatever the factor, if the unnormalized magnitudes are those of `orig`, they stay so, and the power is
that of the method. -/
theorem normalizeComplex_step {orig : List (List ℂ)} {nv nf : ℕ} (h : Shown orig nv nf) (s : PowerImage)
    (hs : modulus (times s.toAbs s.power) = modulus orig) {how : String} (hh : how ∈ normalizations) :
    ∃ s', normalizeComplex s how = (s', .ok ()) ∧ modulus (times s'.toAbs s'.power) = modulus orig ∧
      s'.power = embed (qty how (modulus orig)) := by
  have hnn := modulus_nonneg orig
  simp only [normalizations, List.mem_cons, List.not_mem_nil, or_false] at hh
  rcases hh with rfl | rfl | rfl
  · refine ⟨⟨embed (modulus orig), .scalar 1⟩, ?_, ?_, rfl⟩
    · simp only [normalizeComplex, if_true, hs]
    · have : times (.scalar 1) (embed (modulus orig)) = embed (modulus orig) := by simp [times]
      rw [this, modulus_embed hnn]
  · have hM := greatest_pos_all h (all_greatest h)
    refine ⟨⟨embed ((modulus orig).map fun row => row.map fun x => x / largest (modulus orig).flatten),
      .scalar (largest (modulus orig).flatten)⟩, ?_, ?_, ?_⟩
    · simp only [normalizeComplex, hs]
      rfl
    · have : times (.scalar (largest (modulus orig).flatten))
          (embed ((modulus orig).map fun row => row.map fun x => x / largest (modulus orig).flatten)) =
          embed (modulus orig) := by
        unfold times embed
        simp only [List.map_map]
        apply List.map_congr_left
        intro row _
        simp only [Function.comp, List.map_map]
        apply List.map_congr_left
        intro x _
        simp only [Function.comp]
        rw [← Complex.ofReal_mul, div_mul_cancel₀ _ hM.ne']
      rw [this, modulus_embed hnn]
    · rfl
  · obtain ⟨hnf, hrow, hne⟩ := shown_modulus h
    have hlen : (columnLargest (modulus orig)).length = nf := by rw [columnLargest, List.length_map, List.length_range, hnf]
    have hpos : ∀ m ∈ columnLargest (modulus orig), m ≠ 0 := by
      intro m hm
      simp only [columnLargest, hnf, List.mem_map, List.mem_range] at hm
      obtain ⟨c, hc, rfl⟩ := hm
      exact (greatest_pos h hc (column_greatest h hc)).ne'
    refine ⟨⟨embed ((modulus orig).map fun row => List.zipWith (fun x m => x / m) row (columnLargest (modulus orig))),
      .perColumn (columnLargest (modulus orig))⟩, ?_, ?_, ?_⟩
    · simp only [normalizeComplex, hs]
      rfl
    · have : times (.perColumn (columnLargest (modulus orig)))
          (embed ((modulus orig).map fun row => List.zipWith (fun x m => x / m) row (columnLargest (modulus orig)))) =
          embed (modulus orig) := by
        unfold times embed
        simp only [List.map_map]
        apply List.map_congr_left
        intro row hr
        simp only [Function.comp]
        exact zipWith_restore row _ (by rw [hlen]; exact hrow row hr) hpos
      rw [this, modulus_embed hnn]
    · rfl

theorem normalizeComplex_run {orig : List (List ℂ)} {nv nf : ℕ} (h : Shown orig nv nf) (last : String)
    (hl : last ∈ normalizations) : ∀ (calls : List String) (s : PowerImage), (∀ c ∈ calls, c ∈ normalizations) →
      modulus (times s.toAbs s.power) = modulus orig →
      ∃ s', runCalls normalizeComplex s (calls ++ [last]) = (s', .ok ()) ∧ s'.power = embed (qty last (modulus orig)) := by
  intro calls
  induction calls with
  | nil =>
    intro s _ hs
    obtain ⟨s', h1, -, h3⟩ := normalizeComplex_step h s hs hl
    refine ⟨s', ?_, h3⟩
    simp only [List.nil_append, runCalls, h1]
  | cons c calls ih =>
    intro s hc hs
    obtain ⟨s1, h1, h2, -⟩ := normalizeComplex_step h s hs (hc c List.mem_cons_self)
    obtain ⟨s', k1, k2⟩ := ih s1 (fun d hd => hc d (List.mem_cons_of_mem _ hd)) h2
    refine ⟨s', ?_, k2⟩
    simp only [List.cons_append, runCalls, h1]
    exact k1

theorem new_modulus (orig : List (List ℂ)) :
    modulus (times (PowerImage.new orig).toAbs (PowerImage.new orig).power) = modulus orig := by
  simp [PowerImage.new, times]

/-- The power of a cell after normalizing: the magnitude divided by a positive number which depends on the frequency
only. -/
theorem cell_qty {orig : List (List ℂ)} {nv nf : ℕ} (h : Shown orig nv nf) {how : String} (hh : how ∈ normalizations)
    {c : ℕ} (hc : c < nf) : ∃ d : ℝ, 0 < d ∧
      (∀ r, cell (embed (qty how (modulus orig))) r c = (cell orig r c).map fun z => ((‖z‖ / d : ℝ) : ℂ)) ∧
      ∀ z, Becomes how orig c z ((‖z‖ / d : ℝ) : ℂ) := by
  simp only [normalizations, List.mem_cons, List.not_mem_nil, or_false] at hh
  rcases hh with rfl | rfl | rfl
  · refine ⟨1, one_pos, fun r => ?_, fun z => ⟨fun _ => by simp, fun h => absurd h (by decide), fun h => absurd h (by decide)⟩⟩
    rw [cell_embed]
    simp only [qty, if_true]
    rw [cell_modulus]
    rcases cell orig r c with _ | z <;> simp
  · have hM := all_greatest h
    refine ⟨_, greatest_pos_all h hM, fun r => ?_, fun z => ⟨fun h => absurd h (by decide), fun _ => ⟨_, hM, rfl⟩,
      fun h => absurd h (by decide)⟩⟩
    rw [cell_embed]
    have : cell (qty "absolute-maximum" (modulus orig)) r c =
        (cell (modulus orig) r c).map fun x => x / largest (modulus orig).flatten := by
      have e : qty "absolute-maximum" (modulus orig) =
        (modulus orig).map fun row => row.map fun x => x / largest (modulus orig).flatten := rfl
      rw [e]
      unfold cell
      rw [List.getElem?_map]
      rcases (modulus orig)[r]? with _ | row
      · rfl
      · simp
    rw [this, cell_modulus]
    rcases cell orig r c with _ | z <;> simp
  · have hM := column_greatest h hc
    obtain ⟨hnf, hrow, hne⟩ := shown_modulus h
    refine ⟨_, greatest_pos h hc hM, fun r => ?_, fun z => ⟨fun h => absurd h (by decide), fun h => absurd h (by decide),
      fun _ => ⟨_, hM, rfl⟩⟩⟩
    rw [cell_embed]
    have : cell (qty "frequency-maximum" (modulus orig)) r c =
        (cell (modulus orig) r c).map fun x => x / largest ((modulus orig).map fun row => row.getD c 0) := by
      have e : qty "frequency-maximum" (modulus orig) =
        (modulus orig).map fun row => List.zipWith (fun x m => x / m) row (columnLargest (modulus orig)) := rfl
      rw [e]
      unfold cell
      rw [List.getElem?_map]
      rcases (modulus orig)[r]? with _ | row
      · rfl
      · have hcl : (columnLargest (modulus orig))[c]? = some (largest ((modulus orig).map fun row => row.getD c 0)) := by
          unfold columnLargest
          rw [List.getElem?_map, hnf, List.getElem?_range hc]
          rfl
        simp only [Option.map_some, Option.bind_some, List.getElem?_zipWith, hcl]
        rcases row[c]? with _ | x <;> simp
    rw [this, cell_modulus]
    rcases cell orig r c with _ | z <;> simp

/-- **C63** (complex powers).  Whatever `normalize` calls came before, the power is the magnitude of the original
complex power, normalized by the last method. -/
theorem C63_complex_power (orig : List (List ℂ)) (nv nf : ℕ) (h : Shown orig nv nf) (calls : List String) (last : String)
    (hc : ∀ c ∈ calls, c ∈ normalizations) (hl : last ∈ normalizations) :
    ∃ s, runCalls normalizeComplex (PowerImage.new orig) (calls ++ [last]) = (s, .ok ()) ∧
      ∀ r c z, cell orig r c = some z → ∃ y, cell s.power r c = some y ∧ Becomes last orig c z y := by
  obtain ⟨s, h1, h2⟩ := normalizeComplex_run h last hl calls _ hc (new_modulus orig)
  refine ⟨s, h1, fun r c z hz => ?_⟩
  have hcn : c < nf := by
    unfold cell at hz
    obtain ⟨row, hrow, hz⟩ := Option.bind_eq_some_iff.1 hz
    rw [← h.cols row (List.mem_of_getElem? hrow)]
    exact (List.getElem?_eq_some_iff.1 hz).1
  obtain ⟨d, -, d2, d3⟩ := cell_qty h hl hcn
  exact ⟨_, by rw [h2, d2 r, hz]; rfl, d3 z⟩

theorem qty_shape {orig : List (List ℂ)} {nv nf : ℕ} (h : Shown orig nv nf) (how : String) :
    (embed (qty how (modulus orig))).length = nv ∧ ∀ row ∈ embed (qty how (modulus orig)), row.length = nf := by
  obtain ⟨hnf, hrow, -⟩ := shown_modulus h
  have hlen : (columnLargest (modulus orig)).length = nf := by
    rw [columnLargest, List.length_map, List.length_range, hnf]
  have hm : (modulus orig).length = nv := by rw [modulus, List.length_map, h.rows]
  have hq : (qty how (modulus orig)).length = nv ∧ ∀ row ∈ qty how (modulus orig), row.length = nf := by
    unfold qty
    split_ifs
    · exact ⟨hm, hrow⟩
    · refine ⟨by rw [List.length_map, hm], fun row hr => ?_⟩
      obtain ⟨r, h1, rfl⟩ := List.mem_map.1 hr
      rw [List.length_map, hrow r h1]
    · refine ⟨by rw [List.length_map, hm], fun row hr => ?_⟩
      obtain ⟨r, h1, rfl⟩ := List.mem_map.1 hr
      rw [List.length_zipWith, hrow r h1, hlen, min_self]
  refine ⟨by rw [embed, List.length_map, hq.1], fun row hr => ?_⟩
  obtain ⟨r, h1, rfl⟩ := List.mem_map.1 hr
  rw [List.length_map, hq.2 r h1]

theorem firstLargest_unique {orig : List (List ℂ)} {c i j : ℕ} (hi : FirstLargest orig c i)
    (hj : FirstLargest orig c j) : i = j := by
  obtain ⟨z, h1, h2, h3⟩ := hi
  obtain ⟨w, k1, k2, k3⟩ := hj
  rcases lt_trichotomy i j with h | h | h
  · exact absurd (k3 i z h h1) (not_lt.2 (h2 j w k1))
  · exact h
  · exact absurd (h3 j w h k1) (not_lt.2 (k2 i z h1))

/-- Picking on powers which are, at every frequency, the magnitudes over a positive number. -/
theorem picks_of_magnitudes {ν : Type} {orig p : List (List ℂ)} {nv nf : ℕ} (h : Shown orig nv nf)
    (hp1 : p.length = nv) (hp2 : ∀ row ∈ p, row.length = nf)
    (hcell : ∀ c < nf, ∃ d : ℝ, 0 < d ∧ ∀ r, cell p r c = (cell orig r c).map fun z => ((‖z‖ / d : ℝ) : ℂ))
    (velocities : List ν) (hv : velocities.length = nv) :
    ∃ vs, findPeakBy complexLt 0 velocities p "frequency-maximum" = .ok vs ∧ vs.length = nf ∧
      ∀ c < nf, ∃ i, FirstLargest orig c i ∧ vs[c]? = velocities[i]? := by
  have hpne : p ≠ [] := by
    intro h0; rw [h0] at hp1; have := h.some_row; simp at hp1; omega
  have hnf : (p.headD []).length = nf := by
    obtain ⟨r, rs, hr⟩ := List.exists_cons_of_ne_nil hpne
    rw [hr]
    exact hp2 r (by rw [hr]; exact List.mem_cons_self)
  have hvne : 0 < velocities.length := by rw [hv]; exact h.some_row
  have hcol : ∀ c, ∃ i, argmaxBy complexLt (p.map fun row => row.getD c 0) = some i ∧ i < velocities.length ∧
      (c < nf → FirstLargest orig c i) := by
    intro c
    obtain ⟨i, hi, hil, h1, h2⟩ := argmaxBy_spec complexLt_rankOrder (p.map fun row => row.getD c 0)
      (by simpa using hpne)
    have hil' : i < nv := by rw [List.length_map, hp1] at hil; exact hil
    refine ⟨i, hi, by omega, fun hc => ?_⟩
    obtain ⟨d, hd, hcd⟩ := hcell c hc
    have key : ∀ j (hj : j < (p.map fun row => row.getD c 0).length), ∃ w, cell orig j c = some w ∧
        (p.map fun row => row.getD c 0)[j] = ((‖w‖ / d : ℝ) : ℂ) := by
      intro j hj
      have hj' : j < orig.length := by rw [List.length_map, hp1] at hj; rw [h.rows]; exact hj
      have hjp : j < p.length := by rw [List.length_map] at hj; exact hj
      have hco : c < (orig[j]).length := by rw [h.cols _ (List.getElem_mem hj')]; exact hc
      have hcp : c < (p[j]).length := by rw [hp2 _ (List.getElem_mem hjp)]; exact hc
      have e1 : cell orig j c = some (orig[j][c]) := by
        unfold cell
        rw [List.getElem?_eq_getElem hj', Option.bind_some, List.getElem?_eq_getElem]
      have e2 : cell p j c = some (p[j][c]) := by
        unfold cell
        rw [List.getElem?_eq_getElem hjp, Option.bind_some, List.getElem?_eq_getElem]
      refine ⟨_, e1, ?_⟩
      have e3 := hcd j
      rw [e1, e2, Option.map_some, Option.some_inj] at e3
      rw [← e3]
      simp [List.getD_eq_getElem?_getD, hcp]
    have hcell_lt : ∀ j w, cell orig j c = some w → j < (p.map fun row => row.getD c 0).length := by
      intro j w hw
      unfold cell at hw
      obtain ⟨row, hrow, -⟩ := Option.bind_eq_some_iff.1 hw
      have := (List.getElem?_eq_some_iff.1 hrow).1
      rw [List.length_map, hp1, ← h.rows]; exact this
    obtain ⟨z, hz, hz2⟩ := key i hil
    refine ⟨z, hz, fun j w hw => ?_, fun j w hji hw => ?_⟩
    · obtain ⟨w', hw', hw2⟩ := key j (hcell_lt j w hw)
      rw [hw, Option.some_inj] at hw'
      subst hw'
      have := h1 j (hcell_lt j w hw)
      rw [hz2, hw2] at this
      simp only [complexLt, Complex.ofReal_re, Complex.ofReal_im, Bool.or_eq_false_iff, decide_eq_false_iff_not,
        not_lt] at this
      exact (div_le_div_iff_of_pos_right hd).1 this.1
    · obtain ⟨w', hw', hw2⟩ := key j (hcell_lt j w hw)
      rw [hw, Option.some_inj] at hw'
      subst hw'
      have := h2 j (hcell_lt j w hw) hji
      rw [hz2, hw2] at this
      simp only [complexLt, Complex.ofReal_re, Complex.ofReal_im, lt_irrefl, decide_false, Bool.and_false,
        Bool.or_false, decide_eq_true_eq] at this
      exact (div_lt_div_iff_of_pos_right hd).1 this
  choose f hf1 hf2 hf3 using hcol
  refine ⟨(List.range nf).map fun c => velocities.getD (f c) (velocities[0]'hvne), ?_, by simp, fun c hc => ⟨f c, hf3 c hc, ?_⟩⟩
  · unfold findPeakBy
    rw [if_pos rfl, hnf]
    refine mapM_ok_of _ _ _ ?_
    intro c _
    rw [hf1 c]
    simp [List.getD_eq_getElem?_getD, hf2 c]
  · rw [List.getElem?_map, List.getElem?_range hc]
    simp [List.getD_eq_getElem?_getD, hf2 c]

/-- **C172** (after the first look).  After any non-empty sequence of documented `normalize` calls the velocities picked
are, at each frequency, that of the first row with the largest magnitude of the original power. -/
theorem C172_after_normalizing {ν : Type} (orig : List (List ℂ)) (nv nf : ℕ) (h : Shown orig nv nf)
    (velocities : List ν) (hv : velocities.length = nv) (calls : List String) (last : String)
    (hc : ∀ c ∈ calls, c ∈ normalizations) (hl : last ∈ normalizations) :
    ∃ s vs, runCalls normalizeComplex (PowerImage.new orig) (calls ++ [last]) = (s, .ok ()) ∧
      findPeakBy complexLt 0 velocities s.power "frequency-maximum" = .ok vs ∧ vs.length = nf ∧
      ∀ c < nf, ∃ i, FirstLargest orig c i ∧ vs[c]? = velocities[i]? := by
  obtain ⟨s, h1, h2⟩ := normalizeComplex_run h last hl calls _ hc (new_modulus orig)
  obtain ⟨q1, q2⟩ := qty_shape h last
  obtain ⟨vs, v1, v2, v3⟩ := picks_of_magnitudes h (p := s.power) (by rw [h2]; exact q1) (by rw [h2]; exact q2)
    (fun c hcn => by
      obtain ⟨d, d1, d2, -⟩ := cell_qty h hl hcn
      exact ⟨d, d1, by rw [h2]; exact d2⟩) velocities hv
  exact ⟨s, vs, h1, v1, v2, v3⟩

/-- **C172** (between looks).  Two histories of documented `normalize` calls, neither empty, give the same picks. -/
theorem C172_any_history {ν : Type} (orig : List (List ℂ)) (nv nf : ℕ) (h : Shown orig nv nf)
    (velocities : List ν) (hv : velocities.length = nv) (one two : List String) (h1 : one ≠ []) (h2 : two ≠ [])
    (hd1 : ∀ c ∈ one, c ∈ normalizations) (hd2 : ∀ c ∈ two, c ∈ normalizations) :
    ∃ s1 s2 vs, runCalls normalizeComplex (PowerImage.new orig) one = (s1, .ok ()) ∧
      runCalls normalizeComplex (PowerImage.new orig) two = (s2, .ok ()) ∧
      findPeakBy complexLt 0 velocities s1.power "frequency-maximum" = .ok vs ∧
      findPeakBy complexLt 0 velocities s2.power "frequency-maximum" = .ok vs := by
  have key : ∀ l : List String, l ≠ [] → (∀ c ∈ l, c ∈ normalizations) →
      ∃ s vs, runCalls normalizeComplex (PowerImage.new orig) l = (s, .ok ()) ∧
      findPeakBy complexLt 0 velocities s.power "frequency-maximum" = .ok vs ∧ vs.length = nf ∧
      ∀ c < nf, ∃ i, FirstLargest orig c i ∧ vs[c]? = velocities[i]? := by
    intro l hl hd
    have := C172_after_normalizing orig nv nf h velocities hv l.dropLast (l.getLast hl)
      (fun c hc => hd c (List.mem_of_mem_dropLast hc)) (hd _ (List.getLast_mem hl))
    rwa [List.dropLast_append_getLast] at this
  obtain ⟨s1, vs1, a1, a2, a3, a4⟩ := key one h1 hd1
  obtain ⟨s2, vs2, b1, b2, b3, b4⟩ := key two h2 hd2
  have : vs1 = vs2 := by
    apply List.ext_getElem?
    intro c
    by_cases hc : c < nf
    · obtain ⟨i, i1, i2⟩ := a4 c hc
      obtain ⟨j, j1, j2⟩ := b4 c hc
      rw [i2, j2, firstLargest_unique i1 j1]
    · rw [List.getElem?_eq_none (by omega), List.getElem?_eq_none (by omega)]
  exact ⟨s1, s2, vs1, a1, b1, a2, by rw [this]; exact b2⟩

/-- **C172** (partial: powers without phase).  When the powers are real and not negative, the picks are the same before
and after normalizing.  Missing: complex powers, for which `C172_first_look_fails` shows the picks change. -/
theorem C172_real_power_partial {ν : Type} (orig : List (List ℂ)) (nv nf : ℕ) (h : Shown orig nv nf)
    (hreal : ∀ r c z, cell orig r c = some z → z.im = 0 ∧ 0 ≤ z.re)
    (velocities : List ν) (hv : velocities.length = nv) (calls : List String) (hne : calls ≠ [])
    (hc : ∀ c ∈ calls, c ∈ normalizations) :
    ∃ s vs, runCalls normalizeComplex (PowerImage.new orig) calls = (s, .ok ()) ∧
      findPeakBy complexLt 0 velocities orig "frequency-maximum" = .ok vs ∧
      findPeakBy complexLt 0 velocities s.power "frequency-maximum" = .ok vs := by
  obtain ⟨vs, v1, v2, v3⟩ := picks_of_magnitudes h h.rows h.cols
    (fun c _ => ⟨1, one_pos, fun r => by
      rcases hz : cell orig r c with _ | z
      · rfl
      · obtain ⟨z1, z2⟩ := hreal r c z hz
        have hz' : z = (z.re : ℂ) := by apply Complex.ext <;> simp [z1]
        rw [Option.map_some, div_one, Option.some_inj]
        conv_lhs => rw [hz']
        rw [hz', Complex.norm_of_nonneg (by simpa using z2), Complex.ofReal_re]⟩) velocities hv
  have := C172_after_normalizing orig nv nf h velocities hv calls.dropLast (calls.getLast hne)
    (fun c hd => hc c (List.mem_of_mem_dropLast hd)) (hc _ (List.getLast_mem hne))
  rw [List.dropLast_append_getLast] at this
  obtain ⟨s, vs', s1, s2, s3, s4⟩ := this
  have : vs = vs' := by
    apply List.ext_getElem?
    intro c
    by_cases hcn : c < nf
    · obtain ⟨i, i1, i2⟩ := v3 c hcn
      obtain ⟨j, j1, j2⟩ := s4 c hcn
      rw [i2, j2, firstLargest_unique i1 j1]
    · rw [List.getElem?_eq_none (by omega), List.getElem?_eq_none (by omega)]
  exact ⟨s, vs, s1, v1, by rw [this]; exact s2⟩

theorem cell_pair (a b : ℂ) (r c : ℕ) (z : ℂ) (h : cell [[a], [b]] r c = some z) :
    c = 0 ∧ ((r = 0 ∧ z = a) ∨ (r = 1 ∧ z = b)) := by
  rcases r with _ | _ | r <;> rcases c with _ | c <;> simp_all [cell]

theorem shown_pair (a b : ℂ) (ha : a ≠ 0) : Shown [[a], [b]] 2 1 where
  rows := rfl
  cols := by intro row hr; simp at hr; rcases hr with rfl | rfl <;> rfl
  some_row := by omega
  some_col := by omega
  live := by
    intro c hc
    have : c = 0 := by omega
    subst this
    exact ⟨0, a, rfl, ha⟩

/-- **C172** (the first look).  The power 1 at 100 m/s and -2 at 200 m/s: 100 m/s is picked before, 200 m/s after any
documented normalization. -/
theorem C172_first_look_fails : ∀ how ∈ normalizations, ∃ s,
    normalizeComplex (PowerImage.new [[1], [-2]]) how = (s, .ok ()) ∧
    findPeakBy complexLt 0 [(100 : ℕ), 200] [[(1 : ℂ)], [-2]] "frequency-maximum" = .ok [100] ∧
    findPeakBy complexLt 0 [(100 : ℕ), 200] s.power "frequency-maximum" = .ok [200] := by
  intro how hh
  have hs := shown_pair 1 (-2) one_ne_zero
  obtain ⟨s, vs, h1, h2, h3, h4⟩ := C172_after_normalizing _ 2 1 hs [(100 : ℕ), 200] rfl [] how (by simp) hh
  have h1' : normalizeComplex (PowerImage.new [[1], [-2]]) how = (s, .ok ()) := by
    obtain ⟨s', k1, -, -⟩ := normalizeComplex_step hs _ (new_modulus _) hh
    simp only [List.nil_append, runCalls, k1, Prod.mk.injEq, and_true] at h1
    rw [k1, h1]
  refine ⟨s, h1', ?_, ?_⟩
  · have : complexLt (1 : ℂ) (-2) = false := by
      simp [complexLt]; norm_num
    simp [findPeakBy, argmaxBy, argmaxFrom, this, bind, Except.bind, pure, Except.pure]
  · obtain ⟨i, ⟨z, z1, z2, -⟩, i2⟩ := h4 0 (by omega)
    have hi : i = 1 := by
      obtain ⟨-, ⟨rfl, rfl⟩ | ⟨rfl, rfl⟩⟩ := cell_pair _ _ _ _ _ z1
      · have := z2 1 (-2) rfl
        norm_num at this
      · rfl
    subst hi
    rw [h2]
    congr 1
    rcases vs with _ | ⟨v, _ | ⟨w, vs⟩⟩
    · simp at h3
    · simpa using i2
    · simp at h3

/-- Non-vacuity: powers with phase, and a history of every method. -/
example : ∃ s, runCalls normalizeComplex (PowerImage.new [[Complex.I], [3 + 4 * Complex.I]])
    (["none", "frequency-maximum"] ++ ["absolute-maximum"]) = (s, .ok ()) ∧
      ∀ r c z, cell [[Complex.I], [3 + 4 * Complex.I]] r c = some z → ∃ y, cell s.power r c = some y ∧
        Becomes "absolute-maximum" [[Complex.I], [3 + 4 * Complex.I]] c z y :=
  C63_complex_power _ 2 1 (shown_pair _ _ Complex.I_ne_zero) _ _ (by decide) (by decide)

/-- Non-vacuity of the real case. -/
example : ∃ s vs, runCalls normalizeComplex (PowerImage.new [[1], [2]]) ["none", "frequency-maximum"] = (s, .ok ()) ∧
      findPeakBy complexLt 0 [(100 : ℕ), 200] [[(1 : ℂ)], [2]] "frequency-maximum" = .ok vs ∧
      findPeakBy complexLt 0 [(100 : ℕ), 200] s.power "frequency-maximum" = .ok vs :=
  C172_real_power_partial [[1], [2]] 2 1 (shown_pair 1 2 one_ne_zero)
    (by intro r c z hz; obtain ⟨-, ⟨-, rfl⟩ | ⟨-, rfl⟩⟩ := cell_pair _ _ _ _ _ hz <;> norm_num)
    [100, 200] rfl _ (by decide) (by decide)

end Verif.Props
