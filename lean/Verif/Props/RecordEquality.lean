import Verif.Lemmas.Records

/-!
# C11, C12: similarity and equality of records
-/

namespace Verif.Props
open Verif ATS

/-- **C11**.  For every `exclude` argument, similarity is an equivalence relation. -/
theorem C11_similarity_is_equivalence (e : Excl) :
    Equivalence (fun a b : ATS => a.isSimilar b e = true) := by
  constructor
  · intro a; simp [isSimilar]
  · intro a b
    simp only [isSimilar, Bool.and_eq_true, Bool.or_eq_true, decide_eq_true_eq]
    rintro ⟨⟨⟨h1, h2⟩, h3⟩, h4⟩
    exact ⟨⟨⟨h1.imp id Eq.symm, h2.imp id Eq.symm⟩, h3.imp id Eq.symm⟩, h4.imp id Eq.symm⟩
  · intro a b c
    simp only [isSimilar, Bool.and_eq_true, Bool.or_eq_true, decide_eq_true_eq]
    rintro ⟨⟨⟨h1, h2⟩, h3⟩, h4⟩ ⟨⟨⟨g1, g2⟩, g3⟩, g4⟩
    refine ⟨⟨⟨?_, ?_⟩, ?_⟩, ?_⟩
    · rcases h1 with h | h
      · exact Or.inl h
      · exact g1.imp id fun g => h.trans g
    · rcases h2 with h | h
      · exact Or.inl h
      · exact g2.imp id fun g => h.trans g
    · rcases h3 with h | h
      · exact Or.inl h
      · exact g3.imp id fun g => h.trans g
    · rcases h4 with h | h
      · exact Or.inl h
      · exact g4.imp id fun g => h.trans g

/-- **C11**.  Without exclusions it is agreement on time step, stacks, delay and length. -/
theorem C11_similarity_means_same_metadata (a b : ATS) :
    a.isSimilar b .none = true ↔
      a.dt = b.dt ∧ a.nstacks = b.nstacks ∧ a.delay = b.delay ∧ a.amp.length = b.amp.length :=
  isSimilar_none_iff a b

example : (⟨[1, 2], 1, 1, 0, 1⟩ : ATS).isSimilar ⟨[3, 4], 1, 2, 0, 5⟩ (.coll ["nstacks"]) = true := by
  decide +kernel

/-- `a == b` in mathematical terms. -/
theorem C12_eq_iff (a b : ATS) : a.eq b = true ↔
    a.dt = b.dt ∧ a.nstacks = b.nstacks ∧ a.delay = b.delay ∧ a.amp.length = b.amp.length ∧
    ∀ (i : ℕ) (x y : ℚ), a.amp[i]? = some x → b.amp[i]? = some y →
      |x - y| ≤ 1 / 10 ^ 8 + 1 / 10 ^ 5 * |y| := by
  have hall : allclose a.amp b.amp = true ↔ ∀ (i : ℕ) (x y : ℚ), a.amp[i]? = some x → b.amp[i]? = some y →
      |x - y| ≤ 1 / 10 ^ 8 + 1 / 10 ^ 5 * |y| := by
    unfold allclose
    rw [List.all_eq_true]
    constructor
    · intro h i x y hx hy
      have : (List.zipWith (fun x y => decide (|x - y| ≤ 1 / 10 ^ 8 + 1 / 10 ^ 5 * |y|)) a.amp b.amp)[i]? =
          some (decide (|x - y| ≤ 1 / 10 ^ 8 + 1 / 10 ^ 5 * |y|)) := by
        rw [List.getElem?_zipWith, hx, hy]
      have hmem := List.mem_of_getElem? this
      simpa using h _ hmem
    · intro h v hv
      obtain ⟨i, hi, rfl⟩ := List.getElem_of_mem hv
      simp only [List.length_zipWith] at hi
      simp only [List.getElem_zipWith, id_eq, decide_eq_true_eq]
      exact h i _ _ (List.getElem?_eq_getElem (by omega)) (List.getElem?_eq_getElem (by omega))
  simp only [ATS.eq, Bool.and_eq_true, hall]
  rw [isSimilar_none_iff]
  simp only [nsamples, and_assoc]

/-- **C12 does not hold**: `==` is not symmetric. -/
theorem C12_eq_not_symmetric_counterexample :
    ∃ a b : ATS, ATS.init [1000000 - 1000000001 / 100000000] 1 1 0 = .ok a ∧
      ATS.init [1000000] 1 1 0 = .ok b ∧ a.eq b = true ∧ b.eq a = false := by
  refine ⟨⟨[1000000 - 1000000001 / 100000000], 1, 1, 0, 1⟩, ⟨[1000000], 1, 1, 0, 1⟩, rfl, rfl, ?_, ?_⟩
  all_goals decide +kernel

/-- **C12 does not hold**: `==` is not transitive. -/
theorem C12_eq_not_transitive_counterexample :
    ∃ a b c : ATS, ATS.init [0] 1 1 0 = .ok a ∧ ATS.init [1 / 10 ^ 8] 1 1 0 = .ok b ∧
      ATS.init [2 / 10 ^ 8] 1 1 0 = .ok c ∧ a.eq b = true ∧ b.eq c = true ∧ a.eq c = false := by
  refine ⟨⟨[0], 1, 1, 0, 1⟩, ⟨[1 / 10 ^ 8], 1, 1, 0, 1⟩, ⟨[2 / 10 ^ 8], 1, 1, 0, 1⟩, rfl, rfl, rfl,
    ?_, ?_, ?_⟩
  all_goals decide +kernel

/-- **C12** (what does hold).  `==` is reflexive, holds for records with the same content, and
implies equal metadata and samples equal within the numpy tolerance (in particular it separates
records differing in time step, stack count, delay or length).  Missing: symmetry and transitivity. -/
theorem C12_eq_reflexive_and_sound_partial (a b : ATS) :
    a.eq a = true ∧
    (a.dt = b.dt → a.nstacks = b.nstacks → a.delay = b.delay → a.amp = b.amp → a.eq b = true) ∧
    (a.eq b = true → a.isSimilar b .none = true ∧ b.isSimilar a .none = true) := by
  have h0 : ∀ b : ATS, a.dt = b.dt → a.nstacks = b.nstacks → a.delay = b.delay → a.amp = b.amp →
      a.eq b = true := by
    intro b h1 h2 h3 h4
    rw [C12_eq_iff]
    refine ⟨h1, h2, h3, by rw [h4], ?_⟩
    intro i x y hx hy
    rw [h4, hy] at hx
    simp only [Option.some.injEq] at hx
    subst hx
    simp only [sub_self, abs_zero]
    positivity
  refine ⟨h0 a rfl rfl rfl rfl, h0 b, ?_⟩
  intro h
  have : a.isSimilar b .none = true := by
    simp only [ATS.eq, Bool.and_eq_true] at h; exact h.1
  exact ⟨this, (C11_similarity_is_equivalence .none).symm this⟩

/-- **C12** (a usable consequence): equal up to tolerance both ways is symmetric; for records whose
samples are bounded by `M`, `a == b` implies that `b == a` holds up to an extra `1e-5 * 2e-5*M`. -/
theorem C12_eq_almost_symmetric_partial (a b : ATS) (h : a.eq b = true) :
    ∀ (i : ℕ) (x y : ℚ), a.amp[i]? = some x → b.amp[i]? = some y →
      |y - x| ≤ 1 / 10 ^ 8 + 1 / 10 ^ 5 * (|x| + (1 / 10 ^ 8 + 1 / 10 ^ 5 * |y|)) := by
  intro i x y hx hy
  have h1 := ((C12_eq_iff a b).1 h).2.2.2.2 i x y hx hy
  have h2 : |y| ≤ |x| + |x - y| := by
    have := abs_sub_abs_le_abs_sub y x
    rw [abs_sub_comm] at this; linarith
  rw [abs_sub_comm]
  nlinarith

end Verif.Props
