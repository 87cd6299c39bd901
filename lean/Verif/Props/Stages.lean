import Verif.Props.Rewriting
import Verif.Props.Stacking

/-!
# C181: stacking in stages
-/

namespace Verif.Props
open Verif ATS

/-- A way to stack shots: a shot, or the result of one plan with the result of another stacked onto it. -/
inductive Stages
  | shot (r : ATS)
  | onto (p q : Stages)

namespace Stages

/-- The shots of a plan. -/
def shots : Stages → List ATS
  | .shot r => [r]
  | .onto p q => p.shots ++ q.shots

/-- The first shot. -/
def first : Stages → ATS
  | .shot r => r
  | .onto p _ => p.first

/-- The stack made according to the plan, with `stack_append`. -/
def result : Stages → Except PyErr ATS
  | .shot r => .ok r
  | .onto p q =>
    match p.result, q.result with
    | .ok r, .ok t =>
      match r.stackAppend t with
      | (r', .ok ()) => .ok r'
      | (_, .error e) => .error e
    | .error e, _ => .error e
    | _, .error e => .error e

/-- The same sampling interval, delay and number of samples. -/
def Alike (r t : ATS) : Prop := r.dt = t.dt ∧ r.delay = t.delay ∧ r.amp.length = t.amp.length

theorem Alike.refl (r : ATS) : Alike r r := ⟨rfl, rfl, rfl⟩
theorem Alike.symm {r t : ATS} (h : Alike r t) : Alike t r := ⟨h.1.symm, h.2.1.symm, h.2.2.symm⟩
theorem Alike.trans {r t u : ATS} (h : Alike r t) (h' : Alike t u) : Alike r u :=
  ⟨h.1.trans h'.1, h.2.1.trans h'.2.1, h.2.2.trans h'.2.2⟩

theorem first_mem : ∀ p : Stages, p.first ∈ p.shots
  | .shot r => by simp [first, shots]
  | .onto p q => by simp [first, shots, first_mem p]

theorem shots_pos {p : Stages} (h : ∀ r ∈ p.shots, 0 < r.nstacks) : 0 < (p.shots.map ATS.nstacks).sum := by
  have hne : p.shots.map ATS.nstacks ≠ [] := by
    intro he
    have := first_mem p
    rw [List.map_eq_nil_iff.1 he] at this
    cases this
  exact List.sum_pos _ (by simpa using h) hne

theorem invariant : ∀ (p : Stages) (r : ATS), (∀ s ∈ p.shots, 0 < s.nstacks) → p.result = .ok r →
    r.nstacks = (p.shots.map ATS.nstacks).sum ∧ Alike p.first r ∧ r.multiple = p.first.multiple ∧
    (∀ s ∈ p.shots, Alike p.first s) ∧
    ∀ i, (r.nstacks : ℚ) * r.amp.getD i 0 = (p.shots.map fun s => (s.nstacks : ℚ) * s.amp.getD i 0).sum
  | .shot s, r, _, h => by
    simp only [result, Except.ok.injEq] at h
    subst h
    refine ⟨by simp [shots], Alike.refl _, rfl, ?_, fun i => by simp [shots]⟩
    intro s hs
    simp only [shots, List.mem_singleton] at hs
    subst hs
    exact Alike.refl _
  | .onto p q, r, hpos, h => by
    simp only [result] at h
    rcases hp : p.result with e | r1
    · rw [hp] at h; cases hq : q.result <;> rw [hq] at h <;> cases h
    rcases hq : q.result with e | r2
    · rw [hp, hq] at h; cases h
    have hpp : ∀ s ∈ p.shots, 0 < s.nstacks := fun s hs => hpos s (by simp [shots, hs])
    have hqp : ∀ s ∈ q.shots, 0 < s.nstacks := fun s hs => hpos s (by simp [shots, hs])
    obtain ⟨a1, a2, a3, a4, a5⟩ := invariant p r1 hpp hp
    obtain ⟨b1, b2, b3, b4, b5⟩ := invariant q r2 hqp hq
    rw [hp, hq] at h
    simp only at h
    rcases hs : r1.stackAppend r2 with ⟨r', e | ⟨⟨⟩⟩⟩
    · rw [hs] at h; cases h
    rw [hs] at h
    simp only [Except.ok.injEq] at h
    subst h
    obtain ⟨⟨c1, c2, c3⟩, rfl⟩ := (stackAppend_ok_iff r1 r2 _).1 hs
    have hlen : r1.amp.length = r2.amp.length := c3
    have h12 : Alike r1 r2 := ⟨c1, c2, hlen⟩
    have hal : Alike p.first q.first := a2.trans (h12.trans b2.symm)
    have n1 : 0 < r1.nstacks := a1 ▸ shots_pos hpp
    have n2 : 0 < r2.nstacks := b1 ▸ shots_pos hqp
    refine ⟨by simp [shots, a1, b1], ⟨a2.1, a2.2.1, by simp [first, a2.2.2, hlen]⟩, a3, ?_, ?_⟩
    · intro s hs
      rcases List.mem_append.1 hs with hs | hs
      · exact a4 s hs
      · exact hal.trans (b4 s hs)
    · intro i
      simp only [shots, List.map_append, List.sum_append, ← a5 i, ← b5 i]
      have hne : ((r1.nstacks : ℚ) + r2.nstacks) ≠ 0 := by
        have : (0 : ℚ) < (r1.nstacks : ℚ) + r2.nstacks := by exact_mod_cast add_pos n1 n2
        exact ne_of_gt this
      by_cases hi : i < r1.amp.length
      · have hi2 : i < r2.amp.length := hlen ▸ hi
        simp only [List.getD_eq_getElem?_getD, List.getElem?_map, List.getElem?_zipWith, List.getElem?_eq_getElem hi,
          List.getElem?_eq_getElem hi2, Option.map_some, Option.getD_some, Int.cast_add]
        field_simp
      · have hi2 : ¬ i < r2.amp.length := hlen ▸ hi
        simp only [List.getD_eq_getElem?_getD, List.getElem?_map, List.getElem?_zipWith,
          List.getElem?_eq_none (not_lt.1 hi), List.getElem?_eq_none (not_lt.1 hi2), Option.map_none, Option.getD_none]
        simp

theorem returns : ∀ p : Stages, (∀ s ∈ p.shots, 0 < s.nstacks) → (∀ s ∈ p.shots, Alike p.first s) → ∃ r, p.result = .ok r
  | .shot r, _, _ => ⟨r, rfl⟩
  | .onto p q, hpos, hal => by
    have hpp : ∀ s ∈ p.shots, 0 < s.nstacks := fun s hs => hpos s (by simp [shots, hs])
    have hqp : ∀ s ∈ q.shots, 0 < s.nstacks := fun s hs => hpos s (by simp [shots, hs])
    have hq1 : Alike p.first q.first := hal q.first (by simp [shots, first_mem q])
    obtain ⟨r, hr⟩ := returns p hpp fun s hs => hal s (by simp [shots, hs])
    obtain ⟨t, ht⟩ := returns q hqp fun s hs => hq1.symm.trans (hal s (by simp [shots, hs]))
    have h1 := (invariant p r hpp hr).2.1
    have h2 := (invariant q t hqp ht).2.1
    have h3 : Alike r t := h1.symm.trans (hq1.trans h2)
    obtain ⟨r', h4⟩ : ∃ r', r.stackAppend t = (r', .ok ()) :=
      ⟨_, (stackAppend_ok_iff r t _).2 ⟨⟨h3.1, h3.2.1, h3.2.2⟩, rfl⟩⟩
    exact ⟨r', by simp only [result, hr, ht, h4]⟩

end Stages

open Stages in
/-- **C181** (partial: in memory, not through files).  Shots stacked in stages, in any grouping: the stack is made exactly if
the shots have one sampling interval, delay and length, and every sample is the mean over all shots, weighted with their stack
counts, with the total as its stack count. -/
theorem C181_stages_partial (p : Stages) (hpos : ∀ s ∈ p.shots, 0 < s.nstacks) :
    ((∃ r, p.result = .ok r) ↔ ∀ s ∈ p.shots, ∀ t ∈ p.shots, Alike s t) ∧
    ∀ r, p.result = .ok r → r.nstacks = (p.shots.map ATS.nstacks).sum ∧ (∀ s ∈ p.shots, Alike s r) ∧
      ∀ i < r.amp.length, r.amp[i]? = some (Spec.weightedMean (p.shots.map fun s => ((s.nstacks : ℚ), s.amp)) i) := by
  refine ⟨⟨?_, fun h => returns p hpos fun s hs => h _ (first_mem p) s hs⟩, ?_⟩
  · rintro ⟨r, hr⟩ s hs t ht
    have h4 := (invariant p r hpos hr).2.2.2.1
    exact (h4 s hs).symm.trans (h4 t ht)
  · intro r hr
    obtain ⟨h1, h2, -, h4, h5⟩ := invariant p r hpos hr
    refine ⟨h1, fun s hs => (h4 s hs).symm.trans h2, fun i hi => ?_⟩
    have hn : (r.nstacks : ℚ) ≠ 0 := by
      have : (0 : ℤ) < r.nstacks := h1 ▸ shots_pos hpos
      exact_mod_cast ne_of_gt this
    have h6 : (p.shots.map fun s => (s.nstacks : ℚ)).sum = (r.nstacks : ℚ) := by
      rw [h1]
      induction p.shots with
      | nil => simp
      | cons a l ih => simp [ih]
    have h7 : r.amp.getD i 0 = Spec.weightedMean (p.shots.map fun s => ((s.nstacks : ℚ), s.amp)) i := by
      unfold Spec.weightedMean
      simp only [List.map_map, Function.comp_def]
      rw [h6, ← h5 i, mul_div_cancel_left₀ _ hn]
    rw [← h7]
    simp [List.getElem?_eq_getElem hi]

open Stages in
/-- **C181** (partial: in memory).  Two ways to stack the same shots, in whatever grouping and order, give the same samples,
stack count, sampling interval and delay. -/
theorem C181_grouping_partial (p q : Stages) (hpos : ∀ s ∈ p.shots, 0 < s.nstacks) (hperm : p.shots.Perm q.shots) (r : ATS)
    (hr : p.result = .ok r) :
    ∃ t, q.result = .ok t ∧ t.amp = r.amp ∧ t.nstacks = r.nstacks ∧ t.dt = r.dt ∧ t.delay = r.delay := by
  have hqpos : ∀ s ∈ q.shots, 0 < s.nstacks := fun s hs => hpos s (hperm.mem_iff.2 hs)
  obtain ⟨p1, p2⟩ := C181_stages_partial p hpos
  obtain ⟨q1, q2⟩ := C181_stages_partial q hqpos
  obtain ⟨t, ht⟩ := q1.2 fun s hs u hu => p1.1 ⟨r, hr⟩ s (hperm.mem_iff.2 hs) u (hperm.mem_iff.2 hu)
  obtain ⟨a1, a2, a3⟩ := p2 r hr
  obtain ⟨b1, b2, b3⟩ := q2 t ht
  have h1 := a2 _ (first_mem p)
  have h2 := b2 _ (hperm.mem_iff.1 (first_mem p))
  refine ⟨t, ht, ?_, ?_, h2.1.symm.trans h1.1, h2.2.1.symm.trans h1.2.1⟩
  · have hl : t.amp.length = r.amp.length := h2.2.2.symm.trans h1.2.2
    apply List.ext_getElem?
    intro i
    by_cases hi : i < r.amp.length
    · rw [a3 i hi, b3 i (hl ▸ hi)]
      have hp2 := hperm.map fun h : ATS => ((h.nstacks : ℚ), h.amp)
      unfold Spec.weightedMean
      rw [(hp2.map _).sum_eq, (hp2.map _).sum_eq]
    · rw [List.getElem?_eq_none (by omega), List.getElem?_eq_none (by omega)]
  · rw [a1, b1, (hperm.map ATS.nstacks).sum_eq]

open Rewriting in
/-- **C181** fails through files.  An array whose numbers an SU file can hold is written and read.  For every receiver which
holds a stack of two shots or more: a further shot stacked onto what was read gives another record than stacked onto what was
written, at every sample at which the stack and the shot differ. -/
theorem C181_through_files_fails (f32 : ℚ → ℚ) (a : Arr) (h : Writable f32 a) (fs : Fs) (name : String) :
    ∃ fs' b, Arr.toFile f32 a fs name "su" = (fs', .ok ()) ∧ Arr.fromFiles fs' [name] id id = .ok b ∧
      ∀ (k : ℕ) (s t : Sensor), a.sensors[k]? = some s → 2 ≤ s.ts.nstacks → 0 < t.ts.nstacks →
        (s.x = t.x ∧ s.y = t.y ∧ s.z = t.z) → Stages.Alike s.ts t.ts →
        ∃ s' r r' : Sensor, b.sensors[k]? = some s' ∧ s.stackAppend t = (r, .ok ()) ∧ s'.stackAppend t = (r', .ok ()) ∧
          ∀ (i : ℕ) (x y : ℚ), s.ts.amp[i]? = some x → t.ts.amp[i]? = some y → x ≠ y → r'.ts.amp[i]? ≠ r.ts.amp[i]? := by
  obtain ⟨fs', h1, h2, -, -⟩ := one_trip h fs name
  refine ⟨fs', _, h1, h2, ?_⟩
  intro k s t hk hs ht hpos hal
  have hmax : max 1 (s.ts.nstacks - 1) = s.ts.nstacks - 1 := max_eq_right (by omega)
  let s' : Sensor := { s with ts := { s.ts with nstacks := s.ts.nstacks - 1 } }
  have hb : (lowered 1 a).sensors[k]? = some s' := by
    simp only [lowered, List.getElem?_map, hk, Option.map_some, Option.some.injEq, s', Nat.cast_one, hmax]
  have hst : ∀ u : Sensor, (u.x = t.x ∧ u.y = t.y ∧ u.z = t.z) → Stages.Alike u.ts t.ts → ∃ r : Sensor,
      u.stackAppend t = (r, .ok ()) ∧ r.ts.amp = (List.zipWith (fun (x y : ℚ) => x * u.ts.nstacks + y * t.ts.nstacks)
        u.ts.amp t.ts.amp).map (fun x => x / ((u.ts.nstacks + t.ts.nstacks : ℤ) : ℚ)) := by
    intro u hu hal
    obtain ⟨r, h4, h5⟩ : ∃ r, u.ts.stackAppend t.ts = (r, .ok ()) ∧ r.amp = (List.zipWith (fun (x y : ℚ) =>
        x * u.ts.nstacks + y * t.ts.nstacks) u.ts.amp t.ts.amp).map (fun x => x / ((u.ts.nstacks + t.ts.nstacks : ℤ) : ℚ)) :=
      ⟨_, (ATS.stackAppend_ok_iff u.ts t.ts _).2 ⟨⟨hal.1, hal.2.1, hal.2.2⟩, rfl⟩, rfl⟩
    exact ⟨{ u with ts := r }, (Sensor.stackAppend_ok_iff u t { u with ts := r }).2
      ⟨hu.1, hu.2.1, hu.2.2, rfl, rfl, rfl, h4⟩, h5⟩
  obtain ⟨r, hr, hra⟩ := hst s hpos hal
  obtain ⟨r', hr', hra'⟩ := hst s' hpos hal
  refine ⟨s', r, r', hb, hr, hr', ?_⟩
  intro i x y hx hy hxy he
  rw [hra, hra'] at he
  simp only [s', List.getElem?_map, List.getElem?_zipWith, hx, hy, Option.map_some, Option.some.injEq, Int.cast_add,
    Int.cast_sub, Int.cast_one] at he
  have hn : (2 : ℚ) ≤ s.ts.nstacks := by exact_mod_cast hs
  have hm : (0 : ℚ) < t.ts.nstacks := by exact_mod_cast ht
  rw [div_eq_div_iff (by linarith) (by linarith)] at he
  apply hxy
  have : (t.ts.nstacks : ℚ) * (x - y) = 0 := by linarith
  rcases mul_eq_zero.1 this with h | h
  · exact absurd h (ne_of_gt hm)
  · linarith

open Stages in
/-- Three shots of one stack each, in two groupings. -/
example :
    let a : ATS := ⟨[1, 2], 1 / 1000, 1, 0, 1⟩
    let b : ATS := ⟨[3, 5], 1 / 1000, 1, 0, 1⟩
    let c : ATS := ⟨[5, -1], 1 / 1000, 1, 0, 1⟩
    (Stages.onto (.onto (.shot a) (.shot b)) (.shot c)).result = .ok ⟨[3, 2], 1 / 1000, 3, 0, 1⟩ ∧
    (Stages.onto (.shot b) (.onto (.shot c) (.shot a))).result = .ok ⟨[3, 2], 1 / 1000, 3, 0, 1⟩ ∧
    (Stages.onto (.onto (.shot a) (.shot b)) (.shot c)).shots.Perm (Stages.onto (.shot b) (.onto (.shot c) (.shot a))).shots := by
  refine ⟨by decide +kernel, by decide +kernel, by decide +kernel⟩

open Rewriting in
/-- A stack of two shots written to an SU file: a third shot stacked onto what is read is not the mean of the three. -/
example :
    let a : Arr := ⟨[⟨⟨[2, 3], 1 / 1000, 2, 0, 1⟩, 0, 0, 0⟩, ⟨⟨[1, 1], 1 / 1000, 2, 0, 1⟩, 2, 0, 0⟩], ⟨-5, 0, 0⟩⟩
    let c : Sensor := ⟨⟨[5, -1], 1 / 1000, 1, 0, 1⟩, 0, 0, 0⟩
    let fs := (Arr.toFile id a (fun _ => none) "f" "su").1
    (a.sensors.head?.map fun s => (s.stackAppend c).1.ts.amp) = some [3, 5 / 3] ∧
    ((Arr.fromFiles fs ["f"] id id).toOption.bind fun b => b.sensors.head?.map fun s => (s.stackAppend c).1.ts.amp) =
      some [7 / 2, 1] := by
  decide +kernel

end Verif.Props
