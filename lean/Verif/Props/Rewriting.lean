import Verif.Props.Files

/-!
# C178: writing and reading SU files again and again
-/

namespace Verif.Props
open Verif Arr Spec

namespace Rewriting

/-- `n` times: write the array to a file and read it from the file. -/
def roundTrips (f32 : ℚ → ℚ) (name : String) : ℕ → Fs → Arr → Except PyErr (Fs × Arr)
  | 0, fs, a => .ok (fs, a)
  | n + 1, fs, a =>
    match toFile f32 a fs name "su" with
    | (_, .error e) => .error e
    | (fs', .ok ()) =>
      match fromFiles fs' [name] id id with
      | .error e => .error e
      | .ok b => roundTrips f32 name n fs' b

/-- The array with the stack counts reduced by `n`, but not below one. -/
def lowered (n : ℕ) (a : Arr) : Arr :=
  { a with sensors := a.sensors.map fun s => { s with ts := { s.ts with nstacks := max 1 (s.ts.nstacks - n) } } }

/-- An array all of whose numbers an SU file can hold. -/
structure Writable (f32 : ℚ → ℚ) (a : Arr) : Prop where
  consistent : Consistent a
  count : ∀ s ∈ a.sensors, 1 ≤ s.ts.nstacks
  delay : ∀ s ∈ a.sensors, s.ts.delay ≤ 0
  grid : ∀ s ∈ a.sensors, s.ts.multiple = 1 ∧ s.z = 0 ∧ (pyRound (s.x * 1000) : ℚ) / 1000 = s.x ∧
    (pyRound (s.y * 1000) : ℚ) / 1000 = s.y ∧ (pyRound (s.ts.delay * 1000) : ℚ) / 1000 = s.ts.delay ∧
    (pyRound (s.ts.dt * 1000000) : ℚ) / 1000000 = s.ts.dt ∧ s.ts.amp.map f32 = s.ts.amp
  source : (pyRound (a.source.x * 1000) : ℚ) / 1000 = a.source.x ∧
    (pyRound (a.source.y * 1000) : ℚ) / 1000 = a.source.y ∧ a.source.z = 0
  fields : ∀ s ∈ a.sensors, writable a.source s = true

theorem round_again (q : ℚ) : (pyRound ((pyRound (q * 1000) : ℚ) / 1000 * 1000) : ℚ) / 1000 = (pyRound (q * 1000) : ℚ) / 1000 := by
  rw [div_mul_cancel₀ _ (by norm_num), Verif.pyRound_intCast]

theorem round_again' (q : ℚ) :
    (pyRound ((pyRound (q * 1000000) : ℚ) / 1000000 * 1000000) : ℚ) / 1000000 = (pyRound (q * 1000000) : ℚ) / 1000000 := by
  rw [div_mul_cancel₀ _ (by norm_num), Verif.pyRound_intCast]

theorem lower_count (n : ℤ) (h : 1 ≤ n) : (if n - 1 = 0 then 1 else n - 1) = max 1 (n - 1) := by
  split_ifs with h1
  · rw [h1]; rfl
  · rw [max_eq_right (by omega)]

theorem toFile_ok_iff (f32 : ℚ → ℚ) (a : Arr) (fs fs' : Fs) (name : String) (h : toFile f32 a fs name "su" = (fs', .ok ())) :
    ∀ s ∈ a.sensors, writable a.source s = true := by
  unfold toFile at h
  rw [if_neg (by simp)] at h
  split_ifs at h with h1
  · exact List.all_eq_true.1 h1
  · simp at h

theorem writable_lower {src : Source} {s t : Sensor} (h : writable src s = true) (hx : t.x = s.x) (hy : t.y = s.y)
    (hd : t.ts.delay = s.ts.delay) (ht : t.ts.dt = s.ts.dt) (h1 : 1 ≤ t.ts.nstacks) (h2 : t.ts.nstacks ≤ s.ts.nstacks) :
    writable src t = true := by
  simp only [writable, fits, Bool.and_eq_true, decide_eq_true_eq, hx, hy, hd, ht] at h ⊢
  refine ⟨⟨⟨⟨h.1.1.1.1, ?_, ?_⟩, h.1.1.2⟩, h.1.2⟩, h.2⟩
  · norm_num; omega
  · have := h.1.1.1.2.2; omega

theorem one_trip {f32 : ℚ → ℚ} {a : Arr} (h : Writable f32 a) (fs : Fs) (name : String) :
    ∃ fs', toFile f32 a fs name "su" = (fs', .ok ()) ∧ fromFiles fs' [name] id id = .ok (lowered 1 a) ∧
      (∀ n, n ≠ name → fs' n = fs n) ∧ Writable f32 (lowered 1 a) := by
  have hw : ∃ fs', toFile f32 a fs name "su" = (fs', .ok ()) := by
    unfold toFile
    rw [if_neg (by simp), if_pos (List.all_eq_true.2 h.fields)]
    exact ⟨_, rfl⟩
  obtain ⟨fs', hw⟩ := hw
  have hmm : DistinctMillimetres a := by
    rw [distinctMillimetres_iff, List.Nodup, List.pairwise_map]
    refine List.Pairwise.imp_of_mem ?_ h.consistent.2.1
    intro s t hs ht hlt he
    have h1 := (h.grid s hs).2.2.1
    have h2 := (h.grid t ht).2.2.1
    rw [← h1, ← h2, he] at hlt
    exact lt_irrefl _ hlt
  obtain ⟨h1, h2⟩ := suReread_array f32 fs fs' name a h.consistent h.count h.delay hmm hw
  refine ⟨fs', hw, ?_, h2, ?_⟩
  · rw [h1]
    congr 1
    obtain ⟨sx, sy, sz⟩ := h.source
    unfold lowered
    obtain ⟨sensors, src⟩ := a
    obtain ⟨x, y, z⟩ := src
    simp only at sx sy sz
    simp only [sx, sy, Arr.mk.injEq, sz, and_true]
    refine List.map_congr_left fun s hs => ?_
    obtain ⟨g1, g2, g3, g4, g5, g6, g7⟩ := h.grid s hs
    have g0 := lower_count _ (h.count s hs)
    obtain ⟨⟨amp, dt, n, d, m⟩, x, y, z⟩ := s
    simp only at g0 g1 g2 g3 g4 g5 g6 g7
    simp [suReread, g0, g1, g2, g3, g4, g5, g6, g7]
  · refine ⟨⟨by simpa [lowered] using h.consistent.1, ?_, ?_⟩, ?_, ?_, ?_, h.source, ?_⟩
    · simpa [lowered, List.pairwise_map] using h.consistent.2.1
    · intro s hs t ht
      obtain ⟨u, hu, rfl⟩ := List.mem_map.1 hs
      obtain ⟨v, hv, rfl⟩ := List.mem_map.1 ht
      obtain ⟨k1, k2, k3, k4⟩ := h.consistent.2.2 u hu v hv
      exact ⟨k1, by simp [k2], k3, k4⟩
    · intro s hs
      obtain ⟨u, hu, rfl⟩ := List.mem_map.1 hs
      exact le_max_left _ _
    · intro s hs
      obtain ⟨u, hu, rfl⟩ := List.mem_map.1 hs
      exact h.delay u hu
    · intro s hs
      obtain ⟨u, hu, rfl⟩ := List.mem_map.1 hs
      exact h.grid u hu
    · intro s hs
      obtain ⟨u, hu, rfl⟩ := List.mem_map.1 hs
      exact writable_lower (h.fields u hu) rfl rfl rfl rfl (le_max_left _ _)
        (max_le (h.count u hu) (by simp))

theorem lowered_lowered (n : ℕ) (a : Arr) : lowered n (lowered 1 a) = lowered (n + 1) a := by
  simp only [lowered, List.map_map, Arr.mk.injEq, and_true]
  refine List.map_congr_left fun s _ => ?_
  have : max 1 (max 1 (s.ts.nstacks - 1) - (n : ℤ)) = max 1 (s.ts.nstacks - ((n : ℤ) + 1)) := by omega
  simp [this]

theorem lowered_zero {a : Arr} (h : ∀ s ∈ a.sensors, 1 ≤ s.ts.nstacks) : lowered 0 a = a := by
  obtain ⟨ss, src⟩ := a
  simp only [lowered, Arr.mk.injEq, and_true]
  conv_rhs => rw [← List.map_id ss]
  refine List.map_congr_left fun s hs => ?_
  have := h s hs
  simp [max_eq_right this]

theorem trips {f32 : ℚ → ℚ} (name : String) : ∀ (n : ℕ) (a : Arr), Writable f32 a → ∀ fs, ∃ fs',
    roundTrips f32 name n fs a = .ok (fs', lowered n a) ∧ ∀ m, m ≠ name → fs' m = fs m
  | 0, a, h, fs => ⟨fs, by rw [lowered_zero h.count]; rfl, fun _ _ => rfl⟩
  | n + 1, a, h, fs => by
    obtain ⟨fs1, h1, h2, h3, h4⟩ := one_trip h fs name
    obtain ⟨fs', h5, h6⟩ := trips name n _ h4 fs1
    refine ⟨fs', ?_, fun m hm => (h6 m hm).trans (h3 m hm)⟩
    rw [roundTrips, h1]
    simp only [h2, h5, lowered_lowered]

/-- What is read after the first trip can be written and read again. -/
theorem first_trip {f32 : ℚ → ℚ} (hf : ∀ v, f32 (f32 v) = f32 v) {fs fs' : Fs} {name : String} {a : Arr}
    (hc : Consistent a) (hn : ∀ s ∈ a.sensors, 1 ≤ s.ts.nstacks) (hd : ∀ s ∈ a.sensors, s.ts.delay ≤ 0)
    (hmm : DistinctMillimetres a) (hw : toFile f32 a fs name "su" = (fs', .ok ())) :
    ∃ b, fromFiles fs' [name] id id = .ok b ∧ Writable f32 b ∧ (∀ n, n ≠ name → fs' n = fs n) ∧
      b.sensors.map (fun s => s.ts.nstacks) = a.sensors.map fun s => max 1 (s.ts.nstacks - 1) := by
  obtain ⟨h1, h2⟩ := suReread_array f32 fs fs' name a hc hn hd hmm hw
  have hwr := toFile_ok_iff f32 a fs fs' name hw
  refine ⟨_, h1, ⟨?_, ?_, ?_, ?_, ?_, ?_⟩, h2, ?_⟩
  · refine ⟨by simpa using hc.1, ?_, ?_⟩
    · simp only [List.pairwise_map]
      have h1 : a.sensors.Pairwise (fun s t => pyRound (s.x * 1000) ≠ pyRound (t.x * 1000)) := by
        simpa [List.Nodup, List.pairwise_map] using (distinctMillimetres_iff a).1 hmm
      refine (hc.2.1.and h1).imp ?_
      rintro s t ⟨h2, h3⟩
      have h4 : pyRound (s.x * 1000) ≤ pyRound (t.x * 1000) := pyRound_mono (by linarith)
      have h5 : (pyRound (s.x * 1000) : ℚ) < (pyRound (t.x * 1000) : ℚ) := by
        exact_mod_cast lt_of_le_of_ne h4 h3
      show (pyRound (s.x * 1000) : ℚ) / 1000 < (pyRound (t.x * 1000) : ℚ) / 1000
      linarith
    · intro s hs t ht
      obtain ⟨u, hu, rfl⟩ := List.mem_map.1 hs
      obtain ⟨v, hv, rfl⟩ := List.mem_map.1 ht
      obtain ⟨h1, h2, h3, h4⟩ := hc.2.2 u hu v hv
      simp [SameMeta, suReread, h1, h2, h3, h4]
  · intro s hs
    obtain ⟨u, hu, rfl⟩ := List.mem_map.1 hs
    show 1 ≤ (if u.ts.nstacks - 1 = 0 then 1 else u.ts.nstacks - 1)
    rw [lower_count _ (hn u hu)]
    exact le_max_left _ _
  · intro s hs
    obtain ⟨u, hu, rfl⟩ := List.mem_map.1 hs
    show (pyRound (u.ts.delay * 1000) : ℚ) / 1000 ≤ 0
    have : pyRound (u.ts.delay * 1000) ≤ pyRound ((0 : ℤ) : ℚ) := pyRound_mono (by have := hd u hu; push_cast; linarith)
    rw [Verif.pyRound_intCast] at this
    have : (pyRound (u.ts.delay * 1000) : ℚ) ≤ 0 := by exact_mod_cast this
    linarith
  · intro s hs
    obtain ⟨u, hu, rfl⟩ := List.mem_map.1 hs
    exact ⟨rfl, rfl, round_again _, round_again _, round_again _, round_again' _, by simp [suReread, hf]⟩
  · exact ⟨round_again _, round_again _, rfl⟩
  · intro s hs
    obtain ⟨u, hu, rfl⟩ := List.mem_map.1 hs
    have hu' := hwr u hu
    have e : ∀ k : ℤ, pyRound ((k : ℚ) / 1000 * 1000) = k := fun k => by
      rw [div_mul_cancel₀ _ (by norm_num), Verif.pyRound_intCast]
    have e' : ∀ k : ℤ, pyRound ((k : ℚ) / 1000000 * 1000000) = k := fun k => by
      rw [div_mul_cancel₀ _ (by norm_num), Verif.pyRound_intCast]
    have hl := lower_count _ (hn u hu)
    simp only [writable, fits, suReread, e, e', hl, Bool.and_eq_true, decide_eq_true_eq] at hu' ⊢
    refine ⟨⟨⟨⟨hu'.1.1.1.1, ?_, ?_⟩, hu'.1.1.2⟩, hu'.1.2⟩, hu'.2⟩
    · norm_num; omega
    · have := hu'.1.1.1.2.2
      have := hn u hu
      omega
  · simp only [List.map_map]
    refine List.map_congr_left fun s hs => ?_
    exact lower_count _ (hn s hs)

end Rewriting

open Rewriting in
/-- **C178** (partial).  If an array can be written to an SU file, then what is read from it can be written and read again,
any number of times: positions, source, sampling interval, delay and samples stay those of the first time, and other files
are not touched.  Missing: the stack counts, which go down by one every time until they are one. -/
theorem C178_again_partial (f32 : ℚ → ℚ) (hf : ∀ v, f32 (f32 v) = f32 v) (fs : Fs) (name : String) (a : Arr)
    (hc : Consistent a) (hn : ∀ s ∈ a.sensors, 1 ≤ s.ts.nstacks) (hd : ∀ s ∈ a.sensors, s.ts.delay ≤ 0)
    (hmm : DistinctMillimetres a) (hw : (toFile f32 a fs name "su").2 = .ok ()) :
    ∃ fs1 b, roundTrips f32 name 1 fs a = .ok (fs1, b) ∧
      b.sensors.map (fun s => s.ts.nstacks) = a.sensors.map (fun s => max 1 (s.ts.nstacks - 1)) ∧
      ∀ n : ℕ, ∃ fs' c, roundTrips f32 name (n + 1) fs a = .ok (fs', c) ∧ (∀ m, m ≠ name → fs' m = fs m) ∧
        c.source = b.source ∧
        List.Forall₂ (fun s t : Sensor => t.x = s.x ∧ t.y = s.y ∧ t.z = s.z ∧ t.ts.amp = s.ts.amp ∧ t.ts.dt = s.ts.dt ∧
          t.ts.delay = s.ts.delay ∧ t.ts.multiple = s.ts.multiple ∧ t.ts.nstacks = max 1 (s.ts.nstacks - n))
          b.sensors c.sensors := by
  obtain ⟨fs1, h1⟩ : ∃ fs1, toFile f32 a fs name "su" = (fs1, .ok ()) := ⟨_, Prod.ext rfl hw⟩
  obtain ⟨b, h2, h3, h4, h5⟩ := first_trip hf hc hn hd hmm h1
  refine ⟨fs1, b, ?_, h5, fun n => ?_⟩
  · rw [roundTrips, h1]
    simp only [h2]
    rfl
  · obtain ⟨fs', h6, h7⟩ := trips (f32 := f32) name n b h3 fs1
    refine ⟨fs', lowered n b, ?_, fun m hm => (h7 m hm).trans (h4 m hm), rfl, ?_⟩
    · rw [roundTrips, h1]
      simp only [h2, h6]
    · rw [lowered, List.forall₂_map_right_iff, List.forall₂_same]
      intro s _
      exact ⟨rfl, rfl, rfl, rfl, rfl, rfl, rfl, rfl⟩

open Rewriting in
/-- **C178** fails for the stack counts: whatever the array with counts of three or more, the array read the second time is
not the one read the first time; and after sufficiently many times every count is one, so that the record weighs in a stack
as much as a single shot. -/
theorem C178_stack_counts_fails (f32 : ℚ → ℚ) (hf : ∀ v, f32 (f32 v) = f32 v) (fs : Fs) (name : String) (a : Arr)
    (hc : Consistent a) (hn : ∀ s ∈ a.sensors, 3 ≤ s.ts.nstacks) (hd : ∀ s ∈ a.sensors, s.ts.delay ≤ 0)
    (hmm : DistinctMillimetres a) (hw : (toFile f32 a fs name "su").2 = .ok ()) :
    (∃ fs1 b fs2 c, roundTrips f32 name 1 fs a = .ok (fs1, b) ∧ roundTrips f32 name 2 fs a = .ok (fs2, c) ∧ c ≠ b) ∧
    ∃ N : ℕ, ∀ n, N ≤ n → ∃ fs' c, roundTrips f32 name n fs a = .ok (fs', c) ∧ ∀ s ∈ c.sensors, s.ts.nstacks = 1 := by
  obtain ⟨fs1, b, h1, h2, h3⟩ := C178_again_partial f32 hf fs name a hc (fun s hs => le_trans (by norm_num) (hn s hs)) hd hmm hw
  have hb : ∀ s ∈ b.sensors, 2 ≤ s.ts.nstacks := by
    intro s hs
    have : s.ts.nstacks ∈ a.sensors.map (fun s => max 1 (s.ts.nstacks - 1)) := h2 ▸ List.mem_map.2 ⟨s, hs, rfl⟩
    obtain ⟨u, hu, he⟩ := List.mem_map.1 this
    have := hn u hu
    omega
  constructor
  · obtain ⟨fs2, c, k1, -, -, k2⟩ := h3 1
    refine ⟨fs1, b, fs2, c, h1, k1, ?_⟩
    rintro rfl
    have hne : c.sensors ≠ [] := by
      intro h
      rw [h] at h2
      simp only [List.map_nil] at h2
      exact hc.1 (List.map_eq_nil_iff.1 h2.symm)
    obtain ⟨s, hs⟩ := List.exists_mem_of_ne_nil _ hne
    have := (List.forall₂_same.1 k2 s hs).2.2.2.2.2.2.2
    have := hb s hs
    omega
  · obtain ⟨N, hN⟩ : ∃ N : ℕ, ∀ s ∈ b.sensors, s.ts.nstacks ≤ N := by
      clear h1 h3 h2
      obtain ⟨ss, src⟩ := b
      simp only at hb ⊢
      clear hb
      induction ss with
      | nil => exact ⟨0, by simp⟩
      | cons s ss ih =>
        obtain ⟨N, hN⟩ := ih
        refine ⟨N + s.ts.nstacks.toNat, ?_⟩
        intro t ht
        rcases List.mem_cons.1 ht with rfl | ht
        · push_cast; omega
        · have := hN t ht; push_cast; omega
    refine ⟨N + 1, fun n hn' => ?_⟩
    obtain ⟨m, rfl⟩ : ∃ m, n = m + 1 := ⟨n - 1, by omega⟩
    obtain ⟨fs', c, k1, -, -, k2⟩ := h3 m
    refine ⟨fs', c, k1, ?_⟩
    intro t ht
    obtain ⟨i, hi, rfl⟩ := List.getElem_of_mem ht
    have hl := k2.length_eq
    have := (List.forall₂_iff_get.1 k2).2 i (by omega) hi
    have h8 := this.2.2.2.2.2.2.2
    simp only [List.get_eq_getElem] at h8
    rw [h8]
    have := hN _ (List.getElem_mem (show i < b.sensors.length by omega))
    omega

open Rewriting in
/-- Two receivers which are not at whole millimetres, three stacks: the second reading has another stack count than the
first, and everything else is the same. -/
example :
    let a : Arr := ⟨[⟨⟨[1, 2, 3], 1 / 1000, 3, -2 / 1000, 1⟩, 1 / 3, 0, 0⟩, ⟨⟨[4, 5, 6], 1 / 1000, 3, -2 / 1000, 1⟩, 5 / 3, 0, 0⟩],
      ⟨-10 / 3, 0, 0⟩⟩
    (∀ s ∈ a.sensors, 3 ≤ s.ts.nstacks ∧ s.ts.delay ≤ 0) ∧ (a.sensors.map fun s => pyRound (s.x * 1000)).Nodup ∧
    (toFile id a (fun _ => none) "f" "su").2 = .ok () ∧
    (roundTrips id "f" 1 (fun _ => none) a).toOption.map (fun r => r.2) = some
      ⟨[⟨⟨[1, 2, 3], 1 / 1000, 2, -2 / 1000, 1⟩, 333 / 1000, 0, 0⟩, ⟨⟨[4, 5, 6], 1 / 1000, 2, -2 / 1000, 1⟩, 1667 / 1000, 0, 0⟩],
        ⟨-3333 / 1000, 0, 0⟩⟩ ∧
    (roundTrips id "f" 2 (fun _ => none) a).toOption.map (fun r => r.2) = some
      ⟨[⟨⟨[1, 2, 3], 1 / 1000, 1, -2 / 1000, 1⟩, 333 / 1000, 0, 0⟩, ⟨⟨[4, 5, 6], 1 / 1000, 1, -2 / 1000, 1⟩, 1667 / 1000, 0, 0⟩],
        ⟨-3333 / 1000, 0, 0⟩⟩ := by
  decide +kernel

end Verif.Props
