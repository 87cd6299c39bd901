import Verif.Lemmas.Array

/-!
# C16, C17, C90: construction of arrays, and what operations preserve
-/

namespace Verif.Props
open Verif Arr Spec

/-- **C16** (acceptance and result).  Construction succeeds exactly when the records agree in time step,
stack count, delay and length and the x positions are distinct; the sensors are then the given ones in
strictly increasing x, with the given source. -/
theorem C16_construction_iff (l : List Sensor) (src : Source) (hne : l ≠ []) :
    ((∃ a, Arr.init l src = .ok a) ↔
      (∀ s ∈ l, ∀ t ∈ l, SameMeta s.ts t.ts) ∧ (l.map Sensor.x).Nodup) ∧
    (∀ a, Arr.init l src = .ok a →
      a.sensors.Perm l ∧ a.sensors.Pairwise (fun s t => s.x < t.x) ∧ a.source = src) ∧
    ∀ e, Arr.init l src = .error e → e = .valueError := by
  refine ⟨?_, ?_, ?_⟩
  · rcases init_eq l src hne with ⟨h1, h2⟩ | ⟨h1, h2⟩
    · simp only [h2]; exact ⟨fun _ => h1, fun _ => ⟨_, rfl⟩⟩
    · simp only [h2]
      exact ⟨fun ⟨_, h⟩ => (by simp at h), fun h => absurd h h1⟩
  · intro a ha
    obtain ⟨h1, h2, h3⟩ := init_consistent ha
    exact ⟨h2, h1.2.1, h3⟩
  · intro e he
    rcases init_eq l src hne with ⟨-, h2⟩ | ⟨-, h2⟩
    · rw [h2] at he; simp at he
    · rw [h2] at he; simpa using he.symm

/-- **C16** (order independence).  Any permutation of the sensors gives the same array. -/
theorem C16_construction_order_independent (l m : List Sensor) (src : Source) (hne : l ≠ [])
    (hp : l.Perm m) : Arr.init l src = Arr.init m src := by
  have hne' : m ≠ [] := by rintro rfl; exact hne hp.eq_nil
  have hiff : ((∀ s ∈ l, ∀ t ∈ l, SameMeta s.ts t.ts) ∧ (l.map Sensor.x).Nodup) ↔
      ((∀ s ∈ m, ∀ t ∈ m, SameMeta s.ts t.ts) ∧ (m.map Sensor.x).Nodup) := by
    rw [(hp.map Sensor.x).nodup_iff]
    constructor
    · rintro ⟨h, h'⟩
      exact ⟨fun s hs t ht => h s (hp.mem_iff.2 hs) t (hp.mem_iff.2 ht), h'⟩
    · rintro ⟨h, h'⟩
      exact ⟨fun s hs t ht => h s (hp.mem_iff.1 hs) t (hp.mem_iff.1 ht), h'⟩
  rcases init_eq l src hne with ⟨h1, h2⟩ | ⟨h1, h2⟩
  · rcases init_eq m src hne' with ⟨h3, h4⟩ | ⟨h3, -⟩
    · rw [h2, h4]
      congr 2
      exact sorted_unique (insertionSort_strict h1.2) (insertionSort_strict h3.2)
        ((List.perm_insertionSort _ _).trans (hp.trans (List.perm_insertionSort _ _).symm))
    · exact absurd (hiff.1 h1) h3
  · rcases init_eq m src hne' with ⟨h3, -⟩ | ⟨-, h4⟩
    · exact absurd (hiff.2 h3) h1
    · rw [h2, h4]

/-- A sensor at `x` with samples `amp`, used by the concrete cases. -/
def mkS (x : ℚ) (amp : List ℚ) : Sensor := ⟨⟨amp, 1, 1, 0, 1⟩, x, 0, 0⟩

example : Arr.init [mkS 2 [1, 2], mkS 0 [3, 4], mkS 1 [5, 6]] ⟨-1, 0, 0⟩ =
    .ok ⟨[mkS 0 [3, 4], mkS 1 [5, 6], mkS 2 [1, 2]], ⟨-1, 0, 0⟩⟩ := by decide +kernel
example : Arr.init [mkS 2 [1, 2], mkS 2 [3, 4]] ⟨-1, 0, 0⟩ = .error .valueError := by decide +kernel
example : Arr.init [mkS 2 [1, 2], mkS 3 [3]] ⟨-1, 0, 0⟩ = .error .valueError := by decide +kernel

/-- Public mutators of an array; `tukey` is the window function in use. -/
inductive ArrOp
  | trim (s e : ℚ)
  | trimOffsets (mn mx : ℚ)
  | zeroPad (df : ℚ)
  | mute (tukey : ℕ → List ℚ) (start stop : Option Line)

/-- Apply one public mutator. -/
def ArrOp.run (a : Arr) : ArrOp → Outcome Arr
  | .trim s e => a.trim s e
  | .trimOffsets mn mx => a.trimOffsets mn mx
  | .zeroPad df => a.zeroPad df
  | .mute w i j => a.mute w i j

theorem ArrOp.run_consistent (a : Arr) (op : ArrOp) (h : Consistent a) : Consistent (op.run a).1 := by
  cases op with
  | trim s e => exact forSensors_consistent (ATS.trim_metaFun s e) h
  | trimOffsets mn mx => exact trimOffsets_consistent h mn mx
  | zeroPad df => exact forSensors_consistent (ATS.zeroPad_metaFun df) h
  | mute w i j => exact mute_consistent w h i j

/-- **C17** (consistency).  Whatever sequence of operations is applied to a constructed array, refused
ones included, it keeps at least one sensor, its sensors stay strictly ordered by x, and their records
still agree. -/
theorem C17_operations_preserve_consistency (l : List Sensor) (src : Source) (a : Arr)
    (h : Arr.init l src = .ok a) (ops : List ArrOp) : Consistent (runAll ArrOp.run a ops) := by
  have h0 := (init_consistent h).1
  clear h
  induction ops generalizing a with
  | nil => exact h0
  | cons op ops ih => exact ih _ (ArrOp.run_consistent a op h0)

/-- **C17** (all or nothing).  A refused `trim` leaves the array as it was. -/
theorem C17_refused_trim_changes_nothing (a a' : Arr) (s e : ℚ) (err : PyErr) (hc : Consistent a)
    (h : a.trim s e = (a', .error err)) : a' = a := by
  unfold Arr.trim at h
  rcases hl : a.sensors with _ | ⟨s0, rest⟩
  · exact absurd hl hc.1
  · by_cases hok : (s0.ts.trim s e).2 = .ok ()
    · have hall : ∀ t ∈ a.sensors, ((fun r : ATS => r.trim s e) t.ts).2 = .ok () := fun t ht =>
        ((ATS.trim_metaFun s e).same_result _ _ (hc.2.2 s0 (by rw [hl]; simp) t ht)).1 hok
      rw [forSensors_ok _ _ hall] at h
      simp at h
    · rcases hr : s0.ts.trim s e with ⟨r, e' | ⟨⟨⟩⟩⟩
      · have hrr := ATS.trim_error hr
        subst hrr
        rw [hl, forSensors_head_error (fun r : ATS => r.trim s e) s0 rest _ e' hr] at h
        simp only [Prod.mk.injEq] at h
        rw [← h.1]
        rcases a with ⟨ss, src⟩
        simp only at hl
        simp [hl]
      · rw [hr] at hok; simp at hok

example :
    let a : Arr := ⟨[mkS 0 [1, 2, 3, 4], mkS 1 [1, 1, 1, 1], mkS 2 [5, 6, 7, 8]], ⟨-1, 0, 0⟩⟩
    let ops := [ArrOp.trim 1 3, .trim 5 9, .trimOffsets (3 / 2) 10, .zeroPad (1 / 5), .zeroPad 0]
    (runAll ArrOp.run a ops).sensors.map (fun s => (s.x, s.ts.amp)) =
      [(1, [1, 1, 1, 0, 0]), (2, [6, 7, 8, 0, 0])] := by decide +kernel
example : (Arr.mk [mkS 0 [1, 2], mkS 1 [1, 1]] ⟨-1, 0, 0⟩).trim 3 9 =
    (⟨[mkS 0 [1, 2], mkS 1 [1, 1]], ⟨-1, 0, 0⟩⟩, .error .indexError) := by decide +kernel

/-- **C90 does not hold**: a refused `zero_pad` resets the frequency step of the first sensor only. -/
theorem C90_refused_zero_pad_splits_frequency_step_counterexample :
    ∃ a : Arr, Arr.init [mkS 0 [1, 2, 3, 4], mkS 1 [5, 6, 7, 8]] ⟨-1, 0, 0⟩ = .ok a ∧
      let a' := runAll ArrOp.run a [.zeroPad (1 / 2), .zeroPad 0]
      a'.sensors.map (fun s => s.ts.df) = [1 / 4, 1 / 2] := by
  refine ⟨⟨[mkS 0 [1, 2, 3, 4], mkS 1 [5, 6, 7, 8]], ⟨-1, 0, 0⟩⟩, ?_, ?_⟩
  all_goals decide +kernel

/-- **C90** (what does hold).  If every `zero_pad` of the history asks for a positive frequency step that
is at most the sampling rate, then all sensors keep reporting one frequency step.  Missing: histories with
a refused `zero_pad` (refuted above). -/
theorem C90_sensors_share_frequency_step_partial (l : List Sensor) (src : Source) (a : Arr)
    (h : Arr.init l src = .ok a) (hm : ∀ s ∈ l, s.ts.multiple = 1) (hdt : ∀ s ∈ l, 0 < s.ts.dt)
    (ops : List ArrOp)
    (hops : ∀ op ∈ ops, ∀ df, op = .zeroPad df → 0 < df ∧ ∀ s ∈ l, df * s.ts.dt ≤ 1) :
    ∀ s ∈ (runAll ArrOp.run a ops).sensors, ∀ t ∈ (runAll ArrOp.run a ops).sensors,
      s.ts.df = t.ts.df := by
  have hinv : ∀ (ops : List ArrOp) (a : Arr), Consistent a →
      (∃ m, ∀ s ∈ a.sensors, s.ts.multiple = m) →
      (∀ s ∈ a.sensors, 0 < s.ts.dt ∧ ∃ t ∈ l, s.ts.dt = t.ts.dt) →
      (∀ op ∈ ops, ∀ df, op = .zeroPad df → 0 < df ∧ ∀ s ∈ l, df * s.ts.dt ≤ 1) →
      ∃ m, ∀ s ∈ (runAll ArrOp.run a ops).sensors, s.ts.multiple = m := by
    intro ops
    induction ops with
    | nil => intro a _ h2 _ _; exact h2
    | cons op ops ih =>
      intro a hc ⟨m, hmul⟩ hdts hops
      refine ih (op.run a).1 (ArrOp.run_consistent a op hc) ?_ ?_ (fun o ho => hops o (by simp [ho]))
      · -- one multiple
        cases op with
        | trim s e =>
          refine ⟨m, ?_⟩
          simp only [ArrOp.run]
          rcases htr : a.trim s e with ⟨a', err | ⟨⟨⟩⟩⟩
          · rw [C17_refused_trim_changes_nothing a a' s e err hc htr]; exact hmul
          · intro t ht
            rcases hl : a.sensors with _ | ⟨s0, rest⟩
            · exact absurd hl hc.1
            by_cases hok : (s0.ts.trim s e).2 = .ok ()
            · have hall : ∀ t ∈ a.sensors, ((fun r : ATS => r.trim s e) t.ts).2 = .ok () := fun t ht =>
                ((ATS.trim_metaFun s e).same_result _ _ (hc.2.2 s0 (by rw [hl]; simp) t ht)).1 hok
              unfold Arr.trim at htr
              rw [forSensors_ok _ _ hall] at htr
              simp only [Prod.mk.injEq, and_true] at htr
              rw [← htr] at ht
              simp only [List.mem_map] at ht
              obtain ⟨t', ht', rfl⟩ := ht
              simp only
              rcases ATS.trim_sameMeta (SameMeta.refl t'.ts) s e with ⟨i, j, h1, -⟩ | ⟨e', h1, -⟩
              · rw [h1]; exact hmul t' ht'
              · rw [h1]; exact hmul t' ht'
            · rcases hr : s0.ts.trim s e with ⟨r, e' | ⟨⟨⟩⟩⟩
              · unfold Arr.trim at htr
                rw [hl, forSensors_head_error (fun r : ATS => r.trim s e) s0 rest _ e' hr] at htr
                simp at htr
              · rw [hr] at hok; simp at hok
        | trimOffsets mn mx =>
          exact ⟨m, fun s hs => hmul s ((trimOffsets_sublist a mn mx).subset hs)⟩
        | zeroPad df =>
          obtain ⟨hdf, hle⟩ := hops _ (by simp) df rfl
          rcases hl : a.sensors with _ | ⟨s0, rest⟩
          · exact absurd hl hc.1
          have hok : ∀ t ∈ a.sensors, (t.ts.zeroPad df).2 = .ok () := by
            intro t ht
            obtain ⟨hd, t', ht', hdt'⟩ := hdts t ht
            have h1 : df * t.ts.dt ≤ 1 := by rw [hdt']; exact hle t' ht'
            have hpos : 0 < df * t.ts.dt := mul_pos hdf hd
            have hn : 1 ≤ ATS.targetSamples df t.ts.dt := by
              unfold ATS.targetSamples
              have h2 : (1 : ℚ) ≤ 1 / (df * t.ts.dt) := by rw [le_div_iff₀ hpos]; linarith
              have h3 := pyRound_abs_sub_le (1 / (df * t.ts.dt))
              have h4 := (abs_le.1 h3).2
              have h5 : (0 : ℚ) < pyRound (1 / (df * t.ts.dt)) := by linarith
              have : 0 < pyRound (1 / (df * t.ts.dt)) := by exact_mod_cast h5
              omega
            simp only [ATS.zeroPad]
            rw [if_neg (not_le.2 hdf)]
            split_ifs
            · rfl
            · omega
            · rfl
            · rfl
            · rfl
          have hsame : ∀ s t : ATS, SameMeta s t → (s.zeroPad df).1.multiple = (t.zeroPad df).1.multiple := by
            intro s t hst
            have hn : s.nsamples = t.nsamples := hst.2.2.2
            simp only [ATS.zeroPad, hn, hst.1]
            split_ifs <;> rfl
          refine ⟨(s0.ts.zeroPad df).1.multiple, ?_⟩
          intro t ht
          simp only [ArrOp.run, Arr.zeroPad] at ht
          rw [forSensors_ok _ _ hok] at ht
          obtain ⟨t', ht', rfl⟩ := List.mem_map.1 ht
          exact hsame _ _ (hc.2.2 t' ht' s0 (by rw [hl]; simp))
        | mute w i j =>
          refine ⟨m, fun t ht => ?_⟩
          have hf := (mute_frame w hc i j).1
          simp only [ArrOp.run] at ht
          obtain ⟨k, hk, rfl⟩ := List.getElem_of_mem ht
          have hlen := hf.length_eq
          have := (List.forall₂_iff_get.1 hf).2 k (by omega) hk
          rw [List.get_eq_getElem, List.get_eq_getElem] at this
          rw [this.2.2.2.2]
          exact hmul _ (List.getElem_mem _)
      · -- time steps
        have key : ∀ t ∈ (op.run a).1.sensors, ∃ s ∈ a.sensors, t.ts.dt = s.ts.dt := by
          have hfor : ∀ (f : ATS → Outcome ATS), (∀ r, (f r).1.dt = r.dt) → ∀ l : List Sensor,
              ∀ t ∈ (forSensors f l).1, ∃ s ∈ l, t.ts.dt = s.ts.dt := by
            intro f hf l
            induction l with
            | nil => intro t ht; simp [forSensors] at ht
            | cons s rest ih =>
              intro t ht
              unfold forSensors at ht
              have hfs := hf s.ts
              rcases h : f s.ts with ⟨r, _ | ⟨⟨⟩⟩⟩
              · rw [h] at ht hfs
                rcases List.mem_cons.1 ht with rfl | ht
                · exact ⟨s, by simp, hfs⟩
                · exact ⟨t, by simp [ht], rfl⟩
              · rw [h] at ht hfs
                rcases List.mem_cons.1 ht with rfl | ht
                · exact ⟨s, by simp, hfs⟩
                · obtain ⟨u, hu, h'⟩ := ih t ht
                  exact ⟨u, by simp [hu], h'⟩
          cases op with
          | trim s e =>
            refine hfor _ (fun r => ?_) a.sensors
            rcases ATS.trim_sameMeta (SameMeta.refl r) s e with ⟨i, j, h1, -⟩ | ⟨e', h1, -⟩ <;>
              simp only [h1]
          | trimOffsets mn mx =>
            exact fun t ht => ⟨t, (trimOffsets_sublist a mn mx).subset ht, rfl⟩
          | zeroPad df =>
            refine hfor _ (fun r => ?_) a.sensors
            simp only [ATS.zeroPad]
            split_ifs <;> rfl
          | mute w i j =>
            intro t ht
            have hf := (mute_frame w hc i j).1
            simp only [ArrOp.run] at ht
            obtain ⟨k, hk, rfl⟩ := List.getElem_of_mem ht
            have hlen := hf.length_eq
            have := (List.forall₂_iff_get.1 hf).2 k (by omega) hk
            rw [List.get_eq_getElem, List.get_eq_getElem] at this
            exact ⟨_, List.getElem_mem _, this.2.2.2.1.1.symm⟩
        intro t ht
        obtain ⟨s, hs, hst⟩ := key t ht
        rw [hst]
        exact hdts s hs
  obtain ⟨hc, hp, -⟩ := init_consistent h
  obtain ⟨m, hmm⟩ := hinv ops a hc ⟨1, fun s hs => hm s (hp.mem_iff.1 hs)⟩
    (fun s hs => ⟨hdt s (hp.mem_iff.1 hs), s, hp.mem_iff.1 hs, rfl⟩) hops
  have hc' := C17_operations_preserve_consistency l src a h ops
  intro s hs t ht
  have h1 := hc'.2.2 s hs t ht
  unfold ATS.df ATS.dfInternal ATS.nsamples
  rw [hmm s hs, hmm t ht, h1.1, h1.2.2.2]

example :
    let a : Arr := ⟨[mkS 0 [1, 2, 3, 4], mkS 1 [1, 1, 1, 1]], ⟨-1, 0, 0⟩⟩
    let ops := [ArrOp.zeroPad (1 / 2), .trim 1 9, .trim 0 2, .zeroPad (2 / 3)]
    (runAll ArrOp.run a ops).sensors.map (fun s => s.ts.df) = [1 / 2, 1 / 2] := by decide +kernel

end Verif.Props
