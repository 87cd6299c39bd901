import Verif.Model.Array
import Verif.Spec.Arrays
import Verif.Lemmas.Sensor
import Verif.Lemmas.ZeroPad
import Verif.Lemmas.Trim
import Verif.Lemmas.CrossCorr

/-! # Lemmas about arrays -/

namespace Verif
open Spec

namespace Spec
theorem SameMeta.refl (r : ATS) : SameMeta r r := ⟨rfl, rfl, rfl, rfl⟩
theorem SameMeta.symm {r s : ATS} (h : SameMeta r s) : SameMeta s r :=
  ⟨h.1.symm, h.2.1.symm, h.2.2.1.symm, h.2.2.2.symm⟩
theorem SameMeta.trans {r s t : ATS} (h : SameMeta r s) (g : SameMeta s t) : SameMeta r t :=
  ⟨h.1.trans g.1, h.2.1.trans g.2.1, h.2.2.1.trans g.2.2.1, h.2.2.2.trans g.2.2.2⟩
end Spec

theorem Sensor.isSimilar_xyz_iff (a b : Sensor) :
    a.isSimilar b (.coll ["x", "y", "z"]) = true ↔ SameMeta a.ts b.ts := by
  have h1 : (Excl.coll ["x", "y", "z"]).has "x" = true := by decide +kernel
  have h2 : (Excl.coll ["x", "y", "z"]).has "y" = true := by decide +kernel
  have h3 : (Excl.coll ["x", "y", "z"]).has "z" = true := by decide +kernel
  have h4 : (Excl.coll ["x", "y", "z"]).has "dt" = false := by decide +kernel
  have h5 : (Excl.coll ["x", "y", "z"]).has "nstacks" = false := by decide +kernel
  have h6 : (Excl.coll ["x", "y", "z"]).has "delay" = false := by decide +kernel
  have h7 : (Excl.coll ["x", "y", "z"]).has "nsamples" = false := by decide +kernel
  simp [Sensor.isSimilar, ATS.isSimilar, h1, h2, h3, h4, h5, h6, h7, SameMeta, ATS.nsamples, and_assoc]
  intros
  exact decide_eq_true_iff

namespace Arr

theorem checkLoop_ok_iff (ex : Sensor) : ∀ (l : List Sensor) (pos : List ℚ),
    checkLoop ex pos l = .ok () ↔
      (∀ s ∈ l, SameMeta ex.ts s.ts) ∧ (∀ s ∈ l, s.x ∉ pos) ∧ (l.map Sensor.x).Nodup := by
  intro l
  induction l with
  | nil => intro pos; simp [checkLoop]
  | cons s rest ih =>
    intro pos
    unfold checkLoop
    by_cases h1 : ex.isSimilar s (.coll ["x", "y", "z"]) = true
    · have h1' := (Sensor.isSimilar_xyz_iff ex s).1 h1
      simp only [h1, Bool.not_true, Bool.false_eq_true, if_false]
      by_cases h2 : s.x ∈ pos
      · simp [h2]
      · simp only [h2, if_false]
        rw [ih]
        simp only [List.mem_cons, forall_eq_or_imp, h1', h2, not_false_eq_true, true_and,
          List.map_cons, List.nodup_cons, List.mem_append, List.mem_map, not_or, not_exists, not_and,
          List.not_mem_nil, or_false]
        constructor
        · rintro ⟨a, b, c⟩
          exact ⟨a, fun t ht => (b t ht).1, fun t ht h => (b t ht).2 h, c⟩
        · rintro ⟨a, b, d, c⟩
          exact ⟨a, fun t ht => ⟨b t ht, d t ht⟩, c⟩
    · have h1' : ¬ SameMeta ex.ts s.ts := fun h => h1 ((Sensor.isSimilar_xyz_iff ex s).2 h)
      simp only [Bool.not_eq_true] at h1
      simp only [h1, Bool.not_false, if_true]
      simp [h1']

theorem checkLoop_error (ex : Sensor) : ∀ (l : List Sensor) (pos : List ℚ) (e : PyErr),
    checkLoop ex pos l = .error e → e = .valueError := by
  intro l
  induction l with
  | nil => intro pos e h; simp [checkLoop] at h
  | cons s rest ih =>
    intro pos e h
    unfold checkLoop at h
    split_ifs at h
    · simpa using h.symm
    · simpa using h.symm
    · exact ih _ _ h

/-- The constructor, as a condition on its arguments. -/
theorem init_eq (l : List Sensor) (src : Source) (hne : l ≠ []) :
    (((∀ s ∈ l, ∀ t ∈ l, SameMeta s.ts t.ts) ∧ (l.map Sensor.x).Nodup) ∧
      init l src = .ok ⟨l.insertionSort (fun a b => a.x ≤ b.x), src⟩) ∨
    (¬ ((∀ s ∈ l, ∀ t ∈ l, SameMeta s.ts t.ts) ∧ (l.map Sensor.x).Nodup) ∧
      init l src = .error .valueError) := by
  rcases l with _ | ⟨ex, rest⟩
  · exact absurd rfl hne
  · have hiff : checkLoop ex [ex.x] rest = .ok () ↔
        ((∀ s ∈ ex :: rest, ∀ t ∈ ex :: rest, SameMeta s.ts t.ts) ∧ ((ex :: rest).map Sensor.x).Nodup) := by
      rw [checkLoop_ok_iff]
      simp only [List.map_cons, List.nodup_cons, List.mem_map, not_exists, not_and, List.mem_singleton]
      constructor
      · rintro ⟨a, b, c⟩
        refine ⟨?_, fun t ht h => b t ht h, c⟩
        have hex : ∀ s ∈ ex :: rest, SameMeta ex.ts s.ts := by
          intro s hs
          rcases List.mem_cons.1 hs with rfl | hs
          · exact SameMeta.refl _
          · exact a s hs
        intro s hs t ht
        exact (hex s hs).symm.trans (hex t ht)
      · rintro ⟨a, b, c⟩
        exact ⟨fun s hs => a ex (by simp) s (by simp [hs]), fun s hs h => b s hs h, c⟩
    by_cases hc : checkLoop ex [ex.x] rest = .ok ()
    · left
      refine ⟨hiff.1 hc, ?_⟩
      simp [init, hc]
    · right
      refine ⟨fun h => hc (hiff.2 h), ?_⟩
      rcases he : checkLoop ex [ex.x] rest with e | u
      · have := checkLoop_error ex rest _ e he
        subst this
        simp [init, he]
      · exact absurd he hc

/-- Sorting by distinct positions is determined by the set of sensors. -/
theorem sorted_unique {l m : List Sensor} (hl : l.Pairwise (fun s t => s.x < t.x))
    (hm : m.Pairwise (fun s t => s.x < t.x)) (hp : l.Perm m) : l = m := by
  refine hp.eq_of_pairwise ?_ hl hm
  intro a b _ _ h1 h2
  exact absurd h1 (not_lt.2 (le_of_lt h2))

theorem insertionSort_strict {l : List Sensor} (h : (l.map Sensor.x).Nodup) :
    (l.insertionSort (fun a b => a.x ≤ b.x)).Pairwise (fun s t => s.x < t.x) := by
  have : Std.Total (fun a b : Sensor => a.x ≤ b.x) := ⟨fun a b => le_total a.x b.x⟩
  have : IsTrans Sensor (fun a b => a.x ≤ b.x) := ⟨fun a b c h1 h2 => le_trans h1 h2⟩
  have hs := List.pairwise_insertionSort (fun a b : Sensor => a.x ≤ b.x) l
  have hn : ((l.insertionSort (fun a b => a.x ≤ b.x)).map Sensor.x).Nodup :=
    ((List.perm_insertionSort (fun a b : Sensor => a.x ≤ b.x) l).map Sensor.x).nodup_iff.2 h
  rw [List.Nodup, List.pairwise_map] at hn
  exact (hs.and hn).imp fun h => lt_of_le_of_ne h.1 h.2

theorem strict_nodup {l : List Sensor} (h : l.Pairwise (fun s t => s.x < t.x)) :
    (l.map Sensor.x).Nodup := by
  rw [List.Nodup, List.pairwise_map]
  exact h.imp fun h => ne_of_lt h

/-- The constructor yields a consistent array. -/
theorem init_consistent {l : List Sensor} {src : Source} {a : Arr} (h : init l src = .ok a) :
    Consistent a ∧ a.sensors.Perm l ∧ a.source = src := by
  have hne : l ≠ [] := by rintro rfl; simp [init] at h
  rcases init_eq l src hne with ⟨⟨h1, h2⟩, h3⟩ | ⟨_, h3⟩
  · rw [h3] at h
    simp only [Except.ok.injEq] at h
    subst h
    have hp := List.perm_insertionSort (fun a b : Sensor => a.x ≤ b.x) l
    refine ⟨⟨?_, insertionSort_strict h2, ?_⟩, hp, rfl⟩
    · intro h0
      simp only at h0
      rw [h0] at hp
      exact hne (List.nil_perm.1 hp)
    · intro s hs t ht
      exact h1 s (hp.mem_iff.1 hs) t (hp.mem_iff.1 ht)
  · rw [h3] at h; simp at h

/-- A consistent array is a fixed point of the constructor. -/
theorem init_of_consistent {a : Arr} (h : Consistent a) : init a.sensors a.source = .ok a := by
  obtain ⟨hne, hs, hm⟩ := h
  rcases init_eq a.sensors a.source hne with ⟨_, h3⟩ | ⟨hc, _⟩
  · rw [h3]
    congr 1
    have : a.sensors.insertionSort (fun a b => a.x ≤ b.x) = a.sensors :=
      sorted_unique (insertionSort_strict (strict_nodup hs)) hs (List.perm_insertionSort _ _)
    rw [this]
  · exact absurd ⟨hm, strict_nodup hs⟩ hc

/-! ## Loops over sensors -/

/-- A method whose success and whose effect on the metadata depend on the metadata only, and which does
not change the metadata when it fails. -/
structure MetaFun (f : ATS → Outcome ATS) : Prop where
  same_result : ∀ r s, SameMeta r s → ((f r).2 = .ok () ↔ (f s).2 = .ok ())
  same_meta : ∀ r s, SameMeta r s → (f r).2 = .ok () → SameMeta (f r).1 (f s).1
  error_meta : ∀ r, (f r).2 ≠ .ok () → SameMeta r (f r).1

theorem forSensors_x (f : ATS → Outcome ATS) (l : List Sensor) :
    (forSensors f l).1.map Sensor.x = l.map Sensor.x := by
  induction l with
  | nil => rfl
  | cons s rest ih =>
    unfold forSensors
    rcases h : f s.ts with ⟨r, _ | ⟨⟨⟩⟩⟩
    · simp
    · simp [ih]

/-- If the method succeeds on every sensor, the loop maps it over the sensors. -/
theorem forSensors_ok (f : ATS → Outcome ATS) (l : List Sensor)
    (h : ∀ s ∈ l, (f s.ts).2 = .ok ()) :
    forSensors f l = (l.map fun s => { s with ts := (f s.ts).1 }, .ok ()) := by
  induction l with
  | nil => rfl
  | cons s rest ih =>
    unfold forSensors
    have hs := h s (by simp)
    rcases hf : f s.ts with ⟨r, _ | ⟨⟨⟩⟩⟩
    · rw [hf] at hs; simp at hs
    · simp only
      rw [ih (fun t ht => h t (by simp [ht]))]
      simp [hf]

theorem forSensors_head_error (f : ATS → Outcome ATS) (s : Sensor) (rest : List Sensor) (r : ATS)
    (e : PyErr) (h : f s.ts = (r, .error e)) :
    forSensors f (s :: rest) = ({ s with ts := r } :: rest, .error e) := by
  simp [forSensors, h]

theorem forSensors_consistent {f : ATS → Outcome ATS} (hf : MetaFun f) {a : Arr}
    (h : Consistent a) : Consistent { a with sensors := (forSensors f a.sensors).1 } := by
  obtain ⟨hne, hs, hm⟩ := h
  have hx := forSensors_x f a.sensors
  have hpair : (forSensors f a.sensors).1.Pairwise (fun s t => s.x < t.x) := by
    have : ((forSensors f a.sensors).1.map Sensor.x).Pairwise (· < ·) := by
      rw [hx, List.pairwise_map]; exact hs
    rw [List.pairwise_map] at this
    exact this
  refine ⟨?_, hpair, ?_⟩
  · intro h0
    simp only at h0
    rw [h0] at hx
    simp only [List.map_nil] at hx
    exact hne (List.map_eq_nil_iff.1 hx.symm)
  · rcases hl : a.sensors with _ | ⟨s0, rest⟩
    · exact absurd hl hne
    · rw [hl] at hm
      simp only
      by_cases hok : (f s0.ts).2 = .ok ()
      · have hall : ∀ s ∈ s0 :: rest, (f s.ts).2 = .ok () := fun s hs =>
          (hf.same_result _ _ (hm s0 (by simp) s hs)).1 hok
        rw [forSensors_ok f _ hall]
        intro s hs t ht
        obtain ⟨s', hs', rfl⟩ := List.mem_map.1 hs
        obtain ⟨t', ht', rfl⟩ := List.mem_map.1 ht
        exact hf.same_meta _ _ (hm s' hs' t' ht') (hall s' hs')
      · rcases hr : f s0.ts with ⟨r, _ | ⟨⟨⟩⟩⟩
        · rename_i e
          rw [forSensors_head_error f s0 rest r e hr]
          have hmeta := hf.error_meta s0.ts hok
          rw [hr] at hmeta
          have hex : ∀ s ∈ ({ s0 with ts := r } : Sensor) :: rest, SameMeta s0.ts s.ts := by
            intro s hs
            rcases List.mem_cons.1 hs with rfl | hs
            · exact hmeta
            · exact hm s0 (by simp) s (by simp [hs])
          intro s hs t ht
          exact (hex s hs).symm.trans (hex t ht)
        · rw [hr] at hok; simp at hok

end Arr

namespace ATS

theorem trim_error {r r' : ATS} {s e : ℚ} {x : PyErr} (h : r.trim s e = (r', .error x)) : r' = r := by
  unfold trim trimBase at h
  split at h
  · simp at h
  · rename_i heq
    simp only [Prod.mk.injEq, Except.error.injEq] at h
    split at heq
    · split_ifs at heq <;> simp_all
    · simp_all

/-- `trim` on records with equal metadata: same decisions, same slice. -/
theorem trim_sameMeta {r s : ATS} (h : SameMeta r s) (a b : ℚ) :
    (∃ i j : ℤ, r.trim a b = ({ r with amp := pySlice r.amp i j, delay := a }, .ok ()) ∧
      s.trim a b = ({ s with amp := pySlice s.amp i j, delay := a }, .ok ())) ∨
    (∃ e, r.trim a b = (r, .error e) ∧ s.trim a b = (s, .error e)) := by
  have ht : r.time = s.time := by
    unfold time nsamples; rw [h.1, h.2.2.1, h.2.2.2]
  unfold trim trimBase
  rw [ht]
  rcases argmin (s.time.map fun t => |t - a|) with _ | i
  · right; exact ⟨_, rfl, rfl⟩
  rcases argmin (s.time.map fun t => |t - b|) with _ | j
  · right; exact ⟨_, rfl, rfl⟩
  rcases s.time.head? with _ | t0
  · right; exact ⟨_, rfl, rfl⟩
  rcases s.time.getLast? with _ | t1
  · right; exact ⟨_, rfl, rfl⟩
  by_cases hc : (decide (a < t0) || decide (a > b) || decide (b > t1)) = true
  · right; refine ⟨.indexError, ?_, ?_⟩ <;> simp only [hc, if_true]
  · left; refine ⟨i, (j : ℤ) + 1, ?_, ?_⟩ <;> simp only [hc] <;> rfl

theorem pySlice_length {α β : Type} (l : List α) (m : List β) (h : l.length = m.length) (i j : ℤ) :
    (pySlice l i j).length = (pySlice m i j).length := by
  simp [pySlice, h]

theorem trim_metaFun (a b : ℚ) : Arr.MetaFun (fun r => r.trim a b) := by
  constructor
  · intro r s h
    rcases trim_sameMeta h a b with ⟨i, j, h1, h2⟩ | ⟨e, h1, h2⟩ <;> simp [h1, h2]
  · intro r s h hok
    rcases trim_sameMeta h a b with ⟨i, j, h1, h2⟩ | ⟨e, h1, h2⟩
    · simp only [h1, h2]
      exact ⟨h.1, h.2.1, rfl, pySlice_length _ _ h.2.2.2 _ _⟩
    · simp only [h1] at hok; simp at hok
  · intro r hok
    rcases hr : r.trim a b with ⟨r', _ | ⟨⟨⟩⟩⟩
    · rw [trim_error hr]; exact SameMeta.refl _
    · rw [hr] at hok; simp at hok

theorem zeroPad_metaFun (df : ℚ) : Arr.MetaFun (fun r => r.zeroPad df) := by
  constructor
  · intro r s h
    have hn : r.nsamples = s.nsamples := h.2.2.2
    simp only [zeroPad, hn, h.1]
    split_ifs <;> simp
  · intro r s h hok
    have hn : r.nsamples = s.nsamples := h.2.2.2
    have hl : r.amp.length = s.amp.length := h.2.2.2
    simp only [zeroPad, hn, h.1] at hok ⊢
    split_ifs at hok ⊢
    all_goals first
      | (simp at hok; done)
      | exact ⟨rfl, h.2.1, h.2.2.1, by simp [hl]⟩
  · intro r hok
    simp only [zeroPad] at hok ⊢
    split_ifs at hok ⊢ <;> first | exact SameMeta.refl _ | simp at hok

end ATS

namespace Arr

theorem sliceIdx_le_length (n : ℕ) (k : ℤ) : sliceIdx n k ≤ n := by
  unfold sliceIdx; split_ifs <;> omega

theorem assignSlice_length {n : ℕ} {i j : ℤ} {v w : List ℚ} (h : assignSlice n i j v = .ok w) :
    w.length = n := by
  have h1 := sliceIdx_le_length n i
  have h2 := sliceIdx_le_length n j
  unfold assignSlice at h
  simp only at h
  split_ifs at h with hl
  · simp only [Except.ok.injEq] at h
    subst h
    simp only [List.length_append, List.length_replicate, hl]
    omega
  · split at h
    · simp only [Except.ok.injEq] at h
      subst h
      simp only [List.length_append, List.length_replicate]
      omega
    · simp at h

/-- `mute` changes samples only: positions and metadata of every sensor stay. -/
theorem muteLoop_frame (tukey : ℕ → List ℚ) (n : ℕ) : ∀ (l : List Sensor) (idx : List (ℤ × ℤ)),
    (∀ s ∈ l, s.ts.amp.length = n) →
    List.Forall₂ (fun s t : Sensor => t.x = s.x ∧ t.y = s.y ∧ t.z = s.z ∧ SameMeta s.ts t.ts ∧
      t.ts.multiple = s.ts.multiple) l (muteLoop tukey n l idx).1 := by
  intro l
  have hrefl : ∀ l : List Sensor, List.Forall₂ (fun s t : Sensor => t.x = s.x ∧ t.y = s.y ∧ t.z = s.z ∧
      SameMeta s.ts t.ts ∧ t.ts.multiple = s.ts.multiple) l l :=
    fun l => List.forall₂_same.2 fun s _ => ⟨rfl, rfl, rfl, SameMeta.refl _, rfl⟩
  induction l with
  | nil => intro idx _; simp [muteLoop]
  | cons s rest ih =>
    intro idx hl
    rcases idx with _ | ⟨⟨i, j⟩, idx⟩
    · simpa only [muteLoop] using hrefl _
    · unfold muteLoop
      split_ifs
      · exact hrefl _
      · split
        · exact hrefl _
        · rename_i w hw
          refine List.Forall₂.cons ⟨rfl, rfl, rfl, ⟨rfl, rfl, rfl, ?_⟩, rfl⟩
            (ih idx fun t ht => hl t (by simp [ht]))
          simp [List.length_zipWith, assignSlice_length hw, hl s (by simp)]

theorem consistent_of_frame {a b : Arr} (h : Consistent a)
    (hf : List.Forall₂ (fun s t : Sensor => t.x = s.x ∧ SameMeta s.ts t.ts) a.sensors b.sensors) :
    Consistent b := by
  obtain ⟨hne, hs, hm⟩ := h
  have hx : b.sensors.map Sensor.x = a.sensors.map Sensor.x := by
    revert hf
    generalize a.sensors = l
    generalize b.sensors = m
    intro hf
    induction hf with
    | nil => rfl
    | cons h _ ih => simp [h.1, ih]
  have hmem : ∀ t ∈ b.sensors, ∃ s ∈ a.sensors, SameMeta s.ts t.ts := by
    intro t ht
    obtain ⟨k, hk, rfl⟩ := List.getElem_of_mem ht
    have hlen := hf.length_eq
    have := List.forall₂_iff_get.1 hf
    refine ⟨a.sensors[k]'(by omega), List.getElem_mem _, ?_⟩
    exact (this.2 k (by omega) hk).2
  refine ⟨?_, ?_, ?_⟩
  · intro h0
    rw [h0] at hx
    exact hne (List.map_eq_nil_iff.1 hx.symm)
  · have : (b.sensors.map Sensor.x).Pairwise (· < ·) := by
      rw [hx, List.pairwise_map]; exact hs
    rwa [List.pairwise_map] at this
  · intro s hs t ht
    obtain ⟨s', hs', h1⟩ := hmem s hs
    obtain ⟨t', ht', h2⟩ := hmem t ht
    exact h1.symm.trans ((hm s' hs' t' ht').trans h2)

/-- `mute` in one equation for a non-empty array: either refused without change, or the loop. -/
theorem mute_cases (tukey : ℕ → List ℚ) (a : Arr) (start stop : Option Line) :
    (∃ e, mute tukey a start stop = (a, .error e)) ∨
    ∃ s0 rest idx, a.sensors = s0 :: rest ∧ idx.length = a.sensors.length ∧
      mute tukey a start stop =
      ({ a with sensors := (muteLoop tukey s0.ts.nsamples a.sensors idx).1 },
        (muteLoop tukey s0.ts.nsamples a.sensors idx).2) := by
  have hlen : ∀ l dt nd (p : List ℚ) i, lineIndices l dt nd p = .ok i → i.length = p.length := by
    intro l dt nd p i h
    unfold lineIndices at h
    split_ifs at h
    simp only [Except.ok.injEq] at h
    subst h
    simp
  have hp : a.position.length = a.sensors.length := by simp [position]
  rcases hl : a.sensors with _ | ⟨s0, rest⟩
  · left; exact ⟨_, by simp [mute, hl]; rfl⟩
  · simp only [mute, hl]
    split
    · left; exact ⟨_, rfl⟩
    · left; exact ⟨_, rfl⟩
    · rename_i i j hi hj
      right
      refine ⟨s0, rest, i.zip j, rfl, ?_, rfl⟩
      have h1 : i.length = a.position.length := by
        rcases start with _ | l
        · simp only [Except.ok.injEq] at hi; subst hi; simp
        · exact hlen _ _ _ _ _ hi
      have h2 : j.length = a.position.length := by
        rcases stop with _ | l
        · simp only [Except.ok.injEq] at hj; subst hj; simp
        · exact hlen _ _ _ _ _ hj
      rw [← hl, List.length_zip, h1, h2, hp, min_self]

theorem mute_frame (tukey : ℕ → List ℚ) {a : Arr} (h : Consistent a) (start stop : Option Line) :
    List.Forall₂ (fun s t : Sensor => t.x = s.x ∧ t.y = s.y ∧ t.z = s.z ∧ SameMeta s.ts t.ts ∧
      t.ts.multiple = s.ts.multiple) a.sensors (mute tukey a start stop).1.sensors ∧
    (mute tukey a start stop).1.source = a.source := by
  rcases mute_cases tukey a start stop with ⟨e, he⟩ | ⟨s0, rest, idx, hs0, _, he⟩
  · rw [he]
    exact ⟨List.forall₂_same.2 fun s _ => ⟨rfl, rfl, rfl, SameMeta.refl _, rfl⟩, rfl⟩
  · rw [he]
    refine ⟨muteLoop_frame _ _ _ _ ?_, rfl⟩
    intro s hs
    exact (h.2.2 s hs s0 (by rw [hs0]; simp)).2.2.2

theorem mute_consistent (tukey : ℕ → List ℚ) {a : Arr} (h : Consistent a) (start stop : Option Line) :
    Consistent (mute tukey a start stop).1 :=
  consistent_of_frame h ((mute_frame tukey h start stop).1.imp fun _ _ h => ⟨h.1, h.2.2.2.1⟩)

theorem trimOffsetsLoop_sublist (mn mx : ℚ) : ∀ l : List (ℚ × Sensor),
    (trimOffsetsLoop mn mx l).Sublist (l.map Prod.snd) := by
  intro l
  induction l with
  | nil => simp [trimOffsetsLoop]
  | cons p rest ih =>
    obtain ⟨o, s⟩ := p
    unfold trimOffsetsLoop
    simp only [List.map_cons]
    split_ifs with h1 h2
    · exact (List.nil_sublist _).cons_cons s
    · exact List.nil_sublist _
    · exact List.Sublist.cons_cons s (by simpa using ih)
    · exact List.Sublist.cons s (by simpa using ih)

theorem offsets_zip (a : Arr) :
    a.offsets.zip a.sensors = a.sensors.map fun s => (offset a.source s, s) := by
  unfold offsets position offset
  rw [List.map_map]
  generalize a.sensors = l
  induction l with
  | nil => rfl
  | cons s rest ih => simp [ih]

theorem trimOffsets_sublist (a : Arr) (mn mx : ℚ) :
    (trimOffsets a mn mx).1.sensors.Sublist a.sensors := by
  unfold trimOffsets
  split
  · exact List.Sublist.refl _
  · simp only
    have := trimOffsetsLoop_sublist mn mx (a.offsets.zip a.sensors)
    rwa [offsets_zip, List.map_map, show (Prod.snd ∘ fun s => (offset a.source s, s)) = id from rfl,
      List.map_id, ← offsets_zip] at this

theorem consistent_of_sublist {a b : Arr} (h : Consistent a) (hs : b.sensors.Sublist a.sensors)
    (hne : b.sensors ≠ []) : Consistent b :=
  ⟨hne, h.2.1.sublist hs, fun s h1 t h2 => h.2.2 s (hs.subset h1) t (hs.subset h2)⟩

theorem trimOffsets_consistent {a : Arr} (h : Consistent a) (mn mx : ℚ) :
    Consistent (trimOffsets a mn mx).1 := by
  refine consistent_of_sublist h (trimOffsets_sublist a mn mx) ?_
  unfold trimOffsets
  split
  · exact h.1
  · rename_i heq
    exact heq

end Arr
end Verif
