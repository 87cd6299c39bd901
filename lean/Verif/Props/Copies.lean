import Verif.Props.ArrayViews

/-! # C08, C11 for sensors and arrays -/

namespace Verif.Props
open Verif Arr Spec

/-- **C08** (sensors, what does hold).  Copying a sensor succeeds exactly for records with positive stack count and
non-positive delay; the copy has the same position, samples, time step, delay and stack count and is identical when the
record was not padded to a multiple.  Missing: padded records. -/
theorem C08_sensor_copy_partial (s : Sensor) :
    ((∃ c, s.fromSensor = .ok c) ↔ 0 < s.ts.nstacks ∧ s.ts.delay ≤ 0) ∧
    ∀ c, s.fromSensor = .ok c → c.x = s.x ∧ c.y = s.y ∧ c.z = s.z ∧ c.ts.amp = s.ts.amp ∧ c.ts.dt = s.ts.dt ∧
      c.ts.delay = s.ts.delay ∧ c.ts.nstacks = s.ts.nstacks ∧ (s.ts.multiple = 1 → c = s) := by
  unfold Sensor.fromSensor
  rw [Sensor.init_eq]
  split_ifs with h
  · refine ⟨⟨fun _ => h, fun _ => ⟨_, rfl⟩⟩, ?_⟩
    rintro c hc
    simp only [Except.ok.injEq] at hc
    subst hc
    refine ⟨rfl, rfl, rfl, rfl, rfl, rfl, rfl, ?_⟩
    intro hm
    rcases s with ⟨⟨amp, dt, ns, d, m⟩, x, y, z⟩
    simp only at hm
    subst hm
    rfl
  · refine ⟨⟨fun ⟨c, hc⟩ => by simp at hc, fun h' => absurd h' h⟩, ?_⟩
    rintro c hc
    simp at hc

example : ∃ c, (⟨⟨[1, 2], 1 / 2, 3, -1, 1⟩, 4, 5, 6⟩ : Sensor).fromSensor = .ok c ∧ c.z = 6 := ⟨_, rfl, rfl⟩

theorem copySensors_forall₂ {l cs : List Sensor} (h : Arr.copySensors l = .ok cs) :
    List.Forall₂ (fun s c => s.fromSensor = .ok c) l cs := by
  induction l generalizing cs with
  | nil =>
    simp only [Arr.copySensors, Except.ok.injEq] at h
    subst h; exact .nil
  | cons s l ih =>
    simp only [Arr.copySensors, bind, Except.bind] at h
    split at h
    · simp at h
    · split at h
      · simp at h
      · simp only [pure, Except.pure, Except.ok.injEq] at h
        subst h
        rename_i _ c hc _ cs hcs
        exact .cons hc (ih hcs)

/-- **C08** (a sensor made of a record).  It stands at the given place and has the samples of the record. -/
theorem C08_sensor_of_record_partial (r : ATS) (x y z : ℚ) :
    ((∃ c, Sensor.fromATS r x y z = .ok c) ↔ 0 < r.nstacks ∧ r.delay ≤ 0) ∧
    ∀ c, Sensor.fromATS r x y z = .ok c → c.x = x ∧ c.y = y ∧ c.z = z ∧ c.ts.amp = r.amp ∧ c.ts.dt = r.dt ∧
      c.ts.delay = r.delay ∧ c.ts.nstacks = r.nstacks ∧ (r.multiple = 1 → c.ts = r) := by
  unfold Sensor.fromATS
  rw [Sensor.init_eq]
  split_ifs with h
  · refine ⟨⟨fun _ => h, fun _ => ⟨_, rfl⟩⟩, ?_⟩
    rintro c hc
    simp only [Except.ok.injEq] at hc
    subst hc
    refine ⟨rfl, rfl, rfl, rfl, rfl, rfl, rfl, fun hm => ?_⟩
    cases r
    simp_all
  · refine ⟨⟨fun ⟨c, hc⟩ => by simp at hc, fun hh => absurd hh h⟩, fun c hc => by simp at hc⟩

example : Sensor.fromATS ⟨[1, 2], 1 / 2, 3, 0, 1⟩ 4 5 6 = .ok ⟨⟨[1, 2], 1 / 2, 3, 0, 1⟩, 4, 5, 6⟩ := by decide +kernel

/-- **C08** (arrays, what does hold).  An array whose sensors are in order and agree can be copied exactly when every
sensor has positive stack count and non-positive delay; the copy has the same source and, sensor by sensor, the same
position, samples, time step, delay and stack count.  Missing: padded sensors. -/
theorem C08_array_copy_partial (a : Arr) (ha : Consistent a) :
    ((∃ c, a.fromArray = .ok c) ↔ ∀ s ∈ a.sensors, 0 < s.ts.nstacks ∧ s.ts.delay ≤ 0) ∧
    ∀ c, a.fromArray = .ok c → c.source = a.source ∧
      List.Forall₂ (fun s t : Sensor => t.x = s.x ∧ t.y = s.y ∧ t.z = s.z ∧ t.ts.amp = s.ts.amp ∧ t.ts.dt = s.ts.dt ∧
        t.ts.delay = s.ts.delay ∧ t.ts.nstacks = s.ts.nstacks ∧ (s.ts.multiple = 1 → t = s)) a.sensors c.sensors := by
  have key : (∀ s ∈ a.sensors, 0 < s.ts.nstacks ∧ s.ts.delay ≤ 0) → a.fromArray =
      .ok ⟨a.sensors.map fun s => { s with ts := { s.ts with multiple := 1 } }, a.source⟩ := by
    intro h
    unfold Arr.fromArray
    rw [copySensors_ok _ h]
    have hcc : Consistent ⟨a.sensors.map fun s => { s with ts := { s.ts with multiple := 1 } }, a.source⟩ := by
      refine consistent_of_frame ha ?_
      simp only [List.forall₂_map_right_iff]
      exact List.forall₂_same.2 fun s _ => ⟨rfl, rfl, rfl, rfl, rfl⟩
    exact init_of_consistent hcc
  have conv : ∀ c, a.fromArray = .ok c → ∀ s ∈ a.sensors, 0 < s.ts.nstacks ∧ s.ts.delay ≤ 0 := by
    intro c hc s hs
    simp only [Arr.fromArray, bind, Except.bind] at hc
    split at hc
    · simp at hc
    · rename_i cs hcs
      have := copySensors_forall₂ hcs
      obtain ⟨i, hi, rfl⟩ := List.getElem_of_mem hs
      exact (C08_sensor_copy_partial _).1.1 ⟨_, this.get hi (this.length_eq ▸ hi)⟩
  refine ⟨⟨fun ⟨c, hc⟩ => conv c hc, fun h => ⟨_, key h⟩⟩, ?_⟩
  intro c hc
  rw [key (conv c hc)] at hc
  simp only [Except.ok.injEq] at hc
  subst hc
  refine ⟨rfl, ?_⟩
  simp only [List.forall₂_map_right_iff]
  refine List.forall₂_same.2 fun s _ => ⟨rfl, rfl, rfl, rfl, rfl, rfl, rfl, fun hm => ?_⟩
  rcases s with ⟨⟨amp, dt, ns, d, m⟩, x, y, z⟩
  simp only at hm
  subst hm
  rfl

/-- A name is excluded: it is in the list, or, if a string was given instead of a list, a part of the string. -/
def Excluded : Excl → String → Prop
  | .none, _ => False
  | .coll names, a => a ∈ names
  | .str s, a => ∃ before after : List Char, s.toList = before ++ a.toList ++ after

theorem has_iff (e : Excl) (a : String) : e.has a = true ↔ Excluded e a := by
  cases e with
  | none => simp [Excl.has, Excluded]
  | coll l => simp [Excl.has, Excluded]
  | str s =>
    rw [Excl.has, decide_eq_true_eq]
    exact exists_congr fun _ => exists_congr fun _ => eq_comm

/-- **C11** (sensors).  For every set of excluded attributes two sensors are similar exactly when they agree in each
attribute of position and record which is not excluded. -/
theorem C11_sensor_similarity_iff (e : Excl) (a b : Sensor) : a.isSimilar b e = true ↔
    (Excluded e "x" ∨ a.x = b.x) ∧ (Excluded e "y" ∨ a.y = b.y) ∧ (Excluded e "z" ∨ a.z = b.z) ∧
    (Excluded e "dt" ∨ a.ts.dt = b.ts.dt) ∧ (Excluded e "nstacks" ∨ a.ts.nstacks = b.ts.nstacks) ∧
    (Excluded e "delay" ∨ a.ts.delay = b.ts.delay) ∧
    (Excluded e "nsamples" ∨ a.ts.amp.length = b.ts.amp.length) := by
  simp only [← has_iff]
  simp only [Sensor.isSimilar, ATS.isSimilar, ATS.nsamples, Bool.and_eq_true, Bool.or_eq_true, decide_eq_true_eq]
  constructor
  · rintro ⟨⟨⟨h1, h2⟩, h3⟩, ⟨⟨h4, h5⟩, h6⟩, h7⟩
    exact ⟨h1, h2, h3, h4, h5, h6, h7.imp id of_decide_eq_true⟩
  · rintro ⟨h1, h2, h3, h4, h5, h6, h7⟩
    exact ⟨⟨⟨h1, h2⟩, h3⟩, ⟨⟨h4, h5⟩, h6⟩, h7.imp id (decide_eq_true ·)⟩

/-- **C11** (sensors).  It is an equivalence relation. -/
theorem C11_sensor_similarity_is_equivalence (e : Excl) :
    Equivalence (fun a b : Sensor => a.isSimilar b e = true) := by
  constructor
  · intro a
    rw [C11_sensor_similarity_iff]; simp
  · intro a b h
    rw [C11_sensor_similarity_iff] at h ⊢
    obtain ⟨h1, h2, h3, h4, h5, h6, h7⟩ := h
    exact ⟨h1.imp id Eq.symm, h2.imp id Eq.symm, h3.imp id Eq.symm, h4.imp id Eq.symm, h5.imp id Eq.symm,
      h6.imp id Eq.symm, h7.imp id Eq.symm⟩
  · intro a b c h h'
    rw [C11_sensor_similarity_iff] at h h' ⊢
    have tr : ∀ {α : Type} {p : Prop} {x y z : α}, p ∨ x = y → p ∨ y = z → p ∨ x = z := by
      rintro α p x y z (hp | rfl) (hp' | rfl)
      exacts [.inl hp, .inl hp, .inl hp', .inr rfl]
    obtain ⟨h1, h2, h3, h4, h5, h6, h7⟩ := h
    obtain ⟨k1, k2, k3, k4, k5, k6, k7⟩ := h'
    exact ⟨tr h1 k1, tr h2 k2, tr h3 k3, tr h4 k4, tr h5 k5, tr h6 k6, tr h7 k7⟩

/-- Sensors which differ in position only are similar once positions are excluded. -/
example :
    let a : Sensor := ⟨⟨[1, 2], 1, 1, 0, 1⟩, 0, 0, 0⟩
    let b : Sensor := ⟨⟨[3, 4], 1, 1, 0, 1⟩, 5, 0, 0⟩
    a.isSimilar b .none = false ∧ a.isSimilar b (.coll ["x"]) = true := by decide +kernel

end Verif.Props
