import Verif.Props.PeaksReject
import Verif.Model.PeaksJson
import Mathlib.Tactic.DeriveCountable
import Mathlib.Data.Rat.Encodable
import Mathlib.Logic.Equiv.List
import Mathlib.Data.Countable.Basic

/-!
# C39, C40, C41, C42: saving peaks to JSON files
-/

namespace Verif.Props
open Verif Peaks Spec

theorem chunks_flatten {α : Type} (k n : ℕ) (l : List α) (h : l.length = n * k) : (chunks k n l).flatten = l := by
  induction n generalizing l with
  | zero => simp at h; simp [chunks, h]
  | succ n ih =>
    have := ih (l.drop k) (by rw [List.length_drop, h, Nat.succ_mul]; omega)
    simp [chunks, this]

theorem chunks_length {α : Type} (k n : ℕ) (l : List α) : (chunks k n l).length = n := by
  induction n generalizing l with
  | zero => rfl
  | succ n ih => simp [chunks, ih]

theorem chunks_row {α : Type} (k n : ℕ) (l : List α) (h : l.length = n * k) :
    ∀ r ∈ chunks k n l, r.length = k := by
  induction n generalizing l with
  | zero => simp [chunks]
  | succ n ih =>
    have h' : l.length = n * k + k := by rw [h, Nat.succ_mul]
    intro r hr
    rcases List.mem_cons.1 hr with rfl | hr
    · rw [List.length_take]; omega
    · exact ih (l.drop k) (by rw [List.length_drop]; omega) r hr

/-- The shape of an array read back: `np.array([])` has one dimension, whatever the columns were. -/
def reread : List ℕ → List ℕ
  | [0, _] => [0]
  | s => s

/-- The shape of one- or two-dimensional data. -/
def OneOrTwo (s : List ℕ) : Prop := s.length = 1 ∨ s.length = 2

theorem tolist_toNd {α : Type} (a : Nd α) (hs : OneOrTwo a.shape) (hl : a.shape.prod = a.data.length) :
    a.tolist.toNd = .ok ⟨reread a.shape, a.data⟩ := by
  rcases a with ⟨s, d⟩
  simp only at hs hl
  rcases s with _ | ⟨n, _ | ⟨k, _ | ⟨x, l⟩⟩⟩
  · simp [OneOrTwo] at hs
  · simp only [List.prod_cons, List.prod_nil, mul_one] at hl
    simp [Nd.tolist, JArr.toNd, reread, hl]
  · simp only [List.prod_cons, List.prod_nil, mul_one] at hl
    rcases n with _ | n
    · have hd : d = [] := by
        rw [Nat.zero_mul] at hl
        exact List.length_eq_zero_iff.1 hl.symm
      subst hd
      simp [Nd.tolist, JArr.toNd, reread]
    · have h1 := chunks_row k (n + 1) d hl.symm
      have h2 : ((chunks k (n + 1) d).headD []).length = k := h1 _ (by simp [chunks])
      have h3 : ((chunks k (n + 1) d).all fun r => r.length == k) = true := by
        rw [List.all_eq_true]
        intro r hr
        rw [h1 r hr]; simp
      simp only [Nd.tolist, Nat.succ_ne_zero, if_false, JArr.toNd, h3, if_true, h2, chunks_length,
        chunks_flatten k (n + 1) d hl.symm, reread]
  · rcases hs with hs | hs
    · simp at hs
    · simp at hs

/-- All arrays with the shape they have after being written and read. -/
def rereadPeaks (p : Peaks) : Peaks :=
  { p with
    frequency := ⟨reread p.frequency.shape, p.frequency.data⟩
    velocity := ⟨reread p.velocity.shape, p.velocity.data⟩
    extra := p.extra.map fun e => (e.1, ⟨reread e.2.shape, e.2.data⟩)
    valid := ⟨reread p.valid.shape, p.valid.data⟩ }

theorem lookup_none_of_not_mem {α : Type} {l : List (String × α)} {k : String} (h : k ∉ l.map Prod.fst) :
    l.lookup k = none := by
  rw [List.lookup_eq_none_iff]
  intro p hp
  have : k ≠ p.1 := by rintro rfl; exact h (List.mem_map_of_mem hp)
  simpa using this

theorem fromDict_toDataset (p : Peaks) (hw : WfPeaks p) (hs : OneOrTwo p.velocity.shape) :
    (Peaks.fromDict p.toDataset p.identifier).2 = .ok (rereadPeaks p) := by
  have hne : ∀ e ∈ p.extra, e.1 ≠ "frequency" ∧ e.1 ≠ "velocity" ∧ e.1 ≠ "slowness" ∧ e.1 ≠ "wavelength" ∧
      e.1 ≠ "wavenumber" ∧ e.1 ≠ "valid" ∧ e.1 ≠ "identifier" := by
    intro e he
    have := hw.names_ok e he
    simpa using this
  have hfilter : dropValid p.toDataset = ("frequency", .floats p.frequency.tolist) ::
      ("velocity", .floats p.velocity.tolist) :: p.extra.map fun e => (e.1, JCol.floats e.2.tolist) := by
    unfold dropValid toDataset
    simp only [List.cons_append, List.filter_cons, List.filter_append, List.filter_nil]
    have : (p.extra.map fun e => (e.1, JCol.floats e.2.tolist)).filter (fun e => !(e.1 == "valid")) =
        p.extra.map fun e => (e.1, JCol.floats e.2.tolist) := by
      rw [List.filter_eq_self]
      intro x hx
      obtain ⟨e, he, rfl⟩ := List.mem_map.1 hx
      simpa using (hne e he).2.2.2.2.2.1
    rw [this]
    simp
  have hvalid : p.toDataset.lookup "valid" = some (.bools p.valid.tolist) := by
    unfold toDataset
    have hnone : (p.extra.map fun e => (e.1, JCol.floats e.2.tolist)).lookup "valid" = none := by
      apply lookup_none_of_not_mem
      intro h
      rw [List.map_map] at h
      obtain ⟨e, he, h⟩ := List.mem_map.1 h
      exact (hne e he).2.2.2.2.2.1 h
    rw [List.cons_append, List.cons_append, List.lookup_cons, List.lookup_cons, List.lookup_append, hnone]
    simp
  have hid : (dropValid p.toDataset).lookup "identifier" = none := by
    rw [hfilter]
    apply lookup_none_of_not_mem
    intro h
    simp only [List.map_cons, List.map_map, List.mem_cons, String.reduceEq, false_or, List.mem_map,
      Function.comp_def] at h
    obtain ⟨e, he, h⟩ := h
    exact (hne e he).2.2.2.2.2.2 h
  have hkw : kwargsOf (p.extra.map fun e => (e.1, JCol.floats e.2.tolist)) =
      .ok (p.extra.map fun e => (e.1, ⟨reread e.2.shape, e.2.data⟩)) := by
    have hall : ∀ e ∈ p.extra, e.2.tolist.toNd = .ok ⟨reread e.2.shape, e.2.data⟩ := by
      intro e he
      refine tolist_toNd _ ?_ ?_
      · rw [hw.extra_shape e he]; exact hs
      · rw [hw.extra_shape e he, hw.extra_len e he]; exact hw.shape_prod
    generalize p.extra = l at hall
    induction l with
    | nil => rfl
    | cons e l ih =>
      simp only [List.map_cons, kwargsOf, JCol.toFloats, hall e (by simp),
        ih (fun x hx => hall x (List.mem_cons_of_mem _ hx))]
  have hrest : ((dropValid p.toDataset).filter fun e => !(e.1 == "frequency" || e.1 == "velocity")) =
      p.extra.map fun e => (e.1, JCol.floats e.2.tolist) := by
    rw [hfilter]
    simp only [List.filter_cons]
    simp only [BEq.rfl, Bool.true_or, Bool.not_true, Bool.false_eq_true, if_false, Bool.or_true]
    rw [List.filter_eq_self]
    intro x hx
    obtain ⟨e, he, rfl⟩ := List.mem_map.1 hx
    have := hne e he
    simp [this.1, this.2.1]
  have hf : p.frequency.tolist.toNd = .ok ⟨reread p.frequency.shape, p.frequency.data⟩ :=
    tolist_toNd _ (by rw [hw.freq_shape]; exact hs) (by rw [hw.freq_shape, hw.freq_len]; exact hw.shape_prod)
  have hv : p.velocity.tolist.toNd = .ok ⟨reread p.velocity.shape, p.velocity.data⟩ :=
    tolist_toNd _ hs hw.shape_prod
  have hb : p.valid.tolist.toNd = .ok ⟨reread p.valid.shape, p.valid.data⟩ :=
    tolist_toNd _ (by rw [hw.valid_shape]; exact hs) (by rw [hw.valid_shape, hw.valid_len]; exact hw.shape_prod)
  have hl1 : (dropValid p.toDataset).lookup "frequency" = some (.floats p.frequency.tolist) := by
    rw [hfilter]; simp
  have hl2 : (dropValid p.toDataset).lookup "velocity" = some (.floats p.velocity.tolist) := by
    rw [hfilter]; simp [List.lookup_cons]
  have hnot : ((p.extra.map fun e => (e.1, (⟨reread e.2.shape, e.2.data⟩ : Nd Fl))).any fun k =>
      k.1 == "slowness" || k.1 == "wavelength" || k.1 == "wavenumber") = false := by
    rw [List.any_eq_false]
    intro x hx
    obtain ⟨e, he, rfl⟩ := List.mem_map.1 hx
    have := hne e he
    simp [this.2.2.1, this.2.2.2.1, this.2.2.2.2.1]
  unfold Peaks.fromDict construct
  rw [hl1, hl2, hid, hvalid, hrest, hkw]
  simp only [JCol.toFloats, hf, hv, JCol.toBools, hb, Peaks.init, hnot, Bool.false_eq_true, if_false]
  rfl

/-- **C39**.  Reading a file written by `to_json` gives an object with the same identifier, the same attribute names
in the same order, the same values and the same rejected peaks. -/
theorem C39_json_round_trip (p : Peaks) (hw : WfPeaks p) (hs : OneOrTwo p.velocity.shape) (old : Option Doc) :
    ∃ file p', Peaks.toJson old p false = (file, .ok ()) ∧ Peaks.fromJson file = .ok p' ∧
      p'.identifier = p.identifier ∧ p'.attrs = p.attrs ∧
      p'.frequency.data = p.frequency.data ∧ p'.velocity.data = p.velocity.data ∧
      p'.extra.map (fun e => (e.1, e.2.data)) = p.extra.map (fun e => (e.1, e.2.data)) ∧
      p'.valid.data = p.valid.data := by
  refine ⟨some [(p.identifier, p.toDataset)], rereadPeaks p, by simp [Peaks.toJson], ?_, rfl, ?_, rfl, rfl, ?_, rfl⟩
  · exact fromDict_toDataset p hw hs
  · simp [attrs, rereadPeaks, Function.comp_def]
  · simp [rereadPeaks, Function.comp_def]

/-- **C39** (validity as numbers).  A file which gives the validity of the peaks in numbers, as other programs may write
it, is read as the file which gives it in truth values: zero is rejected, anything else (NaN as well) is not. -/
theorem C39_validity_as_numbers (p : Peaks) (enc : Bool → Fl) (h0 : enc false = .fin 0) (h1 : enc true ≠ .fin 0)
    (data : Dataset) (h : "valid" ∉ data.map Prod.fst) :
    Peaks.fromJson (some [(p.identifier, data ++ [("valid", .floats (p.valid.tolist.map enc))])]) =
      Peaks.fromJson (some [(p.identifier, data ++ [("valid", .bools p.valid.tolist)])]) := by
  have hl : ∀ c : JCol, (data ++ [("valid", c)]).lookup "valid" = some c := by
    intro c
    rw [List.lookup_append, lookup_none_of_not_mem h]
    simp
  have hd : ∀ c : JCol, dropValid (data ++ [("valid", c)]) = dropValid data := by
    intro c
    simp [dropValid]
  have henc : ∀ b, (!decide (enc b = .fin 0)) = b := by
    intro b; cases b
    · simp [h0]
    · simp [h1]
  have hb : (JCol.floats (p.valid.tolist.map enc)).toBools = (JCol.bools p.valid.tolist).toBools := by
    unfold JCol.toBools
    cases p.valid.tolist with
    | flat l => simp [JArr.map, Function.comp_def, henc]
    | rows l => simp [JArr.map, Function.comp_def, henc]
  simp only [Peaks.fromJson, Peaks.fromDict, hl, hd, hb]

/-- C39 with the validity of the second peak given as 0 and the others as NaN and 2. -/
example : (Peaks.fromJson (some [("a", [("frequency", .floats (.flat [.fin 1, .fin 2, .fin 3])),
      ("velocity", .floats (.flat [.fin 100, .fin 200, .fin 300])),
      ("valid", .floats (.flat [.nan, .fin 0, .fin 2]))])])).map (fun p => p.valid.data) = .ok [true, false, true] := by
  decide +kernel

/-- Truth values written as the numbers one and zero. -/
def inNumbers : JCol → JCol
  | .floats a => .floats a
  | .bools (.flat l) => .floats (.flat (l.map fun b => if b = true then .fin 1 else .fin 0))
  | .bools (.rows ls) => .floats (.rows (ls.map fun r => r.map fun b => if b = true then .fin 1 else .fin 0))

theorem inNumbers_toFloats (c : JCol) : (inNumbers c).toFloats = c.toFloats := by
  rcases c with a | (l | ls)
  · rfl
  · rfl
  · rfl

theorem lookup_map_snd (g : JCol → JCol) (k : String) : ∀ data : Dataset,
    (data.map fun e => (e.1, g e.2)).lookup k = (data.lookup k).map g
  | [] => rfl
  | (k', c) :: rest => by
    rw [List.map_cons, List.lookup_cons, List.lookup_cons]
    by_cases h : k = k'
    · simp [h]
    · have h' : (k == k') = false := by simpa using h
      simp only [h']
      exact lookup_map_snd g k rest

theorem kwargsOf_inNumbers : ∀ data : Dataset,
    Peaks.kwargsOf (data.map fun e => (e.1, inNumbers e.2)) = Peaks.kwargsOf data
  | [] => rfl
  | (k, c) :: rest => by
    simp only [List.map_cons, Peaks.kwargsOf, inNumbers_toFloats, kwargsOf_inNumbers rest]

/-- **C39** (truth values as data).  Apart from the validity, truth values in a file are read as the numbers one and
zero. -/
theorem C39_truth_values_as_data (id : String) (data : Dataset) (h : "valid" ∉ data.map Prod.fst) (valid : JCol) :
    Peaks.fromJson (some [(id, data ++ [("valid", valid)])]) =
      Peaks.fromJson (some [(id, (data.map fun e => (e.1, inNumbers e.2)) ++ [("valid", valid)])]) := by
  have h' : "valid" ∉ (data.map fun e => (e.1, inNumbers e.2)).map Prod.fst := by
    simpa [Function.comp_def] using h
  have hl : ∀ d : Dataset, "valid" ∉ d.map Prod.fst → (d ++ [("valid", valid)]).lookup "valid" = some valid := by
    intro d hd
    rw [List.lookup_append, lookup_none_of_not_mem hd]
    simp
  have hd : ∀ d : Dataset, "valid" ∉ d.map Prod.fst → Peaks.dropValid (d ++ [("valid", valid)]) = d := by
    intro d hd
    simp only [Peaks.dropValid, List.filter_append]
    rw [List.filter_eq_self.2]
    · simp
    · intro e he
      have : e.1 ≠ "valid" := fun he' => hd (he' ▸ List.mem_map_of_mem he)
      simpa using this
  have hc : Peaks.construct (data.map fun e => (e.1, inNumbers e.2)) id = Peaks.construct data id := by
    simp only [Peaks.construct, lookup_map_snd, List.filter_map]
    have hk := kwargsOf_inNumbers (data.filter fun e => !(e.1 == "frequency" || e.1 == "velocity"))
    rcases data.lookup "frequency" with _ | f <;> rcases data.lookup "velocity" with _ | v <;>
      rcases data.lookup "identifier" with _ | i <;> simp only [Option.map_none, Option.map_some, inNumbers_toFloats]
    simp only [Function.comp_def]
    rw [hk]
  simp only [Peaks.fromJson, Peaks.fromDict, hl _ h, hl _ h', hd _ h, hd _ h', hc]

/-- C39 with an attribute of truth values. -/
example : (Peaks.fromJson (some [("a", [("frequency", .floats (.flat [.fin 1, .fin 2])),
      ("velocity", .floats (.flat [.fin 100, .fin 200])), ("power", .bools (.flat [true, false]))])])).map
        (fun p => p.extra.map fun e => e.2.data) = .ok [[.fin 1, .fin 0]] := by
  decide +kernel

theorem reread_eq {s : List ℕ} (h : s.headD 1 ≠ 0 ∨ s.length = 1) : reread s = s := by
  rcases s with _ | ⟨n, _ | ⟨k, _ | ⟨x, l⟩⟩⟩
  · rfl
  · rcases n with _ | n <;> rfl
  · rcases n with _ | n
    · simp at h
    · rfl
  · rcases n with _ | n <;> rfl

theorem lookup_dropValid (data : Dataset) (k : String) (hk : k ≠ "valid") : (dropValid data).lookup k = data.lookup k := by
  induction data with
  | nil => rfl
  | cons e data ih =>
    unfold dropValid at ih ⊢
    by_cases he : e.1 = "valid"
    · have hne : (k == e.1) = false := by rw [he]; simpa using hk
      rw [List.filter_cons_of_neg (by simp [he]), ih, List.lookup_cons, hne]
    · rw [List.filter_cons_of_pos (by simp [he]), List.lookup_cons, List.lookup_cons, ih]

/-- **C39** (refusal).  A data set without frequencies or without velocities, or with an identifier of its own, is not
read: `TypeError`. -/
theorem C39_incomplete_data (data : Dataset) (identifier : String)
    (h : "frequency" ∉ data.map Prod.fst ∨ "velocity" ∉ data.map Prod.fst ∨ (data.lookup "identifier").isSome) :
    Peaks.fromJson (some [(identifier, data)]) = .error .typeError := by
  have hc : Peaks.construct (dropValid data) identifier = .error .typeError := by
    unfold Peaks.construct
    rw [lookup_dropValid data _ (by decide), lookup_dropValid data _ (by decide), lookup_dropValid data _ (by decide)]
    rcases h with h | h | h
    · rw [lookup_none_of_not_mem h]
    · rw [lookup_none_of_not_mem h]
      cases data.lookup "frequency" <;> rfl
    · obtain ⟨c, hc⟩ := Option.isSome_iff_exists.1 h
      rw [hc]
      cases data.lookup "frequency" <;> cases data.lookup "velocity" <;> rfl
  show (Peaks.fromDict data identifier).2 = _
  unfold Peaks.fromDict
  rw [hc]

example : Peaks.fromJson (some [("a", [("frequency", .floats (.flat [.fin 5])), ("azimuth", .floats (.flat [.fin 1]))])]) =
    .error .typeError := C39_incomplete_data _ _ (Or.inr (Or.inl (by decide)))

/-- **C39** (shapes).  One-dimensional data, and two-dimensional data with at least one row, come back unchanged in
every respect. -/
theorem C39_exact (p : Peaks) (hw : WfPeaks p) (hs : OneOrTwo p.velocity.shape)
    (hrow : p.velocity.shape.headD 1 ≠ 0 ∨ p.velocity.shape.length = 1) (old : Option Doc) :
    Peaks.fromJson (Peaks.toJson old p false).1 = .ok p := by
  have : rereadPeaks p = p := by
    have he : p.extra.map (fun e => (e.1, (⟨reread e.2.shape, e.2.data⟩ : Nd Fl))) = p.extra := by
      conv_rhs => rw [← List.map_id p.extra]
      apply List.map_congr_left
      intro e he
      rw [hw.extra_shape e he, reread_eq hrow, ← hw.extra_shape e he]
      rfl
    have h1 : reread p.frequency.shape = p.frequency.shape := by rw [hw.freq_shape]; exact reread_eq hrow
    have h2 : reread p.velocity.shape = p.velocity.shape := reread_eq hrow
    have h3 : reread p.valid.shape = p.valid.shape := by rw [hw.valid_shape]; exact reread_eq hrow
    unfold rereadPeaks
    rw [he, h1, h2, h3]
  show (Peaks.fromDict p.toDataset p.identifier).2 = .ok p
  rw [fromDict_toDataset p hw hs, this]

example : OneOrTwo exPeaks.velocity.shape ∧ exPeaks.velocity.shape.headD 1 ≠ 0 ∧
    Peaks.fromJson (Peaks.toJson none exPeaks false).1 = .ok exPeaks := by
  refine ⟨Or.inr rfl, by decide, by decide +kernel⟩

/-- **C40**.  Appending keeps every data set of the file and adds the new one at the end. -/
theorem C40_append_keeps (doc : Doc) (p : Peaks) (h : p.identifier ∉ doc.map Prod.fst) :
    ∃ doc', Peaks.toJson (some doc) p true = (some doc', .ok ()) ∧
      (∀ id, id ≠ p.identifier → doc'.lookup id = doc.lookup id) ∧
      doc'.lookup p.identifier = some p.toDataset ∧
      doc'.map Prod.fst = doc.map Prod.fst ++ [p.identifier] := by
  refine ⟨doc ++ [(p.identifier, p.toDataset)], by simp [Peaks.toJson, h], ?_, ?_, by simp⟩
  · intro id hid
    rw [List.lookup_append]
    have : [(p.identifier, p.toDataset)].lookup id = none :=
      lookup_none_of_not_mem (by simpa using hid)
    rw [this]; simp
  · rw [List.lookup_append, lookup_none_of_not_mem h]
    simp

/-- **C40** (refusals).  If the identifier exists the file is unchanged and `KeyError` is raised; if the file does not
exist none is created. -/
theorem C40_append_refused (doc : Doc) (p : Peaks) (h : p.identifier ∈ doc.map Prod.fst) :
    Peaks.toJson (some doc) p true = (some doc, .error .keyError) ∧
    Peaks.toJson none p true = (none, .error .fileNotFoundError) := by
  simp [Peaks.toJson, h]

/-- **C40** (histories).  After any sequence of appends, refused ones included, every data set that was ever in the
file is still there. -/
theorem C40_nothing_is_lost (doc : Doc) (ps : List Peaks) (id : String) (d : Dataset) (h : doc.lookup id = some d) :
    ∃ doc', runAll (fun f p => Peaks.toJson f p true) (some doc) ps = some doc' ∧ doc'.lookup id = some d := by
  induction ps generalizing doc with
  | nil => exact ⟨doc, rfl, h⟩
  | cons p ps ih =>
    by_cases hp : p.identifier ∈ doc.map Prod.fst
    · obtain ⟨doc', h1, h2⟩ := ih doc h
      refine ⟨doc', ?_, h2⟩
      show runAll _ (Peaks.toJson (some doc) p true).1 ps = _
      rw [(C40_append_refused doc p hp).1]; exact h1
    · obtain ⟨doc1, g1, g2, -, -⟩ := C40_append_keeps doc p hp
      have hne : id ≠ p.identifier := by
        rintro rfl
        exact hp (List.mem_map_of_mem (f := Prod.fst) (Peaks.lookup_mem h))
      obtain ⟨doc', h1, h2⟩ := ih doc1 ((g2 id hne).trans h)
      refine ⟨doc', ?_, h2⟩
      show runAll _ (Peaks.toJson (some doc) p true).1 ps = _
      rw [g1]; exact h1

example : exPeaks.identifier ∉ ([("b", exPeaks.toDataset)] : Doc).map Prod.fst ∧
    exPeaks.identifier ∈ ([("a", exPeaks.toDataset)] : Doc).map Prod.fst ∧
    (Peaks.toJson (some [("b", exPeaks.toDataset)]) exPeaks true).1.map (List.map Prod.fst) = some ["b", "a"] := by
  decide +kernel

/-- **C41** (what holds).  A dictionary without `valid` is left alone. -/
theorem C41_without_valid_partial (data : Dataset) (id : String) (h : "valid" ∉ data.map Prod.fst) :
    (Peaks.fromDict data id).1 = data := by
  show dropValid data = data
  unfold dropValid
  rw [List.filter_eq_self]
  intro x hx
  have : x.1 ≠ "valid" := by rintro he; exact h (he ▸ List.mem_map_of_mem hx)
  simpa using this

example : "valid" ∉ (dropValid exPeaks.toDataset).map Prod.fst := by decide +kernel

/-- **C41** is violated: building twice from one dictionary resurrects a rejected peak the second time. -/
theorem C41_dictionary_changed_counterexample :
    ∃ (data : Dataset) (p q : Peaks), (Peaks.fromDict data "a").2 = .ok p ∧
      (Peaks.fromDict (Peaks.fromDict data "a").1 "a").2 = .ok q ∧
      (Peaks.fromDict data "a").1 ≠ data ∧ ¬ Remaining p 0 ∧ Remaining q 0 := by
  refine ⟨(exPeaks.rejectLimits "velocity" (some (.fin 150)) none).1.toDataset,
    (exPeaks.rejectLimits "velocity" (some (.fin 150)) none).1, exPeaks, by decide +kernel, by decide +kernel,
    by decide +kernel, ?_, rfl⟩
  unfold Remaining
  decide +kernel

/-- **C41** (consequence).  Whatever was rejected, the second build from the same dictionary has every peak with a
velocity again. -/
theorem C41_second_build_forgets_rejections_fails (p : Peaks) (hw : WfPeaks p) (hs : OneOrTwo p.velocity.shape) :
    ∃ q, (Peaks.fromDict (Peaks.fromDict p.toDataset p.identifier).1 p.identifier).2 = .ok q ∧
      ∀ i, Remaining q i ↔ ∃ v, p.velocity.data[i]? = some v ∧ v ≠ .nan := by
  have h1 := fromDict_toDataset p hw hs
  have hnone : (Peaks.fromDict p.toDataset p.identifier).1.lookup "valid" = none := by
    apply lookup_none_of_not_mem
    show "valid" ∉ (dropValid p.toDataset).map Prod.fst
    intro h
    obtain ⟨e, he, h⟩ := List.mem_map.1 h
    have := (List.mem_filter.1 he).2
    simp [h] at this
  have hdd : dropValid (dropValid p.toDataset) = dropValid p.toDataset := by
    unfold dropValid
    rw [List.filter_filter]
    simp
  unfold Peaks.fromDict at h1 hnone
  simp only at h1 hnone
  rcases hc : construct (dropValid p.toDataset) p.identifier with e | q
  · rw [hc] at h1; simp at h1
  · refine ⟨q, ?_, ?_⟩
    · unfold Peaks.fromDict
      simp only [hdd, hc, hnone]
    · have hq : ∃ p', rereadPeaks p = { q with valid := p' } := by
        rw [hc] at h1
        simp only at h1
        split at h1
        · simp only [Except.ok.injEq] at h1
          exact ⟨q.valid, by rw [← h1]⟩
        · split at h1
          · simp at h1
          · simp only [Except.ok.injEq] at h1
            exact ⟨_, h1.symm⟩
      obtain ⟨b, hb⟩ := hq
      have hv : q.velocity.data = p.velocity.data := by
        have : (rereadPeaks p).velocity = q.velocity := by rw [hb]
        rw [← this]; rfl
      have hval : q.valid = q.velocity.map fun v => !v.isNan := by
        unfold construct at hc
        split at hc
        · split at hc
          · simp at hc
          · split at hc
            · simp at hc
            · split at hc
              · simp at hc
              · unfold Peaks.init at hc
                split_ifs at hc
                simp only [Except.ok.injEq] at hc
                rw [← hc]
        · simp at hc
      intro i
      rw [Remaining, hval, ← hv]
      simp only [Nd.map, List.getElem?_map, Option.map_eq_some_iff]
      constructor
      · rintro ⟨v, g1, g2⟩
        exact ⟨v, g1, by rintro rfl; simp [Fl.isNan] at g2⟩
      · rintro ⟨v, g1, g2⟩
        exact ⟨v, g1, by cases v <;> simp_all [Fl.isNan]⟩

/-! ### C42 -/

/-- **C42** (what holds).  A refused append never touches the file, and outside the moments of writing the file holds
either the old text or the complete new text, from which every old data set can be read. -/
theorem C42_refused_append_partial (c : Codec) (doc : Doc) (p : Peaks) (h : p.identifier ∈ doc.map Prod.fst) :
    ∀ t ∈ appendMoments c (c.encode doc) p, c.decode t = some doc := by
  intro t ht
  simp only [appendMoments, c.round_trip, h, if_true, List.mem_singleton] at ht
  rw [ht, c.round_trip]

/-- **C42** (first and last moment). -/
theorem C42_before_and_after_partial (c : Codec) (doc : Doc) (p : Peaks) (h : p.identifier ∉ doc.map Prod.fst) :
    ∃ texts, appendMoments c (c.encode doc) p = texts ∧ texts.head? = some (c.encode doc) ∧
      ∃ t, texts.getLast? = some t ∧ ∃ doc', c.decode t = some doc' ∧
        ∀ id d, doc.lookup id = some d → doc'.lookup id = some d := by
  refine ⟨_, rfl, by simp [appendMoments, c.round_trip, h], c.encode (doc ++ [(p.identifier, p.toDataset)]), ?_, _,
    c.round_trip _, ?_⟩
  · simp only [appendMoments, c.round_trip, h, if_false]
    rw [List.getLast?_cons, List.getLast?_eq_getElem?, List.length_inits, Nat.add_sub_cancel,
      List.getElem?_eq_getElem (by simp), List.getElem_inits]
    simp
  · intro id d hd
    rw [List.lookup_append, hd]; rfl

/-- **C42** is violated at every append: there is a moment at which the file cannot be read at all, so that a crash
then loses every data set saved before. -/
theorem C42_crash_loses_everything_fails (c : Codec) (doc : Doc) (p : Peaks) (h : p.identifier ∉ doc.map Prod.fst) :
    ∃ t ∈ appendMoments c (c.encode doc) p, c.decode t = none := by
  refine ⟨[], ?_, c.empty⟩
  simp only [appendMoments, c.round_trip, h, if_false]
  exact List.mem_cons_of_mem _ (by simp)

deriving instance Countable for Fl
deriving instance Countable for JArr
deriving instance Countable for JCol

instance : Countable Char :=
  Function.Injective.countable (f := Char.toNat) fun _ _ h => Char.toNat_inj.1 h
instance : Countable String :=
  Function.Injective.countable (f := String.toList) fun _ _ h => String.toList_inj.1 h

/-- There are codecs: documents can be numbered, and numbers written as texts. -/
example : Nonempty Codec := by
  obtain ⟨f, hf⟩ := exists_injective_nat Doc
  classical
  refine ⟨⟨fun d => List.replicate (f d + 1) '1',
    fun t => if h : ∃ d, t = List.replicate (f d + 1) '1' then some h.choose else none, ?_, ?_⟩⟩
  · intro d
    have h : ∃ d', List.replicate (f d + 1) '1' = List.replicate (f d' + 1) '1' := ⟨d, rfl⟩
    rw [dif_pos h]
    have := congrArg List.length h.choose_spec
    simp only [List.length_replicate, Nat.add_right_cancel_iff] at this
    rw [← hf this]
  · rw [dif_neg]
    rintro ⟨d, h⟩
    simp [List.replicate_succ] at h

end Verif.Props
