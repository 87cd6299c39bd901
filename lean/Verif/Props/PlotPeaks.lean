import Verif.Spec.DrawPeaks
import Verif.Props.PeaksReject
import Verif.Props.PlotKwargs
import Verif.Props.Suite

/-!
# C108, C109, C110, C111: plots of peaks and suites
-/

namespace Verif.Props
open Verif Draw Spec Peaks

/-- The positions marked by a mask. -/
private def marked (m : Nd Bool) : List ℕ := (List.range m.data.length).filter fun i => m.data.getD i false

private theorem mem_marked (m : Nd Bool) (i : ℕ) : i ∈ marked m ↔ m.data[i]? = some true := by
  simp only [marked, List.mem_filter, List.mem_range, List.getD_eq_getElem?_getD]
  constructor
  · rintro ⟨h, h'⟩
    rw [List.getElem?_eq_getElem h] at h' ⊢
    simpa using h'
  · intro h
    exact ⟨(List.getElem?_eq_some_iff.1 h).1, by simp [h]⟩

private theorem marked_sorted (m : Nd Bool) : (marked m).Pairwise (· < ·) :=
  List.Pairwise.filter _ List.pairwise_lt_range

private theorem select_values {p : Peaks} {attr : String} {a : Nd Fl} (ha : p.raw attr = .ok a) (m : Nd Bool)
    (hl : a.data.length = m.data.length) : List.Forall₂ (Value p attr) (marked m) (a.select m) := by
  have : a.select m = (marked m).map fun i => a.data.getD i Fl.nan := select_eq .nan _ _ hl
  rw [this, List.forall₂_map_right_iff, List.forall₂_same]
  intro i hi
  have hi' := (List.getElem?_eq_some_iff.1 ((mem_marked m i).1 hi)).1
  refine ⟨a, ha, ?_⟩
  rw [List.getElem?_eq_getElem (by omega), List.getD_eq_getElem _ _ (by omega)]

private theorem select_zipWith (f : Fl → Fl → Fl) (a b : Nd Fl) (m : Nd Bool) (ha : a.data.length = m.data.length)
    (hb : b.data.length = m.data.length) : (Nd.zipWith f a b).select m =
      (marked m).map fun i => f (a.data.getD i .nan) (b.data.getD i .nan) := by
  have : (Nd.zipWith f a b).select m = (marked m).map fun i =>
      (Nd.zipWith f a b).data.getD i Fl.nan := select_eq Fl.nan (Nd.zipWith f a b) m (by simp [Nd.zipWith, ha, hb])
  rw [this]
  apply List.map_congr_left
  intro i hi
  have hi' := (List.getElem?_eq_some_iff.1 ((mem_marked _ i).1 hi)).1
  have hi3 : i < (Nd.zipWith f a b).data.length := by simp [Nd.zipWith, ha, hb]; exact hi'
  rw [List.getD_eq_getElem _ _ hi3, List.getD_eq_getElem _ _ (by omega), List.getD_eq_getElem _ _ (by omega)]
  simp [Nd.zipWith]

theorem plotOn_ok {p : Peaks} (hw : WfPeaks p) {mask : Option (Nd Bool)} (hm : MaskFits p mask) {xt yt : String}
    (hx : Has p xt) (hy : Has p yt) (o : Options) (ax : Axes) :
    ∃ ln, plotOn p xt yt o mask ax = .ok (ax ++ [ln]) ∧ Shows p (mask.getD p.valid) xt yt ln ∧
      ln.label = lineLabel p.identifier o := by
  obtain ⟨a, ha⟩ := hx
  obtain ⟨b, hb⟩ := hy
  have hs : (mask.getD p.valid).shape = p.velocity.shape ∧ (mask.getD p.valid).data.length = p.velocity.data.length := by
    cases mask with
    | none => exact ⟨hw.valid_shape, hw.valid_len⟩
    | some m => exact hm m rfl
  obtain ⟨a1, a2⟩ := raw_shape hw ha
  obtain ⟨b1, b2⟩ := raw_shape hw hb
  refine ⟨⟨a.select (mask.getD p.valid), b.select (mask.getD p.valid), lineLabel p.identifier o⟩, ?_,
    ⟨marked (mask.getD p.valid), marked_sorted _, mem_marked _,
    select_values ha _ (a2.trans hs.2.symm), select_values hb _ (b2.trans hs.2.symm)⟩, rfl⟩
  have c1 : ¬ (mask.getD p.valid).shape ≠ a.shape := by rw [not_not, hs.1, a1]
  have c2 : ¬ (mask.getD p.valid).shape ≠ b.shape := by rw [not_not, hs.1, b1]
  simp only [plotOn, ha, hb, if_neg c1, if_neg c2]

theorem raw_error {p : Peaks} {attr : String} {e : PyErr} (h : p.raw attr = .error e) : e = .attributeError := by
  unfold Peaks.raw at h
  split_ifs at h
  split at h
  · cases h
  · cases h; rfl

theorem plotOn_missing {p : Peaks} (hw : WfPeaks p) {mask : Option (Nd Bool)} (hm : MaskFits p mask) {xt yt : String}
    (h : ¬ Has p xt ∨ ¬ Has p yt) (o : Options) (ax : Axes) : plotOn p xt yt o mask ax = .error .attributeError := by
  have hs : (mask.getD p.valid).shape = p.velocity.shape := by
    cases mask with
    | none => exact hw.valid_shape
    | some m => exact (hm m rfl).1
  rcases hx : p.raw xt with e | a
  · simp [plotOn, hx, raw_error hx]
  rcases hy : p.raw yt with e | b
  · obtain ⟨a1, a2⟩ := raw_shape hw hx
    have c1 : ¬ (mask.getD p.valid).shape ≠ a.shape := by rw [not_not, hs, a1]
    simp only [plotOn, hx, hy, if_neg c1, raw_error hy]
  · rcases h with h | h
    · exact absurd ⟨a, hx⟩ h
    · exact absurd ⟨b, hy⟩ h

theorem plotMore_none (p : Peaks) (m : Option (Nd Bool)) (o : Options) : ∀ (ts : List (String × String))
    (axs : List Axes), plotMore p none m o ts axs = plotEach p o m ts axs := by
  intro ts
  induction ts with
  | nil => intro axs; simp [plotMore, plotEach]
  | cons t ts ih =>
    intro axs
    cases axs with
    | nil => simp [plotMore, plotEach]
    | cons ax axs => simp only [plotMore, plotEach, Option.any_none, Bool.false_eq_true, if_false, ih]

/-- One member on all axes: one line is added to each. -/
theorem plotMore_ok {p : Peaks} (hw : WfPeaks p) {mask : Option (Nd Bool)} (hm : MaskFits p mask) (label : Option String) :
    ∀ (ts : List (String × String)) (axs : List Axes) (o : Options), ts.length = axs.length →
      (∀ t ∈ ts, Has p t.1 ∧ Has p t.2) →
      ∃ lns : List Line, plotMore p label mask o ts axs = (List.zipWith (fun ax ln => ax ++ [ln]) axs lns, .ok ()) ∧
        List.Forall₂ (fun t ln => Shows p (mask.getD p.valid) t.1 t.2 ln) ts lns := by
  intro ts
  induction ts with
  | nil =>
    intro axs o hl _
    cases axs with
    | nil => exact ⟨[], rfl, .nil⟩
    | cons ax axs => simp at hl
  | cons t ts ih =>
    intro axs o hl hh
    cases axs with
    | nil => simp at hl
    | cons ax axs =>
      obtain ⟨hx, hy⟩ := hh t (by simp)
      obtain ⟨ln, h1, h2, -⟩ := plotOn_ok hw hm hx hy
        (if label.any fun l => (legend ax).contains l then dropLabel o else o) ax
      obtain ⟨lns, h3, h4⟩ := ih axs (if label.any fun l => (legend ax).contains l then dropLabel o else o)
        (by simpa using hl) (fun t ht => hh t (by simp [ht]))
      exact ⟨ln :: lns, by simp only [plotMore, h1, h3]; rfl, .cons h2 h4⟩

/-- **C108**.  `Peaks.plot` makes one axes object per pair of types; on each it draws one line, labelled with the
identifier unless a label is given, that shows exactly the peaks not yet rejected, or those of the given mask. -/
theorem C108_plot_shows_peaks (p : Peaks) (hw : WfPeaks p) (xtype ytype : PlotKwargs.TypeArg) (xs ys : List String)
    (ht : PlotKwargs.prepareTypes xtype ytype = .ok (xs, ys)) (hne : xs ≠ []) (o : Options) (mask : Option (Nd Bool))
    (hm : MaskFits p mask) (hh : ∀ t ∈ xs.zip ys, Has p t.1 ∧ Has p t.2) :
    ∃ axs, plotPeaks p xtype ytype o mask = .ok axs ∧
      List.Forall₂ (fun t ax => ∃ ln, ax = [ln] ∧ Shows p (mask.getD p.valid) t.1 t.2 ln ∧
        ln.label = lineLabel p.identifier o) (xs.zip ys) axs := by
  have hlen : xs.length = ys.length := by
    unfold PlotKwargs.prepareTypes at ht
    split at ht
    · cases ht
    · split at ht
      · cases ht
      · split_ifs at ht with h
        cases ht; exact not_not.1 h
  have key : ∀ (ts : List (String × String)) (l : List String), ts.length = l.length →
      (∀ t ∈ ts, Has p t.1 ∧ Has p t.2) →
      ∃ axs, plotEach p o mask ts (l.map fun _ => []) = (axs, .ok ()) ∧
        List.Forall₂ (fun t ax => ∃ ln, ax = [ln] ∧ Shows p (mask.getD p.valid) t.1 t.2 ln ∧
          ln.label = lineLabel p.identifier o) ts axs := by
    intro ts
    induction ts with
    | nil => intro l hl _; cases l with
      | nil => exact ⟨[], rfl, .nil⟩
      | cons => simp at hl
    | cons t ts ih =>
      intro l hl hh
      cases l with
      | nil => simp at hl
      | cons x l =>
        obtain ⟨hx, hy⟩ := hh t (by simp)
        obtain ⟨ln, h1, h2, h3⟩ := plotOn_ok hw hm hx hy o []
        obtain ⟨axs, h4, h5⟩ := ih l (by simpa using hl) (fun t ht => hh t (by simp [ht]))
        exact ⟨[ln] :: axs, by simp only [List.map_cons, plotEach, h1, h4]; rfl, .cons ⟨ln, rfl, h2, h3⟩ h5⟩
  obtain ⟨axs, h1, h2⟩ := key (xs.zip ys) xs (by simp [hlen]) hh
  exact ⟨axs, by simp only [plotPeaks, ht, if_neg hne, h1], h2⟩

/-- **C108** (unknown attributes).  A type that the object does not have raises `AttributeError`. -/
theorem C108_unknown_attribute (p : Peaks) (hw : WfPeaks p) (xtype ytype : PlotKwargs.TypeArg) (xs ys : List String)
    (ht : PlotKwargs.prepareTypes xtype ytype = .ok (xs, ys)) (hne : xs ≠ []) (o : Options) (mask : Option (Nd Bool))
    (hm : MaskFits p mask) (t : String × String) (hmem : t ∈ xs.zip ys) (hh : ¬ Has p t.1 ∨ ¬ Has p t.2) :
    plotPeaks p xtype ytype o mask = .error .attributeError := by
  have key : ∀ (ts : List (String × String)) (axs : List Axes), ts.length ≤ axs.length → t ∈ ts →
      (plotEach p o mask ts axs).2 = .error .attributeError := by
    intro ts
    induction ts with
    | nil => intro axs _ h; cases h
    | cons u ts ih =>
      intro axs hl hmem
      cases axs with
      | nil => simp at hl
      | cons ax axs =>
        by_cases hu : Has p u.1 ∧ Has p u.2
        · obtain ⟨ln, h1, -, -⟩ := plotOn_ok hw hm hu.1 hu.2 o ax
          rcases List.mem_cons.1 hmem with rfl | hmem
          · rcases hh with h | h
            · exact absurd hu.1 h
            · exact absurd hu.2 h
          · simp only [plotEach, h1]
            exact ih axs (by simpa using hl) hmem
        · rw [not_and_or] at hu
          simp only [plotEach, plotOn_missing hw hm hu]
  have h := key (xs.zip ys) (xs.map fun _ => []) (by simp) hmem
  simp only [plotPeaks, ht, if_neg hne]
  generalize plotEach p o mask (xs.zip ys) (xs.map fun _ => []) = r at h
  obtain ⟨r1, r2⟩ := r
  simp only at h
  subst h
  rfl

/-- **C108** (masks).  A mask with as many axes as the peaks but other numbers of entries along them raises
`IndexError`. -/
theorem C108_wrong_mask (p : Peaks) (hw : WfPeaks p) (xtype ytype : PlotKwargs.TypeArg) (xs ys : List String)
    (ht : PlotKwargs.prepareTypes xtype ytype = .ok (xs, ys)) (hne : xs ≠ []) (o : Options) (m : Nd Bool)
    (_hd : m.shape.length = p.velocity.shape.length) (hm : m.shape ≠ p.velocity.shape)
    (hh : ∀ t ∈ xs.zip ys, Has p t.1 ∧ Has p t.2) : plotPeaks p xtype ytype o (some m) = .error .indexError := by
  have hlen : xs.length = ys.length := by
    unfold PlotKwargs.prepareTypes at ht
    split at ht
    · cases ht
    · split at ht
      · cases ht
      · split_ifs at ht with h
        cases ht; exact not_not.1 h
  obtain ⟨x, xs, rfl⟩ := List.exists_cons_of_ne_nil hne
  obtain ⟨y, ys, rfl⟩ := List.exists_cons_of_length_pos (l := ys) (by rw [← hlen]; simp)
  obtain ⟨⟨a, ha⟩, -⟩ := hh (x, y) (by simp)
  have c : m.shape ≠ a.shape := by rw [(raw_shape hw ha).1]; exact hm
  have ho : plotOn p x y o (some m) [] = .error .indexError := by
    simp only [plotOn, ha, Option.getD_some, if_pos c]
  simp only [plotPeaks, ht, if_neg hne, List.zip_cons_cons, List.map_cons, plotEach, ho]

/-- **C108**.  The kinds of argument that are refused before anything is drawn: lists of different lengths with
`IndexError`, empty lists with `ValueError`, anything but a name or a list of names with `TypeError`. -/
theorem C108_refused_types (p : Peaks) (o : Options) (mask : Option (Nd Bool)) :
    (∀ xs ys : List String, xs.length ≠ ys.length → plotPeaks p (.seq xs) (.seq ys) o mask = .error .indexError) ∧
    plotPeaks p (.seq []) (.seq []) o mask = .error .valueError ∧
    (∀ ytype, plotPeaks p .other ytype o mask = .error .typeError) ∧
    (∀ xs : List String, plotPeaks p (.seq xs) .other o mask = .error .typeError) := by
  refine ⟨fun xs ys h => ?_, rfl, fun _ => rfl, fun _ => rfl⟩
  simp [plotPeaks, PlotKwargs.prepareTypes, PlotKwargs.castType, h]

/-- **C108** (the plot agrees with the attributes).  Without a mask the plotted values are what the attribute of that
name returns. -/
theorem C108_plot_is_attribute (p : Peaks) (hw : WfPeaks p) (attr : String) (vals : List Fl)
    (hg : p.get attr = .ok vals) (idx : List ℕ) (hs : idx.Pairwise (· < ·))
    (hi : ∀ i, i ∈ idx ↔ p.valid.data[i]? = some true) (shown : List Fl)
    (hv : List.Forall₂ (Value p attr) idx shown) : shown = vals := by
  have hidx : idx = marked p.valid := by
    apply List.Perm.eq_of_pairwise' hs (marked_sorted _)
    apply (List.perm_ext_iff_of_nodup (hs.imp fun h => Nat.ne_of_lt h)
      ((marked_sorted p.valid).imp fun h => Nat.ne_of_lt h)).2
    intro i
    rw [hi, mem_marked]
  have hraw : ∃ a, p.raw attr = .ok a ∧ a.select p.valid = vals := by
    have hf : p.frequency.select p.valid = (marked p.valid).map fun i => p.frequency.data.getD i Fl.nan :=
      select_eq .nan _ _ (hw.freq_len.trans hw.valid_len.symm)
    have hvv : p.velocity.select p.valid = (marked p.valid).map fun i => p.velocity.data.getD i Fl.nan :=
      select_eq .nan _ _ hw.valid_len.symm
    have lf := hw.freq_len.trans hw.valid_len.symm
    have lv := hw.valid_len.symm
    unfold Peaks.get at hg
    split_ifs at hg with h h1 h2 h3
    · split at hg
      · rename_i a ha
        cases hg
        exact ⟨a, ha, rfl⟩
      · cases hg
    · subst h1
      cases hg
      refine ⟨p.velocity.map slownessOf, by simp [Peaks.raw], ?_⟩
      have : (p.velocity.map slownessOf).select p.valid = (marked p.valid).map fun i =>
          (p.velocity.map slownessOf).data.getD i Fl.nan := 
          select_eq Fl.nan (p.velocity.map slownessOf) p.valid (by simp [Nd.map, lv])
      rw [this, hvv, List.map_map]
      apply List.map_congr_left
      intro i hi
      have hi' := (List.getElem?_eq_some_iff.1 ((mem_marked _ i).1 hi)).1
      rw [List.getD_eq_getElem _ _ (by simp [Nd.map, lv]; exact hi'), Function.comp, List.getD_eq_getElem _ _ (by omega)]
      simp [Nd.map]
    · subst h2
      cases hg
      refine ⟨Nd.zipWith wavelengthOf p.velocity p.frequency, by simp [Peaks.raw], ?_⟩
      rw [select_zipWith _ _ _ _ lv lf, hvv, hf, List.zipWith_map, List.zipWith_self]
    · subst h3
      cases hg
      refine ⟨Nd.zipWith wavenumberOf p.frequency p.velocity, by simp [Peaks.raw], ?_⟩
      rw [select_zipWith _ _ _ _ lf lv, hvv, hf, List.zipWith_map, List.zipWith_self]
  obtain ⟨a, ha, rfl⟩ := hraw
  have h2 := select_values ha p.valid ((raw_shape hw ha).2.trans hw.valid_len.symm)
  rw [hidx] at hv
  clear hg hi hidx hs
  generalize marked p.valid = l at hv h2
  generalize a.select p.valid = u at h2
  induction hv generalizing u with
  | nil => cases h2; rfl
  | cons hv _ ih =>
    cases h2 with
    | cons h2 h3 =>
      obtain ⟨a1, e1, f1⟩ := hv
      obtain ⟨a2, e2, f2⟩ := h2
      rw [e1] at e2; cases e2
      rw [f1] at f2; cases f2
      rw [ih _ h3]

example : plotPeaks exPeaks (.seq ["frequency", "wavelength"]) (.seq ["velocity", "power"]) [] none =
    .ok [[⟨[.fin 1, .fin 2, .fin 2], [.fin 100, .fin 200, .fin 300], some "a"⟩],
      [⟨[.fin 100, .fin 100, .fin 150], [.fin 5, .fin 6, .fin 7], some "a"⟩]] ∧
    plotPeaks exPeaks (.str "frequency") (.str "azimuth") [] none = .error .attributeError := by
  constructor <;> decide +kernel

example : plotPeaks exPeaks (.str "frequency") (.str "velocity") [] (some ⟨exPeaks.velocity.shape.map (· + 1), []⟩) =
    .error .indexError := by decide +kernel

end Verif.Props
