import Verif.Lemmas.Number
import Verif.Lemmas.Files
import Verif.Props.Stacking
import Verif.Props.ArrayStructure

/-!
# C26, C27, C28: arrays read from and written to files
-/

namespace Verif.Props
open Verif Arr Spec

/-- **C26** (weighted mean; partial: every additional file must have a trace for every sensor).  A sensor
of the array returned by `from_files` is the stack-weighted mean of channel `i` of all files.  What is
missing: with a coordinate mapping, or when a file lists its receivers in another order than increasing x,
the call fails although the files are compatible, see the counterexamples. -/
theorem C26_from_files_weighted_mean_partial (fs : Fs) (f0 : String) (rest : List String)
    (mapX mapY : ℚ → ℚ) (a : Arr) (h : fromFiles fs (f0 :: rest) mapX mapY = .ok a)
    (hch : ∀ f ∈ rest, ∀ ts, fs f = some ts → a.sensors.length ≤ ts.length) :
    ∃ (traces : List Trace) (readings sorted : List Sensor),
      fs f0 = some traces ∧
      List.Forall₂ (fun t s => Sensor.fromTrace t { mapX := mapX, mapY := mapY } = .ok s)
        traces readings ∧
      sorted.Perm readings ∧ sorted.Pairwise (fun s t => s.x < t.x) ∧
      a.sensors.length = sorted.length ∧
      ∀ (i : ℕ) (s s' : Sensor), sorted[i]? = some s → a.sensors[i]? = some s' →
        s'.x = s.x ∧ s'.y = s.y ∧ s'.z = s.z ∧ s'.ts.dt = s.ts.dt ∧ s'.ts.delay = s.ts.delay ∧
        ∃ more : List Sensor,
          List.Forall₂ (fun f n => ∃ ts t, fs f = some ts ∧ ts[i]? = some t ∧
            Sensor.fromTrace t {} = .ok n ∧ n.x = s.x ∧ n.y = s.y ∧ n.z = s.z) rest more ∧
          s'.ts.nstacks = ((s :: more).map fun r => r.ts.nstacks).sum ∧
          s'.ts.amp.length = s.ts.amp.length ∧
          ∀ j < s.ts.amp.length, s'.ts.amp[j]? =
            some (weightedMean ((s :: more).map fun r => ((r.ts.nstacks : ℚ), r.ts.amp)) j) := by
  obtain ⟨traces, readings, t, format, obj, h1, h2, h3, h4, h5, h6, h7⟩ := fromFiles_ok h
  obtain ⟨c1, c2, c3⟩ := init_consistent h6
  have hlen : ∀ ss', stackFiles fs format mapX mapY a.source obj.sensors rest = .ok ss' →
      ss'.length = obj.sensors.length := by
    intro ss' hs
    exact stackFiles_length hs
  have hl := hlen _ h7
  obtain ⟨e1, e2, e3⟩ := stackFiles_ok fs format mapX mapY a.source rest obj.sensors a.sensors
    (fun f hf ts hts => by rw [← hl]; exact hch f hf ts hts) h7
  refine ⟨traces, readings, obj.sensors, h1, h2, c2, c1.2.1, hl, ?_⟩
  intro i s s' hs hs'
  obtain ⟨p1, p2, p3, ns, p4, p5⟩ := e3 i s s' hs hs'
  have hspos : 0 < s.ts.nstacks := by
    have hmem : s ∈ readings := c2.mem_iff.1 (List.mem_of_getElem? hs)
    obtain ⟨tr, -, htr⟩ := forall₂_mem_right h2 hmem
    exact (Sensor.fromTrace_pos rfl htr).1
  have hnpos : ∀ n ∈ ns.map Sensor.ts, 0 < n.nstacks := by
    intro n hn
    obtain ⟨m, hm, rfl⟩ := List.mem_map.1 hn
    obtain ⟨f, -, ts, t, -, -, hft, -⟩ := forall₂_mem_right p4 hm
    exact (Sensor.fromTrace_pos rfl hft).1
  obtain ⟨q1, q2, q3, q4, -, q6⟩ :=
    C01_stack_history_is_weighted_mean s.ts s'.ts (ns.map Sensor.ts) hspos hnpos p5
  refine ⟨p1, p2, p3, q3, q4, ns, p4, ?_, q2, ?_⟩
  · rw [q1]; simp [Function.comp_def]
  · intro j hj
    rw [q6 j hj]
    simp [Function.comp_def]

/-- **C26** (different source).  Once the files before it have been read, a file whose source differs makes
`from_files` raise ValueError, whatever follows. -/
theorem C26_different_source_refused (fs : Fs) (f0 f : String) (before after : List String)
    (mapX mapY : ℚ → ℚ) (a : Arr) (traces : List Trace) (last t : Trace) (ts : List Trace)
    (format : String) (src : Source)
    (h : fromFiles fs (f0 :: before) mapX mapY = .ok a)
    (hf0 : fs f0 = some traces) (hlast : traces.getLast? = some last) (hfmt : last.format = some format)
    (hf : fs f = some (t :: ts)) (hsrc : parseSource format mapX mapY t = .ok src)
    (hne : src ≠ a.source) :
    fromFiles fs (f0 :: (before ++ f :: after)) mapX mapY = .error .valueError := by
  obtain ⟨traces', readings, t', format', obj, h1, h2, h3, h4, h5, h6, h7⟩ := fromFiles_ok h
  rw [hf0, Option.some.injEq] at h1
  subst h1
  rw [hlast, Option.some.injEq] at h3
  subst h3
  rw [hfmt, Option.some.injEq] at h4
  subst h4
  unfold fromFiles readFile
  simp only [hf0, sensorsOf_ok.2 h2, hlast, hfmt, h5, h6, stackFiles_append, h7]
  have hb : src.eq a.source = false := by
    by_contra hc
    simp only [Source.eq, Bool.not_eq_false, Bool.and_eq_true, decide_eq_true_eq] at hc
    apply hne
    obtain ⟨⟨u1, u2⟩, u3⟩ := hc
    cases src
    have : ∀ w : Source, w.x = w.x := fun _ => rfl
    rcases hw : a.source with ⟨wx, wy, wz⟩
    simp_all
  unfold stackFiles readFile
  simp [hf, hsrc, hb]

/-! ### Concrete files -/

/-- A SEG2 trace with its receiver location, source location and stack count. -/
def seg2 (x src stack : ℤ) (amp : List ℚ) : Trace :=
  { data := amp, delta := 1 / 1000, format := some "SEG2", su := none, segy := none
    seg2 := some [("RECEIVER_LOCATION", .int x), ("SOURCE_LOCATION", .int src), ("STACK", .int stack),
      ("DELAY", .int 0)] }

/-- A few files. -/
def exFs : Fs := fun n =>
  match n with
  | "a" => some [seg2 0 (-5) 1 [1, 2], seg2 2 (-5) 1 [3, 4]]
  | "b" => some [seg2 0 (-5) 3 [5, 6], seg2 2 (-5) 3 [7, 0]]
  | "other source" => some [seg2 0 (-6) 1 [5, 6], seg2 2 (-6) 1 [7, 0]]
  | "one channel" => some [seg2 0 (-5) 1 [1, 2]]
  | "three channels" => some [seg2 0 (-5) 1 [1, 2], seg2 2 (-5) 1 [3, 4], seg2 4 (-5) 1 [3, 4]]
  | "uneven stacks" => some [seg2 0 (-5) 1 [1, 2], seg2 2 (-5) 2 [3, 4]]
  | "descending" => some [seg2 2 (-5) 1 [3, 4], seg2 0 (-5) 1 [1, 2]]
  | _ => none

example : fromFiles exFs ["a", "b", "a"] id id = .ok
    ⟨[⟨⟨[17 / 5, 22 / 5], 1 / 1000, 5, 0, 1⟩, 0, 0, 0⟩, ⟨⟨[27 / 5, 8 / 5], 1 / 1000, 5, 0, 1⟩, 2, 0, 0⟩],
      ⟨-5, 0, 0⟩⟩ := by decide +kernel
example : fromFiles exFs ["a", "b", "other source", "a"] id id = .error .valueError := by decide +kernel

/-- **C26**: the full property fails, the coordinate mapping is not applied to the additional files.  The same
file given twice is refused as soon as there is a mapping, though each file alone is accepted. -/
theorem C26_mapping_counterexample :
    (∃ a, fromFiles exFs ["a"] (fun x => x + 10) id = .ok a) ∧
    fromFiles exFs ["a", "a"] (fun x => x + 10) id = .error .valueError := by
  refine ⟨⟨⟨[⟨⟨[1, 2], 1 / 1000, 1, 0, 1⟩, 10, 0, 0⟩, ⟨⟨[3, 4], 1 / 1000, 1, 0, 1⟩, 12, 0, 0⟩],
    ⟨5, 0, 0⟩⟩, ?_⟩, ?_⟩ <;> decide +kernel

/-- **C26**: the full property fails, the sensors have been sorted but the additional traces have not.  A file
which lists its receivers from far to near cannot be stacked with itself. -/
theorem C26_descending_file_counterexample :
    (∃ a, fromFiles exFs ["descending"] id id = .ok a) ∧
    fromFiles exFs ["descending", "descending"] id id = .error .valueError := by
  refine ⟨⟨⟨[⟨⟨[1, 2], 1 / 1000, 1, 0, 1⟩, 0, 0, 0⟩, ⟨⟨[3, 4], 1 / 1000, 1, 0, 1⟩, 2, 0, 0⟩],
    ⟨-5, 0, 0⟩⟩, ?_⟩, ?_⟩ <;> decide +kernel

/-! ### C28 -/

/-- **C28** (partial).  If every additional file has a trace for every sensor and the traces of each additional
file report one stack count, all sensors have the same stack count after a successful call. -/
theorem C28_same_stack_counts_partial (fs : Fs) (f0 : String) (rest : List String)
    (mapX mapY : ℚ → ℚ) (a : Arr) (h : fromFiles fs (f0 :: rest) mapX mapY = .ok a)
    (hch : ∀ f ∈ rest, ∀ ts, fs f = some ts → a.sensors.length ≤ ts.length)
    (hst : ∀ f ∈ rest, ∀ ts, fs f = some ts → ∀ t ∈ ts, ∀ u ∈ ts, ∀ s r,
      Sensor.fromTrace t {} = .ok s → Sensor.fromTrace u {} = .ok r → s.ts.nstacks = r.ts.nstacks) :
    ∀ s ∈ a.sensors, ∀ t ∈ a.sensors, s.ts.nstacks = t.ts.nstacks := by
  obtain ⟨traces, readings, sorted, h1, h2, h3, h4, h5, h6⟩ :=
    C26_from_files_weighted_mean_partial fs f0 rest mapX mapY a h hch
  obtain ⟨traces', readings', t, format, obj, g1, g2, -, -, -, g6, -⟩ := fromFiles_ok h
  have hmeta := (init_consistent g6)
  rw [h1, Option.some.injEq] at g1
  subst g1
  have hrr : readings = readings' := by
    have := (sensorsOf_ok.2 h2).symm.trans (sensorsOf_ok.2 g2)
    simpa using this
  subst hrr
  intro s hs t ht
  obtain ⟨i, hi⟩ := List.getElem?_of_mem hs
  obtain ⟨j, hj⟩ := List.getElem?_of_mem ht
  have hi' : i < sorted.length := by rw [← h5]; exact (List.getElem?_eq_some_iff.1 hi).1
  have hj' : j < sorted.length := by rw [← h5]; exact (List.getElem?_eq_some_iff.1 hj).1
  obtain ⟨-, -, -, -, -, m1, k1, k2, -, -⟩ := h6 i _ s (List.getElem?_eq_getElem hi') hi
  obtain ⟨-, -, -, -, -, m2, l1, l2, -, -⟩ := h6 j _ t (List.getElem?_eq_getElem hj') hj
  have hmem : ∀ {u : Sensor}, u ∈ sorted → u ∈ obj.sensors := by
    intro u hu
    exact hmeta.2.1.mem_iff.2 (h3.mem_iff.1 hu)
  have hfirst : sorted[i].ts.nstacks = sorted[j].ts.nstacks :=
    (hmeta.1.2.2 _ (hmem (List.getElem_mem hi')) _ (hmem (List.getElem_mem hj'))).2.1
  have hmore : m1.map (fun r => r.ts.nstacks) = m2.map fun r => r.ts.nstacks := by
    clear k2 l2 h6 h hch
    induction rest generalizing m1 m2 with
    | nil => cases k1; cases l1; rfl
    | cons f rest ih =>
      cases k1 with
      | cons k1 k2 =>
        cases l1 with
        | cons l1 l2 =>
          obtain ⟨ts, t1, a1, a2, a3, -⟩ := k1
          obtain ⟨us, t2, b1, b2, b3, -⟩ := l1
          rw [a1, Option.some.injEq] at b1
          subst b1
          simp only [List.map_cons]
          rw [ih (fun f hf => hst f (by simp [hf])) _ k2 _ l2]
          congr 1
          exact hst f (by simp) ts a1 t1 (List.mem_of_getElem? a2) t2 (List.mem_of_getElem? b2) _ _ a3 b3
  rw [k2, l2]
  simp only [List.map_cons, List.sum_cons, hfirst, hmore]

example : ∀ f ∈ ["b", "a"], ∀ ts, exFs f = some ts → 2 ≤ ts.length := by
  intro f hf ts h
  rcases List.mem_cons.1 hf with rfl | hf
  · simp [exFs] at h; subst h; simp
  · simp at hf; subst hf; simp [exFs] at h; subst h; simp

/-- **C28** (and C26 without a condition on the number of channels; partial: what should be refused is described).
Sensor `i` of the array is the stack-weighted mean of channel `i` of the first file and of those additional files which
have a channel `i`; the other files, and channels beyond the last sensor, leave no trace. -/
theorem C28_channels_partial (fs : Fs) (f0 : String) (rest : List String)
    (mapX mapY : ℚ → ℚ) (a : Arr) (h : fromFiles fs (f0 :: rest) mapX mapY = .ok a) :
    ∃ (traces : List Trace) (readings sorted : List Sensor),
      fs f0 = some traces ∧
      List.Forall₂ (fun t s => Sensor.fromTrace t { mapX := mapX, mapY := mapY } = .ok s)
        traces readings ∧
      sorted.Perm readings ∧ sorted.Pairwise (fun s t => s.x < t.x) ∧
      (∀ s ∈ sorted, ∀ t ∈ sorted, s.ts.nstacks = t.ts.nstacks) ∧
      a.sensors.length = sorted.length ∧
      ∀ (i : ℕ) (s s' : Sensor), sorted[i]? = some s → a.sensors[i]? = some s' →
        s'.x = s.x ∧ s'.y = s.y ∧ s'.z = s.z ∧ s'.ts.dt = s.ts.dt ∧ s'.ts.delay = s.ts.delay ∧
        ∃ more : List Sensor,
          List.Forall₂ (fun f n => ∃ ts t, fs f = some ts ∧ ts[i]? = some t ∧
            Sensor.fromTrace t {} = .ok n ∧ n.x = s.x ∧ n.y = s.y ∧ n.z = s.z)
            (rest.filter fun f => decide (i < ((fs f).getD []).length)) more ∧
          s'.ts.nstacks = ((s :: more).map fun r => r.ts.nstacks).sum ∧
          s'.ts.amp.length = s.ts.amp.length ∧
          ∀ j < s.ts.amp.length, s'.ts.amp[j]? =
            some (weightedMean ((s :: more).map fun r => ((r.ts.nstacks : ℚ), r.ts.amp)) j) := by
  obtain ⟨traces, readings, t, format, obj, h1, h2, h3, h4, h5, h6, h7⟩ := fromFiles_ok h
  obtain ⟨c1, c2, c3⟩ := init_consistent h6
  have hl := stackFiles_length h7
  have e3 := stackFiles_each fs format mapX mapY a.source rest obj.sensors a.sensors h7
  refine ⟨traces, readings, obj.sensors, h1, h2, c2, c1.2.1, fun s hs t ht => (c1.2.2 s hs t ht).2.1, hl, ?_⟩
  intro i s s' hs hs'
  obtain ⟨p1, p2, p3, ns, p4, p5⟩ := e3 i s s' hs hs'
  have hspos : 0 < s.ts.nstacks := by
    have hmem : s ∈ readings := c2.mem_iff.1 (List.mem_of_getElem? hs)
    obtain ⟨tr, -, htr⟩ := forall₂_mem_right h2 hmem
    exact (Sensor.fromTrace_pos rfl htr).1
  have hnpos : ∀ n ∈ ns.map Sensor.ts, 0 < n.nstacks := by
    intro n hn
    obtain ⟨m, hm, rfl⟩ := List.mem_map.1 hn
    obtain ⟨f, -, ts, t, -, -, hft, -⟩ := forall₂_mem_right p4 hm
    exact (Sensor.fromTrace_pos rfl hft).1
  obtain ⟨q1, q2, q3, q4, -, q6⟩ :=
    C01_stack_history_is_weighted_mean s.ts s'.ts (ns.map Sensor.ts) hspos hnpos p5
  refine ⟨p1, p2, p3, q3, q4, ns, p4, ?_, q2, ?_⟩
  · rw [q1]; simp [Function.comp_def]
  · intro j hj
    rw [q6 j hj]
    simp [Function.comp_def]

private theorem fewer_files {fs : Fs} {k n : ℕ} (hkn : k ≤ n) : ∀ (rest : List String) (m1 m2 : List Sensor),
    (∀ f ∈ rest, ∀ ts, fs f = some ts → ∀ t ∈ ts, ∀ u ∈ ts, ∀ s r,
      Sensor.fromTrace t {} = .ok s → Sensor.fromTrace u {} = .ok r → s.ts.nstacks = r.ts.nstacks) →
    List.Forall₂ (fun f m => ∃ ts t, fs f = some ts ∧ ts[k]? = some t ∧ Sensor.fromTrace t {} = .ok m)
      (rest.filter fun f => decide (k < ((fs f).getD []).length)) m1 →
    List.Forall₂ (fun f m => ∃ ts t, fs f = some ts ∧ ts[n]? = some t ∧ Sensor.fromTrace t {} = .ok m)
      (rest.filter fun f => decide (n < ((fs f).getD []).length)) m2 →
    (m2.map fun r => r.ts.nstacks).sum ≤ (m1.map fun r => r.ts.nstacks).sum ∧
    ((∃ f ∈ rest, k < ((fs f).getD []).length ∧ ((fs f).getD []).length ≤ n) →
      (m2.map fun r => r.ts.nstacks).sum < (m1.map fun r => r.ts.nstacks).sum)
  | [], m1, m2, _, h1, h2 => by
    cases h1; cases h2; simp
  | f :: rest, m1, m2, hst, h1, h2 => by
    have ihst : ∀ g ∈ rest, ∀ ts, fs g = some ts → ∀ t ∈ ts, ∀ u ∈ ts, ∀ s r,
      Sensor.fromTrace t {} = .ok s → Sensor.fromTrace u {} = .ok r → s.ts.nstacks = r.ts.nstacks :=
      fun g hg => hst g (List.mem_cons_of_mem _ hg)
    by_cases hk : k < ((fs f).getD []).length
    · rw [List.filter_cons_of_pos (by simpa using hk)] at h1
      cases h1 with
      | @cons _ a _ m1' ha h1' =>
        obtain ⟨ts, t, a1, a2, a3⟩ := ha
        have hpos : 0 < a.ts.nstacks := (Sensor.fromTrace_pos rfl a3).1
        by_cases hn : n < ((fs f).getD []).length
        · rw [List.filter_cons_of_pos (by simpa using hn)] at h2
          cases h2 with
          | @cons _ b _ m2' hb h2' =>
            obtain ⟨us, u, b1, b2, b3⟩ := hb
            rw [a1, Option.some.injEq] at b1
            subst b1
            have he := hst f List.mem_cons_self ts a1 t (List.mem_of_getElem? a2) u (List.mem_of_getElem? b2) _ _ a3 b3
            obtain ⟨i1, i2⟩ := fewer_files hkn rest m1' m2' ihst h1' h2'
            simp only [List.map_cons, List.sum_cons]
            refine ⟨by omega, ?_⟩
            rintro ⟨g, hg, g1, g2⟩
            rcases List.mem_cons.1 hg with rfl | hg
            · omega
            · have := i2 ⟨g, hg, g1, g2⟩
              omega
        · rw [List.filter_cons_of_neg (by simpa using hn)] at h2
          obtain ⟨i1, i2⟩ := fewer_files hkn rest m1' m2 ihst h1' h2
          simp only [List.map_cons, List.sum_cons]
          exact ⟨by omega, fun _ => by omega⟩
    · have hn : ¬ n < ((fs f).getD []).length := by omega
      rw [List.filter_cons_of_neg (by simpa using hk)] at h1
      rw [List.filter_cons_of_neg (by simpa using hn)] at h2
      obtain ⟨i1, i2⟩ := fewer_files hkn rest m1 m2 ihst h1 h2
      refine ⟨i1, ?_⟩
      rintro ⟨g, hg, g1, g2⟩
      rcases List.mem_cons.1 hg with rfl | hg
      · exact absurd g1 hk
      · exact i2 ⟨g, hg, g1, g2⟩

/-- **C28** fails for every file with fewer channels: whenever the files can be read at all (each with one stack count for
its channels) and an additional file has fewer channels than the array has sensors, the array returned has sensors of
unequal stack count, the last less than the first. -/
theorem C28_fewer_channels_fails (fs : Fs) (f0 : String) (rest : List String)
    (mapX mapY : ℚ → ℚ) (a : Arr) (h : fromFiles fs (f0 :: rest) mapX mapY = .ok a)
    (hst : ∀ f ∈ rest, ∀ ts, fs f = some ts → ∀ t ∈ ts, ∀ u ∈ ts, ∀ s r,
      Sensor.fromTrace t {} = .ok s → Sensor.fromTrace u {} = .ok r → s.ts.nstacks = r.ts.nstacks)
    (f : String) (ts : List Trace) (hf : f ∈ rest) (hts : fs f = some ts) (hfew : ts.length < a.sensors.length) :
    ∃ first last, a.sensors.head? = some first ∧ a.sensors.getLast? = some last ∧
      last.ts.nstacks < first.ts.nstacks := by
  obtain ⟨traces, readings, sorted, -, -, -, -, heq, hlen, hall⟩ := C28_channels_partial fs f0 rest mapX mapY a h
  obtain ⟨traces', readings', t', format, obj, -, -, -, -, -, -, h7⟩ := fromFiles_ok h
  have hne : 0 < ts.length := by
    have : ∀ (rest : List String) (ss ss' : List Sensor), stackFiles fs format mapX mapY a.source ss rest = .ok ss' →
        f ∈ rest → 0 < ts.length := by
      intro rest
      induction rest with
      | nil => intro ss ss' _ hf; simp at hf
      | cons g rest ih =>
        intro ss ss' h hf
        unfold stackFiles readFile at h
        rcases hg : fs g with _ | us
        · simp [hg] at h
        rcases us with _ | ⟨u, us⟩
        · simp [hg] at h
        rcases List.mem_cons.1 hf with rfl | hf
        · rw [hts, Option.some.injEq] at hg
          rw [hg]; simp
        · simp only [hg] at h
          split at h
          · cases h
          · split_ifs at h
            split at h
            · cases h
            · exact ih _ _ h hf
    exact this rest _ _ h7 hf
  set n := a.sensors.length - 1 with hn
  have hpos : 0 < a.sensors.length := by omega
  have h0 : a.sensors[0]? = some a.sensors[0] := List.getElem?_eq_getElem hpos
  have hlast : a.sensors[n]? = some (a.sensors[n]'(by omega)) := List.getElem?_eq_getElem (by omega)
  have s0 : sorted[0]? = some (sorted[0]'(by omega)) := List.getElem?_eq_getElem (by omega)
  have sn : sorted[n]? = some (sorted[n]'(by omega)) := List.getElem?_eq_getElem (by omega)
  obtain ⟨-, -, -, -, -, m1, k1, k2, -, -⟩ := hall 0 _ _ s0 h0
  obtain ⟨-, -, -, -, -, m2, l1, l2, -, -⟩ := hall n _ _ sn hlast
  refine ⟨_, _, by rw [List.head?_eq_getElem?]; exact h0, by rw [List.getLast?_eq_getElem?]; exact hlast, ?_⟩
  have hw : ∀ {s : Sensor} {i : ℕ} {l : List String} {m : List Sensor},
      List.Forall₂ (fun f n => ∃ ts t, fs f = some ts ∧ ts[i]? = some t ∧
        Sensor.fromTrace t {} = .ok n ∧ n.x = s.x ∧ n.y = s.y ∧ n.z = s.z) l m →
      List.Forall₂ (fun f m => ∃ ts t, fs f = some ts ∧ ts[i]? = some t ∧ Sensor.fromTrace t {} = .ok m) l m := by
    intro s i l m hh
    refine hh.imp ?_
    rintro f' n' ⟨us, u, e1, e2, e3, -⟩
    exact ⟨us, u, e1, e2, e3⟩
  have key := (fewer_files (Nat.zero_le n) rest m1 m2 hst (hw k1) (hw l1)).2
    ⟨f, hf, by rw [hts]; exact hne, by rw [hts]; show ts.length ≤ n; omega⟩
  have e := heq _ (List.mem_of_getElem? s0) _ (List.mem_of_getElem? sn)
  rw [k2, l2]
  simp only [List.map_cons, List.sum_cons, e]
  omega

/-- The hypotheses of `C28_fewer_channels_fails` are met by the files of the counterexample below. -/
example : (∃ a, fromFiles exFs ["a", "one channel"] id id = .ok a ∧ a.sensors.length = 2) ∧
    (∃ ts, exFs "one channel" = some ts ∧ ts.length = 1) := by
  refine ⟨⟨⟨[⟨⟨[1, 2], 1 / 1000, 2, 0, 1⟩, 0, 0, 0⟩, ⟨⟨[3, 4], 1 / 1000, 1, 0, 1⟩, 2, 0, 0⟩],
    ⟨-5, 0, 0⟩⟩, ?_, rfl⟩, ?_⟩
  · decide +kernel
  · exact ⟨_, rfl, rfl⟩

/-- **C28**: the full property fails.  A file with fewer channels is stacked onto the first sensors only, a file
with more channels is accepted and its last channels ignored, and so is a file with unequal stack counts. -/
theorem C28_channel_count_counterexample :
    (∃ a, fromFiles exFs ["a", "one channel"] id id = .ok a ∧
      a.sensors.map (fun s => s.ts.nstacks) = [2, 1]) ∧
    (∃ a, fromFiles exFs ["a", "three channels"] id id = .ok a ∧ a.sensors.length = 2) ∧
    (∃ a, fromFiles exFs ["a", "uneven stacks"] id id = .ok a ∧
      a.sensors.map (fun s => s.ts.nstacks) = [2, 3]) := by
  refine ⟨⟨⟨[⟨⟨[1, 2], 1 / 1000, 2, 0, 1⟩, 0, 0, 0⟩, ⟨⟨[3, 4], 1 / 1000, 1, 0, 1⟩, 2, 0, 0⟩],
    ⟨-5, 0, 0⟩⟩, ?_, ?_⟩, ⟨⟨[⟨⟨[1, 2], 1 / 1000, 2, 0, 1⟩, 0, 0, 0⟩, ⟨⟨[3, 4], 1 / 1000, 2, 0, 1⟩, 2, 0, 0⟩],
    ⟨-5, 0, 0⟩⟩, ?_, ?_⟩, ⟨⟨[⟨⟨[1, 2], 1 / 1000, 2, 0, 1⟩, 0, 0, 0⟩, ⟨⟨[3, 4], 1 / 1000, 3, 0, 1⟩, 2, 0, 0⟩],
    ⟨-5, 0, 0⟩⟩, ?_, ?_⟩⟩ <;> decide +kernel

/-! ### C27 -/

/-- What a sensor becomes when it is written to an SU file and read back. -/
def suReread (f32 : ℚ → ℚ) (s : Sensor) : Sensor :=
  ⟨⟨s.ts.amp.map f32, (pyRound (s.ts.dt * 1000000) : ℚ) / 1000000,
    if s.ts.nstacks - 1 = 0 then 1 else s.ts.nstacks - 1, (pyRound (s.ts.delay * 1000) : ℚ) / 1000, 1⟩,
    (pyRound (s.x * 1000) : ℚ) / 1000, (pyRound (s.y * 1000) : ℚ) / 1000, 0⟩

private theorem milli (n m : ℤ) : Sensor.scaleCoordinate (-1000) n m = (n : ℚ) / 1000 := by
  have := Sensor.scaleCoordinate_neg 3 n m
  norm_num [segyCoordinate] at this
  exact this

/-- The header written for a sensor. -/
private def hdr (src : Source) (s : Sensor) : Header := [
      ("scalar_to_be_applied_to_all_coordinates", .int (-1000)),
      ("source_coordinate_x", .int (pyRound (src.x * 1000))),
      ("source_coordinate_y", .int (pyRound (src.y * 1000))),
      ("number_of_horizontally_stacked_traces_yielding_this_trace", .int (s.ts.nstacks - 1)),
      ("delay_recording_time", .int (pyRound (s.ts.delay * 1000))),
      ("group_coordinate_x", .int (pyRound (s.x * 1000))),
      ("group_coordinate_y", .int (pyRound (s.y * 1000))),
      ("coordinate_units", .int 1)]

private theorem fromTrace_traceOf (f32 : ℚ → ℚ) (src : Source) (s : Sensor) (hn : 1 ≤ s.ts.nstacks)
    (hd : s.ts.delay ≤ 0) : Sensor.fromTrace (traceOf f32 src s) {} = .ok (suReread f32 s) := by
  have hU : "SU".toUpper = "SU" := by decide +kernel
  have hfmt : Sensor.traceFormat (traceOf f32 src s) {} = some "SU" := by
    show some ("SU".toUpper) = some "SU"
    rw [hU]
  have hsu : (traceOf f32 src s).su = some (hdr src s) := rfl
  have hnone : (traceOf f32 src s).format.isNone = false := rfl
  unfold Sensor.fromTrace
  rw [hfmt, hsu, hnone]
  simp only [show ("SU" : String) ≠ "SEG2" by decide, if_true, if_false, Bool.false_eq_true]
  unfold Sensor.fromHeaderSu
  have e1 : Sensor.safeInt (hdr src s) "number_of_horizontally_stacked_traces_yielding_this_trace" 1 =
      s.ts.nstacks - 1 := by simp [Sensor.safeInt, hdr, List.lookup, HVal.toInt]
  have e2 : Sensor.safeInt (hdr src s) "scalar_to_be_applied_to_all_coordinates" 1 = -1000 := by
    simp [Sensor.safeInt, hdr, HVal.toInt]
  have e3 : Sensor.safeInt (hdr src s) "group_coordinate_x" 0 = pyRound (s.x * 1000) := by
    simp [Sensor.safeInt, hdr, List.lookup, HVal.toInt]
  have e4 : Sensor.safeInt (hdr src s) "group_coordinate_y" 0 = pyRound (s.y * 1000) := by
    simp [Sensor.safeInt, hdr, List.lookup, HVal.toInt]
  have e5 : Sensor.safeInt (hdr src s) "delay_recording_time" 0 = pyRound (s.ts.delay * 1000) := by
    simp [Sensor.safeInt, hdr, List.lookup, HVal.toInt]
  simp only [e1, e2, e3, e4, e5]
  rw [if_neg (show ¬ ((-1000 : ℤ) = 0) by decide), milli, milli, Sensor.init_eq, if_pos]
  · rfl
  · constructor
    · split_ifs <;> omega
    · have h0 : pyRound (s.ts.delay * 1000) ≤ pyRound 0 := pyRound_mono (by linarith)
      have h1 : pyRound (0 : ℚ) = 0 := by decide +kernel
      rw [h1] at h0
      have : (pyRound (s.ts.delay * 1000) : ℚ) ≤ 0 := by exact_mod_cast h0
      linarith

private theorem parseSource_traceOf (f32 : ℚ → ℚ) (src : Source) (s : Sensor) :
    parseSource "SU" id id (traceOf f32 src s) =
      .ok ⟨(pyRound (src.x * 1000) : ℚ) / 1000, (pyRound (src.y * 1000) : ℚ) / 1000, 0⟩ := by
  have hsu : (traceOf f32 src s).su = some (hdr src s) := rfl
  unfold parseSource
  rw [if_neg (by decide), if_pos rfl, hsu]
  have e1 : checkUnits (hdr src s) = .ok () := by simp [checkUnits, hdr, List.lookup]
  have e2 : headerInt (hdr src s) "scalar_to_be_applied_to_all_coordinates" = .ok (-1000) := by
    simp [headerInt, hdr, HVal.toInt]
  have e3 : headerInt (hdr src s) "source_coordinate_x" = .ok (pyRound (src.x * 1000)) := by
    simp [headerInt, hdr, List.lookup, HVal.toInt]
  have e4 : headerInt (hdr src s) "source_coordinate_y" = .ok (pyRound (src.y * 1000)) := by
    simp [headerInt, hdr, List.lookup, HVal.toInt]
  simp [sourceFromHeader, e1, e2, e3, e4, bind, Except.bind, milli, pure, Except.pure]

/-- The positions, rounded to the millimetre, remain distinct. -/
def DistinctMillimetres (a : Arr) : Prop :=
  a.sensors.Pairwise fun s t => ∀ n : ℤ, ¬ (RoundsTo (s.x * 1000) n ∧ RoundsTo (t.x * 1000) n)

theorem distinctMillimetres_iff (a : Arr) :
    DistinctMillimetres a ↔ (a.sensors.map fun s => pyRound (s.x * 1000)).Nodup := by
  unfold DistinctMillimetres
  rw [List.Nodup, List.pairwise_map]
  simp only [roundsTo_iff]
  constructor <;> intro h <;> refine h.imp ?_
  · intro s t h e; exact h _ ⟨rfl, e.symm⟩
  · rintro s t h n ⟨rfl, e⟩; exact h e.symm

theorem suReread_array (f32 : ℚ → ℚ) (fs fs' : Fs) (name : String) (a : Arr) (hc : Consistent a)
    (hn : ∀ s ∈ a.sensors, 1 ≤ s.ts.nstacks) (hd : ∀ s ∈ a.sensors, s.ts.delay ≤ 0)
    (hmm : DistinctMillimetres a) (hw : toFile f32 a fs name "su" = (fs', .ok ())) :
    fromFiles fs' [name] id id = .ok
      ⟨a.sensors.map (suReread f32), ⟨(pyRound (a.source.x * 1000) : ℚ) / 1000,
        (pyRound (a.source.y * 1000) : ℚ) / 1000, 0⟩⟩ ∧
    ∀ n, n ≠ name → fs' n = fs n := by
  unfold toFile at hw
  rw [if_neg (by simp)] at hw
  split_ifs at hw
  swap
  · simp at hw
  simp only [Prod.mk.injEq, and_true] at hw
  subst hw
  refine ⟨?_, fun n hne => if_neg hne⟩
  unfold fromFiles readFile
  simp only [if_true]
  have hs : sensorsOf { mapX := id, mapY := id } (a.sensors.map (traceOf f32 a.source)) =
      .ok (a.sensors.map (suReread f32)) := by
    rw [sensorsOf_ok, List.forall₂_map_left_iff, List.forall₂_map_right_iff, List.forall₂_same]
    intro s hs
    exact fromTrace_traceOf f32 a.source s (hn s hs) (hd s hs)
  rw [hs]
  simp only
  obtain ⟨l, hl⟩ : ∃ l, a.sensors.getLast? = some l := by
    rcases h : a.sensors.getLast? with _ | l
    · exact absurd (List.getLast?_eq_none_iff.1 h) hc.1
    · exact ⟨l, rfl⟩
  rw [List.getLast?_map, hl]
  simp only [Option.map_some]
  have hf : (traceOf f32 a.source l).format = some "SU" := rfl
  rw [hf]
  simp only
  rw [parseSource_traceOf]
  simp only
  have hcons : Consistent ⟨a.sensors.map (suReread f32), ⟨(pyRound (a.source.x * 1000) : ℚ) / 1000,
        (pyRound (a.source.y * 1000) : ℚ) / 1000, 0⟩⟩ := by
    refine ⟨by simpa using hc.1, ?_, ?_⟩
    · simp only [List.pairwise_map]
      have h1 : a.sensors.Pairwise (fun s t => pyRound (s.x * 1000) ≠ pyRound (t.x * 1000)) := by
        simpa [List.Nodup, List.pairwise_map] using (distinctMillimetres_iff a).1 hmm
      refine (hc.2.1.and h1).imp ?_
      rintro s t ⟨h2, h3⟩
      have h4 : pyRound (s.x * 1000) ≤ pyRound (t.x * 1000) := pyRound_mono (by linarith)
      have h5 : (pyRound (s.x * 1000) : ℚ) < (pyRound (t.x * 1000) : ℚ) := by
        exact_mod_cast lt_of_le_of_ne h4 h3
      show (pyRound (s.x * 1000) : ℚ) / 1000 < (pyRound (t.x * 1000) : ℚ) / 1000
      linarith
    · intro s hs t ht
      obtain ⟨u, hu, rfl⟩ := List.mem_map.1 hs
      obtain ⟨v, hv, rfl⟩ := List.mem_map.1 ht
      obtain ⟨h1, h2, h3, h4⟩ := hc.2.2 u hu v hv
      simp [SameMeta, suReread, h1, h2, h3, h4]
  have hi := init_of_consistent hcons
  simp only at hi
  rw [hi]
  rfl

/-- Relation of a sensor read back to the one written: position to half a millimetre, delay to half a
millisecond, every sample in single precision. -/
def Close (f32 : ℚ → ℚ) (s s' : Sensor) : Prop :=
  |s'.x - s.x| ≤ 1 / 2000 ∧ |s'.y - s.y| ≤ 1 / 2000 ∧ |s'.ts.delay - s.ts.delay| ≤ 1 / 2000 ∧
  |s'.ts.dt - s.ts.dt| ≤ 1 / 2000000 ∧ s'.ts.amp = s.ts.amp.map f32

private theorem round_close (q : ℚ) : |(pyRound (q * 1000) : ℚ) / 1000 - q| ≤ 1 / 2000 := by
  have h := abs_le.1 (pyRound_abs_sub_le (q * 1000))
  rw [abs_le]
  constructor <;> linarith [h.1, h.2]

private theorem round_close' (q : ℚ) : |(pyRound (q * 1000000) : ℚ) / 1000000 - q| ≤ 1 / 2000000 := by
  have h := abs_le.1 (pyRound_abs_sub_le (q * 1000000))
  rw [abs_le]
  constructor <;> linarith [h.1, h.2]

/-- **C27** (round trip to the stated precision; partial).  Every consistent array whose constructor
conditions hold and whose positions stay apart at millimetre resolution is read back with the same number of
sensors in the same order, positions to the millimetre, delay to the millisecond and the same samples; other
files are untouched.  What is missing is the stack count, which comes back one too small unless it is one. -/
theorem C27_su_round_trip_partial (f32 : ℚ → ℚ) (fs fs' : Fs) (name : String) (a : Arr)
    (hc : Consistent a) (hn : ∀ s ∈ a.sensors, 1 ≤ s.ts.nstacks) (hd : ∀ s ∈ a.sensors, s.ts.delay ≤ 0)
    (hmm : DistinctMillimetres a) (hw : toFile f32 a fs name "su" = (fs', .ok ())) :
    ∃ b, fromFiles fs' [name] id id = .ok b ∧ List.Forall₂ (Close f32) a.sensors b.sensors ∧
      |b.source.x - a.source.x| ≤ 1 / 2000 ∧ |b.source.y - a.source.y| ≤ 1 / 2000 ∧
      List.Forall₂ (fun s s' : Sensor => s'.ts.nstacks = max 1 (s.ts.nstacks - 1)) a.sensors b.sensors ∧
      ∀ n, n ≠ name → fs' n = fs n := by
  obtain ⟨h1, h2⟩ := suReread_array f32 fs fs' name a hc hn hd hmm hw
  refine ⟨_, h1, ?_, round_close _, round_close _, ?_, h2⟩
  · rw [List.forall₂_map_right_iff, List.forall₂_same]
    intro s _
    exact ⟨round_close _, round_close _, round_close _, round_close' _, rfl⟩
  · rw [List.forall₂_map_right_iff, List.forall₂_same]
    intro s hs
    have := hn s hs
    show (if s.ts.nstacks - 1 = 0 then 1 else s.ts.nstacks - 1) = _
    split_ifs <;> omega

/-- **C27** (exact round trip; partial: unstacked, unpadded arrays on the line z = 0).  If positions are whole
millimetres, the delay whole milliseconds, the time step whole microseconds and the samples single precision
numbers, the array read back is the array written. -/
theorem C27_su_exact_round_trip_partial (f32 : ℚ → ℚ) (fs fs' : Fs) (name : String) (a : Arr)
    (hc : Consistent a) (hd : ∀ s ∈ a.sensors, s.ts.delay ≤ 0)
    (h1 : ∀ s ∈ a.sensors, s.ts.nstacks = 1 ∧ s.ts.multiple = 1 ∧ s.z = 0 ∧
      (∃ k : ℤ, s.x = k / 1000) ∧ (∃ k : ℤ, s.y = k / 1000) ∧ (∃ k : ℤ, s.ts.delay = k / 1000) ∧
      (∃ k : ℤ, s.ts.dt = k / 1000000) ∧ ∀ v ∈ s.ts.amp, f32 v = v)
    (hs : (∃ k : ℤ, a.source.x = k / 1000) ∧ (∃ k : ℤ, a.source.y = k / 1000) ∧ a.source.z = 0)
    (hw : toFile f32 a fs name "su" = (fs', .ok ())) :
    fromFiles fs' [name] id id = .ok a := by
  have r3 : ∀ {q : ℚ}, (∃ k : ℤ, q = k / 1000) → (pyRound (q * 1000) : ℚ) / 1000 = q := by
    rintro q ⟨k, rfl⟩
    rw [div_mul_cancel₀ _ (by norm_num), pyRound_intCast]
  have r6 : ∀ {q : ℚ}, (∃ k : ℤ, q = k / 1000000) → (pyRound (q * 1000000) : ℚ) / 1000000 = q := by
    rintro q ⟨k, rfl⟩
    rw [div_mul_cancel₀ _ (by norm_num), pyRound_intCast]
  have hmm : DistinctMillimetres a := by
    rw [distinctMillimetres_iff, List.Nodup, List.pairwise_map]
    refine hc.2.1.imp_of_mem ?_
    intro s t hs ht hlt heq
    have e1 := r3 (h1 s hs).2.2.2.1
    have e2 := r3 (h1 t ht).2.2.2.1
    rw [heq, e2] at e1
    exact absurd e1 (ne_of_gt hlt)
  obtain ⟨g1, -⟩ := suReread_array f32 fs fs' name a hc (fun s hs => by rw [(h1 s hs).1]) hd hmm hw
  rw [g1, r3 hs.1, r3 hs.2.1]
  have hmap : a.sensors.map (suReread f32) = a.sensors := by
    conv_rhs => rw [← List.map_id a.sensors]
    apply List.map_congr_left
    intro s hs
    obtain ⟨q1, q2, q3, q4, q5, q6, q7, q8⟩ := h1 s hs
    have hamp : s.ts.amp.map f32 = s.ts.amp := by
      conv_rhs => rw [← List.map_id s.ts.amp]
      exact List.map_congr_left fun v hv => q8 v hv
    rcases s with ⟨⟨amp, dt, n, d, m⟩, x, y, z⟩
    simp only at q1 q2 q3 q4 q5 q6 q7 hamp
    simp [suReread, q1, q2, q3, r3 q4, r3 q5, r3 q6, r6 q7, hamp]
  rw [hmap]
  have hz := hs.2.2
  rcases a with ⟨ss, ⟨x, y, z⟩⟩
  simp only at hz
  simp [hz]

/-- An array which satisfies the hypotheses. -/
def suArr : Arr := ⟨[⟨⟨[1, 2, 3], 1 / 1000, 1, -2 / 1000, 1⟩, 1 / 2, 0, 0⟩,
  ⟨⟨[4, 5, 6], 1 / 1000, 1, -2 / 1000, 1⟩, 5 / 2, 1 / 4, 0⟩], ⟨-5, 0, 0⟩⟩
example : (toFile id suArr (fun _ => none) "f.su" "su").2 = .ok () ∧
    fromFiles (toFile id suArr (fun _ => none) "f.su" "su").1 ["f.su"] id id = .ok suArr := by
  constructor <;> decide +kernel

/-- **C27**: the full property fails.  A stack count of two comes back as one, of five as four. -/
theorem C27_stack_count_counterexample :
    (let a : Arr := ⟨[⟨⟨[1], 1 / 1000, 2, 0, 1⟩, 0, 0, 0⟩], ⟨-5, 0, 0⟩⟩
     ∃ b, fromFiles (toFile id a (fun _ => none) "f" "su").1 ["f"] id id = .ok b ∧
       b.sensors.map (fun s => s.ts.nstacks) = [1]) ∧
    (let a : Arr := ⟨[⟨⟨[1], 1 / 1000, 5, 0, 1⟩, 0, 0, 0⟩], ⟨-5, 0, 0⟩⟩
     ∃ b, fromFiles (toFile id a (fun _ => none) "f" "su").1 ["f"] id id = .ok b ∧
       b.sensors.map (fun s => s.ts.nstacks) = [4]) := by
  refine ⟨⟨⟨[⟨⟨[1], 1 / 1000, 1, 0, 1⟩, 0, 0, 0⟩], ⟨-5, 0, 0⟩⟩, ?_, ?_⟩,
    ⟨⟨[⟨⟨[1], 1 / 1000, 4, 0, 1⟩, 0, 0, 0⟩], ⟨-5, 0, 0⟩⟩, ?_, ?_⟩⟩ <;> decide +kernel

/-- **C27**: the full property fails.  Two sensors within a millimetre can be written but not read back. -/
theorem C27_close_sensors_counterexample :
    let a : Arr := ⟨[⟨⟨[1], 1 / 1000, 1, 0, 1⟩, 0, 0, 0⟩, ⟨⟨[1], 1 / 1000, 1, 0, 1⟩, 4 / 10000, 0, 0⟩],
      ⟨-5, 0, 0⟩⟩
    (toFile id a (fun _ => none) "f" "su").2 = .ok () ∧
    fromFiles (toFile id a (fun _ => none) "f" "su").1 ["f"] id id = .error .valueError := by
  constructor <;> decide +kernel

end Verif.Props
