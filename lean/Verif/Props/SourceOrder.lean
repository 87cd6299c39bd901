import Verif.Props.XcorrWorkflow

/-!
# C188: several source files make one source signal
-/

namespace Verif.Props
open Verif Workflow

namespace Sources

/-- Channel `ch` of the file `name` is the signal `data`, sampled every `dt` seconds. -/
def Signal (fs : Fs) (ch : ℤ) (name : String) (data : List ℚ) (dt : ℚ) : Prop :=
  ∃ ts t, Arr.readFile fs name = .ok ts ∧ ChannelIs ts ch t ∧ t.data = data ∧ t.delta = dt

theorem read_signals {fs : Fs} {ch : ℤ} {src : List String} {signals : List (List ℚ × ℚ)}
    (h : List.Forall₂ (fun name p => Signal fs ch name p.1 p.2) src signals) : readSignals fs ch src = .ok signals := by
  rw [C151_source_files]
  exact h.imp fun name p ⟨ts, t, h1, h2, h3, h4⟩ => ⟨ts, t, h1, h2, by rw [h3, h4]⟩

/-- Signals of one length are added sample by sample. -/
theorem sum_signals {n : ℕ} : ∀ (rest : List (List ℚ)) (s0 : List ℚ), s0.length = n → (∀ s ∈ rest, s.length = n) →
    rest.foldl ArrSrc.addSignal (.ok s0) =
      .ok ((List.range n).map fun i => ((s0 :: rest).map fun s => s.getD i 0).sum) := by
  intro rest
  induction rest with
  | nil =>
    intro s0 h0 _
    simp only [List.foldl_nil, List.map_cons, List.map_nil, List.sum_cons, List.sum_nil, add_zero, Except.ok.injEq]
    apply List.ext_getElem (by simp [h0])
    intro i h1 h2
    simp [List.getD_eq_getElem?_getD, h1]
  | cons s rest ih =>
    intro s0 h0 hr
    have hs := hr s List.mem_cons_self
    have hz : (List.zipWith (· + ·) s0 s).length = n := by simp [h0, hs]
    rw [List.foldl_cons]
    have hadd : ArrSrc.addSignal (.ok s0) s = .ok (List.zipWith (· + ·) s0 s) := by
      simp [ArrSrc.addSignal, h0, hs]
    rw [hadd, ih _ hz fun x hx => hr x (List.mem_cons_of_mem _ hx)]
    congr 1
    apply List.map_congr_left
    intro i hi
    have hi' := List.mem_range.1 hi
    have e1 : i < s0.length := by omega
    have e2 : i < s.length := by omega
    simp only [List.map_cons, List.sum_cons, List.getD_eq_getElem?_getD, List.getElem?_zipWith,
      List.getElem?_eq_getElem e1, List.getElem?_eq_getElem e2, Option.getD_some]
    ring

/-- The mean of signals of one length. -/
theorem mean_signals {n : ℕ} {signals : List (List ℚ)} (hne : signals ≠ []) (h : ∀ s ∈ signals, s.length = n) :
    ArrSrc.meanSignal signals =
      .ok ((List.range n).map fun i => (signals.map fun s => s.getD i 0).sum / (signals.length : ℚ)) := by
  rcases signals with _ | ⟨s0, rest⟩
  · exact absurd rfl hne
  unfold ArrSrc.meanSignal
  simp only [sum_signals rest s0 (h s0 List.mem_cons_self) fun s hs => h s (List.mem_cons_of_mem _ hs), List.map_map,
    List.length_cons, Nat.cast_add, Nat.cast_one]
  rfl

/-- What is read, from the signals. -/
theorem source_of {env : Env} {f : Fnames} {src : List String} {ch : ℤ} {s0 : List ℚ} {dt : ℚ} {rest : List (List ℚ × ℚ)}
    (h : List.Forall₂ (fun name p => Signal env.fs ch name p.1 p.2) src ((s0, dt) :: rest)) :
    fromFilesWithSource env f src ch = fromFiles env f >>= fun a =>
      lift (ArrSrc.meanSignal (s0 :: rest.map fun p => p.1)) >>= fun amp =>
        lift (Arr.init a.sensors a.source) >>= fun a => .ok (a, ⟨a.source, amp, dt⟩) := by
  unfold fromFilesWithSource
  rw [read_signals h]
  rfl

theorem xcorr_source {env : Env} {set : Settings} {f : Fnames} {src src' : List String} {ch : ℤ}
    (h : fromFilesWithSource env f src ch = fromFilesWithSource env f src' ch) :
    xcorr env set f src ch = xcorr env set f src' ch := by
  unfold xcorr
  rw [h]

end Sources

open Sources in
/-- **C188** (partial; mean).  Source files with signals of one length: the source signal is their mean, sample by sample, with
the sampling interval of the first. -/
theorem C188_mean_partial (env : Env) (f : Fnames) (ch : ℤ) (name : String) (more : List String) (data : String → List ℚ)
    (dt : String → ℚ) (n : ℕ)
    (h : ∀ x ∈ name :: more, Signal env.fs ch x (data x) (dt x) ∧ (data x).length = n)
    (a : Arr) (sig : SourceSig) (hr : fromFilesWithSource env f (name :: more) ch = .ok (a, sig)) :
    sig.dt = dt name ∧ sig.amp.length = n ∧ ∀ i < n, sig.amp[i]? =
      some (((name :: more).map fun x => (data x).getD i 0).sum / ((name :: more).length : ℚ)) := by
  have hs : List.Forall₂ (fun name p => Signal env.fs ch name p.1 p.2) (name :: more)
      ((name :: more).map fun x => (data x, dt x)) := by
    rw [List.forall₂_map_right_iff, List.forall₂_same]
    exact fun x hx => (h x hx).1
  rw [List.map_cons] at hs
  rw [source_of hs] at hr
  obtain ⟨raw, -, hr⟩ := bind_ok hr
  obtain ⟨amp, hamp, hr⟩ := bind_ok hr
  obtain ⟨b, -, hr⟩ := bind_ok hr
  cases hr
  have hm := mean_signals (n := n) (signals := (name :: more).map data) (by simp) (by
    intro s hs
    obtain ⟨x, hx, rfl⟩ := List.mem_map.1 hs
    exact (h x hx).2)
  have hamp' := lift_ok hamp
  rw [List.map_map] at hamp'
  have e : (data name :: more.map ((fun p : List ℚ × ℚ => p.1) ∘ fun x => (data x, dt x))) = (name :: more).map data := rfl
  rw [e, hm] at hamp'
  cases hamp'
  refine ⟨rfl, by simp, fun i hi => ?_⟩
  rw [List.getElem?_map, List.getElem?_range hi, Option.map_some, List.map_map, List.length_map]
  rfl

open Sources in
/-- **C188** (partial; order).  Source files with signals of one length and one sampling interval may be listed in any order,
and only the share of each counts: the same source signal is read, and the cross-correlation workflow gives the same
result, or stops for the same reason. -/
theorem C188_order_partial (env : Env) (set : Settings) (f : Fnames) (ch : ℤ) (src src' : List String)
    (hne : src ≠ []) (n : ℕ) (dt : ℚ) (h : ∀ name ∈ src, ∃ data, Signal env.fs ch name data dt ∧ data.length = n)
    (k m : ℕ) (hk : 0 < k) (hshare : ∀ name, k * src.count name = m * src'.count name) :
    fromFilesWithSource env f src ch = fromFilesWithSource env f src' ch ∧
    xcorr env set f src ch = xcorr env set f src' ch := by
  suffices hs : fromFilesWithSource env f src ch = fromFilesWithSource env f src' ch from ⟨hs, xcorr_source hs⟩
  have hm0 : 0 < m := by
    rcases Nat.eq_zero_or_pos m with rfl | hm0
    · obtain ⟨x, hx⟩ := List.exists_mem_of_ne_nil _ hne
      have := hshare x
      rw [Nat.zero_mul] at this
      have hx' := List.count_pos_iff.2 hx
      rcases Nat.mul_eq_zero.1 this with e | e <;> omega
    · exact hm0
  have hsub : ∀ x ∈ src', x ∈ src := by
    intro x hx
    rw [← List.count_pos_iff] at hx ⊢
    have h1 : 0 < m * src'.count x := Nat.mul_pos hm0 hx
    rw [← hshare x] at h1
    exact Nat.pos_of_mul_pos_left h1
  have hne' : src' ≠ [] := by
    rintro rfl
    obtain ⟨x, hx⟩ := List.exists_mem_of_ne_nil _ hne
    have := hshare x
    rw [List.count_nil, Nat.mul_zero] at this
    have hx' := List.count_pos_iff.2 hx
    rcases Nat.mul_eq_zero.1 this with e | e <;> omega
  classical
  let data : String → List ℚ := fun x => if hx : x ∈ src then (h x hx).choose else []
  have hdata : ∀ x ∈ src, Signal env.fs ch x (data x) dt ∧ (data x).length = n := by
    intro x hx
    simp only [data, dif_pos hx]
    exact (h x hx).choose_spec
  have read : ∀ l : List String, l ≠ [] → (∀ x ∈ l, x ∈ src) → fromFilesWithSource env f l ch =
      fromFiles env f >>= fun a => lift (.ok ((List.range n).map fun i =>
        (l.map fun x => (data x).getD i 0).sum / (l.length : ℚ)) : Except PyErr (List ℚ)) >>= fun amp =>
          lift (Arr.init a.sensors a.source) >>= fun a => .ok (a, ⟨a.source, amp, dt⟩) := by
    intro l hl hsub
    obtain ⟨x, l, rfl⟩ := List.exists_cons_of_ne_nil hl
    have hs : List.Forall₂ (fun name p => Signal env.fs ch name p.1 p.2) (x :: l)
        ((x :: l).map fun y => (data y, dt)) := by
      rw [List.forall₂_map_right_iff, List.forall₂_same]
      exact fun y hy => (hdata y (hsub y hy)).1
    rw [List.map_cons] at hs
    rw [source_of hs]
    have hm := mean_signals (n := n) (signals := (x :: l).map data) (by simp) (by
      intro s hs
      obtain ⟨y, hy, rfl⟩ := List.mem_map.1 hs
      exact (hdata y (hsub y hy)).2)
    rw [List.map_map, show (data x :: l.map ((fun p : List ℚ × ℚ => p.1) ∘ fun y => (data y, dt))) = (x :: l).map data from rfl,
      hm]
    simp only [List.length_map, List.map_map, Function.comp_def]
  rw [read src hne fun x hx => hx, read src' hne' hsub]
  have hp : ((List.replicate k src).flatten).Perm (List.replicate m src').flatten := by
    rw [List.perm_iff_count]
    have hc : ∀ (x : List String) (j : ℕ) a, ((List.replicate j x).flatten).count a = j * x.count a := by
      intro x j a
      induction j with
      | zero => simp
      | succ j ih => rw [List.replicate_succ, List.flatten_cons, List.count_append, ih]; ring
    intro a
    rw [hc, hc, hshare a]
  have hsum : ∀ (x : List String) (j : ℕ) (g : String → ℚ),
      (((List.replicate j x).flatten).map g).sum = (j : ℚ) * (x.map g).sum := by
    intro x j g
    induction j with
    | zero => simp
    | succ j ih =>
      rw [List.replicate_succ, List.flatten_cons, List.map_append, List.sum_append, ih]
      push_cast
      ring
  have sums : ∀ g : String → ℚ, (k : ℚ) * (src.map g).sum = m * (src'.map g).sum := by
    intro g
    rw [← hsum, ← hsum]
    exact (hp.map g).sum_eq
  have hlen : (k : ℚ) * src.length = m * src'.length := by simpa using sums fun _ => 1
  have hmean : ∀ i, (src.map fun x => (data x).getD i 0).sum / (src.length : ℚ) =
      (src'.map fun x => (data x).getD i 0).sum / (src'.length : ℚ) := by
    intro i
    have e := sums fun x => (data x).getD i 0
    have l0 : (src.length : ℚ) ≠ 0 := by exact_mod_cast (List.length_pos_iff.2 hne).ne'
    have l0' : (src'.length : ℚ) ≠ 0 := by exact_mod_cast (List.length_pos_iff.2 hne').ne'
    have k0 : (k : ℚ) ≠ 0 := by exact_mod_cast hk.ne'
    rw [div_eq_div_iff l0 l0']
    apply mul_left_cancel₀ k0
    have hm' : (m : ℚ) ≠ 0 := by exact_mod_cast hm0.ne'
    apply mul_left_cancel₀ hm'
    linear_combination (m : ℚ) * src'.length * e - (m : ℚ) * ((src'.map fun x => (data x).getD i 0).sum) * hlen
  simp only [hmean]

open Sources in
/-- **C188** fails for signals with other sampling intervals: they are averaged sample by sample all the same, and the result
has the sampling interval of whichever is listed first. -/
theorem C188_sampling_fails (env : Env) (f : Fnames) (ch : ℤ) (x y : String) (u v : List ℚ) (dt dt' : ℚ)
    (hx : Signal env.fs ch x u dt) (hy : Signal env.fs ch y v dt') (hl : u.length = v.length) (hdt : dt ≠ dt')
    (a : Arr) (hf : fromFiles env f = .ok a) (b : Arr) (hb : Arr.init a.sensors a.source = .ok b) :
    ∃ sig sig', fromFilesWithSource env f [x, y] ch = .ok (b, sig) ∧ fromFilesWithSource env f [y, x] ch = .ok (b, sig') ∧
      sig.amp = sig'.amp ∧ sig.dt ≠ sig'.dt := by
  have h1 := source_of (f := f) (src := [x, y]) (rest := [(v, dt')]) (.cons hx (.cons hy .nil))
  have h2 := source_of (f := f) (src := [y, x]) (rest := [(u, dt)]) (.cons hy (.cons hx .nil))
  have m1 : ArrSrc.meanSignal [u, v] = .ok ((List.zipWith (· + ·) u v).map (· / 2)) := by
    simp [ArrSrc.meanSignal, ArrSrc.addSignal, hl, one_add_one_eq_two]
  have m2 : ArrSrc.meanSignal [v, u] = .ok ((List.zipWith (· + ·) v u).map (· / 2)) := by
    simp [ArrSrc.meanSignal, ArrSrc.addSignal, hl, one_add_one_eq_two]
  rw [hf] at h1 h2
  simp only [List.map_cons, List.map_nil, m1, m2, lift, bind, Except.bind, hb] at h1 h2
  refine ⟨_, _, h1, h2, ?_, hdt⟩
  rw [List.zipWith_comm_of_comm add_comm]

open Sources in
/-- **C188** fails for a signal of one sample: listed after a longer one, its sample is added to every sample of the other;
listed before it, the two are refused. -/
theorem C188_one_sample_fails (env : Env) (f : Fnames) (ch : ℤ) (x y : String) (u : List ℚ) (c dt dt' : ℚ)
    (hx : Signal env.fs ch x u dt) (hy : Signal env.fs ch y [c] dt') (hl : 2 ≤ u.length)
    (a : Arr) (hf : fromFiles env f = .ok a) (b : Arr) (hb : Arr.init a.sensors a.source = .ok b) :
    (∃ sig, fromFilesWithSource env f [x, y] ch = .ok (b, sig) ∧ sig.amp = u.map fun s => (s + c) / 2) ∧
    fromFilesWithSource env f [y, x] ch = .error (.raised .valueError) := by
  have h1 := source_of (f := f) (src := [x, y]) (rest := [([c], dt')]) (.cons hx (.cons hy .nil))
  have h2 := source_of (f := f) (src := [y, x]) (rest := [(u, dt)]) (.cons hy (.cons hx .nil))
  have n1 : ¬ 1 = u.length := by omega
  have n2 : ¬ u.length = 1 := by omega
  have m1 : ArrSrc.meanSignal [u, [c]] = .ok (u.map fun s => (s + c) / 2) := by
    simp [ArrSrc.meanSignal, ArrSrc.addSignal, n1, one_add_one_eq_two, Function.comp_def]
  have m2 : ArrSrc.meanSignal [[c], u] = .error .valueError := by
    simp [ArrSrc.meanSignal, ArrSrc.addSignal, n2]
  rw [hf] at h1 h2
  simp only [List.map_cons, List.map_nil, m1, m2, lift, bind, Except.bind, hb] at h1 h2
  exact ⟨⟨_, h1, rfl⟩, h2⟩

open Sources in
/-- **C188** (partial; refusal).  Two source files whose signals have different lengths, the second having more than one
sample, are refused, whatever the records are. -/
theorem C188_other_length_refused_partial (env : Env) (set : Settings) (f : Fnames) (ch : ℤ) (x y : String) (u v : List ℚ)
    (dt dt' : ℚ) (more : List String) (hx : Signal env.fs ch x u dt) (hy : Signal env.fs ch y v dt')
    (hmore : ∀ z ∈ more, ∃ w d, Signal env.fs ch z w d) (hl : v.length ≠ u.length) (h1 : v.length ≠ 1) (r : Result) :
    xcorr env set f (x :: y :: more) ch ≠ .ok r := by
  intro h
  unfold xcorr at h
  obtain ⟨⟨raw, sig⟩, hr, -⟩ := bind_ok h
  obtain ⟨ws, hws⟩ : ∃ ws : List (List ℚ × ℚ), List.Forall₂ (fun name p => Signal env.fs ch name p.1 p.2) more ws := by
    clear h hr
    induction more with
    | nil => exact ⟨[], .nil⟩
    | cons z more ih =>
      obtain ⟨w, d, hw⟩ := hmore z List.mem_cons_self
      obtain ⟨ws, hws⟩ := ih fun z hz => hmore z (List.mem_cons_of_mem _ hz)
      exact ⟨(w, d) :: ws, .cons hw hws⟩
  rw [source_of (f := f) (src := x :: y :: more) (rest := (v, dt') :: ws) (.cons hx (.cons hy hws))] at hr
  obtain ⟨a, -, hr⟩ := bind_ok hr
  obtain ⟨amp, hamp, -⟩ := bind_ok hr
  have hm := lift_ok hamp
  have stuck : ∀ l : List (List ℚ), l.foldl ArrSrc.addSignal (.error .valueError) = .error .valueError := by
    intro l
    induction l with
    | nil => rfl
    | cons s l ih => rw [List.foldl_cons]; exact ih
  have ha : ArrSrc.addSignal (.ok u) v = .error .valueError := by simp [ArrSrc.addSignal, hl, h1]
  simp only [List.map_cons, ArrSrc.meanSignal, List.foldl_cons, ha, stuck] at hm
  cases hm

/-! ## Files -/

/-- Two source files of one length and sampling, one sampled twice as fast, and one of one sample. -/
noncomputable def sourcesEnv : Env :=
  { sweepEnv with fs := fun n => if n = "p" then some [seg2 0 0 1 [1, 3]] else if n = "q" then some [seg2 0 0 1 [5, 0]]
      else if n = "fast" then some [{ seg2 0 0 1 [2, 2] with delta := 1 / 2000 }] else sweepEnv.fs n }

theorem sources_p : Sources.Signal sourcesEnv.fs 0 "p" [1, 3] (1 / 1000) := ⟨_, _, rfl, .inl ⟨0, rfl, rfl⟩, rfl, rfl⟩
theorem sources_q : Sources.Signal sourcesEnv.fs 0 "q" [5, 0] (1 / 1000) := ⟨_, _, rfl, .inl ⟨0, rfl, rfl⟩, rfl, rfl⟩
theorem sources_fast : Sources.Signal sourcesEnv.fs 0 "fast" [2, 2] (1 / 2000) :=
  ⟨_, _, rfl, .inl ⟨0, rfl, rfl⟩, rfl, rfl⟩
theorem sources_s : Sources.Signal sourcesEnv.fs 0 "s" [1] (1 / 1000) := ⟨_, _, rfl, .inl ⟨0, rfl, rfl⟩, rfl, rfl⟩

theorem sources_record : fromFiles sourcesEnv (.one "a") = .ok pulseArr := by decide +kernel
theorem sources_sorted : Arr.init pulseArr.sensors pulseArr.source = .ok pulseArr := by decide +kernel

/-- The hypotheses of the theorems are met: the two signals in either order, or `p` twice and `q` twice, have the same mean;
with the one sampled faster the sampling interval is that of the first; the single sample is added or refused. -/
example : (∀ set, xcorr sourcesEnv set (.one "a") ["p", "q"] 0 = xcorr sourcesEnv set (.one "a") ["q", "p", "p", "q"] 0) ∧
    fromFilesWithSource sourcesEnv (.one "a") ["p", "q"] 0 = .ok (pulseArr, ⟨⟨0, 0, 0⟩, [3, 3 / 2], 1 / 1000⟩) ∧
    (∃ sig sig', fromFilesWithSource sourcesEnv (.one "a") ["p", "fast"] 0 = .ok (pulseArr, sig) ∧
      fromFilesWithSource sourcesEnv (.one "a") ["fast", "p"] 0 = .ok (pulseArr, sig') ∧ sig.amp = sig'.amp ∧ sig.dt ≠ sig'.dt) ∧
    fromFilesWithSource sourcesEnv (.one "a") ["s", "p"] 0 = .error (.raised .valueError) ∧
    (∀ set r, xcorr sourcesEnv set (.one "a") ["s", "p", "q"] 0 ≠ .ok r) := by
  refine ⟨fun set => ?_, by decide +kernel,
    C188_sampling_fails _ _ _ _ _ _ _ _ _ sources_p sources_fast rfl (by norm_num) _ sources_record _ sources_sorted,
    (C188_one_sample_fails _ _ _ _ _ _ _ _ _ sources_p sources_s (by decide) _ sources_record _ sources_sorted).2,
    fun set r => C188_other_length_refused_partial _ set _ _ "s" "p" _ _ _ _ ["q"] sources_s sources_p
      (fun z hz => by rw [List.mem_singleton.1 hz]; exact ⟨_, _, sources_q⟩) (by decide) (by decide) r⟩
  refine (C188_order_partial _ set _ _ ["p", "q"] ["q", "p", "p", "q"] (by simp) 2 (1 / 1000) ?_ 2 1 (by decide) ?_).2
  · intro name hname
    simp only [List.mem_cons, List.not_mem_nil, or_false] at hname
    rcases hname with rfl | rfl
    · exact ⟨_, sources_p, rfl⟩
    · exact ⟨_, sources_q, rfl⟩
  · intro name
    simp only [List.count_cons, List.count_nil]
    split_ifs <;> rfl

end Verif.Props
