import Verif.Props.Normalize
import Verif.Props.StackTransform

/-!
# C161: a stack which is plotted while it grows
-/

namespace Verif.Props
open Verif WT

/-! ## What is meant -/

/-- A transform just made: `n` records, power `p`. -/
def fresh (n : ℕ) (p : List (List ℚ)) : Growing := ⟨n, PowerState.new (finM p)⟩

/-- A stack just made (wavefieldtransforms.py:336-357). -/
def freshStack (nvel nfrq : ℕ) : Growing := fresh 0 (List.replicate nvel (List.replicate nfrq 0))

/-- `mean` is the mean of the given powers, weighted by the numbers of records, entry by entry. -/
def MeanOf (ts : List (ℕ × List (List ℚ))) (nvel nfrq : ℕ) (mean : List (List ℚ)) : Prop :=
  mean.length = nvel ∧ (∀ row ∈ mean, row.length = nfrq) ∧ ∀ r c, r < nvel → c < nfrq →
    entry mean r c = some ((ts.map fun t => (t.1 : ℚ) * (entry t.2 r c).getD 0).sum / ((ts.map Prod.fst).sum : ℕ))

/-- What was stacked in a sequence of calls. -/
def stackedIn : List (Option (ℕ × List (List ℚ))) → List (ℕ × List (List ℚ))
  | [] => []
  | some t :: rest => t :: stackedIn rest
  | none :: rest => stackedIn rest

/-- A call before the last stack: stacking a transform just made, or (`none`) a look without normalization. -/
def callOf : Option (ℕ × List (List ℚ)) → GrowOp
  | some t => .stack (fresh t.1 t.2)
  | none => .normalize "none"

/-! ## C161 -/

/-- Two velocities and one frequency: the first transform has its peak at the first velocity and so has the mean; if the
stack is plotted after the first transform, the peak of the final stack is at the second velocity. -/
theorem C161_look_moves_peak_counterexample :
    ∃ (a b : Growing) (looked plain : Growing),
      runCalls GrowOp.run (freshStack 2 1) [.stack a, .stack b] = (plain, .ok ()) ∧
      runCalls GrowOp.run (freshStack 2 1) [.stack a, .normalize "frequency-maximum", .stack b] = (looked, .ok ()) ∧
      a.state.power = finM [[4], [1]] ∧ b.state.power = finM [[0], [2]] ∧
      (WT.normalize plain.state "none").1.power = finM [[2], [3 / 2]] ∧
      (WT.normalize looked.state "none").1.power = finM [[2], [9 / 2]] := by
  refine ⟨fresh 1 [[4], [1]], fresh 1 [[0], [2]], ⟨2, ⟨finM [[1 / 2], [9 / 8]], .perColumn [.fin 4]⟩⟩,
    fresh 2 [[2], [3 / 2]], ?_⟩
  decide +kernel

/-- The transform which is stacked may have been plotted, too: its normalized power is stacked then. -/
theorem C161_plotted_record_counterexample :
    ∃ (a : Growing) (plotted : Growing),
      runCalls GrowOp.run a [.normalize "absolute-maximum"] = (plotted, .ok ()) ∧ a.state.power = finM [[4], [1]] ∧
      ((freshStack 2 1).stack a).state.power = finM [[4], [1]] ∧
      ((freshStack 2 1).stack plotted).state.power = finM [[1], [1 / 4]] := by
  refine ⟨fresh 1 [[4], [1]], ⟨1, ⟨finM [[1], [1 / 4]], .scalar (.fin 4)⟩⟩, ?_⟩
  decide +kernel

theorem fl_stack (x y : ℚ) (n m : ℕ) (h : 0 < m) :
    Fl.div (Fl.add (Fl.mul (.fin x) (.fin n)) (Fl.mul (.fin y) (.fin m))) (.fin ((n : ℚ) + m)) =
      .fin ((x * n + y * m) / ((n : ℚ) + m)) := by
  have : ((n : ℚ) + m) ≠ 0 := by
    have : (0 : ℚ) < m := by exact_mod_cast h
    positivity
  simp [Fl.div, Fl.add, Fl.mul, this]

theorem growing_stack_fin (s : Growing) (n m : ℕ) (q p : List (List ℚ)) (hn : s.n = n) (hs : s.state.power = finM q)
    (hm : 0 < m) :
    s.stack (fresh m p) = ⟨n + m, ⟨finM (stack (⟨n, q⟩ : Stackable ℚ) ⟨m, p⟩).power, s.state.toAbs⟩⟩ := by
  unfold Growing.stack
  subst hn
  simp only [fresh, PowerState.new, hs, stack, finM, List.zipWith_map, List.map_zipWith]
  simp only [fl_stack _ _ _ _ hm]

/-- **C161** (how much a look costs).  What is stacked after a normalization counts with the maximum by which the power
was divided: for a stack of `n` records with magnitudes `x`, normalized by its largest value `M`, then one more transform
of `m` records with powers `y`, then normalized by "none", every entry is `|x n + M y m| / (n + m)`. -/
theorem C161_weighted_by_maximum_fails (n m nf : ℕ) (hm : 0 < m) (x y : List (List ℚ)) (hx : Normalizable x nf) :
    ∃ (s : Growing) (M : ℚ) (p : List (List ℚ)),
      runCalls GrowOp.run (fresh n x) [.normalize "absolute-maximum", .stack (fresh m y), .normalize "none"] = (s, .ok ()) ∧
      IsGreatest (magnitudes x) M ∧ s.state.power = finM p ∧
      ∀ r c u v, entry x r c = some u → entry y r c = some v →
        entry p r c = some (|(|u| * n + M * v * m) / (n + m)|) := by
  have hg := hx.good
  have h0 : scaleBy (PowerState.new (finM x)).toAbs (PowerState.new (finM x)).power = finM x := by
    simp [PowerState.new, scaleBy, finM, Function.comp_def, Fl.mul]
  obtain ⟨h1, -⟩ := normalize_step (PowerState.new (finM x)) x (qAbs x) nf hg "absolute-maximum" (by decide) h0 rfl
  have hfl : (qAbs x).flatten ≠ [] := by
    intro h0
    have := hg.allpos
    rw [h0] at this
    simp [maxQ] at this
  set M := maxQ (qAbs x).flatten with hM
  have hMpos : M ≠ 0 := ne_of_gt hg.allpos
  set z := (stack (⟨n, qNorm "absolute-maximum" (qAbs x)⟩ : Stackable ℚ) ⟨m, y⟩).power with hz
  have hq : qScale "absolute-maximum" (qAbs x) = .scalar (.fin M) := by simp [qScale, hM]
  have hscale : scaleBy (.scalar (.fin M)) (finM z) = finM (z.map fun row => row.map fun t => t * M) := by
    simp [scaleBy, finM, Function.comp_def, Fl.mul]
  refine ⟨⟨n + m, ⟨finM (qAbs (z.map fun row => row.map fun t => t * M)), .scalar (.fin 1)⟩⟩, M, _, ?_,
    isGreatest_all x hfl, rfl, ?_⟩
  · have e1 : GrowOp.run (fresh n x) (.normalize "absolute-maximum") =
        (⟨n, ⟨finM (qNorm "absolute-maximum" (qAbs x)), .scalar (.fin M)⟩⟩, .ok ()) := by
      simp only [GrowOp.run, fresh, h1, hq]
    simp only [runCalls, e1]
    have e2 := growing_stack_fin ⟨n, ⟨finM (qNorm "absolute-maximum" (qAbs x)), .scalar (.fin M)⟩⟩ n m
      (qNorm "absolute-maximum" (qAbs x)) y rfl rfl hm
    simp only [GrowOp.run, e2, ← hz, normalize, if_true, hscale, absPower_finM]
  · intro r c u v hu hv
    have hnorm : cell (qNorm "absolute-maximum" (qAbs x)) r c = some (|u| / M) := by
      have := entry_qAbs x r c
      rw [hu] at this
      unfold entry at this
      unfold cell
      simp only [qNorm, if_true, String.reduceEq, if_false, List.getElem?_map, ← hM]
      rcases hr : (qAbs x)[r]? with _ | row
      · rw [hr] at this; cases this
      · rw [hr] at this
        simp only [Option.bind_some, Option.map_some] at this ⊢
        rw [List.getElem?_map, this]; rfl
    have hst := stack_cell (s := (⟨n, qNorm "absolute-maximum" (qAbs x)⟩ : Stackable ℚ)) (o := ⟨m, y⟩) hnorm hv
    rw [entry_qAbs]
    have : entry (z.map fun row => row.map fun t => t * M) r c =
        some ((|u| / M * n + v * m) / (n + m) * M) := by
      unfold cell at hst
      unfold entry
      rw [← hz] at hst
      rw [List.getElem?_map]
      rcases hr : z[r]? with _ | row
      · rw [hr] at hst; cases hst
      · rw [hr] at hst
        simp only [Option.bind_some, Option.map_some] at hst ⊢
        rw [List.getElem?_map, hst]; rfl
    rw [this, Option.map_some]
    congr 2
    field_simp

/-- The hypotheses, and the values: 4 and 1, then 0 and 2 with the factor 4. -/
example : Normalizable [[4], [1]] 1 ∧
    (runCalls GrowOp.run (fresh 1 [[4], [1]]) [.normalize "absolute-maximum", .stack (fresh 1 [[0], [2]]),
      .normalize "none"]).1.state.power = finM [[(4 + 4 * 0) / 2], [(1 + 4 * 2) / 2]] := by
  refine ⟨⟨by simp, by simp, by simp, ?_⟩, by decide +kernel⟩
  intro c hc
  obtain rfl : c = 0 := by omega
  exact ⟨0, 4, rfl, by norm_num⟩

theorem nonneg_qAbs {m : List (List ℚ)} (h : ∀ row ∈ m, ∀ x ∈ row, 0 ≤ x) : qAbs m = m := by
  unfold qAbs
  conv_rhs => rw [← List.map_id m]
  refine List.map_congr_left fun row hrow => ?_
  simp only [id]
  conv_rhs => rw [← List.map_id row]
  exact List.map_congr_left fun x hx => abs_of_nonneg (h row hrow x hx)

theorem stack_nonneg {n m : ℕ} {q p : List (List ℚ)} (hq : ∀ row ∈ q, ∀ x ∈ row, 0 ≤ x)
    (hp : ∀ row ∈ p, ∀ x ∈ row, 0 ≤ x) :
    ∀ row ∈ (stack (⟨n, q⟩ : Stackable ℚ) ⟨m, p⟩).power, ∀ x ∈ row, 0 ≤ x := by
  intro row hrow x hx
  obtain ⟨i, hi⟩ := List.mem_iff_getElem?.1 hrow
  simp only [stack, List.getElem?_zipWith_eq_some] at hi
  obtain ⟨r1, r2, h1, h2, rfl⟩ := hi
  obtain ⟨j, hj⟩ := List.mem_iff_getElem?.1 hx
  rw [List.getElem?_zipWith_eq_some] at hj
  obtain ⟨a, b, h3, h4, rfl⟩ := hj
  have := hq r1 (List.mem_of_getElem? h1) a (List.mem_of_getElem? h3)
  have := hp r2 (List.mem_of_getElem? h2) b (List.mem_of_getElem? h4)
  positivity

/-- Stacking and looking without normalization, from a stack which holds `q`. -/
theorem growing_pre : ∀ (pre : List (Option (ℕ × List (List ℚ)))) (n : ℕ) (q : List (List ℚ)),
    (∀ t ∈ stackedIn pre, 0 < t.1 ∧ ∀ row ∈ t.2, ∀ x ∈ row, 0 ≤ x) → (∀ row ∈ q, ∀ x ∈ row, 0 ≤ x) →
    runCalls GrowOp.run (fresh n q) (pre.map callOf) =
      (fresh (((stackedIn pre).map fun t => (⟨t.1, t.2⟩ : Stackable ℚ)).foldl stack ⟨n, q⟩).n
        (((stackedIn pre).map fun t => (⟨t.1, t.2⟩ : Stackable ℚ)).foldl stack ⟨n, q⟩).power, .ok ()) ∧
      ∀ row ∈ (((stackedIn pre).map fun t => (⟨t.1, t.2⟩ : Stackable ℚ)).foldl stack ⟨n, q⟩).power, ∀ x ∈ row, 0 ≤ x := by
  intro pre
  induction pre with
  | nil => intro n q _ hq; exact ⟨rfl, hq⟩
  | cons o pre ih =>
    intro n q h hq
    rcases o with _ | ⟨m, p⟩
    · obtain ⟨h1, h2⟩ := ih n q h hq
      refine ⟨?_, h2⟩
      have e : GrowOp.run (fresh n q) (.normalize "none") = (fresh n q, .ok ()) := by
        have h0 : scaleBy (.scalar (.fin 1)) (finM q) = finM q := by
          simp [scaleBy, finM, Function.comp_def, Fl.mul]
        simp only [GrowOp.run, fresh, PowerState.new, normalize, if_true, h0, absPower_finM, nonneg_qAbs hq]
      simp only [List.map_cons, callOf, runCalls, e, stackedIn]
      exact h1
    · obtain ⟨hm, hp⟩ := h (m, p) (by simp [stackedIn])
      have e : GrowOp.run (fresh n q) (.stack (fresh m p)) =
          (fresh (n + m) (stack (⟨n, q⟩ : Stackable ℚ) ⟨m, p⟩).power, .ok ()) := by
        simp only [GrowOp.run]
        rw [growing_stack_fin (fresh n q) n m q p rfl rfl hm]
        rfl
      obtain ⟨h1, h2⟩ := ih (n + m) (stack (⟨n, q⟩ : Stackable ℚ) ⟨m, p⟩).power
        (fun t ht => h t (by simp only [stackedIn, List.mem_cons]; exact .inr ht)) (stack_nonneg hq hp)
      have e2 : (⟨n + m, (stack (⟨n, q⟩ : Stackable ℚ) ⟨m, p⟩).power⟩ : Stackable ℚ) = stack ⟨n, q⟩ ⟨m, p⟩ := rfl
      rw [e2] at h1 h2
      refine ⟨?_, by simpa only [stackedIn, List.map_cons, List.foldl_cons] using h2⟩
      simp only [List.map_cons, callOf, runCalls, e, stackedIn, List.foldl_cons]
      exact h1

theorem growing_normalize (n : ℕ) : ∀ (calls : List String) (s s' : PowerState),
    runCalls normalize s calls = (s', .ok ()) →
    runCalls GrowOp.run ⟨n, s⟩ (calls.map .normalize) = (⟨n, s'⟩, .ok ()) := by
  intro calls
  induction calls with
  | nil => intro s s' h; simp only [runCalls, Prod.mk.injEq, and_true] at h; rw [h]; rfl
  | cons c calls ih =>
    intro s s' h
    simp only [runCalls] at h
    rcases hc : normalize s c with ⟨s1, e | ⟨⟨⟩⟩⟩
    · rw [hc] at h; simp at h
    · rw [hc] at h
      simp only at h
      simp only [List.map_cons, runCalls, GrowOp.run, hc]
      exact ih s1 s' h

theorem runCalls_append {σ α : Type} (f : σ → α → Outcome σ) (as bs : List α) : ∀ (s s' : σ),
    runCalls f s as = (s', .ok ()) → runCalls f s (as ++ bs) = runCalls f s' bs := by
  induction as with
  | nil => intro s s' h; simp only [runCalls, Prod.mk.injEq, and_true] at h; rw [h]; rfl
  | cons a as ih =>
    intro s s' h
    simp only [runCalls] at h
    rcases ha : f s a with ⟨s1, e | ⟨⟨⟩⟩⟩
    · rw [ha] at h; simp at h
    · rw [ha] at h
      simp only at h
      simp only [List.cons_append, runCalls, ha]
      exact ih s1 s' h

theorem one_le_sum {l : List ℚ} (h : ∀ y ∈ l, 0 ≤ y) : 0 ≤ l.sum ∧ ∀ x ∈ l, x ≤ l.sum := by
  induction l with
  | nil => exact ⟨by simp, fun x hx => by cases hx⟩
  | cons a l ih =>
    obtain ⟨h0, ih⟩ := ih fun y hy => h y (List.mem_cons_of_mem _ hy)
    have ha := h a List.mem_cons_self
    rw [List.sum_cons]
    refine ⟨by linarith, fun x hx => ?_⟩
    rcases List.mem_cons.1 hx with rfl | hx
    · linarith
    · have := ih x hx
      linarith

theorem one_le_sum_nat {l : List ℕ} : ∀ x ∈ l, x ≤ l.sum := by
  induction l with
  | nil => intro x hx; cases hx
  | cons a l ih =>
    intro x hx
    rw [List.sum_cons]
    rcases List.mem_cons.1 hx with rfl | hx
    · omega
    · have := ih x hx
      omega

/-- **C161** (what does hold).  A stack may be plotted or normalized as one likes once the last transform is stacked,
and before that without normalization: the power is then the mean of everything stacked, normalized by the last method.
Missing: looks with normalization before the last transform is stacked, and transforms which were normalized before they
were stacked (refuted above). -/
theorem C161_mean_shown_partial (nvel nfrq : ℕ) (hv : 0 < nvel) (hf : 0 < nfrq) (pre : List (Option (ℕ × List (List ℚ))))
    (hpre : ∀ t ∈ stackedIn pre, 0 < t.1 ∧ t.2.length = nvel ∧ ∀ row ∈ t.2, row.length = nfrq ∧ ∀ x ∈ row, 0 ≤ x)
    (hpos : ∀ c < nfrq, ∃ t ∈ stackedIn pre, ∃ r x, entry t.2 r c = some x ∧ 0 < x)
    (calls : List String) (last : String) (hc : ∀ c ∈ calls, c ∈ normMethods) (hl : last ∈ normMethods) :
    ∃ s mean p, runCalls GrowOp.run (freshStack nvel nfrq)
        (pre.map callOf ++ calls.map GrowOp.normalize ++ [GrowOp.normalize last]) = (s, .ok ()) ∧
      s.n = ((stackedIn pre).map Prod.fst).sum ∧ MeanOf (stackedIn pre) nvel nfrq mean ∧
      s.state.power = finM p ∧ NormalizedBy last mean p := by
  set ts := (stackedIn pre).map fun t => (⟨t.1, t.2⟩ : Stackable ℚ) with hts
  obtain ⟨h1, h2⟩ := growing_pre pre 0 (List.replicate nvel (List.replicate nfrq 0))
    (fun t ht => ⟨(hpre t ht).1, fun row hrow x hx => ((hpre t ht).2.2 row hrow).2 x hx⟩)
    (by
      intro row hrow x hx
      rw [(List.mem_replicate.1 hrow).2] at hx
      rw [(List.mem_replicate.1 hx).2])
  rw [← hts] at h1 h2
  have hne : ts ≠ [] := by
    obtain ⟨t, ht, -⟩ := hpos 0 hf
    intro h0
    rw [hts, List.map_eq_nil_iff] at h0
    rw [h0] at ht
    cases ht
  obtain ⟨m1, m2, m3⟩ := C64_weighted_mean ℚ nvel nfrq ts hne (by
    intro t ht
    obtain ⟨t0, h0, rfl⟩ := List.mem_map.1 ht
    obtain ⟨a1, a2, a3⟩ := hpre t0 h0
    exact ⟨⟨a2, fun row hrow => (a3 row hrow).1⟩, a1⟩)
  have hem : (⟨0, List.replicate nvel (List.replicate nfrq 0)⟩ : Stackable ℚ) = emptyTransform ℚ nvel nfrq := rfl
  rw [hem] at h1 h2
  set out := ts.foldl stack (emptyTransform ℚ nvel nfrq) with hout
  have hsum : (ts.map Stackable.n).sum = ((stackedIn pre).map Prod.fst).sum := by
    rw [hts, List.map_map]; rfl
  have hmean : MeanOf (stackedIn pre) nvel nfrq out.power := by
    refine ⟨m2.1, m2.2, ?_⟩
    intro r c hr hc'
    have := m3 r c hr hc'
    rw [hts, List.map_map, List.map_map] at this
    exact this
  have hnorm : Normalizable out.power nfrq := by
    refine ⟨?_, hf, m2.2, ?_⟩
    · intro h0
      have := m2.1
      rw [h0] at this
      simp at this
      omega
    · intro c hcf
      obtain ⟨t, ht, r, x, hx, hx0⟩ := hpos c hcf
      obtain ⟨a1, a2, a3⟩ := hpre t ht
      have hr : r < nvel := by
        unfold entry at hx
        rcases hrr : t.2[r]? with _ | row
        · rw [hrr] at hx; cases hx
        · rw [← a2]; exact (List.getElem?_eq_some_iff.1 hrr).1
      refine ⟨r, _, hmean.2.2 r c hr hcf, ?_⟩
      have hnn : ∀ t ∈ stackedIn pre, 0 ≤ (entry t.2 r c).getD 0 := by
        intro u hu
        rcases he : entry u.2 r c with _ | y
        · simp
        · obtain ⟨-, -, b3⟩ := hpre u hu
          unfold entry at he
          rcases hrr : u.2[r]? with _ | row
          · rw [hrr] at he; cases he
          · rw [hrr] at he
            exact (b3 row (List.mem_of_getElem? hrr)).2 y (List.mem_of_getElem? he)
      have hS : 0 < ((stackedIn pre).map fun t => (t.1 : ℚ) * (entry t.2 r c).getD 0).sum := by
        have hmem : (t.1 : ℚ) * (entry t.2 r c).getD 0 ∈ (stackedIn pre).map fun t => (t.1 : ℚ) * (entry t.2 r c).getD 0 :=
          List.mem_map_of_mem (f := fun t : ℕ × List (List ℚ) => (t.1 : ℚ) * (entry t.2 r c).getD 0) ht
        have hle := (one_le_sum (l := (stackedIn pre).map fun t => (t.1 : ℚ) * (entry t.2 r c).getD 0) (by
          intro y hy
          obtain ⟨u, hu, rfl⟩ := List.mem_map.1 hy
          have := hnn u hu
          positivity)).2 _ hmem
        refine lt_of_lt_of_le ?_ hle
        rw [hx, Option.getD_some]
        have : (0 : ℚ) < t.1 := by exact_mod_cast a1
        positivity
      have hN : (0 : ℚ) < (((stackedIn pre).map Prod.fst).sum : ℕ) := by
        have : t.1 ≤ ((stackedIn pre).map Prod.fst).sum :=
          one_le_sum_nat _ (List.mem_map_of_mem ht)
        exact_mod_cast lt_of_lt_of_le a1 this
      exact ne_of_gt (div_pos hS hN)
  obtain ⟨s, p, h3, h4, h5⟩ := C63_last_method_wins out.power nfrq hnorm calls last hc hl
  refine ⟨⟨out.n, s⟩, out.power, p, ?_, by rw [← hsum]; exact m1, hmean, h4, h5⟩
  have h6 := growing_normalize out.n _ _ _ h3
  rw [List.append_assoc]
  show runCalls GrowOp.run (fresh 0 (List.replicate nvel (List.replicate nfrq 0))) _ = _
  rw [runCalls_append _ _ _ _ _ h1]
  rw [List.map_append] at h6
  exact h6

/-- Two transforms, a look without normalization between them, and two looks after them. -/
example : let pre := [some (1, [[4, 1], [1, 0]]), none, some (1, [[0, 3], [2, 0]])]
    (∀ t ∈ stackedIn pre, 0 < t.1 ∧ t.2.length = 2 ∧ ∀ row ∈ t.2, row.length = 2 ∧ ∀ x ∈ row, 0 ≤ x) ∧
    (∀ c < 2, ∃ t ∈ stackedIn pre, ∃ r x, entry t.2 r c = some x ∧ 0 < x) ∧
    (runCalls GrowOp.run (freshStack 2 2) (pre.map callOf ++ ["absolute-maximum"].map GrowOp.normalize ++
      [GrowOp.normalize "frequency-maximum"])).1.state.power = finM [[1, 1], [3 / 4, 0]] := by
  refine ⟨by decide +kernel, ?_, by decide +kernel⟩
  intro c hc
  refine ⟨_, List.mem_cons_self, 0, ?_⟩
  rcases c with _ | _ | c
  · exact ⟨4, rfl, by norm_num⟩
  · exact ⟨1, rfl, by norm_num⟩
  · omega

end Verif.Props
