import Verif.Props.PeaksReject

/-!
# C37, C38, C43: one peak per frequency, and equality
-/

namespace Verif.Props
open Verif Peaks Spec

private theorem lt_of_not_lt_of_lt {m v w : Fl} (hv : v ≠ .nan) (hm : m ≠ .nan) (h1 : m.lt v = false)
    (h2 : m.lt w = true) : v.lt w = true := by
  cases m <;> cases v <;> cases w <;> simp_all [Fl.lt]
  exact lt_of_le_of_lt h1 h2

/-- `IsStrongest` with the comparison of the model. -/
private def StrongestLt (col : List (Fl × Bool)) (r : ℕ) : Prop :=
  ∃ v, col[r]? = some (v, true) ∧
    ∀ (r' : ℕ) (v' : Fl), col[r']? = some (v', true) → v.lt v' = false ∧ (r' < r → v'.lt v = true)

private theorem strongestLt_iff (col : List (Fl × Bool)) (r : ℕ) : StrongestLt col r ↔ IsStrongest col r := by
  unfold StrongestLt IsStrongest
  simp only [lt_iff_below, lt_false_iff]

private theorem bestLoop_spec (col : List (Fl × Bool)) (hfin : ∀ v, (v, true) ∈ col → ∃ q, v = .fin q) (r0 b : ℕ)
    (m : Fl) (hm : m ≠ .nan) :
    (bestLoop col r0 (b, m) = (b, m) ∧ ∀ v, (v, true) ∈ col → m.lt v = false) ∨
    ∃ r v, bestLoop col r0 (b, m) = (r0 + r, v) ∧ col[r]? = some (v, true) ∧ m.lt v = true ∧ StrongestLt col r := by
  induction col generalizing r0 b m with
  | nil => left; simp [bestLoop]
  | cons x col ih =>
    obtain ⟨v, valid⟩ := x
    have hfin' : ∀ v, (v, true) ∈ col → ∃ q, v = .fin q := fun v hv => hfin v (List.mem_cons_of_mem _ hv)
    cases valid with
    | false =>
      rcases ih hfin' (r0 + 1) b m hm with ⟨h1, h2⟩ | ⟨r, w, h1, h2, h3, u, h4, h5⟩
      · left
        refine ⟨by simpa [bestLoop] using h1, ?_⟩
        intro w hw
        exact h2 w (by simpa using hw)
      · right
        refine ⟨r + 1, w, ?_, by simpa using h2, h3, u, by simpa using h4, ?_⟩
        · simp only [bestLoop, Bool.not_false, if_true, h1]
          simp; omega
        · intro r' v' hr'
          cases r' with
          | zero => simp at hr'
          | succ r' =>
            have := h5 r' v' (by simpa using hr')
            exact ⟨this.1, fun h => this.2 (by omega)⟩
    | true =>
      obtain ⟨q, hq⟩ := hfin v (by simp)
      have hvn : v ≠ .nan := by rw [hq]; simp
      by_cases hlt : m.lt v = true
      · have hstep : bestLoop ((v, true) :: col) r0 (b, m) = bestLoop col (r0 + 1) (r0, v) := by
          simp [bestLoop, hlt]
        rw [hstep]
        right
        rcases ih hfin' (r0 + 1) r0 v hvn with ⟨h1, h2⟩ | ⟨r, w, h1, h2, h3, u, h4, h5⟩
        · refine ⟨0, v, by simpa using h1, by simp, hlt, v, by simp, ?_⟩
          intro r' v' hr'
          cases r' with
          | zero =>
            simp only [List.getElem?_cons_zero, Option.some.injEq, Prod.mk.injEq, and_true] at hr'
            subst hr'
            exact ⟨Fl.lt_irrefl _, by simp⟩
          | succ r' =>
            exact ⟨h2 v' (List.mem_of_getElem? (by simpa using hr')), by simp⟩
        · have huw : u = w := by
            rw [h2] at h4; simpa using h4.symm
          subst huw
          refine ⟨r + 1, u, by rw [h1]; simp; omega, by simpa using h2, Fl.lt_trans hlt h3, u, by simpa using h4, ?_⟩
          intro r' v' hr'
          cases r' with
          | zero =>
            simp only [List.getElem?_cons_zero, Option.some.injEq, Prod.mk.injEq, and_true] at hr'
            subst hr'
            exact ⟨Fl.lt_asymm h3, fun _ => h3⟩
          | succ r' =>
            have := h5 r' v' (by simpa using hr')
            exact ⟨this.1, fun h => this.2 (by omega)⟩
      · have hlt' : m.lt v = false := by simpa using hlt
        have hstep : bestLoop ((v, true) :: col) r0 (b, m) = bestLoop col (r0 + 1) (b, m) := by
          simp [bestLoop, hlt']
        rw [hstep]
        rcases ih hfin' (r0 + 1) b m hm with ⟨h1, h2⟩ | ⟨r, w, h1, h2, h3, u, h4, h5⟩
        · left
          refine ⟨h1, ?_⟩
          intro w hw
          rcases List.mem_cons.1 hw with h | h
          · simp only [Prod.mk.injEq, and_true] at h
            subst h; exact hlt'
          · exact h2 w h
        · right
          have huw : u = w := by
            rw [h2] at h4; simpa using h4.symm
          subst huw
          refine ⟨r + 1, u, by rw [h1]; simp; omega, by simpa using h2, h3, u, by simpa using h4, ?_⟩
          intro r' v' hr'
          cases r' with
          | zero =>
            simp only [List.getElem?_cons_zero, Option.some.injEq, Prod.mk.injEq, and_true] at hr'
            subst hr'
            have := lt_of_not_lt_of_lt hvn hm hlt' h3
            exact ⟨Fl.lt_asymm this, fun _ => this⟩
          | succ r' =>
            have := h5 r' v' (by simpa using hr')
            exact ⟨this.1, fun h => this.2 (by omega)⟩

private theorem bestRow_spec (col : List (Fl × Bool)) (hfin : ∀ v, (v, true) ∈ col → ∃ q, v = .fin q) :
    (bestRow col = none ∧ ∀ v, (v, true) ∉ col) ∨ ∃ r, bestRow col = some r ∧ IsStrongest col r := by
  unfold bestRow
  rcases bestLoop_spec col hfin 0 0 .ninf (by simp) with ⟨h1, h2⟩ | ⟨r, v, h1, h2, h3, h4⟩
  · left
    rw [h1]
    refine ⟨by simp, fun v hv => ?_⟩
    obtain ⟨q, rfl⟩ := hfin v hv
    have := h2 _ hv
    simp [Fl.lt] at this
  · right
    refine ⟨r, ?_, (strongestLt_iff col r).1 h4⟩
    rw [h1]
    have : v ≠ .ninf := by rintro rfl; rw [Fl.lt_irrefl] at h3; simp at h3
    simp [this]

/-- The largest of the valid values, and the first of these; values which are not numbers do not count. -/
private def StrongestKnown (col : List (Fl × Bool)) (r : ℕ) : Prop :=
  ∃ v, col[r]? = some (v, true) ∧ ∀ (r' : ℕ) (v' : Fl), col[r']? = some (v', true) →
    v.lt v' = false ∧ (r' < r → v' ≠ .nan → v'.lt v = true)

private theorem bestLoop_any (col : List (Fl × Bool)) (r0 b : ℕ)
    (m : Fl) (hm : m ≠ .nan) :
    (bestLoop col r0 (b, m) = (b, m) ∧ ∀ v, (v, true) ∈ col → m.lt v = false) ∨
    ∃ r v, bestLoop col r0 (b, m) = (r0 + r, v) ∧ col[r]? = some (v, true) ∧ m.lt v = true ∧ StrongestKnown col r := by
  induction col generalizing r0 b m with
  | nil => left; simp [bestLoop]
  | cons x col ih =>
    obtain ⟨v, valid⟩ := x
    cases valid with
    | false =>
      rcases ih (r0 + 1) b m hm with ⟨h1, h2⟩ | ⟨r, w, h1, h2, h3, u, h4, h5⟩
      · left
        refine ⟨by simpa [bestLoop] using h1, ?_⟩
        intro w hw
        exact h2 w (by simpa using hw)
      · right
        refine ⟨r + 1, w, ?_, by simpa using h2, h3, u, by simpa using h4, ?_⟩
        · simp only [bestLoop, Bool.not_false, if_true, h1]
          simp; omega
        · intro r' v' hr'
          cases r' with
          | zero => simp at hr'
          | succ r' =>
            have := h5 r' v' (by simpa using hr')
            exact ⟨this.1, fun h hn => this.2 (by omega) hn⟩
    | true =>
      by_cases hlt : m.lt v = true
      · have hvn : v ≠ .nan := by rintro rfl; cases m <;> simp [Fl.lt] at hlt
        have hstep : bestLoop ((v, true) :: col) r0 (b, m) = bestLoop col (r0 + 1) (r0, v) := by
          simp [bestLoop, hlt]
        rw [hstep]
        right
        rcases ih (r0 + 1) r0 v hvn with ⟨h1, h2⟩ | ⟨r, w, h1, h2, h3, u, h4, h5⟩
        · refine ⟨0, v, by simpa using h1, by simp, hlt, v, by simp, ?_⟩
          intro r' v' hr'
          cases r' with
          | zero =>
            simp only [List.getElem?_cons_zero, Option.some.injEq, Prod.mk.injEq, and_true] at hr'
            subst hr'
            exact ⟨Fl.lt_irrefl _, by simp⟩
          | succ r' =>
            exact ⟨h2 v' (List.mem_of_getElem? (by simpa using hr')), by simp⟩
        · have huw : u = w := by
            rw [h2] at h4; simpa using h4.symm
          subst huw
          refine ⟨r + 1, u, by rw [h1]; simp; omega, by simpa using h2, Fl.lt_trans hlt h3, u, by simpa using h4, ?_⟩
          intro r' v' hr'
          cases r' with
          | zero =>
            simp only [List.getElem?_cons_zero, Option.some.injEq, Prod.mk.injEq, and_true] at hr'
            subst hr'
            exact ⟨Fl.lt_asymm h3, fun _ _ => h3⟩
          | succ r' =>
            have := h5 r' v' (by simpa using hr')
            exact ⟨this.1, fun h hn => this.2 (by omega) hn⟩
      · have hlt' : m.lt v = false := by simpa using hlt
        have hstep : bestLoop ((v, true) :: col) r0 (b, m) = bestLoop col (r0 + 1) (b, m) := by
          simp [bestLoop, hlt']
        rw [hstep]
        rcases ih (r0 + 1) b m hm with ⟨h1, h2⟩ | ⟨r, w, h1, h2, h3, u, h4, h5⟩
        · left
          refine ⟨h1, ?_⟩
          intro w hw
          rcases List.mem_cons.1 hw with h | h
          · simp only [Prod.mk.injEq, and_true] at h
            subst h; exact hlt'
          · exact h2 w h
        · right
          have huw : u = w := by
            rw [h2] at h4; simpa using h4.symm
          subst huw
          refine ⟨r + 1, u, by rw [h1]; simp; omega, by simpa using h2, h3, u, by simpa using h4, ?_⟩
          intro r' v' hr'
          cases r' with
          | zero =>
            simp only [List.getElem?_cons_zero, Option.some.injEq, Prod.mk.injEq, and_true] at hr'
            subst hr'
            by_cases hvn : v = .nan
            · subst hvn
              exact ⟨by cases u <;> rfl, fun _ h => absurd rfl h⟩
            · have := lt_of_not_lt_of_lt hvn hm hlt' h3
              exact ⟨Fl.lt_asymm this, fun _ _ => this⟩
          | succ r' =>
            have := h5 r' v' (by simpa using hr')
            exact ⟨this.1, fun h hn => this.2 (by omega) hn⟩

private theorem ninf_lt {v : Fl} : Fl.ninf.lt v = true ↔ v ≠ .nan ∧ v ≠ .ninf := by
  cases v <;> simp [Fl.lt]

private theorem bestRow_any (col : List (Fl × Bool)) :
    (bestRow col = none ∧ ∀ v, (v, true) ∈ col → v = .nan ∨ v = .ninf) ∨
    ∃ r v, bestRow col = some r ∧ col[r]? = some (v, true) ∧ v ≠ .nan ∧ v ≠ .ninf ∧ StrongestKnown col r := by
  unfold bestRow
  rcases bestLoop_any col 0 0 .ninf (by simp) with ⟨h1, h2⟩ | ⟨r, v, h1, h2, h3, h4⟩
  · left
    rw [h1]
    refine ⟨by simp, fun v hv => ?_⟩
    by_contra hcon
    push Not at hcon
    have := h2 _ hv
    rw [ninf_lt.2 hcon] at this
    cases this
  · right
    obtain ⟨n1, n2⟩ := ninf_lt.1 h3
    refine ⟨r, v, ?_, h2, n1, n2, h4⟩
    rw [h1]
    simp [n2]

private theorem column_getElem? {α : Type} (d : α) (nr nc : ℕ) (data : List α) (c r : ℕ) :
    (column d nr nc data c)[r]? = if r < nr then some (data.getD (r * nc + c) d) else none := by
  unfold column
  rw [List.getElem?_map]
  split_ifs with h
  · rw [List.getElem?_range h]; rfl
  · rw [List.getElem?_eq_none (by simpa using h)]; rfl

private theorem zip_col_some {nr nc c r : ℕ} {dec : List Fl} {val : List Bool} {v : Fl} :
    ((column .nan nr nc dec c).zip (column false nr nc val c))[r]? = some (v, true) ↔
      r < nr ∧ dec.getD (r * nc + c) .nan = v ∧ val[r * nc + c]? = some true := by
  rw [List.getElem?_zip_eq_some, column_getElem?, column_getElem?]
  by_cases h : r < nr
  · simp only [h, if_true, Option.some.injEq, true_and]
    refine and_congr_right fun _ => ?_
    rw [List.getD_eq_getElem?_getD]
    rcases val[r * nc + c]? with _ | b <;> simp
  · simp [h]

/-- Row `r` of column `c` holds the strongest remaining peak of the column, the first on ties. -/
def StrongestInColumn (p : Peaks) (strength : Nd Fl) (nr nc c r : ℕ) : Prop :=
  r < nr ∧ ∃ q : ℚ, Remaining p (r * nc + c) ∧ strength.data[r * nc + c]? = some (.fin q) ∧
    ∀ r' q', r' < nr → Remaining p (r' * nc + c) → strength.data[r' * nc + c]? = some (.fin q') →
      q' ≤ q ∧ (r' < r → q' < q)

private theorem simplify_spec (p : Peaks) (hw : WfPeaks p) (nr nc : ℕ) (hs : p.velocity.shape = [nr, nc])
    (dec : Nd Fl) (hdec : (p.extra.lookup "power").getD p.frequency = dec)
    (hfin : ∀ i, Remaining p i → ∃ q : ℚ, dec.data[i]? = some (.fin q)) :
    ∃ picks : List (ℕ × ℕ),
      (picks.map Prod.fst).Pairwise (· < ·) ∧
      (∀ c, c ∈ picks.map Prod.fst ↔ c < nc ∧ ∃ r < nr, Remaining p (r * nc + c)) ∧
      (∀ x ∈ picks, StrongestInColumn p dec nr nc x.1 x.2) ∧
      ∀ attr a, p.raw attr = .ok a →
        p.simplify attr = .ok (picks.map fun x => a.data.getD (x.2 * nc + x.1) .nan) := by
  let col : ℕ → List (Fl × Bool) := fun c =>
    (column .nan nr nc dec.data c).zip (column false nr nc p.valid.data c)
  have hcolfin : ∀ c v, (v, true) ∈ col c → ∃ q, v = .fin q := by
    intro c v hv
    obtain ⟨r, hr⟩ := List.mem_iff_getElem?.1 hv
    obtain ⟨h1, h2, h3⟩ := zip_col_some.1 hr
    obtain ⟨q, hq⟩ := hfin _ h3
    rw [List.getD_eq_getElem?_getD, hq] at h2
    exact ⟨q, h2.symm⟩
  let pick : ℕ → Option (ℕ × ℕ) := fun c => (bestRow (col c)).map fun r => (c, r)
  have hmap : (((List.range nc).filterMap pick).map Prod.fst) =
      (List.range nc).filter fun c => (bestRow (col c)).isSome := by
    induction List.range nc with
    | nil => rfl
    | cons c l ih =>
      rcases hb : bestRow (col c) with _ | r
      · simp [pick, hb] at ih ⊢
        exact ih
      · simp [pick, hb] at ih ⊢
        exact ih
  refine ⟨(List.range nc).filterMap pick, ?_, ?_, ?_, ?_⟩
  · rw [hmap]
    exact List.Pairwise.filter _ List.pairwise_lt_range
  · intro c
    rw [hmap, List.mem_filter, List.mem_range]
    refine and_congr_right fun _ => ?_
    rcases bestRow_spec (col c) (hcolfin c) with ⟨h1, h2⟩ | ⟨r, h1, v, h2, -⟩
    · simp only [h1, Option.isSome_none, Bool.false_eq_true, false_iff]
      rintro ⟨r, hr, hrem⟩
      exact h2 _ (List.mem_of_getElem? (zip_col_some.2 ⟨hr, rfl, hrem⟩))
    · simp only [h1, Option.isSome_some, true_iff]
      obtain ⟨g1, -, g3⟩ := zip_col_some.1 h2
      exact ⟨r, g1, g3⟩
  · rintro ⟨c, r⟩ hx
    obtain ⟨c', hc', hp⟩ := List.mem_filterMap.1 hx
    simp only [pick, Option.map_eq_some_iff, Prod.mk.injEq] at hp
    obtain ⟨r', hb, rfl, rfl⟩ := hp
    rcases bestRow_spec (col c') (hcolfin c') with ⟨h1, -⟩ | ⟨r, h1, v, h2, h3⟩
    · rw [h1] at hb; simp at hb
    · rw [h1, Option.some.injEq] at hb
      subst hb
      obtain ⟨g1, g2, g3⟩ := zip_col_some.1 h2
      obtain ⟨q, hq⟩ := hfin _ g3
      rw [List.getD_eq_getElem?_getD, hq] at g2
      simp only [Option.getD_some] at g2
      subst g2
      refine ⟨g1, q, g3, hq, ?_⟩
      intro r' q' hr' hrem hq'
      have := h3 r' (.fin q') (zip_col_some.2 ⟨hr', by rw [List.getD_eq_getElem?_getD, hq']; rfl, hrem⟩)
      simpa [← lt_iff_below, Fl.lt] using this
  · intro attr a ha
    have hsa : a.shape = [nr, nc] := (raw_shape hw ha).1.trans hs
    unfold simplify
    rw [ha]
    simp only [hsa, hdec, Except.ok.injEq]
    rw [List.map_filterMap]
    congr 1
    funext c
    simp [pick, col, Function.comp_def]

/-- **C37**.  For multi-peak data with finite powers, `simplify_mpeaks` picks one peak in each column which has a
remaining one, and no peak in any other column: the strongest, the first on ties; the columns are visited in order.
One and the same choice of peaks serves every attribute. -/
theorem C37_strongest_per_column (p : Peaks) (hw : WfPeaks p) (nr nc : ℕ) (hs : p.velocity.shape = [nr, nc])
    (power : Nd Fl) (hp : p.extra.lookup "power" = some power)
    (hfin : ∀ i, Remaining p i → ∃ q : ℚ, power.data[i]? = some (.fin q)) :
    ∃ picks : List (ℕ × ℕ),
      (picks.map Prod.fst).Pairwise (· < ·) ∧
      (∀ c, c ∈ picks.map Prod.fst ↔ c < nc ∧ ∃ r < nr, Remaining p (r * nc + c)) ∧
      (∀ x ∈ picks, StrongestInColumn p power nr nc x.1 x.2) ∧
      ∀ attr a, p.raw attr = .ok a →
        p.simplify attr = .ok (picks.map fun x => a.data.getD (x.2 * nc + x.1) .nan) :=
  simplify_spec p hw nr nc hs power (by simp [hp]) hfin

example : exPeaks.simplify "velocity" = .ok [.fin 100, .fin 300] ∧ exPeaks.simplify "power" = .ok [.fin 5, .fin 7] ∧
    exPeaks.velocity.shape = [2, 2] ∧ exPeaks.extra.lookup "power" = some ⟨[2, 2], [.fin 5, .fin 6, .nan, .fin 7]⟩ ∧
    ∀ i, Remaining exPeaks i → ∃ q : ℚ, ([.fin 5, .fin 6, .nan, .fin 7] : List Fl)[i]? = some (.fin q) := by
  refine ⟨by decide +kernel, by decide +kernel, rfl, rfl, ?_⟩
  intro i hi
  match i, hi with
  | 0, _ => exact ⟨_, rfl⟩
  | 1, _ => exact ⟨_, rfl⟩
  | 2, h => simp [Remaining, exPeaks] at h
  | 3, _ => exact ⟨_, rfl⟩
  | n + 4, h => simp [Remaining, exPeaks] at h

/-- **C37** (no power).  Without power, when the frequency is constant along each column, the first remaining peak
of each column is chosen. -/
theorem C37_first_without_power (p : Peaks) (hw : WfPeaks p) (nr nc : ℕ) (hs : p.velocity.shape = [nr, nc])
    (hp : p.extra.lookup "power" = none) (freq : ℕ → ℚ)
    (hfreq : ∀ r c, r < nr → c < nc → p.frequency.data[r * nc + c]? = some (.fin (freq c))) :
    ∃ picks : List (ℕ × ℕ),
      (picks.map Prod.fst).Pairwise (· < ·) ∧
      (∀ c, c ∈ picks.map Prod.fst ↔ c < nc ∧ ∃ r < nr, Remaining p (r * nc + c)) ∧
      (∀ x ∈ picks, x.2 < nr ∧ Remaining p (x.2 * nc + x.1) ∧ ∀ r' < x.2, ¬ Remaining p (r' * nc + x.1)) ∧
      ∀ attr a, p.raw attr = .ok a →
        p.simplify attr = .ok (picks.map fun x => a.data.getD (x.2 * nc + x.1) .nan) := by
  have hlen : p.valid.data.length = nr * nc := by
    rw [hw.valid_len, ← hw.shape_prod, hs]; simp
  obtain ⟨picks, h1, h2, h3, h4⟩ := simplify_spec p hw nr nc hs p.frequency (by simp [hp]) (by
    intro i hi
    have hi' : i < nr * nc := hlen ▸ (List.getElem?_eq_some_iff.1 hi).1
    have hnc : 0 < nc := by
      rcases Nat.eq_zero_or_pos nc with h | h
      · subst h; simp at hi'
      · exact h
    have := hfreq (i / nc) (i % nc) ((Nat.div_lt_iff_lt_mul hnc).2 hi') (Nat.mod_lt _ hnc)
    rw [Nat.div_add_mod'] at this
    exact ⟨_, this⟩)
  refine ⟨picks, h1, h2, ?_, h4⟩
  intro x hx
  obtain ⟨g1, q, g2, g3, g4⟩ := h3 x hx
  refine ⟨g1, g2, fun r' hr' hrem => ?_⟩
  have hc : x.1 < nc := ((h2 x.1).1 (List.mem_map_of_mem hx)).1
  rw [hfreq x.2 x.1 g1 hc] at g3
  have := (g4 r' _ (by omega) hrem (hfreq r' x.1 (by omega) hc)).2 hr'
  simp only [Option.some.injEq, Fl.fin.injEq] at g3
  rw [g3] at this
  exact absurd this (lt_irrefl _)

/-- **C37** (any powers; partial: a column whose remaining peaks all have unknown power should still have a pick).
Whatever the powers, also NaN and infinite ones, `simplify_mpeaks` picks one peak in exactly those columns which have a
remaining peak of known power (not NaN, not negative infinity), and it is the strongest of these, the first on ties.
One and the same choice of peaks serves every attribute. -/
theorem C37_any_power_partial (p : Peaks) (hw : WfPeaks p) (nr nc : ℕ) (hs : p.velocity.shape = [nr, nc])
    (power : Nd Fl) (hp : p.extra.lookup "power" = some power) :
    ∃ picks : List (ℕ × ℕ),
      (picks.map Prod.fst).Pairwise (· < ·) ∧
      (∀ c, c ∈ picks.map Prod.fst ↔ c < nc ∧ ∃ r < nr, Remaining p (r * nc + c) ∧
        ∃ v, power.data[r * nc + c]? = some v ∧ v ≠ .nan ∧ v ≠ .ninf) ∧
      (∀ x ∈ picks, x.2 < nr ∧ Remaining p (x.2 * nc + x.1) ∧
        ∃ v, power.data[x.2 * nc + x.1]? = some v ∧ v ≠ .nan ∧ v ≠ .ninf ∧
          ∀ r' v', r' < nr → Remaining p (r' * nc + x.1) → power.data[r' * nc + x.1]? = some v' →
            ¬ Below v v' ∧ (r' < x.2 → v' ≠ .nan → Below v' v)) ∧
      ∀ attr a, p.raw attr = .ok a →
        p.simplify attr = .ok (picks.map fun x => a.data.getD (x.2 * nc + x.1) .nan) := by
  let col : ℕ → List (Fl × Bool) := fun c =>
    (column .nan nr nc power.data c).zip (column false nr nc p.valid.data c)
  have hget : ∀ {i : ℕ} {v : Fl}, power.data.getD i .nan = v → v ≠ .nan → power.data[i]? = some v := by
    intro i v h1 h2
    rw [List.getD_eq_getElem?_getD] at h1
    cases h : power.data[i]? with
    | none => rw [h] at h1; exact absurd h1.symm h2
    | some w => rw [h] at h1; simp only [Option.getD_some] at h1; rw [h1]
  let pick : ℕ → Option (ℕ × ℕ) := fun c => (bestRow (col c)).map fun r => (c, r)
  have hmap : (((List.range nc).filterMap pick).map Prod.fst) =
      (List.range nc).filter fun c => (bestRow (col c)).isSome := by
    induction List.range nc with
    | nil => rfl
    | cons c l ih =>
      rcases hb : bestRow (col c) with _ | r
      · simp [pick, hb] at ih ⊢
        exact ih
      · simp [pick, hb] at ih ⊢
        exact ih
  refine ⟨(List.range nc).filterMap pick, ?_, ?_, ?_, ?_⟩
  · rw [hmap]
    exact List.Pairwise.filter _ List.pairwise_lt_range
  · intro c
    rw [hmap, List.mem_filter, List.mem_range]
    refine and_congr_right fun _ => ?_
    rcases bestRow_any (col c) with ⟨h1, h2⟩ | ⟨r, v, h1, h2, h3, h4, -⟩
    · simp only [h1, Option.isSome_none, Bool.false_eq_true, false_iff]
      rintro ⟨r, hr, hrem, v, hv, n1, n2⟩
      rcases h2 v (List.mem_of_getElem? (zip_col_some.2
        ⟨hr, by rw [List.getD_eq_getElem?_getD, hv]; rfl, hrem⟩)) with h | h
      · exact n1 h
      · exact n2 h
    · simp only [h1, Option.isSome_some, true_iff]
      obtain ⟨g1, g2, g3⟩ := zip_col_some.1 h2
      exact ⟨r, g1, g3, v, hget g2 h3, h3, h4⟩
  · rintro ⟨c, r⟩ hx
    obtain ⟨c', hc', hp'⟩ := List.mem_filterMap.1 hx
    simp only [pick, Option.map_eq_some_iff, Prod.mk.injEq] at hp'
    obtain ⟨r', hb, rfl, rfl⟩ := hp'
    rcases bestRow_any (col c') with ⟨h1, -⟩ | ⟨r, v, h1, h2, h3, h4, w, h5, h6⟩
    · rw [h1] at hb; simp at hb
    · rw [h1, Option.some.injEq] at hb
      subst hb
      obtain ⟨g1, g2, g3⟩ := zip_col_some.1 h2
      rw [h2] at h5
      simp only [Option.some.injEq, Prod.mk.injEq, and_true] at h5
      subst h5
      refine ⟨g1, g3, v, hget g2 h3, h3, h4, ?_⟩
      intro r' v' hr' hrem hv'
      have := h6 r' v' (zip_col_some.2 ⟨hr', by rw [List.getD_eq_getElem?_getD, hv']; rfl, hrem⟩)
      simpa only [lt_iff_below, lt_false_iff] using this
  · intro attr a ha
    have hsa : a.shape = [nr, nc] := (raw_shape hw ha).1.trans hs
    unfold simplify
    rw [ha]
    simp only [hsa, hp, Option.getD_some, Except.ok.injEq]
    rw [List.map_filterMap]
    congr 1
    funext c
    simp [pick, col, Function.comp_def]

/-- Two columns: in the first the powers are NaN and 4, in the second NaN and negative infinity. -/
example : (⟨"a", ⟨[2, 2], [.fin 1, .fin 2, .fin 1, .fin 2]⟩, ⟨[2, 2], [.fin 100, .fin 200, .fin 300, .fin 400]⟩,
    [("power", ⟨[2, 2], [.nan, .nan, .fin 4, .ninf]⟩)], ⟨[2, 2], [true, true, true, true]⟩⟩ : Peaks).simplify "velocity" =
      .ok [.fin 300] := by decide +kernel

/-- A remaining peak of unknown power is dropped although it is the only one of its column. -/
theorem C37_nan_power_counterexample :
    ∃ p : Peaks, WfPeaks p ∧ Remaining p 0 ∧ p.velocity.shape = [1, 1] ∧ p.simplify "velocity" = .ok [] := by
  refine ⟨⟨"a", ⟨[1, 1], [.fin 1]⟩, ⟨[1, 1], [.fin 100]⟩, [("power", ⟨[1, 1], [.nan]⟩)], ⟨[1, 1], [true]⟩⟩, ?_, rfl,
    rfl, by decide +kernel⟩
  constructor <;> simp

/-- **C38**.  `simplify_mpeaks` of any two attributes gives lists of one length whose entries at each position
belong to the same peak. -/
theorem C38_aligned (p : Peaks) (hw : WfPeaks p) (x y : String) (a b : Nd Fl) (us vs : List Fl)
    (ha : p.raw x = .ok a) (hb : p.raw y = .ok b) (hx : p.simplify x = .ok us) (hy : p.simplify y = .ok vs) :
    ∃ peaks : List ℕ, us = peaks.map (fun i => a.data.getD i .nan) ∧ vs = peaks.map (fun i => b.data.getD i .nan) := by
  have hsa := raw_shape hw ha
  have hsb := raw_shape hw hb
  unfold simplify at hx hy
  rw [ha] at hx
  rw [hb] at hy
  simp only [hsa.1] at hx
  simp only [hsb.1] at hy
  rcases hshape : p.velocity.shape with _ | ⟨n, _ | ⟨m, _ | ⟨k, l⟩⟩⟩
  · simp [hshape] at hx
  · simp only [hshape] at hx hy
    have key : ∀ (z : String) (d : Nd Fl) (zs : List Fl), p.raw z = .ok d → p.get z = .ok zs →
        zs = (remainingList p).map fun i => d.data.getD i .nan := by
      intro z d zs hd hz
      have hf : p.frequency.select p.valid = (remainingList p).map fun i => p.frequency.data.getD i .nan :=
        select_eq .nan _ _ (hw.freq_len.trans hw.valid_len.symm)
      have hv : p.velocity.select p.valid = (remainingList p).map fun i => p.velocity.data.getD i .nan :=
        select_eq .nan _ _ hw.valid_len.symm
      have hmem : ∀ i ∈ remainingList p, i < p.velocity.data.length := by
        intro i hi
        have := (List.mem_filter.1 hi).1
        rw [List.mem_range, hw.valid_len] at this
        exact this
      unfold Peaks.get at hz
      split_ifs at hz with h1 h2 h3 h4
      · simp only [hd, Except.ok.injEq] at hz
        rw [← hz, select_eq .nan _ _ ((raw_shape hw hd).2.trans hw.valid_len.symm)]
        rfl
      · subst h2
        simp only [Except.ok.injEq] at hz
        simp only [raw, String.reduceEq, if_false, if_true, Except.ok.injEq] at hd
        rw [← hz, ← hd, hv, List.map_map]
        apply List.map_congr_left
        intro i hi
        have := hmem i hi
        simp [Nd.map, List.getD_eq_getElem?_getD, List.getElem?_eq_getElem this]
      · subst h3
        simp only [Except.ok.injEq] at hz
        simp only [raw, String.reduceEq, if_false, if_true, Except.ok.injEq] at hd
        rw [← hz, ← hd, hv, hf, List.zipWith_map, List.zipWith_self]
        apply List.map_congr_left
        intro i hi
        have h5 := hmem i hi
        have h6 : i < p.frequency.data.length := by rw [hw.freq_len]; exact h5
        simp [Nd.zipWith, List.getD_eq_getElem?_getD, List.getElem?_eq_getElem h5, List.getElem?_eq_getElem h6,
          List.getElem?_zipWith]
      · subst h4
        simp only [Except.ok.injEq] at hz
        simp only [raw, String.reduceEq, if_false, if_true, Except.ok.injEq] at hd
        rw [← hz, ← hd, hv, hf, List.zipWith_map, List.zipWith_self]
        apply List.map_congr_left
        intro i hi
        have h5 := hmem i hi
        have h6 : i < p.frequency.data.length := by rw [hw.freq_len]; exact h5
        simp [Nd.zipWith, List.getD_eq_getElem?_getD, List.getElem?_eq_getElem h5, List.getElem?_eq_getElem h6,
          List.getElem?_zipWith]
    exact ⟨remainingList p, key x a us ha hx, key y b vs hb hy⟩
  · simp only [hshape, Except.ok.injEq] at hx hy
    refine ⟨(List.range m).filterMap (fun c =>
      (bestRow ((column .nan n m ((p.extra.lookup "power").getD p.frequency).data c).zip
        (column false n m p.valid.data c))).map fun r => r * m + c), ?_, ?_⟩
    · rw [← hx]; simp [List.map_filterMap, Function.comp_def]
    · rw [← hy]; simp [List.map_filterMap, Function.comp_def]
  · simp [hshape] at hx

example : exPeaks.simplify "frequency" = .ok [.fin 1, .fin 2] ∧ exPeaks.simplify "velocity" = .ok [.fin 100, .fin 300] := by
  constructor <;> decide +kernel

/-! ### C43 -/

private theorem close_refl (x : Fl) : close x x = true := by
  cases x <;> simp [close]
  positivity

/-- All attributes of the object can be read. -/
def Readable (p : Peaks) : Prop := ∀ a ∈ p.attrs, ∃ l, p.get a = .ok l

/-- **C43** (reflexive, for objects whose attributes can all be read). -/
theorem C43_reflexive_partial (p : Peaks) (h : Readable p) : p.eq p = true := by
  unfold Peaks.eq
  simp only [decide_true, Bool.true_and, List.all_eq_true]
  intro a ha
  obtain ⟨l, hl⟩ := h a ha
  rw [hl]
  simp only [allclose, if_true, Option.getD_some, List.all_eq_true]
  rintro ⟨x, y⟩ hxy
  obtain ⟨i, hi⟩ := List.mem_iff_getElem?.1 hxy
  obtain ⟨h1, h2⟩ := List.getElem?_zip_eq_some.1 hi
  rw [h1, Option.some.injEq] at h2
  simp only at h2 ⊢
  rw [h2]
  exact close_refl _

example : Readable exPeaks := by
  intro a ha
  simp only [attrs, exPeaks, List.map_cons, List.map_nil, List.mem_cons, List.not_mem_nil, or_false] at ha
  rcases ha with rfl | rfl | rfl
  · exact ⟨[.fin 1, .fin 2, .fin 2], by decide +kernel⟩
  · exact ⟨[.fin 100, .fin 200, .fin 300], by decide +kernel⟩
  · exact ⟨[.fin 5, .fin 6, .fin 7], by decide +kernel⟩

theorem close_iff (u v : Fl) : close u v = true ↔ Spec.Within u v := by
  constructor
  · intro h
    cases u <;> cases v <;> simp only [close, decide_eq_true_eq, reduceCtorEq] at h
    all_goals first | exact .nan | exact .pinf | exact .ninf | skip
    exact .fin _ _ (by norm_num; linarith)
  · rintro (_ | _ | _ | ⟨a, b, h⟩)
    · rfl
    · rfl
    · rfl
    · simp only [close, decide_eq_true_eq]
      norm_num at h
      linarith

theorem allclose_iff (x y : List Fl) : (allclose x y).getD false = true ↔ Spec.SameWithin x y := by
  have hz : ∀ x y : List Fl, x.length = y.length →
      (((x.zip y).all fun p => close p.1 p.2) = true ↔ List.Forall₂ Spec.Within x y) := by
    intro x
    induction x with
    | nil => intro y hy; cases y <;> simp at hy ⊢
    | cons u x ih =>
      intro y hy
      cases y with
      | nil => simp at hy
      | cons v y =>
        simp only [List.length_cons, add_left_inj] at hy
        have := ih y hy
        simp only [List.zip_cons_cons, List.all_cons, Bool.and_eq_true, List.forall₂_cons, close_iff]
        rw [this]
  unfold allclose
  split_ifs with h1 h2 h3
  · simp only [Option.getD_some]
    rw [hz x y h1]
    constructor
    · exact Or.inl
    · rintro (h | ⟨u, rfl, h⟩ | ⟨v, rfl, h⟩)
      · exact h
      · obtain ⟨v, rfl⟩ := List.length_eq_one_iff.1 h1.symm
        simpa using h
      · obtain ⟨u, rfl⟩ := List.length_eq_one_iff.1 h1
        simpa using h
  · obtain ⟨u, rfl⟩ := List.length_eq_one_iff.1 h2
    simp only [Option.getD_some, List.all_eq_true, close_iff, List.getD_cons_zero]
    constructor
    · exact fun h => Or.inr (Or.inl ⟨u, rfl, h⟩)
    · rintro (h | ⟨u', e, h⟩ | ⟨v, rfl, h⟩)
      · exact absurd h.length_eq h1
      · cases e; exact h
      · exact absurd rfl h1
  · obtain ⟨v, rfl⟩ := List.length_eq_one_iff.1 h3
    simp only [Option.getD_some, List.all_eq_true, close_iff, List.getD_cons_zero]
    constructor
    · exact fun h => Or.inr (Or.inr ⟨v, rfl, h⟩)
    · rintro (h | ⟨u', rfl, h⟩ | ⟨v', e, h⟩)
      · exact absurd h.length_eq h1
      · exact absurd rfl h1
      · cases e; exact h
  · simp only [Option.getD_none, Bool.false_eq_true, false_iff]
    rintro (h | ⟨u', rfl, h⟩ | ⟨v', rfl, h⟩)
    · exact h1 h.length_eq
    · exact h2 rfl
    · exact h3 rfl

/-- **C43** (what equality tells).  Two objects are equal exactly when they have one identifier, the same number of
attributes, and each attribute of the first, as the users read it, agrees within numpy's tolerance with that of the
second.  Missing: the same number of remaining peaks is implied only if neither side has exactly one
(`C43_count_counterexample`), and the tolerance is relative to one side (`C43_asymmetry_counterexample`). -/
theorem C43_equal_iff_partial (p q : Peaks) :
    p.eq q = true ↔ p.identifier = q.identifier ∧ p.attrs.length = q.attrs.length ∧
      ∀ a ∈ p.attrs, ∃ x y, p.get a = .ok x ∧ q.get a = .ok y ∧ Spec.SameWithin x y := by
  unfold Peaks.eq
  simp only [Bool.and_eq_true, decide_eq_true_eq, List.all_eq_true, and_assoc]
  refine and_congr_right fun _ => and_congr_right fun _ => forall_congr' fun a => forall_congr' fun _ => ?_
  rcases hp : p.get a with e | x
  · simp
  · rcases hq : q.get a with e | y
    · simp
    · simp [allclose_iff]

example : (⟨"a", ⟨[2], [.fin 1, .fin 2]⟩, ⟨[2], [.fin 100, .nan]⟩, [], ⟨[2], [true, true]⟩⟩ : Peaks).eq
    ⟨"a", ⟨[2], [.fin 1, .fin 2]⟩, ⟨[2], [.fin (100 + 1 / 1000), .nan]⟩, [], ⟨[2], [true, true]⟩⟩ = true := by
  decide +kernel

/-- **C43** (number of peaks).  If neither of two equal objects has exactly one remaining peak, they have the same
number of them. -/
theorem C43_equal_count_partial (p q : Peaks) (h : p.eq q = true) (a : String) (ha : a ∈ p.attrs) :
    ∃ x y, p.get a = .ok x ∧ q.get a = .ok y ∧ (x.length ≠ 1 → y.length ≠ 1 → x.length = y.length) := by
  obtain ⟨x, y, h1, h2, h3⟩ := ((C43_equal_iff_partial p q).1 h).2.2 a ha
  refine ⟨x, y, h1, h2, fun hx hy => ?_⟩
  rcases h3 with h3 | ⟨u, rfl, _⟩ | ⟨v, rfl, _⟩
  · exact h3.length_eq
  · exact absurd rfl hx
  · exact absurd rfl hy

/-- An object with a custom attribute is not equal to itself. -/
theorem C43_custom_attribute_counterexample :
    ∃ p : Peaks, WfPeaks p ∧ Peaks.init p.frequency p.velocity p.identifier p.extra = .ok p ∧ p.eq p = false := by
  refine ⟨⟨"a", ⟨[1], [.fin 1]⟩, ⟨[1], [.fin 100]⟩, [("quality", ⟨[1], [.fin 1]⟩)], ⟨[1], [true]⟩⟩, ?_, by decide +kernel,
    by decide +kernel⟩
  constructor <;> simp

/-- Equal objects with different numbers of remaining peaks: all of its peaks rejected against one remaining. -/
theorem C43_count_counterexample :
    ∃ p q : Peaks, WfPeaks p ∧ WfPeaks q ∧ p.eq q = true ∧ q.eq p = true ∧
      p.get "frequency" = .ok [] ∧ q.get "frequency" = .ok [.fin 1] := by
  refine ⟨⟨"a", ⟨[1], [.fin 1]⟩, ⟨[1], [.nan]⟩, [], ⟨[1], [false]⟩⟩,
    ⟨"a", ⟨[1], [.fin 1]⟩, ⟨[1], [.fin 100]⟩, [], ⟨[1], [true]⟩⟩, ?_, ?_, by decide +kernel, by decide +kernel,
    by decide +kernel, by decide +kernel⟩
  · constructor <;> simp
  · constructor <;> simp

/-- Equality is not symmetric: the tolerance is relative to the right-hand side. -/
theorem C43_asymmetry_counterexample :
    ∃ p q : Peaks, WfPeaks p ∧ WfPeaks q ∧ p.eq q = true ∧ q.eq p = false := by
  refine ⟨⟨"a", ⟨[1], [.fin 1]⟩, ⟨[1], [.fin 100000]⟩, [], ⟨[1], [true]⟩⟩,
    ⟨"a", ⟨[1], [.fin 1]⟩, ⟨[1], [.fin (100001 + 1/1000000)]⟩, [], ⟨[1], [true]⟩⟩, ?_, ?_, by decide +kernel,
    by decide +kernel⟩
  · constructor <;> simp
  · constructor <;> simp

end Verif.Props
