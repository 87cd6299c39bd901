import Verif.Props.PeaksReject
import Verif.Model.Trimming

/-!
# C50: interactive trimming

`confirmedBoxes` reads the boxes that count off the list of the user's actions, without looking at any data.
-/

namespace Verif.Props
open Verif Peaks Spec Trimming

/-- A box on the axes number `ax` with two opposite corners. -/
structure Box where
  ax : ℕ
  p1 : ℚ × ℚ
  p2 : ℚ × ℚ

/-- The box drawn by two clicks, if both were on one axes. -/
def drawn (clicked : List ℕ) (p1 p2 : ℚ × ℚ) : List Box :=
  match clicked with
  | [a, b] => if a = b then [⟨a, p1, p2⟩] else []
  | _ => []

/-- The confirmed boxes: boxes drawn since the previous valid answer count when the answer is to quit (`0`) or to
continue (`1`), and are forgotten when it is to undo (`2`); other answers change nothing. -/
def confirmedBoxes : List Box → List Event → List Box
  | _, [] => []
  | pending, .draw c p1 p2 :: es => confirmedBoxes (pending ++ drawn c p1 p2) es
  | pending, .answer t :: es =>
    if t = "0" ∨ t = "1" then pending ++ confirmedBoxes [] es
    else if t = "2" then confirmedBoxes [] es
    else confirmedBoxes pending es

/-- Peak `i` lies strictly inside the box, in the diagram with the axes' two attributes. -/
def InBox (xtype ytype : List String) (b : Box) (p : Peaks) (i : ℕ) : Prop :=
  ∃ xt yt x y, xtype[b.ax]? = some xt ∧ ytype[b.ax]? = some yt ∧ Value p xt i (.fin x) ∧ Value p yt i (.fin y) ∧
    min b.p1.1 b.p2.1 < x ∧ x < max b.p1.1 b.p2.1 ∧ min b.p1.2 b.p2.2 < y ∧ y < max b.p1.2 b.p2.2

/-- Boxes still pending after the events. -/
private def pendingAfter : List Box → List Event → List Box
  | pending, [] => pending
  | pending, .draw c p1 p2 :: es => pendingAfter (pending ++ drawn c p1 p2) es
  | pending, .answer t :: es =>
    if t = "0" ∨ t = "1" ∨ t = "2" then pendingAfter [] es else pendingAfter pending es

private theorem boxMark_fin (x1 x2 y1 y2 : ℚ) (hx : x1 ≤ x2) (hy : y1 ≤ y2) (x y : Fl) (valid : Bool) :
    boxMark (.fin x1, .fin x2) (.fin y1, .fin y2) x y valid = true ↔
      valid = true ∧ (∃ q, x = .fin q ∧ x1 < q ∧ q < x2) ∧ ∃ q, y = .fin q ∧ y1 < q ∧ q < y2 := by
  have m1 : pyMin (.fin x1) (.fin x2) = .fin x1 := by
    simp only [pyMin, Fl.lt, decide_eq_true_eq]; rw [if_neg (not_lt.2 hx)]
  have m3 : pyMin (.fin y1) (.fin y2) = .fin y1 := by
    simp only [pyMin, Fl.lt, decide_eq_true_eq]; rw [if_neg (not_lt.2 hy)]
  have m2 : pyMax (.fin x1) (.fin x2) = .fin x2 := by
    simp only [pyMax, Fl.lt, decide_eq_true_eq]
    split_ifs with h
    · rfl
    · rw [le_antisymm hx (not_lt.1 h)]
  have m4 : pyMax (.fin y1) (.fin y2) = .fin y2 := by
    simp only [pyMax, Fl.lt, decide_eq_true_eq]
    split_ifs with h
    · rfl
    · rw [le_antisymm hy (not_lt.1 h)]
  unfold boxMark
  simp only [m1, m2, m3, m4]
  cases valid
  · simp
  · cases x with
    | fin a =>
      cases y <;> simp only [Fl.lt] <;> by_cases h1 : x1 < a <;> by_cases h2 : a < x2 <;> simp [h1, h2]
    | nan => simp [Fl.lt]
    | pinf => simp [Fl.lt]
    | ninf => simp [Fl.lt]

/-- A member during the session: `p0` at the start. -/
private structure MemberInv (xtype ytype : List String) (committed pending : List Box) (p0 : Peaks)
    (m : Peaks × List Bool) : Prop where
  same : SameRecord p0 m.1
  remaining : ∀ i, Remaining m.1 i ↔ Remaining p0 i ∧ ∀ b ∈ committed, ¬ InBox xtype ytype b p0 i
  len : m.2.length = m.1.valid.data.length
  mask : ∀ i : ℕ, m.2[i]? = some true ↔ Remaining m.1 i ∧ ∃ b ∈ pending, InBox xtype ytype b p0 i

private theorem noMask_inv {xtype ytype : List String} {committed : List Box} {p0 p : Peaks} (h1 : SameRecord p0 p)
    (h2 : ∀ i, Remaining p i ↔ Remaining p0 i ∧ ∀ b ∈ committed, ¬ InBox xtype ytype b p0 i) :
    MemberInv xtype ytype committed [] p0 (noMask p) :=
  { same := h1
    remaining := h2
    len := by simp [noMask]
    mask := by
      intro i
      simp only [noMask, List.getElem?_map, List.not_mem_nil, false_and]
      rcases p.valid.data[i]? with _ | b <;> simp }

private theorem inv_weaken {xtype ytype : List String} {committed pending pending' : List Box} {p0 : Peaks}
    {m : Peaks × List Bool} (h : MemberInv xtype ytype committed pending p0 m) (he : pending = pending') :
    MemberInv xtype ytype committed pending' p0 m := he ▸ h

private theorem commit_inv {xtype ytype : List String} {committed pending : List Box} {p0 : Peaks}
    {m : Peaks × List Bool} (h : MemberInv xtype ytype committed pending p0 m) :
    MemberInv xtype ytype (committed ++ pending) [] p0 (commit m) := by
  refine noMask_inv (SameRecord.trans h.same (reject_sameRecord h.len)) ?_
  intro i
  rw [reject_remaining]
  have hm := h.mask i
  constructor
  · rintro ⟨g1, g2⟩
    obtain ⟨a1, a2⟩ := (h.remaining i).1 g1
    refine ⟨a1, fun b hb hin => ?_⟩
    rcases List.mem_append.1 hb with hb | hb
    · exact a2 b hb hin
    · have := hm.2 ⟨g1, b, hb, hin⟩
      rw [this] at g2; simp at g2
  · rintro ⟨g1, g2⟩
    have hr : Remaining m.1 i := (h.remaining i).2 ⟨g1, fun b hb => g2 b (List.mem_append_left _ hb)⟩
    refine ⟨hr, ?_⟩
    have hlt : i < m.2.length := by rw [h.len]; exact (List.getElem?_eq_some_iff.1 hr).1
    rw [List.getElem?_eq_getElem hlt]
    rcases hb : m.2[i] with _ | _
    · rfl
    · exfalso
      obtain ⟨-, b, hb1, hb2⟩ := hm.1 (by rw [List.getElem?_eq_getElem hlt, hb])
      exact g2 b (List.mem_append_right _ hb1) hb2

/-- The attributes of all axes are known to the object. -/
def Plottable (xtype ytype : List String) (p : Peaks) : Prop :=
  (∀ t ∈ xtype, ∃ a, p.raw t = .ok a) ∧ ∀ t ∈ ytype, ∃ a, p.raw t = .ok a

private theorem boxMask_spec {xtype ytype : List String} {p0 p : Peaks} (hw : WfPeaks p0)
    (hp : Plottable xtype ytype p0) (hsame : SameRecord p0 p) (b : Box) {xt yt : String}
    (hx : xtype[b.ax]? = some xt) (hy : ytype[b.ax]? = some yt) :
    ∃ mask, p.boxMask xt (.fin (min b.p1.1 b.p2.1), .fin (max b.p1.1 b.p2.1)) yt
        (.fin (min b.p1.2 b.p2.2), .fin (max b.p1.2 b.p2.2)) = .ok mask ∧
      mask.length = p.valid.data.length ∧
      ∀ i : ℕ, mask[i]? = some true ↔ Remaining p i ∧ InBox xtype ytype b p0 i := by
  obtain ⟨a, ha⟩ := hp.1 xt (List.mem_of_getElem? hx)
  obtain ⟨c, hc⟩ := hp.2 yt (List.mem_of_getElem? hy)
  have ha' : p.raw xt = .ok a := by rw [← raw_of_sameRecord hsame]; exact ha
  have hc' : p.raw yt = .ok c := by rw [← raw_of_sameRecord hsame]; exact hc
  have hlv : p.valid.data.length = p0.velocity.data.length := by
    rw [← hsame.2.2.2.2.2]; exact hw.valid_len
  have hla := (raw_shape hw ha).2.trans hlv.symm
  have hlc := (raw_shape hw hc).2.trans hlv.symm
  refine ⟨List.zipWith (fun xy v => boxMark (.fin (min b.p1.1 b.p2.1), .fin (max b.p1.1 b.p2.1))
    (.fin (min b.p1.2 b.p2.2), .fin (max b.p1.2 b.p2.2)) xy.1 xy.2 v) (a.data.zip c.data) p.valid.data,
    by simp only [boxMask, ha', hc'], by simp [hla, hlc], ?_⟩
  intro i
  by_cases hi : i < p.valid.data.length
  · have hz : (a.data.zip c.data)[i]? = some (a.data[i], c.data[i]) := by
      rw [List.getElem?_zip_eq_some]
      exact ⟨List.getElem?_eq_getElem _, List.getElem?_eq_getElem _⟩
    rw [List.getElem?_zipWith, hz, List.getElem?_eq_getElem hi]
    simp only [Option.some.injEq]
    rw [boxMark_fin _ _ _ _ min_le_max min_le_max]
    unfold Remaining InBox
    rw [List.getElem?_eq_getElem hi]
    simp only [Option.some.injEq]
    refine and_congr_right fun _ => ?_
    have hva : ∀ q, Value p0 xt i (.fin q) ↔ a.data[i] = .fin q := by
      intro q
      constructor
      · rintro ⟨a', e1, e2⟩
        rw [ha, Except.ok.injEq] at e1
        subst e1
        rw [List.getElem?_eq_getElem (by omega), Option.some.injEq] at e2
        exact e2
      · intro e
        exact ⟨a, ha, by rw [List.getElem?_eq_getElem (by omega), e]⟩
    have hvc : ∀ q, Value p0 yt i (.fin q) ↔ c.data[i] = .fin q := by
      intro q
      constructor
      · rintro ⟨a', e1, e2⟩
        rw [hc, Except.ok.injEq] at e1
        subst e1
        rw [List.getElem?_eq_getElem (by omega), Option.some.injEq] at e2
        exact e2
      · intro e
        exact ⟨c, hc, by rw [List.getElem?_eq_getElem (by omega), e]⟩
    constructor
    · rintro ⟨⟨q, h1, h2, h3⟩, r, h4, h5, h6⟩
      exact ⟨xt, yt, q, r, hx, hy, (hva q).2 h1, (hvc r).2 h4, h2, h3, h5, h6⟩
    · rintro ⟨xt', yt', q, r, h1, h2, h3, h4, h5, h6, h7, h8⟩
      rw [hx, Option.some.injEq] at h1
      rw [hy, Option.some.injEq] at h2
      subst h1; subst h2
      exact ⟨⟨q, (hva q).1 h3, h5, h6⟩, r, (hvc r).1 h4, h7, h8⟩
  · have h1 : (p.valid.data)[i]? = none := List.getElem?_eq_none (by omega)
    unfold Remaining
    rw [h1, List.getElem?_zipWith, h1]
    simp only [reduceCtorEq, false_and, iff_false]
    rcases (a.data.zip c.data)[i]? with _ | z <;> simp

private theorem markAll_spec {xtype ytype : List String} {committed pending : List Box} (b : Box)
    {xt yt : String} (hx : xtype[b.ax]? = some xt) (hy : ytype[b.ax]? = some yt) (ps0 : List Peaks)
    (hw : ∀ p ∈ ps0, WfPeaks p) (hp : ∀ p ∈ ps0, Plottable xtype ytype p) (ms : List (Peaks × List Bool))
    (hinv : List.Forall₂ (MemberInv xtype ytype committed pending) ps0 ms) :
    ∃ ms' n, markAll xt yt (.fin (min b.p1.1 b.p2.1), .fin (max b.p1.1 b.p2.1))
        (.fin (min b.p1.2 b.p2.2), .fin (max b.p1.2 b.p2.2)) ms = .ok (ms', n) ∧
      List.Forall₂ (MemberInv xtype ytype committed (pending ++ [b])) ps0 ms' ∧
      ms'.map Prod.fst = ms.map Prod.fst ∧
      (n = 0 ↔ List.Forall₂ (fun p0 (m : Peaks × List Bool) => ∀ i, Remaining m.1 i → ¬ InBox xtype ytype b p0 i)
        ps0 ms) := by
  induction hinv with
  | nil => exact ⟨[], 0, rfl, List.Forall₂.nil, rfl, by simp⟩
  | @cons p0 m ps0 ms h hrest ih =>
    obtain ⟨ms', n, h1, h2, h3, h4⟩ := ih (fun p hp' => hw p (by simp [hp'])) (fun p hp' => hp p (by simp [hp']))
    obtain ⟨mask, g1, g2, g3⟩ := boxMask_spec (hw p0 (by simp)) (hp p0 (by simp)) h.same b hx hy
    refine ⟨(m.1, List.zipWith (fun old new => if new then true else old) m.2 mask) :: ms', mask.count true + n, ?_,
      ?_, by simp [h3], ?_⟩
    · simp only [markAll, markMember, g1, h1]
    · refine List.Forall₂.cons ?_ h2
      refine { same := h.same, remaining := h.remaining, len := ?_, mask := ?_ }
      · simp [g2, h.len]
      · intro i
        rw [List.getElem?_zipWith]
        have hm := h.mask i
        have hg := g3 i
        have : (∃ b' ∈ pending ++ [b], InBox xtype ytype b' p0 i) ↔
            (∃ b' ∈ pending, InBox xtype ytype b' p0 i) ∨ InBox xtype ytype b p0 i := by
          simp only [List.mem_append, List.mem_singleton, or_and_right, exists_or, exists_eq_left]
        rw [this]
        by_cases hi : i < m.1.valid.data.length
        · obtain ⟨o, ho⟩ : ∃ o, m.2[i]? = some o :=
            ⟨_, List.getElem?_eq_getElem (by rw [h.len]; exact hi)⟩
          obtain ⟨w, hw'⟩ : ∃ w, mask[i]? = some w :=
            ⟨_, List.getElem?_eq_getElem (by rw [g2]; exact hi)⟩
          rw [ho] at hm
          rw [hw'] at hg
          rw [ho, hw']
          simp only [Option.some.injEq] at hm hg ⊢
          clear this g3 h4 ih
          generalize (∃ b' ∈ pending, InBox xtype ytype b' p0 i) = P at hm ⊢
          cases o <;> cases w <;> simp at hm hg ⊢ <;> tauto
        · have h5 : m.2[i]? = none := List.getElem?_eq_none (by rw [h.len]; omega)
          have h6 : ¬ Remaining m.1 i := by
            unfold Remaining
            rw [List.getElem?_eq_none (by omega)]; simp
          simp [h5, h6]
    · rw [List.forall₂_cons, ← h4]
      constructor
      · intro hn
        have hz : mask.count true = 0 := by omega
        refine ⟨fun i hr hin => ?_, by omega⟩
        have := (g3 i).2 ⟨hr, hin⟩
        rw [List.count_eq_zero] at hz
        exact hz (List.mem_of_getElem? this)
      · rintro ⟨hr, hn⟩
        have hz : mask.count true = 0 := by
          rw [List.count_eq_zero]
          intro hm
          obtain ⟨i, hi⟩ := List.mem_iff_getElem?.1 hm
          obtain ⟨a1, a2⟩ := (g3 i).1 hi
          exact hr i a1 a2
        omega

private theorem boxOf_drawn (clicked : List ℕ) (p1 p2 : ℚ × ℚ) :
    (boxOf clicked p1 p2 = none ∧ drawn clicked p1 p2 = []) ∨
    ∃ b : Box, drawn clicked p1 p2 = [b] ∧ boxOf clicked p1 p2 = some (b.ax,
      (.fin (min b.p1.1 b.p2.1), .fin (max b.p1.1 b.p2.1)), (.fin (min b.p1.2 b.p2.2), .fin (max b.p1.2 b.p2.2))) := by
  rcases clicked with _ | ⟨a, _ | ⟨b, _ | ⟨c, l⟩⟩⟩
  · left; simp [boxOf, drawn]
  · left; simp [boxOf, drawn]
  · by_cases h : a = b
    · right; exact ⟨⟨a, p1, p2⟩, by simp [drawn, h], by simp [boxOf, h]⟩
    · left; simp [boxOf, drawn, h]
  · left; simp [boxOf, drawn]

private theorem run_inv (xtype ytype : List String) (hlen : xtype.length = ytype.length) (ps0 : List Peaks)
    (hw : ∀ p ∈ ps0, WfPeaks p) (hp : ∀ p ∈ ps0, Plottable xtype ytype p) (es : List Event)
    (hax : ∀ c p1 p2, Event.draw c p1 p2 ∈ es → ∀ a ∈ c, a < xtype.length) (s s' : State)
    (committed pending : List Box) (hph : ∀ e, s.phase ≠ .raised e)
    (hinv : List.Forall₂ (MemberInv xtype ytype committed pending) ps0 s.members)
    (hrun : Trimming.run xtype ytype s es = some s') :
    (∀ e, s'.phase ≠ .raised e) ∧
    List.Forall₂ (MemberInv xtype ytype (committed ++ confirmedBoxes pending es) (pendingAfter pending es)) ps0
      s'.members := by
  induction es generalizing s committed pending with
  | nil =>
    simp only [Trimming.run, Option.some.injEq] at hrun
    subst hrun
    refine ⟨hph, ?_⟩
    simpa [confirmedBoxes, pendingAfter] using hinv
  | cons e es ih =>
    have hax' : ∀ c p1 p2, Event.draw c p1 p2 ∈ es → ∀ a ∈ c, a < xtype.length :=
      fun c p1 p2 h => hax c p1 p2 (List.mem_cons_of_mem _ h)
    simp only [Trimming.run] at hrun
    rcases hst : step xtype ytype s e with _ | t
    · rw [hst] at hrun; simp at hrun
    · rw [hst] at hrun
      simp only at hrun
      cases e with
      | draw c p1 p2 =>
        simp only [step] at hst
        rcases hphase : s.phase with _ | _ | _ | e <;> rw [hphase] at hst <;> simp only [reduceCtorEq] at hst
        rcases boxOf_drawn c p1 p2 with ⟨h1, h2⟩ | ⟨b, h1, h2⟩
        · rw [h1] at hst
          simp only [Option.some.injEq] at hst
          subst hst
          have := ih hax' s committed pending hph hinv hrun
          simpa [confirmedBoxes, pendingAfter, h2] using this
        · rw [h2] at hst
          simp only at hst
          have hbax : b.ax < xtype.length := by
            apply hax c p1 p2 (by simp)
            rcases c with _ | ⟨a, _ | ⟨a', _ | ⟨a'', l⟩⟩⟩ <;> simp [drawn] at h1
            split_ifs at h1 with haa
            · simp only [List.cons.injEq, and_true] at h1
              rw [← h1]; simp
          rw [List.getElem?_eq_getElem hbax, List.getElem?_eq_getElem (by omega)] at hst
          simp only at hst
          obtain ⟨ms', n, g1, g2, -, -⟩ := markAll_spec b (List.getElem?_eq_getElem hbax)
            (List.getElem?_eq_getElem (by omega)) ps0 hw hp s.members hinv
          rw [g1] at hst
          simp only [Option.some.injEq] at hst
          subst hst
          have := ih hax' _ committed (pending ++ [b]) (by intro e; simp only; split_ifs <;> simp) g2 hrun
          simpa [confirmedBoxes, pendingAfter, h1] using this
      | answer text =>
        simp only [step] at hst
        rcases hphase : s.phase with _ | _ | _ | e <;> rw [hphase] at hst <;> simp only [reduceCtorEq] at hst
        split_ifs at hst with h0 h1 h2 <;> simp only [Option.some.injEq] at hst <;> subst hst
        · have hc : List.Forall₂ (MemberInv xtype ytype (committed ++ pending) []) ps0 (s.members.map commit) := by
            rw [List.forall₂_map_right_iff]
            exact hinv.imp fun _ _ h => commit_inv h
          have := ih hax' _ (committed ++ pending) [] (by simp) hc hrun
          simpa [confirmedBoxes, pendingAfter, h0] using this
        · have hc : List.Forall₂ (MemberInv xtype ytype (committed ++ pending) []) ps0 (s.members.map commit) := by
            rw [List.forall₂_map_right_iff]
            exact hinv.imp fun _ _ h => commit_inv h
          have := ih hax' _ (committed ++ pending) [] (by simp) hc hrun
          simpa [confirmedBoxes, pendingAfter, h1] using this
        · have hc : List.Forall₂ (MemberInv xtype ytype committed []) ps0 (s.members.map fun m => noMask m.1) := by
            rw [List.forall₂_map_right_iff]
            exact hinv.imp fun _ _ h => noMask_inv h.same h.remaining
          have := ih hax' _ committed [] (by simp) hc hrun
          simpa [confirmedBoxes, pendingAfter, h2] using this
        · have := ih hax' s committed pending hph hinv hrun
          simpa [confirmedBoxes, pendingAfter, h0, h1, h2] using this

private theorem start_inv (xtype ytype : List String) (ps0 : List Peaks) :
    List.Forall₂ (MemberInv xtype ytype [] []) ps0 (start ps0).members := by
  simp only [start]
  rw [List.forall₂_map_right_iff, List.forall₂_same]
  intro p _
  exact noMask_inv (SameRecord.refl p) (by simp)

/-- **C50**.  At every point of a session, in particular at its end, the remaining peaks of each member are its initial
ones minus those strictly inside a confirmed box; no other data of the members has changed. -/
theorem C50_confirmed_boxes (xtype ytype : List String) (hlen : xtype.length = ytype.length) (ps0 : List Peaks)
    (hw : ∀ p ∈ ps0, WfPeaks p) (hp : ∀ p ∈ ps0, Plottable xtype ytype p) (es : List Event)
    (hax : ∀ c p1 p2, Event.draw c p1 p2 ∈ es → ∀ a ∈ c, a < xtype.length) (s : State)
    (hrun : Trimming.run xtype ytype (start ps0) es = some s) :
    (∀ e, s.phase ≠ .raised e) ∧
    List.Forall₂ (fun p0 p => SameRecord p0 p ∧
      ∀ i, Remaining p i ↔ Remaining p0 i ∧ ∀ b ∈ confirmedBoxes [] es, ¬ InBox xtype ytype b p0 i)
      ps0 (s.members.map Prod.fst) := by
  obtain ⟨h1, h2⟩ := run_inv xtype ytype hlen ps0 hw hp es hax (start ps0) s [] [] (by simp [start])
    (start_inv xtype ytype ps0) hrun
  refine ⟨h1, ?_⟩
  rw [List.forall₂_map_right_iff]
  exact h2.imp fun _ _ h => ⟨h.same, by simpa using h.remaining⟩

/-- **C50** (pausing).  Drawing a box pauses the session exactly when no member has a remaining peak strictly inside
it. -/
theorem C50_pause_iff_empty (xtype ytype : List String) (hlen : xtype.length = ytype.length) (ps0 : List Peaks)
    (hw : ∀ p ∈ ps0, WfPeaks p) (hp : ∀ p ∈ ps0, Plottable xtype ytype p) (es : List Event)
    (hax : ∀ c p1 p2, Event.draw c p1 p2 ∈ es → ∀ a ∈ c, a < xtype.length) (s : State)
    (hrun : Trimming.run xtype ytype (start ps0) es = some s) (hd : s.phase = .drawing) (ax : ℕ)
    (hx : ax < xtype.length) (p1 p2 : ℚ × ℚ) :
    ∃ t, step xtype ytype s (.draw [ax, ax] p1 p2) = some t ∧ t.members.map Prod.fst = s.members.map Prod.fst ∧
      (t.phase = .asking ∨ t.phase = .drawing) ∧
      (t.phase = .asking ↔ List.Forall₂ (fun p0 p => ∀ i, Remaining p i → ¬ InBox xtype ytype ⟨ax, p1, p2⟩ p0 i) ps0
        (s.members.map Prod.fst)) := by
  obtain ⟨-, h2⟩ := run_inv xtype ytype hlen ps0 hw hp es hax (start ps0) s [] [] (by simp [start])
    (start_inv xtype ytype ps0) hrun
  obtain ⟨ms', n, g1, -, g3, g4⟩ := markAll_spec ⟨ax, p1, p2⟩ (List.getElem?_eq_getElem hx)
    (List.getElem?_eq_getElem (show ax < ytype.length by omega)) ps0 hw hp s.members h2
  refine ⟨⟨ms', if n > 0 then .drawing else .asking⟩, ?_, g3, ?_, ?_⟩
  · simp only [step, hd, boxOf, if_true]
    rw [List.getElem?_eq_getElem hx, List.getElem?_eq_getElem (by omega)]
    simp only
    rw [g1]
  · simp only; split_ifs <;> simp
  · rw [List.forall₂_map_right_iff, ← g4]
    simp only
    split_ifs with h
    · simp; omega
    · simp; omega

/-- **C50** (end).  The session ends by the answer `0` only. -/
theorem C50_finished_iff (xtype ytype : List String) (s t : State) (e : Event)
    (h : step xtype ytype s e = some t) : t.phase = .finished ↔ e = .answer "0" := by
  cases e with
  | draw c p1 p2 =>
    simp only [step] at h
    rcases hphase : s.phase with _ | _ | _ | e <;> rw [hphase] at h <;> simp only [reduceCtorEq] at h
    split at h
    · simp only [Option.some.injEq] at h; subst h; simp [hphase]
    · split at h
      · split at h
        · simp only [Option.some.injEq] at h; subst h; simp
        · simp only [Option.some.injEq] at h; subst h; simp only; split_ifs <;> simp
      · simp only [Option.some.injEq] at h; subst h; simp
  | answer text =>
    simp only [step] at h
    rcases hphase : s.phase with _ | _ | _ | e <;> rw [hphase] at h <;> simp only [reduceCtorEq] at h
    split_ifs at h with h0 h1 h2 <;> simp only [Option.some.injEq] at h <;> subst h <;> simp_all

/-- A session on `exPeaks`: a box that is undone, three clicks, a box that is confirmed, quit. -/
def exEvents : List Event :=
  [.draw [0, 0] (0, 0) (10, 1000), .draw [0, 0] (0, 0) (0, 0), .answer "x", .answer "2",
    .draw [0, 0, 0] (0, 0) (1, 1), .draw [0, 0] (3/2, 250) (3, 350), .draw [0, 0] (0, 0) (0, 0), .answer "0"]

example : (Trimming.run ["frequency"] ["velocity"] (start [exPeaks]) exEvents).map
    (fun s => (s.members.map fun m => m.1.valid.data, s.phase)) =
      some ([[true, true, false, false]], Phase.finished) := by decide +kernel

example : Plottable ["frequency"] ["velocity"] exPeaks := by
  constructor <;> simp [exPeaks, raw]

end Verif.Props
