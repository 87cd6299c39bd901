import Verif.Model.Interact
import Verif.Lemmas.Array

/-!
# C31, C32: interactive picking
-/

namespace Verif.Props
open Verif Interact

/-- The last point of every non-empty selection. -/
def lastPoints (sel : List (List Pt)) : List Pt := sel.filterMap List.getLast?

private theorem waitKey_spec : ∀ {l r : List (Option Bool)}, waitKey l = some r →
    ∃ pre, l = pre ++ some true :: r ∧ some true ∉ pre := by
  intro l
  induction l with
  | nil => intro r h; simp [waitKey] at h
  | cons p l ih =>
    intro r h
    rcases p with _ | _ | _
    · obtain ⟨pre, rfl, h2⟩ := ih (by simpa [waitKey] using h)
      exact ⟨none :: pre, by simp, by simp [h2]⟩
    · obtain ⟨pre, rfl, h2⟩ := ih (by simpa [waitKey] using h)
      exact ⟨some false :: pre, by simp, by simp [h2]⟩
    · simp only [waitKey, Option.some.injEq] at h
      subst h
      exact ⟨[], by simp, by simp⟩

private theorem selectLoop_spec (ask : Bool) : ∀ (picks : List (List Pt)) (left : ℕ)
    (presses : List (Option Bool)) (xs ys xs' ys' : List ℚ) (u : User), xs.length = ys.length →
    selectLoop ask left picks presses xs ys = some (xs', ys', u) →
    ∃ (used : List (List Pt)) (pressed : List (Option Bool)),
      picks = used ++ u.picks ∧ presses = pressed ++ u.presses ∧
      xs'.length = ys'.length ∧
      xs'.zip ys' = xs.zip ys ++ lastPoints used ∧
      (lastPoints used).length ≤ left ∧
      ((lastPoints used).length < left → ∃ pre,
        pressed = pre ++ (if ask then [some true, some true] else [some true])) := by
  intro picks
  induction picks with
  | nil =>
    intro left presses xs ys xs' ys' u hxy h
    cases left with
    | zero =>
      simp only [selectLoop, Option.some.injEq, Prod.mk.injEq] at h
      obtain ⟨rfl, rfl, rfl⟩ := h
      exact ⟨[], [], by simp, by simp, hxy, by simp [lastPoints], by simp [lastPoints], by simp [lastPoints]⟩
    | succ n => simp [selectLoop] at h
  | cons vals picks ih =>
    intro left presses xs ys xs' ys' u hxy h
    cases left with
    | zero =>
      simp only [selectLoop, Option.some.injEq, Prod.mk.injEq] at h
      obtain ⟨rfl, rfl, rfl⟩ := h
      exact ⟨[], [], by simp, by simp, hxy, by simp [lastPoints], by simp [lastPoints], by simp [lastPoints]⟩
    | succ n =>
      unfold selectLoop at h
      rcases hv : vals.getLast? with _ | ⟨x, y⟩
      · simp only [hv] at h
        obtain ⟨used, pressed, h1, h2, h3, h4, h5, h6⟩ := ih _ _ _ _ _ _ _ hxy h
        have : lastPoints (vals :: used) = lastPoints used := by simp [lastPoints, hv]
        exact ⟨vals :: used, pressed, by simp [h1], h2, h3, by rw [this, h4], by rw [this]; exact h5,
          by rw [this]; exact h6⟩
      · simp only [hv] at h
        have hlast : ∀ used, lastPoints (vals :: used) = (x, y) :: lastPoints used := by
          intro used; simp [lastPoints, hv]
        -- the pause after the point
        obtain ⟨rest, hrest, paused, hpaused, hask⟩ : ∃ rest,
            (if ask then waitKey presses else some presses) = some rest ∧
            ∃ paused, presses = paused ++ rest ∧
              ∃ pre, paused = pre ++ (if ask then [some true] else []) := by
          rcases hp : (if ask then waitKey presses else some presses) with _ | rest
          · simp [hp] at h
          · refine ⟨rest, rfl, ?_⟩
            cases ask with
            | false =>
              simp only [Bool.false_eq_true, if_false, Option.some.injEq] at hp
              exact ⟨[], by simp [hp], [], by simp⟩
            | true =>
              simp only [if_true] at hp
              obtain ⟨pre, h1, -⟩ := waitKey_spec hp
              exact ⟨pre ++ [some true], by simp [h1], pre, by simp⟩
        simp only [hrest] at h
        have hzip : (xs ++ [x]).zip (ys ++ [y]) = xs.zip ys ++ [(x, y)] := by
          rw [List.zip_append hxy]; rfl
        have go : ∀ (p : Option Bool) (rest' : List (Option Bool)), rest = p :: rest' →
            selectLoop ask n picks rest' (xs ++ [x]) (ys ++ [y]) = some (xs', ys', u) →
            ∃ (used : List (List Pt)) (pressed : List (Option Bool)),
              vals :: picks = used ++ u.picks ∧ presses = pressed ++ u.presses ∧
              xs'.length = ys'.length ∧ xs'.zip ys' = xs.zip ys ++ lastPoints used ∧
              (lastPoints used).length ≤ n + 1 ∧
              ((lastPoints used).length < n + 1 → ∃ pre,
                pressed = pre ++ (if ask then [some true, some true] else [some true])) := by
          intro p rest' hp hr
          obtain ⟨used, pressed, h1, h2, h3, h4, h5, h6⟩ := ih _ _ _ _ _ _ _ (by simp [hxy]) hr
          refine ⟨vals :: used, paused ++ p :: pressed, by simp [h1], ?_, h3, ?_, ?_, ?_⟩
          · rw [hpaused, hp, h2]; simp
          · rw [h4, hzip, hlast]; simp
          · rw [hlast]; simp; exact h5
          · rw [hlast]
            intro hlt
            obtain ⟨pre, hpre⟩ := h6 (by simpa using hlt)
            exact ⟨paused ++ p :: pre, by simp [hpre]⟩
        rcases rest with _ | ⟨p, rest'⟩
        · simp at h
        rcases p with _ | _ | _
        · exact go _ _ rfl (by simpa using h)
        · exact go _ _ rfl (by simpa using h)
        · simp only [Option.some.injEq, Prod.mk.injEq] at h
          obtain ⟨rfl, rfl, rfl⟩ := h
          refine ⟨[vals], paused ++ [some true], by simp, by simp [hpaused], by simp [hxy], ?_, ?_, ?_⟩
          · rw [hzip, hlast]; simp [lastPoints]
          · rw [hlast]; simp [lastPoints]
          · intro _
            obtain ⟨pre, hpre⟩ := hask
            cases ask with
            | false => exact ⟨paused, by simp⟩
            | true => exact ⟨pre, by simp [hpre]⟩

/-- **C31**.  A finished session has consumed some selections `used` and returned exactly the last points of
the non-empty ones, in order, as equally many x and y values, at most `npts`.  There are exactly `npts`, unless
the user exited: the last press consumed was a key, preceded by the key that ended the pause if the session
pauses after each point. -/
theorem C31_session_returns_last_points (initial ask : Bool) (npts : ℤ) (u u' : User) (xs ys : List ℚ)
    (h : ginputSession initial npts ask u = some (xs, ys, u')) :
    ∃ (used : List (List Pt)) (pressed : List (Option Bool)),
      u.picks = used ++ u'.picks ∧ u.presses = pressed ++ u'.presses ∧
      xs.length = ys.length ∧ xs.zip ys = lastPoints used ∧ (xs.length : ℤ) ≤ max npts 0 ∧
      ((xs.length : ℤ) < npts → ∃ pre,
        pressed = pre ++ (if ask then [some true, some true] else [some true])) := by
  unfold ginputSession at h
  obtain ⟨presses, hp, skipped, hsk⟩ : ∃ presses,
      (if initial then waitKey u.presses else some u.presses) = some presses ∧
      ∃ skipped, u.presses = skipped ++ presses := by
    rcases hp : (if initial then waitKey u.presses else some u.presses) with _ | presses
    · simp [hp] at h
    · refine ⟨presses, rfl, ?_⟩
      cases initial with
      | false =>
        simp only [Bool.false_eq_true, if_false, Option.some.injEq] at hp
        exact ⟨[], by simp [hp]⟩
      | true =>
        simp only [if_true] at hp
        obtain ⟨pre, h1, -⟩ := waitKey_spec hp
        exact ⟨pre ++ [some true], by simp [h1]⟩
  simp only [hp] at h
  obtain ⟨used, pressed, h1, h2, h3, h4, h5, h6⟩ := selectLoop_spec ask _ _ _ [] [] _ _ _ rfl h
  have hlen : (lastPoints used).length = xs.length := by
    simp only [List.zip_nil_left, List.nil_append] at h4
    rw [← h4, List.length_zip, h3, min_self]
  refine ⟨used, skipped ++ pressed, h1, by rw [hsk, h2]; simp, h3, by simpa using h4, by omega, ?_⟩
  intro hlt
  obtain ⟨pre, hpre⟩ := h6 (by omega)
  exact ⟨skipped ++ pre, by simp [hpre]⟩

/-- **C31** (the session does finish).  Given `npts` non-empty selections and, after each, one answer which is no
key, a session without pauses finishes with all `npts` points. -/
theorem C31_session_completes (npts : ℤ) (u : User) (hpicks : npts ≤ (lastPoints u.picks).length)
    (hpress : npts ≤ u.presses.length) (hnokey : ∀ p ∈ u.presses.take npts.toNat, p ≠ some true) :
    ∃ xs ys u', ginputSession false npts false u = some (xs, ys, u') ∧
      xs.zip ys = (lastPoints u.picks).take npts.toNat ∧ (xs.length : ℤ) = max npts 0 ∧
      u'.presses = u.presses.drop npts.toNat := by
  have key : ∀ (picks : List (List Pt)) (left : ℕ) (presses : List (Option Bool)) (xs ys : List ℚ),
      xs.length = ys.length → left ≤ (lastPoints picks).length → left ≤ presses.length →
      (∀ p ∈ presses.take left, p ≠ some true) →
      ∃ xs' ys' u', selectLoop false left picks presses xs ys = some (xs', ys', u') ∧
        xs'.zip ys' = xs.zip ys ++ (lastPoints picks).take left ∧ xs'.length = xs.length + left ∧
        u'.presses = presses.drop left := by
    intro picks
    induction picks with
    | nil =>
      intro left presses xs ys _ h1 _ _
      have : left = 0 := by simpa [lastPoints] using h1
      subst this
      exact ⟨xs, ys, _, rfl, by simp, by simp, by simp⟩
    | cons vals picks ih =>
      intro left presses xs ys hxy h1 h2 h3
      cases left with
      | zero => exact ⟨xs, ys, _, rfl, by simp, by simp, by simp⟩
      | succ n =>
        unfold selectLoop
        rcases hv : vals.getLast? with _ | ⟨x, y⟩
        · have : lastPoints (vals :: picks) = lastPoints picks := by simp [lastPoints, hv]
          rw [this] at h1 ⊢
          exact ih _ _ _ _ hxy h1 h2 h3
        · have hl : lastPoints (vals :: picks) = (x, y) :: lastPoints picks := by simp [lastPoints, hv]
          rw [hl] at h1 ⊢
          rcases presses with _ | ⟨p, presses⟩
          · simp at h2
          obtain ⟨a1, a2, a3, a4, a5, a6, a7⟩ := ih n presses (xs ++ [x]) (ys ++ [y]) (by simp [hxy])
            (by simpa using h1) (by simpa using h2) (fun q hq => h3 q (by simp [hq]))
          have hp : p ≠ some true := h3 p (by simp)
          refine ⟨a1, a2, a3, ?_, ?_, by rw [a6]; simp; omega, by rw [a7]; simp⟩
          · rw [← a4]
            rcases p with _ | _ | _
            · rfl
            · rfl
            · exact absurd rfl hp
          · rw [a5, List.zip_append hxy]; simp
  obtain ⟨xs, ys, u', h1, h2, h3, h4⟩ := key u.picks npts.toNat u.presses [] [] rfl (by omega) (by omega) hnokey
  exact ⟨xs, ys, u', by simpa [ginputSession] using h1, by simpa using h2, by simp at h3; omega, h4⟩

example : ginputSession true 3 true ⟨[[(1, 2), (3, 4)], [], [(5, 6)], [(7, 8)]],
    [none, some true, some false, some true, none, some true, some true]⟩ =
    some ([3, 5], [4, 6], ⟨[[(7, 8)]], []⟩) := by decide +kernel
example : ginputSession false 2 false ⟨[[(1, 2), (3, 4)], [], [(5, 6)]], [none, some false]⟩ =
    some ([3, 5], [4, 6], ⟨[], []⟩) := by decide +kernel

/-- **C32** (partial).  If the array has two sensors or more, the user gives enough points and presses no key in the
pauses after them, the lines are made of the points in picking order, the first two for the start and the next two for
the end of the signal, and the array is muted with these lines. -/
theorem C32_interactive_mute_complete_lines_partial (tukey : ℕ → List ℚ) (a : Arr) (timeOnY : Bool) (u : User)
    (h2 : 2 ≤ a.sensors.length) (p1 p2 p3 p4 : Pt) (more : List Pt) (hp : lastPoints u.picks = p1 :: p2 :: p3 :: p4 :: more)
    (hpress : 4 ≤ u.presses.length) (hnokey : some true ∉ u.presses) :
    ∃ start stop : Arr.Line,
      (if timeOnY then start = ⟨p1.1, p1.2, p2.1, p2.2⟩ ∧ stop = ⟨p3.1, p3.2, p4.1, p4.2⟩
       else start = ⟨p1.2, p1.1, p2.2, p2.1⟩ ∧ stop = ⟨p3.2, p3.1, p4.2, p4.1⟩) ∧
      interactiveMute tukey a "both" timeOnY u = some ((a.mute tukey (some start) (some stop)).1,
        (a.mute tukey (some start) (some stop)).2.map fun _ => (some start, some stop)) := by
  have step : ∀ (w : User) (q1 q2 : Pt) (rest : List Pt), lastPoints w.picks = q1 :: q2 :: rest →
      2 ≤ w.presses.length → some true ∉ w.presses →
      ∃ w' : User, ginputSession false 2 false w = some ([q1.1, q2.1], [q1.2, q2.2], w') ∧
        lastPoints w'.picks = rest ∧ w.presses.length = w'.presses.length + 2 ∧ some true ∉ w'.presses := by
    intro w q1 q2 rest hw hl hk
    obtain ⟨xs, ys, w', h1, h2, h3, h4⟩ := C31_session_completes 2 w (by rw [hw]; simp; omega) (by omega)
      (fun p hp hc => hk (hc ▸ List.mem_of_mem_take hp))
    obtain ⟨used, pressed, g1, g2, g3, g4, -, -⟩ := C31_session_returns_last_points _ _ _ _ _ _ _ h1
    have e2 : xs.zip ys = [q1, q2] := by rw [h2, hw]; rfl
    have hx : xs = [q1.1, q2.1] ∧ ys = [q1.2, q2.2] := by
      have hxl : xs.length = 2 := by omega
      have hyl : ys.length = 2 := by omega
      match xs, ys, hxl, hyl with
      | [a, b], [c, d], _, _ =>
        simp only [List.zip_cons_cons, List.zip_nil_left, List.cons.injEq, and_true] at e2
        rw [← e2.1, ← e2.2]
        simp
    refine ⟨w', by rw [h1, hx.1, hx.2], ?_, ?_, ?_⟩
    · have : lastPoints w.picks = lastPoints used ++ lastPoints w'.picks := by rw [g1]; simp [lastPoints]
      rw [hw, ← g4, e2] at this
      simpa using this.symm
    · rw [h4, List.length_drop]
      have : (2 : ℤ).toNat = 2 := rfl
      omega
    · intro hc
      rw [h4] at hc
      exact hk (List.mem_of_mem_drop hc)
  obtain ⟨u1, h1, hu, h3, h4⟩ := step u p1 p2 (p3 :: p4 :: more) hp (by omega) hnokey
  obtain ⟨u2, g1, -, -, -⟩ := step u1 p3 p4 more hu (by omega) h4
  have hlen : ¬ a.sensors.length < 2 := by omega
  have b1 : ("both" == "before" || "both" == "both") = true := by decide +kernel
  have b2 : ("both" == "after" || "both" == "both") = true := by decide +kernel
  cases timeOnY with
  | true =>
    refine ⟨_, _, ⟨rfl, rfl⟩, ?_⟩
    simp only [interactiveMute, hlen, pickLine, b1, b2, if_true, if_false, h1, g1, parseLine]
    rcases a.mute tukey (some ⟨p1.1, p1.2, p2.1, p2.2⟩) (some ⟨p3.1, p3.2, p4.1, p4.2⟩) with ⟨a', e | ⟨⟨⟩⟩⟩ <;>
      rfl
  | false =>
    refine ⟨_, _, ⟨rfl, rfl⟩, ?_⟩
    simp only [interactiveMute, hlen, pickLine, b1, b2, if_true, if_false, h1, g1, parseLine, Bool.false_eq_true]
    rcases a.mute tukey (some ⟨p1.2, p1.1, p2.2, p2.1⟩) (some ⟨p3.2, p3.1, p4.2, p4.1⟩) with ⟨a', e | ⟨⟨⟩⟩⟩ <;>
      rfl

example : lastPoints [[(0, 1), (0, 2)], [(9, 5)], [], [(0, 7)], [(9, 9)]] =
    [((0 : ℚ), (2 : ℚ)), (9, 5), (0, 7), (9, 9)] := by decide +kernel

/-- **C32**: the full property fails.  A key pressed within 0.3 s of the first point ends the session with one
point, and `interactive_mute` raises IndexError. -/
theorem C32_key_press_counterexample (tukey : ℕ → List ℚ) (a : Arr) (timeOnY : Bool) (p : Pt)
    (rest : List (List Pt)) (presses : List (Option Bool)) :
    interactiveMute tukey a "both" timeOnY ⟨[p] :: rest, some true :: presses⟩ =
      some (a, .error .indexError) := by
  simp [interactiveMute, pickLine, ginputSession, selectLoop, parseLine]

/-- **C32**: nor are the lines asked for when the array has only one sensor: the plot on which they are to be drawn cannot
be made, whatever the user does. -/
theorem C32_one_sensor_fails (tukey : ℕ → List ℚ) (s : Sensor) (src : Source) (location : String) (timeOnY : Bool) (u : User) :
    interactiveMute tukey ⟨[s], src⟩ location timeOnY u = some (⟨[s], src⟩, .error .indexError) := by
  simp [interactiveMute]

end Verif.Props
