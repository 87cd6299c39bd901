import Verif.Props.Statistics
import Verif.Props.Suite
import Mathlib.Tactic.LinearCombination
import Mathlib.Tactic.FieldSimp

/-!
# C189: statistics of combined suites
-/

namespace Verif.Props
open Verif Mat

namespace CombinedStats

/-- The values at one sample location: a column of what `to_array` returns, without the missing ones. -/
def valuesAt (m : Mat) (c : ℕ) : List ℚ := m.rows.filterMap fun row => (row[c]?).bind id

theorem valuesAt_eq (m : Mat) (c n : ℕ) (hn : m.rows.length = n) :
    ((List.range n).filterMap fun r => entry m.rows r c) = valuesAt m c := by
  subst hn
  have : ∀ rows : List (List (Option ℚ)), ((List.range rows.length).filterMap fun r => entry rows r c) =
      rows.filterMap fun row => (row[c]?).bind id := by
    intro rows
    have e : (List.range rows.length).map (fun r => entry rows r c) = rows.map fun row => (row[c]?).bind id := by
      refine List.ext_getElem (by simp) fun i h1 h2 => ?_
      simp only [List.length_map, List.length_range] at h1
      simp only [List.getElem_map, List.getElem_range, entry, List.getD_eq_getElem?_getD, List.getElem?_eq_getElem h1,
        Option.getD_some]
      rcases (rows[i])[c]? with _ | x <;> rfl
    have e2 := congrArg (List.filterMap id) e
    rw [List.filterMap_map, List.filterMap_map] at e2
    exact e2
  exact this m.rows

theorem arrayRows_append (xtype ytype : String) (xx : List ℚ) (ps qs : List Peaks) (ra rb : List (List (Option ℚ)))
    (ha : Suite.arrayRows xtype ytype xx ps = .ok ra) (hb : Suite.arrayRows xtype ytype xx qs = .ok rb) :
    Suite.arrayRows xtype ytype xx (ps ++ qs) = .ok (ra ++ rb) := by
  induction ps generalizing ra with
  | nil =>
    simp only [Suite.arrayRows, Except.ok.injEq] at ha
    subst ha
    exact hb
  | cons p ps ih =>
    simp only [Suite.arrayRows, List.cons_append] at ha ⊢
    rcases h1 : Suite.arrayRow xtype ytype xx p with e | r
    · rw [h1] at ha; cases ha
    rw [h1] at ha
    dsimp only at ha ⊢
    rcases h2 : Suite.arrayRows xtype ytype xx ps with e | rs
    · rw [h2] at ha; cases ha
    rw [h2] at ha
    simp only [Except.ok.injEq] at ha
    subst ha
    rw [ih rs h2]
    rfl

theorem toArray_append {A B : Suite} {xtype ytype : String} {xx : List ℚ} {xa xb : List ℚ} {mA mB : Mat}
    (hA : A.toArray xtype ytype xx = .ok (xa, mA)) (hB : B.toArray xtype ytype xx = .ok (xb, mB)) (ids : List String) :
    Suite.toArray ⟨A.peaks ++ B.peaks, ids⟩ xtype ytype xx = .ok (xx, ⟨xx.length, mA.rows ++ mB.rows⟩) := by
  unfold Suite.toArray at *
  rcases h1 : Suite.arrayRows xtype ytype xx A.peaks with e | ra
  · rw [h1] at hA; cases hA
  rcases h2 : Suite.arrayRows xtype ytype xx B.peaks with e | rb
  · rw [h2] at hB; cases hB
  rw [h1] at hA
  rw [h2] at hB
  simp only [Except.ok.injEq, Prod.mk.injEq] at hA hB
  obtain ⟨-, rfl⟩ := hA
  obtain ⟨-, rfl⟩ := hB
  dsimp only
  rw [arrayRows_append xtype ytype xx _ _ ra rb h1 h2]

theorem valuesAt_append (a b : List (List (Option ℚ))) (n n1 n2 c : ℕ) :
    valuesAt ⟨n, a ++ b⟩ c = valuesAt ⟨n1, a⟩ c ++ valuesAt ⟨n2, b⟩ c := by simp [valuesAt]

theorem isMean_some {vs : List ℚ} {q : ℚ} (h : Spec.IsMean vs (some q)) : vs ≠ [] ∧ q * vs.length = vs.sum := by
  rcases h with ⟨-, h⟩ | ⟨h, r, e, hr⟩
  · cases h
  · injection e with e
    subst e
    exact ⟨h, hr⟩

/-- Squares about another centre. -/
theorem squares_about (vs : List ℚ) (mu nu : ℚ) (h : mu * vs.length = vs.sum) :
    (vs.map fun (v : ℚ) => ((v : ℝ) - nu) ^ 2).sum =
      (vs.map fun (v : ℚ) => ((v : ℝ) - mu) ^ 2).sum + vs.length * ((mu : ℝ) - nu) ^ 2 := by
  have key : ∀ (l : List ℚ) (m n : ℝ), (l.map fun (v : ℚ) => ((v : ℝ) - n) ^ 2).sum =
      (l.map fun (v : ℚ) => ((v : ℝ) - m) ^ 2).sum + 2 * (m - n) * ((l.sum : ℚ) : ℝ) + l.length * (n ^ 2 - m ^ 2) := by
    intro l m n
    induction l with
    | nil => simp
    | cons x l ih =>
      simp only [List.map_cons, List.sum_cons, List.length_cons, ih]
      push_cast
      ring
  rw [key vs mu nu, ← h]
  push_cast
  ring

end CombinedStats
open CombinedStats

/-- **C189**.  Two suites put together: at a sample location for which both have statistics the combination has them,
too.  With `n` values at this location in one suite and `m` in the other, its mean is the mean of the two means with
weights `n` and `m`, and its variance is made of the two variances and the difference of the means. -/
theorem C189_combined (A B AB : Suite) (hA : SuiteOk A) (hB : SuiteOk B) (hAB : Suite.fromSuites [A, B] = .ok AB)
    (xtype ytype : String) (xx : List ℚ) (hxx : xx.Nodup) (count : ℕ)
    (hsize : A.peaks.length + B.peaks.length ≤ 100 ∧ xx.length ≤ 100)
    (mA mB : Mat) (arrA : A.toArray xtype ytype xx = .ok (xx, mA)) (arrB : B.toArray xtype ytype xx = .ok (xx, mB))
    (anyA : ∃ c < xx.length, valuesAt mA c ≠ []) (anyB : ∃ c < xx.length, valuesAt mB c ≠ [])
    (locA locB : List ℚ) (meanA meanB : List (Option ℚ)) (stdA stdB : List (Option ℝ))
    (statA : A.statistics xtype ytype xx count = .ok (locA, meanA, stdA))
    (statB : B.statistics xtype ytype xx count = .ok (locB, meanB, stdB)) :
    ∃ (loc : List ℚ) (mean : List (Option ℚ)) (std : List (Option ℝ)),
      AB.statistics xtype ytype xx count = .ok (loc, mean, std) ∧
      ∀ (c i j : ℕ) (x : ℚ), xx[c]? = some x → locA[i]? = some x → locB[j]? = some x →
        let n := (valuesAt mA c).length
        let m := (valuesAt mB c).length
        ∃ (k : ℕ) (a b q : ℚ), loc[k]? = some x ∧ 0 < n ∧ 0 < m ∧
          meanA[i]? = some (some a) ∧ meanB[j]? = some (some b) ∧ mean[k]? = some (some q) ∧
          q = (n * a + m * b) / (n + m) ∧
          ∀ s t : ℝ, stdA[i]? = some (some s) → stdB[j]? = some (some t) →
            ∃ u, std[k]? = some (some u) ∧ 0 ≤ u ∧
              u ^ 2 * (n + m - 1) = s ^ 2 * (n - 1) + t ^ 2 * (m - 1) + n * m / (n + m) * ((a : ℝ) - b) ^ 2 := by
  have big : ∀ {S : Suite} {l mu sd}, S.statistics xtype ytype xx count = .ok (l, mu, sd) → 3 ≤ S.peaks.length := by
    intro S l mu sd h
    by_contra hc
    rw [(C54_statistics S xtype ytype xx count).1 (by omega)] at h
    cases h
  have bA := big statA
  have bB := big statB
  have hpk : AB.peaks = A.peaks ++ B.peaks := by
    have hc := C48_combine A [B] (by
      intro t ht
      simp only [List.mem_cons, List.not_mem_nil, or_false] at ht
      rcases ht with rfl | rfl
      · exact ⟨hA, fun e => by rw [e] at bA; simp at bA⟩
      · exact ⟨hB, fun e => by rw [e] at bB; simp at bB⟩)
    by_cases hn : (((A :: [B]).flatMap Suite.peaks).map Peaks.identifier).Nodup
    · have := hAB.symm.trans (hc.1 hn)
      injection this with this
      rw [this]
      simp
    · have := hAB.symm.trans (hc.2 hn)
      cases this
  obtain ⟨-, cA, -, rA, -⟩ := toArray_spec _ _ _ _ _ _ arrA
  obtain ⟨-, cB, -, rB, -⟩ := toArray_spec _ _ _ _ _ _ arrB
  have arrAB : AB.toArray xtype ytype xx = .ok (xx, ⟨xx.length, mA.rows ++ mB.rows⟩) := by
    have := toArray_append arrA arrB AB.ids
    rw [← hpk] at this
    exact this
  have some_of : ∀ (m : Mat) (n : ℕ), m.rows.length = n → (∃ c < xx.length, valuesAt m c ≠ []) →
      ∃ r < n, ∃ c < xx.length, (entry m.rows r c).isSome := by
    rintro m n hn ⟨c, hc, hne⟩
    rw [← valuesAt_eq m c n hn] at hne
    obtain ⟨v, hv⟩ := List.exists_mem_of_ne_nil _ hne
    obtain ⟨r, hr, e⟩ := List.mem_filterMap.1 hv
    exact ⟨r, List.mem_range.1 hr, c, hc, by rw [e]; rfl⟩
  have lenAB : AB.peaks.length = A.peaks.length + B.peaks.length := by rw [hpk, List.length_append]
  have anyAB : ∃ c < xx.length, valuesAt ⟨xx.length, mA.rows ++ mB.rows⟩ c ≠ [] := by
    obtain ⟨c, hc, hne⟩ := anyA
    refine ⟨c, hc, ?_⟩
    rw [valuesAt_append mA.rows mB.rows _ mA.ncols mB.ncols c]
    exact fun e => hne (List.append_eq_nil_iff.1 e).1
  have rAB : (Mat.mk xx.length (mA.rows ++ mB.rows)).rows.length = AB.peaks.length := by
    change (mA.rows ++ mB.rows).length = _
    rw [List.length_append, rA, rB, lenAB]
  obtain ⟨CA, mA', sA', eA, subA, lA1, lA2, vA, keptA⟩ :=
    C53_at_most_100_samples_partial A xtype ytype xx count bA xx mA arrA hsize.2 (some_of mA _ rA anyA)
  obtain ⟨CB, mB', sB', eB, subB, lB1, lB2, vB, keptB⟩ :=
    C53_at_most_100_samples_partial B xtype ytype xx count bB xx mB arrB hsize.2 (some_of mB _ rB anyB)
  obtain ⟨C, mean, std, e, sub, l1, l2, v, kept⟩ :=
    C53_at_most_100_samples_partial AB xtype ytype xx count (by omega) xx _ arrAB hsize.2 (some_of _ _ rAB anyAB)
  dsimp only at vA vB v keptA keptB kept
  rw [statA] at eA
  rw [statB] at eB
  simp only [Except.ok.injEq, Prod.mk.injEq] at eA eB
  obtain ⟨rfl, rfl, rfl⟩ := eA
  obtain ⟨rfl, rfl, rfl⟩ := eB
  refine ⟨_, mean, std, e, fun c i j x hx hi hj => ?_⟩
  have hcl : c < xx.length := by
    by_contra h
    rw [List.getElem?_eq_none (by omega)] at hx
    cases hx
  -- the position in `xx` belongs to the location
  have pos : ∀ {D : List ℕ} {k : ℕ}, D.Sublist (List.range xx.length) →
      (D.map fun d => xx.getD d 0)[k]? = some x → D[k]? = some c := by
    intro D k hs hk
    rw [List.getElem?_map] at hk
    rcases hd : D[k]? with _ | d
    · rw [hd] at hk; cases hk
    rw [hd, Option.map_some, Option.some.injEq] at hk
    have hdl : d < xx.length := List.mem_range.1 (hs.subset (List.mem_of_getElem? hd))
    rw [List.getD_eq_getElem?_getD, List.getElem?_eq_getElem hdl, Option.getD_some] at hk
    rw [List.getElem?_eq_getElem hcl, Option.some.injEq] at hx
    have := (List.Nodup.getElem_inj_iff hxx).1 (hk.trans hx.symm)
    rw [this]
  have pA := pos subA hi
  have pB := pos subB hj
  obtain ⟨nA, hmA, hsA⟩ := vA i c pA
  obtain ⟨nB, hmB, hsB⟩ := vB j c pB
  simp only [valuesAt_eq mA c _ rA] at nA hmA hsA
  simp only [valuesAt_eq mB c _ rB] at nB hmB hsB
  have neA : valuesAt mA c ≠ [] := by
    have := ((keptA (by omega) c hcl).1 (List.mem_of_getElem? pA)).2
    rwa [valuesAt_eq mA c _ rA] at this
  have neB : valuesAt mB c ≠ [] := by
    have := ((keptB (by omega) c hcl).1 (List.mem_of_getElem? pB)).2
    rwa [valuesAt_eq mB c _ rB] at this
  have happ := valuesAt_append mA.rows mB.rows xx.length mA.ncols mB.ncols c
  change _ = valuesAt mA c ++ valuesAt mB c at happ
  have hmem : c ∈ C := by
    refine (kept (by omega) c hcl).2 ?_
    rw [valuesAt_eq _ c _ rAB, happ]
    exact ⟨by rw [List.length_append]; omega, fun h => neA (List.append_eq_nil_iff.1 h).1⟩
  obtain ⟨k, hk, hkc⟩ := List.mem_iff_getElem.1 hmem
  have pk : C[k]? = some c := by rw [List.getElem?_eq_getElem hk, hkc]
  obtain ⟨-, hm, hs⟩ := v k c pk
  simp only [valuesAt_eq _ c _ rAB, happ] at hm hs
  have get : ∀ {α : Type} {l : List (Option α)} {k n : ℕ}, l.length = n → k < n → l[k]? = some (l.getD k none) := by
    intro α l k n h1 h2
    rw [List.getD_eq_getElem?_getD, List.getElem?_eq_getElem (by omega)]
    rfl
  have iA : i < CA.length := (List.getElem?_eq_some_iff.1 pA).1
  have jB : j < CB.length := (List.getElem?_eq_some_iff.1 pB).1
  have gA := get lA1 iA
  have gB := get lB1 jB
  have g := get l1 hk
  have gsA := get lA2 iA
  have gsB := get lB2 jB
  have gs := get l2 hk
  have posA : 0 < (valuesAt mA c).length := List.length_pos_iff.2 neA
  have posB : 0 < (valuesAt mB c).length := List.length_pos_iff.2 neB
  generalize valuesAt mA c = va at *
  generalize valuesAt mB c = vb at *
  rcases hmA with ⟨h0, -⟩ | ⟨-, a, ea, ha⟩
  · exact absurd h0 neA
  rcases hmB with ⟨h0, -⟩ | ⟨-, b, eb, hb⟩
  · exact absurd h0 neB
  rcases hm with ⟨h0, -⟩ | ⟨-, q, heq, hq⟩
  · exact absurd (List.append_eq_nil_iff.1 h0).1 neA
  have pa : (0 : ℚ) < va.length := by exact_mod_cast posA
  have pb : (0 : ℚ) < vb.length := by exact_mod_cast posB
  have hqv : q = (va.length * a + vb.length * b) / (va.length + vb.length) := by
    rw [eq_div_iff (by positivity)]
    rw [List.sum_append, List.length_append, ← ha, ← hb] at hq
    push_cast at hq
    linear_combination hq
  refine ⟨k, a, b, q, ?_, posA, posB, by rw [gA, ea], by rw [gB, eb], by rw [g, heq], hqv, ?_⟩
  · rw [List.getElem?_map, pk, Option.map_some, List.getD_eq_getElem?_getD, hx]
    rfl
  · intro s t es et
    rw [gsA, Option.some.injEq] at es
    rw [gsB, Option.some.injEq] at et
    rw [es] at hsA
    rw [et] at hsB
    rcases hsA with ⟨-, h0⟩ | ⟨l2A, a', s', ma', e', -, vs'⟩
    · cases h0
    rcases hsB with ⟨-, h0⟩ | ⟨l2B, b', t', mb', e'', -, vt'⟩
    · cases h0
    injection e' with e'
    injection e'' with e''
    subst e' e''
    obtain ⟨-, ha'⟩ := isMean_some ma'
    obtain ⟨-, hb'⟩ := isMean_some mb'
    obtain rfl : a' = a := mul_right_cancel₀ pa.ne' (ha'.trans ha.symm)
    obtain rfl : b' = b := mul_right_cancel₀ pb.ne' (hb'.trans hb.symm)
    rcases hs with ⟨h0, -⟩ | ⟨-, q', u, mq', eu, u0, vu⟩
    · rw [List.length_append] at h0
      omega
    obtain ⟨-, hq'⟩ := isMean_some mq'
    have hlen : ((va ++ vb).length : ℚ) ≠ 0 := by
      rw [List.length_append]
      push_cast
      positivity
    obtain rfl : q' = q := mul_right_cancel₀ hlen (hq'.trans hq.symm)
    refine ⟨u, by rw [gs, eu], u0, ?_⟩
    rw [List.map_append, List.sum_append, List.length_append, squares_about va a' q' ha, squares_about vb b' q' hb,
      ← vs', ← vt'] at vu
    push_cast at vu
    rw [vu]
    have pa' : (0 : ℝ) < va.length := by exact_mod_cast posA
    have pb' : (0 : ℝ) < vb.length := by exact_mod_cast posB
    have hne : (va.length : ℝ) + vb.length ≠ 0 := by positivity
    have hqr : (q' : ℝ) = (va.length * a' + vb.length * b') / (va.length + vb.length) := by
      rw [hqv]
      push_cast
      rfl
    rw [hqr]
    field_simp
    ring

namespace CombinedStats

/-- Three curves. -/
def firstThree : Suite :=
  ⟨[statMember "a" [1, 3] [15, 35], statMember "b" [1, 2] [16, 25], statMember "c" [2, 4] [25, 45]], ["a", "b", "c"]⟩

/-- Three more. -/
def otherThree : Suite :=
  ⟨[statMember "d" [1, 3] [10, 30], statMember "e" [1, 3] [12, 34], statMember "f" [2, 4] [26, 45]], ["d", "e", "f"]⟩

end CombinedStats

/-- The hypotheses of `C189_combined` are met by two suites of three curves, with different numbers of values at the
locations. -/
example : (SuiteOk firstThree ∧ SuiteOk otherThree) ∧ (∃ AB, Suite.fromSuites [firstThree, otherThree] = .ok AB) ∧
    (∃ mA, firstThree.toArray "frequency" "velocity" [1, 2, 3] = .ok ([1, 2, 3], mA) ∧
      (valuesAt mA 0, valuesAt mA 1, valuesAt mA 2) = ([15, 16], [25, 25, 25], [35, 35])) ∧
    (∃ mB, otherThree.toArray "frequency" "velocity" [1, 2, 3] = .ok ([1, 2, 3], mB) ∧
      (valuesAt mB 0, valuesAt mB 1, valuesAt mB 2) = ([10, 12], [20, 23, 26], [30, 34, 71 / 2])) ∧
    (∃ r, firstThree.statistics "frequency" "velocity" [1, 2, 3] 2 = .ok r) ∧
    ∃ r, otherThree.statistics "frequency" "velocity" [1, 2, 3] 2 = .ok r := by
  have hA : firstThree.toArray "frequency" "velocity" [1, 2, 3] =
      .ok ([1, 2, 3], ⟨3, [[some 15, some 25, some 35], [some 16, some 25, none], [none, some 25, some 35]]⟩) := by
    decide +kernel
  have hB : otherThree.toArray "frequency" "velocity" [1, 2, 3] =
      .ok ([1, 2, 3], ⟨3, [[some 10, some 20, some 30], [some 12, some 23, some 34], [none, some 26, some (71 / 2)]]⟩) := by
    decide +kernel
  have okA : SuiteOk firstThree := ⟨rfl, by decide⟩
  have okB : SuiteOk otherThree := ⟨rfl, by decide⟩
  refine ⟨⟨okA, okB⟩, ?_, ⟨_, hA, by decide +kernel⟩, ⟨_, hB, by decide +kernel⟩, ?_, ?_⟩
  · exact ⟨_, (C48_combine firstThree [otherThree] (by
      intro t ht
      simp only [List.mem_cons, List.not_mem_nil, or_false] at ht
      rcases ht with rfl | rfl
      · exact ⟨okA, by simp [firstThree]⟩
      · exact ⟨okB, by simp [otherThree]⟩)).1 (by decide)⟩
  · obtain ⟨_, _, _, _, e, _⟩ := (C54_statistics firstThree "frequency" "velocity" [1, 2, 3] 2).2 (by decide) _ _ hA
    exact ⟨_, e⟩
  · obtain ⟨_, _, _, _, e, _⟩ := (C54_statistics otherThree "frequency" "velocity" [1, 2, 3] 2).2 (by decide) _ _ hB
    exact ⟨_, e⟩

end Verif.Props
