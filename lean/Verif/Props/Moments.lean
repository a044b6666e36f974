import Verif.Lemmas.Moments
import Mathlib.Algebra.Order.Field.Basic
import Mathlib.Algebra.Order.BigOperators.Group.List
import Mathlib.Algebra.Order.Ring.Rat
import Mathlib.Analysis.SpecialFunctions.Pow.NNReal
import Mathlib.Tactic.NormNum

/-!
# The criterion of the method of simulated moments (C61, C62)
-/

set_option linter.unusedSectionVars false

namespace Respy

section
variable {K : Type _} [Field K] {D : Type _}

/-- C61: whenever the criterion has a value, there is a vector `x` of moment errors without missing values,
the weighting matrix is square and of the same size, and the value is `∑ᵢ ∑ⱼ xᵢ wᵢⱼ xⱼ`. -/
theorem C61_quadratic_form (funcs : Dict Str (D → Option (Moments K)))
    (replaceNans : Dict Str (Moments K → Option (Moments K))) (empirical : Dict Str (Moments K))
    (w : List (List K)) (df : D) (v : K) :
    criterion funcs replaceNans empirical w df = some (some v) ↔
      ∃ (e : Series K) (x : List K), momentErrors funcs replaceNans empirical df = some e ∧ e.map Prod.snd = x.map some ∧
        w.length = x.length ∧ (∀ row ∈ w, row.length = x.length) ∧
        v = ∑ i ∈ Finset.range x.length, ∑ j ∈ Finset.range x.length,
          x.getD i 0 * (w.getD i []).getD j 0 * x.getD j 0 := by
  have hw : ∀ i j, weightAt w i j = (w.getD i []).getD j 0 := by
    intro i j
    unfold weightAt
    rw [List.getD_eq_getElem?_getD, List.getD_eq_getElem?_getD]
    cases w[i]? <;> simp
  have hx : ∀ x : List K, vecDot (vecMat x w) x = ∑ i ∈ Finset.range x.length,
      ∑ j ∈ Finset.range x.length, x.getD i 0 * (w.getD i []).getD j 0 * x.getD j 0 := by
    intro x
    rw [vecDot_vecMat]
    refine Finset.sum_congr rfl fun i _ => Finset.sum_congr rfl fun j _ => ?_
    rw [hw, List.getD_eq_getElem?_getD (l := x), List.getD_eq_getElem?_getD (l := x)]
  unfold criterion
  constructor
  · intro h
    obtain ⟨e, he, h⟩ := Option.bind_eq_some_iff.1 h
    obtain ⟨x, hex, hs, rfl⟩ := (criterionValue_eq_some_iff _ _ _).1 h
    exact ⟨e, x, he, hex, hs.1, hs.2, hx x⟩
  · rintro ⟨e, x, he, hex, h1, h2, rfl⟩
    rw [he]
    exact (criterionValue_eq_some_iff _ _ _).2 ⟨x, hex, ⟨h1, h2⟩, (hx x).symm⟩

variable [LinearOrder K] [IsStrictOrderedRing K]

theorem zipWith_sq_nonneg (x ws : List K) (hw : ∀ w ∈ ws, 0 ≤ w) :
    0 ≤ (List.zipWith (fun x w => w * x ^ 2) x ws).sum := by
  induction x generalizing ws with
  | nil => simp
  | cons a x ih =>
    cases ws with
    | nil => simp
    | cons b ws =>
      rw [List.zipWith_cons_cons, List.sum_cons]
      exact add_nonneg (mul_nonneg (hw b (by simp)) (sq_nonneg a)) (ih ws fun w h => hw w (by simp [h]))

theorem zipWith_sq_zero (x ws : List K) (hl : x.length = ws.length) (hw : ∀ w ∈ ws, 0 < w) :
    (List.zipWith (fun x w => w * x ^ 2) x ws).sum = 0 ↔ ∀ y ∈ x, y = 0 := by
  induction x generalizing ws with
  | nil => simp
  | cons a x ih =>
    cases ws with
    | nil => simp at hl
    | cons b ws =>
      have hb := hw b (by simp)
      rw [List.zipWith_cons_cons, List.sum_cons,
        add_eq_zero_iff_of_nonneg (mul_nonneg hb.le (sq_nonneg a))
          (zipWith_sq_nonneg x ws fun w h => (hw w (by simp [h])).le),
        ih ws (by simpa using hl) fun w h => hw w (by simp [h])]
      simp [hb.ne']

/-- C61: with non-negative weights on the diagonal the criterion is not negative. -/
theorem C61_nonneg (funcs : Dict Str (D → Option (Moments K)))
    (replaceNans : Dict Str (Moments K → Option (Moments K))) (empirical : Dict Str (Moments K))
    (ws : List K) (hw : ∀ w ∈ ws, 0 ≤ w) (df : D) (v : K)
    (h : criterion funcs replaceNans empirical (diagMatrix ws) df = some (some v)) : 0 ≤ v := by
  obtain ⟨e, -, h⟩ := Option.bind_eq_some_iff.1 h
  obtain ⟨x, -, hs, rfl⟩ := (criterionValue_eq_some_iff _ _ _).1 h
  rw [vecDot_diag x ws ((fitsShape_diag_iff _ _).1 hs).symm]
  exact zipWith_sq_nonneg x ws hw

/-- C61: with positive weights on the diagonal the criterion is zero iff the simulated moments (after
reindexing and replacement of missing values) and the empirical moments are the same label by label. -/
theorem C61_zero_iff (funcs : Dict Str (D → Option (Moments K)))
    (replaceNans : Dict Str (Moments K → Option (Moments K))) (empirical : Dict Str (Moments K))
    (ws : List K) (hw : ∀ w ∈ ws, 0 < w) (df : D) (v : K)
    (h : criterion funcs replaceNans empirical (diagMatrix ws) df = some (some v))
    (flatEmpirical : Series K) (hflat : flattenIndex empirical = some flatEmpirical)
    (hlabels : (flatEmpirical.map Prod.fst).Nodup) :
    v = 0 ↔ ∃ simulated flatSimulated, simulatedMoments funcs replaceNans empirical df = some simulated ∧
      flattenIndex simulated = some flatSimulated ∧
      ∀ label value, (label, value) ∈ flatEmpirical ↔ (label, value) ∈ flatSimulated := by
  obtain ⟨e, he, h⟩ := Option.bind_eq_some_iff.1 h
  obtain ⟨x, hx, hs, rfl⟩ := (criterionValue_eq_some_iff _ _ _).1 h
  have hl := ((fitsShape_diag_iff _ _).1 hs).symm
  unfold momentErrors at he
  obtain ⟨sim, hsim, he⟩ := Option.bind_eq_some_iff.1 he
  obtain ⟨flatE, hflatE, he⟩ := Option.bind_eq_some_iff.1 he
  obtain ⟨flatS, hflatS, he⟩ := Option.bind_eq_some_iff.1 he
  rw [hflat] at hflatE
  cases hflatE
  rw [vecDot_diag x ws hl, zipWith_sq_zero x ws hl hw, subSeries_zero_iff flatEmpirical flatS e hlabels he x hx]
  constructor
  · intro h
    exact ⟨sim, flatS, hsim, hflatS, h⟩
  · rintro ⟨sim', flatS', h1, h2, h3⟩
    rw [hsim] at h1
    cases h1
    rw [hflatS] at h2
    cases h2
    exact h3

end

/-! ## An example -/

/-- Empirical moments: a frame and a series. -/
def exampleEmpirical : Dict Str (Moments ℚ) :=
  [("a".toList, ⟨["0".toList, "1".toList], some ["mean".toList, "std".toList],
    [[some 1, some 2], [some 3, some 4]]⟩), ("b".toList, ⟨["0".toList, "1".toList], none, [[some 5, some 6]]⟩)]

/-- Functions which return the moments times a factor plus another order of rows and columns. -/
def exampleFuncs : Dict Str (ℚ → Option (Moments ℚ)) :=
  [("a".toList, fun f => some ⟨["1".toList, "0".toList], some ["std".toList, "mean".toList],
    [[some (4 * f), some (3 * f)], [some (2 * f), some (1 * f)]]⟩),
   ("b".toList, fun f => some ⟨["0".toList, "1".toList], none, [[some (5 * f), some (6 * f)]]⟩)]

/-- Nothing is replaced. -/
def exampleReplace : Dict Str (Moments ℚ → Option (Moments ℚ)) := [("a".toList, some), ("b".toList, some)]

example : criterion exampleFuncs exampleReplace exampleEmpirical (diagMatrix [1, 1, 1, 1, 1, 2]) 2
    = some (some 127) := by decide +kernel

example : criterion exampleFuncs exampleReplace exampleEmpirical (diagMatrix [1, 1, 1, 1, 1, 2]) 1
    = some (some 0) := by decide +kernel

example : ∃ flat, flattenIndex exampleEmpirical = some flat ∧ (flat.map Prod.fst).Nodup :=
  ⟨_, rfl, by decide +kernel⟩

/-! ## Root contributions -/

section
open Real

/-- C62 for diagonal matrices with non-negative weights: the squared root contributions sum to the criterion.
Missing: weighting matrices with other entries, for which the claim is wrong (`C62_false`). -/
theorem C62_partial (e : List (Option ℝ)) (ws : List ℝ) (hw : ∀ w ∈ ws, 0 ≤ w) (roots : List ℝ) (v : ℝ)
    (hr : rootContributions Real.sqrt e (diagMatrix ws) = some (some roots))
    (hv : criterionValue e (diagMatrix ws) = some (some v)) :
    (roots.map fun r => r ^ 2).sum = v := by
  obtain ⟨x, rfl, hs, rfl⟩ := (criterionValue_eq_some_iff _ _ _).1 hv
  have hl := ((fitsShape_diag_iff _ _).1 hs).symm
  unfold rootContributions at hr
  rw [if_pos (by simpa using hs), (mapM_id_eq_some_iff _ x).2 rfl] at hr
  simp only [Option.map_some, Option.some.injEq] at hr
  subst hr
  rw [vecDot_diag x ws hl, zipWith_sum_eq x.length _ _ _ 0 0 rfl hl.symm]
  unfold vecMat
  rw [List.map_map, sum_map_range]
  refine Finset.sum_congr rfl fun j hj => ?_
  have hj := Finset.mem_range.1 hj
  simp only [Function.comp_apply]
  rw [sum_map_range, Finset.sum_eq_single j]
  · have hd : weightAt ((diagMatrix ws).map fun row => row.map Real.sqrt) j j = Real.sqrt ((ws[j]?).getD 0) := by
      have hjw : j < ws.length := by omega
      simp [weightAt, diagMatrix, hjw]
    rw [hd, mul_pow, Real.sq_sqrt]
    · ring
    · rw [List.getElem?_eq_getElem (by omega)]
      exact hw _ (List.getElem_mem _)
  · intro i hi hij
    have hi := Finset.mem_range.1 hi
    have hd : weightAt ((diagMatrix ws).map fun row => row.map Real.sqrt) i j = 0 := by
      have hiw : i < ws.length := by omega
      have hjw : j < ws.length := by omega
      simp [weightAt, diagMatrix, hiw, hjw, hij]
    rw [hd, mul_zero]
  · intro hn
    exact absurd (Finset.mem_range.2 hj) hn

/-- C62 is wrong for positive semi-definite matrices in general: the root is taken entry by entry. -/
theorem C62_false : ∃ (e : List (Option ℝ)) (w : List (List ℝ)) (roots : List ℝ) (v : ℝ),
    (∀ x y : ℝ, 0 ≤ vecDot (vecMat [x, y] w) [x, y]) ∧ fitsShape 2 w ∧
    rootContributions Real.sqrt e w = some (some roots) ∧ criterionValue e w = some (some v) ∧
    (roots.map fun r => r ^ 2).sum ≠ v := by
  refine ⟨[some 1, some 1], [[1, 1], [1, 1]], [2, 2], 4, ?_, by simp [fitsShape], ?_, ?_, by norm_num⟩
  · intro x y
    have : vecDot (vecMat [x, y] [[1, 1], [1, 1]]) [x, y] = (x + y) ^ 2 := by
      simp [vecDot, vecMat, weightAt, List.range_succ]
      ring
    rw [this]
    positivity
  · simp [rootContributions, fitsShape, vecMat, weightAt, List.range_succ]
    norm_num
  · simp [criterionValue, fitsShape, vecDot, vecMat, weightAt, List.range_succ]
    norm_num

end

end Respy
