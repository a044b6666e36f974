import Verif.Lemmas.ConditionalDraws2
import Mathlib.Algebra.Order.BigOperators.Group.List
import Mathlib.Tactic.IntervalCases

/-! # Properties of correlated shocks in restricted choice sets -/

set_option linter.unusedSectionVars false

namespace Respy

variable {K : Type _} [Field K] [LinearOrder K] [IsStrictOrderedRing K]

/-- The covariance of the shocks of the alternatives `a` and `b` which is specified by a factor with `n`
columns: the entry of `L L'`. -/
def specifiedCov (L : List (List K)) (n a b : Nat) : K :=
  ((List.range n).map fun j => entry L a j * entry L b j).sum

/-! ### C44 Shocks of restricted choice sets keep their covariance -/

/-- The entry of `F F'` for the rows of the restricted factor which belong to the alternatives `a` and
`b` is the sum over the available alternatives only. -/
theorem C44_restricted_covariance (L : List (List K)) (cs : List Bool) (F : List (List K))
    (h : subsetCholesky L cs = some F) (a b : Nat) (ha : cs[a]? = some true) (hb : cs[b]? = some true) :
    ∃ ra rb, F[positionIn cs a]? = some ra ∧ F[positionIn cs b]? = some rb ∧
      dotList ra rb = ((List.range cs.length).map fun j =>
        if cs[j]? = some true then entry L a j * entry L b j else 0).sum := by
  obtain ⟨_, hs⟩ := subsetCholesky_spec L cs F h
  obtain ⟨rowa, ra, hrowa, hFa, hla, hxa⟩ := hs a ha
  obtain ⟨rowb, rb, hrowb, hFb, hlb, hxb⟩ := hs b hb
  refine ⟨ra, rb, hFa, hFb, ?_⟩
  rw [dotList_eq_sum cs ra rb hla hlb]
  congr 1
  apply List.map_congr_left
  intro j _
  split
  · rename_i hj
    obtain ⟨x, hx1, hx2⟩ := hxa j hj
    obtain ⟨y, hy1, hy2⟩ := hxb j hj
    simp [entry, hrowa, hrowb, hx1, hx2, hy1, hy2]
  · rfl

/-- The covariance is *not* the specified one if a correlated alternative is missing: the variance of the
second of two alternatives is 1 instead of 5/4 if the first is not available. -/
theorem C44_covariance_false :
    ∃ (L : List (List ℚ)) (cs : List Bool) (F : List (List ℚ)) (a : Nat) (ra : List ℚ),
      cs[a]? = some true ∧ subsetCholesky L cs = some F ∧ F[positionIn cs a]? = some ra ∧
      dotList ra ra ≠ specifiedCov L cs.length a a :=
  ⟨[[1, 0], [1 / 2, 1]], [false, true], [[1]], 1, [1], by decide +kernel, by decide +kernel,
    by decide +kernel, by decide +kernel⟩

/-- The covariance is the specified one if no missing alternative contributes to both shocks. Missing:
missing alternatives which contribute to both shocks, see `C44_covariance_false` and
`C44_variance_iff`. -/
theorem C44_covariance_partial (L : List (List K)) (cs : List Bool) (F : List (List K))
    (h : subsetCholesky L cs = some F) (a b : Nat) (ha : cs[a]? = some true) (hb : cs[b]? = some true)
    (hm : ∀ j < cs.length, cs[j]? ≠ some true → entry L a j = 0 ∨ entry L b j = 0) :
    ∃ ra rb, F[positionIn cs a]? = some ra ∧ F[positionIn cs b]? = some rb ∧
      dotList ra rb = specifiedCov L cs.length a b := by
  obtain ⟨ra, rb, h1, h2, h3⟩ := C44_restricted_covariance L cs F h a b ha hb
  refine ⟨ra, rb, h1, h2, ?_⟩
  rw [h3, specifiedCov]
  congr 1
  apply List.map_congr_left
  intro j hj
  split
  · rfl
  · rename_i hj'
    rcases hm j (List.mem_range.1 hj) hj' with h0 | h0 <;> simp [h0]

/-- In particular: a lower triangular factor if all alternatives up to the smaller one are available. -/
theorem C44_earlier_available_partial (L : List (List K)) (cs : List Bool) (F : List (List K))
    (h : subsetCholesky L cs = some F) (a b : Nat) (ha : cs[a]? = some true) (hb : cs[b]? = some true)
    (hL : ∀ i j, i < j → entry L i j = 0) (hm : ∀ j, j ≤ a → j ≤ b → cs[j]? = some true) :
    ∃ ra rb, F[positionIn cs a]? = some ra ∧ F[positionIn cs b]? = some rb ∧
      dotList ra rb = specifiedCov L cs.length a b := by
  refine C44_covariance_partial L cs F h a b ha hb fun j _ hj => ?_
  by_cases h1 : a < j
  · exact Or.inl (hL a j h1)
  · by_cases h2 : b < j
    · exact Or.inr (hL b j h2)
    · exact absurd (hm j (by omega) (by omega)) hj

/-- The variance of a shock is the specified one if and only if no missing alternative contributes to it;
otherwise it is smaller. -/
theorem C44_variance_iff (L : List (List K)) (cs : List Bool) (F : List (List K))
    (h : subsetCholesky L cs = some F) (a : Nat) (ha : cs[a]? = some true) :
    ∃ ra, F[positionIn cs a]? = some ra ∧ dotList ra ra ≤ specifiedCov L cs.length a a ∧
      (dotList ra ra = specifiedCov L cs.length a a ↔
        ∀ j < cs.length, cs[j]? ≠ some true → entry L a j = 0) := by
  obtain ⟨ra, rb, h1, h2, h3⟩ := C44_restricted_covariance L cs F h a a ha ha
  rw [h1] at h2
  cases h2
  refine ⟨ra, h1, ?_⟩
  rw [h3, specifiedCov]
  have key : ∀ l : List Nat,
      (l.map fun j => if cs[j]? = some true then entry L a j * entry L a j else 0).sum ≤
        (l.map fun j => entry L a j * entry L a j).sum ∧
      ((l.map fun j => if cs[j]? = some true then entry L a j * entry L a j else 0).sum =
        (l.map fun j => entry L a j * entry L a j).sum ↔
        ∀ j ∈ l, cs[j]? ≠ some true → entry L a j = 0) := by
    intro l
    induction l with
    | nil => simp
    | cons j l ih =>
      obtain ⟨ih1, ih2⟩ := ih
      simp only [List.map_cons, List.sum_cons, List.mem_cons, forall_eq_or_imp]
      by_cases hj : cs[j]? = some true
      · simp only [hj, if_true, add_le_add_iff_left, ih1, add_right_inj, ih2, ne_eq, not_true,
          false_implies, true_and]
      · simp only [if_neg hj, zero_add]
        have hsq := mul_self_nonneg (entry L a j)
        refine ⟨ih1.trans (le_add_of_nonneg_left hsq), ?_⟩
        constructor
        · intro he
          have h0 : entry L a j * entry L a j = 0 := by
            apply le_antisymm _ hsq
            have := he ▸ ih1
            exact nonpos_of_add_le_left this
          refine ⟨fun _ => mul_self_eq_zero.1 h0, ih2.1 ?_⟩
          rw [he, h0, zero_add]
        · rintro ⟨h0, hr⟩
          rw [h0 hj, ih2.2 hr]
          simp
  obtain ⟨k1, k2⟩ := key (List.range cs.length)
  exact ⟨k1, k2.trans (by simp [List.mem_range])⟩

/-- The last of three correlated alternatives is missing. -/
example : subsetCholesky [[(1 : ℚ), 0, 0], [1 / 2, 1, 0], [1 / 3, 1, 1]] [true, true, false] =
    some [[1, 0], [1 / 2, 1]] ∧ dotList [(1 : ℚ) / 2, 1] [1 / 2, 1] = 5 / 4 := by decide +kernel

/-! ### C45 Exactly the shocks of working alternatives are exponentiated -/

/-- Solution and simulation: the transformed shock of an available alternative is the exponential of the
normal shock if the alternative pays a wage (in the bounds of the representable numbers), and the normal
shock otherwise; shocks of wages are positive. -/
theorem C45_solution_and_simulation (lo hi : ℝ) (L : List (List ℝ)) (nWages : Nat) (cs : List Bool)
    (draw e : List ℝ) (h : transformDraw Real.exp lo hi L nWages cs draw = some e) (z : Nat → ℝ)
    (hz : ∀ j : Nat, cs[j]? = some true → draw[positionIn cs j]? = some (z j)) (a : Nat)
    (ha : cs[a]? = some true) :
    ∃ x, e[positionIn cs a]? = some x ∧
      (a < nWages → 0 < x ∧
        (lo ≤ latentShock L cs z a → latentShock L cs z a ≤ hi → x = Real.exp (latentShock L cs z a))) ∧
      (nWages ≤ a → x = latentShock L cs z a) := by
  obtain ⟨_, _, h3⟩ := transformDraw_spec Real.exp lo hi L nWages cs draw e h z hz
  refine ⟨_, h3 a ha, fun hlt => ?_, fun hle => ?_⟩
  · rw [shockOf, if_pos hlt]
    exact ⟨Real.exp_pos _, fun h1 h2 => by rw [max_eq_left h1, min_eq_left h2]⟩
  · rw [shockOf, if_neg (by omega)]

/-- The transformation fails only for arrays of the wrong shape. -/
theorem C45_defined (exp : K → K) (lo hi : K) (L : List (List K)) (nWages : Nat) (cs : List Bool)
    (draw : List K) (hd : draw.length = cs.count true) (hL : L.length = cs.length)
    (hrows : ∀ row ∈ L, row.length = cs.length) :
    ∃ e, transformDraw exp lo hi L nWages cs draw = some e ∧ e.length = cs.count true := by
  have hsub : ∃ F, subsetCholesky L cs = some F := by
    unfold subsetCholesky
    have key : ∀ {α β : Type _} (f : α → Option β) (l : List α), (∀ x ∈ l, ∃ y, f x = some y) →
        ∃ ys, l.mapM f = some ys := by
      intro α β f l
      induction l with
      | nil => intro _; exact ⟨[], rfl⟩
      | cons x l ih =>
        intro hl
        obtain ⟨y, hy⟩ := hl x (by simp)
        obtain ⟨ys, hys⟩ := ih fun x hx => hl x (List.mem_cons_of_mem _ hx)
        exact ⟨y :: ys, by simp [List.mapM_cons, hy, hys]⟩
    apply key
    intro i hi
    have hi' := (List.getElem?_eq_some_iff.1 ((mem_validChoices cs i).1 hi)).1
    have hlt : i < L.length := by omega
    rw [List.getElem?_eq_getElem hlt]
    simp only [Option.bind_eq_bind, Option.bind_some]
    apply key
    intro j hj
    have hj' := (List.getElem?_eq_some_iff.1 ((mem_validChoices cs j).1 hj)).1
    have := hrows _ (List.getElem_mem hlt)
    exact ⟨_, List.getElem?_eq_getElem (by omega)⟩
  obtain ⟨F, hF⟩ := hsub
  have hlen := (subsetCholesky_spec L cs F hF).1
  simp only [transformDraw, hF, Option.bind_eq_bind, Option.bind_some, hd, hlen, if_true,
    Option.pure_def]
  exact ⟨_, rfl, by simp [hlen]⟩

/-- Likelihood: the draw of an available alternative is the exponential of the normal draw if the
alternative pays a wage (bounded from above), and the normal draw otherwise. `w` is the observed log
wage. -/
theorem C45_likelihood {n : Nat} (la : LinearAlgebra n) (maxFloat bound : ℝ) (hasMeasError : Bool)
    (meas : List ℝ) (nWagesRaw : Nat) (cs : List Bool) (choice : Nat) (hw : nWagesRaw ≤ cs.length)
    (w : Option ℝ) (wages : Fin (n + 1) → ℝ) (L : Matrix (Fin (n + 1)) (Fin (n + 1)) ℝ)
    (r : DrawsAndLogProb (n + 1))
    (h : wageLogProb la maxFloat bound hasMeasError meas nWagesRaw cs choice w wages L = some r) :
    ∃ (mean : Fin (n + 1) → ℝ) (C : Matrix (Fin (n + 1)) (Fin (n + 1)) ℝ),
      ∀ (base : Fin (n + 1) → ℝ) (a : Nat) (_ : cs[a]? = some true) (hp : positionIn cs a < n + 1),
        (a < nWagesRaw → 0 < r.draw base ⟨_, hp⟩ ∧
          (latentDraw base mean C ⟨_, hp⟩ ≤ bound →
            r.draw base ⟨_, hp⟩ = Real.exp (latentDraw base mean C ⟨_, hp⟩))) ∧
        (nWagesRaw ≤ a → r.draw base ⟨_, hp⟩ = latentDraw base mean C ⟨_, hp⟩) := by
  unfold wageLogProb at h
  obtain ⟨p, _, h⟩ := Option.bind_eq_some_iff.1 h
  split at h
  · rename_i hlt
    unfold createDrawsAndLogProbWages at h
    obtain ⟨C, hC, h⟩ := Option.bind_eq_some_iff.1 h
    cases h
    refine ⟨(updateMeanAndLoglike w (Real.log (min (max (wages ⟨p, hlt⟩) (1 / maxFloat)) maxFloat))
      (shocksCov L) ⟨p, hlt⟩ (likelihoodMeasSds meas cs)).1, C, fun base a ha hp => ⟨fun hlt => ?_, fun hle => ?_⟩⟩
    rotate_left 1
    · have : ¬ positionIn cs a < likelihoodNWages (List.range nWagesRaw) cs := by
        rw [selectValidChoices_range_length _ _ hw, positionIn_lt_nWagesIn _ _ _ ha]
        omega
      simp only [conditionalDraw_eq, rewardShock, if_neg this]
    · have : positionIn cs a < likelihoodNWages (List.range nWagesRaw) cs := by
        rw [selectValidChoices_range_length _ _ hw, positionIn_lt_nWagesIn _ _ _ ha]
        exact hlt
      simp only [conditionalDraw_eq, rewardShock, if_pos this]
      exact ⟨Real.exp_pos _, fun hb => by rw [min_eq_left hb]⟩
  · cases h

/-- The same rule: without an observed wage, the draws of the likelihood are the shocks of the solution and
the simulation for the same base draws `z`, if the normal shocks are within the lower bound, which the
likelihood does not have. `L` is the factor restricted to the choice set. -/
theorem C45_same_rule {n : Nat} (la : LinearAlgebra n) (maxFloat lo hi : ℝ) (hasMeasError : Bool)
    (meas : List ℝ) (nWagesRaw : Nat) (cs : List Bool) (choice : Nat) (hw : nWagesRaw ≤ cs.length)
    (wages : Fin (n + 1) → ℝ) (Lfull F : List (List ℝ)) (hF : subsetCholesky Lfull cs = some F)
    (hn : cs.count true = n + 1) (hlow : ∀ i j, i < j → entry Lfull i j = 0)
    (L : Matrix (Fin (n + 1)) (Fin (n + 1)) ℝ) (hL : ∀ i j, L i j = entry F i j)
    (r : DrawsAndLogProb (n + 1))
    (h : wageLogProb la maxFloat hi hasMeasError meas nWagesRaw cs choice none wages L = some r)
    (z : Nat → ℝ) (base : Fin (n + 1) → ℝ)
    (hz : ∀ (j : Nat) (hp : positionIn cs j < n + 1), cs[j]? = some true → base ⟨_, hp⟩ = z j)
    (a : Nat) (ha : cs[a]? = some true) (hlo : lo ≤ latentShock Lfull cs z a)
    (hp : positionIn cs a < n + 1) :
    r.draw base ⟨_, hp⟩ = shockOf Real.exp lo hi Lfull nWagesRaw cs z a := by
  unfold wageLogProb at h
  obtain ⟨p, _, h⟩ := Option.bind_eq_some_iff.1 h
  split at h
  · unfold createDrawsAndLogProbWages at h
    obtain ⟨C, hC, h⟩ := Option.bind_eq_some_iff.1 h
    cases h
    have hC' : C = L := by
      simp [relevantChol] at hC
      exact hC.symm
    subst hC'
    obtain ⟨hFl, hs⟩ := subsetCholesky_spec Lfull cs F hF
    have hent : ∀ i j : Nat, cs[i]? = some true → cs[j]? = some true →
        entry F (positionIn cs i) (positionIn cs j) = entry Lfull i j := by
      intro i j hi hj
      obtain ⟨row, frow, h1, h2, _, h3⟩ := hs i hi
      obtain ⟨x, h4, h5⟩ := h3 j hj
      simp [entry, h1, h2, h4, h5]
    have hlowC : IsLower C := by
      intro i j hij
      rw [hL]
      obtain ⟨i', hi', hpi⟩ := exists_of_lt_count cs i (by omega)
      obtain ⟨j', hj', hpj⟩ := exists_of_lt_count cs j (by omega)
      rw [← hpi, ← hpj, hent i' j' hi' hj']
      apply hlow
      rw [← positionIn_lt_iff cs i' j' hi', hpi, hpj]
      exact hij
    have hlat : latentDraw base (fun _ => 0) C ⟨positionIn cs a, hp⟩ = latentShock Lfull cs z a := by
      rw [latentDraw_lower _ _ hlowC, zero_add]
      obtain ⟨row, frow, h1, h2, h3, h4⟩ := hs a ha
      have e1 : ∑ j, C ⟨positionIn cs a, hp⟩ j * base j = dotList (List.ofFn base) frow := by
        unfold dotList
        have hfr : frow = List.ofFn fun j : Fin (n + 1) => C ⟨positionIn cs a, hp⟩ j := by
          apply List.ext_getElem
          · simp [h3, hn]
          · intro i hi1 hi2
            simp only [List.getElem_ofFn, hL, entry, h2, Option.bind_some,
              List.getElem?_eq_getElem hi1, Option.getD_some]
        rw [hfr]
        have : List.zipWith (· * ·) (List.ofFn base) (List.ofFn fun j => C ⟨positionIn cs a, hp⟩ j) =
            List.ofFn fun j => base j * C ⟨positionIn cs a, hp⟩ j := by
          apply List.ext_getElem
          · simp
          · intro i hi1 hi2
            simp only [List.getElem_zipWith, List.getElem_ofFn]
        rw [this, List.sum_ofFn]
        exact Finset.sum_congr rfl fun j _ => mul_comm _ _
      rw [e1, dotList_eq_sum cs _ _ (by simp [hn]) h3, latentShock]
      congr 1
      apply List.map_congr_left
      intro j _
      split
      · rename_i hj
        have hpj : positionIn cs j < n + 1 := by rw [← hn]; exact positionIn_lt cs j hj
        obtain ⟨x, h5, h6⟩ := h4 j hj
        have hb : (List.ofFn base)[positionIn cs j]? = some (z j) := by
          rw [List.getElem?_ofFn, dif_pos hpj, hz j hpj hj]
        simp only [hb, h5, Option.getD_some, entry, h1, Option.bind_some, h6]
        exact mul_comm _ _
      · rfl
    have hu : (updateMeanAndLoglike none (Real.log (min (max (wages ⟨p, by assumption⟩) (1 / maxFloat))
        maxFloat)) (shocksCov C) ⟨p, by assumption⟩ (likelihoodMeasSds meas cs)).1 = fun _ => 0 := rfl
    simp only [hu, conditionalDraw_eq, rewardShock, hlat, shockOf,
      selectValidChoices_range_length _ _ hw, positionIn_lt_nWagesIn _ _ _ ha, max_eq_left hlo]
  · cases h

/-- A choice set in which the first of three alternatives is missing; two of them have wages. -/
example : subsetCholesky [[(1 : ℚ), 0, 0], [1 / 2, 1, 0], [1 / 3, 1, 1]] [false, true, true] =
    some [[1, 0], [1, 1]] ∧ nWagesIn 2 [false, true, true] = 1 ∧
    transformDraw (fun x : ℚ => 1 + x ^ 2) (-10) 10 [[1, 0, 0], [1 / 2, 1, 0], [1 / 3, 1, 1]] 2
      [false, true, true] [2, 3] = some [5, 5] := by decide +kernel

end Respy
