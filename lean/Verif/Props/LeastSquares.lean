import Verif.Lemmas.LeastSquares
import Verif.Spec.LeastSquaresSolution
import Verif.Props.InterpolatedSolution

/-!
# C81: interpolation is least squares

The coefficients `pinv(x'x) x'y` are those of least squares, for collinear regressors the smallest ones.
-/

set_option linter.unusedSectionVars false

open Matrix

namespace Respy

/-- The contract of `np.linalg.pinv` for symmetric matrices. -/
def IsPinv (pinv : (k : Nat) → Matrix (Fin k) (Fin k) ℝ → Matrix (Fin k) (Fin k) ℝ) : Prop :=
  ∀ (k : Nat) (A : Matrix (Fin k) (Fin k) ℝ), Aᵀ = A → IsPseudoInverse A (pinv k A)

theorem ols_eq (pinv : (k : Nat) → Matrix (Fin k) (Fin k) ℝ → Matrix (Fin k) (Fin k) ℝ) (y : List ℝ)
    (x : List (List ℝ)) (k : Nat) (hx : x ≠ []) (hk : ∀ r ∈ x, r.length = k) :
    ols pinv y x = olsWith pinv k y x := by
  obtain ⟨r, x', rfl⟩ := List.exists_cons_of_ne_nil hx
  unfold ols
  rw [List.headD_cons, hk r (by simp)]

/-- **C81.** For every array with at least one row, the coefficients have the smallest sum of squared
residuals. If others have the same sum (collinear regressors), the coefficients have the smallest norm. -/
theorem C81_least_squares (pinv : (k : Nat) → Matrix (Fin k) (Fin k) ℝ → Matrix (Fin k) (Fin k) ℝ)
    (hpinv : IsPinv pinv) (y : List ℝ) (x : List (List ℝ)) (k : Nat) (hx : x ≠ [])
    (hy : y.length = x.length) (hk : ∀ r ∈ x, r.length = k) : IsLeastSquares k y x (ols pinv y x) := by
  rw [ols_eq pinv y x k hx hk]
  obtain ⟨n, hn⟩ : ∃ n, x.length = n := ⟨_, rfl⟩
  obtain ⟨X, rfl⟩ := rows_eq_ofFn x hn hk
  obtain ⟨v, rfl⟩ := list_eq_ofFn y (hy.trans hn)
  rw [olsWith_ofFn]
  have hg : IsPseudoInverse (Xᵀ * X) (pinv k (Xᵀ * X)) :=
    hpinv k _ (by rw [Matrix.transpose_mul, Matrix.transpose_transpose])
  refine ⟨by simp, fun b hb => ?_, fun b hb he hne => ?_⟩
  · obtain ⟨c, rfl⟩ := list_eq_ofFn b hb
    rw [squaredResiduals_ofFn, squaredResiduals_ofFn, hg.decompose v c]
    have : 0 ≤ (X *ᵥ (coefficients X (pinv k (Xᵀ * X)) v - c)) ⬝ᵥ
        (X *ᵥ (coefficients X (pinv k (Xᵀ * X)) v - c)) := Finset.sum_nonneg fun i _ => mul_self_nonneg _
    linarith
  · obtain ⟨c, rfl⟩ := list_eq_ofFn b hb
    rw [squaredResiduals_ofFn, squaredResiduals_ofFn, hg.decompose v c] at he
    have h0 : (X *ᵥ (coefficients X (pinv k (Xᵀ * X)) v - c)) ⬝ᵥ
        (X *ᵥ (coefficients X (pinv k (Xᵀ * X)) v - c)) = 0 := by linarith
    have h1 : X *ᵥ (coefficients X (pinv k (Xᵀ * X)) v - c) = 0 := dotProduct_self_eq_zero.1 h0
    rw [squaredNorm_ofFn, squaredNorm_ofFn]
    exact hg.smaller v c h1 fun h => hne (by rw [h])

/-- Least squares coefficients of smallest norm are unique. -/
theorem IsLeastSquares.unique {k : Nat} {y : List ℝ} {x : List (List ℝ)} {b c : List ℝ}
    (hb : IsLeastSquares k y x b) (hc : IsLeastSquares k y x c) : b = c := by
  by_contra hne
  have he : squaredResiduals y x b = squaredResiduals y x c :=
    le_antisymm (hb.least c hc.length) (hc.least b hb.length)
  exact lt_asymm (hb.smallest c hc.length he.symm (Ne.symm hne)) (hc.smallest b hb.length he hne)

/-- **C81.** The coefficients do not depend on the method with which the pseudo-inverse is computed. -/
theorem C81_independent_of_method
    (p q : (k : Nat) → Matrix (Fin k) (Fin k) ℝ → Matrix (Fin k) (Fin k) ℝ) (hp : IsPinv p) (hq : IsPinv q)
    (y : List ℝ) (x : List (List ℝ)) (k : Nat) (hx : x ≠ []) (hy : y.length = x.length)
    (hk : ∀ r ∈ x, r.length = k) : ols p y x = ols q y x :=
  (C81_least_squares p hp y x k hx hy hk).unique (C81_least_squares q hq y x k hx hy hk)

/-- **C81.** If the last regressor is a constant, the residuals sum to zero. -/
theorem C81_residuals_sum_to_zero
    (pinv : (k : Nat) → Matrix (Fin k) (Fin k) ℝ → Matrix (Fin k) (Fin k) ℝ) (hpinv : IsPinv pinv)
    (y : List ℝ) (x : List (List ℝ)) (k : Nat) (hx : x ≠ []) (hy : y.length = x.length)
    (hk : ∀ r ∈ x, r.length = k) (hone : ∀ r ∈ x, r.getLast? = some 1) :
    (List.zipWith (fun row v => v - prediction row (ols pinv y x)) x y).sum = 0 := by
  rw [ols_eq pinv y x k hx hk]
  obtain ⟨n, hn⟩ : ∃ n, x.length = n := ⟨_, rfl⟩
  obtain ⟨X, rfl⟩ := rows_eq_ofFn x hn hk
  obtain ⟨v, rfl⟩ := list_eq_ofFn y (hy.trans hn)
  rw [olsWith_ofFn]
  have hg : IsPseudoInverse (Xᵀ * X) (pinv k (Xᵀ * X)) :=
    hpinv k _ (by rw [Matrix.transpose_mul, Matrix.transpose_transpose])
  set c := coefficients X (pinv k (Xᵀ * X)) v with hc
  have hn0 : 0 < n := by
    rcases Nat.eq_zero_or_pos n with h | h
    · subst h; simp at hx
    · exact h
  have hlast : ∀ i : Fin n, (List.ofFn (X i)).getLast? = some 1 := fun i =>
    hone _ (List.mem_ofFn.2 ⟨i, rfl⟩)
  have hk0 : 0 < k := by
    have := hlast ⟨0, hn0⟩
    rcases Nat.eq_zero_or_pos k with h | h
    · subst h; simp at this
    · exact h
  have hone' : ∀ i : Fin n, X i ⟨k - 1, by omega⟩ = 1 := by
    intro i
    have := hlast i
    rw [List.getLast?_eq_getElem?, List.length_ofFn, List.getElem?_ofFn, dif_pos (by omega)] at this
    exact Option.some.inj this
  have hrow := congrFun (hg.normal v) ⟨k - 1, by omega⟩
  simp only [Matrix.mulVec, dotProduct, Matrix.transpose_apply, hone', one_mul, Pi.zero_apply] at hrow
  have : List.zipWith (fun row w => w - prediction row (List.ofFn c))
      (List.ofFn fun i => List.ofFn (X i)) (List.ofFn v) = List.ofFn fun i => (v i - (X i) ⬝ᵥ c) := by
    apply List.ext_getElem (by simp)
    intro i h1 h2
    simp [prediction_ofFn]
  rw [this, List.sum_ofFn]
  exact hrow

theorem IsKw94Regressors.length {sqrt : ℝ → ℝ} {cs : List Bool} {v : Nat → ℝ} {mx : ℝ} {x : List ℝ}
    (h : IsKw94Regressors sqrt cs v mx x) : x.length = 2 * (alternatives cs).length + 1 := by
  rw [h.2]; simp; omega

/-- **C81.** Solutions of C80 with the coefficients of the code are solutions with least squares: in each
group the values of states which are not simulated are their largest value at mean shocks plus the
non-negative part of the least squares prediction, and the prediction errors of the simulated states sum to
zero. -/
theorem C81_solution_is_least_squares
    (pinv : (k : Nat) → Matrix (Fin k) (Fin k) ℝ → Matrix (Fin k) (Fin k) ℝ) (hpinv : IsPinv pinv)
    (b : BuildSpec) (core : List CoreState) (delta : ℝ)
    (w m : Option Nat → CoreState → Nat → ℝ) (shocks : Nat → List Bool → List (Nat → ℝ))
    (future : Option Nat → CoreState → List (Option Nat × ℝ)) (mean : Nat → ℝ) (sqrt : ℝ → ℝ)
    (V : Option Nat → CoreState → ℝ)
    (h : IsInterpolatedSolution b core delta w m shocks future mean sqrt (ols pinv) V) :
    IsLeastSquaresSolution b core delta w m shocks future mean sqrt V := by
  refine ⟨h.1, fun t ht g hg => ?_⟩
  obtain ⟨states, simulated, mx, x, h1, h2, h3, h4, h5⟩ := h.2 t ht g hg
  have hne : states ≠ [] := by
    obtain ⟨y, hy, rfl⟩ := List.mem_map.1 (List.mem_dedup.1 hg)
    obtain ⟨d, hd, hy⟩ := List.mem_flatMap.1 hy
    obtain ⟨s, hs, rfl⟩ := List.mem_map.1 hy
    obtain ⟨hs, hp⟩ := List.mem_filter.1 hs
    intro h0
    rw [h0] at h1
    have := h1.nil_eq
    have hmem : s ∈ b.group core t (d, b.choiceSetAt d s) :=
      List.mem_filter.2 ⟨hs, by simpa using hp⟩
    rw [← this] at hmem
    simp at hmem
  have hpos : 0 < states.length := List.length_pos_iff.2 hne
  have hsim : states.filter simulated ≠ [] := by
    rw [← List.length_pos_iff]
    omega
  have hrows : ∀ r ∈ (states.filter simulated).map x, r.length = 2 * (alternatives g.2).length + 1 := by
    intro r hr
    obtain ⟨s, hs, rfl⟩ := List.mem_map.1 hr
    exact (h3 s (List.mem_of_mem_filter hs)).length
  have hlast : ∀ r ∈ (states.filter simulated).map x, r.getLast? = some 1 := by
    intro r hr
    obtain ⟨s, hs, rfl⟩ := List.mem_map.1 hr
    rw [(h3 s (List.mem_of_mem_filter hs)).2]
    simp
  have hmap : (states.filter simulated).map x ≠ [] := by simpa using hsim
  refine ⟨states, states.filter simulated, mx, x,
    ols pinv ((states.filter simulated).map fun s => V g.1 s - mx s) ((states.filter simulated).map x),
    h1, List.filter_sublist, hsim, h2, h3, ?_, ?_, ?_, ?_⟩
  · intro s hs
    exact h4 s (List.mem_of_mem_filter hs) (List.mem_filter.1 hs).2
  · exact C81_least_squares pinv hpinv _ _ _ hmap (by simp) hrows
  · have := C81_residuals_sum_to_zero pinv hpinv
      ((states.filter simulated).map fun s => V g.1 s - mx s) ((states.filter simulated).map x) _ hmap (by simp)
      hrows hlast
    rw [List.zipWith_map, List.zipWith_self] at this
    exact this
  · intro s hs hn
    have : simulated s = false := by
      by_contra hcon
      exact hn (List.mem_filter.2 ⟨hs, by simpa using hcon⟩)
    exact h5 s hs this

/-! Concrete cases. -/

/-- The contract can be met. -/
theorem exists_isPinv : ∃ pinv, IsPinv pinv := by
  classical
  exact ⟨fun k A => if h : Aᵀ = A then (exists_pseudoInverse A h).choose else 0, fun k A h => by
    simp only [h, dif_pos]
    exact (exists_pseudoInverse A h).choose_spec⟩

/-- Regressors of three states and one alternative, of which the first two are collinear. -/
example : ∃ pinv, IsPinv pinv ∧ IsLeastSquares 3 [1, 2, 4] [[0, 0, 1], [1, 1, 1], [4, 4, 1]]
    (ols pinv [1, 2, 4] [[0, 0, 1], [1, 1, 1], [4, 4, 1]]) := by
  obtain ⟨pinv, h⟩ := exists_isPinv
  exact ⟨pinv, h, C81_least_squares pinv h _ _ 3 (by simp) rfl (by simp)⟩

/-- The model with thirty interpolation points: there are solutions with the coefficients of the code, and
two periods are interpolated. -/
example : ∃ pinv, IsPinv pinv ∧ ∃ core V, (pointsBuild 30).Interpolates core 1 ∧
    (pointsBuild 30).Interpolates core 2 ∧
    IsInterpolatedSolution (pointsBuild 30) core (exampleInputOf Real.exp).delta
      (exampleInputOf Real.exp).wageOf (exampleInputOf Real.exp).nonpecOf (exampleInputOf Real.exp).shocks
      (fun d _ => [(d, 1)]) (expectedShock (exampleInputOf Real.exp).exp 700 (exampleInputOf Real.exp).nWages
        (exampleInputOf Real.exp).cholesky) Real.sqrt (ols pinv) V := by
  obtain ⟨pinv, hp⟩ := exists_isPinv
  obtain ⟨core, wf, hl⟩ := exampleBuild_wf
  have hsz := pointsBuild_sizes 30 core wf
  simp only [List.range_succ, List.range_zero, List.nil_append, List.cons_append, List.map_cons,
    List.map_nil, List.cons.injEq, Prod.mk.injEq, and_true] at hsz
  obtain ⟨⟨a1, a2⟩, ⟨b1, b2⟩, c1, c2⟩ := hsz
  have hcs : ∀ d s, (pointsBuild 30).choiceSetAt d s = choiceSet exampleRestr s := by
    intro d s; cases d <;> rfl
  have hpt : (pointsBuild 30).points = 30 := rfl
  obtain ⟨bt, par, g1, g2, g3⟩ := C80_solution_with_interpolation (pointsBuild 30) core
    (pointsBuild_wf 30 core wf) rfl (exampleInputOf Real.exp) (exampleInputOf_wf _ _ core rfl hcs)
    (by simp only [exampleInputOf]; norm_num) (fun d _ s _ => ⟨2, by rw [hcs]; rfl⟩) firstRandom
    firstRandom_contract Real.sqrt (ols pinv) 700
  obtain ⟨h1, h2⟩ := g3 0 (initialValues bt.space) (SameShape.refl _)
  obtain ⟨V, hV, _⟩ := h2 (h1.2 fun t ht _ => by
    have ht : t < 3 := ht
    rw [hpt]
    match t with
    | 0 => omega
    | 1 => omega
    | 2 => omega)
  refine ⟨pinv, hp, core, V, ?_, ?_, hV⟩
  · unfold BuildSpec.Interpolates; rw [b1, b2, hpt]; omega
  · unfold BuildSpec.Interpolates; rw [c1, c2, hpt]; omega

end Respy
