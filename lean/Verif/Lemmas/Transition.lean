import Verif.Model.Transition
import Verif.Lemmas.Dense2
import Verif.Lemmas.MapM
import Mathlib.Algebra.BigOperators.Group.List.Basic
import Mathlib.Algebra.Order.BigOperators.Group.List
import Mathlib.Tactic.Ring
import Mathlib.Tactic.Positivity
import Mathlib.Tactic.FieldSimp

/-! Helper lemmas on transition probabilities. -/

namespace Respy

/-- The product of the selected entries. -/
def selectedProduct (probs : List (List ℝ)) (vals : List Nat) : ℝ :=
  (List.zipWith (fun ps v => (ps[v]?).getD 0) probs vals).prod

theorem pointProbability_eq (probs : List (List ℝ)) (vals : List Nat)
    (h : List.Forall₂ (· ∈ ·) vals (probs.map fun ps => List.range ps.length)) :
    pointProbability probs vals = some (selectedProduct probs vals) := by
  induction probs generalizing vals with
  | nil =>
    simp at h
    subst h; simp [pointProbability, selectedProduct]
  | cons ps probs ih =>
    simp only [List.map_cons] at h
    cases h with
    | cons h1 h2 =>
      rename_i v vals
      rw [List.mem_range] at h1
      simp [pointProbability, ih vals h2, List.getElem?_eq_getElem h1, selectedProduct]

theorem sum_range_getD (ps : List ℝ) (c : ℝ) :
    ((List.range ps.length).map fun v => (ps[v]?).getD 0 * c).sum = ps.sum * c := by
  induction ps with
  | nil => simp
  | cons p ps ih =>
    rw [List.length_cons, List.range_succ_eq_map, List.map_cons, List.map_map, List.sum_cons,
      List.sum_cons, add_mul]
    congr 1

theorem sum_product (probs : List (List ℝ)) :
    ((product (probs.map fun ps => List.range ps.length)).map (selectedProduct probs)).sum =
      (probs.map List.sum).prod := by
  induction probs with
  | nil => simp [product, selectedProduct]
  | cons ps probs ih =>
    simp only [List.map_cons, product, List.prod_cons]
    rw [List.map_flatMap, List.flatMap, List.sum_flatten, List.map_map, ← ih]
    rw [← sum_range_getD]
    congr 1
    apply List.map_congr_left
    intro v _
    simp only [Function.comp, List.map_map]
    rw [← List.sum_map_mul_left]
    congr 1

theorem sum_exp_pos (xs : List ℝ) (h : xs ≠ []) : 0 < (xs.map Real.exp).sum := by
  cases xs with
  | nil => exact absurd rfl h
  | cons x xs =>
    rw [List.map_cons, List.sum_cons]
    have : 0 ≤ (xs.map Real.exp).sum := by
      apply List.sum_nonneg
      intro y hy
      obtain ⟨z, _, rfl⟩ := List.mem_map.1 hy
      exact (Real.exp_pos z).le
    have := Real.exp_pos x
    linarith

theorem softmax_sum (xs : List ℝ) (h : xs ≠ []) : (softmax xs).sum = 1 := by
  have := sum_exp_pos xs h
  unfold softmax
  have h2 : (xs.map fun x => Real.exp x / (xs.map Real.exp).sum) =
      (xs.map fun x => (Real.exp x) * ((xs.map Real.exp).sum)⁻¹) := by
    simp only [div_eq_mul_inv]
  rw [h2, List.sum_map_mul_right]
  exact mul_inv_cancel₀ this.ne'

theorem softmax_nonneg (xs : List ℝ) (p : ℝ) (hp : p ∈ softmax xs) : 0 ≤ p := by
  obtain ⟨x, _, rfl⟩ := List.mem_map.1 hp
  apply div_nonneg (Real.exp_pos x).le
  apply List.sum_nonneg
  intro y hy
  obtain ⟨z, _, rfl⟩ := List.mem_map.1 hy
  exact (Real.exp_pos z).le

theorem denseIndexOf_spec (grid : List (List Nat)) (pt : List Nat) (i : Nat)
    (h : (denseIndexOf grid).get? pt = some i) : grid[i]? = some pt := by
  have := Dict.mem_items_of_get?_ofItems _ _ _ h
  rw [List.mem_mapIdx] at this
  obtain ⟨j, hj, he⟩ := this
  simp only [Prod.mk.injEq] at he
  obtain ⟨he, rfl⟩ := he
  rw [List.getElem?_eq_getElem hj, he]

theorem exogenousPart_append (n : Nat) (a b : List Nat) (h : b.length = n) :
    exogenousPart n (a ++ b) = b := by
  rw [exogenousPart, List.length_append, h, Nat.add_sub_cancel, List.drop_left]

end Respy
