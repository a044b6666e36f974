import Verif.Lemmas.Emax
import Mathlib.Data.Rat.Cast.Order
import Mathlib.Tactic.NormNum
import Mathlib.Tactic.FinCases
import Mathlib.Data.Fin.VecNotation

/-!
# Properties of expected value functions: C12, C13

Arrays are given by functions on `Fin n` (`n` alternatives); the model works on lists.
-/

set_option linter.unusedSectionVars false

namespace Respy

variable {K : Type _} [Field K] [LinearOrder K] [IsStrictOrderedRing K]

/-- Specification: the value of alternative `j` for the shocks `e`. -/
def altValue {n : Nat} (delta : K) (w m c e : Fin n → K) (j : Fin n) : K :=
  w j * e j + m j + delta * c j

/-- Specification: `b` is the largest of the values `v`. -/
def IsLargest {n : Nat} (v : Fin n → K) (b : K) : Prop := (∃ j, v j = b) ∧ ∀ j, v j ≤ b

/-- The model on arrays. -/
def emaxOf {n : Nat} (delta : K) (w m c : Fin n → K) (draws : List (Fin n → K)) : K :=
  emax (List.ofFn w) (List.ofFn m) (List.ofFn c) (draws.map List.ofFn) delta

/-- What the code computes, for all inputs: the average over the draws of the maximum of zero and
the values of the alternatives. -/
theorem C12_emax_exact {n : Nat} (delta : K) (w m c : Fin n → K) (draws : List (Fin n → K))
    (best : (Fin n → K) → K) (hbest : ∀ e ∈ draws, IsLargest (altValue delta w m c e) (best e)) :
    emaxOf delta w m c draws = (draws.map fun e => max 0 (best e)).sum / (draws.length : K) := by
  rw [emaxOf, emax_eq_sum, List.map_map, List.length_map]
  congr 2
  apply List.map_congr_left
  intro e he
  obtain ⟨⟨j, hj⟩, hle⟩ := hbest e he
  simp only [Function.comp, valueFunctions_ofFn]
  apply le_antisymm
  · rw [maxValue_le_iff]
    refine ⟨le_max_left _ _, ?_⟩
    intro v hv
    rw [List.mem_ofFn] at hv
    obtain ⟨i, rfl⟩ := hv
    exact (hle i).trans (le_max_right _ _)
  · refine max_le (maxValue_nonneg _) ?_
    rw [← hj]
    exact le_maxValue _ _ (by rw [List.mem_ofFn]; exact ⟨j, rfl⟩)

/-- **C12 (partial).** If for every draw some alternative has a non-negative value, the expected
value function is the average over the draws of the largest value. Missing: draws for which all
values are negative, where the property fails (`C12_emax_false`, `C12_emax_overstated`). -/
theorem C12_emax_mean_of_max_partial {n : Nat} (delta : K) (w m c : Fin n → K)
    (draws : List (Fin n → K)) (best : (Fin n → K) → K)
    (hbest : ∀ e ∈ draws, IsLargest (altValue delta w m c e) (best e))
    (hnonneg : ∀ e ∈ draws, ∃ j, 0 ≤ altValue delta w m c e j) :
    emaxOf delta w m c draws = (draws.map best).sum / (draws.length : K) := by
  rw [C12_emax_exact delta w m c draws best hbest]
  congr 2
  apply List.map_congr_left
  intro e he
  obtain ⟨j, hj⟩ := hnonneg e he
  exact max_eq_right (hj.trans ((hbest e he).2 j))

/-- **C12 (negated), in general.** As soon as all alternatives have negative values for one draw, the
computed value is strictly larger than the average of the maxima. -/
theorem C12_emax_overstated_false {n : Nat} (delta : K) (w m c : Fin n → K)
    (draws : List (Fin n → K)) (best : (Fin n → K) → K)
    (hbest : ∀ e ∈ draws, IsLargest (altValue delta w m c e) (best e))
    (hneg : ∃ e ∈ draws, ∀ j, altValue delta w m c e j < 0) :
    (draws.map best).sum / (draws.length : K) < emaxOf delta w m c draws := by
  rw [C12_emax_exact delta w m c draws best hbest]
  have hpos : (0 : K) < (draws.length : K) := by
    obtain ⟨e, he, _⟩ := hneg
    exact_mod_cast List.length_pos_of_mem he
  rw [div_lt_div_iff_of_pos_right hpos]
  refine sum_map_lt _ _ _ (fun e _ => le_max_right _ _) ?_
  obtain ⟨e, he, h⟩ := hneg
  obtain ⟨⟨j, hj⟩, _⟩ := hbest e he
  exact ⟨e, he, by rw [max_eq_left (by rw [← hj]; exact (h j).le), ← hj]; exact h j⟩

/-- **C12 (negated).** One alternative with wage 1, shock -2 and nothing else: the code returns 0,
the maximum over the alternatives is -2. -/
theorem C12_emax_false :
    IsLargest (altValue (0.95 : ℚ) (fun _ : Fin 1 => 1) (fun _ => 0) (fun _ => 0) (fun _ => -2)) (-2) ∧
    emaxOf (0.95 : ℚ) (fun _ : Fin 1 => 1) (fun _ => 0) (fun _ => 0) [fun _ => -2] = 0 := by
  constructor
  · refine ⟨⟨0, by norm_num [altValue]⟩, fun j => by norm_num [altValue]⟩
  · decide +kernel

/-- A concrete case of the partial theorem: two alternatives, two draws. -/
example : ∃ best : (Fin 2 → ℚ) → ℚ,
    (∀ e ∈ [![1, 2], ![3, (-1 : ℚ)]],
      IsLargest (altValue (1/2) ![1, 1] ![0, 1] ![2, 0] e) (best e)) ∧
    (∀ e ∈ [![1, 2], ![3, (-1 : ℚ)]], ∃ j, 0 ≤ altValue (1/2) ![1, 1] ![0, 1] ![2, 0] e j) := by
  refine ⟨fun e => max (e 0 + 1) (e 1 + 1), ?_, ?_⟩
  · intro e he
    simp only [List.mem_cons, List.not_mem_nil, or_false] at he
    rcases he with rfl | rfl
    · refine ⟨⟨1, by norm_num [altValue]⟩, fun j => ?_⟩
      fin_cases j <;> norm_num [altValue]
    · refine ⟨⟨0, by norm_num [altValue]⟩, fun j => ?_⟩
      fin_cases j <;> norm_num [altValue]
  · intro e he
    simp only [List.mem_cons, List.not_mem_nil, or_false] at he
    rcases he with rfl | rfl <;> exact ⟨0, by norm_num [altValue]⟩

/-! ## C13 -/

/-- **C13.** Expected value functions are monotone in non-pecuniary rewards and continuation
values. -/
theorem C13_emax_monotone {n : Nat} (delta : K) (hdelta : 0 ≤ delta) (w m m' c c' : Fin n → K)
    (draws : List (Fin n → K)) (hm : ∀ j, m j ≤ m' j) (hc : ∀ j, c j ≤ c' j) :
    emaxOf delta w m c draws ≤ emaxOf delta w m' c' draws := by
  have := emax_le_emax_add (List.ofFn w) (List.ofFn m) (List.ofFn c) (List.ofFn m') (List.ofFn c')
    (draws.map List.ofFn) delta 0 le_rfl ?_
  · simpa [emaxOf] using this
  · intro d hd j v hv
    obtain ⟨e, _, rfl⟩ := List.mem_map.1 hd
    rw [valueFunctions_ofFn] at hv ⊢
    obtain ⟨hj, hv⟩ := List.getElem?_eq_some_iff.1 hv
    have hj' : j < n := by simpa using hj
    refine ⟨_, by rw [List.getElem?_ofFn]; simp [hj']; rfl, ?_⟩
    rw [← hv]
    simp only [List.getElem_ofFn, add_zero]
    have h1 := hm ⟨j, hj'⟩
    have h2 := mul_le_mul_of_nonneg_left (hc ⟨j, hj'⟩) hdelta
    linarith

/-- **C13.** A change of all continuation values by at most `e` changes the expected value function
by at most `delta * e`. -/
theorem C13_emax_nonexpansive {n : Nat} (delta : K) (hdelta : 0 ≤ delta) (w m c c' : Fin n → K)
    (draws : List (Fin n → K)) (e : K) (he : 0 ≤ e) (hc : ∀ j, |c j - c' j| ≤ e) :
    |emaxOf delta w m c draws - emaxOf delta w m c' draws| ≤ delta * e := by
  have key : ∀ c c' : Fin n → K, (∀ j, c j ≤ c' j + e) →
      emaxOf delta w m c draws ≤ emaxOf delta w m c' draws + delta * e := by
    intro c c' hc
    refine emax_le_emax_add _ _ _ _ _ _ delta (delta * e) (mul_nonneg hdelta he) ?_
    intro d hd j v hv
    obtain ⟨e', _, rfl⟩ := List.mem_map.1 hd
    rw [valueFunctions_ofFn] at hv ⊢
    obtain ⟨hj, hv⟩ := List.getElem?_eq_some_iff.1 hv
    have hj' : j < n := by simpa using hj
    refine ⟨_, by rw [List.getElem?_ofFn]; simp [hj']; rfl, ?_⟩
    rw [← hv]
    simp only [List.getElem_ofFn]
    have h2 := mul_le_mul_of_nonneg_left (hc ⟨j, hj'⟩) hdelta
    rw [mul_add] at h2
    linarith
  rw [abs_le]
  have h1 := key c c' fun j => by have := (abs_le.1 (hc j)).2; linarith
  have h2 := key c' c fun j => by have := (abs_le.1 (hc j)).1; linarith
  constructor <;> linarith

/-- Two alternatives, a discount factor of 1/2, a change of 1. -/
example : (0 : ℚ) ≤ 1 / 2 ∧ ∀ j : Fin 2, |(![3, 1] : Fin 2 → ℚ) j - ![2, 2] j| ≤ 1 := by
  refine ⟨by norm_num, fun j => ?_⟩
  fin_cases j <;> norm_num

end Respy
