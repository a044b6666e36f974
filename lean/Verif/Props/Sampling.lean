import Verif.Model.Simulate
import Mathlib.Algebra.Order.Ring.Rat
import Mathlib.Algebra.Order.BigOperators.Group.List
import Mathlib.Tactic.Linarith

/-!
# Sampling of initial characteristics (C29)
-/

set_option linter.unusedSectionVars false

namespace Respy

variable {K : Type _} [Field K] [LinearOrder K] [IsStrictOrderedRing K]

theorem cumsum_getElem? (acc : K) (ps : List K) (i : Nat) (h : i < ps.length) :
    (cumsum acc ps)[i]? = some (acc + (ps.take (i + 1)).sum) := by
  induction ps generalizing acc i with
  | nil => simp at h
  | cons p ps ih =>
    cases i with
    | zero => simp [cumsum]
    | succ i =>
      simp only [cumsum, List.getElem?_cons_succ]
      rw [ih (acc + p) i (by simpa using h), List.take_succ_cons, List.sum_cons, add_assoc]

theorem length_cumsum (acc : K) (ps : List K) : (cumsum acc ps).length = ps.length := by
  induction ps generalizing acc with
  | nil => rfl
  | cons p ps ih => simp [cumsum, ih]

/-- The sum of the probabilities differs from one by not more than the rounding to five decimals. -/
def SumsToOne (probs : List K) : Prop :=
  probs ≠ [] ∧ probs.sum ≤ 1 + 1 / 200000 ∧ 1 - 1 / 200000 ≤ probs.sum

theorem cumulativeDistribution_eq (probs : List K) (hne : probs ≠ []) :
    cumulativeDistribution probs =
      if probs.sum - 1 ≤ 1 / 200000 ∧ 1 - probs.sum ≤ 1 / 200000 then
        some ((cumsum 0 probs).dropLast ++ [1]) else none := by
  have hpos : 0 < probs.length := List.length_pos_iff.2 hne
  have hlast : (cumsum 0 probs).getLast? = some probs.sum := by
    rw [List.getLast?_eq_getElem?, length_cumsum, cumsum_getElem? _ _ _ (by omega), zero_add,
      show probs.length - 1 + 1 = probs.length by omega, List.take_length]
  unfold cumulativeDistribution
  rw [hlast]

/-- **C29** Rejection: a row of weights is rejected exactly if it is empty or its sum differs from one
by more than half of the fifth decimal. -/
theorem C29_rejected_iff (levels : List Nat) (probs : List K) (u : K)
    (hl : levels.length = probs.length) :
    randomChoice levels probs u = none ↔ ¬ SumsToOne probs := by
  by_cases hne : probs = []
  · subst hne
    simp [randomChoice, cumulativeDistribution, cumsum, SumsToOne]
  · have hpos : 0 < probs.length := List.length_pos_iff.2 hne
    unfold randomChoice
    rw [cumulativeDistribution_eq probs hne]
    by_cases hs : SumsToOne probs
    · rw [if_pos ⟨by linarith [hs.2.1], by linarith [hs.2.2]⟩]
      simp only [Option.bind_eq_bind, Option.bind_some, hs, not_true, iff_false]
      intro h
      rw [List.getElem?_eq_none_iff] at h
      unfold firstAbove at h
      have hlen : ((cumsum 0 probs).dropLast ++ [1]).length = probs.length := by
        simp [length_cumsum]; omega
      simp only at h
      split at h <;> omega
    · rw [if_neg]
      · simp [hs]
      · rintro ⟨h1, h2⟩
        exact hs ⟨hne, by linarith, by linarith⟩

/-- **C29** The sampled level: for accepted weights and a uniform number `u` in `[0, 1)` it is the level
`i` with `p 0 + ... + p (i - 1) ≤ u < p 0 + ... + p i`; for the last level the upper bound is one. -/
theorem C29_sampled_level (levels : List Nat) (probs : List K) (u : K)
    (hl : levels.length = probs.length) (hs : SumsToOne probs) (h0 : 0 ≤ u) (h1 : u < 1) :
    ∃ i, i < probs.length ∧ (∃ x, levels[i]? = some x ∧ randomChoice levels probs u = some x) ∧
      (probs.take i).sum ≤ u ∧ (i + 1 < probs.length → u < (probs.take (i + 1)).sum) := by
  have hpos : 0 < probs.length := List.length_pos_iff.2 hs.1
  have hlen : ((cumsum 0 probs).dropLast ++ [1]).length = probs.length := by
    simp [length_cumsum]; omega
  have hex : ∃ c ∈ (cumsum 0 probs).dropLast ++ [1], (decide (u < c)) = true :=
    ⟨1, by simp, by simpa using h1⟩
  have hlt := List.findIdx_lt_length_of_exists hex
  set cdf := (cumsum 0 probs).dropLast ++ [1] with hcdf
  set i := cdf.findIdx (fun c => decide (u < c)) with hi
  have hcdfget : ∀ j, j + 1 < probs.length → cdf[j]? = some ((probs.take (j + 1)).sum) := by
    intro j hj
    rw [hcdf, List.getElem?_append_left (by simp [length_cumsum]; omega), List.getElem?_dropLast,
      if_pos (by rw [length_cumsum]; omega), cumsum_getElem? _ _ _ (by omega), zero_add]
  have hx : levels[i]? = some (levels[i]'(by omega)) := List.getElem?_eq_getElem (by omega)
  refine ⟨i, by omega, ⟨_, hx, ?_⟩, ?_, ?_⟩
  · unfold randomChoice
    rw [cumulativeDistribution_eq probs hs.1, if_pos ⟨by linarith [hs.2.1], by linarith [hs.2.2]⟩]
    simp only [Option.bind_eq_bind, Option.bind_some, firstAbove, ← hcdf, ← hi, hlt, if_true]
    exact hx
  · rcases Nat.eq_zero_or_pos i with h | h
    · rw [h]; simpa using h0
    · have hnot := List.not_of_lt_findIdx (p := fun c => decide (u < c)) (xs := cdf) (i := i - 1)
        (by omega)
      have hg := hcdfget (i - 1) (by omega)
      rw [List.getElem?_eq_getElem (by omega), Option.some.injEq] at hg
      simp only [hg, decide_eq_false_iff_not, not_lt] at hnot
      rwa [show i - 1 + 1 = i by omega] at hnot
  · intro hlast
    have hyes := List.findIdx_getElem (p := fun c => decide (u < c)) (xs := cdf) (w := hlt)
    have hg := hcdfget i hlast
    rw [List.getElem?_eq_getElem (by omega), Option.some.injEq] at hg
    simp only [← hi, hg, decide_eq_true_eq] at hyes
    exact hyes

theorem take_sum_mono (probs : List K) (hnn : ∀ p ∈ probs, 0 ≤ p) (i j : Nat) (h : i ≤ j) :
    (probs.take i).sum ≤ (probs.take j).sum := by
  obtain ⟨d, rfl⟩ := Nat.exists_eq_add_of_le h
  rw [List.take_add, List.sum_append]
  have : 0 ≤ ((probs.drop i).take d).sum :=
    List.sum_nonneg fun x hx => hnn x (List.mem_of_mem_drop (List.mem_of_mem_take hx))
  linarith

/-- **C29** If the probabilities are non-negative and sum to one exactly, level `i` is sampled if and
only if `u` is in the interval from `p 0 + ... + p (i - 1)` to `p 0 + ... + p i`, whose length is
`p i`. Missing: weights which sum to one only after rounding, see `C29_zero_probability_false`. -/
theorem C29_inverse_cdf_partial (levels : List Nat) (hnd : levels.Nodup) (probs : List K)
    (hnn : ∀ p ∈ probs, 0 ≤ p) (hsum : probs.sum = 1) (u : K)
    (hl : levels.length = probs.length) (h0 : 0 ≤ u) (h1 : u < 1) (i : Nat) (x : Nat) (p : K)
    (hx : levels[i]? = some x) (hp : probs[i]? = some p) :
    (randomChoice levels probs u = some x ↔
      (probs.take i).sum ≤ u ∧ u < (probs.take i).sum + p) := by
  have hne : probs ≠ [] := by rintro rfl; simp at hp
  have hs : SumsToOne probs := by
    refine ⟨hne, ?_, ?_⟩ <;> rw [hsum] <;> norm_num
  obtain ⟨j, hj, ⟨y, hy, hr⟩, hlo, hhi⟩ := C29_sampled_level levels probs u hl hs h0 h1
  have hup : ∀ k (q : K), probs[k]? = some q → (probs.take (k + 1)).sum = (probs.take k).sum + q := by
    intro k q hq
    obtain ⟨hk, hv⟩ := List.getElem?_eq_some_iff.1 hq
    rw [List.take_succ_eq_append_getElem hk, List.sum_append, hv]; simp
  have hhi' : u < (probs.take (j + 1)).sum := by
    by_cases hl2 : j + 1 < probs.length
    · exact hhi hl2
    · rw [List.take_of_length_le (by omega), hsum]; exact h1
  have hilt := (List.getElem?_eq_some_iff.1 hp).1
  rw [hr]
  constructor
  · intro h
    cases h
    have hij : j = i := by
      obtain ⟨a1, a2⟩ := List.getElem?_eq_some_iff.1 hy
      obtain ⟨b1, b2⟩ := List.getElem?_eq_some_iff.1 hx
      exact (List.Nodup.getElem_inj_iff hnd).1 (a2.trans b2.symm)
    subst hij
    exact ⟨hlo, by rw [← hup j p hp]; exact hhi'⟩
  · rintro ⟨hlo2, hhi2⟩
    rw [← hup i p hp] at hhi2
    have : i = j := by
      rcases lt_trichotomy i j with h | h | h
      · exact absurd (take_sum_mono probs hnn (i + 1) j h) (not_le.2 (by linarith))
      · exact h
      · exact absurd (take_sum_mono probs hnn (j + 1) i h) (not_le.2 (by linarith))
    subst this
    rw [hx] at hy
    exact hy.symm

/-- **C29** A level with probability zero is never sampled if the probabilities sum to one. -/
theorem C29_zero_probability_never_partial (levels : List Nat) (hnd : levels.Nodup) (probs : List K)
    (hnn : ∀ p ∈ probs, 0 ≤ p) (hsum : probs.sum = 1) (u : K)
    (hl : levels.length = probs.length) (h0 : 0 ≤ u) (h1 : u < 1) (i : Nat) (x : Nat)
    (hx : levels[i]? = some x) (hp : probs[i]? = some 0) :
    randomChoice levels probs u ≠ some x := by
  intro h
  have := (C29_inverse_cdf_partial levels hnd probs hnn hsum u hl h0 h1 i x 0 hx hp).1 h
  rw [add_zero] at this
  exact absurd this.1 (not_le.2 this.2)

/-- **C29** fails with the rounding: the weights are accepted, the last one is zero, but its level is
sampled. -/
theorem C29_zero_probability_false :
    randomChoice [7, 8] [999996 / 1000000, (0 : ℚ)] (999998 / 1000000) = some 8 := by decide +kernel

/-- The hypotheses can be met. -/
example : randomChoice [10, 20, 30] [15 / 100, 35 / 100, (1 / 2 : ℚ)] (3 / 10) = some 20 ∧
    (∀ p ∈ [15 / 100, 35 / 100, (1 / 2 : ℚ)], 0 ≤ p) ∧
    [15 / 100, 35 / 100, (1 / 2 : ℚ)].sum = 1 := by decide +kernel

example : randomChoice [10, 20] [15 / 100, (35 / 100 : ℚ)] (3 / 10) = none := by decide +kernel

end Respy
