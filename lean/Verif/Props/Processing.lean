import Verif.Model.Processing
import Verif.Model.Transition
import Verif.Model.Emax
import Verif.Lemmas.Text
import Verif.Lemmas.Dict
import Mathlib.Algebra.BigOperators.Group.List.Basic
import Mathlib.Tactic.Ring
import Mathlib.Tactic.FieldSimp

/-! # Properties of the processing of parameters and options -/

namespace Respy

/-! ### C47 Internal seeds never collide -/

theorem takeSeeds_length (state : SeedSource → Nat) (ops : List SeedSource) :
    (takeSeeds state ops).length = ops.length := by
  induction ops generalizing state with
  | nil => rfl
  | cons s ops ih => simp [takeSeeds, ih]

theorem takeSeeds_getElem? (state : SeedSource → Nat) (ops : List SeedSource) (k : Nat) (s : SeedSource)
    (h : ops[k]? = some s) :
    (takeSeeds state ops)[k]? = some (state s + (ops.take k).count s) := by
  induction ops generalizing state k with
  | nil => simp at h
  | cons t ops ih =>
    cases k with
    | zero =>
      simp only [List.getElem?_cons_zero, Option.some.injEq] at h
      subst h
      simp [takeSeeds]
    | succ k =>
      simp only [List.getElem?_cons_succ] at h
      simp only [takeSeeds, List.getElem?_cons_succ, ih _ k h, List.take_succ_cons, List.count_cons,
        beq_iff_eq]
      by_cases hst : s = t
      · subst hst; simp; omega
      · simp [hst, Ne.symm hst]

/-- All seeds which any program obtains are different, if it takes at most a million seeds from every
sequence. `randint seed low high` is in `[low, high)`. -/
theorem C47_no_collision (randint : Nat → Nat → Nat → Nat)
    (hr : ∀ seed low high, low < high → low ≤ randint seed low high ∧ randint seed low high < high)
    (user : UserSeeds) (ops : List SeedSource) (h : ∀ s, ops.count s ≤ 1000000) :
    (takeSeeds (seedStart randint user) ops).Nodup := by
  rw [List.nodup_iff_pairwise_ne, List.pairwise_iff_getElem]
  intro i j hi hj hij heq
  rw [takeSeeds_length] at hi hj
  have h1 := takeSeeds_getElem? (seedStart randint user) ops i ops[i] (List.getElem?_eq_getElem hi)
  have h2 := takeSeeds_getElem? (seedStart randint user) ops j ops[j] (List.getElem?_eq_getElem hj)
  rw [List.getElem?_eq_getElem (by rw [takeSeeds_length]; assumption), Option.some.injEq] at h1 h2
  rw [h1, h2] at heq
  have bound : ∀ k (hk : k < ops.length), (ops.take k).count ops[k] < 1000000 := by
    intro k hk
    have h3 : (ops.take (k + 1)).count ops[k] ≤ ops.count ops[k] :=
      (List.take_sublist _ _).count_le _
    rw [List.take_succ_eq_append_getElem hk, List.count_append] at h3
    simp only [List.count_singleton_self] at h3
    have := h ops[k]
    omega
  have bi := bound i hi
  have bj := bound j hj
  by_cases hs : ops[i] = ops[j]
  · rw [hs] at heq
    have h3 : (ops.take (i + 1)).count ops[j] ≤ (ops.take j).count ops[j] :=
      (List.take_sublist_take_left (by omega)).count_le _
    rw [List.take_succ_eq_append_getElem hi, List.count_append, hs] at h3
    simp only [List.count_singleton_self] at h3
    omega
  · have r1 := hr user.solution 1000000 2000000 (by omega)
    have r2 := hr user.simulation 4000000 5000000 (by omega)
    have r3 := hr user.estimation 7000000 8000000 (by omega)
    generalize (ops.take i).count ops[i] = ci at *
    generalize (ops.take j).count ops[j] = cj at *
    generalize ops[i] = s at *
    generalize ops[j] = t at *
    cases s <;> cases t <;> simp only [seedStart, seedGap, not_true, reduceCtorEq,
      not_false_eq_true] at hs heq <;> omega

/-- The bound is sharp: with one more seed, a sequence runs into the next one. -/
theorem C47_bound_sharp (randint : Nat → Nat → Nat → Nat) (user : UserSeeds) :
    seedStart randint user .solutionStartup + 1000000 =
      seedStart randint user .solutionIteration := rfl

/-- Two programs with the same user seeds obtain the same seeds from a sequence, however the calls to
other sequences are interleaved. -/
theorem C47_reproducible (randint : Nat → Nat → Nat → Nat) (user : UserSeeds)
    (ops ops' : List SeedSource) (k k' : Nat) (s : SeedSource) (h : ops[k]? = some s)
    (h' : ops'[k']? = some s) (hc : (ops.take k).count s = (ops'.take k').count s) :
    (takeSeeds (seedStart randint user) ops)[k]? = (takeSeeds (seedStart randint user) ops')[k']? := by
  rw [takeSeeds_getElem? _ _ _ _ h, takeSeeds_getElem? _ _ _ _ h', hc]

example : ∀ seed low high : Nat, low < high → low ≤ (low + seed % (high - low)) ∧
    (low + seed % (high - low)) < high := by
  intro seed low high h
  have := Nat.mod_lt seed (show high - low > 0 by omega)
  omega

/-! ### C48 Probabilities are translated into equivalent logit coefficients -/

theorem normalizeProbabilities_eq (ps : List ℝ) (hne : ps ≠ []) (hs : ps.sum ≠ 0) :
    normalizeProbabilities ps = ps.map fun p => p / ps.sum := by
  unfold normalizeProbabilities
  have hq : (ps.map fun p => p / ps.sum) ≠ [] := by simpa
  have hsum : (ps.map fun p => p / ps.sum).sum = 1 := by
    have : (ps.map fun p => p / ps.sum).sum = ps.sum / ps.sum := by
      simp only [div_eq_mul_inv]
      rw [List.sum_map_mul_right]
      simp
    rw [this, div_self hs]
  simp only
  have hd := List.dropLast_append_getLast hq
  have hsum' : (ps.map fun p => p / ps.sum).dropLast.sum +
      (ps.map fun p => p / ps.sum).getLast hq = 1 := by
    rw [← hsum]
    conv_rhs => rw [← hd]
    simp
  conv_rhs => rw [← hd]
  congr 2
  rw [← hsum']
  ring

section

variable {L : Type _} [LinearOrder L]

theorem sortedLevels_perm (ls : List L) (h : ls.Nodup) :
    (ls.dedup.insertionSort (· ≤ ·)).Perm ls := by
  have := List.perm_insertionSort (· ≤ ·) ls.dedup
  rwa [h.dedup] at this ⊢

/-- If probabilities are specified for the levels, the softmax of the internal coefficients gives, for
every level, the specified probability divided by the sum of all. The levels are sorted. -/
theorem C48_probabilities (maxFloat : ℝ) (ls : List L) (P : L → ℝ) (hne : ls ≠ []) (hnd : ls.Nodup)
    (hpos : ∀ l ∈ ls, 0 < P l) (hclip : ∀ l ∈ ls, 1 / maxFloat ≤ P l / (ls.map P).sum) :
    ∃ (sorted : List L) (β : L → ℝ),
      sorted.Perm ls ∧ sorted.Pairwise (· ≤ ·) ∧
      parseGroup maxFloat (ls.map fun l => ⟨l, "probability".toList, P l⟩) =
        .ok (some (sorted.map fun l => (l, [("constant".toList, β l)]))) ∧
      softmax (sorted.map β) = sorted.map fun l => P l / (ls.map P).sum := by
  have hsum : 0 < (ls.map P).sum := by
    apply List.sum_pos
    · simpa using hpos
    · simpa using hne
  refine ⟨ls.dedup.insertionSort (· ≤ ·), fun l => Real.log (P l / (ls.map P).sum),
    sortedLevels_perm ls hnd, List.pairwise_insertionSort _ _, ?_, ?_⟩
  · unfold parseGroup
    have hlen : (ls.dedup.insertionSort (· ≤ ·)).length = ls.length :=
      (sortedLevels_perm ls hnd).length_eq
    have hlv : (ls.map fun l => (⟨l, "probability".toList, P l⟩ : GroupParam L)).map
        GroupParam.level = ls := by simp [Function.comp_def]
    have hvv : (ls.map fun l => (⟨l, "probability".toList, P l⟩ : GroupParam L)).map
        GroupParam.value = ls.map P := by simp [Function.comp_def]
    have hn : (ls.map fun l => (⟨l, "probability".toList, P l⟩ : GroupParam L)).countP
        (fun r => r.name = "probability".toList) = ls.length := by
      rw [List.countP_map]
      simp [Function.comp_def]
    have h0 : ¬ ls.length = 0 := by simpa using hne
    simp only [List.length_map, h0, if_false, hlv, hvv, hn, hlen, and_self, if_true]
    have hprobs : (if (ls.map P).sum ≠ 1 then normalizeProbabilities (ls.map P) else ls.map P) =
        ls.map fun l => P l / (ls.map P).sum := by
      split
      · rw [normalizeProbabilities_eq _ (by simpa) hsum.ne', List.map_map]
        rfl
      · rename_i h1
        rw [not_ne_iff.1 h1]
        simp
    rw [hprobs]
    have hzip : List.zipWith (fun (r : GroupParam L) b => (⟨r.level, "constant".toList, b⟩ : GroupParam L))
        (ls.map fun l => ⟨l, "probability".toList, P l⟩)
        ((ls.map fun l => P l / (ls.map P).sum).map fun p => Real.log (max p (1 / maxFloat))) =
        ls.map fun l => ⟨l, "constant".toList, Real.log (P l / (ls.map P).sum)⟩ := by
      rw [List.map_map, List.zipWith_map, List.zipWith_self]
      apply List.map_congr_left
      intro l hl
      simp only [Function.comp, max_eq_left (hclip l hl)]
    rw [hzip]
    congr 2
    apply List.map_congr_left
    intro l hl
    have hl' : l ∈ ls := (sortedLevels_perm ls hnd).mem_iff.1 hl
    rw [List.filter_map, List.map_map]
    have : ls.filter ((fun r : GroupParam L => decide (r.level = l)) ∘
        fun l => ⟨l, "constant".toList, Real.log (P l / (ls.map P).sum)⟩) = [l] := by
      have e : ((fun r : GroupParam L => decide (r.level = l)) ∘
        fun l => (⟨l, "constant".toList, Real.log (P l / (ls.map P).sum)⟩ : GroupParam L)) =
          fun x => x == l := by funext x; simp [beq_eq_decide]
      rw [e, List.filter_beq, List.count_eq_one_of_mem hnd hl']
      rfl
    rw [this]
    rfl
  · unfold softmax
    rw [List.map_map]
    apply List.map_congr_left
    intro l hl
    have hl' : l ∈ ls := (sortedLevels_perm ls hnd).mem_iff.1 hl
    have hexp : ∀ x ∈ ls, Real.exp (Real.log (P x / (ls.map P).sum)) = P x / (ls.map P).sum :=
      fun x hx => Real.exp_log (div_pos (hpos x hx) hsum)
    have hden : ((ls.dedup.insertionSort (· ≤ ·)).map (Real.exp ∘ fun l =>
        Real.log (P l / (ls.map P).sum))).sum = 1 := by
      rw [((sortedLevels_perm ls hnd).map _).sum_eq]
      have : ls.map (Real.exp ∘ fun l => Real.log (P l / (ls.map P).sum)) =
          ls.map fun x => P x / (ls.map P).sum :=
        List.map_congr_left fun x hx => hexp x hx
      rw [this]
      simp only [div_eq_mul_inv]
      rw [List.sum_map_mul_right]
      exact mul_inv_cancel₀ hsum.ne'
    simp only [Function.comp, List.map_map] at hden ⊢
    rw [hden, hexp l hl', div_one]

/-- An error is reported if and only if there is a probability and also a coefficient, or two parameters
for the same level. -/
theorem C48_mixing_rejected (maxFloat : ℝ) (rows : List (GroupParam L)) :
    parseGroup maxFloat rows = .error .mixedProbabilities ↔
      (∃ r ∈ rows, r.name = "probability".toList) ∧
      ((∃ r ∈ rows, r.name ≠ "probability".toList) ∨ ¬ (rows.map GroupParam.level).Nodup) := by
  unfold parseGroup
  by_cases h0 : rows.length = 0
  · have : rows = [] := List.length_eq_zero_iff.1 h0
    subst this
    simp
  · rw [if_neg h0]
    have hnd : ((rows.map GroupParam.level).dedup.insertionSort (· ≤ ·)).length = rows.length ↔
        (rows.map GroupParam.level).Nodup := by
      rw [(List.perm_insertionSort _ _).length_eq]
      constructor
      · intro h
        rw [← List.dedup_eq_self]
        exact (List.dedup_sublist _).eq_of_length (by simpa using h)
      · intro h
        rw [h.dedup, List.length_map]
    have hall : (rows.countP fun r => r.name = "probability".toList) = rows.length ↔
        ∀ r ∈ rows, r.name = "probability".toList := by
      rw [List.countP_eq_length]
      simp only [decide_eq_true_eq]
    have hpos : (rows.countP fun r => r.name = "probability".toList) > 0 ↔
        ∃ r ∈ rows, r.name = "probability".toList := by
      rw [gt_iff_lt, List.countP_pos_iff]
      simp only [decide_eq_true_eq]
    dsimp only
    generalize (rows.countP fun r => r.name = "probability".toList) = nP at hall hpos ⊢
    generalize (rows.map GroupParam.level).dedup.insertionSort (· ≤ ·) = levels at hnd ⊢
    by_cases hc : nP = levels.length ∧ levels.length = rows.length
    · rw [if_pos hc]
      refine ⟨fun h => (by cases h), ?_⟩
      rintro ⟨_, ⟨r, hr, h⟩ | h⟩
      · exact absurd (hall.1 (hc.1.trans hc.2) r hr) h
      · exact absurd (hnd.1 hc.2) h
    · rw [if_neg hc]
      by_cases hp : nP > 0
      · rw [if_pos hp]
        refine ⟨fun _ => ⟨hpos.1 hp, ?_⟩, fun _ => rfl⟩
        by_contra hcon
        have h2 : levels.length = rows.length := hnd.2 (by by_contra h; exact hcon (Or.inr h))
        have h1 : nP = rows.length := hall.2 fun r hr => by
          by_contra h
          exact hcon (Or.inl ⟨r, hr, h⟩)
        exact hc ⟨by omega, h2⟩
      · rw [if_neg hp]
        exact ⟨fun h => (by cases h), fun h => absurd (hpos.2 h.1) hp⟩

end

/-- Three probabilities which do not sum to one. -/
example : [(2 : ℕ), 0, 1] ≠ [] ∧ [(2 : ℕ), 0, 1].Nodup ∧
    (∀ l ∈ [(2 : ℕ), 0, 1], (0 : ℝ) < (fun l : ℕ => (l : ℝ) + 1) l) ∧
    (∀ l ∈ [(2 : ℕ), 0, 1], 1 / (1000 : ℝ) ≤
      (fun l : ℕ => (l : ℝ) + 1) l / ([(2 : ℕ), 0, 1].map fun l : ℕ => (l : ℝ) + 1).sum) := by
  refine ⟨by simp, by simp, fun l _ => by positivity, fun l hl => ?_⟩
  simp only [List.mem_cons, List.not_mem_nil, or_false] at hl
  rcases hl with rfl | rfl | rfl <;> norm_num

end Respy
