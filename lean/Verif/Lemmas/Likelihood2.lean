import Verif.Lemmas.Likelihood
import Mathlib.Data.List.Dedup
import Mathlib.Data.List.Perm.Basic
import Mathlib.Data.List.FinRange

/-! # Lemmas about the aggregation of the likelihood -/

namespace Respy

/-- The complete rows for the observations `obs` (pairs of individual and period) and `nTypes` types. -/
def completeRows (nTypes : Nat) (obs : List (Nat × Nat)) (lc lw : Nat → Nat → Nat → ℝ) :
    List LoglikeRow :=
  obs.flatMap fun o => (List.range nTypes).map fun t => ⟨o.1, o.2, t, lc o.1 o.2 t, lw o.1 o.2 t⟩

theorem mem_completeRows (nTypes : Nat) (obs : List (Nat × Nat)) (lc lw : Nat → Nat → Nat → ℝ)
    (r : LoglikeRow) : r ∈ completeRows nTypes obs lc lw ↔ (r.identifier, r.period) ∈ obs ∧
      r.type < nTypes ∧ r.choice = lc r.identifier r.period r.type ∧
      r.wage = lw r.identifier r.period r.type := by
  simp only [completeRows, List.mem_flatMap, List.mem_map, List.mem_range]
  constructor
  · rintro ⟨o, ho, t, ht, rfl⟩
    exact ⟨ho, ht, rfl, rfl⟩
  · rintro ⟨ho, ht, hc, hw⟩
    refine ⟨_, ho, r.type, ht, ?_⟩
    cases r
    simp_all

variable {nTypes : Nat} {obs : List (Nat × Nat)} {lc lw : Nat → Nat → Nat → ℝ}
  {rows : List LoglikeRow}

theorem wideEntry_complete (hp : rows.Perm (completeRows nTypes obs lc lw)) (o : Nat × Nat)
    (ho : o ∈ obs) (t : Nat) (ht : t < nTypes) :
    wideEntry rows o.1 o.2 t = some ⟨o.1, o.2, t, lc o.1 o.2 t, lw o.1 o.2 t⟩ := by
  have hmem : (⟨o.1, o.2, t, lc o.1 o.2 t, lw o.1 o.2 t⟩ : LoglikeRow) ∈ rows :=
    hp.mem_iff.2 ((mem_completeRows _ _ _ _ _).2 ⟨ho, ht, rfl, rfl⟩)
  unfold wideEntry
  cases hf : rows.find? fun r => decide (r.identifier = o.1 ∧ r.period = o.2 ∧ r.type = t) with
  | none =>
    rw [List.find?_eq_none] at hf
    exact absurd (hf _ hmem) (by simp)
  | some r =>
    have h1 := List.find?_some hf
    have h2 := List.mem_of_find?_eq_some hf
    simp only [decide_eq_true_eq] at h1
    obtain ⟨_, _, hc, hw⟩ := (mem_completeRows _ _ _ _ _).1 (hp.mem_iff.1 h2)
    cases r
    simp_all

theorem wideIndex_perm (hn : 0 < nTypes) (hobs : obs.Nodup)
    (hp : rows.Perm (completeRows nTypes obs lc lw)) : (wideIndex rows).Perm obs := by
  unfold wideIndex
  rw [List.perm_ext_iff_of_nodup (List.nodup_dedup _) hobs]
  intro o
  rw [List.mem_dedup, List.mem_map]
  constructor
  · rintro ⟨r, hr, rfl⟩
    exact ((mem_completeRows _ _ _ _ _).1 (hp.mem_iff.1 hr)).1
  · intro ho
    exact ⟨⟨o.1, o.2, 0, lc o.1 o.2 0, lw o.1 o.2 0⟩,
      hp.mem_iff.2 ((mem_completeRows _ _ _ _ _).2 ⟨ho, hn, rfl, rfl⟩), rfl⟩

theorem perIndividual_complete (hobs : obs.Nodup)
    (hp : rows.Perm (completeRows nTypes obs lc lw)) (t : Nat) (ht : t < nTypes) (i : Nat) :
    perIndividual rows t i =
      ((obs.filter fun o => o.1 = i).map fun o => lc o.1 o.2 t + lw o.1 o.2 t).sum := by
  have hperm := wideIndex_perm (Nat.zero_lt_of_lt ht) hobs hp
  unfold perIndividual
  rw [List.Perm.sum_eq ((hperm.filter _).filterMap _)]
  congr 1
  rw [← List.filterMap_eq_map]
  apply List.filterMap_congr
  intro o ho
  rw [wideEntry_complete hp o (List.mem_of_mem_filter ho) t ht]
  rfl

theorem exp_list_sum (l : List ℝ) : Real.exp l.sum = (l.map Real.exp).prod := by
  induction l with
  | nil => simp
  | cons x l ih => simp [Real.exp_add, ih]

theorem clip_eq_self (lo hi x : ℝ) (h1 : lo ≤ x) (h2 : x ≤ hi) : clip lo hi x = x := by
  unfold clip; rw [max_eq_left h1, min_eq_left h2]

theorem logTypeProbabilities_ofFn {T : Nat} (hT : 0 < T) (lo hi : ℝ) (x : Fin T → ℝ) :
    logTypeProbabilities lo hi (List.ofFn x) = some (List.ofFn fun t =>
      clip lo hi (Real.log (Real.exp (x t) / ∑ s, Real.exp (x s)))) := by
  have hne : List.ofFn x ≠ [] := by rw [Ne, List.ofFn_eq_nil_iff]; omega
  rw [logTypeProbabilities, logSumExp_eq _ hne, Option.map_some, List.map_ofFn, List.map_ofFn,
    List.sum_ofFn]
  congr 2
  funext t
  have hpos : 0 < ∑ s, Real.exp (x s) := Finset.sum_pos (fun s _ => Real.exp_pos _) ⟨t, Finset.mem_univ _⟩
  simp only [Function.comp]
  rw [Real.log_div (Real.exp_pos _).ne' hpos.ne', Real.log_exp]

theorem mapIdx_ofFn {α β : Type _} {n : Nat} (f : Fin n → α) (g : Nat → α → β) :
    (List.ofFn f).mapIdx g = List.ofFn fun i => g i (f i) := by
  apply List.ext_getElem
  · simp
  · intro i h1 h2
    simp

theorem mixtureContribution_ofFn {T : Nat} (hT : 0 < T) (lo hi : ℝ) (x : Fin T → ℝ)
    (hobs : obs.Nodup) (hp : rows.Perm (completeRows T obs lc lw)) (i : Nat) :
    mixtureContribution lo hi rows (List.ofFn x) i = some (clip lo hi (Real.log (∑ t : Fin T,
      Real.exp (clip lo hi (Real.log (Real.exp (x t) / ∑ s, Real.exp (x s)))) *
        ((obs.filter fun o => o.1 = i).map fun o =>
          Real.exp (lc o.1 o.2 t) * Real.exp (lw o.1 o.2 t)).prod))) := by
  unfold mixtureContribution
  rw [logTypeProbabilities_ofFn hT]
  have hne : ∀ f : Fin T → ℝ, List.ofFn f ≠ [] := by
    intro f; rw [Ne, List.ofFn_eq_nil_iff]; omega
  simp only [Option.bind_eq_bind, Option.bind_some, mapIdx_ofFn, logSumExp_eq _ (hne _),
    List.map_ofFn, List.sum_ofFn]
  refine congrArg (fun z => some (clip lo hi (Real.log z))) (Finset.sum_congr rfl fun t _ => ?_)
  simp only [Function.comp]
  rw [perIndividual_complete hobs hp t t.2, Real.exp_add, exp_list_sum, List.map_map, mul_comm]
  simp only [Function.comp_def, Real.exp_add]

theorem sum_typeCovariateRows (n : Nat) (ids : List Nat) (f : Nat → ℝ) :
    ((typeCovariateRows n ids).map f).sum = n * (ids.map f).sum := by
  induction ids with
  | nil => simp [typeCovariateRows]
  | cons i ids ih =>
    have : typeCovariateRows n (i :: ids) = List.replicate n i ++ typeCovariateRows n ids := rfl
    rw [this, List.map_append, List.sum_append, ih, List.map_cons, List.sum_cons, List.map_replicate,
      List.sum_replicate, nsmul_eq_mul]
    ring

theorem length_typeCovariateRows (n : Nat) (ids : List Nat) :
    (typeCovariateRows n ids).length = n * ids.length := by
  induction ids with
  | nil => simp [typeCovariateRows]
  | cons i ids ih =>
    have : typeCovariateRows n (i :: ids) = List.replicate n i ++ typeCovariateRows n ids := rfl
    rw [this, List.length_append, ih, List.length_cons, List.length_replicate]
    ring

end Respy
