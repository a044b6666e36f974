import Verif.Spec.OwnSamples
import Verif.Props.ParameterFunctions

/-!
# Lemmas about simulated samples as data
-/

namespace Respy

theorem eraseIdx_insert (l : List Nat) (n t : Nat) (h : n < l.length) :
    (l.eraseIdx n).take n ++ t :: (l.eraseIdx n).drop n = l.set n t := by
  induction l generalizing n with
  | nil => simp at h
  | cons x l ih =>
    cases n with
    | zero => simp
    | succ n => simpa using ih n (by simpa using h)

theorem overAvailable_sq_pos (cs : List Bool) (f : Nat → ℝ) (a : Nat) (ha : cs[a]? = some true) (hf : f a ≠ 0) :
    overAvailable cs (fun j => f j * f j) ≠ 0 := by
  unfold overAvailable
  have hlt : a < cs.length := (List.getElem?_eq_some_iff.1 ha).1
  have hnn : ∀ x ∈ (List.range cs.length).map fun j => if cs[j]? = some true then f j * f j else 0, 0 ≤ x := by
    intro x hx
    obtain ⟨j, _, rfl⟩ := List.mem_map.1 hx
    split
    · exact mul_self_nonneg _
    · exact le_refl _
  have hmem : f a * f a ∈ (List.range cs.length).map fun j => if cs[j]? = some true then f j * f j else 0 :=
    List.mem_map.2 ⟨a, List.mem_range.2 hlt, by rw [if_pos ha]⟩
  have h1 := List.single_le_sum hnn _ hmem
  have h2 : 0 < f a * f a := mul_self_pos.2 hf
  exact ne_of_gt (lt_of_lt_of_le h2 h1)

theorem positionIn_eq_of_prefix (cs : List Bool) (a : Nat) (h : ∀ b < a, cs[b]? = some true) :
    positionIn cs a = a := by
  induction a with
  | zero => simp [positionIn]
  | succ a ih => rw [positionIn_succ cs a (h a (by omega)), ih fun b hb => h b (by omega)]

section
variable {env : ProcessEnv} {m : UserModel} {p q : Processed} {ev : FormulaEval} {core : List CoreState}
  {covariates : Dict Str Str}

theorem nStatic_of_static (hexo : p.exogenous = []) : p.nStatic = p.observables.length := by
  unfold Processed.nStatic Processed.denseSpec
  simp [hexo]

/-- If an individual can be of one type, there are states with all other types. -/
theorem hasIndex_set_type (hexo : p.exogenous = []) (htypes : 2 ≤ p.nTypes) (dense : List Nat) (d : Option Nat)
    (h : (p.buildSpec ev).HasIndex dense d) :
    p.nStatic < dense.length ∧ ∀ t < p.nTypes, ∃ d', (p.buildSpec ev).HasIndex (dense.set p.nStatic t) d' := by
  have hlev := denseLevels_grid p ev
  unfold BuildSpec.DenseLevels at hlev
  unfold BuildSpec.HasIndex at h ⊢
  cases hg : (p.buildSpec ev).grid with
  | none =>
    rw [hg] at hlev
    simp only at hlev
    exfalso
    unfold Processed.denseLevels at hlev
    rw [if_pos htypes] at hlev
    simp at hlev
  | some grid =>
    rw [hg] at hlev h
    simp only at hlev h ⊢
    obtain ⟨i, rfl, hi⟩ := h
    have hmem := List.mem_of_getElem? hi
    rw [hlev, mem_product] at hmem
    unfold Processed.denseLevels at hmem hlev
    rw [if_pos htypes] at hmem hlev
    have hlen := hmem.length_eq
    simp only [List.length_append, List.length_map, List.length_singleton] at hlen
    rw [nStatic_of_static hexo]
    refine ⟨by omega, fun t ht => ?_⟩
    have hset : dense.set p.observables.length t ∈ grid := by
      rw [hlev, mem_product, List.forall₂_iff_get]
      rw [List.forall₂_iff_get] at hmem
      obtain ⟨hl, hm⟩ := hmem
      refine ⟨by simpa using hl, fun j h1 h2 => ?_⟩
      by_cases hj : j = p.observables.length
      · subst hj
        simp [List.mem_range, ht]
      · have hj1 : j < dense.length := by simpa using h1
        have := hm j hj1 h2
        simp only [List.get_eq_getElem] at this ⊢
        rw [List.getElem_set_ne (by omega)]
        exact this
    obtain ⟨i', hi'⟩ := List.mem_iff_getElem?.1 hset
    exact ⟨some i', i', rfl, hi'⟩

theorem ProcessedFrom.no_errors (h : ProcessedFrom env m p covariates) (hm : p.measurement.1 = false) (a : Nat) :
    p.measurement.2.getD a 0 = 0 := by
  have hpar := h.measurement
  unfold parseMeasurementErrors at hpar
  split at hpar
  · simp only [Option.bind_eq_bind, Option.bind_eq_some_iff] at hpar
    obtain ⟨values, _, hpar⟩ := hpar
    split at hpar
    · simp only [Option.pure_def, Option.some.injEq] at hpar
      rw [← hpar] at hm
      cases hm
    · cases hpar
  · simp only [Option.pure_def, Option.some.injEq] at hpar
    rw [← hpar]
    simp only [List.getD_eq_getElem?_getD, List.getElem?_replicate]
    split <;> rfl

end

end Respy
