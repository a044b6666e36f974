import Verif.Spec.Transition
import Verif.Lemmas.Transition
import Verif.Lemmas.Exogenous
import Verif.Lemmas.Solve2
import Verif.Lemmas.Emax

/-!
# Properties of exogenous processes: C19, C20
-/

set_option linter.unusedSectionVars false

namespace Respy

/-! ## C19 -/

/-- **C19.** Whenever the transit keys of a dense key are found, the row of transition probabilities
has one entry per point of the exogenous grid; the entry is the product over the processes of the
multinomial logit probabilities of the levels of this point; the entries are non-negative and sum to
one. `hcov` links the dense key lookup and the covariates of dense keys (proved in
`C07_dense_key_partial`, where also the dense index of a dense key is determined). -/
theorem C19_transition_probabilities (dense : List (List Nat)) (lookup : Dict (Nat × Nat) Nat)
    (xbetas : List (List ℝ)) (hlevels : ∀ xs ∈ xbetas, xs ≠ [])
    (covariatesOf : Nat → Option (List Nat)) (coreKey : Nat)
    (hcov : ∀ d key, lookup.get? (coreKey, d) = some key → covariatesOf key = dense[d]?)
    (covariates : List Nat) (keys : List Nat)
    (hkeys : transitKeys dense lookup (xbetas.map List.length) covariates coreKey = some keys) :
    ∃ row, transitionRow xbetas covariatesOf keys = some row ∧
      row.map Prod.fst = keys ∧ keys.Nodup ∧
      row.length = ((xbetas.map List.length).foldr (· * ·) 1) ∧
      (∀ (i : Nat) exog, (exogenousGrid (xbetas.map List.length))[i]? = some exog →
        (row[i]?).map Prod.snd = some (List.zipWith logitProbability xbetas exog).prod) ∧
      (∀ kp ∈ row, 0 ≤ kp.2) ∧ (row.map Prod.snd).sum = 1 := by
  set levels := xbetas.map List.length with hlev
  set grid := exogenousGrid levels with hgrid
  set n := xbetas.length with hn
  have hn' : levels.length = n := by simp [hlev, hn]
  have hprobs : (xbetas.map softmax).map (fun ps => List.range ps.length) =
      levels.map List.range := by
    rw [hlev, List.map_map, List.map_map]
    apply List.map_congr_left
    intro xs _
    simp [softmax]
  have hgmem : ∀ e ∈ grid, List.Forall₂ (· ∈ ·) e (levels.map List.range) := by
    intro e he
    rw [hgrid, exogenousGrid, mem_product] at he
    exact he
  have hglen : ∀ e ∈ grid, e.length = n := by
    intro e he
    rw [(hgmem e he).length_eq, List.length_map, hn']
  have hgnodup : grid.Nodup := by
    apply product_nodup
    intro l hl
    obtain ⟨m, _, rfl⟩ := List.mem_map.1 hl
    exact List.nodup_range
  have hf := (mapM_eq_some_iff _ _ _).1 hkeys
  rw [hn'] at hf
  have hf' : List.Forall₂ (fun e k => covariatesOf k = some (staticPart n covariates ++ e)) grid keys := by
    refine hf.imp ?_
    intro e k h
    obtain ⟨idx, h1, h2⟩ := Option.bind_eq_some_iff.1 h
    rw [hcov idx k h2, denseIndexOf_spec dense _ _ h1]
  have hnodup : keys.Nodup := by
    apply nodup_of_getElem?
    intro i j k hi hj
    have hli : i < grid.length := by
      rw [hf'.length_eq]; exact (List.getElem?_eq_some_iff.1 hi).1
    have hlj : j < grid.length := by
      rw [hf'.length_eq]; exact (List.getElem?_eq_some_iff.1 hj).1
    obtain ⟨ki, hki, hci⟩ := forall₂_getElem? hf' i _ (List.getElem?_eq_getElem hli)
    obtain ⟨kj, hkj, hcj⟩ := forall₂_getElem? hf' j _ (List.getElem?_eq_getElem hlj)
    rw [hi] at hki; cases hki
    rw [hj] at hkj; cases hkj
    rw [hci] at hcj
    simp only [Option.some.injEq, List.append_cancel_left_eq] at hcj
    exact (hgnodup.getElem_inj_iff (hi := hli) (hj := hlj)).1 hcj
  let point : Nat → ℝ := fun k =>
    selectedProduct (xbetas.map softmax) (exogenousPart n ((covariatesOf k).getD []))
  have hrow : transitionRow xbetas covariatesOf keys = some (keys.map fun k => (k, point k)) := by
    rw [transitionRow, eraseDups_of_nodup _ hnodup]
    rw [mapM_eq_some_iff]
    rw [List.forall₂_map_right_iff]
    rw [List.forall₂_same]
    intro k hk
    obtain ⟨i, hi⟩ := List.mem_iff_getElem?.1 hk
    have hli : i < grid.length := by
      rw [hf'.length_eq]; exact (List.getElem?_eq_some_iff.1 hi).1
    obtain ⟨ki, hki, hci⟩ := forall₂_getElem? hf' i _ (List.getElem?_eq_getElem hli)
    rw [hi] at hki; cases hki
    have hmem := List.getElem_mem hli
    have hexo := exogenousPart_append n (staticPart n covariates) grid[i] (hglen _ hmem)
    simp only [point, hci, Option.bind_eq_bind, Option.bind_some, Option.getD_some, hexo, ← hn]
    rw [pointProbability_eq _ _ (by rw [hprobs]; exact hgmem _ hmem)]
    rfl
  have hpoint : keys.map point = grid.map (selectedProduct (xbetas.map softmax)) := by
    apply map_eq_of_forall₂
    refine (forall₂_and_left hf' hglen).imp ?_
    rintro e k ⟨h1, h3⟩
    simp only [point, h1, Option.getD_some, exogenousPart_append n _ e h3]
  have hsel : ∀ e, selectedProduct (xbetas.map softmax) e =
      (List.zipWith logitProbability xbetas e).prod := by
    intro e
    unfold selectedProduct
    congr 1
    rw [List.zipWith_map_left]
    congr 1
    funext xs v
    simp only [softmax, logitProbability, List.getElem?_map]
    cases xs[v]? <;> rfl
  refine ⟨_, hrow, ?_, hnodup, ?_, ?_, ?_, ?_⟩
  · rw [List.map_map]; exact List.map_id _
  · rw [List.length_map, ← hf'.length_eq, hgrid, exogenousGrid]
    clear_value levels
    clear hrow hpoint hf hf' hkeys hgnodup hglen hgmem hprobs hn' point hgrid grid hlev
    induction levels with
    | nil => rfl
    | cons l ls ih =>
      simp only [List.map_cons, product, List.length_flatMap, List.length_map, List.foldr_cons]
      rw [← ih]
      simp
  · intro i exog hi
    have h1 : (keys.map point)[i]? = some (selectedProduct (xbetas.map softmax) exog) := by
      rw [hpoint, List.getElem?_map, hi]; rfl
    rw [← hsel, ← h1, List.getElem?_map, List.getElem?_map, Option.map_map]
    rfl
  · intro kp hkp
    obtain ⟨k, _, rfl⟩ := List.mem_map.1 hkp
    simp only [point]
    unfold selectedProduct
    apply List.prod_nonneg
    intro x hx
    rw [List.zipWith_map_left] at hx
    obtain ⟨j, hj⟩ := List.mem_iff_getElem?.1 hx
    rw [List.getElem?_zipWith] at hj
    split at hj
    · rename_i xs v _ _
      simp only [Option.some.injEq] at hj
      rw [← hj]
      cases hv : (softmax xs)[v]? with
      | none => simp
      | some p => exact softmax_nonneg xs p (List.mem_of_getElem? hv)
    · cases hj
  · have : (keys.map fun k => (k, point k)).map Prod.snd = keys.map point := by
      rw [List.map_map]; rfl
    rw [this, hpoint, hgrid, exogenousGrid, ← hprobs, sum_product, List.map_map]
    have : xbetas.map (List.sum ∘ softmax) = xbetas.map fun _ => (1 : ℝ) := by
      apply List.map_congr_left
      intro xs hxs
      exact softmax_sum xs (hlevels xs hxs)
    rw [this]
    simp

/-- Two processes with two and three levels, one observable with two levels, one core key: the
transit keys of the dense state `(1, 0, 2)` are found. -/
example : transitKeys (product [[0, 1], [0, 1], [0, 1, 2]])
    (Dict.ofItems ((List.range 12).map fun d => ((0, d), d))) [2, 3] [1, 0, 2] 0 =
      some [6, 7, 8, 9, 10, 11] := by decide +kernel

/-! ## C20 -/

/-- The transit choice set of a dense key contains the choice sets of exactly the dense keys from
which it can be reached by a change of the exogenous processes. -/
theorem C20_transit_choice_sets (transit : Dict Nat (List Nat)) (hn : transit.keys.Nodup)
    (choiceSets : Dict Nat (List Bool)) (reps : Dict Nat (List Bool))
    (h : transitChoiceSets transit choiceSets = some reps)
    (f : Nat) (rep : List Bool) (hf : reps.get? f = some rep) :
    (∀ k keys cs, transit.get? k = some keys → f ∈ keys → choiceSets.get? k = some cs →
      cs.length = rep.length) ∧
    ∀ j : Nat, rep[j]? = some true ↔
      ∃ k keys cs, transit.get? k = some keys ∧ f ∈ keys ∧ choiceSets.get? k = some cs ∧
        cs[j]? = some true := by
  unfold transitChoiceSets at h
  rw [mapM_eq_some_iff] at h
  have hmem := Dict.mem_of_get? _ _ _ hf
  obtain ⟨i, hi⟩ := List.mem_iff_getElem?.1 hmem
  have hli : i < transit.length := by
    rw [h.length_eq]; exact (List.getElem?_eq_some_iff.1 hi).1
  obtain ⟨b, hb, hR⟩ := forall₂_getElem? h i _ (List.getElem?_eq_getElem hli)
  rw [hi] at hb; cases hb
  obtain ⟨sets, hsets, hR⟩ := Option.bind_eq_some_iff.1 hR
  obtain ⟨m, hm, hR⟩ := Option.bind_eq_some_iff.1 hR
  simp only [Option.pure_def, Option.some.injEq, Prod.mk.injEq] at hR
  obtain ⟨hkey, rfl⟩ := hR
  obtain ⟨hlen, hany⟩ := maximalChoiceSet_spec sets m hm
  rw [mapM_eq_some_iff] at hsets
  have hback : ∀ cs ∈ sets, ∃ k keys, transit.get? k = some keys ∧ f ∈ keys ∧
      choiceSets.get? k = some cs := by
    intro cs hcs
    obtain ⟨j, hj⟩ := List.mem_iff_getElem?.1 hcs
    obtain ⟨r, hr, hrc⟩ := forall₂_getElem? hsets.flip j cs hj
    have := List.mem_of_getElem? hr
    rw [List.mem_filter] at this
    refine ⟨r.1, r.2, Dict.get?_of_mem _ hn _ _ this.1, ?_, hrc⟩
    have h2 := this.2
    rw [hkey] at h2
    simpa using h2
  have hforth : ∀ k keys cs, transit.get? k = some keys → f ∈ keys →
      choiceSets.get? k = some cs → cs ∈ sets := by
    intro k keys cs hk hfk hcs
    have hm2 : (k, keys) ∈ transit.filter fun r => r.2.contains (transit[i].1) := by
      rw [List.mem_filter]
      refine ⟨Dict.mem_of_get? _ _ _ hk, ?_⟩
      rw [hkey]; simpa using hfk
    obtain ⟨j, hj⟩ := List.mem_iff_getElem?.1 hm2
    obtain ⟨cs', hcs', hg⟩ := forall₂_getElem? hsets j _ hj
    simp only at hg
    rw [hcs] at hg; cases hg
    exact List.mem_of_getElem? hcs'
  refine ⟨fun k keys cs hk hfk hcs => hlen cs (hforth k keys cs hk hfk hcs), fun j => ?_⟩
  rw [hany j]
  constructor
  · rintro ⟨cs, hcs, hj⟩
    obtain ⟨k, keys, h1, h2, h3⟩ := hback cs hcs
    exact ⟨k, keys, cs, h1, h2, h3, hj⟩
  · rintro ⟨k, keys, cs, h1, h2, h3, hj⟩
    exact ⟨cs, hforth k keys cs h1 h2 h3, hj⟩

section
variable {K : Type _} [Field K]

/-- **C20.** Suppose that the columns of the continuation values of each reachable dense key `f` are
labelled by the choices in its transit choice set (`x f a` is the value of choice `a`) and that the
transit choice sets contain the choice set of the dense key. Then the columns of the weighted
continuation values are labelled by the choices of the dense key's own choice set, in increasing
order, and the value of choice `a` is the probability-weighted sum of the values of the same
choice. -/
theorem C20_weighted_continuation_values (cs : List Bool) (reps : Dict Nat (List Bool))
    (cvs : Dict Nat (List (List K))) (transition : List (Nat × List K)) (i : Nat)
    (x : Nat → Nat → K) (p : Nat × List K → K) (hne : transition ≠ [])
    (h : ∀ col ∈ transition, ∃ rep cv, reps.get? col.1 = some rep ∧ rep.length = cs.length ∧
      (∀ j : Nat, cs[j]? = some true → rep[j]? = some true) ∧ cvs.get? col.1 = some cv ∧
      cv[i]? = some (((List.range rep.length).filter fun a => rep[a]? = some true).map (x col.1)) ∧
      col.2[i]? = some (p col)) :
    weightRow cs reps cvs transition i =
      some (((List.range cs.length).filter fun a => cs[a]? = some true).map fun a =>
        (transition.map fun col => p col * x col.1 a).sum) := by
  unfold weightRow
  have hcols : (transition.mapM fun col => do
      let rep ← reps.get? col.1
      let mask ← representationCols rep cs
      let cv ← cvs.get? col.1
      let row ← cv[i]?
      let adjusted ← boolIndex mask row
      let p ← col.2[i]?
      pure (adjusted.map (p * ·))) =
      some (transition.map fun col => (validChoices cs).map fun a => p col * x col.1 a) := by
    apply mapM_eq_some_map
    intro col hcol
    obtain ⟨rep, cv, h1, h2, h3, h4, h5, h6⟩ := h col hcol
    have hb := boolIndex_representation rep cs h2 h3 (x col.1)
    obtain ⟨mask, hm, hb⟩ := Option.bind_eq_some_iff.1 hb
    simp only [h1, hm, h4, h5, h6, Option.bind_eq_bind, Option.bind_some]
    rw [show ((List.range rep.length).filter fun a => decide (rep[a]? = some true)) =
      validChoices rep from rfl, hb]
    simp [List.map_map, Function.comp_def]
  rw [hcols]
  simp only [Option.bind_eq_bind, Option.bind_some]
  exact reduceAdd_map (validChoices cs) (fun col a => p col * x col.1 a) transition hne

end

section
variable {K : Type _} [Field K] [LinearOrder K] [IsStrictOrderedRing K]

/-- **C20.** A probability-weighted sum lies between bounds of the values. -/
theorem C20_between_bounds (transition : List (Nat × List K)) (x : Nat → K)
    (p : Nat × List K → K) (hp : ∀ col ∈ transition, 0 ≤ p col)
    (hsum : (transition.map p).sum = 1) (lo hi : K)
    (hx : ∀ col ∈ transition, lo ≤ x col.1 ∧ x col.1 ≤ hi) :
    lo ≤ (transition.map fun col => p col * x col.1).sum ∧
      (transition.map fun col => p col * x col.1).sum ≤ hi := by
  have hl : (transition.map fun col => p col * lo).sum = lo := by
    rw [List.sum_map_mul_right, hsum, one_mul]
  have hh : (transition.map fun col => p col * hi).sum = hi := by
    rw [List.sum_map_mul_right, hsum, one_mul]
  constructor
  · rw [← hl]
    refine (le_of_eq (by rw [hl])).trans (sum_map_le _ _ _ fun col hc => ?_)
    exact mul_le_mul_of_nonneg_left (hx col hc).1 (hp col hc)
  · refine (sum_map_le _ _ (fun col => p col * hi) fun col hc => ?_).trans (le_of_eq hh)
    exact mul_le_mul_of_nonneg_left (hx col hc).2 (hp col hc)

end

/-- Dense keys 0 and 1 with choice sets `{0, 2}` and `{1, 2}` reach each other; both have the transit
choice set `{0, 1, 2}`. For key 0 the values of the choices 0 and 2 are averaged. -/
example : transitChoiceSets [(0, [0, 1]), (1, [0, 1])]
      [(0, [true, false, true]), (1, [false, true, true])] =
      some [(0, [true, true, true]), (1, [true, true, true])] ∧
    weightRow (K := ℚ) [true, false, true] [(0, [true, true, true]), (1, [true, true, true])]
      [(0, [[1, 2, 3]]), (1, [[5, 6, 7]])] [(0, [1/4]), (1, [3/4])] 0 = some [4, 6] := by
  decide +kernel

end Respy
