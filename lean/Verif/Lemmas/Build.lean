import Verif.Spec.Build
import Verif.Props.Dense

/-! Helper lemmas: the dictionaries of a created state space. -/

namespace Respy

theorem noDense_items (restr : List (List (FrameFormula CoreState))) (core : List CoreState) :
    densePeriodChoiceNoDense (corePeriodChoice restr core) =
      (corePeriodChoice restr core).zipIdx.map fun g => (⟨g.1.1.1, g.1.1.2, none⟩, g.2) := by
  unfold densePeriodChoiceNoDense
  apply Dict.ofItems_of_nodup
  apply nodup_of_getElem?
  intro i j a hi hj
  simp only [List.getElem?_map, Option.map_map, Option.map_eq_some_iff, List.getElem?_zipIdx,
    Function.comp] at hi hj
  obtain ⟨g1, hg1, hga⟩ := hi
  obtain ⟨g1', hg1', hga'⟩ := hj
  rw [← hga'] at hga
  simp only [Complex.mk.injEq, and_true] at hga
  have hkey : g1.1 = g1'.1 := Prod.ext hga.1 hga.2
  have hnd := (C08_groups_partition restr core).2.2
  obtain ⟨hl, he⟩ := List.getElem?_eq_some_iff.1 hg1
  obtain ⟨hl', he'⟩ := List.getElem?_eq_some_iff.1 hg1'
  have l1 : i < ((corePeriodChoice restr core).map Prod.fst).length := by simpa using hl
  have l2 : j < ((corePeriodChoice restr core).map Prod.fst).length := by simpa using hl'
  refine (List.Nodup.getElem_inj_iff hnd (hi := l1) (hj := l2)).1 ?_
  simp [he, he', hkey]

theorem noDense_getElem? (restr : List (List (FrameFormula CoreState))) (core : List CoreState)
    (k : Nat) (c : Complex) (ck : Nat) :
    (densePeriodChoiceNoDense (corePeriodChoice restr core))[k]? = some (c, ck) ↔
      ck = k ∧ ∃ g, (corePeriodChoice restr core)[k]? = some g ∧ c = ⟨g.1.1, g.1.2, none⟩ := by
  rw [noDense_items]
  simp only [List.getElem?_map, List.getElem?_zipIdx, Option.map_map, Option.map_eq_some_iff,
    Function.comp, Prod.mk.injEq]
  constructor
  · rintro ⟨g, hg, rfl, h⟩; exact ⟨by omega, g, hg, rfl⟩
  · rintro ⟨rfl, g, hg, rfl⟩; exact ⟨g, hg, rfl, by omega⟩

theorem noDense_lookup (restr : List (List (FrameFormula CoreState))) (core : List CoreState)
    (k : Nat) (hk : k < (corePeriodChoice restr core).length) :
    (denseKeyLookup (densePeriodChoiceNoDense (corePeriodChoice restr core))).get? (k, 0) =
      some k := by
  have hget : ∀ i : Nat, i < (corePeriodChoice restr core).length →
      ∃ c, (densePeriodChoiceNoDense (corePeriodChoice restr core))[i]? = some (c, i) ∧
        c.dense = none := by
    intro i hi
    exact ⟨_, (noDense_getElem? restr core i _ i).2 ⟨rfl, _, List.getElem?_eq_getElem hi, rfl⟩, rfl⟩
  refine Dict.get?_ofItems_of_mem _ ?_ _ _ ?_
  · apply nodup_of_getElem?
    intro i j a hi hj
    simp only [List.getElem?_map, List.getElem?_mapIdx, Option.map_map,
      Option.map_eq_some_iff] at hi hj
    obtain ⟨⟨c, x⟩, hci, hca⟩ := hi
    obtain ⟨⟨c', x'⟩, hcj, hca'⟩ := hj
    obtain ⟨rfl, g, _, rfl⟩ := (noDense_getElem? _ _ _ _ _).1 hci
    obtain ⟨rfl, g', _, rfl⟩ := (noDense_getElem? _ _ _ _ _).1 hcj
    simp only [Function.comp, coreDenseKey] at hca hca'
    rw [← hca'] at hca
    simpa using hca
  · obtain ⟨c, hc, hd⟩ := hget k hk
    rw [List.mem_mapIdx]
    obtain ⟨hlt, he⟩ := List.getElem?_eq_some_iff.1 hc
    exact ⟨k, hlt, by rw [he]; simp [coreDenseKey, hd]⟩

/-- The dictionary of dense keys of a well-formed model. -/
theorem densePeriodCores_facts (b : BuildSpec) (core : List CoreState) (wf : b.Grouped core) :
    let groups := corePeriodChoice b.restrCore core
    let indexer := createIndexer core (groups.map Prod.snd)
    ∃ dpc, b.densePeriodCores core groups = some dpc ∧
      (∀ s ∈ core, ∀ d ∈ b.denseIndices, ∃ ck pos dk, indexer.get? s = some (ck, pos) ∧
        (denseKeyLookup dpc).get? (ck, d.getD 0) = some dk ∧
        dpc[dk]? = some (⟨s.period, b.choiceSetAt d s, d⟩, ck)) ∧
      (∀ (dk : Nat) c ck, dpc[dk]? = some (c, ck) → c.dense ∈ b.denseIndices ∧
        (denseKeyLookup dpc).get? (ck, c.dense.getD 0) = some dk ∧
        ∃ g, groups[ck]? = some g ∧ ∀ i ∈ g.2, ∃ s, core[i]? = some s ∧ s.period = c.period ∧
          b.choiceSetAt c.dense s = c.choiceSet) := by
  intro groups indexer
  obtain ⟨core', hc', hnd, _⟩ := C01_core_nodup_sorted b.core wf.spec
  rw [wf.created] at hc'; cases hc'
  have hpart := C08_groups_partition b.restrCore core
  cases hgrid : b.grid with
  | none =>
    have hdi : b.denseIndices = [none] := by simp [BuildSpec.denseIndices, hgrid]
    refine ⟨densePeriodChoiceNoDense groups, by simp [BuildSpec.densePeriodCores, hgrid], ?_, ?_⟩
    · intro s hs d hd
      rw [hdi, List.mem_singleton] at hd
      subst hd
      obtain ⟨hloc, hall, _⟩ := C03_state_location_bijection b.restrCore core hnd
      obtain ⟨⟨ck, pos⟩, hl⟩ := (hall s).1 hs
      obtain ⟨indices, hgi, hrow⟩ := (hloc _ _ _).1 hl
      simp only [List.getElem?_map, Option.map_eq_some_iff] at hgi
      obtain ⟨g, hg, rfl⟩ := hgi
      obtain ⟨i, hi, his⟩ := (mem_locRows _ _ _).1 (List.mem_of_getElem? hrow)
      obtain ⟨s', hs', hper, hch⟩ := (hpart.2.1 g (List.mem_of_getElem? hg)).2 i hi
      rw [his] at hs'; cases hs'
      refine ⟨ck, pos, ck, hl, ?_, ?_⟩
      · exact noDense_lookup _ _ _ (List.getElem?_eq_some_iff.1 hg).1
      · rw [noDense_getElem?]
        exact ⟨rfl, g, hg, by simp [BuildSpec.choiceSetAt, hper, hch]⟩
    · intro dk c ck h
      obtain ⟨rfl, g, hg, rfl⟩ := (noDense_getElem? _ _ _ _ _).1 h
      refine ⟨by simp [hdi], noDense_lookup _ _ _ (List.getElem?_eq_some_iff.1 hg).1, g, hg, ?_⟩
      intro i hi
      obtain ⟨s, hs, hper, hch⟩ := (hpart.2.1 g (List.mem_of_getElem? hg)).2 i hi
      exact ⟨s, hs, hper, hch⟩
  | some grid =>
    have hdi : b.denseIndices = (List.range grid.length).map some := by
      simp [BuildSpec.denseIndices, hgrid]
    have hok : ∃ dpc, densePeriodChoice core groups b.restr grid.length = .ok dpc := by
      cases h : densePeriodChoice core groups b.restr grid.length with
      | ok dpc => exact ⟨dpc, rfl⟩
      | error e =>
        obtain ⟨d, hd, g, hg, i, hi, j, hj, s, s', hs, hs', hne⟩ :=
          (C08_value_error_iff b.restrCore core b.restr grid.length).1 ⟨e, h⟩
        obtain ⟨t, ht, hp, hc⟩ := (hpart.2.1 g hg).2 i hi
        obtain ⟨t', ht', hp', hc'⟩ := (hpart.2.1 g hg).2 j hj
        rw [hs] at ht; cases ht
        rw [hs'] at ht'; cases ht'
        exact absurd (wf.compatible grid hgrid d hd s (List.mem_of_getElem? hs) s'
          (List.mem_of_getElem? hs') (hp.trans hp'.symm) (hc.trans hc'.symm)) hne
    obtain ⟨dpc, hok⟩ := hok
    obtain ⟨h1, _, h3⟩ := C07_dense_key_partial b.restrCore core hnd b.restr grid.length dpc hok
      (wf.distinct grid hgrid)
    have hsev : ¬(b.restrCore.length = 1 ∧ groups ≠ [] ∧ grid ≠ []) := fun h => (wf.several grid hgrid).2 h.1
    refine ⟨dpc, by simp only [BuildSpec.densePeriodCores, hgrid, if_neg hsev, hok, Except.toOption], ?_, ?_⟩
    · intro s hs d hd
      rw [hdi, List.mem_map] at hd
      obtain ⟨d, hd, rfl⟩ := hd
      exact h1 s hs d (List.mem_range.1 hd)
    · intro dk c ck h
      obtain ⟨d, hd, hcd, hl, g, hg, hall⟩ := h3 dk c ck h
      rw [hcd]
      exact ⟨by rw [hdi]; exact List.mem_map.2 ⟨d, List.mem_range.2 hd, rfl⟩, hl, g, hg, hall⟩

end Respy
