import Mathlib.Data.List.Nodup
import Mathlib.Data.List.Perm.Basic
import Verif.Lemmas.CoreStateSpace
import Verif.Lemmas.Dict
import Verif.Model.ChoiceSets

/-! Helper lemmas on choice sets, groups and the indexer. -/

namespace Respy

theorem isInadmissible_iff {ρ : Type _} (formulas : List (FrameFormula ρ)) (row : ρ) :
    isInadmissible formulas row = true ↔ ∃ p, some p ∈ formulas ∧ p row = true := by
  have key : ∀ (l : List (FrameFormula ρ)) (b : Bool),
      l.foldl (fun acc f => match f with
        | some p => acc || p row
        | none => acc) b = true ↔ b = true ∨ ∃ p, some p ∈ l ∧ p row = true := by
    intro l
    induction l with
    | nil => simp
    | cons f l ih =>
      intro b
      rw [List.foldl_cons, ih]
      cases f with
      | none => simp
      | some p =>
        simp only [Bool.or_eq_true, List.mem_cons, Option.some.injEq]
        constructor
        · rintro ((h | h) | ⟨q, hq, h⟩)
          · exact .inl h
          · exact .inr ⟨p, .inl rfl, h⟩
          · exact .inr ⟨q, .inr hq, h⟩
        · rintro (h | ⟨q, rfl | hq, h⟩)
          · exact .inl (.inl h)
          · exact .inl (.inr h)
          · exact .inr ⟨q, hq, h⟩
  exact (key formulas false).trans (by simp)

theorem mem_groupIndices {ρ κ : Type _} [DecidableEq κ] (key : ρ → κ) (rows : List ρ) (k : κ)
    (i : Nat) : i ∈ groupIndices key rows k ↔ ∃ s, rows[i]? = some s ∧ key s = k := by
  simp only [groupIndices, List.mem_filter, List.mem_range, decide_eq_true_eq, Option.map_eq_some_iff]
  constructor
  · rintro ⟨_, h⟩; exact h
  · rintro ⟨s, h1, h2⟩
    exact ⟨(List.getElem?_eq_some_iff.1 h1).1, s, h1, h2⟩

theorem nodup_groupIndices {ρ κ : Type _} [DecidableEq κ] (key : ρ → κ) (rows : List ρ) (k : κ) :
    (groupIndices key rows k).Nodup := List.Nodup.filter _ List.nodup_range

theorem corePeriodChoice_keys (restr : List (List (FrameFormula CoreState)))
    (core : List CoreState) :
    ((corePeriodChoice restr core).map Prod.fst).Nodup ∧
    ∀ k, k ∈ (corePeriodChoice restr core).map Prod.fst ↔
      ∃ s ∈ core, periodChoiceKey restr s = k := by
  have h : (corePeriodChoice restr core).map Prod.fst =
      ((core.map (periodChoiceKey restr)).eraseDups).insertionSort fun a b => periodChoiceLe a b := by
    simp [corePeriodChoice, Function.comp_def]
  rw [h]
  refine ⟨(List.perm_insertionSort _ _).nodup_iff.2 (nodup_eraseDups _), ?_⟩
  intro k
  rw [(List.perm_insertionSort _ _).mem_iff, List.mem_eraseDups, List.mem_map]

theorem corePeriodChoice_indices (restr : List (List (FrameFormula CoreState)))
    (core : List CoreState) (g) (hg : g ∈ corePeriodChoice restr core) :
    g.2 = groupIndices (periodChoiceKey restr) core g.1 := by
  simp only [corePeriodChoice, List.mem_map] at hg
  obtain ⟨k, _, rfl⟩ := hg
  rfl

theorem groups_flatten_perm (restr : List (List (FrameFormula CoreState)))
    (core : List CoreState) :
    (((corePeriodChoice restr core).map Prod.snd).flatten).Perm (List.range core.length) := by
  obtain ⟨hnd, hmem⟩ := corePeriodChoice_keys restr core
  rw [List.perm_ext_iff_of_nodup _ List.nodup_range]
  · intro i
    simp only [List.mem_flatten, List.mem_map, List.mem_range]
    constructor
    · rintro ⟨l, ⟨g, hg, rfl⟩, hi⟩
      rw [corePeriodChoice_indices _ _ _ hg, mem_groupIndices] at hi
      obtain ⟨s, hs, _⟩ := hi
      exact (List.getElem?_eq_some_iff.1 hs).1
    · intro hi
      have hk : periodChoiceKey restr core[i] ∈ (corePeriodChoice restr core).map Prod.fst :=
        (hmem _).2 ⟨core[i], List.getElem_mem hi, rfl⟩
      obtain ⟨g, hg, hgk⟩ := List.mem_map.1 hk
      refine ⟨g.2, ⟨g, hg, rfl⟩, ?_⟩
      rw [corePeriodChoice_indices _ _ _ hg, mem_groupIndices]
      exact ⟨core[i], List.getElem?_eq_getElem hi, hgk.symm⟩
  · rw [List.nodup_flatten]
    constructor
    · intro l hl
      obtain ⟨g, hg, rfl⟩ := List.mem_map.1 hl
      rw [corePeriodChoice_indices _ _ _ hg]
      exact nodup_groupIndices _ _ _
    · rw [List.pairwise_map]
      rw [List.Nodup, List.pairwise_map] at hnd
      have hall : (corePeriodChoice restr core).Pairwise
          fun a b => a ∈ corePeriodChoice restr core ∧ b ∈ corePeriodChoice restr core ∧
            a.1 ≠ b.1 := by
        rw [List.pairwise_iff_forall_sublist] at hnd ⊢
        intro a b hab
        have hsub := hab.subset
        exact ⟨hsub (by simp), hsub (by simp), hnd hab⟩
      refine hall.imp ?_
      rintro a b ⟨ha, hb, hne⟩ i hia hib
      rw [corePeriodChoice_indices _ _ _ ha, mem_groupIndices] at hia
      rw [corePeriodChoice_indices _ _ _ hb, mem_groupIndices] at hib
      obtain ⟨s, hs, hsa⟩ := hia
      obtain ⟨s', hs', hsb⟩ := hib
      rw [hs] at hs'
      cases hs'
      exact hne (hsa.symm.trans hsb)

theorem locRows_range {ρ : Type _} (rows : List ρ) : locRows rows (List.range rows.length) = rows := by
  apply List.ext_getElem?
  intro i
  have : locRows rows (List.range rows.length) = (List.range rows.length).pmap
      (fun i hi => rows[i]) (fun i hi => List.mem_range.1 hi) := by
    rw [locRows, List.pmap_eq_map_attach, ← List.filterMap_eq_map]
    conv_lhs => rw [← List.attach_map_subtype_val (List.range rows.length), List.filterMap_map]
    apply List.filterMap_congr
    rintro ⟨i, hi⟩ _
    simp at hi
    simp [List.getElem?_eq_getElem hi]
  rw [this]
  by_cases h : i < rows.length
  · simp [h]
  · simp [h]

theorem mem_locRows {ρ : Type _} (rows : List ρ) (indices : List Nat) (s : ρ) :
    s ∈ locRows rows indices ↔ ∃ i ∈ indices, rows[i]? = some s := by
  simp [locRows]

theorem mem_indexer_items (core : List CoreState) (groups : List (List Nat)) (s : CoreState)
    (k i : Nat) :
    (s, (k, i)) ∈ (groups.mapIdx fun coreKey indices =>
      (locRows core indices).mapIdx fun i s => (s, (coreKey, i))).flatten ↔
    ∃ indices, groups[k]? = some indices ∧ (locRows core indices)[i]? = some s := by
  simp only [List.mem_flatten, List.mem_mapIdx]
  constructor
  · rintro ⟨l, ⟨k', hk', rfl⟩, h⟩
    rw [List.mem_mapIdx] at h
    obtain ⟨i', hi', heq⟩ := h
    simp only [Prod.mk.injEq] at heq
    obtain ⟨h1, h2, h3⟩ := heq
    subst h2; subst h3
    refine ⟨_, List.getElem?_eq_getElem hk', ?_⟩
    rw [List.getElem?_eq_getElem hi', h1]
  · rintro ⟨indices, h1, h2⟩
    obtain ⟨hk, rfl⟩ := List.getElem?_eq_some_iff.1 h1
    obtain ⟨hi, hs⟩ := List.getElem?_eq_some_iff.1 h2
    refine ⟨_, ⟨k, hk, rfl⟩, ?_⟩
    rw [List.mem_mapIdx]
    exact ⟨i, hi, by simp [hs]⟩

theorem indexer_items_keys (core : List CoreState) (groups : List (List Nat)) :
    (groups.mapIdx fun coreKey indices =>
      (locRows core indices).mapIdx fun i s => (s, (coreKey, i))).flatten.map Prod.fst =
    locRows core groups.flatten := by
  rw [List.map_flatten]
  have : ((groups.mapIdx fun (k : Nat) (x : List Nat) =>
      (locRows core x).mapIdx fun i s => (s, (k, i))).map (List.map Prod.fst)) =
      groups.map (locRows core) := by
    apply List.ext_getElem?
    intro i
    simp only [List.getElem?_mapIdx, List.getElem?_map]
    cases groups[i]? with
    | none => rfl
    | some x =>
      simp only [Option.map_some, Option.some.injEq]
      apply List.ext_getElem?
      intro j
      simp [List.getElem?_mapIdx, Function.comp_def]
  rw [this]
  clear this
  induction groups with
  | nil => rfl
  | cons g gs ih => simp only [List.map_cons, List.flatten_cons, ih]; simp [locRows]

theorem indexer_keys_nodup (restr : List (List (FrameFormula CoreState))) (core : List CoreState)
    (hnd : core.Nodup) :
    (locRows core ((corePeriodChoice restr core).map Prod.snd).flatten).Nodup := by
  have := (groups_flatten_perm restr core).filterMap fun i => core[i]?
  have h2 : (locRows core ((corePeriodChoice restr core).map Prod.snd).flatten).Perm core := by
    have h := locRows_range core
    rw [← h]
    conv_lhs => rw [h]
    exact this
  exact h2.nodup_iff.2 hnd

end Respy
