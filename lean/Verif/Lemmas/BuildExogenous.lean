import Verif.Lemmas.SolveTotal
import Verif.Lemmas.Rewards
import Verif.Props.Exogenous

/-! Helper lemmas: state spaces of models with exogenous processes. -/

set_option linter.unusedSectionVars false

namespace Respy

theorem mem_exogenousGrid (levels : List Nat) (e : List Nat) :
    e ∈ exogenousGrid levels ↔ List.Forall₂ (· ∈ ·) e (levels.map List.range) := by
  rw [exogenousGrid, mem_product]

/-- Points of the grid consist of a static and an exogenous part. -/
theorem grid_split (static : List (List Nat)) (levels : List Nat) (point : List Nat)
    (h : point ∈ product (static ++ levels.map List.range)) :
    exogenousPart levels.length point ∈ exogenousGrid levels ∧
    staticPart levels.length point ++ exogenousPart levels.length point = point ∧
    ∀ e ∈ exogenousGrid levels, staticPart levels.length point ++ e ∈
      product (static ++ levels.map List.range) := by
  rw [mem_product] at h
  have hlen : point.length = static.length + levels.length := by
    rw [h.length_eq]; simp
  have h1 := List.forall₂_take static.length h
  have h2 := List.forall₂_drop static.length h
  rw [List.take_left] at h1
  rw [List.drop_left] at h2
  have hk : point.length - levels.length = static.length := by omega
  refine ⟨?_, ?_, ?_⟩
  · rw [mem_exogenousGrid, exogenousPart, hk]; exact h2
  · rw [staticPart, exogenousPart, hk, List.take_append_drop]
  · intro e he
    rw [mem_exogenousGrid] at he
    rw [mem_product, staticPart, hk]
    exact List.rel_append h1 he

theorem denseIndexOf_get? (grid : List (List Nat)) (hn : grid.Nodup) (point : List Nat)
    (h : point ∈ grid) : (denseIndexOf grid).get? point = some (grid.idxOf point) := by
  unfold denseIndexOf
  apply Dict.get?_ofItems_of_mem
  · have : (grid.mapIdx fun i k => (k, i)).map Prod.fst = grid := by
      apply List.ext_getElem?
      intro i
      simp [List.getElem?_mapIdx, Function.comp_def]
    rw [this]; exact hn
  · have hlt := List.idxOf_lt_length_of_mem h
    rw [List.mem_iff_getElem?]
    exact ⟨grid.idxOf point, by simp [List.getElem?_mapIdx, List.getElem?_eq_getElem hlt]⟩

theorem BuildSpec.ExogWF.grid_eq {b : BuildSpec} {static : List (List Nat)} (h : b.ExogWF static)
    {grid : List (List Nat)} (hg : b.grid = some grid) :
    grid = product (static ++ b.exogLevels.map List.range) := by
  rw [h.grid] at hg; exact (Option.some.inj hg).symm

theorem BuildSpec.ExogWF.gridNodup {b : BuildSpec} {static : List (List Nat)} (h : b.ExogWF static)
    {grid : List (List Nat)} (hg : b.grid = some grid) : grid.Nodup := by
  rw [h.grid_eq hg]
  apply product_nodup
  intro l hl
  rcases List.mem_append.1 hl with hl | hl
  · exact h.nodup l hl
  · obtain ⟨n, _, rfl⟩ := List.mem_map.1 hl
    exact List.nodup_range

theorem mem_denseIndices {b : BuildSpec} {grid : List (List Nat)} (hg : b.grid = some grid)
    (d : Option Nat) : d ∈ b.denseIndices ↔ ∃ i, d = some i ∧ i < grid.length := by
  simp only [BuildSpec.denseIndices, hg, List.mem_map, List.mem_range]
  constructor
  · rintro ⟨i, h, rfl⟩; exact ⟨i, rfl, h⟩
  · rintro ⟨i, rfl, h⟩; exact ⟨i, h, rfl⟩

/-- The successor of a dense index. -/
theorem BuildSpec.ExogWF.successor_spec {b : BuildSpec} {static : List (List Nat)}
    (h : b.ExogWF static) {grid : List (List Nat)} (hg : b.grid = some grid) (d : Nat)
    (point : List Nat) (hd : grid[d]? = some point) (e : List Nat)
    (he : e ∈ exogenousGrid b.exogLevels) :
    ∃ d', b.successor (some d) e = some d' ∧ d' < grid.length ∧
      (denseIndexOf grid).get? (staticPart b.exogLevels.length point ++ e) = some d' ∧
      grid[d']? = some (staticPart b.exogLevels.length point ++ e) := by
  have hmem : staticPart b.exogLevels.length point ++ e ∈ grid := by
    have := List.mem_of_getElem? hd
    rw [h.grid_eq hg] at this ⊢
    exact (grid_split static b.exogLevels point this).2.2 e he
  have hlt := List.idxOf_lt_length_of_mem hmem
  refine ⟨grid.idxOf (staticPart b.exogLevels.length point ++ e), ?_, hlt,
    denseIndexOf_get? grid (h.gridNodup hg) _ hmem, ?_⟩
  · simp only [BuildSpec.successor, hg, Option.bind_eq_bind, Option.bind_some, hd, Option.pure_def,
      staticPart]
  · rw [List.getElem?_eq_getElem hlt, List.getElem_idxOf]

/-- The own dense index is a successor. -/
theorem BuildSpec.ExogWF.successor_self {b : BuildSpec} {static : List (List Nat)}
    (h : b.ExogWF static) {grid : List (List Nat)} (hg : b.grid = some grid) (d : Nat)
    (hd : d < grid.length) :
    ∃ e ∈ exogenousGrid b.exogLevels, b.successor (some d) e = some d := by
  have hm := List.getElem_mem hd
  have hm' : grid[d] ∈ product (static ++ b.exogLevels.map List.range) := by
    rw [← h.grid_eq hg]; exact hm
  obtain ⟨h1, h2, _⟩ := grid_split static b.exogLevels grid[d] hm'
  refine ⟨_, h1, ?_⟩
  obtain ⟨d', h3, h4, _, h5⟩ := h.successor_spec hg d _ (List.getElem?_eq_getElem hd) _ h1
  rw [h3]
  congr 1
  rw [h2, ← List.getElem?_eq_getElem hd] at h5
  exact (List.getElem?_inj h4 (h.gridNodup hg)).1 h5

/-- Dense keys of a core key. -/
theorem denseKey_of_coreKey (b : BuildSpec) (core : List CoreState) (wf : b.Grouped core)
    (dpc : Dict Complex Nat)
    (hdpc : b.densePeriodCores core (corePeriodChoice b.restrCore core) = some dpc) (k : Nat)
    (c : Complex) (ck : Nat) (hk : dpc[k]? = some (c, ck)) (d : Option Nat) (hd : d ∈ b.denseIndices) :
    ∃ f c', (denseKeyLookup dpc).get? (ck, d.getD 0) = some f ∧ dpc[f]? = some (c', ck) ∧
      c'.dense = d ∧ c'.period = c.period := by
  obtain ⟨core', hc', hnd, _⟩ := C01_core_nodup_sorted b.core wf.spec
  rw [wf.created] at hc'; cases hc'
  obtain ⟨dpc', hd', hA, hB⟩ := densePeriodCores_facts b core wf
  rw [hdpc] at hd'; cases hd'
  obtain ⟨hloc, hall, _⟩ := C03_state_location_bijection b.restrCore core hnd
  obtain ⟨h1, h2, g, hg, h3⟩ := hB k c ck hk
  obtain ⟨hne, hall'⟩ := (C08_groups_partition b.restrCore core).2.1 g (List.mem_of_getElem? hg)
  obtain ⟨i, hi⟩ := List.exists_mem_of_ne_nil _ hne
  obtain ⟨s, hs, hsp, _⟩ := h3 i hi
  have hsc := List.mem_of_getElem? hs
  have hrow : s ∈ locRows core g.2 := (mem_locRows _ _ _).2 ⟨i, hi, hs⟩
  obtain ⟨pos, hpos⟩ := List.mem_iff_getElem?.1 hrow
  have hidx := (hloc s ck pos).2 ⟨g.2, by rw [List.getElem?_map, hg]; rfl, hpos⟩
  obtain ⟨ck', pos', f, g1, g2, g3⟩ := hA s hsc d hd
  rw [hidx] at g1; cases g1
  exact ⟨f, _, g2, g3, rfl, hsp⟩

/-- Choice sets have one entry per choice. -/
theorem BuildSpec.ExogWF.length_choiceSet {b : BuildSpec} {static : List (List Nat)}
    (h : b.ExogWF static) (d : Option Nat) (s : CoreState) :
    (b.choiceSetAt d s).length = b.restrCore.length := by
  cases d with
  | none => simp [BuildSpec.choiceSetAt, choiceSet]
  | some d => simp [BuildSpec.choiceSetAt, choiceSet, h.lengths]

/-- The transit keys of one dense key are found. -/
theorem transitKeysOf_one (b : BuildSpec) (core : List CoreState) (wf : b.Grouped core)
    (static : List (List Nat)) (hx : b.ExogWF static) (grid : List (List Nat))
    (hg : b.grid = some grid) (dpc : Dict Complex Nat)
    (hdpc : b.densePeriodCores core (corePeriodChoice b.restrCore core) = some dpc)
    (k : Nat) (c : Complex) (ck : Nat) (hk : dpc[k]? = some (c, ck)) : ∃ keys,
      b.transitKeysOf dpc grid ((c, ck), k) = some (k, keys) ∧
        List.Forall₂ (fun e f => ∃ d', b.successor c.dense e = some d' ∧
          (denseKeyLookup dpc).get? (ck, d') = some f ∧ ∃ c', dpc[f]? = some (c', ck) ∧
            c'.dense = some d' ∧ c'.period = c.period) (exogenousGrid b.exogLevels) keys := by
  obtain ⟨dpc', hd', _, hB⟩ := densePeriodCores_facts b core wf
  rw [hdpc] at hd'; cases hd'
  obtain ⟨h1, _⟩ := hB k c ck hk
  obtain ⟨d, hd, hlt⟩ := (mem_denseIndices hg _).1 h1
  have hpt := List.getElem?_eq_getElem hlt
  obtain ⟨keys, hkeys, _, hkg⟩ := mapM_option_exists (exogenousGrid b.exogLevels) (fun exog => (do
      let idx ← (denseIndexOf grid).get? (staticPart b.exogLevels.length grid[d] ++ exog)
      (denseKeyLookup dpc).get? (ck, idx))) (fun e he => by
        obtain ⟨d', h3, h4, h5, _⟩ := hx.successor_spec hg d _ hpt e he
        obtain ⟨f, c', h6, _⟩ := denseKey_of_coreKey b core wf dpc hdpc k c ck hk (some d')
          ((mem_denseIndices hg _).2 ⟨d', rfl, h4⟩)
        exact ⟨f, by rw [h5]; exact h6⟩)
  refine ⟨keys, ?_, ?_⟩
  · unfold BuildSpec.transitKeysOf
    simp only [hd, hpt, Option.bind_eq_bind, Option.bind_some]
    have : transitKeys grid (denseKeyLookup dpc) b.exogLevels grid[d] ck = some keys := hkeys
    rw [this]; rfl
  · refine (forall₂_and_left ((mapM_eq_some_iff _ _ _).1 hkeys) (P := (· ∈ exogenousGrid b.exogLevels))
      (fun a ha => ha)).imp ?_
    rintro e f ⟨hef, he⟩
    obtain ⟨d', h3, h4, h5, _⟩ := hx.successor_spec hg d _ hpt e he
    obtain ⟨f', c', h6, h7, h8, h9⟩ := denseKey_of_coreKey b core wf dpc hdpc k c ck hk (some d')
      ((mem_denseIndices hg _).2 ⟨d', rfl, h4⟩)
    rw [h5] at hef
    simp only [Option.bind_eq_bind, Option.bind_some] at hef
    have : f' = f := by
      have := h6.symm.trans hef; exact Option.some.inj this
    subst this
    exact ⟨d', by rw [hd]; exact h3, hef, c', h7, h8, h9⟩

/-- The transit keys of all dense keys are found. -/
theorem transitKeysOf_all (b : BuildSpec) (core : List CoreState) (wf : b.Grouped core)
    (static : List (List Nat)) (hx : b.ExogWF static) (grid : List (List Nat))
    (hg : b.grid = some grid) (dpc : Dict Complex Nat)
    (hdpc : b.densePeriodCores core (corePeriodChoice b.restrCore core) = some dpc) :
    ∃ transit, dpc.zipIdx.mapM (b.transitKeysOf dpc grid) = some transit ∧
      transit.length = dpc.length ∧
      ∀ (k : Nat) c ck, dpc[k]? = some (c, ck) → ∃ keys, transit[k]? = some (k, keys) ∧
        List.Forall₂ (fun e f => ∃ d', b.successor c.dense e = some d' ∧
          (denseKeyLookup dpc).get? (ck, d') = some f ∧ ∃ c', dpc[f]? = some (c', ck) ∧
            c'.dense = some d' ∧ c'.period = c.period) (exogenousGrid b.exogLevels) keys := by
  have hone := transitKeysOf_one b core wf static hx grid hg dpc hdpc
  obtain ⟨transit, htr, hl, hget⟩ := mapM_option_exists dpc.zipIdx (b.transitKeysOf dpc grid) (by
    rintro ⟨⟨c, ck⟩, k⟩ hm
    obtain ⟨i, hi⟩ := List.mem_iff_getElem?.1 hm
    rw [List.getElem?_zipIdx, Option.map_eq_some_iff] at hi
    obtain ⟨kv, h1, h2⟩ := hi
    simp only [Nat.zero_add, Prod.mk.injEq] at h2
    obtain ⟨rfl, rfl⟩ := h2
    obtain ⟨keys, hk, _⟩ := hone i c ck h1
    exact ⟨_, hk⟩)
  refine ⟨transit, htr, by simpa using hl, ?_⟩
  intro k c ck hk
  obtain ⟨keys, h1, h2⟩ := hone k c ck hk
  obtain ⟨y, h3, h4⟩ := hget k ((c, ck), k) (by rw [List.getElem?_zipIdx, hk]; simp)
  rw [h1] at h4; cases h4
  exact ⟨keys, h3, h2⟩

theorem transitChoiceSets_total (transit : Dict Nat (List Nat))
    (choiceSets : Dict Nat (List Bool)) (width : Nat)
    (hcs : ∀ r ∈ transit, ∃ cs, Dict.get? choiceSets r.1 = some cs ∧ cs.length = width)
    (hself : ∀ r ∈ transit, r.1 ∈ r.2) :
    ∃ reps, transitChoiceSets transit choiceSets = some reps ∧
      ∀ r ∈ transit, ∃ rep, Dict.get? reps r.1 = some rep := by
  obtain ⟨reps, h1, h2, h3⟩ := mapM_option_exists transit (fun kv => do
    let sets ← (transit.filter fun r => r.2.contains kv.1).mapM fun r => Dict.get? choiceSets r.1
    let m ← maximalChoiceSet sets
    pure (kv.1, m)) (by
      intro kv hkv
      obtain ⟨sets, g1, g2, g3⟩ := mapM_option_exists (transit.filter fun r => r.2.contains kv.1)
        (fun r => Dict.get? choiceSets r.1) (fun r hr => by
          obtain ⟨cs, h, _⟩ := hcs r (List.mem_filter.1 hr).1
          exact ⟨cs, h⟩)
      have hne : sets ≠ [] := by
        have hm : kv ∈ transit.filter fun r => r.2.contains kv.1 :=
          List.mem_filter.2 ⟨hkv, by simpa using hself kv hkv⟩
        intro he
        rw [he] at g2
        have := List.length_pos_of_mem hm
        rw [← g2] at this
        exact absurd this (by simp)
      have hlen : ∀ cs ∈ sets, cs.length = width := by
        intro cs hc
        obtain ⟨j, hj⟩ := List.mem_iff_getElem?.1 hc
        have hlt := (List.getElem?_eq_some_iff.1 hj).1
        rw [g2] at hlt
        obtain ⟨cs', h4, h5⟩ := g3 j _ (List.getElem?_eq_getElem hlt)
        rw [hj] at h4; cases h4
        obtain ⟨cs'', h6, h7⟩ := hcs _ (List.mem_filter.1 (List.getElem_mem hlt)).1
        rw [h5] at h6; cases h6
        exact h7
      have : ∃ m, maximalChoiceSet sets = some m := by
        cases sets with
        | nil => exact absurd rfl hne
        | cons cs rest =>
          refine ⟨rest.foldl (List.zipWith (· || ·)) cs, ?_⟩
          unfold maximalChoiceSet
          show (if ∀ c ∈ rest, c.length = cs.length then _ else none) = _
          rw [if_pos]
          intro c hc
          rw [hlen c (List.mem_cons_of_mem _ hc), hlen cs (by simp)]
      obtain ⟨m, hm⟩ := this
      exact ⟨(kv.1, m), by rw [g1]; simp only [Option.bind_eq_bind, Option.bind_some, hm, Option.pure_def]⟩)
  refine ⟨reps, h1, ?_⟩
  intro r hr
  obtain ⟨i, hi⟩ := List.mem_iff_getElem?.1 hr
  obtain ⟨y, h4, h5⟩ := h3 i r hi
  obtain ⟨sets, _, h5⟩ := Option.bind_eq_some_iff.1 h5
  obtain ⟨m, _, h5⟩ := Option.bind_eq_some_iff.1 h5
  simp only [Option.pure_def, Option.some.injEq] at h5
  subst h5
  cases hg : Dict.get? reps r.1 with
  | some rep => exact ⟨rep, rfl⟩
  | none =>
    exfalso
    rw [Dict.get?_eq_none_iff] at hg
    exact hg (List.mem_map.2 ⟨_, List.mem_of_getElem? h4, rfl⟩)

/-- The relation between a dense key and its transit keys in a state space with exogenous processes. -/
structure Built.Transits (b : BuildSpec) (reps : Dict Nat (List Bool)) (bt : Built) : Prop where
  rep : ∀ (k : Nat) c ck, bt.dpc[k]? = some (c, ck) → ∀ e ∈ exogenousGrid b.exogLevels,
    ∃ d' f c' rep, b.successor c.dense e = some d' ∧ bt.space.lookup.get? (ck, d') = some f ∧
      bt.dpc[f]? = some (c', ck) ∧ c'.dense = some d' ∧ c'.period = c.period ∧
      Dict.get? reps f = some rep ∧ rep.length = c.choiceSet.length ∧
      ∀ j : Nat, c.choiceSet[j]? = some true → rep[j]? = some true

/-- The state space of a well-formed model with exogenous processes is created. -/
theorem buildSpace_exogenous (b : BuildSpec) (core : List CoreState) (wf : b.WF core)
    (static : List (List Nat)) (hx : b.ExogWF static) :
    ∃ bt reps, buildSpace b = some bt ∧ bt.Sound b core (some reps) ∧ bt.Transits b reps ∧
      b.densePeriodCores core (corePeriodChoice b.restrCore core) = some bt.dpc := by
  obtain ⟨grid, hg⟩ : ∃ grid, b.grid = some grid := ⟨_, hx.grid⟩
  obtain ⟨dpc, hdpc, hA, hB⟩ := densePeriodCores_facts b core wf.grouped
  obtain ⟨transit, htr, htl, htk⟩ := transitKeysOf_all b core wf.grouped static hx grid hg dpc hdpc
  have htr' : ∀ (k : Nat) r, transit[k]? = some r → ∃ c ck keys, dpc[k]? = some (c, ck) ∧ r = (k, keys) ∧
      List.Forall₂ (fun e f => ∃ d', b.successor c.dense e = some d' ∧
          (denseKeyLookup dpc).get? (ck, d') = some f ∧ ∃ c', dpc[f]? = some (c', ck) ∧
            c'.dense = some d' ∧ c'.period = c.period) (exogenousGrid b.exogLevels) keys := by
    intro k r hr
    have hlt : k < dpc.length := by rw [← htl]; exact (List.getElem?_eq_some_iff.1 hr).1
    obtain ⟨keys, h1, h2⟩ := htk k dpc[k].1 dpc[k].2 (List.getElem?_eq_getElem hlt)
    rw [hr] at h1
    exact ⟨_, _, keys, List.getElem?_eq_getElem hlt, Option.some.inj h1, h2⟩
  have hkeys : (Dict.keys transit).Nodup := by
    apply nodup_of_getElem?
    intro i j x hi hj
    simp only [Dict.keys, List.getElem?_map, Option.map_eq_some_iff] at hi hj
    obtain ⟨r1, h1, rfl⟩ := hi
    obtain ⟨r2, h2, h3⟩ := hj
    obtain ⟨_, _, _, _, rfl, _⟩ := htr' i r1 h1
    obtain ⟨_, _, _, _, rfl, _⟩ := htr' j r2 h2
    exact h3.symm
  have hget : ∀ (k : Nat) keys, transit[k]? = some (k, keys) → Dict.get? transit k = some keys :=
    fun k keys h => Dict.get?_of_mem _ hkeys _ _ (List.mem_of_getElem? h)
  -- choice sets
  have hsets : ∀ (k : Nat) c ck, dpc[k]? = some (c, ck) →
      Dict.get? (dpc.mapIdx fun i kv => (i, kv.1.choiceSet)) k = some c.choiceSet := by
    intro k c ck hk
    rw [get?_of_positions _ _ k (k, c.choiceSet) (by rw [List.getElem?_mapIdx, hk]; rfl)]
    intro i kv hi
    rw [List.getElem?_mapIdx, Option.map_eq_some_iff] at hi
    obtain ⟨_, _, rfl⟩ := hi
    rfl
  have hwidth : ∀ (k : Nat) c ck, dpc[k]? = some (c, ck) → c.choiceSet.length = b.restrCore.length := by
    intro k c ck hk
    obtain ⟨_, _, g, hgk, h3⟩ := hB k c ck hk
    obtain ⟨hne, _⟩ := (C08_groups_partition b.restrCore core).2.1 g (List.mem_of_getElem? hgk)
    obtain ⟨i, hi⟩ := List.exists_mem_of_ne_nil _ hne
    obtain ⟨s, _, _, hcs⟩ := h3 i hi
    rw [← hcs, hx.length_choiceSet]
  have hself : ∀ (k : Nat) c ck keys, dpc[k]? = some (c, ck) → transit[k]? = some (k, keys) →
      k ∈ keys := by
    intro k c ck keys hk ht
    obtain ⟨h1, h2, _⟩ := hB k c ck hk
    obtain ⟨d, hd, hlt⟩ := (mem_denseIndices hg _).1 h1
    obtain ⟨e, he, hse⟩ := hx.successor_self hg d hlt
    obtain ⟨keys', h3, h4⟩ := htk k c ck hk
    rw [ht] at h3; cases h3
    obtain ⟨i, hi⟩ := List.mem_iff_getElem?.1 he
    obtain ⟨f, hf, d', g1, g2, _⟩ := forall₂_getElem? h4 i e hi
    rw [hd] at g1 h2
    rw [hse] at g1; cases g1
    have : f = k := by
      have := g2.symm.trans h2; exact Option.some.inj this
    subst this
    exact List.mem_of_getElem? hf
  obtain ⟨reps, hreps, hrepget⟩ := transitChoiceSets_total transit
    (dpc.mapIdx fun i kv => (i, kv.1.choiceSet)) b.restrCore.length (by
      intro r hr
      obtain ⟨k, hk⟩ := List.mem_iff_getElem?.1 hr
      obtain ⟨c, ck, keys, h1, rfl, _⟩ := htr' k r hk
      exact ⟨_, hsets k c ck h1, hwidth k c ck h1⟩) (by
      intro r hr
      obtain ⟨k, hk⟩ := List.mem_iff_getElem?.1 hr
      obtain ⟨c, ck, keys, h1, rfl, _⟩ := htr' k r hk
      exact hself k c ck keys h1 hk)
  have hrep : ∀ (k : Nat) c ck, dpc[k]? = some (c, ck) → ∃ rep, Dict.get? reps k = some rep := by
    intro k c ck hk
    obtain ⟨keys, h1, _⟩ := htk k c ck hk
    exact hrepget _ (List.mem_of_getElem? h1)
  have ht : b.transitSets dpc = some (some reps) := by
    unfold BuildSpec.transitSets
    have hne := hx.processes
    cases hl : b.exogLevels with
    | nil => exact absurd hl hne
    | cons _ _ =>
      simp only [hg, Option.bind_eq_bind, Option.bind_some, htr, hreps, Option.pure_def]
  have hC20 := C20_transit_choice_sets transit hkeys (dpc.mapIdx fun i kv => (i, kv.1.choiceSet)) reps
    hreps
  obtain ⟨bt, h1, h2, h3, h4⟩ := buildSpace_sound b core wf (some reps) dpc hdpc ht (by
    intro k c ck g hk hgk hp
    obtain ⟨rep, hrk⟩ := hrep k c ck hk
    refine ⟨rep, hrk, ?_⟩
    intro s hs a ha
    obtain ⟨k', keys', cs', q1, q2, q3, q4⟩ := ((hC20 k rep hrk).2 a).1 ha
    obtain ⟨i, hi⟩ := List.mem_iff_getElem?.1 (Dict.mem_of_get? _ _ _ q1)
    obtain ⟨c', ck', keys'', q5, q6, q7⟩ := htr' i _ hi
    simp only [Prod.mk.injEq] at q6
    obtain ⟨rfl, rfl⟩ := q6
    obtain ⟨j, hj⟩ := List.mem_iff_getElem?.1 q2
    obtain ⟨e, he, d', g1, g2, c'', g3, g4, g5⟩ := forall₂_getElem? q7.flip j k hj
    rw [hk] at g3
    simp only [Option.some.injEq, Prod.mk.injEq] at g3
    obtain ⟨rfl, rfl⟩ := g3
    rw [hsets k' c' ck q5, Option.some.injEq] at q3
    subst q3
    obtain ⟨h5, _, g', hg', h6⟩ := hB k' c' ck q5
    rw [hgk] at hg'; cases hg'
    obtain ⟨i, hi, his⟩ := (mem_locRows _ _ _).1 hs
    obtain ⟨s', hs', h7, h8⟩ := h6 i hi
    rw [his] at hs'; cases hs'
    exact wf.closed s (List.mem_of_getElem? his) (by rw [h7, ← g5]; exact hp) c'.dense h5 a
      (by rw [h8]; exact q4))
  refine ⟨bt, reps, h1, h4, ⟨?_⟩, by rw [h2]; exact hdpc⟩
  rw [h2, h4.lookup, h2]
  intro k c ck hk e he
  obtain ⟨keys, g1, g2⟩ := htk k c ck hk
  obtain ⟨i, hi⟩ := List.mem_iff_getElem?.1 he
  obtain ⟨f, hf, d', g3, g4, c', g5, g6, g7⟩ := forall₂_getElem? g2 i e hi
  obtain ⟨rep, hrf⟩ := hrep f c' ck g5
  obtain ⟨q1, q2⟩ := hC20 f rep hrf
  refine ⟨d', f, c', rep, g3, g4, g5, g6, g7, hrf, ?_, ?_⟩
  · exact (q1 k keys c.choiceSet (hget k keys g1) (List.mem_of_getElem? hf) (hsets k c ck hk)).symm
  · intro j hj
    exact (q2 j).2 ⟨k, keys, c.choiceSet, hget k keys g1, List.mem_of_getElem? hf, hsets k c ck hk, hj⟩

end Respy
