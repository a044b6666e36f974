import Verif.Props.StateSpace
import Verif.Lemmas.Dense2

/-!
# Properties of the dense state space: C06, C07
-/

namespace Respy

/-! ## C06 -/

/-- The characteristics of a dense state: observables (including exogenous processes) and, with two
or more types, the type. -/
def characteristics (spec : DenseSpec) : List (String × Nat) :=
  spec.observables ++ if 2 ≤ spec.nTypes then [("type", spec.nTypes)] else []

/-- The statement of C06: for every assignment of levels to the characteristics exactly one grid
point carries these values under the names of the characteristics. -/
def GridComplete (spec : DenseSpec) (grid : List (List Nat)) : Prop :=
  grid.Nodup ∧
  ∀ a : String → Nat, (∀ c ∈ characteristics spec, a c.1 < c.2) →
    ∃ d ∈ grid, (∀ c ∈ characteristics spec, denseValue spec d c.1 = some (a c.1)) ∧
      ∀ d' ∈ grid, (∀ c ∈ characteristics spec, denseValue spec d' c.1 = some (a c.1)) → d' = d

/-- **C06 (partial).** If the columns of the dense frame are in the order of the observables followed
by the type, the grid is complete. Missing: exogenous processes which change this order, where the
property fails (`C06_dense_grid_false`). -/
theorem C06_dense_grid_partial (spec : DenseSpec)
    (horder : denseColumns spec = (characteristics spec).map Prod.fst)
    (hn : ((characteristics spec).map Prod.fst).Nodup)
    (grid : List (List Nat)) (hg : denseGrid spec = some grid) : GridComplete spec grid := by
  have hlev : (spec.observables.map fun o => List.range o.2) ++
      (if 2 ≤ spec.nTypes then [List.range spec.nTypes] else []) =
      (characteristics spec).map fun c => List.range c.2 := by
    simp only [characteristics, List.map_append]
    split <;> simp
  have hgrid : grid = product ((characteristics spec).map fun c => List.range c.2) := by
    simp only [denseGrid, hlev] at hg
    split at hg
    · cases hg
    · exact (Option.some.inj hg).symm
  subst hgrid
  refine ⟨product_nodup _ ?_, ?_⟩
  · intro l hl
    obtain ⟨c, _, rfl⟩ := List.mem_map.1 hl
    exact List.nodup_range
  · intro a ha
    have hmem : ((characteristics spec).map Prod.fst).map a ∈
        product ((characteristics spec).map fun c => List.range c.2) := by
      rw [mem_product]
      generalize characteristics spec = cs at ha
      induction cs with
      | nil => simp
      | cons c cs ih =>
        simp only [List.map_cons, List.forall₂_cons, List.mem_range]
        exact ⟨ha c (by simp), ih fun c' hc' => ha c' (List.mem_cons_of_mem _ hc')⟩
    refine ⟨_, hmem, ?_, ?_⟩
    · intro c hc
      rw [denseValue, horder]
      exact get?_zip_of_map _ hn a c.1 (List.mem_map.2 ⟨c, hc, rfl⟩)
    · intro d hd hval
      have hlen : d.length = ((characteristics spec).map Prod.fst).length := by
        rw [mem_product] at hd
        simpa using hd.length_eq
      refine point_eq_of_values _ hn d hlen a ?_
      intro x hx
      obtain ⟨c, hc, rfl⟩ := List.mem_map.1 hx
      have := hval c hc
      rwa [denseValue, horder] at this

/-- Without exogenous processes the order of the columns is the right one. -/
theorem C06_no_exogenous_partial (spec : DenseSpec) (hexo : spec.exogenous = [])
    (hn : ((characteristics spec).map Prod.fst).Nodup)
    (grid : List (List Nat)) (hg : denseGrid spec = some grid) : GridComplete spec grid := by
  refine C06_dense_grid_partial spec ?_ hn grid hg
  simp only [denseColumns, hexo, characteristics, List.map_append]
  split <;> simp

/-- Two observables and three types. -/
example : ∃ grid, denseGrid ⟨[("edu", 2), ("region", 3)], [], 3⟩ = some grid ∧ grid.length = 18 ∧
    ((characteristics ⟨[("edu", 2), ("region", 3)], [], 3⟩).map Prod.fst).Nodup := by
  refine ⟨_, rfl, by decide, by decide⟩

/-- The model of the counterexample: the exogenous process `health` (2 levels) and the observable
`region` (3 levels). -/
def exampleExogenous : DenseSpec := ⟨[("health", 2), ("region", 3)], [("health", 2)], 1⟩

/-- **C06 (negated).** With an exogenous process whose name precedes the name of another observable
the grid points are labelled wrongly: no dense state carries `region = 2`. -/
theorem C06_dense_grid_false :
    ∃ grid, denseGrid exampleExogenous = some grid ∧ ¬ GridComplete exampleExogenous grid ∧
      ∀ d ∈ grid, denseValue exampleExogenous d "region" ≠ some 2 := by
  refine ⟨_, rfl, ?_, by decide⟩
  rintro ⟨_, h⟩
  obtain ⟨d, hd, hv, _⟩ := h (fun x => if x = "region" then 2 else 0) (by decide)
  have h2 := hv ("region", 3) (by decide)
  revert d
  decide

/-- **C06 (negated), second case.** With types and an exogenous process the type gets the number of
levels of the process, whatever the names are. -/
theorem C06_types_and_exogenous_false :
    ∃ grid, denseGrid ⟨[("health", 2)], [("health", 2)], 3⟩ = some grid ∧
      ∀ d ∈ grid, denseValue ⟨[("health", 2)], [("health", 2)], 3⟩ d "type" ≠ some 2 := by
  refine ⟨_, rfl, by decide⟩

/-! ## C07 -/

/-- **C07 (partial).** Suppose that no two core keys of one period get the same choice set under the
same dense index. Then for every core state and every dense index there is a dense key; it is
attached to the core key of the state, to the period of the state, to the choice set which is
admissible for the combination of core and dense state, and to the dense index; hence different
combinations of core key and dense index have different dense keys (and, by C09, different cache
files). Conversely every dense key belongs to one core key and one dense index, and its period and
choice set are those of all the states of the core key. Missing: the general case, where the property fails (`C07_dense_key_false`). -/
theorem C07_dense_key_partial (restrCore : List (List (FrameFormula CoreState)))
    (core : List CoreState) (hnd : core.Nodup)
    (restr : Nat → List (List (FrameFormula CoreState))) (nDense : Nat) (dpc : Dict Complex Nat)
    (hok : densePeriodChoice core (corePeriodChoice restrCore core) restr nDense = .ok dpc)
    (hno : ∀ d < nDense, ∀ s ∈ core, ∀ s' ∈ core, s.period = s'.period →
      choiceSet (restr d) s = choiceSet (restr d) s' →
      choiceSet restrCore s = choiceSet restrCore s') :
    let groups := corePeriodChoice restrCore core
    let indexer := createIndexer core (groups.map Prod.snd)
    (∀ s ∈ core, ∀ d < nDense, ∃ coreKey position denseKey,
      indexer.get? s = some (coreKey, position) ∧
      (denseKeyLookup dpc).get? (coreKey, d) = some denseKey ∧
      dpc[denseKey]? = some (⟨s.period, choiceSet (restr d) s, some d⟩, coreKey)) ∧
    (∀ k d k' d' denseKey, (denseKeyLookup dpc).get? (k, d) = some denseKey →
      (denseKeyLookup dpc).get? (k', d') = some denseKey → k = k' ∧ d = d') ∧
    (∀ (denseKey : Nat) c coreKey, dpc[denseKey]? = some (c, coreKey) → ∃ d < nDense, c.dense = some d ∧
      (denseKeyLookup dpc).get? (coreKey, d) = some denseKey ∧
      ∃ g, groups[coreKey]? = some g ∧ ∀ i ∈ g.2, ∃ s, core[i]? = some s ∧ s.period = c.period ∧
        choiceSet (restr d) s = c.choiceSet) := by
  intro groups indexer
  have hpart := C08_groups_partition restrCore core
  -- the choice sets of the groups
  have hval : ¬ ∃ e, densePeriodChoice core groups restr nDense = .error e := by
    rintro ⟨e, he⟩; rw [he] at hok; cases hok
  rw [C08_value_error_iff] at hval
  have hset : ∀ d < nDense, ∀ g ∈ groups, ∃ cs, setsInGroup (restr d) core g.2 = [cs] ∧
      ∀ i ∈ g.2, ∀ s, core[i]? = some s → choiceSet (restr d) s = cs := by
    intro d hd g hg
    obtain ⟨hne, hrows⟩ := hpart.2.1 g hg
    obtain ⟨i, hi⟩ := List.exists_mem_of_ne_nil _ hne
    obtain ⟨s, hs, _⟩ := hrows i hi
    have hsame : ∀ j ∈ g.2, ∀ s', core[j]? = some s' →
        choiceSet (restr d) s' = choiceSet (restr d) s := by
      intro j hj s' hs'
      by_contra hne'
      exact hval ⟨d, hd, g, hg, j, hj, i, hi, s', s, hs', hs, hne'⟩
    refine ⟨choiceSet (restr d) s, ?_, hsame⟩
    rw [setsInGroup, eraseDups_eq_singleton]
    constructor
    · intro hnil
      have : choiceSet (restr d) s ∈ (locRows core g.2).map (choiceSet (restr d)) :=
        List.mem_map.2 ⟨s, (mem_locRows _ _ _).2 ⟨i, hi, hs⟩, rfl⟩
      rw [hnil] at this; simp at this
    · intro x hx
      obtain ⟨s', hs', rfl⟩ := List.mem_map.1 hx
      obtain ⟨j, hj, hjs⟩ := (mem_locRows _ _ _).1 hs'
      exact hsame j hj s' hjs
  classical
  let cs : Nat → ((Nat × List Bool) × List Nat) → List Bool := fun d g =>
    if h : d < nDense ∧ g ∈ groups then (hset d h.1 g h.2).choose else []
  have hcs : ∀ d < nDense, ∀ g ∈ groups, setsInGroup (restr d) core g.2 = [cs d g] ∧
      ∀ i ∈ g.2, ∀ s, core[i]? = some s → choiceSet (restr d) s = cs d g := by
    intro d hd g hg
    simp only [cs, hd, hg, and_self, dif_pos]
    exact (hset d hd g hg).choose_spec
  have hok' := densePeriodChoice_ok core groups restr nDense cs fun d hd g hg => (hcs d hd g hg).1
  rw [hok] at hok'
  have hdpc : dpc = Dict.ofItems (dpcItems groups cs nDense) := by cases hok'; rfl
  have hnoc : NoCollision groups cs nDense := by
    intro d hd k g k' g' hk hk' hper hceq
    have hg := List.mem_of_getElem? hk
    have hg' := List.mem_of_getElem? hk'
    obtain ⟨hne, hrows⟩ := hpart.2.1 g hg
    obtain ⟨hne', hrows'⟩ := hpart.2.1 g' hg'
    obtain ⟨i, hi⟩ := List.exists_mem_of_ne_nil _ hne
    obtain ⟨i', hi'⟩ := List.exists_mem_of_ne_nil _ hne'
    obtain ⟨s, hs, hsp, hsc⟩ := hrows i hi
    obtain ⟨s', hs', hsp', hsc'⟩ := hrows' i' hi'
    have h1 := (hcs d hd g hg).2 i hi s hs
    have h2 := (hcs d hd g' hg').2 i' hi' s' hs'
    have h3 := hno d hd s (List.mem_of_getElem? hs) s' (List.mem_of_getElem? hs')
      (by rw [hsp, hsp', hper]) (by rw [h1, h2, hceq])
    have hkey : g.1 = g'.1 := by
      apply Prod.ext
      · exact hper
      · rw [← hsc, ← hsc', h3]
    obtain ⟨hl, he⟩ := List.getElem?_eq_some_iff.1 hk
    obtain ⟨hl', he'⟩ := List.getElem?_eq_some_iff.1 hk'
    have l1 : k < ((corePeriodChoice restrCore core).map Prod.fst).length := by
      rw [List.length_map]; exact hl
    have l2 : k' < ((corePeriodChoice restrCore core).map Prod.fst).length := by
      rw [List.length_map]; exact hl'
    refine (List.Nodup.getElem_inj_iff hpart.2.2 (hi := l1) (hj := l2)).1 ?_
    simp only [List.getElem_map]
    show groups[k].1 = groups[k'].1
    rw [he, he', hkey]
  have hitems : dpc = dpcItems groups cs nDense := by
    rw [hdpc, Dict.ofItems_of_nodup _ (dpcItems_keys_nodup _ _ _ hnoc)]
  -- keys of the lookup are unique
  have hdense : ∀ (i : Nat) c k, dpc[i]? = some (c, k) → ∃ d < nDense, ∃ g, groups[k]? = some g ∧
      c = ⟨g.1.1, cs d g, some d⟩ := by
    intro i c k hi
    have := List.mem_of_getElem? hi
    rw [hitems] at this
    exact (mem_dpcItems _ _ _ _ _).1 this
  have hdpcnd : dpc.keys.Nodup := by rw [hdpc]; exact Dict.nodup_keys_ofItems _
  have hlookupnd : ((dpc.mapIdx fun i kv => (coreDenseKey kv.2 kv.1.dense, i)).map Prod.fst).Nodup := by
    apply nodup_of_getElem?
    intro i j a hi hj
    simp only [List.getElem?_map, List.getElem?_mapIdx, Option.map_map,
      Option.map_eq_some_iff] at hi hj
    obtain ⟨⟨c, k⟩, hci, hca⟩ := hi
    obtain ⟨⟨c', k'⟩, hcj, hca'⟩ := hj
    obtain ⟨d, hd, g, hg, rfl⟩ := hdense i c k hci
    obtain ⟨d', hd', g', hg', rfl⟩ := hdense j c' k' hcj
    simp only [Function.comp, coreDenseKey] at hca hca'
    rw [← hca'] at hca
    simp only [Prod.mk.injEq] at hca
    obtain ⟨rfl, rfl⟩ := hca
    rw [hg] at hg'; cases hg'
    -- the same item at two positions
    obtain ⟨hl, he⟩ := List.getElem?_eq_some_iff.1 hci
    obtain ⟨hl', he'⟩ := List.getElem?_eq_some_iff.1 hcj
    have l1 : i < dpc.keys.length := by simpa [Dict.keys] using hl
    have l2 : j < dpc.keys.length := by simpa [Dict.keys] using hl'
    refine (List.Nodup.getElem_inj_iff hdpcnd (hi := l1) (hj := l2)).1 ?_
    simp [Dict.keys, he, he']
  have hlook : ∀ k d (i : Nat), (denseKeyLookup dpc).get? (k, d) = some i →
      ∃ g, dpc[i]? = some (⟨g.1.1, cs d g, some d⟩, k) := by
    intro k d i hi
    have := Dict.mem_items_of_get?_ofItems _ _ _ hi
    rw [List.mem_mapIdx] at this
    obtain ⟨j, hj, hje⟩ := this
    simp only [Prod.mk.injEq] at hje
    obtain ⟨h1, rfl⟩ := hje
    obtain ⟨d', hd', g, hg, hcg⟩ := hdense j dpc[j].1 dpc[j].2
      (by rw [List.getElem?_eq_getElem hj])
    rw [hcg] at h1
    simp only [coreDenseKey, Prod.mk.injEq] at h1
    obtain ⟨h2, rfl⟩ := h1
    refine ⟨g, ?_⟩
    rw [List.getElem?_eq_getElem hj]
    congr 1
    exact Prod.ext hcg h2
  refine ⟨?_, ?_, ?_⟩
  · intro s hs d hd
    obtain ⟨hloc, hall, _⟩ := C03_state_location_bijection restrCore core hnd
    obtain ⟨⟨coreKey, position⟩, hl⟩ := (hall s).1 hs
    obtain ⟨indices, hgi, hrow⟩ := (hloc _ _ _).1 hl
    simp only [List.getElem?_map, Option.map_eq_some_iff] at hgi
    obtain ⟨g, hg, rfl⟩ := hgi
    have hgmem := List.mem_of_getElem? hg
    obtain ⟨i, hi, his⟩ := (mem_locRows _ _ _).1 (List.mem_of_getElem? hrow)
    have hchoice := (hcs d hd g hgmem).2 i hi s his
    obtain ⟨s', hs', hper, _⟩ := (hpart.2.1 g hgmem).2 i hi
    rw [his] at hs'; cases hs'
    have hmem : ((⟨s.period, choiceSet (restr d) s, some d⟩ : Complex), coreKey) ∈ dpc := by
      rw [hitems, mem_dpcItems]
      exact ⟨d, hd, g, hg, by rw [hper, hchoice]⟩
    obtain ⟨dk, hdk⟩ := List.mem_iff_getElem?.1 hmem
    refine ⟨coreKey, position, dk, hl, ?_, hdk⟩
    refine Dict.get?_ofItems_of_mem _ hlookupnd _ _ ?_
    rw [List.mem_mapIdx]
    obtain ⟨hlt, he⟩ := List.getElem?_eq_some_iff.1 hdk
    exact ⟨dk, hlt, by rw [he]; rfl⟩
  · intro k d k' d' dk h h'
    obtain ⟨g, hg⟩ := hlook k d dk h
    obtain ⟨g', hg'⟩ := hlook k' d' dk h'
    rw [hg] at hg'
    simp at hg'
    exact ⟨hg'.2, hg'.1.2.2⟩
  · intro dk c k hk
    obtain ⟨d, hd, g, hg, rfl⟩ := hdense dk c k hk
    refine ⟨d, hd, rfl, ?_, g, hg, ?_⟩
    · refine Dict.get?_ofItems_of_mem _ hlookupnd _ _ ?_
      rw [List.mem_mapIdx]
      obtain ⟨hlt, he⟩ := List.getElem?_eq_some_iff.1 hk
      exact ⟨dk, hlt, by rw [he]; rfl⟩
    · intro i hi
      obtain ⟨s, hs, hper, _⟩ := (hpart.2.1 g (List.mem_of_getElem? hg)).2 i hi
      exact ⟨s, hs, hper, (hcs d hd g (List.mem_of_getElem? hg)).2 i hi s hs⟩

/-- If the restrictions do not use dense information, the hypothesis of `C07_dense_key_partial`
holds trivially; here for the example model with three dense states. -/
example : ∀ d < 3, ∀ s s' : CoreState,
    choiceSet ((fun _ => exampleRestr) d) s = choiceSet ((fun _ => exampleRestr) d) s' →
    choiceSet exampleRestr s = choiceSet exampleRestr s' := fun _ _ _ _ h => h

/-- The core of the counterexample: three periods, one choice with experience limited to one year,
one other choice. -/
def collisionSpec : CoreSpec :=
  { nPeriods := 3, nChoices := 2, starts := [[0]], maxExp := [1], nLags := 0, filters := [] }

/-- Restrictions evaluated on the core: a restriction by an observable cannot be evaluated, the
default formula can. -/
def collisionRestrCore : List (List (FrameFormula CoreState)) :=
  [[none, some fun s => defaultInadmissible collisionSpec s 0], [some fun _ => false]]

/-- Restrictions evaluated with the observable `sick` (0 or 1): the first choice is excluded for
sick individuals from period one on. -/
def collisionRestr (d : Nat) : List (List (FrameFormula CoreState)) :=
  [[some fun s => decide (d = 1 ∧ 1 ≤ s.period),
    some fun s => defaultInadmissible collisionSpec s 0], [some fun _ => false]]

/-- **C07 (negated).** No error is raised, but the state in period one with one year of experience
has no dense key for sick individuals although it is reached from the initial state by an admissible
choice: the two groups of period one share a choice set and the second overwrites the first. -/
theorem C07_dense_key_false :
    ∃ core dpc coreKey position, createCore collisionSpec = some core ∧
      densePeriodChoice core (corePeriodChoice collisionRestrCore core) collisionRestr 2 = .ok dpc ∧
      choiceSet (collisionRestr 1) ⟨0, [0], []⟩ = [true, true] ∧
      (createIndexer core ((corePeriodChoice collisionRestrCore core).map Prod.snd)).get?
        (lawOfMotion ⟨0, [0], []⟩ 0) = some (coreKey, position) ∧
      (denseKeyLookup dpc).get? (coreKey, 1) = none := by
  refine ⟨[⟨0, [0], []⟩, ⟨1, [0], []⟩, ⟨1, [1], []⟩, ⟨2, [0], []⟩, ⟨2, [1], []⟩],
    [(⟨0, [true, true], some 0⟩, 0), (⟨1, [false, true], some 0⟩, 1),
     (⟨1, [true, true], some 0⟩, 2), (⟨2, [false, true], some 0⟩, 3),
     (⟨2, [true, true], some 0⟩, 4), (⟨0, [true, true], some 1⟩, 0),
     (⟨1, [false, true], some 1⟩, 2), (⟨2, [false, true], some 1⟩, 4)], 1, 0, ?_, ?_, ?_, ?_, ?_⟩
  · decide +kernel
  · rfl
  · decide
  · decide +kernel
  · decide +kernel

end Respy
