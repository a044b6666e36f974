import Verif.Lemmas.Build
import Verif.Lemmas.Solve2
import Verif.Lemmas.Exogenous

/-! Helper lemmas: a created state space is sound. -/

namespace Respy

theorem createCore_period (spec : CoreSpec) (core : List CoreState) (h : createCore spec = some core)
    (s : CoreState) (hs : s ∈ core) : s.period < spec.nPeriods := by
  unfold createCore at h
  obtain ⟨add, _, rfl⟩ := Option.map_eq_some_iff.1 h
  have h1 := (List.perm_insertionSort _ _).mem_iff.1 hs
  unfold addInitialExperiences at h1
  rw [List.mem_eraseDups, List.mem_flatMap] at h1
  obtain ⟨init, _, h1⟩ := h1
  obtain ⟨h1, _⟩ := List.mem_filter.1 h1
  obtain ⟨s', h2, rfl⟩ := List.mem_map.1 h1
  clear h1 hs
  have h1 := ((mem_filterCore _ _ _).1 h2).1
  have hbase : ∀ s' ∈ coreFromExperiences spec.nPeriods add, s'.period < spec.nPeriods := by
    intro s' hs'
    unfold coreFromExperiences at hs'
    split at hs'
    · cases hs'
    obtain ⟨t, ht, hs'⟩ := List.mem_flatMap.1 hs'
    obtain ⟨e, _, rfl⟩ := List.mem_map.1 hs'
    exact List.mem_range.1 ht
  show s'.period < _
  unfold addLaggedChoices at h1
  split at h1
  · exact hbase _ h1
  · obtain ⟨_, _, h1⟩ := List.mem_flatMap.1 h1
    obtain ⟨_, _, h1⟩ := List.mem_flatMap.1 h1
    obtain ⟨s'', h3, rfl⟩ := List.mem_map.1 h1
    exact hbase s'' h3

theorem foldlM_except_invariant {σ α : Type _} (P : σ → Prop) (f : σ → α → Except String σ)
    (hf : ∀ s a s', P s → f s a = .ok s' → P s') (l : List α) (s s' : σ) (h : P s)
    (hl : l.foldlM f s = .ok s') : P s' := by
  induction l generalizing s with
  | nil =>
    simp only [List.foldlM_nil, pure, Except.pure, Except.ok.injEq] at hl
    exact hl ▸ h
  | cons a l ih =>
    rw [List.foldlM_cons] at hl
    cases hfa : f s a with
    | error e => rw [hfa] at hl; cases hl
    | ok s1 =>
      rw [hfa] at hl
      exact ih s1 (hf s a s1 h hfa) hl

/-- The complexes are the keys of a dictionary. -/
theorem nodup_densePeriodCores (b : BuildSpec) (core : List CoreState)
    (groups : List ((Nat × List Bool) × List Nat)) (dpc : Dict Complex Nat)
    (h : b.densePeriodCores core groups = some dpc) : (dpc.map Prod.fst).Nodup := by
  unfold BuildSpec.densePeriodCores at h
  split at h
  · simp only [Option.some.injEq] at h
    rw [← h]
    exact Dict.nodup_keys_ofItems _
  · rename_i grid _
    split at h
    · cases h
    cases hd : densePeriodChoice core groups b.restr grid.length with
    | error e => rw [hd] at h; cases h
    | ok d =>
      rw [hd] at h
      have : d = dpc := Option.some.inj h
      subst this
      unfold densePeriodChoice at hd
      refine foldlM_except_invariant (fun d : Dict Complex Nat => (Dict.keys d).Nodup) _ ?_ _ _ _
        (by simp [Dict.keys]) hd
      intro s a s' hs hs'
      refine foldlM_except_invariant (fun d : Dict Complex Nat => (Dict.keys d).Nodup) _ ?_ _ _ _ hs hs'
      intro s a s' hs hs'
      split at hs'
      · cases hs'; exact Dict.nodup_keys_insert _ _ _ hs
      · cases hs'

/-- What is known about a created state space. -/
structure Built.Sound (b : BuildSpec) (core : List CoreState) (transit : Option (Dict Nat (List Bool)))
    (bt : Built) : Prop where
  core_eq : bt.core = core
  nPeriods : bt.space.nPeriods = b.core.nPeriods
  points : bt.space.interpolationPoints = b.points
  transit_eq : bt.space.transit = transit
  nStates : bt.space.nStates = bt.states.map List.length
  complexes : bt.space.complexes = bt.dpc.map Prod.fst
  nodup : bt.space.complexes.Nodup
  len : bt.states.length = bt.dpc.length
  lookup : bt.space.lookup = denseKeyLookup bt.dpc
  item : ∀ (k : Nat) c, bt.space.complexes[k]? = some c → ∃ (ck : Nat) (sts : List CoreState),
    bt.dpc[k]? = some (c, ck) ∧ bt.states[k]? = some sts ∧ c.dense ∈ b.denseIndices ∧
    bt.space.lookup.get? (ck, c.dense.getD 0) = some k ∧ sts ≠ [] ∧
    (∀ s ∈ sts, s ∈ core ∧ s.period = c.period ∧ b.choiceSetAt c.dense s = c.choiceSet) ∧
    ∀ (i : Nat) s, sts[i]? = some s ↔ bt.indexer.get? s = some (ck, i)
  loc : ∀ s ∈ core, ∀ d ∈ b.denseIndices, ∃ (ck pos dk : Nat) (sts : List CoreState),
    bt.indexer.get? s = some (ck, pos) ∧ bt.space.lookup.get? (ck, d.getD 0) = some dk ∧
    bt.space.complexes[dk]? = some ⟨s.period, b.choiceSetAt d s, d⟩ ∧
    bt.dpc[dk]? = some (⟨s.period, b.choiceSetAt d s, d⟩, ck) ∧
    bt.states[dk]? = some sts ∧ sts[pos]? = some s
  child : ∀ (k : Nat) c sts, bt.space.complexes[k]? = some c → bt.states[k]? = some sts →
    c.period + 1 < b.core.nPeriods → ∃ cs m, bt.space.columnChoiceSet k = some cs ∧
    bt.space.childIndices.get? k = some m ∧
    ∀ (i : Nat) s, sts[i]? = some s → ∃ row, m[i]? = some row ∧
      ∀ (j : Nat) a, (validChoices cs)[j]? = some a → ∃ l, row[j]? = some l ∧
        bt.indexer.get? (lawOfMotion s a) = some l ∧ lawOfMotion s a ∈ core

theorem childChoiceSet_eq (ss : SolveSpace) (k : Nat) (c : Complex) (h : ss.complexes[k]? = some c) :
    ss.columnChoiceSet k = childChoiceSet ss.transit (c, k) := by
  unfold SolveSpace.columnChoiceSet childChoiceSet
  cases ss.transit <;> simp [h]

theorem buildSpace_sound (b : BuildSpec) (core : List CoreState) (wf : b.WF core)
    (transit : Option (Dict Nat (List Bool)))
    (dpc : Dict Complex Nat)
    (hdpc : b.densePeriodCores core (corePeriodChoice b.restrCore core) = some dpc)
    (ht : b.transitSets dpc = some transit)
    (hchild : ∀ (k : Nat) c ck g, dpc[k]? = some (c, ck) →
      (corePeriodChoice b.restrCore core)[ck]? = some g → c.period + 1 < b.core.nPeriods →
      ∃ cs, childChoiceSet transit (c, k) = some cs ∧
        ∀ s ∈ locRows core g.2, ∀ a : Nat, cs[a]? = some true → lawOfMotion s a ∈ core) :
    ∃ bt, buildSpace b = some bt ∧ bt.dpc = dpc ∧ bt.groups = corePeriodChoice b.restrCore core ∧
      bt.Sound b core transit := by
  obtain ⟨core', hc', hnd, _⟩ := C01_core_nodup_sorted b.core wf.spec
  rw [wf.created] at hc'; cases hc'
  obtain ⟨dpc', hd', hA, hB⟩ := densePeriodCores_facts b core wf.grouped
  rw [hdpc] at hd'; cases hd'
  obtain ⟨hloc, hall, _⟩ := C03_state_location_bijection b.restrCore core hnd
  set groups := corePeriodChoice b.restrCore core with hgroups
  set indexer := createIndexer core (groups.map Prod.snd) with hindexer
  -- the indices
  obtain ⟨indices, hind, hil, hig⟩ := mapM_option_exists dpc (fun kv => groups[kv.2]?.map Prod.snd)
    (fun kv hkv => by
      obtain ⟨k, hk⟩ := List.mem_iff_getElem?.1 hkv
      obtain ⟨_, _, g, hg, _⟩ := hB k kv.1 kv.2 hk
      exact ⟨g.2, by rw [hg]; rfl⟩)
  have hst : ∀ (k : Nat) c ck, dpc[k]? = some (c, ck) → ∃ g, groups[ck]? = some g ∧
      indices[k]? = some g.2 ∧ (indices.map (locRows core))[k]? = some (locRows core g.2) := by
    intro k c ck hk
    obtain ⟨ind, h1, h2⟩ := hig k _ hk
    obtain ⟨g, hg, rfl⟩ := Option.map_eq_some_iff.1 h2
    exact ⟨g, hg, h1, by rw [List.getElem?_map, h1]; rfl⟩
  have hcx : ∀ (k : Nat) c, (dpc.map Prod.fst)[k]? = some c ↔ ∃ ck, dpc[k]? = some (c, ck) := by
    intro k c
    rw [List.getElem?_map, Option.map_eq_some_iff]
    constructor
    · rintro ⟨⟨c', ck⟩, h, rfl⟩; exact ⟨ck, h⟩
    · rintro ⟨ck, h⟩; exact ⟨_, h, rfl⟩
  -- the rows of a group
  have hrows : ∀ (ck : Nat) g, groups[ck]? = some g → ∀ i s,
      (locRows core g.2)[i]? = some s ↔ indexer.get? s = some (ck, i) := by
    intro ck g hg i s
    rw [hloc]
    constructor
    · intro h; exact ⟨g.2, by rw [List.getElem?_map, hg]; rfl, h⟩
    · rintro ⟨ind, h1, h2⟩
      rw [List.getElem?_map, hg] at h1
      cases h1; exact h2
  -- the children
  let xs := (dpc.map Prod.fst).zipIdx.zip (indices.map (locRows core))
  have hxs : ∀ (i : Nat) x, xs[i]? = some x → x.1.2 = i ∧ ∃ ck g, dpc[i]? = some (x.1.1, ck) ∧
      groups[ck]? = some g ∧ x.2 = locRows core g.2 := by
    intro i x hx
    rw [List.getElem?_zip_eq_some] at hx
    obtain ⟨h1, h2⟩ := hx
    rw [List.getElem?_zipIdx, Option.map_eq_some_iff] at h1
    obtain ⟨c, hc, h1⟩ := h1
    obtain ⟨ck, hk⟩ := (hcx i c).1 hc
    obtain ⟨g, hg, _, h3⟩ := hst i c ck hk
    rw [h2] at h3
    have e1 : x.1.1 = c := by rw [← h1]
    have e2 : x.1.2 = i := by rw [← h1]; simp
    exact ⟨e2, ck, g, by rw [e1]; exact hk, hg, Option.some.inj h3⟩
  obtain ⟨children, hch, hchl, hchg⟩ := mapM_option_exists
    (xs.filter fun x => decide (x.1.1.period < b.core.nPeriods - 1))
    (fun x => do
      let cs ← childChoiceSet transit x.1
      let children ← collectChildIndices indexer x.2 cs
      pure (x.1.2, children))
    (fun x hx => by
      obtain ⟨hx, hp⟩ := List.mem_filter.1 hx
      obtain ⟨i, hi⟩ := List.mem_iff_getElem?.1 hx
      obtain ⟨h1, ck, g, h2, h3, h4⟩ := hxs i x hi
      have hp : x.1.1.period < b.core.nPeriods - 1 := by simpa using hp
      obtain ⟨cs, hcs, hcl⟩ := hchild i x.1.1 ck g h2 h3 (by omega)
      have hcs' : childChoiceSet transit x.1 = some cs := by
        rw [← hcs]; congr 1; exact Prod.ext rfl h1
      obtain ⟨m, hm, _⟩ := mapM_option_exists (locRows core g.2)
        (fun s => (validChoices cs).mapM fun a => indexer.get? (lawOfMotion s a)) (fun s hs => by
          obtain ⟨row, hrow, _⟩ := mapM_option_exists (validChoices cs)
            (fun a => indexer.get? (lawOfMotion s a)) (fun a ha => by
              rw [mem_validChoices] at ha
              exact (hall _).1 (hcl s hs a ha))
          exact ⟨row, hrow⟩)
      refine ⟨(x.1.2, m), ?_⟩
      rw [hcs', h4]
      simp only [Option.bind_eq_bind, Option.bind_some, collectChildIndices, hm, Option.pure_def])
  have hearly : ¬(b.core.nPeriods ≠ 1 ∧ (xs.filter fun x => decide (x.1.1.period < b.core.nPeriods - 1)) = []) := by
    rintro ⟨h1, h2⟩
    have hpos := wf.periods
    obtain ⟨s, hs, hs0⟩ := wf.covered 0 wf.periods
    obtain ⟨d, hd⟩ := List.exists_mem_of_ne_nil _ wf.grouped.denseIndices_ne_nil
    obtain ⟨ck, pos, dk, _, _, h3⟩ := hA s hs d hd
    obtain ⟨g, hg, _, h4⟩ := hst dk _ ck h3
    have h5 : xs[dk]? = some ((⟨s.period, b.choiceSetAt d s, d⟩, dk), locRows core g.2) := by
      rw [List.getElem?_zip_eq_some]
      refine ⟨?_, h4⟩
      rw [List.getElem?_zipIdx, (hcx dk _).2 ⟨ck, h3⟩]; simp
    have h6 := List.filter_eq_nil_iff.1 h2 _ (List.mem_of_getElem? h5)
    simp only [decide_eq_true_eq, hs0] at h6
    omega
  have hbuild : buildSpace b = some
      { core := core, groups := groups, indexer := indexer, dpc := dpc,
        states := indices.map (locRows core),
        space :=
        { nPeriods := b.core.nPeriods
          complexes := dpc.map Prod.fst
          nStates := indices.map List.length
          childIndices := children
          lookup := denseKeyLookup dpc
          transit := transit
          interpolationPoints := b.points } } := by
    unfold buildSpace
    simp only [wf.created, Option.bind_eq_bind, Option.bind_some]
    rw [← hgroups, hdpc]
    simp only [Option.bind_some]
    rw [hind]
    simp only [Option.bind_some]
    rw [ht]
    simp only [Option.bind_some, collectChildren]
    rw [← hindexer]
    have : ((dpc.map Prod.fst).zipIdx.zip (indices.map (locRows core))) = xs := rfl
    rw [this, if_neg hearly]
    rw [hch]
    rfl
  refine ⟨_, hbuild, rfl, rfl, ?_⟩
  constructor
  · rfl
  · rfl
  · rfl
  · rfl
  · show indices.map List.length = (indices.map (locRows core)).map List.length
    rw [List.map_map]
    apply List.map_congr_left
    intro ind hin
    obtain ⟨k, hk⟩ := List.mem_iff_getElem?.1 hin
    have hkl : k < dpc.length := by rw [← hil]; exact (List.getElem?_eq_some_iff.1 hk).1
    obtain ⟨g, hg, h1, _⟩ := hst k dpc[k].1 dpc[k].2 (List.getElem?_eq_getElem hkl)
    rw [hk] at h1; cases h1
    have hrow := ((C08_groups_partition b.restrCore core).2.1 g (List.mem_of_getElem? hg)).2
    show g.2.length = (locRows core g.2).length
    have aux : ∀ l : List Nat, (∀ i ∈ l, ∃ s, core[i]? = some s) → l.length = (locRows core l).length := by
      intro l hl
      induction l with
      | nil => rfl
      | cons x l ih =>
        obtain ⟨s, hs⟩ := hl x (by simp)
        have := ih fun i hi => hl i (List.mem_cons_of_mem _ hi)
        simp only [locRows, List.filterMap_cons, hs, List.length_cons] at this ⊢
        omega
    exact aux _ fun i hi => by obtain ⟨s, hs, _⟩ := hrow i hi; exact ⟨s, hs⟩
  · rfl
  · exact nodup_densePeriodCores b core _ dpc hdpc
  · show (indices.map (locRows core)).length = dpc.length
    rw [List.length_map]; exact hil
  · rfl
  · intro k c hk
    obtain ⟨ck, hck⟩ := (hcx k c).1 hk
    obtain ⟨g, hg, _, h3⟩ := hst k c ck hck
    obtain ⟨h4, h5, g', hg', h6⟩ := hB k c ck hck
    rw [hg] at hg'; cases hg'
    refine ⟨ck, locRows core g.2, hck, h3, h4, h5, ?_, ?_, fun i s => hrows ck g hg i s⟩
    · obtain ⟨hne, hall'⟩ := (C08_groups_partition b.restrCore core).2.1 g (List.mem_of_getElem? hg)
      obtain ⟨i, hi⟩ := List.exists_mem_of_ne_nil _ hne
      obtain ⟨s, hs, _⟩ := hall' i hi
      exact List.ne_nil_of_mem ((mem_locRows _ _ _).2 ⟨i, hi, hs⟩)
    intro s hs
    obtain ⟨i, hi, his⟩ := (mem_locRows _ _ _).1 hs
    obtain ⟨s', hs', hp, hcc⟩ := h6 i hi
    rw [his] at hs'; cases hs'
    exact ⟨List.mem_of_getElem? his, hp, hcc⟩
  · intro s hs d hd
    obtain ⟨ck, pos, dk, h1, h2, h3⟩ := hA s hs d hd
    obtain ⟨g, hg, _, h4⟩ := hst dk _ ck h3
    exact ⟨ck, pos, dk, locRows core g.2, h1, h2, (hcx _ _).2 ⟨ck, h3⟩, h3, h4,
      (hrows ck g hg pos s).2 h1⟩
  · intro k c sts hk hsts hp
    obtain ⟨ck, hck⟩ := (hcx k c).1 hk
    obtain ⟨g, hg, h2, h3⟩ := hst k c ck hck
    have hsts' : sts = locRows core g.2 := by
      have : (indices.map (locRows core))[k]? = some sts := hsts
      rw [h3] at this; exact (Option.some.inj this).symm
    subst hsts'
    obtain ⟨cs, hcs, hcl⟩ := hchild k c ck g hck hg hp
    have hx : xs[k]? = some ((c, k), locRows core g.2) := by
      rw [List.getElem?_zip_eq_some]
      refine ⟨?_, h3⟩
      rw [List.getElem?_zipIdx, hk]; simp
    have hxf : ((c, k), locRows core g.2) ∈
        xs.filter fun x => decide (x.1.1.period < b.core.nPeriods - 1) := by
      rw [List.mem_filter]
      exact ⟨List.mem_of_getElem? hx, by simp; omega⟩
    obtain ⟨q, hq⟩ := List.mem_iff_getElem?.1 hxf
    obtain ⟨kv, hkv, hval⟩ := hchg q _ hq
    have hval' : ((childChoiceSet transit (c, k)).bind fun cs =>
        (collectChildIndices indexer (locRows core g.2) cs).bind fun children =>
          some (k, children)) = some kv := hval
    rw [hcs, Option.bind_some] at hval'
    obtain ⟨m, hm, hkvm⟩ := Option.bind_eq_some_iff.1 hval'
    have hkvm : kv = (k, m) := (Option.some.inj hkvm).symm
    subst hkvm
    have hnodup : (Dict.keys children).Nodup := by
      have hkeys : Dict.keys children =
          (xs.filter fun x => decide (x.1.1.period < b.core.nPeriods - 1)).map (fun x => x.1.2) := by
        apply List.ext_getElem?
        intro i
        simp only [Dict.keys, List.getElem?_map]
        cases hi : (xs.filter fun x => decide (x.1.1.period < b.core.nPeriods - 1))[i]? with
        | none =>
          have : children[i]? = none := by
            rw [List.getElem?_eq_none_iff] at hi ⊢; omega
          rw [this]; rfl
        | some x =>
          obtain ⟨kv, hkv, hval⟩ := hchg i x hi
          rw [hkv]
          obtain ⟨cs, _, hval⟩ := Option.bind_eq_some_iff.1 hval
          obtain ⟨m, _, hval⟩ := Option.bind_eq_some_iff.1 hval
          have : kv = (x.1.2, m) := (Option.some.inj hval).symm
          subst this; rfl
      rw [hkeys]
      refine List.Nodup.sublist (List.Sublist.map _ List.filter_sublist) ?_
      apply nodup_of_getElem?
      intro i j a hi hj
      rw [List.getElem?_map, Option.map_eq_some_iff] at hi hj
      obtain ⟨x, hx, rfl⟩ := hi
      obtain ⟨y, hy, hxy⟩ := hj
      rw [(hxs i x hx).1, (hxs j y hy).1] at hxy
      exact hxy.symm
    refine ⟨cs, m, ?_, Dict.get?_of_mem _ hnodup _ _ (List.mem_of_getElem? hkv), ?_⟩
    · rw [childChoiceSet_eq _ k c hk]; exact hcs
    · intro i s hi
      unfold collectChildIndices at hm
      have hlt : i < m.length := by
        rw [mapM_eq_some_length _ _ _ hm]; exact (List.getElem?_eq_some_iff.1 hi).1
      have hrow := mapM_getElem? _ _ _ hm i s hi
      refine ⟨m[i], List.getElem?_eq_getElem hlt, ?_⟩
      rw [List.getElem?_eq_getElem hlt] at hrow
      intro j a hj
      have he := mapM_getElem? _ _ _ hrow.symm j a hj
      have hmemc : lawOfMotion s a ∈ core := hcl s (List.mem_of_getElem? hi) a (by
        rw [← mem_validChoices]; exact List.mem_of_getElem? hj)
      obtain ⟨l, hl⟩ := (hall _).1 hmemc
      exact ⟨l, by rw [he]; exact hl, hl, hmemc⟩

end Respy
