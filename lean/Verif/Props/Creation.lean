import Verif.Lemmas.BuildExogenous
import Verif.Props.EndToEnd
import Verif.Props.Core

/-!
# C86: when the state space can be created

The creation of the state space looks up the successors of all states. It succeeds if and only if no admissible choice
leads out of the state space.
-/

namespace Respy

theorem mem_of_mapM {α β : Type _} (f : α → Option β) (l : List α) (r : List β) (h : l.mapM f = some r) (a : α)
    (ha : a ∈ l) : ∃ b ∈ r, f a = some b := by
  obtain ⟨i, hi⟩ := List.mem_iff_getElem?.1 ha
  obtain ⟨b, h1, h2⟩ := forall₂_getElem? ((mapM_eq_some_iff f l r).1 h) i a hi
  exact ⟨b, List.mem_of_getElem? h1, h2⟩

/-- The choices whose children are collected include the admissible ones. -/
theorem childChoiceSet_of_transit (b : BuildSpec) (core : List CoreState) (hw : b.Grouped core)
    (hx : b.exogLevels = [] ∨ ∃ static, b.ExogWF static) (dpc : Dict Complex Nat)
    (hdpc : b.densePeriodCores core (corePeriodChoice b.restrCore core) = some dpc)
    (transit : Option (Dict Nat (List Bool))) (ht : b.transitSets dpc = some transit) (k : Nat) (c : Complex) (ck : Nat)
    (hk : dpc[k]? = some (c, ck)) (cs : List Bool) (hcs : childChoiceSet transit (c, k) = some cs) (a : Nat)
    (ha : c.choiceSet[a]? = some true) : cs[a]? = some true := by
  cases transit with
  | none =>
    simp only [childChoiceSet, Option.some.injEq] at hcs
    rw [← hcs]; exact ha
  | some reps =>
    have hne : b.exogLevels ≠ [] := by
      intro h0
      unfold BuildSpec.transitSets at ht
      rw [h0] at ht
      simp at ht
    obtain ⟨static, hx⟩ := hx.resolve_left hne
    obtain ⟨grid, hg⟩ : ∃ grid, b.grid = some grid := ⟨_, hx.grid⟩
    obtain ⟨dpc', hd', _, hB⟩ := densePeriodCores_facts b core hw
    rw [hdpc] at hd'; cases hd'
    obtain ⟨transit, htr, htl, htk⟩ := transitKeysOf_all b core hw static hx grid hg dpc hdpc
    have hreps : transitChoiceSets transit (dpc.mapIdx fun i kv => (i, kv.1.choiceSet)) = some reps := by
      unfold BuildSpec.transitSets at ht
      cases hl : b.exogLevels with
      | nil => exact absurd hl hne
      | cons _ _ =>
        rw [hl] at ht
        simp only [hg, Option.bind_eq_bind, Option.bind_some, htr, Option.pure_def] at ht
        obtain ⟨r, h1, h2⟩ := Option.bind_eq_some_iff.1 ht
        simp only [Option.some.injEq] at h2
        rw [h1, h2]
    have hkeys : (Dict.keys transit).Nodup := by
      apply nodup_of_getElem?
      have hpos : ∀ (i : Nat) r, transit[i]? = some r → r.1 = i := by
        intro i r hr
        have hlt : i < dpc.length := by rw [← htl]; exact (List.getElem?_eq_some_iff.1 hr).1
        obtain ⟨keys, h1, _⟩ := htk i dpc[i].1 dpc[i].2 (List.getElem?_eq_getElem hlt)
        rw [hr] at h1
        rw [Option.some.inj h1]
      intro i j x hi hj
      simp only [Dict.keys, List.getElem?_map, Option.map_eq_some_iff] at hi hj
      obtain ⟨r1, h1, rfl⟩ := hi
      obtain ⟨r2, h2, h3⟩ := hj
      rw [hpos i r1 h1, hpos j r2 h2] at h3
      exact h3.symm
    obtain ⟨keys, h1, h2⟩ := htk k c ck hk
    obtain ⟨h3, h4, _⟩ := hB k c ck hk
    obtain ⟨d, hd, hlt⟩ := (mem_denseIndices hg _).1 h3
    obtain ⟨e, he, hse⟩ := hx.successor_self hg d hlt
    obtain ⟨i, hi⟩ := List.mem_iff_getElem?.1 he
    obtain ⟨f, hf, d', g1, g2, _⟩ := forall₂_getElem? h2 i e hi
    rw [hd] at g1 h4
    rw [hse] at g1; cases g1
    have hfk : f = k := by
      have := g2.symm.trans h4; exact Option.some.inj this
    subst hfk
    have hrep : Dict.get? reps f = some cs := hcs
    refine ((C20_transit_choice_sets transit hkeys _ reps hreps f cs hrep).2 a).2
      ⟨f, keys, c.choiceSet, Dict.get?_of_mem _ hkeys _ _ (List.mem_of_getElem? h1), List.mem_of_getElem? hf, ?_, ha⟩
    rw [get?_of_positions _ _ f (f, c.choiceSet) (by rw [List.getElem?_mapIdx, hk]; rfl)]
    intro i kv hi
    rw [List.getElem?_mapIdx, Option.map_eq_some_iff] at hi
    obtain ⟨_, _, rfl⟩ := hi
    rfl

/-- **C86.** If the state space can be created, then no admissible choice leads out of it. -/
theorem C86_created_spaces_closed (b : BuildSpec) (core : List CoreState) (hw : b.Grouped core)
    (hx : b.exogLevels = [] ∨ ∃ static, b.ExogWF static) (bt : Built) (h : buildSpace b = some bt) (s : CoreState)
    (hs : s ∈ core) (hper : s.period + 1 < b.core.nPeriods) (d : Option Nat) (hd : d ∈ b.denseIndices) (a : Nat)
    (ha : (b.choiceSetAt d s)[a]? = some true) : lawOfMotion s a ∈ core := by
  obtain ⟨core', hc', hnd, _⟩ := C01_core_nodup_sorted b.core hw.spec
  rw [hw.created] at hc'; cases hc'
  obtain ⟨hloc, hall, _⟩ := C03_state_location_bijection b.restrCore core hnd
  obtain ⟨dpc, hdpc, hA, _⟩ := densePeriodCores_facts b core hw
  obtain ⟨ck, pos, dk, h1, h2, h3⟩ := hA s hs d hd
  unfold buildSpace at h
  simp only [hw.created, Option.bind_eq_bind, Option.bind_some, hdpc] at h
  obtain ⟨indices, h4, h⟩ := Option.bind_eq_some_iff.1 h
  obtain ⟨transit, h5, h⟩ := Option.bind_eq_some_iff.1 h
  obtain ⟨children, h6, _⟩ := Option.bind_eq_some_iff.1 h
  obtain ⟨ind, h7, h8⟩ := hloc s ck pos |>.1 h1
  rw [List.getElem?_map] at h7
  obtain ⟨y, h9, h10⟩ := forall₂_getElem? ((mapM_eq_some_iff _ _ _).1 h4) dk _ h3
  have h11 : y = ind := by
    simp only at h10
    rw [h10] at h7; exact Option.some.inj h7
  subst h11
  have hxm : (((⟨s.period, b.choiceSetAt d s, d⟩ : Complex), dk), locRows core y) ∈
      ((dpc.map Prod.fst).zipIdx.zip (indices.map (locRows core))) := by
    refine List.mem_of_getElem? (i := dk) ?_
    rw [List.getElem?_zip_eq_some]
    refine ⟨?_, by rw [List.getElem?_map, h9]; rfl⟩
    rw [List.getElem?_zipIdx, List.getElem?_map, h3]
    simp
  unfold collectChildren at h6
  dsimp only at h6
  split at h6
  · cases h6
  obtain ⟨kv, _, h12⟩ := mem_of_mapM _ _ _ h6 _ (List.mem_filter.2 ⟨hxm, by simp; omega⟩)
  obtain ⟨cs, h13, h12⟩ := Option.bind_eq_some_iff.1 h12
  obtain ⟨m, h14, _⟩ := Option.bind_eq_some_iff.1 h12
  have hcs := childChoiceSet_of_transit b core hw hx dpc hdpc transit h5 dk _ ck h3 cs h13 a ha
  unfold collectChildIndices at h14
  obtain ⟨row, _, h15⟩ := mem_of_mapM _ _ _ h14 s (List.mem_of_getElem? h8)
  obtain ⟨l, _, h16⟩ := mem_of_mapM _ _ _ h15 a ((mem_validChoices cs a).2 hcs)
  exact (hall _).2 ⟨l, h16⟩

/-- **C86.** The state space can be created if and only if no admissible choice leads out of it. -/
theorem C86_created_iff_closed (b : BuildSpec) (core : List CoreState) (hw : b.Grouped core)
    (hx : b.exogLevels = [] ∨ ∃ static, b.ExogWF static) :
    (∃ bt, buildSpace b = some bt) ↔
      ∀ s ∈ core, s.period + 1 < b.core.nPeriods → ∀ d ∈ b.denseIndices, ∀ a : Nat,
        (b.choiceSetAt d s)[a]? = some true → lawOfMotion s a ∈ core := by
  constructor
  · rintro ⟨bt, h⟩ s hs hper d hd a ha
    exact C86_created_spaces_closed b core hw hx bt h s hs hper d hd a ha
  · intro hclosed
    have wf : b.WF core := ⟨hw.spec, hw.created, hw.periods, hw.covered, hw.several, hw.compatible, hw.distinct, hclosed⟩
    rcases hx with hx | ⟨static, hx⟩
    · obtain ⟨bt, h, _⟩ := buildSpace_noExogenous b core wf hx
      exact ⟨bt, h⟩
    · obtain ⟨bt, _, h, _⟩ := buildSpace_exogenous b core wf static hx
      exact ⟨bt, h⟩

/-- **C86.** The exception of restrictions which mix core and dense information: if two states of a period have the
same choices on the core but not for some dense index, then the state space cannot be created. -/
theorem C86_mixed_restrictions (b : BuildSpec) (core : List CoreState) (hc : createCore b.core = some core)
    (grid : List (List Nat)) (hg : b.grid = some grid) (d : Nat) (hd : d < grid.length) (s s' : CoreState)
    (hs : s ∈ core) (hs' : s' ∈ core) (hp : s.period = s'.period)
    (heq : choiceSet b.restrCore s = choiceSet b.restrCore s')
    (hne : choiceSet (b.restr d) s ≠ choiceSet (b.restr d) s') : buildSpace b = none := by
  obtain ⟨i, hi⟩ := List.mem_iff_getElem?.1 hs
  obtain ⟨j, hj⟩ := List.mem_iff_getElem?.1 hs'
  obtain ⟨h1, h2, h3⟩ := C08_groups_partition b.restrCore core
  obtain ⟨k, g, hk, hcnt, _⟩ := h1 i (List.getElem?_eq_some_iff.1 hi).1
  obtain ⟨k', g', hk', hcnt', _⟩ := h1 j (List.getElem?_eq_some_iff.1 hj).1
  have him : i ∈ g.2 := List.count_pos_iff.1 (by omega)
  have hjm : j ∈ g'.2 := List.count_pos_iff.1 (by omega)
  obtain ⟨t, ht, hp1, hc1⟩ := (h2 g (List.mem_of_getElem? hk)).2 i him
  obtain ⟨t', ht', hp2, hc2⟩ := (h2 g' (List.mem_of_getElem? hk')).2 j hjm
  rw [hi] at ht; cases ht
  rw [hj] at ht'; cases ht'
  have hkk : k = k' := by
    refine (List.getElem?_inj (by simpa using (List.getElem?_eq_some_iff.1 hk).1) h3).1 ?_
    rw [List.getElem?_map, List.getElem?_map, hk, hk', Option.map_some, Option.map_some]
    congr 1
    exact Prod.ext (by rw [← hp1, ← hp2, hp]) (by rw [← hc1, ← hc2, heq])
  subst hkk
  rw [hk] at hk'; cases hk'
  obtain ⟨e, he⟩ := (C08_value_error_iff b.restrCore core b.restr grid.length).2
    ⟨d, hd, g, List.mem_of_getElem? hk, i, him, j, hjm, s, s', hi, hj, hne⟩
  unfold buildSpace
  simp only [hc, Option.bind_eq_bind, Option.bind_some, BuildSpec.densePeriodCores, hg, he, Except.toOption,
    ite_self, Option.bind_none]

/-- **C86.** With two or more lags no state space can be created: if a choice is admissible in a state of a
non-terminal period in which some lag but the last is known, then its successor has two lags, but no state of the
state space has (`C04_lag_combinations_false`). -/
theorem C86_two_lags_state (b : BuildSpec) (core : List CoreState) (hw : b.Grouped core)
    (hx : b.exogLevels = [] ∨ ∃ static, b.ExogWF static) (hl : 2 ≤ b.core.nLags) (s : CoreState) (hs : s ∈ core)
    (hper : s.period + 1 < b.core.nPeriods) (i c : Nat) (hi : i + 1 < b.core.nLags) (hlag : s.lags[i]? = some (some c))
    (d : Option Nat) (hd : d ∈ b.denseIndices) (a : Nat) (ha : (b.choiceSetAt d s)[a]? = some true) :
    buildSpace b = none := by
  cases hb : buildSpace b with
  | none => rfl
  | some bt =>
    have hmem := C86_created_spaces_closed b core hw hx bt hb s hs hper d hd a ha
    have hlen : s.lags.length = b.core.nLags := by
      obtain ⟨mins, hmins, hadd⟩ := additionalExp_spec b.core hw.spec
      rw [mem_createCore b.core core _ hadd hw.created] at hs
      obtain ⟨init, _, x, ⟨hxb, _⟩, rfl, _⟩ := hs
      rw [mem_addLaggedChoices _ _ (by omega) hw.spec.choice] at hxb
      obtain ⟨lag, _, code, _, x', _, rfl⟩ := hxb
      simp [addInitial]
    refine absurd ?_ (C04_lag_combinations_false b.core hw.spec hl core hw.created _ hmem 0 (i + 1) (by omega) a ?_ c)
    · simp only [lawOfMotion, updateLags, if_neg (show ¬ s.lags.length = 0 by omega), List.getElem?_cons_succ]
      rw [List.getElem?_dropLast, if_pos (by omega), hlag]
    · simp only [lawOfMotion, updateLags, if_neg (show ¬ s.lags.length = 0 by omega), List.getElem?_cons_zero]

/-- **C86 (negated).** No model with two or more lags and two or more periods can be solved: if no filter is used, some
experience of each choice can be the starting value, and some choice is admissible in each state, then the creation of
the state space raises an exception. -/
theorem C86_two_lags_false (b : BuildSpec) (core : List CoreState) (hw : b.Grouped core)
    (hx : b.exogLevels = [] ∨ ∃ static, b.ExogWF static) (hl : 2 ≤ b.core.nLags) (hper : 2 ≤ b.core.nPeriods)
    (hf : b.core.filters = []) (hstart : List.Forall₂ (fun l m => ∃ x ∈ l, x ≤ m) b.core.starts b.core.maxExp)
    (d : Option Nat) (hd : d ∈ b.denseIndices) (hadm : ∀ s ∈ core, ∃ a : Nat, (b.choiceSetAt d s)[a]? = some true) :
    buildSpace b = none := by
  obtain ⟨init, hinit, hle⟩ : ∃ init : List Nat, List.Forall₂ (· ∈ ·) init b.core.starts ∧
      List.Forall₂ (· ≤ ·) init b.core.maxExp := by
    clear hadm hf hper hl hx hw
    generalize b.core.starts = ss at hstart ⊢
    generalize b.core.maxExp = ms at hstart ⊢
    induction hstart with
    | nil => exact ⟨[], .nil, .nil⟩
    | cons h _ ih =>
      obtain ⟨x, h1, h2⟩ := h
      obtain ⟨init, h3, h4⟩ := ih
      exact ⟨x :: init, .cons h1 h3, .cons h2 h4⟩
  obtain ⟨mins, hmins, hadd⟩ := additionalExp_spec b.core hw.spec
  have hs : (⟨0, init, (List.replicate b.core.nLags none).set 0 (some 0)⟩ : CoreState) ∈ core := by
    rw [mem_createCore b.core core _ hadd hw.created]
    refine ⟨init, hinit, ⟨0, List.replicate b.core.starts.length 0,
      (List.replicate b.core.nLags none).set 0 (some 0)⟩, ⟨?_, by rw [hf]; simp⟩, ?_, ?_⟩
    · rw [mem_addLaggedChoices _ _ (by omega) hw.spec.choice]
      refine ⟨0, by omega, 0, hw.spec.choice, ⟨0, List.replicate b.core.starts.length 0, []⟩, ?_, rfl⟩
      rw [mem_coreFromExperiences _ _ (additionalExp_ne_nil b.core hw.spec _ hadd)]
      refine ⟨by simp only; omega, ?_, by simp, rfl⟩
      rw [List.forall₂_iff_get]
      refine ⟨by simp [hmins.length_eq, hw.spec.len], fun i h1 h2 => by simp⟩
    · have hzero : List.zipWith (· + ·) (List.replicate b.core.starts.length 0) init = init := by
        rw [← hinit.length_eq]
        clear hinit hle
        induction init with
        | nil => rfl
        | cons x xs ih => simp [List.replicate_succ, ih]
      simp only [addInitial, hzero]
    · exact (withinMax_iff _ _ hle.length_eq).2 hle
  obtain ⟨a, ha⟩ := hadm _ hs
  refine C86_two_lags_state b core hw hx hl _ hs (by simp only; omega) 0 0 (by omega) ?_ d hd a ha
  rw [List.getElem?_set_self (by simp; omega)]

/-- A model with two lags and without dense variables in which all choices are admissible. -/
def twoLagsBuild : BuildSpec := ⟨exampleTwoLags, [[], [], []], fun _ => [], none, [], 10⟩

/-- The hypotheses of `C86_two_lags_false` hold for the model. -/
example : ∃ core, twoLagsBuild.Grouped core ∧ twoLagsBuild.exogLevels = [] ∧ 2 ≤ twoLagsBuild.core.nLags ∧
    2 ≤ twoLagsBuild.core.nPeriods ∧ twoLagsBuild.core.filters = [] ∧
    List.Forall₂ (fun l m => ∃ x ∈ l, x ≤ m) twoLagsBuild.core.starts twoLagsBuild.core.maxExp ∧
    none ∈ twoLagsBuild.denseIndices ∧ (∀ s ∈ core, ∃ a : Nat, (twoLagsBuild.choiceSetAt none s)[a]? = some true) ∧
    buildSpace twoLagsBuild = none := by
  have wf : exampleTwoLags.WF :=
    ⟨exampleSpec_wf.experience, rfl, exampleSpec_wf.nonempty, exampleSpec_wf.starts_lt, exampleSpec_wf.max_lt,
      exampleSpec_wf.choice⟩
  obtain ⟨core, hc⟩ := createCore_isSome exampleTwoLags wf
  have hw : twoLagsBuild.Grouped core := ⟨wf, hc, by decide,
    C01_periods_covered _ wf rfl exampleSpec_lowest core hc, fun _ h => (by cases h), fun _ h => (by cases h),
    fun _ h => (by cases h)⟩
  have hs : List.Forall₂ (fun l m => ∃ x ∈ l, x ≤ m) twoLagsBuild.core.starts twoLagsBuild.core.maxExp := by
    simp [twoLagsBuild, exampleTwoLags, exampleSpec]
  have ha : ∀ s ∈ core, ∃ a : Nat, (twoLagsBuild.choiceSetAt none s)[a]? = some true := fun s _ => ⟨0, rfl⟩
  exact ⟨core, hw, rfl, by decide, by decide, rfl, hs, List.mem_singleton.2 rfl, ha,
    C86_two_lags_false _ core hw (Or.inl rfl) (by decide) (by decide) rfl hs none (List.mem_singleton.2 rfl) ha⟩

/-- One lag, two dense indices, and a restriction on the first experience for the second index only. -/
def mixedBuild : BuildSpec :=
  ⟨exampleSpec, [[], [], []], fun d => [[some fun s => decide (d = 1 ∧ s.exp[0]? = some 1)], [], []],
    some [[0], [1]], [], 10⟩

/-- The hypotheses of `C86_mixed_restrictions` hold for the model. -/
example : ∃ core, createCore mixedBuild.core = some core ∧ mixedBuild.grid = some [[0], [1]] ∧
    ⟨1, [0, 0], [some 0]⟩ ∈ core ∧ ⟨1, [1, 0], [some 0]⟩ ∈ core ∧
    choiceSet mixedBuild.restrCore ⟨1, [0, 0], [some 0]⟩ = choiceSet mixedBuild.restrCore ⟨1, [1, 0], [some 0]⟩ ∧
    choiceSet (mixedBuild.restr 1) ⟨1, [0, 0], [some 0]⟩ ≠ choiceSet (mixedBuild.restr 1) ⟨1, [1, 0], [some 0]⟩ := by
  obtain ⟨core, hc⟩ := createCore_isSome exampleSpec exampleSpec_wf
  refine ⟨core, hc, rfl, ?_, ?_, by decide, by decide⟩
  · rw [C01_core_eq_feasible exampleSpec exampleSpec_wf (by decide) rfl core hc]
    refine ⟨by decide, ⟨[0, 0], [0, 0], ?_, rfl, rfl, by decide⟩, ?_, rfl, ?_⟩ <;> simp [exampleSpec]
  · rw [C01_core_eq_feasible exampleSpec exampleSpec_wf (by decide) rfl core hc]
    refine ⟨by decide, ⟨[0, 0], [1, 0], ?_, rfl, rfl, by decide⟩, ?_, rfl, ?_⟩ <;> simp [exampleSpec]

end Respy
