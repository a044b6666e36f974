import Verif.Lemmas.EndToEnd
import Verif.Spec.InterpolatedSolution
import Mathlib.Data.List.Dedup

/-! Helper lemmas: which periods are interpolated. -/

set_option linter.unusedSectionVars false

namespace Respy

theorem nodup_denseIndices (b : BuildSpec) : b.denseIndices.Nodup := by
  unfold BuildSpec.denseIndices
  split
  · simp
  · exact List.nodup_range.map (Option.some_injective _)

theorem mem_statesOfPeriod (b : BuildSpec) (core : List CoreState) (t : Nat) (d : Option Nat)
    (s : CoreState) : (d, s) ∈ b.statesOfPeriod core t ↔ d ∈ b.denseIndices ∧ s ∈ core ∧ s.period = t := by
  simp only [BuildSpec.statesOfPeriod, List.mem_flatMap, List.mem_map, List.mem_filter, decide_eq_true_eq,
    Prod.mk.injEq]
  constructor
  · rintro ⟨d', h1, s', ⟨h2, h3⟩, rfl, rfl⟩; exact ⟨h1, h2, h3⟩
  · rintro ⟨h1, h2, h3⟩; exact ⟨d, h1, s, ⟨h2, h3⟩, rfl, rfl⟩

theorem nodup_statesOfPeriod (b : BuildSpec) (core : List CoreState) (hnd : core.Nodup) (t : Nat) :
    (b.statesOfPeriod core t).Nodup := by
  unfold BuildSpec.statesOfPeriod
  rw [List.nodup_flatMap]
  constructor
  · intro d _
    exact List.Nodup.map (fun a b hab => (Prod.mk.inj hab).2) (hnd.filter _)
  · refine List.Nodup.pairwise_of_forall_ne (nodup_denseIndices b) ?_
    intro d _ d' _ hne
    rw [Function.onFun, List.disjoint_left]
    rintro ⟨e, s⟩ h1 h2
    obtain ⟨_, _, h1⟩ := List.mem_map.1 h1
    obtain ⟨_, _, h2⟩ := List.mem_map.1 h2
    simp only [Prod.mk.injEq] at h1 h2
    exact hne (h1.1.trans h2.1.symm)

theorem length_statesOfPeriod (b : BuildSpec) (core : List CoreState) (t : Nat) :
    (b.statesOfPeriod core t).length =
      (core.filter fun s => decide (s.period = t)).length * b.denseIndices.length := by
  simp [BuildSpec.statesOfPeriod, List.length_flatMap, Nat.mul_comm]

theorem mem_groupsOfPeriod (b : BuildSpec) (core : List CoreState) (t : Nat) (g : Option Nat × List Bool) :
    g ∈ b.groupsOfPeriod core t ↔
      g.1 ∈ b.denseIndices ∧ ∃ s ∈ core, s.period = t ∧ b.choiceSetAt g.1 s = g.2 := by
  unfold BuildSpec.groupsOfPeriod
  rw [List.mem_dedup, List.mem_map]
  constructor
  · rintro ⟨⟨d, s⟩, h, rfl⟩
    obtain ⟨h1, h2, h3⟩ := (mem_statesOfPeriod ..).1 h
    exact ⟨h1, s, h2, h3, rfl⟩
  · rintro ⟨h1, s, h2, h3, h4⟩
    exact ⟨(g.1, s), (mem_statesOfPeriod ..).2 ⟨h1, h2, h3⟩, by rw [h4]⟩

theorem Built.Sound.nodup_states {b : BuildSpec} {core : List CoreState}
    {tr : Option (Dict Nat (List Bool))} {bt : Built} (h : bt.Sound b core tr) (k : Nat)
    (c : Complex) (hc : bt.space.complexes[k]? = some c) (sts : List CoreState)
    (hs : bt.states[k]? = some sts) : sts.Nodup := by
  obtain ⟨ck, sts', _, h2, h3, h4, _, h5, h6⟩ := h.item k c hc
  rw [hs] at h2; cases h2
  apply nodup_of_getElem?
  intro i j s hi hj
  have e1 := (h6 i s).1 hi
  have e2 := (h6 j s).1 hj
  rw [e1] at e2
  simpa using e2

/-- The number of states of a period in the state space. -/
theorem Built.Sound.sum_nStates {b : BuildSpec} {core : List CoreState}
    {tr : Option (Dict Nat (List Bool))} {bt : Built} (h : bt.Sound b core tr) (hnd : core.Nodup)
    (t : Nat) :
    ((bt.space.keysOfPeriod t).map fun k => (bt.space.nStates[k]?).getD 0).sum =
      (b.statesOfPeriod core t).length := by
  classical
  let pairs : Nat → List (Option Nat × CoreState) := fun k =>
    ((bt.states[k]?).getD []).map fun s => ((bt.space.complexes[k]?.bind (·.dense)), s)
  have hlen : ((bt.space.keysOfPeriod t).map fun k => (bt.space.nStates[k]?).getD 0).sum =
      ((bt.space.keysOfPeriod t).flatMap pairs).length := by
    rw [List.length_flatMap]
    congr 1
    apply List.map_congr_left
    intro k hk
    obtain ⟨c, hc, _⟩ := (mem_keysOfPeriod _ _ _).1 hk
    obtain ⟨ck, sts, _, h2, _⟩ := h.item k c hc
    rw [h.nStates_get k sts h2]
    simp [pairs, h2]
  have hmem : ∀ k ∈ bt.space.keysOfPeriod t, ∀ s d, (d, s) ∈ pairs k → s ∈ core ∧ s.period = t ∧
      d ∈ b.denseIndices ∧ ∃ ck pos, bt.indexer.get? s = some (ck, pos) ∧
        bt.space.lookup.get? (ck, d.getD 0) = some k := by
    intro k hk s d hsd
    obtain ⟨c, hc, hct⟩ := (mem_keysOfPeriod _ _ _).1 hk
    obtain ⟨ck, sts, _, h2, h3, h4, _, h5, h6⟩ := h.item k c hc
    simp only [pairs, h2, Option.getD_some, hc, Option.bind_some, List.mem_map, Prod.mk.injEq] at hsd
    obtain ⟨s', hs', rfl, rfl⟩ := hsd
    obtain ⟨g1, g2, g3⟩ := h5 s' hs'
    obtain ⟨i, hi⟩ := List.mem_iff_getElem?.1 hs'
    exact ⟨g1, g2.trans hct, h3, ck, i, (h6 i s').1 hi, h4⟩
  have hnodup : ((bt.space.keysOfPeriod t).flatMap pairs).Nodup := by
    rw [List.nodup_flatMap]
    constructor
    · intro k hk
      obtain ⟨c, hc, hct⟩ := (mem_keysOfPeriod _ _ _).1 hk
      obtain ⟨ck, sts, _, h2, _⟩ := h.item k c hc
      simp only [pairs, h2, Option.getD_some]
      exact List.Nodup.map (fun a b hab => (Prod.mk.inj hab).2) (h.nodup_states k c hc sts h2)
    · refine List.Nodup.pairwise_of_forall_ne (nodup_keysOfPeriod _ _) ?_
      intro k hk k' hk' hne
      rw [Function.onFun, List.disjoint_left]
      rintro ⟨d, s⟩ h1 h2
      obtain ⟨_, _, _, ck, pos, g1, g2⟩ := hmem k hk s d h1
      obtain ⟨_, _, _, ck', pos', g1', g2'⟩ := hmem k' hk' s d h2
      rw [g1] at g1'; cases g1'
      rw [g2] at g2'; cases g2'
      exact hne rfl
  rw [hlen]
  refine ((List.perm_ext_iff_of_nodup hnodup (nodup_statesOfPeriod b core hnd t)).2 ?_).length_eq
  rintro ⟨d, s⟩
  rw [mem_statesOfPeriod]
  constructor
  · intro hsd
    obtain ⟨k, hk, hsd⟩ := List.mem_flatMap.1 hsd
    obtain ⟨g1, g2, g3, _⟩ := hmem k hk s d hsd
    exact ⟨g3, g1, g2⟩
  · rintro ⟨hd, hs, ht⟩
    obtain ⟨ck, pos, dk, sts, _, _, h3, _, h5, h6⟩ := h.loc s hs d hd
    refine List.mem_flatMap.2 ⟨dk, (mem_keysOfPeriod _ _ _).2 ⟨_, h3, ht⟩, ?_⟩
    simp only [pairs, h5, h3, Option.getD_some, Option.bind_some]
    exact List.mem_map.2 ⟨s, List.mem_of_getElem? h6, rfl⟩

/-- The number of dense keys of a period is the number of groups. -/
theorem Built.Sound.length_keysOfPeriod {b : BuildSpec} {core : List CoreState}
    {tr : Option (Dict Nat (List Bool))} {bt : Built} (h : bt.Sound b core tr) (t : Nat) :
    (bt.space.keysOfPeriod t).length = (b.groupsOfPeriod core t).length := by
  classical
  let f : Nat → Option Nat × List Bool := fun k =>
    match bt.space.complexes[k]? with
    | some c => (c.dense, c.choiceSet)
    | none => (none, [])
  have hf : ∀ (k : Nat) c, bt.space.complexes[k]? = some c → f k = (c.dense, c.choiceSet) := by
    intro k c hc; simp only [f, hc]
  have hnodup : ((bt.space.keysOfPeriod t).map f).Nodup := by
    refine List.Nodup.map_on ?_ (nodup_keysOfPeriod _ _)
    intro k hk k' hk' heq
    obtain ⟨c, hc, hct⟩ := (mem_keysOfPeriod _ _ _).1 hk
    obtain ⟨c', hc', hct'⟩ := (mem_keysOfPeriod _ _ _).1 hk'
    rw [hf k c hc, hf k' c' hc', Prod.mk.injEq] at heq
    have : c = c' := by
      cases c; cases c'
      simp only at hct hct' heq
      simp [hct, hct', heq.1, heq.2]
    subst this
    exact (List.getElem?_inj (List.getElem?_eq_some_iff.1 hc).1 h.nodup).1 (hc.trans hc'.symm)
  have hperm : ((bt.space.keysOfPeriod t).map f).Perm (b.groupsOfPeriod core t) := by
    refine (List.perm_ext_iff_of_nodup hnodup (List.nodup_dedup _)).2 ?_
    intro g
    rw [← BuildSpec.groupsOfPeriod, mem_groupsOfPeriod, List.mem_map]
    constructor
    · rintro ⟨k, hk, rfl⟩
      obtain ⟨c, hc, hct⟩ := (mem_keysOfPeriod _ _ _).1 hk
      obtain ⟨ck, sts, _, h2, h3, h4, hne, h5, h6⟩ := h.item k c hc
      obtain ⟨s, hs⟩ := List.exists_mem_of_ne_nil _ hne
      obtain ⟨g1, g2, g3⟩ := h5 s hs
      rw [hf k c hc]
      exact ⟨h3, s, g1, g2.trans hct, g3⟩
    · rintro ⟨hd, s, hs, ht, hcs⟩
      obtain ⟨ck, pos, dk, sts, _, _, h3, _, h5, h6⟩ := h.loc s hs g.1 hd
      exact ⟨dk, (mem_keysOfPeriod _ _ _).2 ⟨_, h3, ht⟩, by rw [hf dk _ h3, hcs]⟩
  simpa using hperm.length_eq

theorem Built.Sound.anyInterpolated_iff {b : BuildSpec} {core : List CoreState}
    {tr : Option (Dict Nat (List Bool))} {bt : Built} (h : bt.Sound b core tr) (hnd : core.Nodup)
    (t : Nat) : bt.space.anyInterpolated t = true ↔ b.Interpolates core t := by
  simp only [SolveSpace.anyInterpolated, Bool.and_eq_true, decide_eq_true_eq, BuildSpec.Interpolates]
  rw [h.sum_nStates hnd, h.length_keysOfPeriod, h.points]

/-- The states of a dense key are the states of its group. -/
theorem Built.Sound.states_perm {b : BuildSpec} {core : List CoreState}
    {tr : Option (Dict Nat (List Bool))} {bt : Built} (h : bt.Sound b core tr) (hnd : core.Nodup)
    (k : Nat) (c : Complex) (hc : bt.space.complexes[k]? = some c) (sts : List CoreState)
    (hs : bt.states[k]? = some sts) : sts.Perm (b.group core c.period (c.dense, c.choiceSet)) := by
  classical
  obtain ⟨ck, sts', _, h2, h3, h4, _, h5, h6⟩ := h.item k c hc
  rw [hs] at h2; cases h2
  refine (List.perm_ext_iff_of_nodup (h.nodup_states k c hc sts hs) (hnd.filter _)).2 ?_
  intro s
  rw [List.mem_filter, decide_eq_true_eq]
  constructor
  · intro hm
    obtain ⟨g1, g2, g3⟩ := h5 s hm
    exact ⟨g1, g2, g3⟩
  · rintro ⟨g1, g2, g3⟩
    obtain ⟨ck', pos, dk, sts', _, _, e3, _, e5, e6⟩ := h.loc s g1 c.dense h3
    have hcc : (⟨s.period, b.choiceSetAt c.dense s, c.dense⟩ : Complex) = c := by
      cases c; simp only at g2 g3; simp [g2, g3]
    rw [hcc] at e3
    have : dk = k := (List.getElem?_inj (List.getElem?_eq_some_iff.1 e3).1 h.nodup).1 (e3.trans hc.symm)
    subst this
    rw [hs] at e5; cases e5
    exact List.mem_of_getElem? e6

end Respy
