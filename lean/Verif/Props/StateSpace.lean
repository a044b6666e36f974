import Verif.Lemmas.Dense
import Verif.Lemmas.MapM
import Verif.Props.Core

/-!
# Properties of locations, choice sets and dense keys: C02 (lookup), C03, C06, C07, C08, C09
-/

namespace Respy

/-! ## C08 -/

/-- **C08.** The choice set of a row has one entry per choice, and a choice is in the choice set iff
none of the formulas listed for it which can be evaluated holds. -/
theorem C08_choice_set_exact {ρ : Type _} (restr : List (List (FrameFormula ρ))) (row : ρ) :
    (choiceSet restr row).length = restr.length ∧
    ∀ c : Nat, (choiceSet restr row)[c]? = some true ↔
      ∃ formulas, restr[c]? = some formulas ∧ ∀ p, some p ∈ formulas → p row = false := by
  refine ⟨by simp [choiceSet], ?_⟩
  intro c
  simp only [choiceSet, List.getElem?_map, Option.map_eq_some_iff]
  constructor
  · rintro ⟨f, hf, h⟩
    refine ⟨f, hf, ?_⟩
    intro p hp
    by_contra hc
    have := (isInadmissible_iff f row).2 ⟨p, hp, by simpa using hc⟩
    simp [this] at h
  · rintro ⟨f, hf, h⟩
    refine ⟨f, hf, ?_⟩
    by_contra hc
    obtain ⟨p, hp, hpr⟩ := (isInadmissible_iff f row).1 (by simpa using hc)
    simp [h p hp] at hpr

/-- Two choices; the first is excluded by the second of its formulas, the third formula cannot be
evaluated. -/
example : choiceSet (ρ := Nat) [[some fun n => n == 3, some fun n => n == 5, none], []] 5 =
    [false, true] := by decide

/-- **C08.** The period-choice groups partition the core state space: every row is in exactly one
group, and exactly once; all rows of a group have the period and the choice set of the group; no
group is empty and no key occurs twice. -/
theorem C08_groups_partition (restr : List (List (FrameFormula CoreState))) (core : List CoreState) :
    (∀ i, i < core.length → ∃ k : Nat, ∃ g, (corePeriodChoice restr core)[k]? = some g ∧
      g.2.count i = 1 ∧ ∀ (k' : Nat) g', (corePeriodChoice restr core)[k']? = some g' → i ∈ g'.2 → k' = k) ∧
    (∀ g ∈ corePeriodChoice restr core, g.2 ≠ [] ∧ ∀ i ∈ g.2, ∃ s, core[i]? = some s ∧
      s.period = g.1.1 ∧ choiceSet restr s = g.1.2) ∧
    ((corePeriodChoice restr core).map Prod.fst).Nodup := by
  obtain ⟨hnd, hmem⟩ := corePeriodChoice_keys restr core
  refine ⟨?_, ?_, hnd⟩
  · intro i hi
    have hk : periodChoiceKey restr core[i] ∈ (corePeriodChoice restr core).map Prod.fst :=
      (hmem _).2 ⟨core[i], List.getElem_mem hi, rfl⟩
    obtain ⟨g, hg, hgk⟩ := List.mem_map.1 hk
    obtain ⟨k, hk', rfl⟩ := List.mem_iff_getElem.1 hg
    refine ⟨k, _, List.getElem?_eq_getElem hk', ?_, ?_⟩
    · rw [corePeriodChoice_indices _ _ _ hg]
      refine List.count_eq_one_of_mem (nodup_groupIndices _ _ _) ?_
      rw [mem_groupIndices]
      exact ⟨core[i], List.getElem?_eq_getElem hi, hgk.symm⟩
    · intro k2 g2 hk2 hi2
      obtain ⟨hlt, rfl⟩ := List.getElem?_eq_some_iff.1 hk2
      rw [corePeriodChoice_indices _ _ _ (List.getElem_mem hlt), mem_groupIndices] at hi2
      obtain ⟨s, hs, hsk⟩ := hi2
      rw [List.getElem?_eq_getElem hi] at hs
      cases hs
      have e : (corePeriodChoice restr core)[k2].1 = (corePeriodChoice restr core)[k].1 := by
        rw [← hsk, hgk]
      have l2 : k2 < ((corePeriodChoice restr core).map Prod.fst).length := by simpa using hlt
      have l1 : k < ((corePeriodChoice restr core).map Prod.fst).length := by simpa using hk'
      exact (List.Nodup.getElem_inj_iff hnd (hi := l2) (hj := l1)).1 (by simpa using e)
  · intro g hg
    rw [corePeriodChoice_indices _ _ _ hg]
    constructor
    · obtain ⟨s, hs, hsk⟩ := (hmem g.1).1 (List.mem_map.2 ⟨g, hg, rfl⟩)
      obtain ⟨i, hi, rfl⟩ := List.mem_iff_getElem.1 hs
      have : i ∈ groupIndices (periodChoiceKey restr) core g.1 :=
        (mem_groupIndices _ _ _ _).2 ⟨_, List.getElem?_eq_getElem hi, hsk⟩
      intro h; rw [h] at this; simp at this
    · intro i hi
      obtain ⟨s, hs, hsk⟩ := (mem_groupIndices _ _ _ _).1 hi
      refine ⟨s, hs, ?_, ?_⟩
      · rw [← hsk]; rfl
      · rw [← hsk]; rfl

/-- **C08.** Creating the dense period-choice cores raises the `ValueError` iff for some dense index
some group contains two states whose choice sets (given the dense covariates) differ. -/
theorem C08_value_error_iff (restrCore : List (List (FrameFormula CoreState)))
    (core : List CoreState) (restr : Nat → List (List (FrameFormula CoreState))) (nDense : Nat) :
    (∃ e, densePeriodChoice core (corePeriodChoice restrCore core) restr nDense = .error e) ↔
      ∃ d < nDense, ∃ g ∈ corePeriodChoice restrCore core, ∃ i ∈ g.2, ∃ j ∈ g.2, ∃ s s',
        core[i]? = some s ∧ core[j]? = some s' ∧
        choiceSet (restr d) s ≠ choiceSet (restr d) s' := by
  have hpart := (C08_groups_partition restrCore core).2.1
  have hsing : ∀ d, ∀ g ∈ corePeriodChoice restrCore core,
      (∀ i ∈ g.2, ∀ j ∈ g.2, ∀ s s', core[i]? = some s → core[j]? = some s' →
        choiceSet (restr d) s = choiceSet (restr d) s') ↔
      ∃ cs, setsInGroup (restr d) core g.2 = [cs] := by
    intro d g hg
    simp only [setsInGroup, eraseDups_eq_singleton]
    constructor
    · intro h
      obtain ⟨hne, hrows⟩ := hpart g hg
      obtain ⟨i, hi⟩ := List.exists_mem_of_ne_nil _ hne
      obtain ⟨s, hs, _⟩ := hrows i hi
      refine ⟨choiceSet (restr d) s, ?_, ?_⟩
      · intro hnil
        have : choiceSet (restr d) s ∈ (locRows core g.2).map (choiceSet (restr d)) :=
          List.mem_map.2 ⟨s, (mem_locRows _ _ _).2 ⟨i, hi, hs⟩, rfl⟩
        rw [hnil] at this; simp at this
      · intro x hx
        obtain ⟨s', hs', rfl⟩ := List.mem_map.1 hx
        obtain ⟨j, hj, hjs⟩ := (mem_locRows _ _ _).1 hs'
        exact h j hj i hi s' s hjs hs
    · rintro ⟨cs, _, h⟩ i hi j hj s s' hs hs'
      rw [h (choiceSet (restr d) s) (List.mem_map.2 ⟨s, (mem_locRows _ _ _).2 ⟨i, hi, hs⟩, rfl⟩),
        h (choiceSet (restr d) s') (List.mem_map.2 ⟨s', (mem_locRows _ _ _).2 ⟨j, hj, hs'⟩, rfl⟩)]
  constructor
  · rintro ⟨e, he⟩
    by_contra hno
    have hall : ∀ d < nDense, ∀ g ∈ corePeriodChoice restrCore core,
        ∃ cs, setsInGroup (restr d) core g.2 = [cs] := by
      intro d hd g hg
      rw [← hsing d g hg]
      intro i hi j hj s s' hs hs'
      by_contra hne
      exact hno ⟨d, hd, g, hg, i, hi, j, hj, s, s', hs, hs', hne⟩
    classical
    have := densePeriodChoice_ok core (corePeriodChoice restrCore core) restr nDense
      (fun d g => if h : d < nDense ∧ g ∈ corePeriodChoice restrCore core
        then (hall d h.1 g h.2).choose else [])
      (fun d hd g hg => by
        simp only [hd, hg, and_self, dif_pos]
        exact (hall d hd g hg).choose_spec)
    rw [this] at he
    cases he
  · rintro ⟨d, hd, g, hg, i, hi, j, hj, s, s', hs, hs', hne⟩
    refine ⟨_, densePeriodChoice_error core _ restr nDense ⟨d, hd, g, hg, ?_⟩⟩
    intro cs hcs
    exact hne ((hsing d g hg).2 ⟨cs, hcs⟩ i hi j hj s s' hs hs')

/-- A restriction mixing core and dense information which splits a group: the error is raised. -/
example : ∃ e, densePeriodChoice
    [⟨0, [0], []⟩, ⟨1, [0], []⟩, ⟨1, [1], []⟩]
    (corePeriodChoice [[none], []] [⟨0, [0], []⟩, ⟨1, [0], []⟩, ⟨1, [1], []⟩])
    (fun d => [[some fun s => decide (d = 1 ∧ s.exp = [1])], []]) 2 = .error e := by
  rw [C08_value_error_iff]
  refine ⟨1, by decide, ((1, [true, true]), [1, 2]), by decide +kernel, 1, by decide, 2, by decide,
    _, _, rfl, rfl, by decide⟩

/-! ## C03 -/

/-- **C03.** Looking up a state in the indexer returns `(core_key, core_index)` iff the stored state
at this location is the state; every state of the core has a location, no other state has one, and
no two states share a location. -/
theorem C03_state_location_bijection (restr : List (List (FrameFormula CoreState)))
    (core : List CoreState) (hnd : core.Nodup) :
    let groups := (corePeriodChoice restr core).map Prod.snd
    let indexer := createIndexer core groups
    (∀ s (k i : Nat), indexer.get? s = some (k, i) ↔
      ∃ indices, groups[k]? = some indices ∧ (locRows core indices)[i]? = some s) ∧
    (∀ s, s ∈ core ↔ ∃ l, indexer.get? s = some l) ∧
    (∀ s s' l, indexer.get? s = some l → indexer.get? s' = some l → s = s') := by
  intro groups indexer
  have hkeys : ((groups.mapIdx fun coreKey indices =>
      (locRows core indices).mapIdx fun i s => (s, (coreKey, i))).flatten.map Prod.fst).Nodup := by
    rw [indexer_items_keys]; exact indexer_keys_nodup restr core hnd
  have h1 : ∀ s (k i : Nat), indexer.get? s = some (k, i) ↔
      ∃ indices, groups[k]? = some indices ∧ (locRows core indices)[i]? = some s := by
    intro s k i
    rw [← mem_indexer_items]
    constructor
    · intro h; exact Dict.mem_items_of_get?_ofItems _ _ _ h
    · intro h; exact Dict.get?_ofItems_of_mem _ hkeys _ _ h
  refine ⟨h1, ?_, ?_⟩
  · intro s
    constructor
    · intro hs
      obtain ⟨i, hi, rfl⟩ := List.mem_iff_getElem.1 hs
      obtain ⟨k, g, hk, hcount, _⟩ := (C08_groups_partition restr core).1 i hi
      have hig : i ∈ g.2 := by
        rw [← List.count_pos_iff]; omega
      have hrow : core[i] ∈ locRows core g.2 :=
        (mem_locRows _ _ _).2 ⟨i, hig, List.getElem?_eq_getElem hi⟩
      obtain ⟨j, hj, hjs⟩ := List.mem_iff_getElem.1 hrow
      refine ⟨(k, j), (h1 _ _ _).2 ⟨g.2, ?_, ?_⟩⟩
      · simp only [groups, List.getElem?_map, hk, Option.map_some]
      · rw [List.getElem?_eq_getElem hj, hjs]
    · rintro ⟨⟨k, i⟩, h⟩
      obtain ⟨indices, _, h2⟩ := (h1 _ _ _).1 h
      obtain ⟨j, _, hj⟩ := (mem_locRows _ _ _).1 (List.mem_of_getElem? h2)
      exact List.mem_of_getElem? hj
  · rintro s s' ⟨k, i⟩ h h'
    obtain ⟨a, ha, ha'⟩ := (h1 _ _ _).1 h
    obtain ⟨b, hb, hb'⟩ := (h1 _ _ _).1 h'
    rw [ha] at hb; cases hb
    rw [ha'] at hb'; cases hb'; rfl

/-- The created core state space has no duplicates (C01), so C03 applies to it. -/
example : ∃ core, createCore exampleSpec = some core ∧ core.Nodup ∧ 20 < core.length := by
  obtain ⟨core, h, h2, _⟩ := C01_core_nodup_sorted exampleSpec exampleSpec_wf
  refine ⟨core, h, h2, ?_⟩
  have : (createCore exampleSpec).map (fun c => decide (20 < c.length)) = some true := by
    decide +kernel
  rw [h] at this
  simpa using this

/-! ## C02: collecting the child states -/

/-- **C02.** Collecting the child states of any list of states of non-terminal periods which share a
choice set (as the states of a dense key do) never raises a `KeyError`; the location found for state
`i` and the `j`-th valid choice is the location of the state reached by the law of motion. The
restrictions contain the default formula of each choice with experience. -/
theorem C02_collecting_children_succeeds (spec : CoreSpec) (wf : spec.WF) (hl : spec.nLags ≤ 1)
    (hf : spec.filters = []) (core : List CoreState) (hc : createCore spec = some core)
    (restrCore restr : List (List (FrameFormula CoreState)))
    (hlen : restr.length = spec.nChoices)
    (hdef : ∀ (c : Nat) formulas, c < spec.starts.length → restr[c]? = some formulas →
      some (fun s => defaultInadmissible spec s c) ∈ formulas)
    (states : List CoreState) (hstates : ∀ s ∈ states, s ∈ core ∧ s.period + 1 < spec.nPeriods)
    (cs : List Bool) (hcs : ∀ s ∈ states, choiceSet restr s = cs) :
    let groups := (corePeriodChoice restrCore core).map Prod.snd
    ∃ m, collectChildIndices (createIndexer core groups) states cs = some m ∧
      ∀ (i : Nat) s, states[i]? = some s → ∀ (j : Nat) c, (validChoices cs)[j]? = some c →
        ∃ (row : List (Nat × Nat)) (k p : Nat) (indices : List Nat), m[i]? = some row ∧ row[j]? = some (k, p) ∧
          groups[k]? = some indices ∧ (locRows core indices)[p]? = some (lawOfMotion s c) := by
  intro groups
  obtain ⟨core', hc', hnd, _⟩ := C01_core_nodup_sorted spec wf
  rw [hc] at hc'; cases hc'
  obtain ⟨hloc, hall, _⟩ := C03_state_location_bijection restrCore core hnd
  have hchild : ∀ s ∈ states, ∀ c ∈ validChoices cs,
      ∃ l, (createIndexer core groups).get? (lawOfMotion s c) = some l := by
    intro s hs c hc'
    rw [← hall]
    simp only [validChoices, List.mem_filter, List.mem_range, decide_eq_true_eq] at hc'
    obtain ⟨hclt, hctrue⟩ := hc'
    have hset := hcs s hs
    have hcn : c < spec.nChoices := by
      rw [← hset] at hclt; simpa [choiceSet, hlen] using hclt
    refine C02_closed_under_admissible_choices spec wf hl hf core hc s (hstates s hs).1
      (hstates s hs).2 c hcn ?_
    by_cases hexp : c < spec.starts.length
    · rw [← hset] at hctrue
      obtain ⟨formulas, hfo, hno⟩ := ((C08_choice_set_exact restr s).2 c).1 hctrue
      exact hno _ (hdef c formulas hexp hfo)
    · have : spec.starts[c]? = none := by simp; omega
      simp [defaultInadmissible, this]
  obtain ⟨m, hm, _, hget⟩ := mapM_option_exists states
    (fun s => (validChoices cs).mapM fun c => (createIndexer core groups).get? (lawOfMotion s c))
    (fun s hs => by
      obtain ⟨row, hrow, _⟩ := mapM_option_exists (validChoices cs)
        (fun c => (createIndexer core groups).get? (lawOfMotion s c)) (hchild s hs)
      exact ⟨row, hrow⟩)
  refine ⟨m, hm, ?_⟩
  intro i s hi j c hj
  obtain ⟨row, hmi, hrow⟩ := hget i s hi
  obtain ⟨row', hrow', _, hgetr⟩ := mapM_option_exists (validChoices cs)
    (fun c => (createIndexer core groups).get? (lawOfMotion s c))
    (hchild s (List.mem_of_getElem? hi))
  rw [hrow] at hrow'; cases hrow'
  obtain ⟨⟨k, p⟩, hp, hget'⟩ := hgetr j c hj
  obtain ⟨indices, h1, h2⟩ := (hloc _ _ _).1 hget'
  exact ⟨row, k, p, indices, hmi, hp, h1, h2⟩

/-- Restrictions of the example model: the default formulas of the two choices with experience. -/
def exampleRestr : List (List (FrameFormula CoreState)) :=
  [[some fun s => defaultInadmissible exampleSpec s 0],
   [some fun s => defaultInadmissible exampleSpec s 1], []]

example : exampleRestr.length = exampleSpec.nChoices ∧
    (∀ (c : Nat) formulas, c < exampleSpec.starts.length → exampleRestr[c]? = some formulas →
      some (fun s => defaultInadmissible exampleSpec s c) ∈ formulas) ∧
    choiceSet exampleRestr ⟨1, [3, 0], [some 0]⟩ = [false, true, true] := by
  refine ⟨rfl, ?_, by decide⟩
  intro c formulas hc hf
  match c, hc with
  | 0, _ => simp [exampleRestr] at hf; subst hf; simp
  | 1, _ => simp [exampleRestr] at hf; subst hf; simp
  | c + 2, hc => simp [exampleSpec] at hc; omega

/-! ## C09 -/

/-- **C09.** File names determine the topic, the period, the choice set and the dense index, for all
topics without underscores and digits (the topics used are `states` and `transition`). -/
theorem C09_file_names_injective (topic topic' : List Char) (ht : '_' ∉ topic) (ht' : '_' ∉ topic')
    (c c' : Complex) (h : fileName topic c = fileName topic' c') : topic = topic' ∧ c = c' := by
  have hdig : ∀ n, ∀ x ∈ strNat n, x ≠ '_' := by
    intro n x hx hc; subst hc; exact absurd (strNat_isDigit n _ hx) (by decide)
  obtain ⟨p, cs, d⟩ := c
  obtain ⟨p', cs', d'⟩ := c'
  have htop : ∀ x ∈ topic, x ≠ '_' := fun x hx hc => ht (hc ▸ hx)
  have htop' : ∀ x ∈ topic', x ≠ '_' := fun x hx hc => ht' (hc ▸ hx)
  have hpq : ".parquet".toList = '.' :: "parquet".toList := rfl
  unfold fileName at h
  rw [hpq] at h
  cases d with
  | some d =>
    cases d' with
    | some d' =>
      obtain ⟨h1, _, h2⟩ := split_unique (· ≠ '_') _ _ _ _ _ _ htop htop' (by simp) (by simp) h
      obtain ⟨h3, _, h4⟩ :=
        split_unique (· ≠ '_') _ _ _ _ _ _ (hdig p) (hdig p') (by simp) (by simp) h2
      obtain ⟨h5, _, h6⟩ := split_unique (fun c => c.isDigit = true) _ _ _ _ _ _
        (bits_isDigit cs) (bits_isDigit cs') (by decide) (by decide) h4
      obtain ⟨h7, _, _⟩ := split_unique (fun c => c.isDigit = true) _ _ _ _ _ _
        (strNat_isDigit d) (strNat_isDigit d') (by decide) (by decide) h6
      exact ⟨h1, by rw [strNat_injective _ _ h3, bits_injective cs cs' h5, strNat_injective _ _ h7]⟩
    | none =>
      obtain ⟨_, _, h2⟩ := split_unique (· ≠ '_') _ _ _ _ _ _ htop htop' (by simp) (by simp) h
      obtain ⟨_, _, h4⟩ :=
        split_unique (· ≠ '_') _ _ _ _ _ _ (hdig p) (hdig p') (by simp) (by simp) h2
      obtain ⟨_, h6, _⟩ := split_unique (fun c => c.isDigit = true) _ _ _ _ _ _
        (bits_isDigit cs) (bits_isDigit cs') (by decide) (by decide) h4
      exact absurd h6 (by decide)
  | none =>
    cases d' with
    | some d' =>
      obtain ⟨_, _, h2⟩ := split_unique (· ≠ '_') _ _ _ _ _ _ htop htop' (by simp) (by simp) h
      obtain ⟨_, _, h4⟩ :=
        split_unique (· ≠ '_') _ _ _ _ _ _ (hdig p) (hdig p') (by simp) (by simp) h2
      obtain ⟨_, h6, _⟩ := split_unique (fun c => c.isDigit = true) _ _ _ _ _ _
        (bits_isDigit cs) (bits_isDigit cs') (by decide) (by decide) h4
      exact absurd h6 (by decide)
    | none =>
      obtain ⟨h1, _, h2⟩ := split_unique (· ≠ '_') _ _ _ _ _ _ htop htop' (by simp) (by simp) h
      obtain ⟨h3, _, h4⟩ :=
        split_unique (· ≠ '_') _ _ _ _ _ _ (hdig p) (hdig p') (by simp) (by simp) h2
      obtain ⟨h5, _, _⟩ := split_unique (fun c => c.isDigit = true) _ _ _ _ _ _
        (bits_isDigit cs) (bits_isDigit cs') (by decide) (by decide) h4
      exact ⟨h1, by rw [strNat_injective _ _ h3, bits_injective cs cs' h5]⟩

/-- Both topics used by the code satisfy the hypothesis; an example of a file name. -/
example : '_' ∉ "states".toList ∧ '_' ∉ "transition".toList ∧
    fileName "states".toList ⟨12, [true, false, true], some 10⟩ =
      "states_12_101_10.parquet".toList := by decide

end Respy
