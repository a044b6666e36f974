import Verif.Lemmas.Covariates
import Mathlib.Data.List.Basic

/-! # Properties of `identify_necessary_covariates` -/

namespace Respy

/-! ### C54 Finding the covariates of a variable always succeeds -/

/-- A variable which is reached from the given ones by `n` steps to dependencies. -/
inductive ReachedIn (definitions : Dict Str CovariateDef) (start : List Str) : Nat → Str → Prop
  | start (k : Str) : k ∈ start → ReachedIn definitions start 0 k
  | step (n : Nat) (c : Str) (d : CovariateDef) (k : Str) : ReachedIn definitions start n c →
      definitions.get? c = some d → k ∈ d.dependsOn → ReachedIn definitions start (n + 1) k

/-- A covariate with dependencies. -/
def HasDependencies (definitions : Dict Str CovariateDef) (c : Str) : Prop :=
  ∃ d, definitions.get? c = some d ∧ d.dependsOn ≠ []

theorem necessaryStep_of_deps (definitions : Dict Str CovariateDef) (state : List Str × List Str)
    (c : Str) (d : CovariateDef) (hd : definitions.get? c = some d) (hne : d.dependsOn ≠ []) :
    necessaryStep definitions state c = .ok (state.1 ∪ d.dependsOn, state.2 ∪ d.dependsOn) := by
  unfold necessaryStep
  rw [hd]
  obtain ⟨f, deps⟩ := d
  cases deps with
  | nil => exact absurd rfl hne
  | cons x xs => rfl

theorem necessaryStep_of_leaf (definitions : Dict Str CovariateDef) (state : List Str × List Str)
    (c : Str) (hc : ¬ HasDependencies definitions c) (hm : c ∈ state.1) :
    necessaryStep definitions state c = .ok (state.1.erase c, state.2) := by
  unfold necessaryStep
  split
  · rename_i h
    exact absurd ⟨_, h, by simp⟩ hc
  · rw [if_pos hm]

/-- Dependencies are sets, variables without dependencies are reached in one number of steps only, and there are no cycles. -/
structure Graded (definitions : Dict Str CovariateDef) (start : List Str) (bound : Nat) : Prop where
  nodup : ∀ c d, definitions.get? c = some d → d.dependsOn.Nodup
  leaf : ∀ k n m, ¬ HasDependencies definitions k → ReachedIn definitions start n k →
    ReachedIn definitions start m k → n = m
  finite : ∀ n k, ReachedIn definitions start n k → n < bound

/-- The state before pass `n`. -/
structure NecessaryInv (definitions : Dict Str CovariateDef) (start : List Str) (n : Nat)
    (state : List Str × List Str) : Prop where
  nodup₁ : state.1.Nodup
  nodup₂ : state.2.Nodup
  new : ∀ k, k ∈ state.2 ↔ ReachedIn definitions start n k
  all : ∀ k, k ∈ state.1 ↔ (∃ m ≤ n, ReachedIn definitions start m k) ∧
    (HasDependencies definitions k ∨ ReachedIn definitions start n k)

theorem necessaryPass_spec (definitions : Dict Str CovariateDef) (start : List Str) (bound n : Nat)
    (hg : Graded definitions start bound) (state : List Str × List Str)
    (h : NecessaryInv definitions start n state) (visit : List Str) (hp : visit.Perm state.2) :
    ∃ state', visit.foldlM (necessaryStep definitions) (state.1, []) = .ok state' ∧
      NecessaryInv definitions start (n + 1) state' := by
  have key : ∀ (todo done : List Str) (acc : List Str × List Str), (done ++ todo).Nodup →
      (∀ k ∈ done ++ todo, ReachedIn definitions start n k) →
      acc.1.Nodup → acc.2.Nodup →
      (∀ k, k ∈ acc.2 ↔ ∃ c ∈ done, ∃ d, definitions.get? c = some d ∧ k ∈ d.dependsOn) →
      (∀ k, k ∈ acc.1 ↔ (k ∈ state.1 ∧ ¬ (k ∈ done ∧ ¬ HasDependencies definitions k)) ∨ k ∈ acc.2) →
      ∃ acc', todo.foldlM (necessaryStep definitions) acc = .ok acc' ∧ acc'.1.Nodup ∧ acc'.2.Nodup ∧
        (∀ k, k ∈ acc'.2 ↔ ∃ c ∈ done ++ todo, ∃ d, definitions.get? c = some d ∧ k ∈ d.dependsOn) ∧
        (∀ k, k ∈ acc'.1 ↔ (k ∈ state.1 ∧ ¬ (k ∈ done ++ todo ∧ ¬ HasDependencies definitions k)) ∨
          k ∈ acc'.2) := by
    intro todo
    induction todo with
    | nil =>
      intro done acc _ _ h1 h2 h3 h4
      exact ⟨acc, rfl, h1, h2, by simpa using h3, by simpa using h4⟩
    | cons c todo ih =>
      intro done acc hnd hr h1 h2 h3 h4
      rw [List.foldlM_cons]
      have hassoc : done ++ c :: todo = (done ++ [c]) ++ todo := by simp
      have hcr := hr c (by simp)
      have hcs : c ∈ state.1 := by
        rw [h.all]
        exact ⟨⟨n, le_refl _, hcr⟩, Or.inr hcr⟩
      have hcd : c ∉ done := by
        intro hcd
        exact (List.nodup_append.1 hnd).2.2 c hcd c (by simp) rfl
      by_cases hl : HasDependencies definitions c
      · obtain ⟨d, hd, hne⟩ := hl
        rw [necessaryStep_of_deps _ _ _ d hd hne]
        rw [hassoc] at hnd hr ⊢
        refine ih (done ++ [c]) _ hnd hr (.union _ (hg.nodup c d hd)) (.union _ (hg.nodup c d hd)) ?_ ?_
        · intro k
          simp only [List.mem_union_iff, h3, List.mem_append, List.mem_singleton]
          constructor
          · rintro (⟨c', hc', d', hd', hk⟩ | hk)
            · exact ⟨c', Or.inl hc', d', hd', hk⟩
            · exact ⟨c, Or.inr rfl, d, hd, hk⟩
          · rintro ⟨c', hc' | rfl, d', hd', hk⟩
            · exact Or.inl ⟨c', hc', d', hd', hk⟩
            · rw [hd] at hd'; cases hd'; exact Or.inr hk
        · intro k
          simp only [List.mem_union_iff, h4, List.mem_append, List.mem_singleton]
          have hkc : k = c → HasDependencies definitions k := by rintro rfl; exact ⟨d, hd, hne⟩
          constructor
          · rintro ((⟨hk1, hk2⟩ | hk) | hk)
            · exact Or.inl ⟨hk1, fun ⟨ha, hb⟩ => ha.elim (fun ha => hk2 ⟨ha, hb⟩) fun ha => hb (hkc ha)⟩
            · exact Or.inr (Or.inl hk)
            · exact Or.inr (Or.inr hk)
          · rintro (⟨hk1, hk2⟩ | hk | hk)
            · exact Or.inl (Or.inl ⟨hk1, fun ⟨ha, hb⟩ => hk2 ⟨Or.inl ha, hb⟩⟩)
            · exact Or.inl (Or.inr hk)
            · exact Or.inr hk
      · have hin : c ∈ acc.1 := (h4 c).2 (Or.inl ⟨hcs, fun ⟨ha, _⟩ => hcd ha⟩)
        have hc2 : c ∉ acc.2 := by
          intro hc2
          obtain ⟨c', hc', d', hd', hk⟩ := (h3 c).1 hc2
          have := hg.leaf c n (n + 1) hl hcr (.step n c' d' c (hr c' (by simp [hc'])) hd' hk)
          omega
        rw [necessaryStep_of_leaf _ _ _ hl hin]
        rw [hassoc] at hnd hr ⊢
        refine ih (done ++ [c]) _ hnd hr (h1.erase _) h2 ?_ ?_
        · intro k
          rw [h3]
          simp only [List.mem_append, List.mem_singleton]
          constructor
          · rintro ⟨c', hc', hh⟩
            exact ⟨c', Or.inl hc', hh⟩
          · rintro ⟨c', hc' | rfl, d', hd', hk⟩
            · exact ⟨c', hc', d', hd', hk⟩
            · exact absurd ⟨d', hd', List.ne_nil_of_mem hk⟩ hl
        · intro k
          dsimp only
          rw [h1.mem_erase_iff, h4]
          simp only [List.mem_append, List.mem_singleton]
          constructor
          · rintro ⟨hne, ⟨hk1, hk2⟩ | hk⟩
            · exact Or.inl ⟨hk1, fun ⟨ha, hb⟩ => ha.elim (fun ha => hk2 ⟨ha, hb⟩) hne⟩
            · exact Or.inr hk
          · rintro (⟨hk1, hk2⟩ | hk)
            · refine ⟨?_, Or.inl ⟨hk1, fun ⟨ha, hb⟩ => hk2 ⟨Or.inl ha, hb⟩⟩⟩
              rintro rfl
              exact hk2 ⟨Or.inr rfl, hl⟩
            · refine ⟨?_, Or.inr hk⟩
              rintro rfl
              exact hc2 hk
  obtain ⟨acc', h1, h2, h3, h4, h5⟩ := key visit [] (state.1, []) (by simpa using hp.nodup_iff.2 h.nodup₂)
    (by
      intro k hk
      rw [List.nil_append] at hk
      exact (h.new k).1 (hp.mem_iff.1 hk))
    h.nodup₁ List.nodup_nil (by simp) (by simp)
  have hvis : ∀ k, k ∈ visit ↔ ReachedIn definitions start n k := fun k => by
    rw [hp.mem_iff, h.new]
  simp only [List.nil_append] at h4 h5
  have hnew : ∀ k, k ∈ acc'.2 ↔ ReachedIn definitions start (n + 1) k := by
    intro k
    rw [h4]
    constructor
    · rintro ⟨c, hc, d, hd, hk⟩
      exact .step n c d k ((hvis c).1 hc) hd hk
    · intro hk
      cases hk with
      | step _ c d _ hc hd hk => exact ⟨c, (hvis c).2 hc, d, hd, hk⟩
  refine ⟨acc', h1, h2, h3, hnew, fun k => ?_⟩
  rw [h5, hnew, hvis, h.all]
  constructor
  · rintro (⟨⟨⟨m, hm, hr⟩, hk1⟩, hk2⟩ | hk)
    · refine ⟨⟨m, by omega, hr⟩, Or.inl ?_⟩
      by_contra hno
      rcases hk1 with hk1 | hk1
      · exact hno hk1
      · exact hk2 ⟨hk1, hno⟩
    · exact ⟨⟨n + 1, le_refl _, hk⟩, Or.inr hk⟩
  · rintro ⟨⟨m, hm, hr⟩, hk⟩
    by_cases hk' : ReachedIn definitions start (n + 1) k
    · exact Or.inr hk'
    · have hh := hk.resolve_right hk'
      have hmn : m ≤ n := by
        rcases Nat.lt_or_ge n m with h' | h'
        · have : m = n + 1 := by omega
          subst this
          exact absurd hr hk'
        · exact h'
      exact Or.inl ⟨⟨⟨m, hmn, hr⟩, Or.inl hh⟩, fun ⟨_, hb⟩ => hb hh⟩

theorem necessaryLoop_spec (definitions : Dict Str CovariateDef) (order : Nat → List Str → List Str)
    (ho : ∀ n l, (order n l).Perm l) (start : List Str) (bound : Nat)
    (hg : Graded definitions start bound) (fuel n : Nat) (hn : n ≤ bound) (hf : bound < fuel + n)
    (state : List Str × List Str) (h : NecessaryInv definitions start n state) :
    ∃ r, necessaryLoop definitions order fuel n state = .ok r ∧ r.Nodup ∧
      ∀ k, k ∈ r ↔ (∃ m, ReachedIn definitions start m k) ∧ HasDependencies definitions k := by
  have hpre : ∀ (m : Nat) k, ReachedIn definitions start m k → ∀ j ≤ m,
      ∃ k', ReachedIn definitions start j k' := by
    intro m k hk
    induction hk with
    | start k hk => intro j hj; exact ⟨k, by rw [Nat.le_zero.1 hj]; exact .start k hk⟩
    | step m c d k hc hd hk ih =>
      intro j hj
      rcases Nat.lt_or_ge m j with h' | h'
      · exact ⟨k, by rw [show j = m + 1 by omega]; exact .step m c d k hc hd hk⟩
      · exact ih j h'
  have hstop : ∀ (n : Nat) (state : List Str × List Str), NecessaryInv definitions start n state →
      state.2 = [] → state.1.Nodup ∧
      ∀ k, k ∈ state.1 ↔ (∃ m, ReachedIn definitions start m k) ∧ HasDependencies definitions k := by
    intro n state h he
    refine ⟨h.nodup₁, fun k => ?_⟩
    have hnone : ∀ k, ¬ ReachedIn definitions start n k := fun k hk => by
      have := (h.new k).2 hk
      rw [he] at this
      simp at this
    rw [h.all]
    constructor
    · rintro ⟨⟨m, _, hr⟩, hk⟩
      exact ⟨⟨m, hr⟩, hk.resolve_right (hnone k)⟩
    · rintro ⟨⟨m, hr⟩, hk⟩
      refine ⟨⟨m, ?_, hr⟩, Or.inl hk⟩
      by_contra hlt
      obtain ⟨k', hk'⟩ := hpre m k hr n (by omega)
      exact hnone k' hk'
  induction fuel generalizing n state with
  | zero =>
    exfalso
    omega
  | succ fuel ih =>
    obtain ⟨dependents, newDependents⟩ := state
    rw [necessaryLoop]
    by_cases he : newDependents = []
    · rw [if_pos he]
      obtain ⟨h1, h2⟩ := hstop n _ h he
      exact ⟨dependents, rfl, h1, h2⟩
    · rw [if_neg he]
      obtain ⟨state', h1, h2⟩ := necessaryPass_spec definitions start bound n hg _ h _
        (ho n newDependents)
      rw [h1]
      obtain ⟨k, hk⟩ := List.exists_mem_of_ne_nil _ he
      have := hg.finite n k ((h.new k).1 hk)
      exact ih (n + 1) (by omega) (by omega) state' h2

/-- Whatever the order in which sets are visited: if every variable without dependencies is reached by chains
of one length only and there are no cycles, the loop ends without an error and the result consists of
all covariates with dependencies which are needed, with their definitions.
Missing: other definitions, see `C54_false`, and covariates without dependencies, see
`C54_constant_false`. -/
theorem C54_partial (definitions : Dict Str CovariateDef) (order : Nat → List Str → List Str)
    (ho : ∀ n l, (order n l).Perm l) (dependents : List Str) (bound : Nat)
    (hg : Graded definitions dependents bound) :
    ∃ fuel r, identifyNecessary definitions order fuel dependents = .ok r ∧ (r.map Prod.fst).Nodup ∧
      (∀ k, k ∈ r.map Prod.fst ↔
        (∃ n, ReachedIn definitions dependents n k) ∧ HasDependencies definitions k) ∧
      ∀ k d, (k, d) ∈ r → d = definitions.get? k ∧ d.isSome = true := by
  have h0 : NecessaryInv definitions dependents 0 (dependents.dedup, dependents.dedup) := by
    have hz : ∀ k, k ∈ dependents.dedup ↔ ReachedIn definitions dependents 0 k := by
      intro k
      rw [List.mem_dedup]
      exact ⟨fun h => .start k h, fun h => by cases h; assumption⟩
    refine ⟨List.nodup_dedup _, List.nodup_dedup _, hz, fun k => ?_⟩
    rw [hz]
    constructor
    · intro h; exact ⟨⟨0, le_refl _, h⟩, Or.inr h⟩
    · rintro ⟨⟨m, hm, h⟩, _⟩
      rw [Nat.le_zero.1 hm] at h
      exact h
  obtain ⟨r, h1, h2, h3⟩ := necessaryLoop_spec definitions order ho dependents bound hg (bound + 1) 0
    (by omega) (by omega) _ h0
  refine ⟨bound + 1, r.map fun dep => (dep, definitions.get? dep), ?_, ?_, ?_, ?_⟩
  · unfold identifyNecessary
    rw [h1]
  · simpa [Function.comp_def] using h2
  · intro k
    simp only [List.map_map, Function.comp_def, List.map_id']
    exact h3 k
  · intro k d hkd
    obtain ⟨dep, hdep, he⟩ := List.mem_map.1 hkd
    cases he
    refine ⟨rfl, ?_⟩
    obtain ⟨_, d, hd, _⟩ := (h3 k).1 hdep
    rw [hd]; rfl

/-- Definitions without cycles, as processed by respy, for which the order of the set decides whether there
is a `KeyError`. -/
theorem C54_false :
    ∃ (covariates : Dict Str Str) (G : CovariateGroups) (dependents : List Str)
      (order order' : Nat → List Str → List Str),
      (∀ n l, (order n l).Perm l) ∧ (∀ n l, (order' n l).Perm l) ∧
      separateCovariates covariates ["period".toList] [] = some G ∧
      (∀ n k, ReachedIn G.all dependents n k → n ≤ 2) ∧
      identifyNecessary G.all order 10 dependents = .error .keyError ∧
      (identifyNecessary G.all order' 10 dependents).toOption.isSome = true := by
  refine ⟨[("old".toList, "age > period".toList), ("age".toList, "period + 16".toList)],
    ⟨_, _, _, [("old".toList, ⟨"age > period".toList, ["age".toList, "period".toList]⟩),
      ("age".toList, ⟨"period + 16".toList, ["period".toList]⟩)]⟩, ["old".toList],
    fun _ l => l, fun _ l => l.reverse, fun _ _ => List.Perm.refl _, fun _ l => List.reverse_perm l,
    by rfl, ?_, by decide +kernel, by decide +kernel⟩
  have h1 : Dict.get? [("old".toList, (⟨"age > period".toList, ["age".toList, "period".toList]⟩ :
      CovariateDef)), ("age".toList, ⟨"period + 16".toList, ["period".toList]⟩)] "age".toList =
      some ⟨"period + 16".toList, ["period".toList]⟩ := by decide +kernel
  have h2 : Dict.get? [("old".toList, (⟨"age > period".toList, ["age".toList, "period".toList]⟩ :
      CovariateDef)), ("age".toList, ⟨"period + 16".toList, ["period".toList]⟩)] "period".toList =
      none := by decide +kernel
  have h3 : Dict.get? [("old".toList, (⟨"age > period".toList, ["age".toList, "period".toList]⟩ :
      CovariateDef)), ("age".toList, ⟨"period + 16".toList, ["period".toList]⟩)] "old".toList =
      some ⟨"age > period".toList, ["age".toList, "period".toList]⟩ := by decide +kernel
  have key : ∀ n k, ReachedIn [("old".toList, (⟨"age > period".toList, ["age".toList, "period".toList]⟩ :
      CovariateDef)), ("age".toList, ⟨"period + 16".toList, ["period".toList]⟩)] ["old".toList] n k →
      (n = 0 ∧ k = "old".toList) ∨ (n = 1 ∧ k = "age".toList) ∨ (n ≤ 2 ∧ k = "period".toList) := by
    intro n k h
    induction h with
    | start k hk => exact Or.inl ⟨rfl, List.mem_singleton.1 hk⟩
    | step n c d k _ hd hk ih =>
      rcases ih with ⟨rfl, rfl⟩ | ⟨rfl, rfl⟩ | ⟨_, rfl⟩
      · rw [h3] at hd
        cases hd
        rcases List.mem_cons.1 hk with rfl | hk
        · exact Or.inr (Or.inl ⟨rfl, rfl⟩)
        · exact Or.inr (Or.inr ⟨by omega, List.mem_singleton.1 hk⟩)
      · rw [h1] at hd
        cases hd
        exact Or.inr (Or.inr ⟨by omega, List.mem_singleton.1 hk⟩)
      · rw [h2] at hd
        cases hd
  intro n k h
  rcases key n k h with ⟨rfl, _⟩ | ⟨rfl, _⟩ | ⟨h, _⟩ <;> omega

/-- A chain of two covariates meets the hypotheses of `C54_partial`. -/
example : Graded [("sq".toList, ⟨"age * age".toList, ["age".toList]⟩),
    ("age".toList, ⟨"period + 1".toList, ["period".toList]⟩)] ["sq".toList] 3 := by
  have h1 : Dict.get? [("sq".toList, (⟨"age * age".toList, ["age".toList]⟩ : CovariateDef)),
      ("age".toList, ⟨"period + 1".toList, ["period".toList]⟩)] "age".toList =
      some ⟨"period + 1".toList, ["period".toList]⟩ := by decide +kernel
  have h2 : Dict.get? [("sq".toList, (⟨"age * age".toList, ["age".toList]⟩ : CovariateDef)),
      ("age".toList, ⟨"period + 1".toList, ["period".toList]⟩)] "period".toList = none := by
    decide +kernel
  have h3 : Dict.get? [("sq".toList, (⟨"age * age".toList, ["age".toList]⟩ : CovariateDef)),
      ("age".toList, ⟨"period + 1".toList, ["period".toList]⟩)] "sq".toList =
      some ⟨"age * age".toList, ["age".toList]⟩ := by decide +kernel
  have hne : "sq".toList ≠ "age".toList ∧ "age".toList ≠ "period".toList ∧
      "sq".toList ≠ "period".toList := by decide +kernel
  have key : ∀ n k, ReachedIn [("sq".toList, (⟨"age * age".toList, ["age".toList]⟩ : CovariateDef)),
      ("age".toList, ⟨"period + 1".toList, ["period".toList]⟩)] ["sq".toList] n k →
      (n = 0 ∧ k = "sq".toList) ∨ (n = 1 ∧ k = "age".toList) ∨ (n = 2 ∧ k = "period".toList) := by
    intro n k h
    induction h with
    | start k hk => exact Or.inl ⟨rfl, List.mem_singleton.1 hk⟩
    | step n c d k _ hd hk ih =>
      rcases ih with ⟨rfl, rfl⟩ | ⟨rfl, rfl⟩ | ⟨rfl, rfl⟩
      · rw [h3] at hd
        cases hd
        exact Or.inr (Or.inl ⟨rfl, List.mem_singleton.1 hk⟩)
      · rw [h1] at hd
        cases hd
        exact Or.inr (Or.inr ⟨rfl, List.mem_singleton.1 hk⟩)
      · rw [h2] at hd
        cases hd
  refine ⟨?_, ?_, ?_⟩
  · intro c d hd
    have := Dict.mem_of_get? _ _ _ hd
    simp only [List.mem_cons, Prod.mk.injEq, List.not_mem_nil, or_false] at this
    rcases this with ⟨_, rfl⟩ | ⟨_, rfl⟩ <;> exact List.nodup_singleton _
  · intro k n m _ hn hm
    rcases key n k hn with ⟨rfl, rfl⟩ | ⟨rfl, rfl⟩ | ⟨rfl, rfl⟩ <;>
    rcases key m _ hm with ⟨rfl, h⟩ | ⟨rfl, h⟩ | ⟨rfl, h⟩ <;>
    first
      | rfl
      | exact absurd h hne.1
      | exact absurd h hne.2.1
      | exact absurd h hne.2.2
      | exact absurd h.symm hne.1
      | exact absurd h.symm hne.2.1
      | exact absurd h.symm hne.2.2
  · intro n k hn
    rcases key n k hn with ⟨rfl, _⟩ | ⟨rfl, _⟩ | ⟨rfl, _⟩ <;> omega

/-- A covariate without dependencies is not part of the result although it is asked for. -/
theorem C54_constant_false :
    ∃ (definitions : Dict Str CovariateDef) (dependents : List Str) (c : Str),
      c ∈ dependents ∧ (definitions.get? c).isSome = true ∧
      ∀ order : Nat → List Str → List Str, (∀ n l, (order n l).Perm l) →
        identifyNecessary definitions order 10 dependents = .ok [] := by
  refine ⟨[("constant".toList, ⟨"1".toList, []⟩)], ["constant".toList], "constant".toList, by simp,
    by decide +kernel, fun order ho => ?_⟩
  have h1 : order 0 ["constant".toList] = ["constant".toList] := List.perm_singleton.1 (ho 0 _)
  have h2 : (["constant".toList] : List Str).dedup = ["constant".toList] := by decide +kernel
  unfold identifyNecessary
  rw [h2, necessaryLoop, if_neg (by simp), h1]
  have h3 : (["constant".toList] : List Str).foldlM
      (necessaryStep [("constant".toList, ⟨"1".toList, []⟩)]) (["constant".toList], []) =
      .ok ([], []) := by decide +kernel
  rw [h3]
  rfl

/-- A cycle never ends. -/
theorem C54_cycle (fuel : Nat) :
    identifyNecessary [("exp".toList, ⟨"exp_a + exp_b".toList, ["exp".toList]⟩)] (fun _ l => l) fuel
      ["exp".toList] = .error .outOfFuel := by
  have hstep : ∀ (fuel pass : Nat),
      necessaryLoop [("exp".toList, ⟨"exp_a + exp_b".toList, ["exp".toList]⟩)] (fun _ l => l) fuel pass
        (["exp".toList], ["exp".toList]) = .error .outOfFuel := by
    intro fuel
    induction fuel with
    | zero => intro pass; rfl
    | succ fuel ih =>
      intro pass
      rw [necessaryLoop, if_neg (by simp)]
      have h3 : (["exp".toList] : List Str).foldlM
          (necessaryStep [("exp".toList, ⟨"exp_a + exp_b".toList, ["exp".toList]⟩)])
          (["exp".toList], []) = .ok (["exp".toList], ["exp".toList]) := by decide +kernel
      rw [h3]
      exact ih (pass + 1)
  unfold identifyNecessary
  have h2 : (["exp".toList] : List Str).dedup = ["exp".toList] := by decide +kernel
  rw [h2, hstep]

end Respy
