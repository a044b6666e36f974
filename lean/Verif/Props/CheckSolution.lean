import Verif.Model.CheckSolution
import Verif.Props.CreationProcessed

/-!
# C88: the check of a solution

`check_model_solution` accepts the state space of every model with at most one lag if the values are finite. It rejects
all models with more lags.
-/

namespace Respy

/-- All values of a solution are finite. -/
def SolutionValues.Finite {K : Type _} (finite : K → Bool) (values : SolutionValues K) : Prop :=
  (∀ key rows, (key, rows) ∈ values.wages ∨ (key, rows) ∈ values.nonpecs → ∀ row ∈ rows, ∀ x ∈ row, finite x = true) ∧
  ∀ key row, (key, row) ∈ values.expectedValueFunctions → ∀ x ∈ row, finite x = true

/-- The indexer has as many entries as there are states. -/
theorem createIndexer_length (restr : List (List (FrameFormula CoreState))) (core : List CoreState)
    (hnd : core.Nodup) :
    (createIndexer core ((corePeriodChoice restr core).map Prod.snd)).length = core.length := by
  obtain ⟨_, hall, _⟩ := C03_state_location_bijection restr core hnd
  have hperm : (Dict.keys (createIndexer core ((corePeriodChoice restr core).map Prod.snd))).Perm core := by
    refine (List.perm_ext_iff_of_nodup (Dict.nodup_keys_ofItems _) hnd).2 fun s => ?_
    rw [hall s]
    constructor
    · intro h
      cases hg : Dict.get? (createIndexer core ((corePeriodChoice restr core).map Prod.snd)) s with
      | none => exact absurd h ((Dict.get?_eq_none_iff _ _).1 hg)
      | some l => exact ⟨l, rfl⟩
    · rintro ⟨l, h⟩
      by_contra hno
      have h' := h.symm.trans ((Dict.get?_eq_none_iff _ _).2 hno)
      cases h'
  rw [← hperm.length_eq]
  simp [Dict.keys]

theorem allFinite_iff {V : Type _} (finite : V → Bool) (attr : Dict Nat V) :
    allFinite finite attr = true ↔ ∀ key v, (key, v) ∈ attr → finite v = true := by
  simp [allFinite]

theorem experiencesWithinMax_of (maxExp : List Nat) (core : List CoreState)
    (h : ∀ s ∈ core, List.Forall₂ (· ≤ ·) s.exp maxExp) : experiencesWithinMax maxExp core = true := by
  unfold experiencesWithinMax
  rw [List.all_eq_true]
  rintro ⟨m, i⟩ hmi
  rw [List.all_eq_true]
  intro s hs
  obtain ⟨hi, hm⟩ : i < maxExp.length ∧ maxExp[i]? = some m := by
    have := List.mem_zipIdx_iff_getElem?.1 hmi
    exact ⟨(List.getElem?_eq_some_iff.1 this).1, this⟩
  have hlt : i < s.exp.length := by rw [(h s hs).length_eq]; exact hi
  have h2 := (List.forall₂_iff_get.1 (h s hs)).2 i hlt hi
  simp only [List.getElem?_eq_getElem hlt]
  rw [List.getElem?_eq_getElem hi] at hm
  cases hm
  exact decide_eq_true h2

theorem mapM_pyMax (starts : List (List Nat)) (h : ∀ l ∈ starts, l ≠ []) :
    ∃ ms, starts.mapM pyMax = some ms ∧ List.Forall₂ (· ∈ ·) ms starts ∧
      ∀ init : List Nat, List.Forall₂ (· ∈ ·) init starts → init.sum ≤ ms.sum := by
  induction starts with
  | nil => exact ⟨[], rfl, .nil, fun init hi => by cases hi; simp⟩
  | cons l ls ih =>
    obtain ⟨ms, h1, h2, h3⟩ := ih fun x hx => h x (List.mem_cons_of_mem _ hx)
    obtain ⟨m, h4, h5, h6⟩ := pyMax_spec l (h l List.mem_cons_self)
    refine ⟨m :: ms, by rw [List.mapM_cons, h4, h1]; rfl, .cons h5 h2, ?_⟩
    intro init hi
    cases hi with
    | cons ha hb =>
      have := h6 _ ha
      have := h3 _ hb
      simp only [List.sum_cons]
      omega

theorem sum_zipWith_add : ∀ a b : List Nat, a.length = b.length → (List.zipWith (· + ·) a b).sum = a.sum + b.sum
  | [], [], _ => rfl
  | x :: xs, y :: ys, h => by
    simp only [List.zipWith_cons_cons, List.sum_cons, sum_zipWith_add xs ys (by simpa using h)]
    omega

/-- **C88.** In a model with at most one lag, the check passes for the state space (and for every part of it) if and only
if the values are finite. Periods plus initial experiences have to fit into eight bits, where `add` is the sum. -/
theorem C88_check_passes_iff_finite_partial {K : Type _} (add : Nat → Nat → Nat)
    (hadd : ∀ a b, a + b < 256 → add a b = a + b) (finite : K → Bool) (spec : CoreSpec) (wf : spec.WF)
    (hl : spec.nLags ≤ 1)
    (hfit : ∀ init : List Nat, List.Forall₂ (· ∈ ·) init spec.starts → spec.nPeriods + init.sum ≤ 256)
    (core : List CoreState) (hc : createCore spec = some core) (part : List CoreState) (hnd : part.Nodup)
    (hsub : ∀ s ∈ part, s ∈ core) (restr : List (List (FrameFormula CoreState))) (values : SolutionValues K) :
    checkModelSolution add finite spec part (createIndexer part ((corePeriodChoice restr part).map Prod.snd)) values =
        some true ↔ values.Finite finite := by
  have hfeas := fun s hs => (C05_core_mem_iff spec wf hl core hc s).1 (hsub s hs)
  obtain ⟨ms, h1, h2, h3⟩ := mapM_pyMax spec.starts wf.nonempty
  have c1 : (part.all fun s => decide (s.period < spec.nPeriods)) = true :=
    List.all_eq_true.2 fun s hs => decide_eq_true (hfeas s hs).1
  have c2 : (part.all fun s => decide (s.exp.sum ≤ add s.period ms.sum)) = true := by
    refine List.all_eq_true.2 fun s hs => decide_eq_true ?_
    obtain ⟨g1, ⟨init, extra, g2, g3, g4, g5, _⟩, _⟩ := hfeas s hs
    have := hfit ms h2
    have := h3 init g2
    rw [hadd _ _ (by omega), g4, sum_zipWith_add _ _ (by rw [g3]; exact g2.length_eq)]
    omega
  have c3 : experiencesWithinMax spec.maxExp part = true :=
    experiencesWithinMax_of _ _ fun s hs => (hfeas s hs).2.2.1
  have c4 : (decide (spec.nLags = 0) || part.all (lagsInRange spec.nChoices)) = true := by
    rw [Bool.or_eq_true]
    refine Or.inr (List.all_eq_true.2 fun s hs => List.all_eq_true.2 fun l hl => ?_)
    obtain ⟨c, hc, rfl⟩ := (hfeas s hs).2.2.2.2 l hl
    exact decide_eq_true hc
  have c5 : part.all rowFinite = true := by
    refine List.all_eq_true.2 fun s hs => List.all_eq_true.2 fun l hl => ?_
    obtain ⟨c, _, rfl⟩ := (hfeas s hs).2.2.2.2 l hl
    rfl
  unfold checkModelSolution
  rw [h1, Option.map_some, Option.some.injEq, c1, c2, c3, c4, c5, createIndexer_length restr part hnd]
  simp only [hnd, decide_true, Bool.true_and, Bool.and_eq_true, allFinite_iff, List.all_eq_true]
  constructor
  · rintro ⟨⟨h1, h2⟩, h3⟩
    exact ⟨fun key rows h => h.elim (h1 key rows) (h2 key rows), h3⟩
  · rintro ⟨h1, h2⟩
    exact ⟨⟨fun key rows h => h1 key rows (Or.inl h), fun key rows h => h1 key rows (Or.inr h)⟩, h2⟩

/-- **C88.** The state space of every accepted model which is created passes the check if and only if the values are
finite. -/
theorem C88_accepted_models_pass_partial {K : Type _} {env : ProcessEnv} {m : UserModel} {p : Processed}
    {ev : FormulaEval} {core : List CoreState} (add : Nat → Nat → Nat)
    (hadd : ∀ a b, a + b < 256 → add a b = a + b) (finite : K → Bool) (hp : processModel env m = some p)
    (hs : p.Described m ev core) (bt : Built) (h : buildSpace (p.buildSpec ev) = some bt)
    (hfit : ∀ init : List Nat, List.Forall₂ (· ∈ ·) init (p.buildSpec ev).core.starts → p.nPeriods + init.sum ≤ 256)
    (values : SolutionValues K) :
    checkModelSolution add finite (p.buildSpec ev).core bt.core bt.indexer values = some true ↔
      values.Finite finite := by
  obtain ⟨covs, hfrom⟩ := processModel_from env m p hp
  have hspec := hs.spec hfrom
  obtain ⟨core', hc, hnd, _⟩ := C01_core_nodup_sorted _ hspec
  unfold buildSpace at h
  simp only [hc, Option.bind_eq_bind, Option.bind_some] at h
  obtain ⟨dpc, _, h⟩ := Option.bind_eq_some_iff.1 h
  obtain ⟨indices, _, h⟩ := Option.bind_eq_some_iff.1 h
  obtain ⟨transit, _, h⟩ := Option.bind_eq_some_iff.1 h
  obtain ⟨children, _, h⟩ := Option.bind_eq_some_iff.1 h
  cases h
  exact C88_check_passes_iff_finite_partial add hadd finite _ hspec hs.lags hfit core' hc core' hnd (fun _ h => h) _ values

/-- **C88 (negated).** With two or more lags the check fails for every state space which has a state, as each state has a
missing lagged choice. -/
theorem C88_two_lags_false {K : Type _} (add : Nat → Nat → Nat) (finite : K → Bool) (spec : CoreSpec) (wf : spec.WF)
    (hl : 2 ≤ spec.nLags) (core : List CoreState) (hc : createCore spec = some core) (hne : core ≠ [])
    (indexer : Dict CoreState (Nat × Nat)) (values : SolutionValues K) :
    checkModelSolution add finite spec core indexer values = some false := by
  obtain ⟨ms, h1, _, _⟩ := mapM_pyMax spec.starts wf.nonempty
  obtain ⟨s, hs⟩ := List.exists_mem_of_ne_nil _ hne
  have hrow : core.all rowFinite = false := by
    rw [List.all_eq_false]
    refine ⟨s, hs, ?_⟩
    have hnone : none ∈ s.lags := by
      have hs' := hs
      obtain ⟨mins, hmins, hadd⟩ := additionalExp_spec spec wf
      rw [mem_createCore spec core _ hadd hc] at hs
      obtain ⟨init, _, b, ⟨hb, _⟩, rfl, _⟩ := hs
      rw [mem_addLaggedChoices _ _ (by omega) wf.choice] at hb
      obtain ⟨lag, _, code, _, b', _, rfl⟩ := hb
      simp only [addInitial]
      refine List.mem_iff_getElem?.2 ⟨if lag = 0 then 1 else 0, ?_⟩
      by_cases h0 : lag = 0
      · rw [if_pos h0, List.getElem?_set_ne (by omega), List.getElem?_replicate_of_lt (by omega)]
      · rw [if_neg h0, List.getElem?_set_ne h0, List.getElem?_replicate_of_lt (by omega)]
    intro hall
    have := List.all_eq_true.1 hall none hnone
    cases this
  unfold checkModelSolution
  rw [h1, Option.map_some, hrow]
  simp only [Bool.and_false, Bool.false_and]

/-- **C88.** What a passed check says about any state space: periods, experiences and lagged choices are in their ranges, no
state is listed twice, there are as many indices as states, and all values are finite. -/
theorem C88_passed_checks {K : Type _} (add : Nat → Nat → Nat) (finite : K → Bool) (spec : CoreSpec)
    (core : List CoreState) (indexer : Dict CoreState (Nat × Nat)) (values : SolutionValues K)
    (h : checkModelSolution add finite spec core indexer values = some true) :
    (∀ s ∈ core, s.period < spec.nPeriods ∧ (∀ (i : Nat) mx, spec.maxExp[i]? = some mx → ∃ e ≤ mx, s.exp[i]? = some e) ∧
      (∃ init : List Nat, List.Forall₂ (· ∈ ·) init spec.starts ∧ s.exp.sum ≤ add s.period init.sum) ∧
      (∀ l ∈ s.lags, ∃ c, l = some c ∧ (spec.nLags = 0 ∨ c < spec.nChoices))) ∧
    core.Nodup ∧ core.length = indexer.length ∧ values.Finite finite := by
  unfold checkModelSolution at h
  obtain ⟨ms, hms, h⟩ := Option.map_eq_some_iff.1 h
  simp only [Bool.and_eq_true, List.all_eq_true, decide_eq_true_eq, Bool.or_eq_true, allFinite_iff] at h
  obtain ⟨⟨⟨⟨⟨⟨⟨⟨⟨c1, c2⟩, c3⟩, c4⟩, c5⟩, c6⟩, c7⟩, c8⟩, c9⟩, c10⟩ := h
  refine ⟨fun s hs => ⟨c1 s hs, ?_, ?_, ?_⟩, c6, c7, fun key rows h => h.elim (c8 key rows) (c9 key rows), c10⟩
  · intro i mx hi
    unfold experiencesWithinMax at c3
    rw [List.all_eq_true] at c3
    have h1 := List.all_eq_true.1 (c3 (mx, i) (List.mem_zipIdx_iff_getElem?.2 hi)) s hs
    cases he : s.exp[i]? with
    | none => simp [he] at h1
    | some e =>
      simp only [he, decide_eq_true_eq] at h1
      exact ⟨e, h1, rfl⟩
  · refine ⟨ms, ?_, c2 s hs⟩
    refine List.Forall₂.flip ?_
    refine ((mapM_eq_some_iff _ _ _).1 hms).imp ?_
    intro l x hx
    have hne : l ≠ [] := by rintro rfl; cases hx
    obtain ⟨x', h1, h2, _⟩ := pyMax_spec l hne
    rw [hx] at h1; cases h1
    exact h2
  · intro l hl
    have h5 := List.all_eq_true.1 (c5 s hs) l hl
    cases l with
    | none => cases h5
    | some c =>
      refine ⟨c, rfl, c4.imp id fun h4 => ?_⟩
      have := List.all_eq_true.1 (h4 s hs) (some c) hl
      exact of_decide_eq_true this

/-- The hypotheses of the theorems hold for the example model of C01: periods and initial experiences fit. A state with too
much experience does not pass the check. -/
example : exampleSpec.WF ∧ exampleSpec.nLags ≤ 1 ∧
    (∀ init : List Nat, List.Forall₂ (· ∈ ·) init exampleSpec.starts → exampleSpec.nPeriods + init.sum ≤ 256) ∧
    (∃ core, createCore exampleSpec = some core ∧
      checkModelSolution (K := Nat) (· + ·) (fun _ => true) exampleSpec core
        (createIndexer core ((corePeriodChoice [[], [], []] core).map Prod.snd)) ⟨[(0, [[1]])], [], [(0, [3])]⟩ = some true) ∧
    checkModelSolution (K := Nat) (· + ·) (fun _ => true) exampleSpec [⟨1, [2, 2], [some 1]⟩]
      [(⟨1, [2, 2], [some 1]⟩, (0, 0))] ⟨[], [], []⟩ = some false := by
  have hfit : ∀ init : List Nat, List.Forall₂ (· ∈ ·) init exampleSpec.starts →
      exampleSpec.nPeriods + init.sum ≤ 256 := by
    intro init h
    simp only [exampleSpec] at h ⊢
    match init, h with
    | [a, b], .cons ha (.cons hb .nil) => simp at *; omega
  refine ⟨exampleSpec_wf, by decide, hfit, ?_, by decide⟩
  obtain ⟨core, hc, hnd, _⟩ := C01_core_nodup_sorted exampleSpec exampleSpec_wf
  refine ⟨core, hc, ?_⟩
  rw [C88_check_passes_iff_finite_partial _ (fun _ _ _ => rfl) _ exampleSpec exampleSpec_wf (by decide) hfit core hc core
    hnd (fun _ h => h)]
  exact ⟨fun _ _ _ _ _ _ _ => rfl, fun _ _ _ _ _ => rfl⟩

/-- The hypotheses of `C88_accepted_models_pass_partial` hold for the model of C86 with a filter. -/
example : ∃ p core bt, processModel exampleEnv filteredUser = some p ∧ p.Described filteredUser textEval core ∧
    buildSpace (p.buildSpec textEval) = some bt ∧ ⟨2, [1], [some 0]⟩ ∈ core ∧
    ∀ init : List Nat, List.Forall₂ (· ∈ ·) init (p.buildSpec textEval).core.starts → p.nPeriods + init.sum ≤ 256 := by
  obtain ⟨p, core, bt, h1, _, h3, _, _, h6, h7, _⟩ := filteredUser_supported
  obtain ⟨p', hp', hcheck⟩ := (Option.any_eq_true _ _).1 filteredUser_check
  rw [h1] at hp'; cases hp'
  have hspec := filteredSpec p hcheck
  have hper : p.nPeriods = 3 := congrArg CoreSpec.nPeriods hspec
  refine ⟨p, core, bt, h1, h3.toDescribed, h6, h7, ?_⟩
  intro init hi
  rw [hspec] at hi
  simp only [unfilteredSpec] at hi
  match init, hi with
  | [a], .cons ha .nil =>
    rw [List.mem_singleton] at ha
    simp [hper, ha]

/-- The hypotheses of `C88_two_lags_false` hold for the model of C04 with two lags. -/
example : ∃ core, exampleTwoLags.WF ∧ 2 ≤ exampleTwoLags.nLags ∧ createCore exampleTwoLags = some core ∧ core ≠ [] := by
  have wf : exampleTwoLags.WF :=
    ⟨exampleSpec_wf.experience, rfl, exampleSpec_wf.nonempty, exampleSpec_wf.starts_lt, exampleSpec_wf.max_lt,
      exampleSpec_wf.choice⟩
  obtain ⟨core, hc⟩ := createCore_isSome exampleTwoLags wf
  refine ⟨core, wf, by decide, hc, ?_⟩
  have : (createCore exampleTwoLags).map (fun c => decide (c = [])) = some false := by decide +kernel
  rw [hc] at this
  simpa using this

end Respy
