import Verif.Props.OwnSamples
import Verif.Props.OwnSamplesLabels
import Verif.Props.ParameterFunctionsExample

/-!
# C99 Examples

A model with two types, an observable, a lagged choice and a restriction is estimated with its own sample.
-/

namespace Respy

/-- A test of the properties of the model. -/
noncomputable def ownCheck (p : Processed) : Bool :=
  exampleCheck exampleUser p && decide (p.exogenous.length = 0) && samplableCheck exampleUser p &&
  ((exampleSimulate 4 2).input.all (rowAllowedCheck ((p.buildSpec textEval).initialLevels p.denseLevels))) &&
  reprocessableCheck exampleUser p &&
  (p.groups.all.all fun cd => textDefined cd.2.dependsOn cd.2.formula) &&
  decide (∀ x ∈ coreColumns p.choices.wExp p.lags.length ++ (denseColumns p.denseSpec).map String.toList,
    x ∉ Dict.keys p.groups.all) &&
  decide ((denseColumns p.denseSpec).map String.toList).Nodup &&
  decide ("identifier".toList ∉ Dict.keys p.groups.all) &&
  decide (p.typeProb.map (fun kv => kv.2.map Prod.fst) = [["constant".toList], ["constant".toList]]) &&
  gradedCheck p.groups.all ["constant".toList] [["constant".toList]] &&
  decide (denseGrid p.denseSpec = some [[0, 0], [0, 1], [1, 0], [1, 1]]) &&
  decide ((denseColumns p.denseSpec).length = 2) && decide (p.measurement.1 = false) &&
  decide (p.choices.wWage = ["b".toList]) &&
  decide (p.nTypes = 2) && ((createCore (p.buildSpec textEval).core).any fun core => core.all fun s => decide (s.exp.length = 1))

theorem ownUser_check : (processModel unitEnv exampleUser).any ownCheck = true := by decide +kernel

theorem own_cholesky {m : UserModel} {p : Processed} (hp : processModel unitEnv m = some p)
    (hnd : (Dict.keys m.params).Nodup)
    (hother : ∀ x ∈ m.params, mentionsShocks x.1 = true → ∃ c ∈ shockCategories, x.1.1 = c.toList)
    (hnone : (Dict.get? m.params ("shocks_chol".toList, "chol_".toList ++ "b".toList)).isSome = false)
    (hch : p.choices.choices = ["b".toList, "a".toList]) (a : Nat) (ha : a < 2) : entry p.cholesky a a ≠ 0 := by
  obtain ⟨_, _, _, sh, ⟨hdim, hent⟩, hL⟩ := C84_parameters_by_name (ev := textEval) hp hnd hother exampleSolveEnv
  have hL := hL p.likelihoodParams.cholesky (by simp)
  have hkind : sh.kind ≠ .chol := by
    intro hk
    have := hent 0 0 "b".toList "b".toList (by rw [hch]; rfl) (by rw [hch]; rfl)
    rw [hk] at this
    have h0 := this.1 rfl
    rw [h0] at hnone
    cases hnone
  have hch' : p.cholesky = _ := hL.2 hkind
  rw [hch', hdim, hch]
  unfold entry unitEnv
  interval_cases a <;> simp

/-- The restriction on `b` does not depend on the dense variables. -/
theorem own_restrictions {p : Processed} {core : List CoreState} (hp : processModel unitEnv exampleUser = some p)
    (hf : p.FormulasSound textEval) (hs : p.Supported exampleUser textEval core)
    (hcore : createCore (p.buildSpec textEval).core = some core)
    (hlen : ∀ grid, denseGrid p.denseSpec = some grid → ∀ point ∈ grid,
      (denseColumns p.denseSpec).length ≤ point.length) (hexp : p.choices.wExp = ["b".toList])
    (hb : p.userRestrictions exampleUser "b".toList = ["exp_b == 1".toList])
    (hother : ∀ c, c ≠ "b".toList → p.userRestrictions exampleUser c = [])
    (d d' : Option Nat) (hd : d ∈ (p.buildSpec textEval).denseIndices) (hd' : d' ∈ (p.buildSpec textEval).denseIndices)
    (s : CoreState) (hmem : s ∈ core) (hone : s.exp.length = 1) (c : Str)
    (h : p.Allowed exampleUser textEval d s c) : p.Allowed exampleUser textEval d' s c := by
  refine ⟨fun f hf' => ?_, h.2⟩
  by_cases hc : c = "b".toList
  · subst hc
    have h1 := h.1 f hf'
    rw [hb] at hf'
    rw [List.mem_singleton.1 hf'] at h1 ⊢
    obtain ⟨x, hx⟩ : ∃ x, s.exp = [x] := List.length_eq_one_iff.1 hone
    have hval : ∀ d ∈ (p.buildSpec textEval).denseIndices,
        textEval.value (p.covariates textEval d s) "exp_b == 1".toList =
          some (if (x : ℝ) = ((1 : Nat) : ℝ) then 1 else 0) := by
      intro d hd
      refine textEval_contract.experience_value (p.covariates textEval d s) "b".toList 1 x (by decide) ?_
      refine (C84_covariates_by_formula hp (by decide +kernel) hf hs hcore hlen d hd _ hmem).1 _ _ ?_
      unfold Processed.stateVariables Processed.coreRow
      rw [hexp, hx]
      dsimp only [List.zip_cons_cons, List.map_cons, List.cons_append]
      rw [Dict.get?, if_neg (by decide)]
      change Dict.get? (("exp_".toList ++ "b".toList, (x : ℝ)) :: _) _ = _
      rw [Dict.get?, if_pos (by decide)]
    unfold FormulaEval.holds at h1 ⊢
    rw [hval d hd] at h1
    rw [hval d' hd']
    exact h1
  · rw [hother c hc] at hf'
    cases hf'

theorem mem_denseIndices_of_hasIndex {b : BuildSpec} {dense : List Nat} {d : Option Nat} (h : b.HasIndex dense d) :
    d ∈ b.denseIndices := by
  unfold BuildSpec.HasIndex at h
  unfold BuildSpec.denseIndices
  split at h
  · next hg => rw [hg, h]; simp
  · next grid hg =>
    obtain ⟨i, rfl, hi⟩ := h
    rw [hg]
    exact List.mem_map.2 ⟨i, List.mem_range.2 (List.getElem?_eq_some_iff.1 hi).1, rfl⟩

/-- The sample of the model is drawn and the criterion function has a value with the sample as data. All hypotheses of
the theorems hold. -/
example : ∃ p simulate out g' logLike, ∃ e : EstimateEnv, processModel unitEnv exampleUser = some p ∧ 2 ≤ p.nTypes ∧
    getSimulateFunc unitEnv textEval exampleRoutines exampleUser (exampleSimulate 4 2) = some simulate ∧
    simulate exampleUser.params 0 = (some out, g') ∧
    e.data = out.map (SimRow.observation p.nTypes p.nStatic) ∧
    getCriterionFunc unitEnv textEval exampleRoutines exampleUser e = some logLike ∧
    (logLike exampleUser.params).isSome := by
  obtain ⟨p, hp, hcheck⟩ := (Option.any_eq_true _ _).1 ownUser_check
  unfold ownCheck at hcheck
  simp only [Bool.and_eq_true] at hcheck
  obtain ⟨⟨⟨⟨⟨⟨⟨⟨⟨⟨⟨⟨⟨⟨⟨⟨g1, g2⟩, g3⟩, g4⟩, g5⟩, g6⟩, g7⟩, g8⟩, g9⟩, g10⟩, g11⟩, g12⟩, g13⟩, g14⟩, g15⟩, g17⟩,
    g16⟩ := hcheck
  obtain ⟨core, a1, a2, a3, a4, a5⟩ := example_hypotheses _ p g1
  unfold exampleCheck at g1
  simp only [Bool.and_eq_true, decide_eq_true_eq] at g1
  obtain ⟨⟨⟨⟨⟨⟨_, b2⟩, b3⟩, b4⟩, b5⟩, b6⟩, _⟩ := g1
  have hgrid := of_decide_eq_true g12
  have g6 := List.all_eq_true.1 g6
  have hf : p.FormulasSound textEval :=
    ⟨fun c d hcd => textEval_accurate d (g6 (c, d) hcd), of_decide_eq_true g7, of_decide_eq_true g8⟩
  have hlen : ∀ grid, denseGrid p.denseSpec = some grid → ∀ point ∈ grid,
      (denseColumns p.denseSpec).length ≤ point.length := by
    intro grid hg point hpt
    rw [hgrid] at hg
    cases hg
    rw [of_decide_eq_true g13]
    simp only [List.mem_cons, List.not_mem_nil, or_false] at hpt
    rcases hpt with rfl | rfl | rfl | rfl <;> decide
  have hone : ∀ s ∈ core, s.exp.length = 1 := by
    obtain ⟨core', hcore', h⟩ := (Option.any_eq_true _ _).1 g16
    rw [a1] at hcore'
    cases hcore'
    exact fun s hs => of_decide_eq_true (List.all_eq_true.1 h s hs)
  have hplain : p.PlainRestrictions exampleUser textEval core := by
    refine ⟨fun _ s hmem dense t d d' hd hd' c hc => ?_, fun d hd s hmem i j c c' hij hj => ?_⟩
    · refine own_restrictions hp hf a2 a1 hlen b3 b5 (fun c hc => ?_) d d' (mem_denseIndices_of_hasIndex hd)
        (mem_denseIndices_of_hasIndex hd') s hmem (hone s hmem) c hc
      unfold Processed.userRestrictions exampleUser
      dsimp only
      rw [Dict.get?, if_neg (Ne.symm hc)]
      rfl
    · rw [of_decide_eq_true g15] at hj
      simp only [List.length_singleton] at hj
      omega
  have hgraded : ∀ t beta, Dict.get? p.typeProb t = some beta →
      ∃ bound, Graded p.groups.all (beta.map Prod.fst) bound := by
    intro t beta hb
    have := List.mem_map_of_mem (f := fun kv : Nat × List (Str × ℝ) => kv.2.map Prod.fst) (Dict.mem_of_get? _ _ _ hb)
    rw [of_decide_eq_true g10] at this
    have h : beta.map Prod.fst = ["constant".toList] := by simpa using this
    rw [h]
    exact ⟨_, graded_of_check _ _ _ g11⟩
  have hself : exampleUser.SameIndex exampleUser.params := ⟨rfl, fun _ => rfl⟩
  have hmeas := of_decide_eq_true g14
  obtain ⟨simulate, fuel, h1, h2⟩ := C99_estimation_with_large_numbers_partial (q := p) (q' := p) hp
    (reprocessable_of_check _ _ g5) textEval_contract hf (of_decide_eq_true g9) hgraded a2 a1
    (List.length_eq_zero_iff.1 (of_decide_eq_true g2)) hplain unitEnv_contracts.1 unitEnv_contracts.2 a4
    exampleRoutines a3 firstRandom_contract (fun _ => SameShape.refl _) (fun _ _ => Iff.rfl) (fun _ _ => Iff.rfl)
    exampleUser.params hself hp (by decide +kernel) (exampleShocks _ (by decide +kernel)) a5 (exampleSimulate 4 2)
    (samplable_of_check _ p hp g3 _) (exampleSimulate_fits p 4 2 b6 (by rw [b2]; rfl) g4)
    exampleUser.params hself hp (by decide +kernel) (exampleShocks _ (by decide +kernel)) a5
    (fun a ha => own_cholesky hp (by decide +kernel) (exampleShocks _ (by decide +kernel)) (by decide +kernel) b2 a
      (by rwa [b2] at ha)) (fun h => by rw [hmeas] at h; cases h)
  obtain ⟨out, g', H, h3, h4⟩ := h2 0
  obtain ⟨la, l1, l2⟩ := exists_linearAlgebra
  let e : EstimateEnv := { estimateEnv la (max H 1) with
    data := out.map (SimRow.observation p.nTypes p.nStatic), fuel := fuel }
  obtain ⟨logLike, h5, h6⟩ := h4 e (fun _ _ => List.Perm.refl _) le_rfl l1 l2
    (by
      have := le_max_right H 1
      show -(max H 1) ≤ 0
      linarith) (le_max_left H 1)
    (fun n k s => ⟨by simp [e, estimateEnv], fun row hr => by
      have hr' : row ∈ List.replicate n [List.replicate k (s : ℝ), List.replicate k 0] := hr
      rw [List.eq_of_mem_replicate hr']
      refine ⟨by simp, fun z hz => ?_⟩
      simp only [List.mem_cons, List.not_mem_nil, or_false] at hz
      rcases hz with rfl | rfl <;> simp⟩) rfl
  have htypes : 2 ≤ p.nTypes := (of_decide_eq_true g17).ge
  exact ⟨p, simulate, out, g', logLike, e, hp, htypes, h1, h3, rfl, h5, h6⟩

/-! ### Exogenous processes -/

theorem exogenousUser_own : (processModel unitEnv exogenousUser).any (fun p => samplableCheck exogenousUser p &&
    ((exampleSimulate 3 2).input.all (rowAllowedCheck ((p.buildSpec textEval).initialLevels p.denseLevels))) &&
    exampleCheck exogenousUser p && decide (p.measurement.1 = false) && decide (p.choices.wWage = ["b".toList])) =
      true := by decide +kernel

/-- A sample of a model with an observable, an exogenous process and a restriction is drawn, and the criterion function
has a value with the sample as data. All hypotheses of the theorems hold. -/
example : ∃ p simulate out g' logLike, ∃ e : EstimateEnv, processModel unitEnv exogenousUser = some p ∧
    p.exogenous ≠ [] ∧
    getSimulateFunc unitEnv textEval exampleRoutines exogenousUser (exampleSimulate 3 2) = some simulate ∧
    simulate exogenousUser.params 0 = (some out, g') ∧
    e.data = out.map (SimRow.observation p.nTypes p.nStatic) ∧
    getCriterionFunc unitEnv textEval exampleRoutines exogenousUser e = some logLike ∧
    (logLike exogenousUser.params).isSome := by
  obtain ⟨p, core, hp, h1, h2, h3, h4, h5, h6, h7, h8, h9, h10, h11, h12, h13, _⟩ := exogenousUser_hypotheses
  have hr := exogenousUser_sound
  rw [hp] at hr
  simp only [Option.any_some, Bool.and_eq_true] at hr
  obtain ⟨⟨⟨⟨⟨r1, r2⟩, r3⟩, r4⟩, r5⟩, r6⟩ := hr
  have ho := exogenousUser_own
  rw [hp] at ho
  simp only [Option.any_some, Bool.and_eq_true] at ho
  obtain ⟨⟨⟨⟨o1, o2⟩, o3⟩, o4⟩, o5⟩ := ho
  have o4 := of_decide_eq_true o4
  unfold exampleCheck at o3
  simp only [Bool.and_eq_true, decide_eq_true_eq] at o3
  have hch := o3.1.1.1.1.1.2
  have hf : p.FormulasSound textEval :=
    ⟨fun c d hcd => textEval_accurate d (List.all_eq_true.1 r2 _ hcd), of_decide_eq_true r3, of_decide_eq_true r4⟩
  have r6 := of_decide_eq_true r6
  have hself : exogenousUser.SameIndex exogenousUser.params := ⟨rfl, fun _ => rfl⟩
  have hplain : p.PlainRestrictions exogenousUser textEval core := by
    refine ⟨fun h => by omega, fun d hd s hmem i j c c' hij hj => ?_⟩
    rw [of_decide_eq_true o5] at hj
    simp only [List.length_singleton] at hj
    omega
  obtain ⟨simulate, fuel, k1, k2⟩ := C99_processes_with_large_numbers_partial (q := p) (q' := p) hp
    (reprocessable_of_check _ _ r1) textEval_contract hf (of_decide_eq_true r5)
    (fun t beta hb => by
      have := (get?_isSome_iff _ t).1 ⟨_, hb⟩
      rw [r6] at this
      cases this) h2 h1 h3 [("able".toList, 2)] h4 h5 h6 hplain h7 h8 h12
    exampleRoutines h11 firstRandom_contract (fun _ => SameShape.refl _) (fun _ _ => Iff.rfl) (fun _ _ => Iff.rfl)
    exogenousUser.params hself hp h9 h10 h13 (exampleSimulate 3 2)
    (samplable_of_check _ p hp o1 _) (exampleSimulate_fits p 3 2 o3.1.2 (by rw [hch]; rfl) o2)
    exogenousUser.params hself hp h9 h10 h13
    (fun a ha => own_cholesky hp h9 h10 (by decide +kernel) hch a (by rwa [hch] at ha))
    (fun h => by rw [o4] at h; cases h)
  obtain ⟨out, g', H, k3, k4⟩ := k2 0
  obtain ⟨la, l1, l2⟩ := exists_linearAlgebra
  let e : EstimateEnv := { estimateEnv la (max H 1) with
    data := out.map (SimRow.observation p.nTypes p.nStatic), fuel := fuel }
  obtain ⟨logLike, k5, k6⟩ := k4 e (fun _ _ => List.Perm.refl _) le_rfl l1 l2
    (by
      have := le_max_right H 1
      show -(max H 1) ≤ 0
      linarith) (le_max_left H 1)
    (fun n k s => ⟨by simp [e, estimateEnv], fun row hr => by
      have hr' : row ∈ List.replicate n [List.replicate k (s : ℝ), List.replicate k 0] := hr
      rw [List.eq_of_mem_replicate hr']
      refine ⟨by simp, fun z hz => ?_⟩
      simp only [List.mem_cons, List.not_mem_nil, or_false] at hz
      rcases hz with rfl | rfl <;> simp⟩) rfl
  exact ⟨p, simulate, out, g', logLike, e, hp, h3, k1, k3, rfl, k5, k6⟩

/-! ### Labels -/

/-- Two choices, an observable before and one behind the type. -/
def ownLabels : LabelParas where
  choices := ["work".toList, "home".toList]
  nWages := 1
  nExp := 1
  nPeriods := 2
  nLags := 1
  observables := [(2, ["sick".toList, "healthy".toList]), (0, ["low".toList, "high".toList])]
  typePosition := some 1
  nTypes := 2

noncomputable def ownRow : SimRow ℝ where
  id := 4
  state := ⟨⟨1, [1], [some 0]⟩, [1, 1, 0]⟩
  denseKey := 0
  coreIndex := 0
  base := []
  baseWage := []
  outcome := ⟨1, none, [], []⟩

example : ownLabels.observation (ownLabels.row ownRow) =
    some ⟨4, ⟨⟨1, [1], [some 0]⟩, [1, 0]⟩, 1, none⟩ :=
  C99_labels_are_read_back ownLabels 2 1
    ⟨by decide, by decide, rfl, by decide⟩ ownRow (by decide) (by
      intro x hx
      exact ⟨0, by decide, List.mem_singleton.1 hx⟩) rfl (by decide) (by
      intro o ho c hc
      simp only [ownLabels, List.mem_cons, List.not_mem_nil, or_false] at ho
      rcases ho with rfl | rfl <;> cases hc <;> decide)

/-! ### Restrictions which depend on the type -/

/-- Two types in a single state. The second alternative is not available for the second type. -/
noncomputable def typeRestricted : SimSpace ℝ where
  indexer := [(⟨0, [], []⟩, (0, 0))]
  denseIndex := some [([0], 0), ([1], 1)]
  lookup := [((0, 0), 0), ((0, 1), 1)]
  complexes := [⟨0, [true, true], some 0⟩, ⟨0, [true, false], some 1⟩]
  wages := [(0, [[1, 1]]), (1, [[1]])]
  nonpecs := [(0, [[0, 0]]), (1, [[0]])]
  cvs := fun _ => some [(0, [[0, 0]]), (1, [[0]])]
  covariates := fun _ => none
  nExog := 0
  transition := []
  valueCounts := id
  keyOrder := id

/-- An individual of the first type chooses the second alternative. -/
example (la : ∀ n, LinearAlgebra n) :
    ({ data := [⟨0, ⟨⟨0, [], []⟩, []⟩, 1, none⟩], nTypes := 2, nStatic := 0, nPeriods := 1, seed := 0
       base := fun n k _ => List.replicate n [List.replicate k 0], tau := 1, lo := -10, hi := 10, maxLog := 10, la := la
       covariates := fun _ _ _ => none
       params := fun _ => ⟨[[1, 0], [0, 1]], 0, [0, 0], false, 1, [[], []]⟩
       solve := fun _ => some typeRestricted } : Estimation Unit).logLike () = none :=
  C99_restrictions_on_types_false _ () typeRestricted rfl le_rfl ⟨0, ⟨⟨0, [], []⟩, []⟩, 1, none⟩ (by simp) 1
    Nat.one_lt_two 1 0 rfl ⟨0, [true, false], some 1⟩ rfl (by
      intro b hb
      rcases b with _ | _ | b
      · exact Nat.zero_lt_one
      · simp at hb
      · simp at hb)

end Respy
