import Verif.Props.ParameterFunctions
import Verif.Props.SolveFunctionExample
import Verif.Props.ProcessEstimateExample

/-!
# C87 Examples

The functions are created with parameters which differ from those of the call.
-/

namespace Respy

/-- Parameters which differ from those of the model. -/
noncomputable def UserModel.halved (m : UserModel) : UserModel :=
  { m with params := m.params.map fun kv => (kv.1, kv.2 / 2) }

theorem get?_no_maximum (d : Dict (Str × Str) ℝ) (c : Str) (h : ∀ k ∈ d.map Prod.fst, k.1 ≠ "maximum_exp".toList) :
    Dict.get? d ("maximum_exp".toList, c) = none := by
  induction d with
  | nil => rfl
  | cons a as ih =>
    rw [Dict.get?, if_neg fun he => h a.1 List.mem_cons_self (congrArg Prod.fst he)]
    exact ih fun k hk => h k (List.mem_cons_of_mem _ hk)

theorem halved_keys (m : UserModel) : m.halved.params.map Prod.fst = m.params.map Prod.fst := by
  unfold UserModel.halved
  rw [List.map_map]
  rfl

theorem halved_index (m : UserModel) (h : ∀ k ∈ m.params.map Prod.fst, k.1 ≠ "maximum_exp".toList) :
    m.halved.SameIndex m.params :=
  ⟨halved_keys m, fun c => by rw [get?_no_maximum _ c h, get?_no_maximum _ c (by rw [halved_keys]; exact h)]⟩

theorem halved_structure {env : ProcessEnv} {m : UserModel} {q : Processed} (hq : processModel env m = some q)
    (h : ∀ k ∈ m.params.map Prod.fst, k.1 ≠ "maximum_exp".toList) :
    ∃ p, processModel env m.halved = some p ∧ SameStructure p q := by
  have hi := halved_index m h
  have h1 := processModel_sameIndex env m.halved m.params hi.index hi.max
  rw [show ({ m.halved with params := m.params } : UserModel) = m from rfl, hq] at h1
  generalize processModel env m.halved = op at h1
  cases h1 with
  | some h1 => exact ⟨_, rfl, h1⟩

theorem estimateUser_reprocessable : (processModel unitEnv estimateUser).any (reprocessableCheck estimateUser) =
    true := by decide +kernel

/-- The hypotheses of the theorems on criterion functions hold for a model with two types whose probability depends on
an observable, at parameters which are not those with which the function is created. -/
example : ∃ p q core, processModel unitEnv estimateUser.halved = some p ∧ estimateUser.halved.Reprocessable p ∧
    p.FormulasSound textEval ∧ "identifier".toList ∉ Dict.keys p.groups.all ∧
    (∀ t beta, Dict.get? p.typeProb t = some beta → ∃ bound, Graded p.groups.all (beta.map Prod.fst) bound) ∧
    estimateUser.halved.SameIndex estimateUser.params ∧ estimateUser.halved.params ≠ estimateUser.params ∧
    2 ≤ p.nTypes ∧
    processModel unitEnv { estimateUser.halved with params := estimateUser.params } = some q ∧
    q.Supported { estimateUser.halved with params := estimateUser.params } textEval core ∧
    createCore (q.buildSpec textEval).core = some core ∧ q.exogenous = [] ∧
    exampleSolveEnv.Fits (q.buildSpec textEval) core ∧
    (∀ d ∈ (q.buildSpec textEval).denseIndices, ∀ s ∈ core,
      ∃ c ∈ q.choices.choices, q.Allowed { estimateUser.halved with params := estimateUser.params } textEval d s c) ∧
    (q.buildSpec textEval).PointsSuffice core q.discount.delta ∧
    ∃ la hi, (∀ n l, ((estimateEnv la hi).order n l).Perm l) ∧ (estimateEnv la hi).Fits q
      { estimateUser.halved with params := estimateUser.params } textEval core
      (q.solveInput textEval exampleSolveEnv).wageOf := by
  obtain ⟨q, core, hq, h1, h2, h3, _, _, _, _, h4, h5, h6, _, h7, _, h8, h9, _, h10⟩ := estimateUser_hypotheses
  have hmax : ∀ k ∈ estimateUser.params.map Prod.fst, k.1 ≠ "maximum_exp".toList := by decide +kernel
  obtain ⟨p, hp, hst⟩ := halved_structure hq hmax
  have hr := estimateUser_reprocessable
  rw [hq] at hr
  have hr' := reprocessable_of_check _ _ hr
  refine ⟨p, q, core, hp, hst.symm.reprocessable (m := estimateUser) rfl rfl hr', hst.symm.formulasSound h7,
    hst.groups ▸ h8.identifier, fun t beta hb => ?_, halved_index _ hmax, fun he => ?_, hst.nTypes ▸ h9, hq, h2, h1, h3,
    h4, h5, h6, h10⟩
  · obtain ⟨beta', hb'⟩ : ∃ beta', Dict.get? q.typeProb t = some beta' := by
      have hk : Dict.keys p.typeProb = Dict.keys q.typeProb := by
        have := congrArg (List.map Prod.fst) hst.typeProb
        unfold groupShape at this
        rw [List.map_map, List.map_map] at this
        exact this
      exact (get?_isSome_iff _ t).2 (hk ▸ (get?_isSome_iff _ t).1 ⟨_, hb⟩)
    obtain ⟨bound, hg⟩ := h8.graded t beta' hb'
    have := groupShape_names hst.typeProb t
    rw [hb, hb'] at this
    simp only [Option.getD_some] at this
    exact ⟨bound, by rw [this, hst.groups]; exact hg⟩
  · have := congrArg (fun l => (l.map Prod.snd)[0]?) he
    simp only [UserModel.halved, estimateUser, exampleUser] at this
    norm_num at this

theorem exampleUser_sound : (processModel exampleEnv exampleUser).any (fun p => reprocessableCheck exampleUser p &&
    (p.groups.all.all fun cd => textDefined cd.2.dependsOn cd.2.formula) &&
    decide (∀ x ∈ coreColumns p.choices.wExp p.lags.length ++ (denseColumns p.denseSpec).map String.toList,
      x ∉ Dict.keys p.groups.all) &&
    decide ((denseColumns p.denseSpec).map String.toList).Nodup &&
    decide ("identifier".toList ∉ Dict.keys p.groups.all)) = true := by decide +kernel

/-- A sample is drawn at parameters which are not those with which the simulate function is created. -/
example : ∃ simulate out g', getSimulateFunc exampleEnv textEval exampleRoutines exampleUser.halved
      (exampleSimulate 4 2) = some simulate ∧ exampleUser.halved.params ≠ exampleUser.params ∧
    simulate exampleUser.params 0 = (some out, g') := by
  obtain ⟨q, core, hq, h1, h2, h3, h4, h5, h6, h7, h8, _⟩ := exampleUser_hypotheses
  have hmax : ∀ k ∈ exampleUser.params.map Prod.fst, k.1 ≠ "maximum_exp".toList := by decide +kernel
  obtain ⟨p, hp, hst⟩ := halved_structure hq hmax
  have hr := exampleUser_sound
  rw [hq] at hr
  simp only [Option.any_some, Bool.and_eq_true, decide_eq_true_eq, List.all_eq_true] at hr
  obtain ⟨⟨⟨⟨r1, r2⟩, r3⟩, r4⟩, r5⟩ := hr
  have hf : q.FormulasSound textEval := ⟨fun c d hcd => textEval_accurate d (r2 (c, d) hcd), r3, r4⟩
  obtain ⟨simulate, sp, V, k1, _, k2⟩ := C87_samples_at_parameters_partial (m := exampleUser.halved) hp
    (hst.symm.reprocessable (m := exampleUser) rfl rfl (reprocessable_of_check _ _ r1)) textEval_contract
    (hst.symm.formulasSound hf) (hst.groups ▸ r5) exampleUser.params (halved_index _ hmax) hq h2 h1 h3
    (fun _ _ h1 h2 => ⟨h1, h2⟩) (by decide +kernel) (exampleShocks _ (by decide +kernel)) exampleRoutines h4 h5 h6
    firstRandom_contract (fun _ => SameShape.refl _) (fun _ _ => Iff.rfl) (fun _ _ => Iff.rfl) (exampleSimulate 4 2) h7 h8
  obtain ⟨k3, out, g', k4, _⟩ := k2 0
  refine ⟨simulate, out, g', k1, fun he => ?_, by rw [k3, k4]⟩
  have := congrArg (fun l => (l.map Prod.snd)[0]?) he
  simp only [UserModel.halved, exampleUser] at this
  norm_num at this

theorem exogenousUser_sound : (processModel unitEnv exogenousUser).any (fun p => reprocessableCheck exogenousUser p &&
    (p.groups.all.all fun cd => textDefined cd.2.dependsOn cd.2.formula) &&
    decide (∀ x ∈ coreColumns p.choices.wExp p.lags.length ++ (denseColumns p.denseSpec).map String.toList,
      x ∉ Dict.keys p.groups.all) &&
    decide ((denseColumns p.denseSpec).map String.toList).Nodup &&
    decide ("identifier".toList ∉ Dict.keys p.groups.all) && decide (Dict.keys p.typeProb = [])) = true := by
  decide +kernel

/-- The criterion function of a model with an exogenous process has a value at parameters which are not those with which
the function is created. -/
example : ∃ e logLike v, getCriterionFunc unitEnv textEval exampleRoutines exogenousUser.halved e = some logLike ∧
    exogenousUser.halved.params ≠ exogenousUser.params ∧ logLike exogenousUser.params = some v := by
  obtain ⟨q, core, hq, h1, h2, h3, h4, h5, h6, h7, h8, h9, h10, h11, h12, h13, la, hla⟩ := exogenousUser_hypotheses
  have hmax : ∀ k ∈ exogenousUser.params.map Prod.fst, k.1 ≠ "maximum_exp".toList := by decide +kernel
  obtain ⟨p, hp, hst⟩ := halved_structure hq hmax
  have hr := exogenousUser_sound
  rw [hq] at hr
  simp only [Option.any_some, Bool.and_eq_true] at hr
  obtain ⟨⟨⟨⟨⟨r1, r2⟩, r3⟩, r4⟩, r5⟩, r6⟩ := hr
  have hf : q.FormulasSound textEval :=
    ⟨fun c d hcd => textEval_accurate d (List.all_eq_true.1 r2 _ hcd), of_decide_eq_true r3, of_decide_eq_true r4⟩
  have r6 := of_decide_eq_true r6
  obtain ⟨fuel, k⟩ := C87_criterion_with_processes_partial hp
    (hst.symm.reprocessable (m := exogenousUser) rfl rfl (reprocessable_of_check _ _ r1))
    textEval_contract (hst.symm.formulasSound hf) (hst.groups ▸ of_decide_eq_true r5)
    (fun t beta hb => by
      have hk : Dict.keys p.typeProb = Dict.keys q.typeProb := by
        have := congrArg (List.map Prod.fst) hst.typeProb
        unfold groupShape at this
        rw [List.map_map, List.map_map] at this
        exact this
      have := (get?_isSome_iff _ t).1 ⟨_, hb⟩
      rw [hk, r6] at this
      cases this)
    exogenousUser.params (halved_index _ hmax) hq h2 h1 h3 [("able".toList, 2)] h4 h5 h6 h7 h8 h9 h10 exampleRoutines
    h11 h12 h13 firstRandom_contract (fun bt => SameShape.refl _)
  obtain ⟨logLike, sp, V, size, source, k1, k2, k3, k4⟩ := k { estimateEnv la 1 with
      data := [⟨7, ⟨⟨1, [1], []⟩, [1, 0]⟩, 1, none⟩], fuel := fuel } (fun n l => .refl _) le_rfl
      ⟨hla.qr, hla.cholesky, hla.lo, hla.hi, hla.base, hla.index, hla.first, hla.states⟩
  obtain ⟨-, term, x, -, -, k5, -⟩ := k4
  refine ⟨_, logLike, _, k1, fun he => ?_, by rw [k3, k5]⟩
  have := congrArg (fun l => (l.map Prod.snd)[0]?) he
  simp only [UserModel.halved, exogenousUser] at this
  norm_num at this

end Respy
