import Verif.Lemmas.LogLikeCriterion
import Verif.Props.SimulateModel

/-!
# C79: the criterion function is the likelihood of the data

From the parameters of the model to the value of the criterion function. `SolveInput.solveModel` is the model
of `solve`, `Estimation.logLike` the model of `get_log_like_func` and `log_like`.
-/

set_option linter.unusedSectionVars false

namespace Respy

variable {P : Type}

/-- **C79.** Models without exogenous processes, with or without interpolation and for any discount factor: if
the model is solved, the value of the criterion function is the mean of the individual log likelihoods in the
model with the stored expected values `V`. The draws used for an observation and a type are the same for all
parameters. -/
theorem C79_criterion_stored_values (b : BuildSpec) (core : List CoreState) (wf : b.WF core)
    (hexo : b.exogLevels = []) (levels : List (List Nat)) (hlev : b.DenseLevels levels)
    (hnd : ∀ l ∈ levels, l.Nodup) (e : Estimation P) :
    ∃ bt size source, buildSpace b = some bt ∧ ∀ (inp : SolveInput ℝ), inp.WF b core →
      ∀ (interp : Interpolation ℝ) (seed : Nat) (ev0 : Built → Dict Nat (List ℝ)),
      (∀ bt, SameShape (initialValues bt.space) (ev0 bt)) → ∀ (vc ko : List Nat → List Nat) (sp : SimSpace ℝ),
      inp.solveModel b (fun _ => some []) interp seed ev0 vc ko = some sp → ∀ params : P,
      e.solve params = some sp → e.Fits b core inp.wageOf params →
      ∃ par V, inp.paramObjects bt [] = some par ∧
        (∀ d ∈ b.denseIndices, ∀ s ∈ core,
          bt.ValueAt (solveBackward bt.space interp par seed (ev0 bt)).1 d s (V d s)) ∧
        CriterionFollows b inp.wageOf inp.nonpecOf (fun d _ => [(d, 1)]) V size source e params := by
  obtain ⟨bt, hbuild, hsnd⟩ := buildSpace_noExogenous b core wf hexo
  let rows := (e.located (bt.simSpace b ⟨[], [], [], 0, []⟩ [] id id)).getD []
  refine ⟨bt, e.sizeOf bt.space.complexes rows, e.sourceOf rows, hbuild, ?_⟩
  intro inp hinp interp seed ev0 hev0 vc ko sp hsp params hsolve hfits
  obtain ⟨par, h1, h2, h3, hfit⟩ := hinp.paramsFit wf hsnd []
  have hev : SameShape (initialValues bt.space) (solveBackward bt.space interp par seed (ev0 bt)).1 :=
    (hev0 bt).trans (backwardLoop_shape _ _ _ _ _ _)
  classical
  have hex : ∀ d s, ∃ v, d ∈ b.denseIndices → s ∈ core →
      bt.ValueAt (solveBackward bt.space interp par seed (ev0 bt)).1 d s v := by
    intro d s
    by_cases h : d ∈ b.denseIndices ∧ s ∈ core
    · obtain ⟨v, hv⟩ := hsnd.valueAt_exists _ hev s h.2 d h.1
      exact ⟨v, fun _ _ => hv⟩
    · exact ⟨0, fun h1 h2 => absurd ⟨h1, h2⟩ h⟩
  choose V hV using hex
  refine ⟨par, V, h1, fun d hd s hs => hV d s hd hs, ?_⟩
  have hsp' : sp = bt.simSpace b par (solveBackward bt.space interp par seed (ev0 bt)).1 vc ko := by
    unfold SolveInput.solveModel at hsp
    simp only [hbuild, h1, Option.bind_eq_bind, Option.bind_some] at hsp
    split at hsp
    · exact (Option.some.inj hsp).symm
    · cases hsp
  exact (hsnd.solved_noExogenous wf hexo hbuild (hlev.nodup hnd) hfit).criterion hev
    (fun d hd s hs => hV d s hd hs) vc ko e params (by rw [hsolve, hsp']) hfits rows rfl

/-- **C79 (partial).** Models without exogenous processes: solving the model succeeds, and the value of the
criterion function is the mean of the individual log likelihoods in the model with its value function. The draws
used for an observation and a type are the same for all parameters. Missing: interpolation and a discount factor
of zero (both are covered by `C79_criterion_of_any_solution` with the solution of C80 instead of the value
function) and wages for which the likelihood is not defined (`ObservationWF`). -/
theorem C79_criterion_is_likelihood_partial (b : BuildSpec) (core : List CoreState) (wf : b.WF core)
    (hexo : b.exogLevels = []) (levels : List (List Nat)) (hlev : b.DenseLevels levels)
    (hnd : ∀ l ∈ levels, l.Nodup)
    (hpts : ∀ t, (core.filter fun s => decide (s.period = t)).length * b.denseIndices.length ≤
      b.points) (e : Estimation P) :
    ∃ size source, ∀ (inp : SolveInput ℝ), inp.WF b core → inp.delta ≠ 0 →
      ∀ (interp : Interpolation ℝ) (seed : Nat) (ev0 : Built → Dict Nat (List ℝ)),
      (∀ bt, SameShape (initialValues bt.space) (ev0 bt)) → ∀ (vc ko : List Nat → List Nat),
      ∃ sp V, inp.solveModel b (fun _ => some []) interp seed ev0 vc ko = some sp ∧
        IsValueFunction b core inp.delta inp.wageOf inp.nonpecOf inp.shocks (fun d _ => [(d, 1)]) V ∧
        ∀ params : P, e.solve params = some sp → e.Fits b core inp.wageOf params →
          CriterionFollows b inp.wageOf inp.nonpecOf (fun d _ => [(d, 1)]) V size source e params := by
  obtain ⟨bt, hbuild, hsnd⟩ := buildSpace_noExogenous b core wf hexo
  let rows := (e.located (bt.simSpace b ⟨[], [], [], 0, []⟩ [] id id)).getD []
  refine ⟨e.sizeOf bt.space.complexes rows, e.sourceOf rows, ?_⟩
  intro inp hinp hdelta interp seed ev0 hev0 vc ko
  obtain ⟨bt', par, hbuild', h1, hsol⟩ :=
    C70_solution_from_parameters_partial b core wf hexo hpts inp hinp hdelta
  rw [hbuild] at hbuild'; cases hbuild'
  obtain ⟨hok, V, hVF, hV⟩ := hsol interp seed (ev0 bt) (hev0 bt)
  obtain ⟨par', h1', _, _, hfit⟩ := hinp.paramsFit wf hsnd []
  rw [h1] at h1'; cases h1'
  refine ⟨bt.simSpace b par (solveBackward bt.space interp par seed (ev0 bt)).1 vc ko, V, ?_, hVF, ?_⟩
  · unfold SolveInput.solveModel
    simp only [hbuild, h1, Option.bind_eq_bind, Option.bind_some, hok, if_true]
  · intro params hsolve hfits
    exact (hsnd.solved_noExogenous wf hexo hbuild (hlev.nodup hnd) hfit).criterion
      ((hev0 bt).trans (backwardLoop_shape _ _ _ _ _ _)) hV vc ko e params hsolve hfits rows rfl

/-- **C79 (partial).** The same for models with exogenous processes. Missing: as in
`C79_criterion_is_likelihood_partial`. -/
theorem C79_exogenous_criterion_partial (b : BuildSpec) (core : List CoreState) (wf : b.WF core)
    (static : List (List Nat)) (hx : b.ExogWF static)
    (hpts : ∀ t, (core.filter fun s => decide (s.period = t)).length * b.denseIndices.length ≤
      b.points) (e : Estimation P) :
    ∃ size source, ∀ (inp : SolveInput ℝ), inp.WF b core → inp.delta ≠ 0 →
      ∀ (ep : ExogenousParams), ep.map List.length = b.exogLevels → (∀ levels ∈ ep, levels ≠ []) →
      (∀ levels ∈ ep, ∀ beta ∈ levels, ∀ item ∈ beta, ∀ d ∈ b.denseIndices, ∀ s ∈ core,
        (inp.covariates d s item.1).isSome) →
      ∀ (interp : Interpolation ℝ) (seed : Nat) (ev0 : Built → Dict Nat (List ℝ)),
      (∀ bt, SameShape (initialValues bt.space) (ev0 bt)) → ∀ (vc ko : List Nat → List Nat),
      ∃ sp V, inp.solveModel b (inp.transitions ep b) interp seed ev0 vc ko = some sp ∧
        IsValueFunction b core inp.delta inp.wageOf inp.nonpecOf inp.shocks
          (fun d s => (exogenousGrid b.exogLevels).map fun e =>
            (b.successor d e, levelProbability ep (inp.covariates d s) e)) V ∧
        ∀ params : P, e.solve params = some sp → e.Fits b core inp.wageOf params →
          CriterionFollows b inp.wageOf inp.nonpecOf
            (fun d s => (exogenousGrid b.exogLevels).map fun e =>
              (b.successor d e, levelProbability ep (inp.covariates d s) e)) V size source e params := by
  obtain ⟨bt, reps, hbuild, hsnd, htr, hdpc⟩ := buildSpace_exogenous b core wf static hx
  let rows := (e.located (bt.simSpace b ⟨[], [], [], 0, []⟩ [] id id)).getD []
  refine ⟨e.sizeOf bt.space.complexes rows, e.sourceOf rows, ?_⟩
  intro inp hinp hdelta ep hep hlev hcov interp seed ev0 hev0 vc ko
  obtain ⟨bt0, tr0, par0, hbuild0, ht0, hp0, hsol⟩ := C70_exogenous_solution_partial b core wf static hx
    hpts inp hinp hdelta ep hep hlev hcov
  rw [hbuild] at hbuild0; cases hbuild0
  obtain ⟨transition, ht, hfit⟩ := inp.transitions_fit ep b core wf static hx hep hcov bt reps hsnd hdpc
  rw [ht0] at ht; cases ht
  obtain ⟨par, h1, h2, h3, hpf⟩ := hinp.paramsFit wf hsnd tr0
  rw [hp0] at h1; cases h1
  obtain ⟨hok, V, hVF, hV⟩ := hsol interp seed (ev0 bt) (hev0 bt)
  refine ⟨bt.simSpace b par0 (solveBackward bt.space interp par0 seed (ev0 bt)).1 vc ko, V, ?_, hVF, ?_⟩
  · unfold SolveInput.solveModel
    simp only [hbuild, ht0, hp0, Option.bind_eq_bind, Option.bind_some, hok, if_true]
  · intro params hsolve hfits
    have hprob := fun d s => (C19_level_probabilities ep hlev (inp.covariates d s)).2
    have hne : exogenousGrid b.exogLevels ≠ [] := by
      intro h0
      have := hprob none ⟨0, [], []⟩
      rw [hep, h0] at this
      simp at this
    refine (hsnd.solved_exogenous wf hx htr hdpc hpf
      (fun d s e => levelProbability ep (inp.covariates d s) e) (by rw [h3]; exact hfit) hne ?_).criterion
      ((hev0 bt).trans (backwardLoop_shape _ _ _ _ _ _)) hV vc ko e params hsolve hfits rows rfl
    intro d _ s _
    by_contra hcon
    push Not at hcon
    have := hprob d s
    rw [hep, List.map_congr_left (g := fun _ => (0 : ℝ)) (fun e he => hcon e he)] at this
    simp at this

/-! ## Concrete cases -/

section Examples

/-- Two individuals. The first one is observed in two periods; no wage is observed in the second one. `dense`
are the observables of both. -/
noncomputable def exampleData (dense : List Nat) : List EstimationRow :=
  [⟨0, ⟨⟨1, [1, 0], [some 0]⟩, dense⟩, 2, none⟩, ⟨0, ⟨⟨0, [0, 0], [some 2]⟩, dense⟩, 0, some (Real.exp 1)⟩,
    ⟨1, ⟨⟨0, [2, 0], [some 2]⟩, dense⟩, 1, some (Real.exp 2)⟩]

/-- The estimation with these data and two types. -/
noncomputable def exampleEstimation (la : ∀ n, LinearAlgebra n) (dense : List Nat) (sp : Option (SimSpace ℝ)) :
    Estimation Unit where
  data := exampleData dense
  nTypes := 2
  nStatic := 0
  nPeriods := 3
  seed := 100
  base := fun n k s => List.replicate n [List.replicate k (s : ℝ), List.replicate k 0]
  tau := 1 / 2
  lo := -Real.exp 100
  hi := Real.exp 100
  maxLog := 100
  la := la
  covariates := fun r _ name => some (if name = "exp_a".toList then (((r.state.core.exp[0]?).getD 0 : Nat) : ℝ) else 1)
  params := fun _ => ⟨[[1, 0, 0], [1 / 2, 1, 0], [0, 0, 1]], 2, [1 / 10, 1 / 5, 0], true, 95 / 100,
    [[("constant".toList, 0)], [("constant".toList, 1 / 2), ("exp_a".toList, 1 / 10)]]⟩
  solve := fun _ => sp

theorem exampleCore_mem (core : List CoreState) (h : createCore exampleSpec = some core) (dense : List Nat) :
    ∀ r ∈ exampleData dense, r.state.core ∈ core := by
  have : ∃ c, createCore exampleSpec = some c ∧ (⟨1, [1, 0], [some 0]⟩ : CoreState) ∈ c ∧
      (⟨0, [0, 0], [some 2]⟩ : CoreState) ∈ c ∧ (⟨0, [2, 0], [some 2]⟩ : CoreState) ∈ c := by
    have hd : ((createCore exampleSpec).getD []).contains ⟨1, [1, 0], [some 0]⟩ ∧
        ((createCore exampleSpec).getD []).contains ⟨0, [0, 0], [some 2]⟩ ∧
        ((createCore exampleSpec).getD []).contains ⟨0, [2, 0], [some 2]⟩ := by decide +kernel
    rw [h] at hd
    simp only [Option.getD_some, List.contains_iff_mem] at hd
    exact ⟨core, h, hd⟩
  obtain ⟨c, hc, h1, h2, h3⟩ := this
  rw [h] at hc; cases hc
  intro r hr
  simp only [exampleData, List.mem_cons, List.not_mem_nil, or_false] at hr
  rcases hr with rfl | rfl | rfl
  · exact h1
  · exact h2
  · exact h3

theorem exampleWage_eq (d : Option Nat) (s : CoreState) (a : Nat) (ha : a < 2) :
    (exampleInputOf Real.exp).wageOf d s a =
      Real.exp ((((s.exp[0]?).getD 0 : Nat) : ℝ) * (1 / 2) + ((d.getD 0 : Nat) : ℝ) * 2) := by
  have h1 : (exampleInputOf Real.exp).rewards.wage a = some [("exp_a".toList, 1 / 2), ("type".toList, 2)] := by
    simp only [exampleInputOf, if_pos ha]
  have h2 : (exampleInputOf Real.exp).covariates d s "exp_a".toList = some (((s.exp[0]?).getD 0 : Nat) : ℝ) := by
    simp only [exampleInputOf, if_true]
  have h3 : (exampleInputOf Real.exp).covariates d s "type".toList = some ((d.getD 0 : Nat) : ℝ) := by
    have : ("type".toList = "exp_a".toList) = False := eq_false (by decide)
    simp only [exampleInputOf, this, if_false, if_true]
  unfold SolveInput.wageOf
  rw [h1]
  show Real.exp _ = _
  congr 1
  simp only [linearIndex, List.map_cons, List.map_nil, h2, h3, Option.getD_some, List.sum_cons, List.sum_nil,
    add_zero]
  rw [mul_comm, mul_comm (2 : ℝ)]

theorem exampleObservation_wf (d : Nat) (hd : d < 4) (k : Nat) (hk : k ≤ 2) (a : Nat) (ha : a < 2) (y : ℝ)
    (hy0 : -100 ≤ y) (hy1 : y ≤ 100) :
    ObservationWF (Real.exp 100) true 2 [[1, 0, 0], [1 / 2, 1, 0], [0, 0, 1]] [true, true, true] [1 / 10, 1 / 5, 0]
      ((exampleInputOf Real.exp).wageOf (some d) ⟨0, [k, 0], [some 2]⟩) a (Real.exp y) where
  hasWage := ha
  observed := by
    rw [one_div, ← Real.exp_neg]
    exact ⟨Real.exp_le_exp.2 hy0, Real.exp_le_exp.2 hy1⟩
  systematic := by
    rw [exampleWage_eq _ _ _ ha, one_div, ← Real.exp_neg, Real.exp_le_exp, Real.exp_le_exp]
    have h1 : (k : ℝ) ≤ 2 := by exact_mod_cast hk
    have h2 : (d : ℝ) ≤ 4 := by exact_mod_cast hd.le
    have h3 : (0 : ℝ) ≤ k := Nat.cast_nonneg _
    have h4 : (0 : ℝ) ≤ d := Nat.cast_nonneg _
    simp only [List.getElem?_cons_zero, Option.getD_some]
    constructor <;> linarith
  own := by
    match a, ha with
    | 0, _ => rfl
    | 1, _ => rfl
  error := by
    intro _
    constructor
    · match a, ha with
      | 0, _ => norm_num
      | 1, _ => norm_num
    · intro b hb
      match b with
      | 0 => norm_num [entry]
      | 1 => norm_num [entry]
      | 2 => norm_num [entry]
      | b + 3 => simp at hb
  noError := by intro h; cases h

theorem exampleEstimation_fits (la : ∀ n, LinearAlgebra n) (hq : ∀ n, QRContract (la n).qr)
    (hc : ∀ n, CholeskyContract (la n).cholesky) (b : BuildSpec) (core : List CoreState) (wf : b.WF core)
    (h : b.core = exampleSpec) (hcs : ∀ d s, b.choiceSetAt d s = choiceSet exampleRestr s) (dense : List Nat)
    (hd : ∀ t < 2, ∃ d < 4, b.HasIndex (t :: dense) (some d))
    (sp : Option (SimSpace ℝ)) :
    (exampleEstimation la dense sp).Fits b core (exampleInputOf Real.exp).wageOf () where
  qr := hq
  cholesky := hc
  lo := by simp only [exampleEstimation]; exact neg_nonpos.2 (Real.exp_pos _).le
  hi := Real.exp_pos _
  base := by
    intro n k s
    refine ⟨by simp [exampleEstimation], ?_⟩
    intro row hrow
    simp only [exampleEstimation, List.mem_replicate] at hrow
    rw [hrow.2]
    simp
  periods := by rw [h]; rfl
  rows := by simp [exampleEstimation]
  cols := by simp [exampleEstimation]
  lower := by
    intro i j hij
    match i, j, hij with
    | 0, 1, _ => simp [exampleEstimation, entry]
    | 0, 2, _ => simp [exampleEstimation, entry]
    | 0, j + 3, _ => simp [exampleEstimation, entry]
    | 1, 2, _ => simp [exampleEstimation, entry]
    | 1, j + 3, _ => simp [exampleEstimation, entry]
    | 2, j + 3, _ => simp [exampleEstimation, entry]
    | i + 3, j, _ => simp [exampleEstimation, entry]
  choices := by
    intro d _ s _
    rw [hcs]
    simp [exampleEstimation, exampleRestr, choiceSet]
  wages := by simp [exampleEstimation]
  index := by simp [exampleEstimation, exampleData]
  first := by
    intro _ r hr
    simp only [exampleEstimation, exampleData, List.mem_cons, List.not_mem_nil, or_false] at hr ⊢
    rcases hr with rfl | rfl | rfl
    · exact ⟨_, Or.inr (Or.inl rfl), rfl, rfl⟩
    · exact ⟨_, Or.inr (Or.inl rfl), rfl, rfl⟩
    · exact ⟨_, Or.inr (Or.inr rfl), rfl, rfl⟩
  states := by
    intro r hr
    refine ⟨exampleCore_mem core (by rw [← h]; exact wf.created) dense r hr, ?_⟩
    intro t ht
    obtain ⟨d, hd4, hd⟩ := hd t ht
    have hdense : ((exampleEstimation la dense sp).stateOf r t).dense = t :: dense := by
      have : r.state.dense = dense := by
        simp only [exampleEstimation, exampleData, List.mem_cons, List.not_mem_nil, or_false] at hr
        rcases hr with rfl | rfl | rfl <;> rfl
      unfold Estimation.stateOf
      have h2 : (exampleEstimation la dense sp).nTypes ≥ 2 := le_refl 2
      rw [if_pos h2]
      show r.state.dense.take 0 ++ t :: r.state.dense.drop 0 = _
      rw [this]; rfl
    rw [hdense]
    refine ⟨some d, hd, ?_, ?_⟩
    · unfold BuildSpec.Admissible
      rw [hcs]
      simp only [exampleEstimation, exampleData, List.mem_cons, List.not_mem_nil, or_false] at hr
      rcases hr with rfl | rfl | rfl <;> rfl
    · intro y hy
      simp only [exampleEstimation, exampleData, List.mem_cons, List.not_mem_nil, or_false] at hr
      rcases hr with rfl | rfl | rfl
      · cases hy
      · cases hy
        rw [hcs]
        exact exampleObservation_wf d hd4 0 (by omega) 0 (by omega) 1 (by norm_num) (by norm_num)
      · cases hy
        rw [hcs]
        exact exampleObservation_wf d hd4 2 (by omega) 1 (by omega) 2 (by norm_num) (by norm_num)

/-- Linear algebra routines as in the contracts exist. -/
theorem exists_linearAlgebra : ∃ la : ∀ n, LinearAlgebra n, (∀ n, QRContract (la n).qr) ∧
    ∀ n, CholeskyContract (la n).cholesky := by
  choose f hf using exists_choleskyContract
  choose g hg using exists_qrContract
  exact ⟨fun n => ⟨g (n + 2), f n⟩, fun n => hg _, fun n => hf _⟩

/-- The hypotheses of `C79_criterion_stored_values` and `C79_criterion_is_likelihood_partial` are met by the
example with two types. -/
example : ∃ core la, exampleBuild.WF core ∧ exampleBuild.exogLevels = [] ∧
    exampleBuild.DenseLevels [[0, 1]] ∧ (∀ l ∈ [[0, 1]], l.Nodup) ∧
    (∀ t, (core.filter fun s => decide (s.period = t)).length * exampleBuild.denseIndices.length ≤
      exampleBuild.points) ∧ (exampleInputOf Real.exp).WF exampleBuild core ∧
    (exampleInputOf Real.exp).delta ≠ 0 ∧
    (∀ bt : Built, SameShape (initialValues bt.space) (initialValues bt.space : Dict Nat (List ℝ))) ∧
    ∀ sp, (exampleEstimation la [] sp).Fits exampleBuild core (exampleInputOf Real.exp).wageOf () := by
  obtain ⟨core, wf, hl⟩ := exampleBuild_wf
  obtain ⟨la, hq, hc⟩ := exists_linearAlgebra
  have hcs : ∀ d s, exampleBuild.choiceSetAt d s = choiceSet exampleRestr s := by
    intro d s; cases d <;> rfl
  refine ⟨core, la, wf, rfl, rfl, by decide, ?_, exampleInputOf_wf _ _ core rfl hcs, ?_, fun bt => SameShape.refl _,
    fun sp => exampleEstimation_fits la hq hc _ _ wf rfl hcs [] ?_ sp⟩
  · intro t
    have h1 := List.length_filter_le (fun s : CoreState => decide (s.period = t)) core
    have h2 : exampleBuild.denseIndices.length = 2 := rfl
    have h3 : exampleBuild.points = 1000 := rfl
    rw [h2, h3]; omega
  · simp only [exampleInputOf]; norm_num
  · intro t ht
    match t, ht with
    | 0, _ => exact ⟨0, by omega, 0, rfl, rfl⟩
    | 1, _ => exact ⟨1, by omega, 1, rfl, rfl⟩

/-- The hypotheses of `C79_exogenous_criterion_partial` are met by the example with two types and a process with
two levels. -/
example : ∃ core la, exogenousBuild.WF core ∧ exogenousBuild.ExogWF [[0, 1]] ∧
    (∀ t, (core.filter fun s => decide (s.period = t)).length * exogenousBuild.denseIndices.length ≤
      exogenousBuild.points) ∧ (exampleInputOf Real.exp).WF exogenousBuild core ∧
    (exampleInputOf Real.exp).delta ≠ 0 ∧ exampleLevels.map List.length = exogenousBuild.exogLevels ∧
    (∀ levels ∈ exampleLevels, levels ≠ []) ∧
    (∀ levels ∈ exampleLevels, ∀ beta ∈ levels, ∀ item ∈ beta, ∀ d ∈ exogenousBuild.denseIndices,
      ∀ s ∈ core, ((exampleInputOf Real.exp).covariates d s item.1).isSome) ∧
    ∀ sp, (exampleEstimation la [1] sp).Fits exogenousBuild core (exampleInputOf Real.exp).wageOf () := by
  obtain ⟨core, wf, hl⟩ := exogenousBuild_wf
  obtain ⟨la, hq, hc⟩ := exists_linearAlgebra
  have hcs : ∀ d s, exogenousBuild.choiceSetAt d s = choiceSet exampleRestr s := by
    intro d s; cases d <;> rfl
  refine ⟨core, la, wf, ⟨by simp [exogenousBuild], rfl, by simp, fun _ => rfl⟩, ?_,
    exampleInputOf_wf _ _ core rfl hcs, ?_, rfl, ?_, fun _ _ _ _ _ _ _ _ _ _ => rfl,
    fun sp => exampleEstimation_fits la hq hc _ _ wf rfl hcs [1] ?_ sp⟩
  · intro t
    have h1 := List.length_filter_le (fun s : CoreState => decide (s.period = t)) core
    have h2 : exogenousBuild.denseIndices.length = 4 := rfl
    have h3 : exogenousBuild.points = 1000 := rfl
    rw [h2, h3]; omega
  · simp only [exampleInputOf]; norm_num
  · simp [exampleLevels]
  · intro t ht
    match t, ht with
    | 0, _ => exact ⟨1, by omega, 1, rfl, rfl⟩
    | 1, _ => exact ⟨3, by omega, 3, rfl, rfl⟩

end Examples

end Respy
