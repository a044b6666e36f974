import Verif.Lemmas.TransitionFrame
import Verif.Props.Rewards

/-!
# C70 with exogenous processes
-/

set_option linter.unusedSectionVars false

namespace Respy

/-- **C19.** A frame of transition probabilities has exactly one column for each dense key which can be reached, with
one probability per state. -/
theorem C19_one_column_per_key (ep : ExogenousParams) (covariatesOf : Nat → Option (List Nat)) (keys : List Nat)
    (rows : List (StateRow ℝ)) (frame : List (Nat × List ℝ))
    (h : transitionFrame ep covariatesOf keys rows = some frame) :
    (frame.map Prod.fst).Nodup ∧ (∀ k, k ∈ frame.map Prod.fst ↔ k ∈ keys) ∧
      ∀ column ∈ frame, column.2.length = rows.length := by
  have hcol : List.Forall₂ (fun k x => x.1 = k ∧ x.2.length = rows.length) keys.eraseDups frame := by
    refine ((mapM_eq_some_iff _ _ _).1 h).imp fun k x hx => ?_
    obtain ⟨covariates, _, hx⟩ := Option.bind_eq_some_iff.1 hx
    obtain ⟨column, hc, hx⟩ := Option.bind_eq_some_iff.1 hx
    cases hx
    exact ⟨rfl, mapM_eq_some_length _ _ _ hc⟩
  have hkeys : frame.map Prod.fst = keys.eraseDups := by
    clear h
    generalize keys.eraseDups = ks at hcol
    induction hcol with
    | nil => rfl
    | cons h1 _ ih => rw [List.map_cons, h1.1, ih]
  refine ⟨by rw [hkeys]; exact nodup_eraseDups _, fun k => by rw [hkeys, List.mem_eraseDups], fun column hc => ?_⟩
  obtain ⟨i, hi⟩ := List.mem_iff_getElem?.1 hc
  obtain ⟨k, _, h2⟩ := forall₂_getElem? hcol.flip i _ hi
  exact h2.2

/-- Two keys, the first of which is found twice. -/
example : ∃ frame, transitionFrame [[[], []]] (fun k => if k < 2 then some [k] else none) [0, 1, 0] [fun _ => none] =
    some frame ∧ frame.map Prod.fst = [0, 1] := by
  have hk : ([0, 1, 0] : List Nat).eraseDups = [0, 1] := by decide +kernel
  unfold transitionFrame
  rw [hk]
  exact ⟨_, rfl, rfl⟩

/-- **C19.** The probabilities of the next levels of the exogenous processes are non-negative and sum to
one over all combinations of levels. -/
theorem C19_level_probabilities (ep : ExogenousParams) (hne : ∀ levels ∈ ep, levels ≠ [])
    (row : StateRow ℝ) :
    (∀ e ∈ exogenousGrid (ep.map List.length), 0 ≤ levelProbability ep row e) ∧
      ((exogenousGrid (ep.map List.length)).map (levelProbability ep row)).sum = 1 := by
  set xbetas := ep.map fun levels => levels.map (linearIndex row) with hxb
  have hmap : (ep.map List.length).map List.range =
      (xbetas.map softmax).map fun ps => List.range ps.length := by
    simp [hxb, softmax, Function.comp_def]
  have hsel : ∀ e, levelProbability ep row e = selectedProduct (xbetas.map softmax) e :=
    fun e => (selectedProduct_softmax xbetas e).symm
  constructor
  · intro e _
    rw [levelProbability]
    apply List.prod_nonneg
    intro x hx
    obtain ⟨j, hj⟩ := List.mem_iff_getElem?.1 hx
    rw [List.getElem?_zipWith] at hj
    split at hj
    · rename_i xs v _ _
      simp only [Option.some.injEq] at hj
      rw [← hj]
      unfold logitProbability
      split
      · apply div_nonneg (Real.exp_pos _).le
        apply List.sum_nonneg
        intro y hy
        obtain ⟨z, _, rfl⟩ := List.mem_map.1 hy
        exact (Real.exp_pos z).le
      · exact le_refl 0
    · cases hj
  · rw [show levelProbability ep row = selectedProduct (xbetas.map softmax) from funext hsel,
      exogenousGrid, hmap, sum_product]
    apply List.prod_eq_one
    intro x hx
    obtain ⟨ps, hps, rfl⟩ := List.mem_map.1 hx
    obtain ⟨xs, hxs, rfl⟩ := List.mem_map.1 hps
    apply softmax_sum
    obtain ⟨levels, hl, rfl⟩ := List.mem_map.1 hxs
    simpa using hne levels hl

/-- **C70 (partial).** Models with exogenous processes whose dense grid is the product of static
characteristics and levels of the processes (`ExogWF`), with at least as many interpolation points as
states in any period and with a discount factor other than zero. The state space, the transition frames,
the rewards and the draws are created without an exception, the backward induction succeeds, and the
stored values are the value function for the rewards and shocks of the model, where the value of the next
period is averaged over the levels of the processes with their multinomial logit probabilities; static
characteristics do not change. Missing: interpolation and the shortcut for a discount factor of zero (see
`C80_exogenous_solution_with_interpolation` and `C80_exogenous_zero_discount_factor`) and dense grids which
violate `ExogWF`. -/
theorem C70_exogenous_solution_partial (b : BuildSpec) (core : List CoreState) (wf : b.WF core)
    (static : List (List Nat)) (hx : b.ExogWF static)
    (hpts : ∀ t, (core.filter fun s => decide (s.period = t)).length * b.denseIndices.length ≤
      b.points) (inp : SolveInput ℝ) (hinp : inp.WF b core) (hdelta : inp.delta ≠ 0)
    (ep : ExogenousParams) (hep : ep.map List.length = b.exogLevels) (hlev : ∀ levels ∈ ep, levels ≠ [])
    (hcov : ∀ levels ∈ ep, ∀ beta ∈ levels, ∀ item ∈ beta, ∀ d ∈ b.denseIndices, ∀ s ∈ core,
      (inp.covariates d s item.1).isSome) :
    ∃ bt transition par, buildSpace b = some bt ∧ inp.transitions ep b bt = some transition ∧
      inp.paramObjects bt transition = some par ∧
      ∀ (interp : Interpolation ℝ) (seed : Nat) (ev0 : Dict Nat (List ℝ)),
        SameShape (initialValues bt.space) ev0 →
        (solveBackward bt.space interp par seed ev0).2 = true ∧
        ∃ V, IsValueFunction b core inp.delta inp.wageOf inp.nonpecOf inp.shocks
            (fun d s => (exogenousGrid b.exogLevels).map fun e =>
              (b.successor d e, levelProbability ep (inp.covariates d s) e)) V ∧
          ∀ d ∈ b.denseIndices, ∀ s ∈ core,
            bt.ValueAt (solveBackward bt.space interp par seed ev0).1 d s (V d s) := by
  obtain ⟨bt, reps, hbuild, hsnd, htr, hdpc⟩ := buildSpace_exogenous b core wf static hx
  obtain ⟨transition, ht, hfit⟩ := inp.transitions_fit ep b core wf static hx hep hcov bt reps hsnd hdpc
  obtain ⟨par, h1, h2, h3, hpf⟩ := hinp.paramsFit wf hsnd transition
  refine ⟨bt, transition, par, hbuild, ht, h1, ?_⟩
  intro interp seed ev0 hs
  have hne : exogenousGrid b.exogLevels ≠ [] := by
    intro h0
    have := (C19_level_probabilities ep hlev fun _ => none).2
    rw [hep, h0] at this
    simp at this
  have hcont := hsnd.continuationIs_exogenous htr hne par
    (fun d s e => levelProbability ep (inp.covariates d s) e) (by rw [h3]; exact hfit)
  obtain ⟨grid, hg⟩ : ∃ grid, b.grid = some grid := ⟨_, hx.grid⟩
  obtain ⟨hok, V, hV, hval⟩ := hsnd.solution wf hpts interp par _ _ _ _ (by
    intro d hd s _ fp hfp
    obtain ⟨e, he, rfl⟩ := List.mem_map.1 hfp
    obtain ⟨i, rfl, hlt⟩ := (mem_denseIndices hg _).1 hd
    obtain ⟨d', q1, q2, _⟩ := hx.successor_spec hg i _ (List.getElem?_eq_getElem hlt) e he
    simp only [q1]
    exact (mem_denseIndices hg _).2 ⟨d', rfl, q2⟩) hpf hcont (by rw [h2]; exact hdelta) seed ev0 hs
  rw [h2] at hV
  exact ⟨hok, V, hV.of_rows, hval⟩

/-! A concrete case: two types and one exogenous process with two levels. -/

/-- The example model with two types and a process with two levels. -/
def exogenousBuild : BuildSpec where
  core := exampleSpec
  restrCore := exampleRestr
  restr := fun _ => exampleRestr
  grid := some [[0, 0], [0, 1], [1, 0], [1, 1]]
  exogLevels := [2]
  points := 1000

/-- The probability of the second level depends on experience. -/
noncomputable def exampleLevels : ExogenousParams :=
  [[[("constant".toList, 1)], [("constant".toList, 1), ("exp_a".toList, 1 / 10)]]]

theorem exogenousBuild_wf : ∃ core, exogenousBuild.WF core ∧ core.length ≤ 100 := by
  have hc : ∃ core, createCore exampleSpec = some core ∧ core.length ≤ 100 := by
    obtain ⟨core, wf, hl⟩ := exampleBuild_wf
    exact ⟨core, wf.created, hl⟩
  obtain ⟨core, hc, hl⟩ := hc
  refine ⟨core, C70_unfiltered_models_well_formed exogenousBuild core exampleSpec_wf (by decide) rfl hc
    (by decide) exampleSpec_lowest (fun grid hg => ?_) (fun _ => rfl) rfl ?_, hl⟩
  · cases hg
    exact ⟨by simp, by decide⟩
  intro c formulas hc hf
  match c, hc with
  | 0, _ => simp [exogenousBuild, exampleRestr] at hf; subst hf; simp [exogenousBuild]
  | 1, _ => simp [exogenousBuild, exampleRestr] at hf; subst hf; simp [exogenousBuild]

/-- The hypotheses of `C70_exogenous_solution_partial` are met by the example. -/
example : ∃ core, exogenousBuild.WF core ∧ exogenousBuild.ExogWF [[0, 1]] ∧
    (∀ t, (core.filter fun s => decide (s.period = t)).length * exogenousBuild.denseIndices.length ≤
      exogenousBuild.points) ∧ (exampleInputOf Real.exp).WF exogenousBuild core ∧
    (exampleInputOf Real.exp).delta ≠ 0 ∧ exampleLevels.map List.length = exogenousBuild.exogLevels ∧
    (∀ levels ∈ exampleLevels, levels ≠ []) ∧
    (∀ levels ∈ exampleLevels, ∀ beta ∈ levels, ∀ item ∈ beta, ∀ d ∈ exogenousBuild.denseIndices,
      ∀ s ∈ core, ((exampleInputOf Real.exp).covariates d s item.1).isSome) := by
  obtain ⟨core, wf, hl⟩ := exogenousBuild_wf
  have hcs : ∀ d s, exogenousBuild.choiceSetAt d s = choiceSet exampleRestr s := by
    intro d s; cases d <;> rfl
  refine ⟨core, wf, ⟨by simp [exogenousBuild], rfl, by simp, fun _ => rfl⟩, ?_,
    exampleInputOf_wf _ _ core rfl hcs, ?_, rfl, ?_, fun _ _ _ _ _ _ _ _ _ _ => rfl⟩
  · intro t
    have h1 := List.length_filter_le (fun s : CoreState => decide (s.period = t)) core
    have h2 : exogenousBuild.denseIndices.length = 4 := rfl
    have h3 : exogenousBuild.points = 1000 := rfl
    rw [h2, h3]; omega
  · simp only [exampleInputOf]; norm_num
  · simp [exampleLevels]

end Respy
