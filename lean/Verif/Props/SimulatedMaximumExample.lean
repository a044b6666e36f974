import Verif.Props.SimulatedMaximum
import Verif.Props.ProcessEstimateExample

/-!
# C118: concrete cases
-/

open MeasureTheory ProbabilityTheory

namespace Respy

noncomputable section

/-- The parameters divided by `1, 2, 3, ...`. -/
def dividedParams (m : UserModel) (j : Nat) : Dict (Str × Str) ℝ := m.params.map fun kv => (kv.1, kv.2 / (j + 1))

theorem dividedParams_index (m : UserModel) (hk : ∀ k ∈ m.params.map Prod.fst, k.1 ≠ "maximum_exp".toList) (j : Nat) :
    m.SameIndex (dividedParams m j) := by
  refine ⟨?_, fun c => ?_⟩
  · unfold dividedParams
    rw [List.map_map]
    rfl
  · have h : ∀ d : Dict (Str × Str) ℝ, (∀ kv ∈ d, kv.1.1 ≠ "maximum_exp".toList) →
        Dict.get? d ("maximum_exp".toList, c) = none := by
      intro d hd
      induction d with
      | nil => rfl
      | cons a as ih =>
        rw [Dict.get?, if_neg fun he => hd a List.mem_cons_self (congrArg Prod.fst he)]
        exact ih fun kv hkv => hd kv (List.mem_cons_of_mem _ hkv)
    rw [h, h]
    · intro kv hkv
      obtain ⟨x, hx, rfl⟩ := List.mem_map.1 hkv
      exact hk x.1 (List.mem_map_of_mem (f := Prod.fst) hx)
    · intro kv hkv
      exact hk _ (List.mem_map_of_mem (f := Prod.fst) hkv)

/-- The data without wages. -/
def EstimateEnv.withoutWages (e : EstimateEnv) : EstimateEnv :=
  { e with data := e.data.map fun r => { r with wage := none } }

theorem EstimateEnv.Fits.withoutWages {e : EstimateEnv} {p : Processed} {m : UserModel} {ev : FormulaEval}
    {core : List CoreState} {w : Option Nat → CoreState → Nat → ℝ} (h : e.Fits p m ev core w) :
    e.withoutWages.Fits p m ev core w where
  qr := h.qr
  cholesky := h.cholesky
  lo := h.lo
  hi := h.hi
  base := h.base
  index := by
    have := h.index
    unfold EstimateEnv.withoutWages
    rw [List.map_map]
    exact this
  first := by
    intro ht r hr
    obtain ⟨r, hr0, rfl⟩ := List.mem_map.1 hr
    obtain ⟨r', hr', h1, h2⟩ := h.first ht r hr0
    exact ⟨_, List.mem_map.2 ⟨r', hr', rfl⟩, h1, h2⟩
  states := by
    intro r hr
    obtain ⟨r, hr0, rfl⟩ := List.mem_map.1 hr
    obtain ⟨h1, h2⟩ := h.states r hr0
    refine ⟨h1, fun t ht => ?_⟩
    obtain ⟨d, c, h3, h4, h5, _⟩ := h2 t ht
    exact ⟨d, c, h3, h4, h5, fun y hy => by cases hy⟩

/-- `C118_accepted_models_partial` for a model with two types, data without wages and three candidates for the
parameters. -/
example : ∃ p la hi, processModel unitEnv estimateUser = some p ∧ ∃ bt, buildSpace (p.buildSpec textEval) = some bt ∧
    ∃ (q : Fin 3 → Processed) (V : Fin 3 → Option Nat → CoreState → ℝ),
      (∀ j : Fin 3, processModel unitEnv { estimateUser with params := dividedParams estimateUser j } = some (q j)) ∧
      MaximumApproaches (fun _ => p.buildSpec textEval) (fun j => ((q j).solveInput textEval exampleSolveEnv).wageOf)
        (fun j => ((q j).solveInput textEval exampleSolveEnv).nonpecOf) (fun _ d _ => [(d, 1)]) V
        (fun j n z => ((q j).solveInput textEval (exampleSolveEnv.withNumbers p.nPeriods n z)).solveModel
          (p.buildSpec textEval) (fun _ => some []) (kw94 bt.space firstRandom Real.sqrt (fun _ _ => [])
            (expShocks Real.exp 1 (q j).choices.wWage.length (q j).cholesky)) 0 (fun bt => initialValues bt.space) id id)
        (fun j sp => (q j).estimation textEval (estimateEnv la hi).withoutWages (some sp)) := by
  obtain ⟨p, core, hp, h1, h2, h3, h4, h5, h6, h7, h8, h9, _, _, _, _, _, _, _, la, hi, _, he⟩ :=
    estimateUser_hypotheses
  have hsmall := estimateUser_small
  rw [hp] at hsmall
  simp only [Option.any_some, Bool.and_eq_true, decide_eq_true_eq] at hsmall
  obtain ⟨⟨⟨_, g2⟩, g3⟩, _⟩ := hsmall
  rw [h1] at g2
  simp only [Option.any_some, decide_eq_true_eq] at g2
  have hΘ : ∀ j : Fin 3, estimateUser.SameIndex (dividedParams estimateUser j) :=
    fun j => dividedParams_index _ (by decide +kernel) j
  obtain ⟨bt, hbt, q, hq, h⟩ := C118_accepted_models_partial hp hΘ textEval_contract h2 h1 h3 h4 h5 h6 h7
    exampleSolveEnv h8.sizes h9 (no_interpolation g3 g2) firstRandom firstRandom_contract Real.sqrt
    (fun _ _ => []) 1 0 (fun bt => initialValues bt.space) (fun bt => SameShape.refl _) id id
    (estimateEnv la hi).withoutWages
  have hkeys : ∀ j : Fin 3, (Dict.keys (dividedParams estimateUser j)).Nodup := by
    intro j
    unfold Dict.keys at h6 ⊢
    exact (hΘ j).index ▸ h6
  have hother : ∀ j : Fin 3, ∀ x ∈ dividedParams estimateUser j, mentionsShocks x.1 = true →
      ∃ c ∈ shockCategories, x.1.1 = c.toList := by
    intro j x hx
    obtain ⟨y, hy, rfl⟩ := List.mem_map.1 hx
    exact h7 y hy
  have hdelta : ∀ j, 0 < (q j).discount.delta := by
    intro j
    obtain ⟨⟨delta, e1, e2, -⟩, -⟩ := C84_parameters_by_name (ev := textEval) (hq j) (hkeys j) (hother j) exampleSolveEnv
    have h : Dict.get? (dividedParams estimateUser j) ("delta".toList, "delta".toList) = 
        some (1 / 2 / (((j : Nat) : ℝ) + 1)) := by
      unfold dividedParams estimateUser exampleUser
      dsimp only [List.cons_append, List.map]
      rw [Dict.get?, if_pos rfl]
    dsimp only at e1
    rw [h] at e1
    cases e1
    rw [show (q j).discount.delta = _ from e2]
    positivity
  have hfits : ∀ j, (estimateEnv la hi).withoutWages.Fits (q j) { estimateUser with params := dividedParams estimateUser j }
      textEval core ((q j).solveInput textEval exampleSolveEnv).wageOf := by
    intro j
    have hst := processModel_sameIndex unitEnv estimateUser _ (hΘ j).index (hΘ j).max
    rw [hp, hq j] at hst
    cases hst with
    | some hst =>
      refine he.withoutWages.other (m := estimateUser) (m' := { estimateUser with params := dividedParams estimateUser j }) hst rfl
        fun r hr => ?_
      obtain ⟨r, _, rfl⟩ := List.mem_map.1 hr
      rfl
  obtain ⟨V, _, hmax⟩ := h (fun j => (hdelta j).le) hfits
  exact ⟨p, la, hi, hp, bt, hbt, q, V, hq, hmax⟩

/-- `C118_models_with_processes_partial` for a model with an exogenous process and three candidates for the
parameters. -/
example : ∃ p la, processModel unitEnv exogenousUser = some p ∧ ∃ bt, buildSpace (p.buildSpec textEval) = some bt ∧
    ∃ (q : Fin 3 → Processed) (V : Fin 3 → Option Nat → CoreState → ℝ),
      (∀ j : Fin 3, processModel unitEnv { exogenousUser with params := dividedParams exogenousUser j } = some (q j)) ∧
      MaximumApproaches (fun _ => p.buildSpec textEval) (fun j => ((q j).solveInput textEval exampleSolveEnv).wageOf)
        (fun j => ((q j).solveInput textEval exampleSolveEnv).nonpecOf)
        (fun j d s => (exogenousGrid (p.exogenous.map fun e => e.2.length)).map fun e =>
          ((p.buildSpec textEval).successor d e,
            levelProbability (q j).exogenousParams (p.covariates textEval d s) e)) V
        (fun j n z => ((q j).solveInput textEval (exampleSolveEnv.withNumbers p.nPeriods n z)).solveModel
          (p.buildSpec textEval)
          (((q j).solveInput textEval (exampleSolveEnv.withNumbers p.nPeriods n z)).transitions (q j).exogenousParams
            (p.buildSpec textEval)) (kw94 bt.space firstRandom Real.sqrt (fun _ _ => [])
            (expShocks Real.exp 1 (q j).choices.wWage.length (q j).cholesky)) 0 (fun bt => initialValues bt.space) id id)
        (fun j sp => (q j).estimation textEval
          { estimateEnv la 1 with data := [⟨7, ⟨⟨1, [1], []⟩, [1, 0]⟩, 1, none⟩] } (some sp)) := by
  obtain ⟨p, core, hp, h1, h2, h3, h4, h5, h6, h7, h8, h9, h10, h11, h12, _, la, he⟩ := exogenousUser_hypotheses
  have hsmall := exogenousUser_small
  rw [hp] at hsmall
  simp only [Option.any_some, Bool.and_eq_true] at hsmall
  obtain ⟨⟨g2, g3⟩, _⟩ := hsmall
  rw [h1] at g2
  have g2 : core.length * 4 ≤ p.points := of_decide_eq_true g2
  have g3 := of_decide_eq_true g3
  have hΘ : ∀ j : Fin 3, exogenousUser.SameIndex (dividedParams exogenousUser j) :=
    fun j => dividedParams_index _ (by decide +kernel) j
  obtain ⟨bt, hbt, q, hq, h⟩ := C118_models_with_processes_partial hp hΘ textEval_contract h2 h1 h3
    [("able".toList, 2)] h4 h5 h6 h7 h8 h9 h10
    exampleSolveEnv h11.sizes h12 (no_interpolation g3 g2) firstRandom firstRandom_contract Real.sqrt
    (fun _ _ => []) 1 0 (fun bt => initialValues bt.space) (fun bt => SameShape.refl _) id id
    { estimateEnv la 1 with data := [⟨7, ⟨⟨1, [1], []⟩, [1, 0]⟩, 1, none⟩] }
  have hkeys : ∀ j : Fin 3, (Dict.keys (dividedParams exogenousUser j)).Nodup := by
    intro j
    unfold Dict.keys at h9 ⊢
    exact (hΘ j).index ▸ h9
  have hother : ∀ j : Fin 3, ∀ x ∈ dividedParams exogenousUser j, mentionsShocks x.1 = true →
      ∃ c ∈ shockCategories, x.1.1 = c.toList := by
    intro j x hx
    obtain ⟨y, hy, rfl⟩ := List.mem_map.1 hx
    exact h10 y hy
  have hdelta : ∀ j, 0 < (q j).discount.delta := by
    intro j
    obtain ⟨⟨delta, e1, e2, -⟩, -⟩ := C84_parameters_by_name (ev := textEval) (hq j) (hkeys j) (hother j) exampleSolveEnv
    have h : Dict.get? (dividedParams exogenousUser j) ("delta".toList, "delta".toList) =
        some (1 / 2 / (((j : Nat) : ℝ) + 1)) := by
      unfold dividedParams exogenousUser
      dsimp only [List.map]
      rw [Dict.get?, if_pos rfl]
    dsimp only at e1
    rw [h] at e1
    cases e1
    rw [show (q j).discount.delta = _ from e2]
    positivity
  have hfits : ∀ j, EstimateEnv.Fits { estimateEnv la 1 with data := [⟨7, ⟨⟨1, [1], []⟩, [1, 0]⟩, 1, none⟩] } (q j)
      { exogenousUser with params := dividedParams exogenousUser j }
      textEval core ((q j).solveInput textEval exampleSolveEnv).wageOf := by
    intro j
    have hst := processModel_sameIndex unitEnv exogenousUser _ (hΘ j).index (hΘ j).max
    rw [hp, hq j] at hst
    cases hst with
    | some hst =>
      refine he.other (m := exogenousUser) (m' := { exogenousUser with params := dividedParams exogenousUser j }) hst rfl
        fun r hr => ?_
      cases List.mem_singleton.1 hr
      rfl
  obtain ⟨V, _, hmax⟩ := h (fun j => (hdelta j).le) hfits
  exact ⟨p, la, hp, bt, hbt, q, V, hq, hmax⟩

end

end Respy
