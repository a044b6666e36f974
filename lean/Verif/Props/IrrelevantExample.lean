import Verif.Props.Irrelevant
import Verif.Props.ProcessEstimateExample

/-!
# C101: an example
-/

namespace Respy

/-- The model of C82 with an observable `town` on which nothing depends. -/
noncomputable def townUser : UserModel :=
  { exampleUser with
    params := exampleUser.params ++ [(("observable_town_0".toList, "probability".toList), 1 / 2),
      (("observable_town_1".toList, "probability".toList), 1 / 2)] }

/-- The covariates of the model which are computed from other variables. -/
def townCovariates : List (Str × List Str) :=
  [("constant".toList, []), ("able".toList, ["iq".toList]), ("same".toList, ["lagged_choice_1".toList]),
    ("type_1".toList, ["type".toList])]

/-- A test of the properties of the model. -/
noncomputable def townCheck (p : Processed) : Bool :=
  exampleCheck townUser p && decide (p.exogenous.length = 0) &&
  decide (denseGrid p.denseSpec =
    some [[0, 0, 0], [0, 0, 1], [0, 1, 0], [0, 1, 1], [1, 0, 0], [1, 0, 1], [1, 1, 0], [1, 1, 1]]) &&
  decide ((denseColumns p.denseSpec).map String.toList = ["iq".toList, "town".toList, "type".toList]) &&
  decide (coreColumns p.choices.wExp p.lags.length = ["period".toList, "exp_b".toList, "lagged_choice_1".toList]) &&
  (p.groups.all.all fun cd => textDefined cd.2.dependsOn cd.2.formula) &&
  decide (∀ x ∈ coreColumns p.choices.wExp p.lags.length ++ (denseColumns p.denseSpec).map String.toList,
    x ∉ Dict.keys p.groups.all) &&
  (townCovariates.all fun c => decide (c.1 ∉ p.stateColumns) &&
    p.groups.all.any fun cd => decide (cd.1 = c.1 ∧ cd.2.dependsOn = c.2)) &&
  (createCore (p.buildSpec textEval).core).any fun core => decide (core.length * 8 ≤ p.points)

theorem townUser_check : (processModel unitEnv townUser).any townCheck = true := by decide +kernel

theorem townUser_names : ((townUser.params.map Prod.fst).all fun k =>
    !(decide (k.1 = "wage_b".toList) || decide (k.1 = "wage_a".toList) || decide (k.1 = "nonpec_b".toList) ||
      decide (k.1 = "nonpec_a".toList)) || decide (k.2 = "exp_b".toList) ||
      decide (k.2 ∈ townCovariates.map Prod.fst)) = true := by decide +kernel

theorem get?_append_congr {κ ν : Type _} [DecidableEq κ] (d e e' : Dict κ ν) (k : κ)
    (h : Dict.get? e k = Dict.get? e' k) : Dict.get? (d ++ e) k = Dict.get? (d ++ e') k := by
  induction d with
  | nil => exact h
  | cons x xs ih =>
    simp only [List.cons_append, Dict.get?]
    split
    · rfl
    · exact ih

/-- The hypotheses of `C101_unused_characteristics` and of the theorems on the values hold for the model and for the
dense indices `0` and `2`, which belong to different towns. -/
theorem townUser_hypotheses : ∃ p core, processModel unitEnv townUser = some p ∧
    createCore (p.buildSpec textEval).core = some core ∧ p.Supported townUser textEval core ∧
    p.exogenous = [] ∧ unitEnv.KeepsShape ∧ (Dict.keys townUser.params).Nodup ∧
    (∀ q ∈ townUser.params, mentionsShocks q.1 = true → ∃ c ∈ shockCategories, q.1.1 = c.toList) ∧
    exampleSolveEnv.Fits (p.buildSpec textEval) core ∧
    (∀ d ∈ (p.buildSpec textEval).denseIndices, ∀ s ∈ core,
      ∃ c ∈ p.choices.choices, p.Allowed townUser textEval d s c) ∧
    (∀ t, ¬ (p.buildSpec textEval).Interpolates core t) ∧
    (Dict.keys townUser.covariates).Nodup ∧ p.FormulasSound textEval ∧
    some 0 ∈ (p.buildSpec textEval).denseIndices ∧ some 2 ∈ (p.buildSpec textEval).denseIndices ∧
    (∀ c ∈ p.choices.choices, ∀ q ∈ townUser.params, q.1.1 = "wage_".toList ++ c ∨ q.1.1 = "nonpec_".toList ++ c →
      p.Grounded (p.SameVariable core (some 0) (some 2)) q.1.2) ∧
    (∀ c ∈ p.choices.choices, ∀ f ∈ p.userRestrictions townUser c, ∃ cols, textEval.defined cols f = true ∧
      ∀ x ∈ cols, p.Grounded (p.SameVariable core (some 0) (some 2)) x) ∧
    ∀ s ∈ core, Dict.get? (p.stateVariables (some 0) s) "town".toList ≠
      Dict.get? (p.stateVariables (some 2) s) "town".toList := by
  obtain ⟨p, hp, hcheck⟩ := (Option.any_eq_true _ _).1 townUser_check
  unfold townCheck at hcheck
  simp only [Bool.and_eq_true] at hcheck
  obtain ⟨⟨⟨⟨⟨⟨⟨⟨h1, h2⟩, h3⟩, h4⟩, h5⟩, h6⟩, h7⟩, h8⟩, h9⟩ := hcheck
  obtain ⟨core, a1, a2, a3, a4, a5⟩ := example_hypotheses _ p h1
  have hgrid := of_decide_eq_true h3
  have hcols := of_decide_eq_true h4
  have hcorecols := of_decide_eq_true h5
  unfold exampleCheck at h1
  simp only [Bool.and_eq_true, decide_eq_true_eq] at h1
  obtain ⟨⟨⟨⟨⟨⟨_, b2⟩, b3⟩, b4⟩, b5⟩, b6⟩, _⟩ := h1
  have hsv : ∀ (s : CoreState) (x : Str), x ≠ "town".toList → Dict.get? (p.stateVariables (some 0) s) x =
      Dict.get? (p.stateVariables (some 2) s) x := by
    intro s x hx
    unfold Processed.stateVariables
    dsimp only
    rw [hgrid, hcols]
    refine get?_append_congr _ _ _ _ ?_
    simp only [Option.bind_some, List.getElem?_cons_zero, List.getElem?_cons_succ, Option.getD_some, List.map_cons,
      List.map_nil, List.zip_cons_cons, List.zip_nil_right, Dict.get?]
    split
    · rfl
    · split
      · next h => exact absurd h.symm hx
      · rfl
  have hknown : ∀ x ∈ ["period".toList, "exp_b".toList, "lagged_choice_1".toList, "iq".toList, "type".toList],
      p.Grounded (p.SameVariable core (some 0) (some 2)) x := by
    intro x hx
    refine .known x ⟨?_, fun s _ => hsv s x ?_⟩
    · rw [hcorecols, hcols]
      have : ∀ x ∈ ["period".toList, "exp_b".toList, "lagged_choice_1".toList, "iq".toList, "type".toList],
        x ∈ ["period".toList, "exp_b".toList, "lagged_choice_1".toList] ++
          ["iq".toList, "town".toList, "type".toList] := by decide
      exact this x hx
    · have : ∀ x ∈ ["period".toList, "exp_b".toList, "lagged_choice_1".toList, "iq".toList, "type".toList],
        x ≠ "town".toList := by decide
      exact this x hx
  have hcov : ∀ x ∈ townCovariates.map Prod.fst, p.Grounded (p.SameVariable core (some 0) (some 2)) x := by
    intro x hx
    obtain ⟨c, hc, rfl⟩ := List.mem_map.1 hx
    have := List.all_eq_true.1 h8 c hc
    simp only [Bool.and_eq_true, decide_eq_true_eq, List.any_eq_true] at this
    obtain ⟨g1, ⟨y, e⟩, hcd, g2, g3⟩ := this
    dsimp only at g2 g3
    subst g2
    refine .covariate _ e hcd g1 fun x hx => hknown x ?_
    rw [g3] at hx
    have : ∀ c ∈ townCovariates, ∀ x ∈ c.2,
      x ∈ ["period".toList, "exp_b".toList, "lagged_choice_1".toList, "iq".toList, "type".toList] := by decide
    exact this c hc x hx
  have hden : (p.buildSpec textEval).denseIndices = (List.range 8).map some := by
    unfold BuildSpec.denseIndices
    have : (p.buildSpec textEval).grid = _ := hgrid
    rw [this]
    rfl
  have hno : ∀ t, ¬ (p.buildSpec textEval).Interpolates core t := by
    intro t ht
    have hcore : core.length * 8 ≤ p.points := by
      rw [a1] at h9
      exact of_decide_eq_true h9
    have hlen : ((p.buildSpec textEval).statesOfPeriod core t).length ≤ core.length * 8 := by
      have hfil := List.length_filter_le (fun s : CoreState => decide (s.period = t)) core
      have hr : (List.range 8).map some = [some 0, some 1, some 2, some 3, some 4, some 5, some 6, some 7] := rfl
      unfold BuildSpec.statesOfPeriod
      rw [hden, hr]
      simp only [List.flatMap_cons, List.flatMap_nil, List.length_append, List.length_map, List.length_nil]
      omega
    have := ht.1
    have hpts : (p.buildSpec textEval).points = p.points := rfl
    omega
  have hidx : ∀ i < 8, some i ∈ (p.buildSpec textEval).denseIndices := by
    intro i hi
    rw [hden]
    exact List.mem_map.2 ⟨i, List.mem_range.2 hi, rfl⟩
  refine ⟨p, core, hp, a1, a2, List.length_eq_zero_iff.1 (of_decide_eq_true h2), unitEnv_contracts.1,
    by decide +kernel, exampleShocks townUser (by decide +kernel), a3, a4, hno, by decide +kernel,
    ⟨fun c d hcd => textEval_accurate d (List.all_eq_true.1 h6 _ hcd), of_decide_eq_true h7, ?_⟩,
    hidx 0 (by omega), hidx 2 (by omega), fun c hc q hq hcat => ?_, fun c hc f hf => ?_, fun s hs => ?_⟩
  · rw [hcols]; decide
  · have := List.all_eq_true.1 townUser_names q.1 (List.mem_map.2 ⟨q, hq, rfl⟩)
    have hcat' : (decide (q.1.1 = "wage_b".toList) || decide (q.1.1 = "wage_a".toList) ||
        decide (q.1.1 = "nonpec_b".toList) || decide (q.1.1 = "nonpec_a".toList)) = true := by
      simp only [Bool.or_eq_true, decide_eq_true_eq]
      rw [b2] at hc
      simp only [List.mem_cons, List.not_mem_nil, or_false] at hc
      rcases hc with rfl | rfl <;> rcases hcat with h | h
      · exact Or.inl (Or.inl (Or.inl h))
      · exact Or.inl (Or.inr h)
      · exact Or.inl (Or.inl (Or.inr h))
      · exact Or.inr h
    rw [hcat'] at this
    simp only [Bool.not_true, Bool.false_or, Bool.or_eq_true, decide_eq_true_eq] at this
    rcases this with h | h
    · rw [h]; exact hknown _ (by decide)
    · exact hcov _ h
  · have hf' : f = "exp_b == 1".toList := by
      rw [b2] at hc
      simp only [List.mem_cons, List.not_mem_nil, or_false] at hc
      rcases hc with rfl | rfl
      · rw [b5] at hf; exact List.mem_singleton.1 hf
      · rw [b4] at hf; cases hf
    subst hf'
    refine ⟨["exp_b".toList], textEval_contract.experience_defined _ "b".toList 1 (by decide) (by decide), fun x hx => ?_⟩
    rw [List.mem_singleton.1 hx]
    exact hknown _ (by decide)
  · obtain ⟨_, hfrom⟩ := processModel_from _ _ p hp
    have hsh := a2.shaped hfrom a1 s hs
    have hnot : "town".toList ∉ Dict.keys (p.coreRow s) := by
      rw [coreRow_keys p s hsh.exp hsh.lags hsh.lagged, hcorecols]
      decide
    unfold Processed.stateVariables
    dsimp only
    rw [get?_append_of_not_mem _ _ _ hnot, get?_append_of_not_mem _ _ _ hnot, hgrid, hcols]
    simp only [Option.bind_some, List.getElem?_cons_zero, List.getElem?_cons_succ, Option.getD_some, List.map_cons,
      List.map_nil, List.zip_cons_cons, List.zip_nil_right, Dict.get?]
    rw [if_neg (by decide), if_pos trivial, if_neg (by decide), if_pos trivial]
    simp

/-- The two dense indices have the same effects. -/
example : ∃ p core, processModel unitEnv townUser = some p ∧ createCore (p.buildSpec textEval).core = some core ∧
    p.SameEffects townUser textEval core (some 0) (some 2) := by
  obtain ⟨p, core, h1, h2, h3, _, _, _, _, _, _, _, h4, h5, h6, h7, h8, h9, _⟩ := townUser_hypotheses
  exact ⟨p, core, h1, h2, C101_unused_characteristics h1 h4 textEval_contract h5 h3 h2 _ _ h6 h7 h8 h9⟩

end Respy
