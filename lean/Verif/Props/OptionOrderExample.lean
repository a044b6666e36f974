import Verif.Props.OptionOrder
import Verif.Props.ParameterFunctionsExample

/-!
# C102 Examples
-/

namespace Respy

/-- The options in another order; a formula of `negative_choice_set` is repeated. -/
noncomputable def reversedUser : UserModel :=
  { estimateUser with
    covariates := estimateUser.covariates.reverse
    negativeChoiceSet := [("b".toList, ["exp_b == 1".toList, "exp_b == 1".toList])] }

/-- Only orders differ. -/
theorem reversedUser_options : OtherOptions estimateUser reversedUser where
  params := rfl
  nPeriods := rfl
  points := rfl
  covariates := (List.reverse_perm _).symm
  unique := by decide +kernel
  restrictions := fun c => by
    show Option.Rel SameFormulas (Dict.get? [("b".toList, ["exp_b == 1".toList])] c)
      (Dict.get? [("b".toList, ["exp_b == 1".toList, "exp_b == 1".toList])] c)
    generalize "exp_b == 1".toList = f
    by_cases hc : "b".toList = c
    · have h1 : ∀ v : List Str, Dict.get? [("b".toList, v)] c = some v := fun v => by rw [Dict.get?, if_pos hc]
      rw [h1, h1]
      exact .some fun x => by simp only [List.mem_cons, List.not_mem_nil, or_false, or_self]
    · have h1 : ∀ v : List Str, Dict.get? [("b".toList, v)] c = none := fun v => by rw [Dict.get?, if_neg hc]; rfl
      rw [h1, h1]
      exact .none
  filters := fun _ => Iff.rfl

/-- The hypotheses hold for a model with two types, and the order of the options differs. -/
example : OtherOptions estimateUser reversedUser ∧ estimateUser.covariates ≠ reversedUser.covariates ∧
    estimateUser.negativeChoiceSet ≠ reversedUser.negativeChoiceSet ∧
    ∃ p, processModel unitEnv estimateUser = some p ∧ estimateUser.Reprocessable p ∧ textEval.Contract ∧
      p.FormulasSound textEval ∧ "identifier".toList ∉ Dict.keys p.groups.all ∧
      (∀ t beta, Dict.get? p.typeProb t = some beta → ∃ bound, Graded p.groups.all (beta.map Prod.fst) bound) ∧
      2 ≤ p.nTypes := by
  obtain ⟨p, core, hp, _, _, _, _, _, _, _, _, _, _, _, h7, _, h8, h9, _, _⟩ := estimateUser_hypotheses
  have hr := estimateUser_reprocessable
  rw [hp] at hr
  exact ⟨reversedUser_options, by decide +kernel, by decide +kernel, p, hp, reprocessable_of_check _ _ hr,
    textEval_contract, h7, h8.identifier, h8.graded, h9⟩

/-- Covariates which equal others without dependencies. -/
noncomputable def constantUser : UserModel :=
  { exampleUser with
    params := exampleUser.params ++ [(("nonpec_a".toList, "copy".toList), 1)]
    covariates := exampleUser.covariates ++ [("level".toList, "constant".toList), ("copy".toList, "level".toList)] }

/-- The same model with another order. -/
noncomputable def constantUser' : UserModel :=
  { constantUser with covariates := constantUser.covariates.reverse }

/-- **C102 (negation without accurate dependencies).** Both orders are accepted. For one of them the covariates of a
state are computed, for the other one there is an error, as `level` is placed in front of `constant`, on which it
depends without having it as a dependency. (In the code the order of the covariates of a group is moreover that of a set.) -/
theorem C102_constant_false : OtherOptions constantUser constantUser' ∧
    ∃ p p', processModel unitEnv constantUser = some p ∧ processModel unitEnv constantUser' = some p' ∧
      ∃ s, (p'.covariates textEval none s "copy".toList).isSome ∧ p.stateFrame textEval none s = none := by
  refine ⟨⟨rfl, rfl, rfl, (List.reverse_perm _).symm, by decide +kernel, fun c => ?_, fun _ => Iff.rfl⟩, ?_⟩
  · show Option.Rel SameFormulas (Dict.get? exampleUser.negativeChoiceSet c) (Dict.get? exampleUser.negativeChoiceSet c)
    cases Dict.get? exampleUser.negativeChoiceSet c with
    | none => exact .none
    | some fs => exact .some fun _ => Iff.rfl
  · have h1 : (processModel unitEnv constantUser).any fun p =>
      ((p.stateFrame textEval none ⟨0, [0], [some 0]⟩).isNone) := by decide +kernel
    have h2 : (processModel unitEnv constantUser').any fun p =>
      ((p.covariates textEval none ⟨0, [0], [some 0]⟩ "copy".toList).isSome) := by decide +kernel
    obtain ⟨p, hp, h1⟩ := (Option.any_eq_true _ _).1 h1
    obtain ⟨p', hp', h2⟩ := (Option.any_eq_true _ _).1 h2
    exact ⟨p, p', hp, hp', _, h2, Option.isNone_iff_eq_none.1 h1⟩

end Respy
