import Verif.Model.ProcessModel
import Verif.Spec.Build

/-!
# Specification of formulas and of models which can be solved
-/

namespace Respy

/-- The contract of `df.eval`.

* `False` is false.
* `exp_c == m` compares the column `exp_c` with `m`.
* Whether a formula can be evaluated depends on the columns of the frame, its value on the values in these
  columns. -/
structure FormulaEval.Contract (ev : FormulaEval) : Prop where
  false_defined : ∀ cols, ev.defined cols "False".toList = true
  false_value : ∀ row, ev.value row "False".toList = some 0
  experience_defined : ∀ cols c m, (∀ x ∈ c, isNameChar x = true) → "exp_".toList ++ c ∈ cols →
    ev.defined cols ("exp_".toList ++ c ++ " == ".toList ++ Nat.toDigits 10 m) = true
  experience_value : ∀ row c m x, (∀ x ∈ c, isNameChar x = true) → row ("exp_".toList ++ c) = some x →
    ev.value row ("exp_".toList ++ c ++ " == ".toList ++ Nat.toDigits 10 m) = some (if x = (m : ℝ) then 1 else 0)
  more_columns : ∀ cols cols' f, ev.defined cols f = true → (∀ x ∈ cols, x ∈ cols') → ev.defined cols' f = true
  same_columns : ∀ cols f row row', ev.defined cols f = true → (∀ x ∈ cols, row x = row' x) →
    ev.value row f = ev.value row' f

/-- The formulas of the user which forbid the choice `c`, with labels replaced by codes (see C49 for this
conversion). -/
def Processed.userRestrictions (p : Processed) (m : UserModel) (c : Str) : List Str :=
  ((Dict.get? m.negativeChoiceSet c).getD []).map (replaceLabels p.choices.choices (textLevels p.observables))

/-- The choice `c` is allowed in a state: none of the formulas of the user holds, and if the choice has
experience whose maximum can be exceeded within the horizon, then the maximum is not reached. -/
def Processed.Allowed (p : Processed) (m : UserModel) (ev : FormulaEval) (d : Option Nat) (s : CoreState)
    (c : Str) : Prop :=
  (∀ f ∈ p.userRestrictions m c, ev.holds (p.covariates ev d s) f = false) ∧
  ∀ (i : Nat) start mx e, p.choices.wExp[i]? = some c → p.experience[i]? = some (start, mx) → s.exp[i]? = some e →
    (∃ x ∈ Dict.keys start, mx < p.nPeriods - 1 + x) → e ≠ mx

/-- Models for which the solution is described: there is a choice and at most one lag (see
`C86_two_lags_false` for more lags), all numbers of experiences fit into eight bits, names of dense variables are
not names of columns of the core, all covariates can be computed, and the names of the parameters of rewards
are columns.

* `experience`, `several`, `covered`: there is a choice with experience, at least two choices if there are dense
  variables, and a state in each period (see C103 for other models).
* `filters`: filters can be evaluated without covariates.
* `restrictions`, `separate`: restrictions can be evaluated. If they use dense variables, then two states of a period
  have the same choices for one dense index if and only if they have the same choices on the core (see C07 for what
  happens otherwise). -/
structure Processed.Described (p : Processed) (m : UserModel) (ev : FormulaEval) (core : List CoreState) : Prop where
  choice : p.choices.choices ≠ []
  experience : p.choices.wExp ≠ []
  several : ∀ grid, denseGrid p.denseSpec = some grid → grid ≠ [] ∧ p.choices.choices.length ≠ 1
  periods : 0 < p.nPeriods
  covered : ∀ t < p.nPeriods, ∃ s ∈ core, s.period = t
  lags : p.lags.length ≤ 1
  filters : ∀ f ∈ p.filters, ev.defined (coreColumns p.choices.wExp p.lags.length) f = true
  starts : ∀ e ∈ p.experience, ∀ x ∈ Dict.keys e.1, x < 256
  maxima : ∀ e ∈ p.experience, e.2 < 256
  restrictions : ∀ c ∈ p.choices.choices, ∀ f ∈ p.userRestrictions m c,
    ev.defined (p.columns (denseGrid p.denseSpec).isSome) f = true
  separate : (∀ c ∈ p.choices.choices, ∀ f ∈ p.userRestrictions m c, ev.defined (p.columns false) f = true) ∨
    ∀ d ∈ (p.buildSpec ev).denseIndices, ∀ s ∈ core, ∀ s' ∈ core, s.period = s'.period →
      ((p.buildSpec ev).choiceSetAt d s = (p.buildSpec ev).choiceSetAt d s' ↔
        (p.buildSpec ev).choiceSetAt none s = (p.buildSpec ev).choiceSetAt none s')
  names : ∀ x ∈ denseColumns p.denseSpec, x.toList ∉ p.columns false
  computable : ∀ d ∈ (p.buildSpec ev).denseIndices, ∀ s ∈ core, (p.stateFrame ev d s).isSome
  rewards : ∀ c ∈ p.choices.choices, ∀ beta, p.wage c = some beta ∨ p.nonpec c = some beta →
    ∀ item ∈ beta, item.1 ∈ p.columns (denseGrid p.denseSpec).isSome

/-- Models which can be solved: there are no filters, or allowed choices do not lead to states which are filtered out. The
code raises an exception otherwise (`C86_accepted_models_created`). -/
structure Processed.Supported (p : Processed) (m : UserModel) (ev : FormulaEval) (core : List CoreState) : Prop
    extends p.Described m ev core where
  closed : p.filters = [] ∨ ∀ s ∈ core, s.period + 1 < p.nPeriods → ∀ d ∈ (p.buildSpec ev).denseIndices,
    ∀ (a : Nat) (c : Str), p.choices.choices[a]? = some c → p.Allowed m ev d s c → lawOfMotion s a ∈ core

/-- Random numbers which fit to a model: arrays have the requested shape, and `sizes` lists the numbers of
alternatives. -/
structure SolveEnv.Fits (env : SolveEnv) (b : BuildSpec) (core : List CoreState) : Prop where
  base : ∀ n seed, (env.base n seed).length = b.core.nPeriods ∧
    ∀ arr ∈ env.base n seed, ∀ row ∈ arr, row.length = n
  sizes : ∀ d ∈ b.denseIndices, ∀ s ∈ core, (b.choiceSetAt d s).count true ∈ env.sizes

/-- `robust_cholesky` keeps the shape of a matrix. -/
def ProcessEnv.KeepsShape (env : ProcessEnv) : Prop :=
  ∀ (n : Nat) (rows : List (List ℝ)), rows.length = n → (∀ r ∈ rows, r.length = n) →
    (env.robustCholesky rows).length = n ∧ ∀ r ∈ env.robustCholesky rows, r.length = n

end Respy
