import Verif.Model.Text
import Verif.Model.Dict
import Mathlib.Data.List.Sort
import Mathlib.Data.List.Dedup
import Mathlib.Data.List.Lex
import Mathlib.Order.Lex
import Mathlib.Data.Char

/-!
# Choices

Model of `_parse_choices` and the functions it calls (`respy/pre_processing/model_processing.py:245-272,
433-476`). The index of `params` is a list of pairs of category and name.
-/

namespace Respy

/-- Python's order of strings (`respy/pre_processing/model_processing.py:262-266`). -/
abbrev strLe (a b : Str) : Prop := a ≤ b

/-- `sorted(set(l))` (`respy/pre_processing/model_processing.py:262-266, 456, 471-476`). -/
def sortedSet (l : List Str) : List Str := l.dedup.insertionSort strLe

/-- `_infer_choices_with_prefix` (`respy/pre_processing/model_processing.py:459-476`); `pre` is `"wage_"` or `"nonpec_"`. -/
def inferChoicesWithPrefix (params : List (Str × Str)) (pre : Str) : List Str :=
  sortedSet ((params.map Prod.fst).filterMap (extract pre isNameChar))

/-- `_infer_choices_with_experience` (`respy/pre_processing/model_processing.py:433-456`). -/
def inferChoicesWithExperience (params : List (Str × Str)) (covariates : Dict Str Str) : List Str :=
  let parameters := params.map Prod.snd
  let used := covariates.filter fun cf => cf.1 ∈ parameters
  sortedSet (parameters.flatMap (findAll "exp_".toList isNameChar) ++
    used.flatMap fun cf => findAll "exp_".toList isNameChar cf.2)

/-- The lists of choices in `optim_paras` (`respy/pre_processing/model_processing.py:262-270`). -/
structure Choices where
  wWage : List Str
  wExp : List Str
  woExp : List Str
  /-- The keys of the dictionary `choices`, in order. -/
  choices : List Str
  deriving DecidableEq

/-- `_parse_choices` (`respy/pre_processing/model_processing.py:245-272`). Sets are sorted lists without repetitions. -/
def parseChoices (params : List (Str × Str)) (covariates : Dict Str Str) : Choices :=
  let wExpFuzzy := inferChoicesWithExperience params covariates
  let wWage := inferChoicesWithPrefix params "wage_".toList
  let wNonpec := inferChoicesWithPrefix params "nonpec_".toList
  let wExpWoWage := (wNonpec.filter fun c => c ∈ wExpFuzzy).filter fun c => c ∉ wWage
  let woExpWoWage := wNonpec.filter fun c => c ∉ wExpFuzzy
  let wExp := sortedSet wWage ++ sortedSet wExpWoWage
  let woExp := sortedSet woExpWoWage
  { wWage := sortedSet wWage
    wExp := wExp
    woExp := woExp
    choices := (Dict.ofItems ((wExp ++ woExp).map fun c => (c, ()))).keys }

end Respy
