import Verif.Model.Dict
import Verif.Model.Text
import Mathlib.Data.List.Infix

/-!
# Labels and codes

Model of the conversion of labels in formulas and data, `respy/pre_processing/model_processing.py:787-888`,
`respy/shared.py:319-352` and `respy/simulate.py:545-563`.
-/

namespace Respy

/-! ### Formulas -/

/-- `s.replace(old, new)` for a non-empty text `old`. The fuel is larger than the number of characters
(`respy/pre_processing/model_processing.py:812-814`). -/
def replaceAllFuel (old new : Str) : Nat → Str → Str
  | 0, s => s
  | fuel + 1, s =>
    if old.isPrefixOf s then new ++ replaceAllFuel old new fuel (s.drop old.length)
    else
      match s with
      | [] => []
      | c :: cs => c :: replaceAllFuel old new fuel cs

/-- `s.replace(old, new)` (`respy/pre_processing/model_processing.py:812-814`). -/
def replaceAll (old new s : Str) : Str := replaceAllFuel old new (s.length + 1) s

/-- `f"{to}"` for an integer (`respy/pre_processing/model_processing.py:812-814`). -/
def codeText (n : Nat) : Str := Nat.toDigits 10 n

/-- `_replace_in_single_or_double_quotes` (`respy/pre_processing/model_processing.py:812-814`). -/
def replaceInQuotes (formula label code : Str) : Str :=
  replaceAll ('"' :: label ++ ['"']) code (replaceAll ('\'' :: label ++ ['\'']) code formula)

/-- The labels with their codes in the order in which they are replaced: choices, then the levels of the
observables which are texts (`respy/pre_processing/model_processing.py:826-832`). A level which is not a text is `none`. -/
def labelCodes (choices : List Str) (observables : List (Str × List (Option Str))) : List (Str × Nat) :=
  choices.zipIdx ++
    observables.flatMap fun o => o.2.zipIdx.filterMap fun li => li.1.map fun label => (label, li.2)

/-- `_replace_choices_and_observables_in_formula` (`respy/pre_processing/model_processing.py:817-834`). -/
def replaceLabels (choices : List Str) (observables : List (Str × List (Option Str))) (formula : Str) :
    Str :=
  (labelCodes choices observables).foldl (fun f lc => replaceInQuotes f lc.1 (codeText lc.2)) formula

/-- `text in filter_` (`respy/pre_processing/model_processing.py:837-888`). -/
def containsText (text s : Str) : Bool := decide (text <:+: s)

/-- The three kinds of choices in templates (`respy/pre_processing/model_processing.py:837-888`). -/
structure ChoiceKinds where
  wExp : List Str
  woExp : List Str
  wWage : List Str

/-- One filter in `_convert_labels_in_filters_to_codes` (`respy/pre_processing/model_processing.py:852-884`); `none` is the
`ValueError`. -/
def convertFilter (choices : List Str) (observables : List (Str × List (Option Str)))
    (kinds : ChoiceKinds) (filter : Str) : Option (List Str) :=
  let expand (template : Str) (names : List Str) : List Str :=
    names.map fun choice => replaceLabels choices observables (replaceAll template choice filter)
  if ["{i}", "{j}", "{k}"].any fun t => containsText t.toList filter then none
  else if containsText "{choices_w_exp}".toList filter then
    some (expand "{choices_w_exp}".toList kinds.wExp)
  else if containsText "{choices_wo_exp}".toList filter then
    some (expand "{choices_wo_exp}".toList kinds.woExp)
  else if containsText "{choices_w_wage}".toList filter then
    some (expand "{choices_w_wage}".toList kinds.wWage)
  else some [replaceLabels choices observables filter]

/-- `_convert_labels_in_filters_to_codes` (`respy/pre_processing/model_processing.py:837-888`). -/
def convertFilters (choices : List Str) (observables : List (Str × List (Option Str)))
    (kinds : ChoiceKinds) (filters : List Str) : Option (List Str) :=
  (filters.mapM (convertFilter choices observables kinds)).map List.flatten

/-! ### Names of columns -/

/-- `s.title()`: the first letter of each run of letters is upper-case, the others are lower-case. The flag
tells whether the previous character is a letter. Characters outside ASCII are not modelled
(`respy/shared.py:352`). -/
def titleFrom : Bool → Str → Str
  | _, [] => []
  | prev, c :: cs =>
    (if c.isAlpha then (if prev then c.toLower else c.toUpper) else c) :: titleFrom c.isAlpha cs

/-- `rename_labels_to_internal` (`shared.py:345-347`). -/
def renameToInternal (x : Str) : Str :=
  (replaceAll "Experience".toList "exp".toList x).map Char.toLower

/-- `rename_labels_from_internal` (`shared.py:350-352`). -/
def renameFromInternal (x : Str) : Str :=
  titleFrom false (replaceAll "exp".toList "Experience".toList x)

/-! ### Data -/

/-- A value in a column of labels: a text or an integer. Other levels and Python's equalities between
booleans, integers and floats are not modelled (`respy/shared.py:319-342`). -/
inductive Label
  | text (s : Str)
  | int (n : Int)
deriving DecidableEq, Repr

/-- `.astype(np.uint8)`: integers are taken modulo 256, texts raise an error (`respy/shared.py:329, 334, 340`). -/
def toUint8 : Label → Option Nat
  | .text _ => none
  | .int n => some (n % 256).toNat

/-- `.replace(codes)` for one value (`respy/shared.py:329, 334, 340`). -/
def replaceValue (codes : Dict Label Nat) (x : Label) : Label :=
  ((codes.get? x).map fun (i : Nat) => Label.int i).getD x

/-- `column.replace({label: i for i, label in enumerate(labels)}).astype(np.uint8)` (`shared.py:326-340`),
used for choices, lagged choices and observables. -/
def toCodes (labels : List Label) (column : List Label) : Option (List Nat) :=
  column.mapM fun x => toUint8 (replaceValue (Dict.ofItems labels.zipIdx) x)

/-- The labels of choices (`simulate.py:547-557`): codes which are no categories become missing values. -/
def choiceLabels (labels : List Label) (codes : List Nat) : List (Option Label) :=
  codes.map fun c => labels[c]?

/-- The labels of observables (`simulate.py:559-561`): codes without a label are kept. -/
def observableLabels (labels : List Label) (codes : List Nat) : List Label :=
  codes.map fun (c : Nat) => (labels[c]?).getD (.int c)

end Respy
