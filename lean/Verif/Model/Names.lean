import Verif.Model.Choices
import Verif.Model.Processing
import Mathlib.Data.Sum.Order

/-!
# Names and levels of observables and exogenous processes

Model of `_parse_observable_or_exog_process_names`, `_parse_exogenous_processes` and `_parse_observables`
(`respy/pre_processing/model_processing.py:185-242, 662-722`).
-/

namespace Respy

/-- `os.path.commonprefix([a, b])` (`respy/pre_processing/model_processing.py:700-702`). -/
def commonPrefix : Str → Str → Str
  | a :: as, b :: bs => if a = b then a :: commonPrefix as bs else []
  | _, _ => []

/-- `s.rsplit("_", n=1)[0]` (`respy/pre_processing/model_processing.py:696-697`): everything before the last
underscore, or everything if there is none. -/
def beforeLastUnderscore (s : Str) : Str :=
  match s.reverse.dropWhile (fun c => c ≠ '_') with
  | [] => s
  | _ :: rest => rest.reverse

/-- `itertools.combinations(l, 2)` (`respy/pre_processing/model_processing.py:701`). -/
def combinations2 {α : Type _} : List α → List (α × α)
  | [] => []
  | x :: xs => xs.map (fun y => (x, y)) ++ combinations2 xs

/-- `prefix.rstrip("_")` (`respy/pre_processing/model_processing.py:704`). -/
def rstripUnderscore (s : Str) : Str := (s.reverse.dropWhile (fun c => c = '_')).reverse

/-- `categories` in `_parse_observable_or_exog_process_names` (`respy/pre_processing/model_processing.py:688-698`):
the categories which begin with the keyword, without the keyword and without the last word. -/
def nameCategories (keyword : Str) (categories : List Str) : List Str :=
  let pre := keyword ++ ['_']
  (categories.filter fun c => pre.isPrefixOf c).map fun c => beforeLastUnderscore (c.drop pre.length)

/-- The names in `_parse_observable_or_exog_process_names` before the check
(`respy/pre_processing/model_processing.py:700-708`); sets are lists without repetitions. -/
def inferredNames (cats : List Str) : List Str :=
  let prefixes := ((((combinations2 cats).map fun p => commonPrefix p.1 p.2).filter fun p => p ≠ []).map
    rstripUnderscore).dedup
  let substrings := prefixes.filter fun a => prefixes.any fun b => a ≠ b ∧ a <:+: b
  sortedSet (prefixes.filter fun a => a ∉ substrings)

/-- `_parse_observable_or_exog_process_names` (`respy/pre_processing/model_processing.py:662-722`);
`categories` is the level `category` of the index with repetitions, `none` is the `ValueError`. -/
def parseNames (keyword : Str) (categories : List Str) : Option (List Str) :=
  let cats := nameCategories keyword categories
  let names := inferredNames cats
  if (cats.filter fun c => names.any fun p => p.isPrefixOf c).length = cats.length then some names
  else none

/-- The characters matched by `[0-9a-z_]` (`respy/pre_processing/model_processing.py:192, 208`). -/
def isLevelChar (c : Char) : Bool := c.isDigit || c.isLower || c = '_'

/-- The levels of observables and processes: numbers or texts (`respy/pre_processing/model_processing.py:622-623`). -/
abbrev Level := Lex (Nat ⊕ Str)

/-- `pd.to_numeric(levels, errors="ignore")` (`respy/pre_processing/model_processing.py:622`): the levels are
numbers if all of them are. Simplification: numbers are texts of digits, `1e5` is a text. -/
def toLevels (texts : List Str) : List Level :=
  if texts.all fun t => t.all Char.isDigit then texts.map fun t => toLex (.inl (digitsValue t))
  else texts.map fun t => toLex (.inr t)

/-- The parameters of the observable or process `name` with their levels
(`respy/pre_processing/model_processing.py:191-195, 207-211, 605-623`); `keyword` is `observable` or
`exogenous_process`. -/
noncomputable def levelParams (keyword name : Str) (params : List ((Str × Str) × ℝ)) :
    List (GroupParam Level) :=
  let rows := params.filterMap fun p =>
    (extract (keyword ++ ['_'] ++ name ++ ['_']) isLevelChar p.1.1).map fun t => (t, p)
  List.zipWith (fun l r => ⟨l, r.2.1.2, r.2.2⟩) (toLevels (rows.map Prod.fst)) rows

/-- The parsed levels of all names (`respy/pre_processing/model_processing.py:185-198, 201-212`). A name
without parameters has the value `None`. -/
noncomputable def parseLevels (maxFloat : ℝ) (keyword : Str) (params : List ((Str × Str) × ℝ))
    (names : List Str) : Except ParseError (Dict Str (Option (Dict Level (List (Str × ℝ))))) :=
  names.mapM fun name => do
    let parsed ← parseGroup maxFloat (levelParams keyword name params)
    pure (name, parsed)

/-- The initial distribution of one exogenous process (`respy/pre_processing/model_processing.py:214-234`):
equal weights without parameters for an observable of this name, otherwise the parsed parameters, where
`none` is the `ValueError`. -/
noncomputable def initialLevels (process : Dict Level (List (Str × ℝ)))
    (observable : Option (Dict Level (List (Str × ℝ)))) : Option (Dict Level (List (Str × ℝ))) :=
  match observable with
  | none => some (process.map fun kv => (kv.1, [("constant".toList, 0)]))
  | some obs => if process.all fun kv => obs.any fun ko => ko.1 = kv.1 then some obs else none

/-- The code of a level: its position among the levels (`range(len(levels))`, `enumerate(levels)`)
(`respy/state_space.py:205, 669`, `respy/shared.py:339`, `respy/simulate.py:560`). -/
def levelCode {α : Type _} (levels : Dict Level α) (l : Level) : Option Nat :=
  (levels.map Prod.fst).findIdx? fun k => k = l

end Respy
